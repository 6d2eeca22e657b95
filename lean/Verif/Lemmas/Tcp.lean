import Verif.Lemmas.Stream
import Verif.Model.Tcp
import Verif.Spec.Tcp

/-! Lemmas about TCP connections: a `bufio.Reader` behaves like a reader of blocks. -/

namespace Verif.Lemmas.Tcp
open Verif Model Spec Lemmas

/-! ## Simulation of readers -/

/-- Outcomes of decodings from two readers. -/
def RSim {σ τ α : Type} (R : σ → τ → Prop) (E : Err → Err → Prop) : Res (σ × α) → Res (τ × α) → Prop
  | .ok (s, a), .ok (t, b) => R s t ∧ a = b
  | .err e, .err e' => E e e'
  | .panic, .panic => True
  | _, _ => False

theorem RSim.bind {σ τ α β : Type} {R : σ → τ → Prop} {E : Err → Err → Prop}
    {x : Res (σ × α)} {y : Res (τ × α)} {f : σ × α → Res (σ × β)} {g : τ × α → Res (τ × β)}
    (h : RSim R E x y) (hf : ∀ s t a, R s t → RSim R E (f (s, a)) (g (t, a))) :
    RSim R E (x >>= f) (y >>= g) := by
  match x, y, h with
  | .ok (s, a), .ok (t, b), ⟨h1, h2⟩ => subst h2; exact hf s t a h1
  | .err e, .err e', h => exact h
  | .panic, .panic, _ => exact trivial

theorem RSim.bind_pure {σ τ α β : Type} {R : σ → τ → Prop} {E : Err → Err → Prop} (hE : ∀ e, E e e)
    (x : Res α) {f : α → Res (σ × β)} {g : α → Res (τ × β)} (hf : ∀ a, RSim R E (f a) (g a)) :
    RSim R E (x >>= f) (x >>= g) := by
  match x with
  | .ok a => exact hf a
  | .err e => exact hE e
  | .panic => exact trivial

/-- One `Read` of at most `lim` bytes is simulated. -/
def ReadSim {σ τ : Type} (r : Reader σ) (q : Reader τ) (lim : Nat) (R : σ → τ → Prop)
    (E : Err → Err → Prop) : Prop :=
  ∀ s t n, n ≤ lim → R s t →
    (∃ s' t' bs, r.read s n = (s', bs, none) ∧ q.read t n = (t', bs, none) ∧ R s' t') ∨
    (∃ s' t' bs bs' e e', r.read s n = (s', bs, some e) ∧ q.read t n = (t', bs', some e') ∧ E e e')

theorem readFull_sim {σ τ : Type} {r : Reader σ} {q : Reader τ} {lim : Nat} {R : σ → τ → Prop}
    {E : Err → Err → Prop} (hE : ∀ e, E e e) (h : ReadSim r q lim R E) {s : σ} {t : τ} {n : Nat}
    (hn : n ≤ lim) (hR : R s t) : RSim R E (Message.readFull r s n) (Message.readFull q t n) := by
  unfold Message.readFull
  rcases h s t n hn hR with ⟨s', t', bs, h1, h2, h3⟩ | ⟨s', t', bs, bs', e, e', h1, h2, h3⟩
  · rw [h1, h2]
    dsimp only
    split
    · exact hE _
    · exact ⟨h3, rfl⟩
  · rw [h1, h2]
    exact h3

theorem step_sim {σ τ : Type} {r : Reader σ} {q : Reader τ} {lim : Nat} {R : σ → τ → Prop}
    {E : Err → Err → Prop} (hE : ∀ e, E e e) (hl : 255 ≤ lim) (h : ReadSim r q lim R E) (i : Nat)
    {s : σ} {t : τ} (hR : R s t) (ep : List (Option PProp)) :
    RSim R E (Message.parseFormat1PropertyReaderStep r i (s, ep))
      (Message.parseFormat1PropertyReaderStep q i (t, ep)) := by
  unfold Message.parseFormat1PropertyReaderStep
  dsimp only
  apply RSim.bind_pure hE
  intro p
  cases p with
  | none => exact ⟨hR, rfl⟩
  | some p =>
    dsimp only
    apply RSim.bind (readFull_sim hE h (by simp [format1PropertyHeaderSize]; omega) hR)
    intro s t hdr hR
    dsimp only
    apply RSim.bind_pure hE
    intro c
    apply RSim.bind_pure hE
    intro l
    apply RSim.bind (readFull_sim hE h (by have := l.isLt; omega) hR)
    intro s t dat hR
    exact ⟨hR, rfl⟩

theorem loop_sim {σ τ : Type} {r : Reader σ} {q : Reader τ} {lim : Nat} {R : σ → τ → Prop}
    {E : Err → Err → Prop} (hE : ∀ e, E e e) (hl : 255 ≤ lim) (h : ReadSim r q lim R E) (cnt : Nat) :
    ∀ (i : Nat) (s : σ) (t : τ) (ep : List (Option PProp)), R s t →
    RSim R E (forFrom (Message.parseFormat1PropertyReaderStep r) cnt i (s, ep))
      (forFrom (Message.parseFormat1PropertyReaderStep q) cnt i (t, ep)) := by
  induction cnt with
  | zero => intro i s t ep hR; exact ⟨hR, rfl⟩
  | succ c ih =>
    intro i s t ep hR
    simp only [forFrom]
    apply RSim.bind (step_sim hE hl h i hR ep)
    intro s t ep hR
    exact ih _ _ _ _ hR

theorem decode_sim {σ τ : Type} {r : Reader σ} {q : Reader τ} {lim : Nat} {R : σ → τ → Prop}
    {E : Err → Err → Prop} (hE : ∀ e, E e e) (hl : 255 ≤ lim) (h : ReadSim r q lim R E) {s : σ} {t : τ}
    (hR : R s t) : RSim R E (Message.newWithReader r s) (Message.newWithReader q t) := by
  unfold Message.newWithReader Message.parseReader
  apply RSim.bind (readFull_sim hE h (by simp [frameHeaderSize]; omega) hR)
  intro s t b hR
  dsimp only
  apply RSim.bind_pure hE
  intro m
  apply RSim.bind (readFull_sim hE h (by simp [format1HeaderSize]; omega) hR)
  intro s t b hR
  dsimp only
  apply RSim.bind_pure hE
  intro m
  unfold Message.parseFormat1PropertyReader
  apply RSim.bind (loop_sim hE hl h _ 0 s t m.ep hR)
  intro s t ep hR
  exact ⟨hR, rfl⟩

/-! ## The buffered reader -/

/-- The portions that are not empty. -/
def solid (s : List Bytes) : List Bytes := s.filter (· ≠ [])

theorem solid_append (a b : List Bytes) : solid (a ++ b) = solid a ++ solid b := by
  simp [solid]

theorem segNorm_solid (s : List Bytes) :
    (segNorm s = [] ∧ solid s = []) ∨
    ∃ c cs, segNorm s = c :: cs ∧ c ≠ [] ∧ solid s = c :: solid cs := by
  induction s with
  | nil => left; exact ⟨rfl, rfl⟩
  | cons c s ih =>
    cases c with
    | nil => simpa [segNorm, solid] using ih
    | cons x c => right; exact ⟨x :: c, s, rfl, by simp, by simp [solid]⟩

theorem blocks_nil (k : Nat) : blocks k [] = [[]] := by
  unfold blocks; simp

theorem solid_blocks (k : Nat) (hk : 0 < k) (b : Bytes) (hb : b ≠ []) :
    solid (blocks k b) = b.take k :: solid (blocks k (b.drop k)) := by
  rw [blocks]
  by_cases h : b.length ≤ k
  · rw [if_pos (Or.inl h), List.drop_eq_nil_of_le h, List.take_of_length_le h, blocks_nil]
    simp [solid, hb]
  · rw [if_neg (by omega)]
    have : b.take k ≠ [] := by simp [hb]; omega
    simp [solid, this]

/-- The buffered reader has in store what the reader of blocks has. -/
def Stored (fin : Err) (s : List Bytes) (b : BufReader) : Prop :=
  b.err = none ∧ b.conn.fin = fin ∧ solid s = solid (b.buf :: portions bufSize b.conn.segs)

/-- The end of file of the reader of blocks is the final error of the connection. -/
def Ends (fin : Err) (e e' : Err) : Prop := e = e' ∨ (e = eof ∧ e' = fin)

theorem readSegs_spec (fin : Err) (segs : List Bytes) :
    (solid (portions bufSize segs) = [] ∧ Conn.readSegs fin bufSize segs = ([], [], some fin)) ∨
    ∃ seg rest, seg ≠ [] ∧ Conn.readSegs fin bufSize segs =
        (seg.drop bufSize :: rest, seg.take bufSize, none) ∧
      solid (portions bufSize segs) =
        seg.take bufSize :: solid (portions bufSize (seg.drop bufSize :: rest)) := by
  induction segs with
  | nil => left; exact ⟨rfl, rfl⟩
  | cons seg segs ih =>
    cases seg with
    | nil =>
      have : solid (portions bufSize ([] :: segs)) = solid (portions bufSize segs) := by
        simp [portions, blocks_nil, solid]
      rw [this]
      exact ih
    | cons x seg =>
      right
      refine ⟨x :: seg, segs, by simp, rfl, ?_⟩
      simp only [portions, List.flatMap_cons, solid_append]
      rw [solid_blocks bufSize (by decide) _ (by simp)]
      simp

theorem read_sim (fin : Err) : ReadSim segReader bufReader 4095 (Stored fin) (Ends fin) := by
  intro s b n hn ⟨he, hf, hs⟩
  simp only [segReader, bufReader, segRead, BufReader.read]
  by_cases h0 : n = 0
  · left
    rw [if_pos h0, if_pos h0]
    by_cases hb : b.buf ≠ []
    · exact ⟨s, b, [], rfl, by rw [if_pos hb], he, hf, hs⟩
    · exact ⟨s, { b with err := none }, [], rfl, by rw [if_neg hb, he], rfl, hf, hs⟩
  · rw [if_neg h0, if_neg h0]
    by_cases hb : b.buf ≠ []
    · left
      rw [if_pos hb]
      have hs' : solid s = b.buf :: solid (portions bufSize b.conn.segs) := by
        rw [hs]; simp [solid, hb]
      rcases segNorm_solid s with ⟨_, h⟩ | ⟨c, cs, h1, h2, h3⟩
      · rw [h] at hs'; cases hs'
      · rw [h1]
        rw [h3, List.cons.injEq] at hs'
        refine ⟨c.drop n :: cs, { b with buf := b.buf.drop n }, c.take n, rfl, by rw [hs'.1], he, hf, ?_⟩
        dsimp only
        rw [← List.singleton_append, solid_append, hs'.2, ← solid_append, List.singleton_append, hs'.1]
    · rw [if_neg hb]
      have hb : b.buf = [] := by simpa using hb
      rw [he]
      dsimp only
      rw [if_neg (by simp [bufSize]; omega)]
      have hs' : solid s = solid (portions bufSize b.conn.segs) := by
        rw [hs, hb]; simp [solid]
      rcases readSegs_spec b.conn.fin b.conn.segs with ⟨h1, h2⟩ | ⟨seg, rest, h1, h2, h3⟩
      · right
        have h2 : b.conn.read bufSize = ({ b.conn with segs := [] }, [], some b.conn.fin) := by
          rw [Conn.read, h2]
        simp only [h2, if_true]
        rcases segNorm_solid s with ⟨h, _⟩ | ⟨c, cs, _, _, h⟩
        · rw [h]
          exact ⟨_, _, _, _, _, _, rfl, rfl, Or.inr ⟨rfl, hf⟩⟩
        · rw [h, h1] at hs'; cases hs'
      · left
        have hne : seg.take bufSize ≠ [] := by simp [h1, bufSize]
        have h2 : b.conn.read bufSize =
            ({ b.conn with segs := seg.drop bufSize :: rest }, seg.take bufSize, none) := by
          rw [Conn.read, h2]
        simp only [h2, if_neg hne]
        rcases segNorm_solid s with ⟨_, h⟩ | ⟨c, cs, h4, _, h5⟩
        · rw [h, h3] at hs'; cases hs'
        · rw [h4]
          rw [h5, h3, List.cons.injEq] at hs'
          refine ⟨c.drop n :: cs, ⟨(seg.take bufSize).drop n, none,
            { b.conn with segs := seg.drop bufSize :: rest }⟩, c.take n, rfl, by rw [hs'.1], rfl, hf, ?_⟩
          dsimp only
          rw [← List.singleton_append, solid_append, hs'.2, ← solid_append, List.singleton_append, hs'.1]

/-- Reading a message from a connection is decoding it from the blocks. -/
theorem readMessage_blocks (c : Conn) :
    match Message.newWithReader segReader (portions bufSize c.segs) with
    | .ok (_, m) => c.readMessage = .ok { m with src := c.peer }
    | .err e => ∃ e', c.readMessage = .err e' ∧ Ends c.fin e e'
    | .panic => c.readMessage = .panic := by
  have h := decode_sim (R := Stored c.fin) (E := Ends c.fin) (fun e => Or.inl rfl) (by omega) (read_sim c.fin)
    (s := portions bufSize c.segs) (t := ⟨[], none, c⟩) ⟨rfl, rfl, by simp [solid]⟩
  unfold Conn.readMessage
  match Message.newWithReader segReader (portions bufSize c.segs),
    Message.newWithReader bufReader ⟨[], none, c⟩, h with
  | .ok (s, m), .ok (t, m'), ⟨_, h2⟩ => subst h2; rfl
  | .err e, .err e', h => exact ⟨e', rfl, h⟩
  | .panic, .panic, _ => rfl

theorem flatten_blocks (k : Nat) (b : Bytes) : (blocks k b).flatten = b := by
  fun_induction blocks k b with
  | case1 b h => simp
  | case2 b h ih => simp [ih]

theorem flatten_portions (k : Nat) (segs : List Bytes) : (portions k segs).flatten = segs.flatten := by
  induction segs with
  | nil => rfl
  | cons s segs ih =>
    simp only [portions, List.flatMap_cons, List.flatten_append, List.flatten_cons] at ih ⊢
    rw [ih, flatten_blocks]

theorem aligned_false (n : Nat) (post : List Nat) :
    ∀ (pre : List Nat) (S : Nat) (ss : List Nat), pre.sum < S → S < pre.sum + n →
    aligned (pre ++ n :: post) (S :: ss) = false := by
  intro pre
  induction pre with
  | nil =>
    intro S ss h1 h2
    match n, S with
    | 0, S => simp at h2
    | n + 1, 0 => simp at h1
    | n + 1, S + 1 =>
      simp at h2
      simp [aligned]
      omega
  | cons p pre ih =>
    intro S ss h1 h2
    simp only [List.sum_cons] at h1 h2
    match p, S with
    | 0, S => simp only [List.cons_append, aligned]; exact ih S ss (by omega) (by omega)
    | p + 1, 0 => omega
    | p + 1, S + 1 =>
      simp only [List.cons_append, aligned]
      rw [if_pos (by omega)]
      exact ih _ _ (by omega) (by omega)

/-! ## Errors -/

/-- The errors of an outcome have a property. -/
def ErrP {α : Type} (P : Err → Prop) (x : Res α) : Prop := ∀ e, x = .err e → P e

theorem ErrP.bind {α β : Type} {P : Err → Prop} {x : Res α} {f : α → Res β} (h : ErrP P x)
    (hf : ∀ a, ErrP P (f a)) : ErrP P (x >>= f) := by
  intro e he
  cases x with
  | ok a => exact hf a e he
  | err e' => exact h e (by cases he; rfl)
  | panic => cases he

theorem ErrP.ok {α : Type} {P : Err → Prop} (a : α) : ErrP P (.ok a) := by intro e h; cases h

theorem ErrP.invalid {α : Type} {P : Err → Prop} (hP : P .invalid) : ErrP (α := α) P (.err .invalid) := by
  intro e h; cases h; exact hP

theorem errP_rd {α : Type} {P : Err → Prop} (b : List α) (i : Nat) : ErrP P (rd b i) := by
  intro e h; unfold rd at h; split at h <;> cases h

theorem errP_wr {α : Type} {P : Err → Prop} (b : List α) (i : Nat) (x : α) : ErrP P (wr b i x) := by
  intro e h; unfold wr at h; split at h <;> cases h

theorem errP_decode {σ : Type} {r : Reader σ} {P : Err → Prop}
    (hr : ∀ s n s' bs e, r.read s n = (s', bs, some e) → P e) (hP : P .invalid) (s : σ) :
    ErrP P (Message.newWithReader r s) := by
  have hfull : ∀ s n, ErrP P (Message.readFull r s n) := by
    intro s n e h
    unfold Message.readFull at h
    split at h
    · split at h <;> cases h; exact hP
    · rename_i s' bs e' heq
      cases h
      exact hr _ _ _ _ _ heq
  have hloop : ∀ cnt i st, ErrP P (forFrom (Message.parseFormat1PropertyReaderStep r) cnt i st) := by
    intro cnt
    induction cnt with
    | zero => intro i st; exact ErrP.ok _
    | succ c ih =>
      intro i st
      simp only [forFrom]
      refine ErrP.bind ?_ (fun st => ih _ st)
      unfold Message.parseFormat1PropertyReaderStep
      refine ErrP.bind ?_ ?_
      · intro e h
        unfold Message.propAt at h
        split at h
        · cases h
        · split at h
          · cases h
          · exact errP_rd _ _ e h
      · intro p
        cases p with
        | none => exact ErrP.ok _
        | some p =>
          exact ErrP.bind (hfull _ _) (fun x => ErrP.bind (errP_rd _ _) (fun _ =>
            ErrP.bind (errP_rd _ _) (fun _ => ErrP.bind (hfull _ _) (fun _ => ErrP.ok _))))
  unfold Message.newWithReader Message.parseReader
  refine ErrP.bind (hfull _ _) (fun x => ErrP.bind ?_ (fun m => ErrP.bind (hfull _ _) (fun y =>
    ErrP.bind ?_ (fun m => ErrP.bind (hloop _ _ _) (fun _ => ErrP.ok _)))))
  · unfold Message.parseFrameHeaderBytes
    repeat' first
      | exact ErrP.invalid hP
      | exact ErrP.ok _
      | exact errP_rd _ _
      | exact errP_wr _ _ _
      | (refine ErrP.bind ?_ (fun _ => ?_))
      | split
  · unfold Message.parseFormat1HeaderBytes
    repeat' first
      | exact ErrP.invalid hP
      | exact ErrP.ok _
      | exact errP_rd _ _
      | exact errP_wr _ _ _
      | (refine ErrP.bind ?_ (fun _ => ?_))
      | split

/-- The errors of `ReadMessage`: a malformed message, or the end or
final error of the connection. -/
theorem readMessage_err {c : Conn} {e : Err} (h : c.readMessage = .err e) :
    (e = .invalid ∨ e = eof) ∨ e = c.fin := by
  have hb := readMessage_blocks c
  rw [h] at hb
  have hseg : ErrP (fun e => e = .invalid ∨ e = eof)
      (Message.newWithReader segReader (portions bufSize c.segs)) := by
    refine errP_decode ?_ (Or.inl rfl) _
    intro s n s' bs e h
    simp only [segReader, segRead] at h
    split at h
    · cases h
    · split at h
      · cases h; exact Or.inr rfl
      · cases h
  match hr : Message.newWithReader segReader (portions bufSize c.segs) with
  | .ok x => rw [hr] at hb; cases hb
  | .panic => rw [hr] at hb; cases hb
  | .err e0 =>
    have h0 := hseg e0 hr
    rw [hr] at hb
    obtain ⟨e', he, hE⟩ := hb
    cases he
    rcases hE with rfl | ⟨_, rfl⟩
    · exact Or.inl h0
    · exact Or.inr rfl

end Verif.Lemmas.Tcp
