import Verif.Props.Tcp

/-! # C81: which connections of a silent peer are left open -/

namespace Verif.Props
open Verif Model Spec Lemmas Lemmas.Tcp

/-- A reader on a connection of a peer that has sent `buf` at once and then falls silent. -/
def silent (peer : Addr) (buf : Bytes) : BufReader := ⟨buf, none, ⟨[[]], stalled, peer⟩⟩

theorem silent_full (peer : Addr) (d rest : Bytes) :
    Message.readFull bufReader (silent peer (d ++ rest)) d.length = .ok (silent peer rest, d) := by
  unfold Message.readFull bufReader silent BufReader.read
  dsimp only
  by_cases h0 : d.length = 0
  · obtain rfl := List.length_eq_zero_iff.mp h0
    by_cases hr : rest = []
    · subst hr; rfl
    · simp [hr]
  · have hne : d ++ rest ≠ [] := by intro h; exact h0 (by rw [(List.append_eq_nil_iff.mp h).1]; rfl)
    rw [if_neg h0, if_pos hne]
    dsimp only
    rw [List.take_left, List.drop_left, if_neg (Nat.lt_irrefl _)]

theorem silent_short (peer : Addr) (buf : Bytes) (k : Nat) (hb : buf ≠ []) (hk : buf.length < k) :
    Message.readFull bufReader (silent peer buf) k = .err .invalid := by
  unfold Message.readFull bufReader silent BufReader.read
  dsimp only
  rw [if_neg (by omega), if_pos hb]
  dsimp only
  rw [List.take_of_length_le (by omega), if_pos hk]

theorem silent_stalls (peer : Addr) (k : Nat) (hk : 0 < k) (hl : k < 4096) :
    Message.readFull bufReader (silent peer []) k = .err stalled := by
  unfold Message.readFull bufReader silent BufReader.read
  dsimp only
  rw [if_neg (by omega), if_neg (by simp), if_neg (by unfold bufSize; omega)]
  rfl

/-- The first `n` bytes of a sequence of pieces are whole pieces. -/
def Whole (ps : List Nat) (n : Nat) : Prop := ∃ pre post, ps = pre ++ post ∧ n = pre.sum

theorem whole_zero (ps : List Nat) : Whole ps 0 := ⟨[], ps, rfl, rfl⟩

theorem whole_cons (p : Nat) (ps : List Nat) (n : Nat) : Whole (p :: ps) (p + n) ↔ Whole ps n := by
  constructor
  · rintro ⟨pre, post, h1, h2⟩
    cases pre with
    | nil => simp at h2; obtain rfl : n = 0 := by omega
             exact whole_zero _
    | cons q pre =>
      simp only [List.cons_append, List.cons.injEq] at h1
      obtain ⟨rfl, h1⟩ := h1
      exact ⟨pre, post, h1, by simp at h2; omega⟩
  · rintro ⟨pre, post, rfl, rfl⟩
    exact ⟨p :: pre, post, rfl, by simp⟩

theorem whole_inside (p : Nat) (ps : List Nat) (n : Nat) (h0 : 0 < n) (h1 : n < p) : ¬ Whole (p :: ps) n := by
  rintro ⟨pre, post, h, rfl⟩
  cases pre with
  | nil => simp at h0
  | cons q pre =>
    simp only [List.cons_append, List.cons.injEq] at h
    obtain ⟨rfl, -⟩ := h
    simp at h1
    omega

/-- What reading ends with: waiting after whole pieces, a refusal otherwise. -/
def EndsAs {α : Type} (ps : List Nat) (n : Nat) (r : Res α) : Prop :=
  (Whole ps n → r = .err stalled) ∧ (¬ Whole ps n → r = .err .invalid)

theorem silent_loop (peer : Addr) (ps : List WireProp) : ∀ (done : List (Option PProp)) (n : Nat),
    (∀ p ∈ ps, p.edt.length < 256) → n < (ps.flatMap WireProp.encode).length →
    EndsAs (propPieces ps) n
      (forFrom (Message.parseFormat1PropertyReaderStep bufReader) ps.length done.length
        (silent peer ((ps.flatMap WireProp.encode).take n), done ++ List.replicate ps.length (some PProp.new))) := by
  induction ps with
  | nil => intro done n _ h; simp at h
  | cons p ps ih =>
    intro done n hl hn
    have hp := hl p (by simp)
    have hget : Message.propAt (done ++ List.replicate (ps.length + 1) (some PProp.new)) done.length
        = Res.ok (some PProp.new) := by
      rw [propAt_nat _ _ (by simp)]
      simp
    have hpieces : propPieces (p :: ps) = 2 :: p.edt.length :: propPieces ps := by simp [propPieces]
    have e1 : (p :: ps).flatMap WireProp.encode =
        [p.epc, BitVec.ofNat 8 p.edt.length] ++ (p.edt ++ ps.flatMap WireProp.encode) := by
      simp [WireProp.encode]
    rw [hpieces]
    simp only [List.length_cons, forFrom, Message.parseFormat1PropertyReaderStep]
    rw [hget]
    simp only [Res.ok_bind]
    by_cases h2 : n < 2
    · by_cases h0 : n = 0
      · subst h0
        rw [List.take_zero, silent_stalls peer _ (by decide) (by decide)]
        exact ⟨fun _ => rfl, fun h => absurd (whole_zero _) h⟩
      · obtain rfl : n = 1 := by omega
        rw [e1, silent_short peer _ _ (by simp) (by simp [format1PropertyHeaderSize])]
        exact ⟨fun h => absurd h (whole_inside _ _ _ (by omega) (by omega)), fun _ => rfl⟩
    · obtain ⟨k, rfl⟩ : ∃ k, n = 2 + k := ⟨n - 2, by omega⟩
      have e2 : ([p.epc, BitVec.ofNat 8 p.edt.length] ++ (p.edt ++ ps.flatMap WireProp.encode)).take (2 + k)
          = [p.epc, BitVec.ofNat 8 p.edt.length] ++ (p.edt ++ ps.flatMap WireProp.encode).take k := by
        rw [List.take_append, List.take_of_length_le (by simp)]
        congr 2
        simp
      rw [e1, e2, show format1PropertyHeaderSize = [p.epc, BitVec.ofNat 8 p.edt.length].length from rfl, silent_full]
      simp only [Res.ok_bind, rd, List.getElem?_cons_zero, List.getElem?_cons_succ]
      have hlen : (BitVec.ofNat 8 p.edt.length).toNat = p.edt.length := by simp; omega
      rw [hlen]
      unfold EndsAs
      rw [whole_cons]
      by_cases hk : k < p.edt.length
      · by_cases hk0 : k = 0
        · subst hk0
          rw [List.take_zero, silent_stalls peer _ (by omega) (by omega)]
          exact ⟨fun _ => rfl, fun h => absurd (whole_zero _) h⟩
        · have e3 : (p.edt ++ ps.flatMap WireProp.encode).take k = p.edt.take k :=
            List.take_append_of_le_length (by omega)
          rw [e3, silent_short peer _ _ ?_ (by rw [List.length_take]; omega)]
          · exact ⟨fun h => absurd h (whole_inside _ _ _ (by omega) (by omega)), fun _ => rfl⟩
          · intro h
            have := congrArg List.length h
            rw [List.length_take, List.length_nil] at this
            omega
      · obtain ⟨j, rfl⟩ : ∃ j, k = p.edt.length + j := ⟨k - p.edt.length, by omega⟩
        have e3 : (p.edt ++ ps.flatMap WireProp.encode).take (p.edt.length + j)
            = p.edt ++ (ps.flatMap WireProp.encode).take j := by
          rw [List.take_append, List.take_of_length_le (by omega)]
          congr 2
          omega
        rw [e3, silent_full, whole_cons]
        simp only [Res.ok_bind]
        have hset : (done ++ List.replicate (ps.length + 1) (some PProp.new)).set done.length
            (some ((PProp.new.setCode p.epc).setData p.edt))
            = (done ++ [some ⟨p.epc, p.edt⟩]) ++ List.replicate ps.length (some PProp.new) := by
          simp [List.replicate_succ, PProp.setCode, PProp.setData, PProp.new]
        rw [hset, show done.length + 1 = (done ++ [some (⟨p.epc, p.edt⟩ : PProp)]).length by simp]
        refine ih _ j (fun q hq => hl q (by simp [hq])) ?_
        rw [e1] at hn
        simp only [List.length_append, List.length_cons, List.length_nil] at hn
        omega

/-- Reading from a peer that has sent the first `n` bytes of a frame. -/
theorem silent_read (peer : Addr) (f : Frame) (hv : f.Valid) (n : Nat) (hn : n < f.encode.length) :
    EndsAs (pieces f) n (Message.newWithReader bufReader (silent peer (f.encode.take n))) := by
  obtain ⟨ht, hs, hd, hl, hp⟩ := hv
  obtain ⟨t0, t1, e2⟩ : ∃ a b, beBytes 2 f.tid = [a, b] := ⟨_, _, rfl⟩
  obtain ⟨s0, s1, s2, es⟩ : ∃ a b c, beBytes 3 f.seoj = [a, b, c] := ⟨_, _, _, rfl⟩
  obtain ⟨d0, d1, d2, ed⟩ : ∃ a b c, beBytes 3 f.deoj = [a, b, c] := ⟨_, _, _, rfl⟩
  have hopc : (BitVec.ofNat 8 f.props.length).toNat = f.props.length := by simp; omega
  have henc : f.encode = [0x10, 0x81, t0, t1] ++ ([s0, s1, s2, d0, d1, d2,
      f.esv, BitVec.ofNat 8 f.props.length] ++ f.props.flatMap WireProp.encode) := by
    rw [Frame.encode, e2, es, ed]; simp
  rw [henc] at hn ⊢
  generalize hh : [s0, s1, s2, d0, d1, d2, f.esv, BitVec.ofNat 8 f.props.length] = hdr at hn ⊢
  have hhl : hdr.length = 8 := by rw [← hh]; rfl
  unfold Message.newWithReader Message.parseReader EndsAs pieces
  by_cases h4 : n < 4
  · by_cases h0 : n = 0
    · subst h0
      rw [List.take_zero, silent_stalls peer _ (by decide) (by decide)]
      exact ⟨fun _ => rfl, fun h => absurd (whole_zero _) h⟩
    · rw [List.take_append_of_le_length (by simp; omega), silent_short peer _ _ ?_
        (by rw [List.length_take]; simp [frameHeaderSize]; omega)]
      · exact ⟨fun h => absurd h (whole_inside _ _ _ (by omega) (by omega)), fun _ => rfl⟩
      · intro h
        have := congrArg List.length h
        rw [List.length_take] at this
        simp at this
        omega
  · obtain ⟨k, rfl⟩ : ∃ k, n = 4 + k := ⟨n - 4, by omega⟩
    rw [List.take_append, List.take_of_length_le (by simp),
      show 4 + k - [(0x10 : Byte), 0x81, t0, t1].length = k by simp,
      show frameHeaderSize = [(0x10 : Byte), 0x81, t0, t1].length from rfl, silent_full, Res.ok_bind]
    dsimp only
    rw [show Message.new.parseFrameHeaderBytes [0x10, 0x81, t0, t1]
      = .ok { Message.new with tid := [t0, t1] } from rfl, Res.ok_bind, whole_cons]
    by_cases h8 : k < 8
    · by_cases h0 : k = 0
      · subst h0
        rw [List.take_zero, silent_stalls peer _ (by decide) (by decide)]
        exact ⟨fun _ => rfl, fun h => absurd (whole_zero _) h⟩
      · rw [List.take_append_of_le_length (by omega), silent_short peer _ _ ?_
          (by rw [List.length_take, hhl]; simp [format1HeaderSize]; omega)]
        · exact ⟨fun h => absurd h (whole_inside _ _ _ (by omega) (by omega)), fun _ => rfl⟩
        · intro h
          have := congrArg List.length h
          rw [List.length_take, hhl] at this
          simp at this
          omega
    · obtain ⟨j, rfl⟩ : ∃ j, k = 8 + j := ⟨k - 8, by omega⟩
      rw [List.take_append, List.take_of_length_le (by omega), hhl, Nat.add_sub_cancel_left,
        show format1HeaderSize = hdr.length by rw [hhl]; rfl, silent_full, Res.ok_bind, whole_cons]
      dsimp only
      rw [← hh, format1Header_eq, Res.ok_bind]
      have := silent_loop peer f.props [] j hp (by
        simp only [List.length_append, List.length_cons, List.length_nil, hhl] at hn; omega)
      unfold Message.parseFormat1PropertyReader
      dsimp only
      rw [hopc, forRange]
      simp only [List.nil_append, List.length_nil] at this
      exact ⟨fun h => by rw [this.1 h]; rfl, fun h => by rw [this.2 h]; rfl⟩

theorem silent_first (c : Conn) (data : Bytes) (hl : data.length ≤ 4096) (hs : c.segs = [data])
    (hf : c.fin = stalled) :
    Message.newWithReader bufReader ⟨[], none, c⟩ = Message.newWithReader bufReader (silent c.peer data) := by
  obtain ⟨segs, fin, peer⟩ := c
  dsimp only at hs hf ⊢
  subst hs hf
  unfold Message.newWithReader Message.parseReader
  have : Message.readFull bufReader ⟨[], none, ⟨[data], stalled, peer⟩⟩ frameHeaderSize
      = Message.readFull bufReader (silent peer data) frameHeaderSize := by
    cases data with
    | nil => rfl
    | cons b bs =>
      have e1 : (b :: bs).take bufSize = b :: bs := List.take_of_length_le hl
      have e2 : (b :: bs).drop bufSize = [] := List.drop_eq_nil_iff.mpr hl
      have hc : Conn.read ⟨[b :: bs], stalled, peer⟩ bufSize = (⟨[[]], stalled, peer⟩, b :: bs, none) := by
        unfold Conn.read Conn.readSegs
        dsimp only
        rw [e1, e2]
      have hr : BufReader.read ⟨[], none, ⟨[b :: bs], stalled, peer⟩⟩ frameHeaderSize
          = BufReader.read (silent peer (b :: bs)) frameHeaderSize := by
        unfold BufReader.read
        rw [hc]
        rfl
      unfold Message.readFull bufReader
      dsimp only
      rw [hr]
  rw [this]

/-- C81, exactly which connections are left open, for a peer that sends some of a frame at once and then nothing:
those where what was sent ends between two pieces of the frame (4 bytes, 8 bytes, then 2 and PDC bytes for each
property). In every other case the connection is closed. Nothing is handled or written either way. -/
theorem C81_refuted_any (env : Env) (db : StdDB) (nd : Node) (f : Frame) (hv : f.Valid) (c : Conn) (n : Nat)
    (hn : n < f.encode.length) (hl : n ≤ 4096) (hs : c.segs = [f.encode.take n]) (hf : c.fin = stalled) :
    ∃ r, nd.onConnection env db c = .ok r ∧ r.handled = none ∧ r.written = [] ∧
      (r.closed = false ↔ ∃ pre post, pieces f = pre ++ post ∧ n = pre.sum) := by
  have h := silent_read c.peer f hv n hn
  rw [← silent_first c _ (by rw [List.length_take]; omega) hs hf] at h
  have he : ∀ e, Message.newWithReader bufReader ⟨[], none, c⟩ = .err e →
      nd.onConnection env db c = .ok ⟨none, [], decide (e ≠ stalled)⟩ := by
    intro e he
    unfold Node.onConnection Conn.readMessage
    rw [he]
    rfl
  by_cases hw : Whole (pieces f) n
  · exact ⟨_, he _ (h.1 hw), rfl, rfl, fun _ => hw, fun _ => rfl⟩
  · exact ⟨_, he _ (h.2 hw), rfl, rfl, fun h => by simp [stalled] at h, fun h => absurd h hw⟩

/-- A request of one property, of which twelve bytes arrive, and of which five arrive. -/
example : let f : Frame := ⟨1, 0x05FF01, 0x013001, 0x62, [⟨0x80, []⟩]⟩
    f.Valid ∧ f.encode.length = 14 ∧ (∃ pre post, pieces f = pre ++ post ∧ 12 = pre.sum) ∧
    ¬ ∃ pre post, pieces f = pre ++ post ∧ 5 = pre.sum := by
  refine ⟨by simp [Frame.Valid], by simp [Frame.encode, WireProp.encode, beBytes_length], ⟨[4, 8], _, rfl, rfl⟩, ?_⟩
  exact fun h => whole_inside 8 _ 1 (by decide) (by decide) ((whole_cons 4 _ 1).mp h)

end Verif.Props
