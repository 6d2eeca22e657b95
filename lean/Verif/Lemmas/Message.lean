import Verif.Model.Reader
import Verif.Lemmas.Encoding

/-! Helper lemmas about messages: well-formedness, encoding. -/

namespace Verif.Lemmas
open Verif Model Spec

/-! ### Loops and buffers -/

theorem forFrom_eq_foldlM {α σ : Type} (l : List α) (body : Nat → σ → Res σ)
    (f : σ → α → Res σ) (h : ∀ j (hj : j < l.length) s, body j s = f s l[j]) :
    ∀ (cnt i : Nat) (s : σ), i + cnt ≤ l.length →
      forFrom body cnt i s = ((l.drop i).take cnt).foldlM f s := by
  intro cnt
  induction cnt with
  | zero => intro i s _; simp [forFrom]
  | succ c ih =>
    intro i s hle
    have hi : i < l.length := by omega
    rw [List.drop_eq_getElem_cons hi, List.take_succ_cons, List.foldlM_cons]
    simp only [forFrom, h i hi]
    congr 1
    funext s'
    exact ih (i + 1) s' (by omega)

theorem forRange_eq_foldlM {α σ : Type} (l : List α) (body : Nat → σ → Res σ)
    (f : σ → α → Res σ) (h : ∀ j (hj : j < l.length) s, body j s = f s l[j])
    (n : Nat) (s : σ) (hn : n ≤ l.length) :
    forRange n body s = (l.take n).foldlM f s := by
  simpa [forRange] using forFrom_eq_foldlM l body f h n 0 s (by omega)

theorem rd_ok {α : Type} (b : List α) (i : Nat) (h : i < b.length) : rd b i = .ok b[i] := by
  simp [rd, h]

theorem wr_ok {α : Type} (b : List α) (i : Nat) (x : α) (h : i < b.length) :
    wr b i x = .ok (b.set i x) := by
  simp [wr, h]

theorem wr_append {α : Type} (pre : List α) (y : α) (rest : List α) (x : α) :
    wr (pre ++ y :: rest) pre.length x = .ok (pre ++ x :: rest) := by
  simp [wr]

/-- Copying `d` byte by byte into the space behind `pre`. -/
theorem copy_loop (d : Bytes) : ∀ (pre rest z : Bytes), z.length = d.length →
    forRange d.length (fun i buf => do wr buf (pre.length + i) (← rd d i)) (pre ++ z ++ rest)
      = .ok (pre ++ d ++ rest) := by
  suffices H : ∀ (cnt i : Nat) (pre rest z : Bytes), i + cnt = d.length → z.length = cnt →
      forFrom (fun i buf => do wr buf (pre.length + i) (← rd d i)) cnt i
        (pre ++ d.take i ++ z ++ rest) = .ok (pre ++ d ++ rest) by
    intro pre rest z hz
    have := H d.length 0 pre rest z (by omega) hz
    simpa [forRange] using this
  intro cnt
  induction cnt with
  | zero =>
    intro i pre rest z h hz
    have : i = d.length := by omega
    subst this
    have hz' : z = [] := List.length_eq_zero_iff.mp hz
    simp [forFrom, hz']
  | succ c ih =>
    intro i pre rest z h hz
    have hi : i < d.length := by omega
    obtain ⟨y, z', rfl⟩ : ∃ y z', z = y :: z' := by
      cases z with
      | nil => simp at hz
      | cons y z' => exact ⟨y, z', rfl⟩
    simp only [forFrom]
    rw [rd_ok d i hi]
    have e : pre ++ d.take i ++ y :: z' ++ rest = (pre ++ d.take i) ++ y :: (z' ++ rest) := by simp
    have hl : pre.length + i = (pre ++ d.take i).length := by simp; omega
    have w : wr (pre ++ d.take i ++ y :: z' ++ rest) (pre.length + i) d[i]
        = .ok ((pre ++ d.take i) ++ d[i] :: (z' ++ rest)) := by
      rw [e, hl, wr_append]
    rw [Res.ok_bind, w, Res.ok_bind]
    have e2 : (pre ++ d.take i) ++ d[i] :: (z' ++ rest) = pre ++ d.take (i + 1) ++ z' ++ rest := by
      rw [List.take_add_one, List.getElem?_eq_getElem hi]
      simp only [Option.toList_some, List.append_assoc, List.cons_append, List.nil_append]
    rw [e2]
    exact ih (i + 1) pre rest z' (by omega) (by simpa using hz)

/-! ### Well-formed messages -/

/-- Field sizes and the property counter. -/
structure WF (m : Message) : Prop where
  tid : m.tid.length = 2
  seoj : m.seoj.length = 3
  deoj : m.deoj.length = 3
  opc : m.opc.toNat = m.ep.length % 256

theorem WF.opc_le {m : Message} (h : WF m) : m.opc.toNat ≤ m.ep.length := by
  rw [h.opc]; exact Nat.mod_le _ _

theorem propAt_nat (ep : List (Option PProp)) (n : Nat) (h : n < ep.length) :
    Message.propAt ep n = .ok ep[n] := by
  unfold Message.propAt
  rw [if_neg (by omega), if_neg (by omega)]
  simpa using rd_ok ep n h

theorem property_nat (m : Message) (n : Nat) (h : n < m.ep.length) :
    m.property n = .ok m.ep[n] := by
  exact propAt_nat m.ep n h

/-- The properties that are encoded: the non-nil ones among the first `opc`. -/
def wireProps (m : Message) : List PProp := (m.ep.take m.opc.toNat).filterMap id

/-- Encoding of one property (PDC truncated to a byte). -/
def encProp (p : PProp) : Bytes := p.code :: BitVec.ofNat 8 p.data.length :: p.data

theorem encProp_length (p : PProp) : (encProp p).length = 2 + p.data.length := by
  simp [encProp]; omega

theorem size_eq {m : Message} (h : WF m) :
    m.size = .ok (12 + ((wireProps m).flatMap encProp).length) := by
  unfold Message.size
  rw [forRange_eq_foldlM m.ep _ (fun sz o => match o with
      | none => Res.ok sz
      | some p => .ok (sz + 2 + p.size))]
  · unfold wireProps
    generalize m.ep.take m.opc.toNat = os
    have : ∀ (os : List (Option PProp)) (k : Nat), os.foldlM (fun sz o => match o with
        | none => Res.ok sz
        | some p => .ok (sz + 2 + p.size)) k
        = .ok (k + ((os.filterMap id).flatMap encProp).length) := by
      intro os
      induction os with
      | nil => intro k; simp
      | cons o os ih =>
        intro k
        cases o with
        | none => simp [ih]
        | some p =>
          rw [List.foldlM_cons]
          simp only [Res.ok_bind, ih]
          simp [encProp, PProp.size]; omega
    exact this os 12
  · intro j hj s
    rw [property_nat m j hj]
    simp only [Res.ok_bind]
    cases m.ep[j] <;> rfl
  · exact h.opc_le

/-- The fixed part of the frame. -/
def header (m : Message) : Bytes :=
  [m.ehd1, m.ehd2] ++ m.tid ++ m.seoj ++ m.deoj ++ [m.esv, m.opc]

/-- The body of the property loop of `Bytes`, for the property at hand. -/
def bytesStep : Bytes × Nat → Option PProp → Res (Bytes × Nat)
  | (buf, offset), none => .ok (buf, offset)
  | (buf, offset), some p => do
    let buf ← wr buf offset p.code
    let buf ← wr buf (offset + 1) (BitVec.ofNat 8 p.size)
    if p.size = 0 then .ok (buf, offset + 1 + 1)
    else do
      let buf ← forRange p.size (fun i buf => do wr buf (offset + 1 + 1 + i) (← rd p.data i)) buf
      .ok (buf, offset + 1 + 1 + p.size)

theorem bytesStep_fold (os : List (Option PProp)) : ∀ (pre : Bytes),
    os.foldlM bytesStep
      (pre ++ List.replicate (((os.filterMap id).flatMap encProp).length) 0, pre.length)
    = .ok (pre ++ (os.filterMap id).flatMap encProp,
        (pre ++ (os.filterMap id).flatMap encProp).length) := by
  induction os with
  | nil => intro pre; simp
  | cons o os ih =>
    intro pre
    cases o with
    | none => simpa [bytesStep] using ih pre
    | some p =>
      rw [List.foldlM_cons]
      simp only [List.filterMap_cons, id, List.flatMap_cons, List.length_append, encProp_length]
      generalize hk : ((os.filterMap id).flatMap encProp).length = k at ih ⊢
      have hstep : bytesStep (pre ++ List.replicate (2 + p.data.length + k) 0, pre.length) (some p)
          = .ok ((pre ++ encProp p) ++ List.replicate k 0, (pre ++ encProp p).length) := by
        have e1 : List.replicate (2 + p.data.length + k) (0 : Byte)
            = 0 :: 0 :: (List.replicate p.data.length 0 ++ List.replicate k 0) := by
          rw [List.replicate_append_replicate, Nat.add_assoc, Nat.add_comm 2]; rfl
        have e2 : ∀ z, pre ++ p.code :: z = (pre ++ [p.code]) ++ z := by simp
        have e3 : pre.length + 1 = (pre ++ [p.code]).length := by simp
        simp only [bytesStep]
        rw [e1, wr_append, Res.ok_bind, e2, e3, wr_append, Res.ok_bind]
        by_cases h0 : p.size = 0
        · rw [if_pos h0]
          have : p.data = [] := List.length_eq_zero_iff.mp h0
          simp [encProp, this, PProp.size]
        · rw [if_neg h0]
          have e4 : pre ++ [p.code] ++ BitVec.ofNat 8 p.size ::
              (List.replicate p.data.length 0 ++ List.replicate k 0)
              = (pre ++ [p.code, BitVec.ofNat 8 p.size]) ++ List.replicate p.data.length 0
                ++ List.replicate k 0 := by simp
          have e5 : (pre ++ [p.code]).length + 1 = (pre ++ [p.code, BitVec.ofNat 8 p.size]).length := by
            simp
          rw [e4, e5]
          have hc := copy_loop p.data (pre ++ [p.code, BitVec.ofNat 8 p.size])
            (List.replicate k 0) (List.replicate p.data.length 0) (by simp)
          have hsz : p.size = p.data.length := rfl
          rw [hsz] at hc ⊢
          rw [hc]
          simp [encProp]
          omega
      rw [hstep, Res.ok_bind, ih, ← hk, ← encProp_length p]
      simp only [List.append_assoc, List.length_append]

theorem bytesRes_eq {m : Message} (h : WF m) :
    m.bytesRes = .ok (header m ++ (wireProps m).flatMap encProp) := by
  obtain ⟨h1, h2, h3, h4⟩ := id h
  obtain ⟨t0, t1, ht⟩ : ∃ t0 t1, m.tid = [t0, t1] := by
    match hh : m.tid with
    | [a, b] => exact ⟨a, b, rfl⟩
    | [] | [_] | _ :: _ :: _ :: _ => simp [hh] at h1
  obtain ⟨s0, s1, s2, hs⟩ : ∃ a b c, m.seoj = [a, b, c] := by
    match hh : m.seoj with
    | [a, b, c] => exact ⟨a, b, c, rfl⟩
    | [] | [_] | [_, _] | _ :: _ :: _ :: _ :: _ => simp [hh] at h2
  obtain ⟨d0, d1, d2, hd⟩ : ∃ a b c, m.deoj = [a, b, c] := by
    match hh : m.deoj with
    | [a, b, c] => exact ⟨a, b, c, rfl⟩
    | [] | [_] | [_, _] | _ :: _ :: _ :: _ :: _ => simp [hh] at h3
  have hw : ∀ (i : Nat) (l : Bytes) (x : Byte) (r : Bytes), i < l.length →
      wr (l ++ r) i x = .ok (l.set i x ++ r) := by
    intro i l x r hi
    rw [wr_ok _ _ _ (by simp; omega), List.set_append, if_pos hi]
  have hrep : ∀ k, List.replicate (12 + k) (0 : Byte) =
      [0, 0, 0, 0, 0, 0, 0, 0, 0, 0, 0, 0] ++ List.replicate k 0 := by
    intro k; rw [← List.replicate_append_replicate]; rfl
  unfold Message.bytesRes
  rw [size_eq h, Res.ok_bind, hrep, ht, hs, hd]
  dsimp only
  rw [hw 0 _ _ _ (by simp), Res.ok_bind, List.set_cons_zero,
    hw 1 _ _ _ (by simp), Res.ok_bind]
  simp only [rd, List.getElem?_cons_zero, List.getElem?_cons_succ, Res.ok_bind]
  rw [hw 2 _ _ _ (by simp), Res.ok_bind, hw 3 _ _ _ (by simp), Res.ok_bind,
    hw 4 _ _ _ (by simp), Res.ok_bind, hw 5 _ _ _ (by simp), Res.ok_bind,
    hw 6 _ _ _ (by simp), Res.ok_bind, hw 7 _ _ _ (by simp), Res.ok_bind,
    hw 8 _ _ _ (by simp), Res.ok_bind, hw 9 _ _ _ (by simp), Res.ok_bind,
    hw 10 _ _ _ (by simp), Res.ok_bind, hw 11 _ _ _ (by simp), Res.ok_bind]
  simp only [List.set_cons_zero, List.set_cons_succ]
  rw [forRange_eq_foldlM m.ep _ bytesStep]
  · have := bytesStep_fold (m.ep.take m.opc.toNat) (header m)
    have hh : header m = [m.ehd1, m.ehd2, t0, t1, s0, s1, s2, d0, d1, d2, m.esv, m.opc] := by
      simp [header, ht, hs, hd]
    rw [hh] at this ⊢
    unfold wireProps
    simp only [List.length_cons, List.length_nil] at this
    rw [this]
    rfl
  · intro j hj s
    rw [property_nat m j hj]
    obtain ⟨buf, off⟩ := s
    simp only [Res.ok_bind]
    cases m.ep[j] <;> rfl
  · exact h.opc_le

theorem bytes_eq {m : Message} (h : WF m) :
    m.bytes = header m ++ (wireProps m).flatMap encProp := by
  simp [Message.bytes, bytesRes_eq h]

end Verif.Lemmas
