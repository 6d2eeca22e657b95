import Verif.Props.Tid

/-! # C55: how far identifiers of concurrent senders can go -/

namespace Verif.Props
open Verif Model Spec Lemmas

/-- The call has not yet computed an identifier. -/
def Unread : TidPc → Bool
  | .check | .read => true
  | _ => false

/-- The identifier a call has computed or returned. -/
def identifier : TidPc → Option GoUint
  | .write v | .done v => some v
  | _ => none

/-- With `k` identifiers computed, none is above `65535 + k`. -/
structure TidBounded (n k : Nat) (s : TidSt) : Prop where
  last : s.lastTID.toNat ≤ 65535 + k
  each : ∀ pc ∈ s.calls, ∀ v, identifier pc = some v → v.toNat ≤ 65535 + k
  left : s.calls.countP Unread + k ≤ n

theorem tid_bounded_step {n k : Nat} {s : TidSt} (hn : n < 2 ^ 63) (h : TidBounded n k s) (i : Nat) :
    ∃ k', TidBounded n k' (s.step i) := by
  obtain ⟨h1, h2, h3⟩ := h
  unfold TidSt.step
  cases hi : s.calls[i]? with
  | none => exact ⟨k, h1, h2, h3⟩
  | some pc =>
    obtain ⟨hlt, hget⟩ := List.getElem?_eq_some_iff.mp hi
    have mem : pc ∈ s.calls := List.mem_of_getElem? hi
    have cnt : ∀ pc', (s.calls.set i pc').countP Unread + (if Unread pc then 1 else 0)
        = s.calls.countP Unread + (if Unread pc' then 1 else 0) := by
      intro pc'
      rw [List.countP_set hlt, hget]
      have : Unread pc = true → 0 < s.calls.countP Unread := fun hb => List.countP_pos_iff.mpr ⟨pc, mem, hb⟩
      by_cases hb : Unread pc = true
      · have := this hb
        simp only [hb, if_true]
        omega
      · simp [hb]
    have all : ∀ (k' : Nat) (pc' : TidPc), k ≤ k' → (∀ v, identifier pc' = some v → v.toNat ≤ 65535 + k') →
        ∀ q ∈ s.calls.set i pc', ∀ v, identifier q = some v → v.toNat ≤ 65535 + k' := by
      intro k' pc' hk hv q hq v hqv
      rcases List.mem_or_eq_of_mem_set hq with hq | rfl
      · have := h2 q hq v hqv; omega
      · exact hv v hqv
    cases pc with
    | check =>
      refine ⟨k, h1, all k _ (Nat.le_refl _) (fun v hv => ?_), ?_⟩
      · split at hv <;> cases hv
      · have := cnt (if tidMax ≤ s.lastTID then .reset else .read)
        simp only [Unread, if_true] at this
        dsimp only
        split at this <;> split <;> simp_all <;> omega
    | reset =>
      refine ⟨k, by simp [tidMin], all k _ (Nat.le_refl _) (fun v hv => by cases hv), ?_⟩
      have := cnt .load
      simp [Unread] at this
      dsimp only
      simp only [this]
      exact h3
    | read =>
      have hc := cnt (.write (s.lastTID + 1))
      simp only [Unread, if_true, Bool.false_eq_true, if_false] at hc
      have hp : 0 < s.calls.countP Unread := List.countP_pos_iff.mpr ⟨_, mem, rfl⟩
      refine ⟨k + 1, by dsimp only; omega, all (k + 1) _ (by omega) (fun v hv => ?_), ?_⟩
      · cases hv
        rw [BitVec.toNat_add]
        have : (1 : GoUint).toNat = 1 := rfl
        rw [this, Nat.mod_eq_of_lt (by omega)]
        omega
      · dsimp only
        omega
    | write v =>
      have hv := h2 _ mem v rfl
      refine ⟨k, hv, all k _ (Nat.le_refl _) (fun v hv => by cases hv), ?_⟩
      have := cnt .load
      simp [Unread] at this
      dsimp only
      simp only [this]
      exact h3
    | load =>
      refine ⟨k, h1, all k _ (Nat.le_refl _) (fun v hv => by cases hv; exact h1), ?_⟩
      have := cnt (.done s.lastTID)
      simp [Unread] at this
      dsimp only
      simp only [this]
      exact h3
    | done v => exact ⟨k, h1, h2, h3⟩

/-- C55, what holds under every schedule: `n` calls made at any time, starting from an identifier in the range, never
get an identifier above `65535 + n`. Missing: that it is at most 65535 (`C55_refuted_range`), and that they differ. -/
theorem C55_bound_partial (s : TidSt) (hc : ∀ pc ∈ s.calls, pc = .check) (hl : s.lastTID.toNat ≤ 65535)
    (hn : s.calls.length < 2 ^ 63) (is : List Nat) (i : Nat) (v : GoUint)
    (hd : (s.run is).calls[i]? = some (.done v)) : v.toNat ≤ 65535 + s.calls.length := by
  have h0 : TidBounded s.calls.length 0 s := by
    refine ⟨hl, fun pc hp v hv => ?_, List.countP_le_length⟩
    rw [hc pc hp] at hv
    cases hv
  have key : ∀ (is : List Nat) (n k : Nat) (s : TidSt), n < 2 ^ 63 → TidBounded n k s → ∃ k', TidBounded n k' (s.run is) := by
    intro is
    induction is with
    | nil => intro n k s _ h; exact ⟨k, h⟩
    | cons i is ih =>
      intro n k s hn h
      obtain ⟨k', h'⟩ := tid_bounded_step hn h i
      exact ih n k' _ hn h'
  obtain ⟨k, h⟩ := key is _ 0 s hn h0
  have h1 := h.each _ (List.mem_of_getElem? hd) v rfl
  have h2 := h.left
  omega

/-- The bound is met: `C55_refuted_range` with two calls. -/
example : let s : TidSt := ⟨65534, [.check, .check]⟩
    (∀ pc ∈ s.calls, pc = .check) ∧ s.lastTID.toNat ≤ 65535 ∧ s.calls.length < 2 ^ 63 ∧
    (s.run [0, 1, 0, 0, 1, 1, 1, 0]).calls[0]? = some (.done 65536) := by decide

end Verif.Props
