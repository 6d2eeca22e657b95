import Verif.Props.Light

/-! # C109: what the example light prints -/

namespace Verif.Props
open Verif Model Spec Lemmas

/-- The line documented for a switch of the light from `v` to `w` (doc/examples.md). -/
def switchLine (v w : Byte) : Str :=
  "0x80 : 0x".toList ++ hexEncode [v] ++ " -> 0x".toList ++ hexEncode [w]

theorem printed_switch {d : Obj} (hd : NewLight d) (v w : Byte) (hw : w = 0x30 ∨ w = 0x31)
    (e : Byte) (he : e = 0x60 ∨ e = 0x61 ∨ e = 0x6E) :
    Light.printed (lightAt d v) e ⟨0x80, [w]⟩
      = some ("0x".toList ++ fmtXText (ESV.string e) ++ " : 0x".toList ++ hexEncode [w] ++ " -> 0x".toList ++ hexEncode [w]) := by
  have hwr : ESV.isWriteRequest e = true := by rcases he with rfl | rfl | rfl <;> decide
  obtain ⟨q, hq, hdata, -⟩ := lightAt_power hd w
  unfold Light.printed Light.powerCode
  rw [if_neg (by simp [hwr]), if_pos rfl]
  have hb : PProp.asByte ⟨0x80, [w]⟩ = .ok w := rfl
  rw [hb]
  dsimp only
  rw [if_pos hw, setPropertyData_fst, write_at, hq]
  dsimp only
  rw [hdata]

/-- C109 fails for every switch: the line starts with the service (as the codes of its two digits) instead of the property, and shows the new
state twice. -/
theorem C109_refuted (d : Obj) (hd : NewLight d) (v w : Byte) (hv : v = 0x30 ∨ v = 0x31) (hw : w = 0x30 ∨ w = 0x31)
    (e : Byte) (he : e = 0x60 ∨ e = 0x61 ∨ e = 0x6E) :
    Light.printed (lightAt d v) e ⟨0x80, [w]⟩
      = some ("0x".toList ++ fmtXText (ESV.string e) ++ " : 0x".toList ++ hexEncode [w] ++ " -> 0x".toList ++ hexEncode [w]) ∧
    Light.printed (lightAt d v) e ⟨0x80, [w]⟩ ≠ some (switchLine v w) := by
  have h := printed_switch hd v w hw e he
  refine ⟨h, ?_⟩
  rw [h]
  rcases he with rfl | rfl | rfl <;> rcases hv with rfl | rfl <;> rcases hw with rfl | rfl <;> decide +kernel

/-- C109. One line is printed for each property of a write request that switches the light, none for any other
property of any request the light accepts, and it ends with the new state. Missing for the whole property: the
property and the previous state (`C109_refuted`). -/
theorem C109_lines_partial (d : Obj) (hd : NewLight d) (v e : Byte) (p : PProp) (hp : Permits d e p) :
    ((e = 0x60 ∨ e = 0x61 ∨ e = 0x6E) → ∀ w, w = 0x30 ∨ w = 0x31 → p = ⟨0x80, [w]⟩ →
      ∃ l, Light.printed (lightAt d v) e p = some l ∧ (" -> 0x".toList ++ hexEncode [w]) <:+ l) ∧
    ((¬ (e = 0x60 ∨ e = 0x61 ∨ e = 0x6E) ∨ (p ≠ ⟨0x80, [0x30]⟩ ∧ p ≠ ⟨0x80, [0x31]⟩)) →
      Light.printed (lightAt d v) e p = none) := by
  constructor
  · rintro he w hw rfl
    refine ⟨_, printed_switch hd v w hw e he, ?_⟩
    rw [List.append_assoc]
    exact List.suffix_append _ _
  · intro h
    by_cases hwr : ESV.isWriteRequest e = true
    · have key : ∀ e : Byte, ESV.isWriteRequest e = true → e = 0x60 ∨ e = 0x61 ∨ e = 0x6E := by
        decide +kernel
      have he := key e hwr
      obtain ⟨h30, h31⟩ := h.resolve_left (fun hx => hx he)
      have hx : Light.onRequest (.device 0) e p = ([], some (.user 1)) := by
        rcases handler_write hd e he p hp with ⟨w, hw, rfl, -⟩ | ⟨-, -, hx⟩
        · rcases hw with rfl | rfl
          · exact absurd rfl h30
          · exact absurd rfl h31
        · exact hx
      unfold Light.onRequest at hx
      unfold Light.printed
      rw [if_neg (by simp [hwr])] at hx ⊢
      by_cases hc : p.code = Light.powerCode
      · rw [if_pos hc] at hx ⊢
        cases hb : p.asByte with
        | ok b =>
          rw [hb] at hx
          dsimp only at hx ⊢
          by_cases hon : b = 0x30 ∨ b = 0x31
          · rw [if_pos hon] at hx; cases hx
          · rw [if_neg hon]
        | err x => rfl
        | panic => rfl
      · rw [if_neg hc]
    · unfold Light.printed
      rw [if_pos (by simp [hwr])]

/-- The line printed for a switch from off to on. -/
example (d : Obj) (hd : NewLight d) : Light.printed (lightAt d 0x31) 0x61 ⟨0x80, [0x30]⟩ = some "0x3631 : 0x30 -> 0x30".toList ∧
    switchLine 0x31 0x30 = "0x80 : 0x31 -> 0x30".toList := by
  rw [printed_switch hd 0x31 0x30 (.inl rfl) 0x61 (.inr (.inl rfl))]
  decide +kernel

end Verif.Props
