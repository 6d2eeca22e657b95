import Verif.Props.Object
import Verif.Props.Codec

/-! # C13: the code of an object -/

namespace Verif.Props
open Verif Model Spec Lemmas

/-- The three code bytes after a call on an object with the code bytes `g`, `c` and `i`. -/
def codeAfter (g c i : Byte) : ObjOp → Nat
  | .setCode v => v.toNat % 2 ^ 24
  | .setCodes cs => (cs[0]?.getD g).toNat * 65536 + (cs[1]?.getD c).toNat * 256 + (cs[2]?.getD i).toNat
  | .bareSetCode v => v.toNat % 2 ^ 24
  | .bareSetCodes cs => (cs[0]?.getD g).toNat * 65536 + (cs[1]?.getD c).toNat * 256 + (cs[2]?.getD i).toNat
  | .setGroup b => b.toNat * 65536 + c.toNat * 256 + i.toNat
  | .setClass b => g.toNat * 65536 + b.toNat * 256 + i.toNat
  | .setInstance b => g.toNat * 65536 + c.toNat * 256 + b.toNat
  | _ => g.toNat * 65536 + c.toNat * 256 + i.toNat

theorem three_codes {l : Bytes} (h : l.length = 3) : ∃ g c i, l = [g, c, i] := by
  match l, h with
  | [g, c, i], _ => exact ⟨g, c, i, rfl⟩

theorem code_value (g c i : Byte) :
    (byteToInteger 64 [g, c, i]).toNat = g.toNat * 65536 + c.toNat * 256 + i.toNat := by
  rw [byteToInteger_toNat, Nat.mod_eq_of_lt]
  · simp [beNat]; omega
  · have := beNat_lt [g, c, i]
    simp at this ⊢; omega

theorem codes_value (g c i : Byte) (cs : Bytes) :
    (byteToInteger 64 (cs.take [g, c, i].length ++ [g, c, i].drop cs.length)).toNat
      = (cs[0]?.getD g).toNat * 65536 + (cs[1]?.getD c).toNat * 256 + (cs[2]?.getD i).toNat := by
  match cs with
  | [] => simpa using code_value g c i
  | [_] => exact code_value _ _ _
  | [_, _] => exact code_value _ _ _
  | a :: b :: x :: l =>
    have : (a :: b :: x :: l).take [g, c, i].length ++ [g, c, i].drop (a :: b :: x :: l).length
        = [a, b, x] := by simp
    rw [this]
    exact code_value _ _ _

theorem run_codes (db : StdDB) (o : Obj) (op : ObjOp) :
    (op.run db o).1.codes = (op.runPlain o).1.codes := by
  cases ht : op.target with
  | some cd => rw [run_target db o op cd.1 cd.2 ht, runPlain_target o op cd.1 cd.2 ht]
  | none =>
    cases op <;> simp only [ObjOp.target, reduceCtorEq] at ht <;> try rfl
    · show ((o.addProperty _).updatePropertyMap).1.codes = _
      rw [updatePropertyMap_fst]; rfl
    · exact std_codes db _ _
    · exact std_codes db _ _

/-- C13. The code of an object, of any history, is given by its three code bytes; the setters of the
whole code and of its bytes set exactly these, with `SetCodes` the first three bytes given, and all
other calls keep the code. -/
theorem C13_object (db : StdDB) (o : Obj) (h : ReachedPlain o ∨ Reached db o) :
    ∃ g c i, o.codes = [g, c, i] ∧ o.classGroupCode = .ok g ∧ o.classCode = .ok c ∧
      o.instanceCode = .ok i ∧ o.code.toNat = g.toNat * 65536 + c.toNat * 256 + i.toNat ∧
      (∀ x, o.isCode x = true ↔ x = o.code) ∧
      ∀ op : ObjOp, (op.run db o).1.code.toNat = codeAfter g c i op ∧
        (op.runPlain o).1.code.toNat = codeAfter g c i op := by
  have hw : OWF o := h.elim ReachedPlain.owf Reached.owf
  obtain ⟨g, c, i, e⟩ := three_codes hw.codes
  refine ⟨g, c, i, e, by rw [Obj.classGroupCode, e]; rfl, by rw [Obj.classCode, e]; rfl,
    by rw [Obj.instanceCode, e]; rfl, by rw [Obj.code, e]; exact code_value g c i, ?_, ?_⟩
  · intro x
    simp [Obj.isCode]
  · intro op
    have : (op.runPlain o).1.code.toNat = codeAfter g c i op := by
      cases ht : op.target with
      | some cd =>
        rw [runPlain_target o op cd.1 cd.2 ht]
        dsimp only
        rw [setPropertyData_fst, Obj.code, e, code_value]
        cases op <;> simp only [ObjOp.target, reduceCtorEq] at ht <;> simp only [codeAfter]
      | none =>
        cases op <;> simp only [ObjOp.target, reduceCtorEq] at ht
        · exact (congrArg _ (congrArg _ e)).trans (code_value g c i)
        · show (byteToInteger 64 (integerToByte _ o.codes)).toNat = _
          rw [C01_write_read, e]; simp [codeAfter]
        · next cs =>
          show (byteToInteger 64 (cs.take o.codes.length ++ o.codes.drop cs.length)).toNat = _
          rw [e]; exact codes_value g c i cs
        · exact (congrArg _ (congrArg _ e)).trans (code_value g c i)
        · exact (congrArg _ (congrArg _ e)).trans (code_value g c i)
        · next b =>
          show (byteToInteger 64 (o.codes.set 2 b)).toNat = _
          rw [e]; exact code_value _ _ _
        · next b =>
          show (byteToInteger 64 (o.codes.set 0 b)).toNat = _
          rw [e]; exact code_value _ _ _
        · next b =>
          show (byteToInteger 64 (o.codes.set 1 b)).toNat = _
          rw [e]; exact code_value _ _ _
        · exact (congrArg _ (congrArg _ e)).trans (code_value g c i)
        · exact (congrArg _ (congrArg _ e)).trans (code_value g c i)
        · exact (congrArg _ (congrArg _ e)).trans (code_value g c i)
        · show (byteToInteger 64 (integerToByte _ o.codes)).toNat = _
          rw [C01_write_read, e]; simp [codeAfter]
        · next cs =>
          show (byteToInteger 64 (cs.take o.codes.length ++ o.codes.drop cs.length)).toNat = _
          rw [e]; exact codes_value g c i cs
    refine ⟨?_, this⟩
    rw [Obj.code, run_codes]
    exact this

example : ReachedPlain (Obj.new.setCode 0x013001) ∧ codeAfter 1 0x30 1 (.setCodes [2, 0x90, 3, 4]) = 0x029003 ∧
    codeAfter 1 0x30 1 (.setCodes [2]) = 0x023001 ∧ codeAfter 1 0x30 1 (.setCode 0xAA05FF02) = 0x05FF02 :=
  ⟨⟨[.setCode 0x013001], rfl⟩, by decide, by decide, by decide⟩

end Verif.Props
