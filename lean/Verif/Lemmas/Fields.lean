import Verif.Lemmas.Built

/-! Header fields as numbers. -/

namespace Verif.Lemmas
open Verif Model Spec

theorem getTID_toNat {m : Message} (h : m.tid.length = 2) : m.getTID.toNat = beNat m.tid := by
  match ht : m.tid, h with
  | [b0, b1], _ =>
  have h0 : b0.toNat < 256 := b0.isLt
  have h1 : b1.toNat < 256 := b1.isLt
  simp only [Message.getTID, ht, BitVec.toNat_add, BitVec.toNat_shiftLeft, BitVec.toNat_setWidth,
    Nat.shiftLeft_eq, beNat]
  simp
  omega

theorem getSEOJ_toNat {m : Message} (h : m.seoj.length = 3) : m.getSEOJ.toNat = beNat m.seoj := by
  rw [Message.getSEOJ, byteToInteger_toNat, Nat.mod_eq_of_lt]
  have := beNat_lt m.seoj
  rw [h] at this
  omega

theorem getDEOJ_toNat {m : Message} (h : m.deoj.length = 3) : m.getDEOJ.toNat = beNat m.deoj := by
  rw [Message.getDEOJ, byteToInteger_toNat, Nat.mod_eq_of_lt]
  have := beNat_lt m.deoj
  rw [h] at this
  omega

theorem setTID_tid {m : Message} (h : m.tid.length = 2) (v : GoUint) :
    (m.setTID v).tid = beBytes 2 (if v.toNat ≤ 65535 then v.toNat else v.toNat % 65535) := by
  match ht : m.tid, h with
  | [b0, b1], _ =>
  simp only [Message.setTID, ht, List.set_cons_zero, List.set_cons_succ, beBytes]
  have key : ∀ u : GoUint, u.toNat < 65536 →
      ((u &&& 0xFF00) >>> 8).setWidth 8 = BitVec.ofNat 8 (u.toNat / 256 ^ 1) ∧
      (u &&& 0x00FF).setWidth 8 = BitVec.ofNat 8 (u.toNat / 256 ^ 0) := by
    intro u hu
    constructor
    · apply BitVec.eq_of_toNat_eq
      have h1 : (u.toNat &&& 65280) >>> 8 = (u.toNat / 256) % 256 := by
        rw [Nat.shiftRight_and_distrib, Nat.shiftRight_eq_div_pow, show 65280 >>> 8 = 2 ^ 8 - 1 by decide,
          Nat.and_two_pow_sub_one_eq_mod]
      simp [h1]
    · apply BitVec.eq_of_toNat_eq
      have h1 : u.toNat &&& 255 = u.toNat % 256 := Nat.and_two_pow_sub_one_eq_mod _ 8
      rw [BitVec.toNat_setWidth, BitVec.toNat_and, show (0x00FF : GoUint).toNat = 255 from rfl, h1]
      simp
  by_cases hv : v.toNat ≤ 65535
  · have hlt : ¬ tidMax < v := by
      rw [BitVec.lt_def]; simp [tidMax]; omega
    rw [if_neg hlt, if_pos hv, (key v (by omega)).1, (key v (by omega)).2]
  · have hlt : tidMax < v := by
      rw [BitVec.lt_def]; simp [tidMax]; omega
    rw [if_pos hlt, if_neg hv]
    have hm : (v % tidMax).toNat = v.toNat % 65535 := by
      rw [BitVec.toNat_umod]; rfl
    have hb : (v % tidMax).toNat < 65536 := by rw [hm]; omega
    rw [(key _ hb).1, (key _ hb).2, hm]

end Verif.Lemmas
