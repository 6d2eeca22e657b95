import Verif.Model.Encoding
import Verif.Spec.Wire

/-! Helper lemmas about the integer codec. -/

namespace Verif.Lemmas
open Verif Model Spec

theorem pow256_pos (k : Nat) : 0 < 256 ^ k := Nat.pow_pos (by decide)

theorem beNat_lt (b : Bytes) : beNat b < 256 ^ b.length := by
  induction b with
  | nil => simp [beNat]
  | cons x xs ih =>
    have hx : x.toNat < 256 := x.isLt
    simp only [beNat, List.length_cons, Nat.pow_succ]
    have : x.toNat * 256 ^ xs.length ≤ 255 * 256 ^ xs.length :=
      Nat.mul_le_mul_right _ (by omega)
    omega

theorem beBytes_length (k n : Nat) : (beBytes k n).length = k := by
  induction k with
  | zero => rfl
  | succ k ih => simp [beBytes, ih]

theorem beNat_beBytes (k n : Nat) : beNat (beBytes k n) = n % 256 ^ k := by
  induction k with
  | zero => simp [beNat, beBytes, Nat.mod_one]
  | succ k ih =>
    simp only [beBytes, beNat, ih, beBytes_length, BitVec.toNat_ofNat]
    rw [Nat.mul_comm, show (256 : Nat) ^ (k + 1) = 256 ^ k * 256 from Nat.pow_succ ..,
      Nat.mod_mul (a := 256 ^ k), Nat.add_comm]

theorem beBytes_mod (k j n : Nat) (h : k ≤ j) : beBytes k (n % 256 ^ j) = beBytes k n := by
  induction k with
  | zero => rfl
  | succ k ih =>
    simp only [beBytes]
    rw [ih (by omega)]
    congr 1
    apply BitVec.eq_of_toNat_eq
    simp only [BitVec.toNat_ofNat]
    have : 256 ^ j = 256 ^ k * (256 * 256 ^ (j - k - 1)) := by
      rw [← Nat.mul_assoc, ← Nat.pow_succ, ← Nat.pow_add]; congr 1; omega
    rw [this, Nat.mod_mul_right_div_self]
    show n / 256 ^ k % (256 * 256 ^ (j - k - 1)) % 256 = _
    rw [Nat.mod_mul_right_mod]

theorem beBytes_add_mul (k m n : Nat) : beBytes k (m * 256 ^ k + n) = beBytes k n := by
  rw [← beBytes_mod k k _ (Nat.le_refl _), Nat.mul_comm, Nat.mul_add_mod,
    beBytes_mod k k _ (Nat.le_refl _)]

theorem beBytes_beNat (b : Bytes) : beBytes b.length (beNat b) = b := by
  induction b with
  | nil => rfl
  | cons x xs ih =>
    simp only [beNat, List.length_cons, beBytes, beBytes_add_mul, ih]
    congr 1
    apply BitVec.eq_of_toNat_eq
    have h := beNat_lt xs
    rw [BitVec.toNat_ofNat, Nat.mul_comm, Nat.mul_add_div (pow256_pos _), Nat.div_eq_of_lt h]
    have := x.isLt
    omega

theorem beNat_inj {a b : Bytes} (hl : a.length = b.length) (h : beNat a = beNat b) : a = b := by
  rw [← beBytes_beNat a, ← beBytes_beNat b, hl, h]

theorem byteToInteger_toNat (w : Nat) (b : Bytes) :
    (byteToInteger w b).toNat = beNat b % 2 ^ w := by
  induction b with
  | nil => simp [byteToInteger, beNat]
  | cons x xs ih =>
    have step : byteToInteger w (x :: xs) =
        byteToInteger w xs + (x.setWidth w <<< (xs.length * 8)) := by
      unfold byteToInteger
      simp only [List.length_cons]
      rw [Fin.foldl_succ_last]
      congr 1
      · congr 1
        funext v n
        have hn := n.isLt
        congr 3
        simp only [Fin.val_castSucc]
        rw [List.getElem_cons, dif_neg (by omega)]
        congr 1
        omega
      · simp
    rw [step, BitVec.toNat_add, ih, BitVec.toNat_shiftLeft, BitVec.toNat_setWidth,
      Nat.shiftLeft_eq]
    simp only [beNat]
    rw [show (256 : Nat) ^ xs.length = 2 ^ (xs.length * 8) by
      rw [Nat.mul_comm, Nat.pow_mul]]
    simp only [Nat.mod_mul_mod, Nat.add_mod_mod, Nat.mod_add_mod, Nat.add_comm]

theorem foldl_set_length {α β : Type} (f : β → Nat) (g : β → α) (l : List β) (b : List α) :
    (l.foldl (fun acc n => acc.set (f n) (g n)) b).length = b.length := by
  induction l generalizing b with
  | nil => rfl
  | cons x xs ih => simp [ih]

theorem integerToByte_length {w : Nat} (v : BitVec w) (b : Bytes) :
    (integerToByte v b).length = b.length := foldl_set_length _ _ _ _

theorem integerToByte_eq {w : Nat} (v : BitVec w) (b : Bytes) :
    integerToByte v b = beBytes b.length v.toNat := by
  -- after `k` iterations the last `k` bytes are final
  have key : ∀ k ≤ b.length,
      (List.range k).foldl
        (fun acc n => acc.set ((b.length - 1) - n) (((v >>> (n * 8)) &&& 0xFF#w).setWidth 8)) b
      = b.take (b.length - k) ++ beBytes k v.toNat := by
    intro k
    induction k with
    | zero => intro _; simp [beBytes]
    | succ k ih =>
      intro hk
      rw [List.range_succ, List.foldl_append, ih (by omega)]
      simp only [List.foldl_cons, List.foldl_nil]
      have e : b.length - k = (b.length - (k + 1)) + 1 := by omega
      rw [e, List.take_add_one, List.set_append]
      have hlen : (b.take (b.length - (k + 1))).length = b.length - (k + 1) := by simp
      have hget : b[b.length - (k + 1)]? = some (b[b.length - (k + 1)]'(by omega)) := by
        simp
      rw [hget]
      have hidx : b.length - 1 - k < (b.take (b.length - (k + 1)) ++
          (some (b[b.length - (k + 1)]'(by omega))).toList).length := by
        simp; omega
      rw [if_pos hidx, List.set_append, hlen, if_neg (by omega)]
      have : b.length - 1 - k - (b.length - (k + 1)) = 0 := by omega
      rw [this]
      simp only [Option.toList_some, List.set_cons_zero, List.append_assoc, List.cons_append,
        List.nil_append, beBytes]
      congr 2
      apply BitVec.eq_of_toNat_eq
      simp only [BitVec.toNat_setWidth, BitVec.toNat_and, BitVec.toNat_ushiftRight,
        BitVec.toNat_ofNat, Nat.shiftRight_eq_div_pow]
      rw [show (256 : Nat) ^ k = 2 ^ (k * 8) by rw [Nat.mul_comm, Nat.pow_mul]]
      rw [← Nat.and_two_pow_sub_one_eq_mod _ 8, ← Nat.and_two_pow_sub_one_eq_mod (255) w]
      rw [Nat.and_comm 255, ← Nat.and_assoc, Nat.and_assoc]
      rw [Nat.and_two_pow_sub_one_eq_mod _ w, Nat.mod_eq_of_lt]
      · rw [show (255 : Nat) &&& 2 ^ 8 - 1 = 2 ^ 8 - 1 by decide, Nat.and_two_pow_sub_one_eq_mod]
      · exact Nat.lt_of_le_of_lt (Nat.div_le_self _ _) v.isLt
  have := key b.length (Nat.le_refl _)
  simpa [integerToByte] using this

end Verif.Lemmas
