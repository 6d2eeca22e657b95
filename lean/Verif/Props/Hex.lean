import Verif.Model.Cmd
import Verif.Spec.Cmd
import Verif.Lemmas.Encoding

/-! # C65: hexadecimal arguments -/

namespace Verif.Props
open Verif Model Spec

/-- Lowering with ASCII letters only. -/
def asciiLowering : Lowering := ⟨id, fun _ h => .inl h⟩

instance (c : Char) (v : Nat) : Decidable (HexDigit c v) := by unfold HexDigit; exact inferInstance

theorem hexDigit_lt {c : Char} {v : Nat} (h : HexDigit c v) : v < 16 := by
  rcases h with h | h <;> exact (List.getElem?_eq_some_iff.mp h).1

theorem toLower_ascii (l : Lowering) {c : Char} (h : c.toNat < 128) :
    l.toLower c = if 'A' ≤ c ∧ c ≤ 'Z' then Char.ofNat (c.toNat + 32) else c := by
  unfold Lowering.toLower; rw [if_pos h]

theorem forall_ascii {P : Char → Prop} (h : ∀ n < 128, P (Char.ofNat n)) (c : Char) (hc : c.toNat < 128) :
    P c := by
  have := h c.toNat hc
  rwa [Char.ofNat_toNat] at this

set_option maxRecDepth 4000 in
/-- Reading a lowered ASCII character is reading the digit. -/
theorem fromHex_ascii : ∀ n < 128, ∀ v < 16,
    (fromHexChar (if 'A' ≤ Char.ofNat n ∧ Char.ofNat n ≤ 'Z' then Char.ofNat ((Char.ofNat n).toNat + 32)
      else Char.ofNat n) = some v ↔ HexDigit (Char.ofNat n) v) := by
  decide +kernel

set_option maxRecDepth 4000 in
theorem fromHex_lt16 : ∀ n < 128, ∀ v ∈ fromHexChar (Char.ofNat n), v < 16 := by
  decide +kernel

theorem fromHexChar_lt {c : Char} {x : Nat} (h : fromHexChar c = some x) : c.toNat < 128 := by
  unfold fromHexChar at h
  have h9 : ('9' : Char).val.toNat = 57 := rfl
  have hf : ('f' : Char).val.toNat = 102 := rfl
  have hF : ('F' : Char).val.toNat = 70 := rfl
  split at h
  · next hc =>
    have := hc.2; rw [Char.le_def, UInt32.le_iff_toNat_le] at this; change c.toNat ≤ _ at this; omega
  · split at h
    · next hc =>
      have := hc.2; rw [Char.le_def, UInt32.le_iff_toNat_le] at this; change c.toNat ≤ _ at this; omega
    · split at h
      · next hc =>
        have := hc.2; rw [Char.le_def, UInt32.le_iff_toNat_le] at this; change c.toNat ≤ _ at this; omega
      · cases h

theorem fromHexChar_lt16 {c : Char} {x : Nat} (h : fromHexChar c = some x) : x < 16 :=
  forall_ascii (P := fun c => ∀ v ∈ fromHexChar c, v < 16) fromHex_lt16 c (fromHexChar_lt h) x h

/-- Whatever the character, reading it lowered is reading the digit. -/
theorem fromHexChar_lower (l : Lowering) (c : Char) (v : Nat) :
    fromHexChar (l.toLower c) = some v ↔ HexDigit c v := by
  by_cases hc : c.toNat < 128
  · rw [toLower_ascii l hc]
    by_cases hv : v < 16
    · exact forall_ascii (P := fun c => ∀ v < 16, (fromHexChar (if 'A' ≤ c ∧ c ≤ 'Z' then
        Char.ofNat (c.toNat + 32) else c) = some v ↔ HexDigit c v)) fromHex_ascii c hc v hv
    · exact ⟨fun h => absurd (fromHexChar_lt16 h) hv, fun h => absurd (hexDigit_lt h) hv⟩
  · have e : l.toLower c = l.lower c := by unfold Lowering.toLower; rw [if_neg hc]
    constructor
    · intro h
      rw [e] at h
      have hlt := fromHexChar_lt h
      rcases l.ascii c (by omega) with h' | h' | h'
      · omega
      · rw [h'] at h; exact absurd h (by simp [fromHexChar])
      · rw [h'] at h; exact absurd h (by simp [fromHexChar])
    · intro h
      exfalso; apply hc
      have hv := hexDigit_lt h
      have : ∀ v < 16, ∀ d ∈ ["0123456789abcdef".toList[v]?, "0123456789ABCDEF".toList[v]?],
          ∀ c ∈ d, c.toNat < 128 := by decide +kernel
      rcases h with h | h
      · exact this v hv _ (by simp) c h
      · exact this v hv _ (by simp) c h

set_option maxRecDepth 4000 in
theorem blank_ascii : ∀ n < 128,
    ((if 'A' ≤ Char.ofNat n ∧ Char.ofNat n ≤ 'Z' then Char.ofNat ((Char.ofNat n).toNat + 32)
      else Char.ofNat n) = ' ' ↔ Char.ofNat n = ' ') := by
  decide +kernel

theorem lower_blank (l : Lowering) (c : Char) : l.toLower c = ' ' ↔ c = ' ' := by
  by_cases hc : c.toNat < 128
  · rw [toLower_ascii l hc]
    exact forall_ascii (P := fun c => ((if 'A' ≤ c ∧ c ≤ 'Z' then
        Char.ofNat (c.toNat + 32) else c) = ' ' ↔ c = ' ')) blank_ascii c hc
  · have e : l.toLower c = l.lower c := by unfold Lowering.toLower; rw [if_neg hc]
    rw [e]
    constructor
    · intro h
      rcases l.ascii c (by omega) with h' | h' | h'
      · rw [h] at h'; exact absurd h' (by decide)
      · rw [h] at h'; exact absurd h' (by decide)
      · rw [h] at h'; exact absurd h' (by decide)
    · rintro rfl; exact absurd (by decide) hc

theorem filter_lower (l : Lowering) (s : Str) :
    (s.map l.toLower).filter (· ≠ ' ') = (noBlanks s).map l.toLower := by
  unfold noBlanks
  induction s with
  | nil => rfl
  | cons c cs ih =>
    rw [List.map_cons, List.filter_cons, List.filter_cons, ih]
    by_cases h : c = ' '
    · rw [if_neg (by simp [(lower_blank l c).mpr h]), if_neg (by simp [h])]
    · rw [if_pos (by simp [mt (lower_blank l c).mp h]), if_pos (by simp [h])]; rfl

theorem hexDecode_iff (l : Lowering) : ∀ (s : Str) (bs : Bytes),
    hexDecode (s.map l.toLower) = some bs ↔ HexBytes s bs
  | [], bs => by
    simp only [List.map_nil, hexDecode, Option.some.injEq]
    exact ⟨fun h => h ▸ .nil, fun h => by cases h; rfl⟩
  | [a], bs => by
    simp only [List.map_cons, List.map_nil, hexDecode]
    exact ⟨fun h => (by cases h), fun h => (by cases h)⟩
  | a :: b :: s, bs => by
    have ih := hexDecode_iff l s
    simp only [List.map_cons, hexDecode]
    constructor
    · intro h
      split at h
      · next x y bs' ha hb hs =>
        cases h
        rw [Nat.mul_comm x 16]
        exact .cons ((fromHexChar_lower l a x).mp ha) ((fromHexChar_lower l b y).mp hb) ((ih _).mp hs)
      · cases h
    · intro h
      cases h with
      | cons ha hb hs =>
        rw [(fromHexChar_lower l a _).mpr ha, (fromHexChar_lower l b _).mpr hb, (ih _).mpr hs]
        simp only
        rw [Nat.mul_comm]

theorem hexBytes_ascii (l : Lowering) {s : Str} {bs : Bytes} (h : HexBytes s bs) :
    byteLen (s.map l.toLower) = 2 * bs.length ∧ s.length = 2 * bs.length := by
  have one : ∀ {c : Char} {v : Nat}, HexDigit c v → (l.toLower c).utf8Size = 1 := by
    intro c v h
    have hlt := fromHexChar_lt ((fromHexChar_lower l c v).mpr h)
    unfold Char.utf8Size
    rw [if_pos]
    rw [UInt32.le_iff_toNat_le]
    change (l.toLower c).toNat ≤ 127
    omega
  induction h with
  | nil => exact ⟨rfl, rfl⟩
  | cons ha hb _ ih =>
    have e1 := one ha
    have e2 := one hb
    unfold byteLen at ih ⊢
    simp only [List.map_cons, List.sum_cons, List.length_cons]
    exact ⟨by omega, by omega⟩

/-- The bytes of an argument are those its digits denote, two for each byte, blanks being ignored and
either case being allowed; every other text is rejected with an error. -/
theorem C65_bytes (l : Lowering) (s : Str) :
    (∀ bs, hexStringToByte l s = .ok bs ↔ HexBytes (noBlanks s) bs) ∧
    ((¬ ∃ bs, HexBytes (noBlanks s) bs) → ∃ e, hexStringToByte l s = .err e) := by
  have key : ∀ bs, hexStringToByte l s = .ok bs ↔ HexBytes (noBlanks s) bs := by
    intro bs
    unfold hexStringToByte
    simp only [filter_lower]
    constructor
    · intro h
      split at h
      · cases h
      · split at h
        · cases h
        · next hd => cases h; exact (hexDecode_iff l _ _).mp hd
    · intro h
      rw [if_neg (by rw [(hexBytes_ascii l h).1]; omega), (hexDecode_iff l _ _).mpr h]
  refine ⟨key, fun hn => ?_⟩
  cases h : hexStringToByte l s with
  | ok bs => exact absurd ⟨bs, (key bs).mp h⟩ hn
  | err e => exact ⟨e, rfl⟩
  | panic =>
    exfalso
    unfold hexStringToByte at h
    simp only at h
    split at h
    · cases h
    · split at h <;> cases h

example : hexStringToByte asciiLowering "01 3a FF".toList = .ok [1, 0x3A, 0xFF] := by decide +kernel
example : hexStringToByte asciiLowering "013".toList = .err .other := by decide +kernel
example : hexStringToByte asciiLowering "0x30".toList = .err .other := by decide +kernel

theorem foldl_beNat (bs : Bytes) (n : Nat) :
    bs.foldl (fun n b => 256 * n + b.toNat) n = n * 256 ^ bs.length + beNat bs := by
  induction bs generalizing n with
  | nil => simp [beNat]
  | cons b bs ih =>
    rw [List.foldl_cons, ih, beNat, List.length_cons, Nat.pow_succ, Nat.add_mul,
      show 256 * n * 256 ^ bs.length = n * (256 ^ bs.length * 256) by
        rw [Nat.mul_comm 256 n, Nat.mul_assoc, Nat.mul_comm 256], Nat.add_assoc]

theorem foldl_shift (bs : Bytes) (r : BitVec 64) (n : Nat) (h : r = BitVec.ofNat 64 n) :
    bs.foldl (fun (result : BitVec 64) b => (result <<< 8) + b.setWidth 64) r =
      BitVec.ofNat 64 (bs.foldl (fun n b => 256 * n + b.toNat) n) := by
  induction bs generalizing r n with
  | nil => exact h
  | cons b bs ih =>
    rw [List.foldl_cons, List.foldl_cons]
    apply ih
    rw [h]
    apply BitVec.eq_of_toNat_eq
    simp only [BitVec.toNat_add, BitVec.toNat_shiftLeft, BitVec.toNat_ofNat, BitVec.toNat_setWidth,
      Nat.shiftLeft_eq]
    omega

theorem beNat_append (a b : Bytes) : beNat (a ++ b) = beNat a * 256 ^ b.length + beNat b := by
  have h1 := foldl_beNat (a ++ b) 0
  rw [List.foldl_append, foldl_beNat a 0, foldl_beNat b, Nat.zero_mul, Nat.zero_mul, Nat.zero_add,
    Nat.zero_add] at h1
  exact h1.symm

theorem int_of_bytes (l : Lowering) (s : Str) (bs : Bytes) (h : HexBytes (noBlanks s) bs) :
    hexStringToInt l s = .ok (BitVec.ofNat 64 (beNat bs)) := by
  unfold hexStringToInt
  rw [((C65_bytes l s).1 bs).mpr h]
  simp only [Res.ok_bind]
  rw [foldl_shift bs 0 0 rfl, foldl_beNat, Nat.zero_mul, Nat.zero_add]

/-- The number of an argument of at most seven bytes is the one its digits denote; a text that is not
hexadecimal, two digits for each byte, is rejected with an error. Missing for the whole property: longer
arguments, whose first digits are lost, and numbers of an odd number of digits, which are rejected. -/
theorem C65_number_partial (l : Lowering) (s : Str) :
    (∀ bs, HexBytes (noBlanks s) bs → bs.length ≤ 7 →
      ∃ v, hexStringToInt l s = .ok v ∧ v.toInt = (beNat bs : Int)) ∧
    ((¬ ∃ bs, HexBytes (noBlanks s) bs) → ∃ e, hexStringToInt l s = .err e) := by
  refine ⟨fun bs h hl => ⟨_, int_of_bytes l s bs h, ?_⟩, fun hn => ?_⟩
  · have h1 := Lemmas.beNat_lt bs
    have h2 : 256 ^ bs.length ≤ 256 ^ 7 := Nat.pow_le_pow_right (by decide) hl
    have h3 : beNat bs < 2 ^ 63 := by
      have : (256 : Nat) ^ 7 < 2 ^ 63 := by decide
      omega
    have h4 : (BitVec.ofNat 64 (beNat bs)).toNat = beNat bs := by
      rw [BitVec.toNat_ofNat, Nat.mod_eq_of_lt (by omega)]
    rw [BitVec.toInt_eq_toNat_of_lt (by rw [h4]; omega), h4]
  · obtain ⟨e, he⟩ := (C65_bytes l s).2 hn
    exact ⟨e, by unfold hexStringToInt; rw [he]; rfl⟩

example : hexStringToInt asciiLowering "0130 01".toList = .ok 0x013001 := by decide +kernel

theorem hexBytes_append {s t : Str} {bs cs : Bytes} (h : HexBytes s bs) (h' : HexBytes t cs) :
    HexBytes (s ++ t) (bs ++ cs) := by
  induction h with
  | nil => exact h'
  | cons ha hb _ ih => exact .cons ha hb ih

/-- The claim fails for long arguments: digits before the last sixteen do not count, so that two texts
denoting different numbers are read as the same one, without an error. -/
theorem C65_refuted_long (l : Lowering) (s t : Str) (bs cs : Bytes)
    (hs : HexBytes (noBlanks s) bs) (ht : HexBytes (noBlanks t) cs) (h8 : cs.length = 8) :
    hexStringToInt l (s ++ t) = hexStringToInt l t := by
  have e : noBlanks (s ++ t) = noBlanks s ++ noBlanks t := List.filter_append ..
  rw [int_of_bytes l (s ++ t) (bs ++ cs) (e ▸ hexBytes_append hs ht), int_of_bytes l t cs ht]
  congr 1
  apply BitVec.eq_of_toNat_eq
  rw [BitVec.toNat_ofNat, BitVec.toNat_ofNat]
  rw [beNat_append, h8, show (256 : Nat) ^ 8 = 2 ^ 64 by decide, Nat.mul_comm, Nat.mul_add_mod]

example : hexStringToInt asciiLowering ("02".toList ++ "0000000000000080".toList) = .ok 0x80 := by
  decide +kernel

/-- The claim also fails for an odd number of digits: a number written without a leading zero is
rejected. -/
theorem C65_refuted_odd (l : Lowering) (s : Str) (n : Nat) (_ : HexNumber s n)
    (h : (noBlanks s).length % 2 = 1) : ∃ e, hexStringToInt l s = .err e := by
  refine (C65_number_partial l s).2 ?_
  rintro ⟨bs, hb⟩
  have := (hexBytes_ascii l hb).2
  omega

example : HexNumber "130".toList 0x130 :=
  .snoc (.snoc (.digit (v := 1) (by decide)) (v := 3) (by decide)) (v := 0) (by decide)

end Verif.Props
