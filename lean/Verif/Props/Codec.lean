import Verif.Lemmas.Fields

/-! # C01, C10, C13: integer codec, transaction identifiers, object codes -/

namespace Verif.Props
open Verif Model Spec Lemmas

/-- C01. Writing then reading gives the value modulo 256^size, for every uint width `w`. -/
theorem C01_write_read (w : Nat) (v : BitVec w) (buf : Bytes) :
    (byteToInteger w (integerToByte v buf)).toNat = v.toNat % 256 ^ buf.length := by
  rw [byteToInteger_toNat, integerToByte_eq, beNat_beBytes, Nat.mod_eq_of_lt]
  exact Nat.lt_of_le_of_lt (Nat.mod_le _ _) v.isLt

/-- C01. A value that fits is read back unchanged. -/
theorem C01_write_read_fits (w : Nat) (v : BitVec w) (buf : Bytes)
    (h : v.toNat < 256 ^ buf.length) : byteToInteger w (integerToByte v buf) = v := by
  apply BitVec.eq_of_toNat_eq
  rw [C01_write_read, Nat.mod_eq_of_lt h]

example : byteToInteger 64 (integerToByte (0xFFFF : BitVec 64) [7, 7]) = 0xFFFF :=
  C01_write_read_fits 64 0xFFFF [7, 7] (by decide)

/-- C01. Reading a buffer that fits the uint and writing it into any buffer of the same
size restores the bytes. -/
theorem C01_read_write (w : Nat) (b buf : Bytes) (hl : buf.length = b.length)
    (hw : 8 * b.length ≤ w) : integerToByte (byteToInteger w b) buf = b := by
  rw [integerToByte_eq, byteToInteger_toNat, hl, Nat.mod_eq_of_lt, beBytes_beNat]
  have h1 := beNat_lt b
  have h2 : (256 : Nat) ^ b.length = 2 ^ (8 * b.length) := by rw [Nat.pow_mul]
  rw [h2] at h1
  exact Nat.lt_of_lt_of_le h1 (Nat.pow_le_pow_right (by decide) hw)

example : integerToByte (byteToInteger 24 [0x01, 0x02, 0x03]) [7, 7, 7] = [0x01, 0x02, 0x03] :=
  C01_read_write 24 [0x01, 0x02, 0x03] [7, 7, 7] rfl (by decide)

/-- C01. Both directions are big endian: the value of a byte string is
`Σ bᵢ · 256^(n-1-i)`, and writing gives the big endian digits. -/
theorem C01_big_endian (w : Nat) (v : BitVec w) (b : Bytes) :
    (byteToInteger w b).toNat = beNat b % 2 ^ w ∧
    integerToByte v b = beBytes b.length v.toNat :=
  ⟨byteToInteger_toNat w b, integerToByte_eq v b⟩

example : byteToInteger 64 [0x01, 0x02, 0x03] = 0x010203 ∧
    integerToByte (0x010203 : BitVec 64) [9, 9, 9, 9] = [0x00, 0x01, 0x02, 0x03] ∧
    integerToByte (0x010203 : BitVec 64) [9, 9] = [0x02, 0x03] := by decide

/-- C10. `TID()` after `SetTID(v)`: `v` up to 65535, `v mod 65535` above. -/
theorem C10_tid (m : Message) (hm : Built m) (v : GoUint) :
    (m.setTID v).getTID.toNat = if v.toNat ≤ 65535 then v.toNat else v.toNat % 65535 := by
  have hw := Built.wf hm
  rw [getTID_toNat (hw.setTID v).tid, setTID_tid hw.tid, beNat_beBytes, Nat.mod_eq_of_lt]
  split <;> omega

/-- C10. `TID()` never exceeds 65535. -/
theorem C10_tid_le (m : Message) (hm : Built m) : m.getTID.toNat ≤ 65535 := by
  have hw := Built.wf hm
  rw [getTID_toNat hw.tid]
  have := beNat_lt m.tid
  rw [hw.tid] at this
  omega

/-- A message made and changed meets the hypothesis of `C10_tid` and of `C10_tid_le`. -/
example : (((Message.new.setESV 0x62).setTID 70000).getTID.toNat = 70000 % 65535) ∧
    ((Message.new.setESV 0x62).setTID 70000).getTID.toNat ≤ 65535 :=
  ⟨C10_tid _ (.setESV 0x62 .new) 70000, C10_tid_le _ (.setTID 70000 (.setESV 0x62 .new))⟩

/-- C10. `SetTID` changes nothing but the transaction identifier. -/
theorem C10_frame (m : Message) (v : GoUint) : { m.setTID v with tid := m.tid } = m := rfl

example : (Message.new.setTID 65535).getTID = 65535 ∧ (Message.new.setTID 65536).getTID = 1 ∧
    (Message.new.setTID 131070).getTID = 0 := by decide

/-- C13. `SEOJ()` and `DEOJ()` return what was set, modulo 2^24. -/
theorem C13_eoj (m : Message) (hm : Built m) (c : ObjectCode) :
    (m.setSEOJ c).getSEOJ.toNat = c.toNat % 2 ^ 24 ∧
    (m.setDEOJ c).getDEOJ.toNat = c.toNat % 2 ^ 24 ∧
    (m.setSEOJ c).getDEOJ = m.getDEOJ ∧ (m.setDEOJ c).getSEOJ = m.getSEOJ := by
  have hw := Built.wf hm
  refine ⟨?_, ?_, rfl, rfl⟩
  · rw [Message.getSEOJ, Message.setSEOJ, C01_write_read, hw.seoj]
  · rw [Message.getDEOJ, Message.setDEOJ, C01_write_read, hw.deoj]

example : ((Message.new.setTID 7).setSEOJ 0x1013001).getSEOJ.toNat = 0x013001 :=
  (C13_eoj _ (.setTID 7 .new) 0x1013001).1

/-- C13. `SetSEOJ`/`SetDEOJ` change nothing else. -/
theorem C13_frame (m : Message) (c : ObjectCode) :
    { m.setSEOJ c with seoj := m.seoj } = m ∧ { m.setDEOJ c with deoj := m.deoj } = m :=
  ⟨rfl, rfl⟩

/-- C13. `NewObjectCodeFromBytes` accepts exactly three bytes, big endian. -/
theorem C13_fromBytes (b : Bytes) :
    (b.length = 3 → ∃ c, ObjectCode.fromBytes b = .ok c ∧ c.toNat = beNat b) ∧
    (b.length ≠ 3 → ObjectCode.fromBytes b = .err .invalid) := by
  constructor
  · intro h
    refine ⟨byteToInteger 64 b, by simp [ObjectCode.fromBytes, h], ?_⟩
    rw [byteToInteger_toNat, Nat.mod_eq_of_lt]
    have := beNat_lt b
    rw [h] at this; omega
  · intro h; simp [ObjectCode.fromBytes, h]

example : (∃ c, ObjectCode.fromBytes [1, 0x30, 2] = .ok c ∧ c.toNat = beNat [1, 0x30, 2]) ∧
    ObjectCode.fromBytes [1, 0x30] = .err .invalid :=
  ⟨(C13_fromBytes [1, 0x30, 2]).1 rfl, (C13_fromBytes [1, 0x30]).2 (by decide)⟩

/-- C13. `NewObjectCodeFromBytes` inverts `ObjectCode.Bytes` on 24-bit codes, and conversely. -/
theorem C13_bytes (c : ObjectCode) (h : c.toNat < 2 ^ 24) :
    ObjectCode.fromBytes (ObjectCode.bytes c) = .ok c := by
  have hl : (ObjectCode.bytes c).length = 3 := by
    simp [ObjectCode.bytes, integerToByte_length]
  rw [ObjectCode.fromBytes, if_neg (by simp [hl]), ObjectCode.bytes, C01_write_read_fits]
  simpa using h

example : ObjectCode.fromBytes (ObjectCode.bytes 0xFFFFFF) = .ok 0xFFFFFF := C13_bytes 0xFFFFFF (by decide)

theorem C13_bytes' (b : Bytes) (c : ObjectCode) (h : ObjectCode.fromBytes b = .ok c) :
    ObjectCode.bytes c = b := by
  by_cases hl : b.length = 3
  · rw [ObjectCode.fromBytes, if_neg (by simp [hl])] at h
    injection h with h
    subst h
    exact C01_read_write 64 b _ (by simp [hl]) (by omega)
  · simp [ObjectCode.fromBytes, hl] at h

example : ObjectCode.fromBytes [0x0E, 0xF0, 0x01] = .ok 0x0EF001 ∧
    ObjectCode.bytes 0x013001 = [0x01, 0x30, 0x01] ∧
    (Message.new.setSEOJ 0x05FF01).getSEOJ = 0x05FF01 := by decide

end Verif.Props
