import Verif.Lemmas.PropertyMap
import Verif.Props.Codec

/-! # C18 to C22: property values, services and property maps -/

namespace Verif.Props
open Verif Model Spec Lemmas

/-- C18. `AsInteger` after `SetInteger(v, n)`; the data has `n` bytes, big endian; nothing else
changes. -/
theorem C18_integer (p : EProp) (v n : GoUint) :
    (n.toNat ≠ 0 → ∃ r, (p.setInteger v n).asInteger = .ok r ∧ r.toNat = v.toNat % 256 ^ n.toNat) ∧
    (n.toNat = 0 → (p.setInteger v n).asInteger = .err .noData) ∧
    (p.setInteger v n).data = beBytes n.toNat v.toNat ∧
    (p.setInteger v n).data.length = n.toNat ∧
    { p.setInteger v n with data := p.data } = p := by
  have hd : (p.setInteger v n).data = beBytes n.toNat v.toNat := by
    show integerToByte v (List.replicate n.toNat 0) = _
    rw [integerToByte_eq, List.length_replicate]
  have hl : (p.setInteger v n).data.length = n.toNat := by
    rw [hd]; exact beBytes_length _ _
  refine ⟨fun h => ?_, fun h => ?_, hd, hl, rfl⟩
  · refine ⟨_, if_neg (by rw [hl]; exact h), ?_⟩
    show (byteToInteger 64 (integerToByte v (List.replicate n.toNat 0))).toNat = _
    rw [C01_write_read, List.length_replicate]
  · exact if_pos (by rw [hl]; exact h)

example : (EProp.new.setInteger 0x123456 2).asInteger = .ok 0x3456 ∧
    (EProp.new.setInteger 0x123456 12).asInteger = .ok 0x123456 ∧
    (EProp.new.setInteger 0x123456 0).asInteger = .err .noData := by decide

/-- C19. The typed reads succeed exactly on data of the right size, with the value of that data;
otherwise they return an error, and they never panic. -/
theorem C19_typed (p : EProp) :
    ((∃ b, p.asByte = .ok b) ↔ p.data.length = 1) ∧
    (∀ b, p.asByte = .ok b ↔ p.data = [b]) ∧
    (∀ s, p.asString = .ok s ↔ p.data ≠ [] ∧ s = p.data) ∧
    (∀ v, p.asInteger = .ok v ↔ p.data ≠ [] ∧ v.toNat = beNat p.data % 2 ^ 64) ∧
    p.asByte ≠ .panic ∧ p.asString ≠ .panic ∧ p.asInteger ≠ .panic := by
  have hi : ∀ v, p.asInteger = .ok v ↔ p.data ≠ [] ∧ v.toNat = beNat p.data % 2 ^ 64 := by
    intro v
    unfold EProp.asInteger
    have hl : p.data.length = 0 ↔ p.data = [] := List.length_eq_zero_iff
    split
    · next h => simp [hl.mp h]
    · next h =>
      rw [hl] at h
      simp only [Res.ok.injEq, h, ne_eq, not_false_eq_true, true_and]
      rw [← byteToInteger_toNat]
      constructor
      · intro h; rw [h]
      · intro h; exact (BitVec.eq_of_toNat_eq h).symm
  have hip : p.asInteger ≠ .panic := by unfold EProp.asInteger; split <;> simp
  match hd : p.data with
  | [] => simp [EProp.asByte, EProp.asString, hd] at hi hip ⊢; exact ⟨hi, hip⟩
  | [b] => simp [EProp.asByte, EProp.asString, hd, rd, eq_comm] at hi hip ⊢; exact ⟨hi, hip⟩
  | b :: c :: d => simp [EProp.asByte, EProp.asString, hd, eq_comm] at hi hip ⊢; exact ⟨hi, hip⟩

example : (EProp.new.setData [0x30]).asByte = .ok 0x30 ∧
    (EProp.new.setData [0x30, 0x31]).asByte = .err .invalid ∧
    (EProp.new.setData [0x30, 0x31]).asInteger = .ok 0x3031 := by decide

/-- C19, of the properties of messages: the typed reads succeed exactly on data of the right size, with the value of that data;
otherwise they return an error, and they never panic. -/
theorem C19_typed_message (p : PProp) :
    ((∃ b, p.asByte = .ok b) ↔ p.data.length = 1) ∧
    (∀ b, p.asByte = .ok b ↔ p.data = [b]) ∧
    (∀ s, p.asString = .ok s ↔ p.data ≠ [] ∧ s = p.data) ∧
    (∀ v, p.asInteger = .ok v ↔ p.data ≠ [] ∧ v.toNat = beNat p.data % 2 ^ 64) ∧
    p.asByte ≠ .panic ∧ p.asString ≠ .panic ∧ p.asInteger ≠ .panic := by
  have hi : ∀ v, p.asInteger = .ok v ↔ p.data ≠ [] ∧ v.toNat = beNat p.data % 2 ^ 64 := by
    intro v
    unfold PProp.asInteger
    have hl : p.data.length = 0 ↔ p.data = [] := List.length_eq_zero_iff
    split
    · next h => simp [hl.mp h]
    · next h =>
      rw [hl] at h
      simp only [Res.ok.injEq, h, ne_eq, not_false_eq_true, true_and]
      rw [← byteToInteger_toNat]
      constructor
      · intro h; rw [h]
      · intro h; exact (BitVec.eq_of_toNat_eq h).symm
  have hip : p.asInteger ≠ .panic := by unfold PProp.asInteger; split <;> simp
  match hd : p.data with
  | [] => simp [PProp.asByte, PProp.asString, hd] at hi hip ⊢; exact ⟨hi, hip⟩
  | [b] => simp [PProp.asByte, PProp.asString, hd, rd, eq_comm] at hi hip ⊢; exact ⟨hi, hip⟩
  | b :: c :: d => simp [PProp.asByte, PProp.asString, hd, eq_comm] at hi hip ⊢; exact ⟨hi, hip⟩

example : (PProp.mk 0x80 [0x30]).asByte = .ok 0x30 ∧ (PProp.mk 0x80 []).asString = .err .noData ∧
    (PProp.mk 0x80 [1, 2]).asInteger = .ok 0x102 ∧ (PProp.mk 0x80 [1, 2]).asByte = .err .invalid := by decide

/-- C20. Availability of a service, in terms of the attributes: a property is readable, writable
or announceable when the attribute is not `Prohibited` (0). -/
theorem C20_available (p : EProp) (esv : Byte) :
    p.isAvailableService esv = true ↔
      ((esv = 0x60 ∨ esv = 0x61) ∧ p.setAttr ≠ 0) ∨ (esv = 0x62 ∧ p.getAttr ≠ 0) ∨
      ((esv = 0x63 ∨ esv = 0x74) ∧ p.annoAttr ≠ 0) ∨
      (esv = 0x6E ∧ p.setAttr ≠ 0 ∧ p.getAttr ≠ 0) := by
  have key : ∀ (esv : Byte) (g s a : Bool),
      (if esv = ESV.writeRequest then (if s then true else false)
        else if esv = ESV.writeRequestResponseRequired then (if s then true else false)
        else if esv = ESV.readRequest then (if g then true else false)
        else if esv = ESV.notificationRequest then (if a then true else false)
        else if esv = ESV.writeReadRequest then (if s && g then true else false)
        else if esv = ESV.notificationResponseRequired then (if a then true else false)
        else false) = true ↔
      ((esv = 0x60 ∨ esv = 0x61) ∧ s = true) ∨ (esv = 0x62 ∧ g = true) ∨
      ((esv = 0x63 ∨ esv = 0x74) ∧ a = true) ∨ (esv = 0x6E ∧ s = true ∧ g = true) := by
    decide +kernel
  have hg : p.isReadable = true ↔ p.getAttr ≠ 0 := by
    simp [EProp.isReadable, Attr.isProhibited, Attr.prohibited]
  have hs : p.isWritable = true ↔ p.setAttr ≠ 0 := by
    simp [EProp.isWritable, Attr.isProhibited, Attr.prohibited]
  have ha : p.isAnnounceable = true ↔ p.annoAttr ≠ 0 := by
    simp [EProp.isAnnounceable, Attr.isProhibited, Attr.prohibited]
  unfold EProp.isAvailableService
  rw [key, hg, hs, ha]

/-- C20. Read-only and write-only, in terms of the attributes. -/
theorem C20_only (p : EProp) :
    (p.isReadOnly = true ↔ p.getAttr ≠ 0 ∧ p.setAttr = 0) ∧
    (p.isWriteOnly = true ↔ p.setAttr ≠ 0 ∧ p.getAttr = 0) := by
  simp only [EProp.isReadOnly, EProp.isWriteOnly, EProp.isReadable, EProp.isWritable,
    Attr.isProhibited, Attr.prohibited]
  by_cases h1 : p.getAttr = 0 <;> by_cases h2 : p.setAttr = 0 <;> simp_all [and_comm]

/-- C20. An attribute is prohibited, required or optional as its value says; so of two of these only one. -/
theorem C20_attributes (a : Attr) :
    (a.isProhibited = true ↔ a = 0) ∧ (a.isRequired = true ↔ a = 1) ∧ (a.isOptional = true ↔ a = 2) ∧
    ¬ (a.isProhibited = true ∧ a.isRequired = true) ∧ ¬ (a.isProhibited = true ∧ a.isOptional = true) ∧
    ¬ (a.isRequired = true ∧ a.isOptional = true) := by
  have h0 : a.isProhibited = true ↔ a = 0 := beq_iff_eq
  have h1 : a.isRequired = true ↔ a = 1 := beq_iff_eq
  have h2 : a.isOptional = true ↔ a = 2 := beq_iff_eq
  refine ⟨h0, h1, h2, ?_, ?_, ?_⟩
  · rw [h0, h1]; rintro ⟨rfl, h⟩; exact absurd h (by decide)
  · rw [h0, h2]; rintro ⟨rfl, h⟩; exact absurd h (by decide)
  · rw [h1, h2]; rintro ⟨rfl, h⟩; exact absurd h (by decide)

example : (EProp.make 0x80 "" [] 1 0 2).isAvailableService 0x62 = true ∧
    (EProp.make 0x80 "" [] 1 0 2).isAvailableService 0x61 = false ∧
    (EProp.make 0x80 "" [] 1 0 2).isAvailableService 0x6E = false ∧
    (EProp.make 0x80 "" [] 1 0 2).isAvailableService 0x74 = true := by decide

/-- The code of one of the three property map properties. -/
def IsMapCode (c : Byte) : Prop := c = 0x9D ∨ c = 0x9E ∨ c = 0x9F

/-- C21. Up to 15 codes: the written data is the standard description, and it is read back as
the same list. -/
theorem C21_round_trip (p : EProp) (hp : IsMapCode p.code) (cs : List Byte) (h : cs.length ≤ 15) :
    ∃ d, propertyMapBytes cs = .ok d ∧ d = Spec.propertyMap cs ∧
      (p.setData d).propertyMapData = .ok cs := by
  refine ⟨_, propertyMapBytes_format1 cs h, ?_, ?_⟩
  · simp [Spec.propertyMap, h]
  · exact propertyMapData_format1 (p.setData (BitVec.ofNat 8 cs.length :: cs)) hp cs h rfl

/-- C21. A property of any other code has no property map. -/
theorem C21_other_code (p : EProp) (hp : ¬ IsMapCode p.code) :
    p.propertyMapData = .err .invalid := by
  unfold EProp.propertyMapData
  rw [if_neg]
  intro h
  apply hp
  rcases h with h | h | h <;> simp [IsMapCode, h]

/-- Decoding never panics. -/
theorem C21_no_panic (p : EProp) : p.propertyMapData ≠ .panic := by
  by_cases hp : IsMapCode p.code
  · match hd : p.data with
    | [] =>
      unfold EProp.propertyMapData
      rw [if_pos (by rcases hp with h | h | h <;> simp [h]), hd]
      simp
    | n :: tl =>
      by_cases h15 : n.toNat ≤ 15
      · by_cases hl : tl.length = n.toNat
        · rw [propertyMapData_format1 p hp tl (by omega) (by rw [hd, hl]; simp)]
          simp
        · unfold EProp.propertyMapData
          rw [if_pos (by rcases hp with h | h | h <;> simp [h]), hd, if_neg (by simp)]
          simp only [rd, List.getElem?_cons_zero, Res.ok_bind]
          rw [if_pos (isFormat1_true h15), if_pos (by simp [hl])]
          simp
      · by_cases hl : tl.length = 16
        · have hf : tl = (List.range 16).map (fun i => tl[i]?.getD 0) := by
            apply List.ext_getElem
            · simp [hl]
            · intro i h1 h2
              simp [h1]
          rw [propertyMapData_format2 p hp n (fun i => tl[i]?.getD 0) (by omega) (by rw [hd, ← hf])]
          simp
        · unfold EProp.propertyMapData
          rw [if_pos (by rcases hp with h | h | h <;> simp [h]), hd, if_neg (by simp)]
          simp only [rd, List.getElem?_cons_zero, Res.ok_bind]
          rw [if_neg (by simp [isFormat1_false (show 15 < n.toNat by omega)]),
            if_pos (isFormat2_true (by omega)),
            if_pos (by simp [propertyMapFormat2MapSize, hl])]
          simp
  · rw [C21_other_code p hp]; simp

example : ((EProp.make 0x9F "" [] 1 0 0).setData [3, 0x80, 0xFF, 0x9F]).propertyMapData
    = .ok [0x80, 0xFF, 0x9F] := by decide

/-- Membership in the decoded list of a row. -/
theorem mem_byteToCodes (r : Nat) (_hr : r < 16) (b c : Byte) :
    c ∈ propertyMapFormat2ByteToCodes r b ↔
      ∃ n < 4, b.getLsbD n = true ∧ c = BitVec.ofNat 8 (0x80 + 0x10 * n + r) := by
  rw [byteToCodes_eq]
  simp only [List.mem_map, List.mem_filter, List.mem_range]
  constructor
  · rintro ⟨n, ⟨h1, h2⟩, rfl⟩
    refine ⟨n, h1, h2, ?_⟩
    unfold propertyMapFormat2BitToCode
    congr 1
    show 16 * n + 128 + r = _
    omega
  · rintro ⟨n, h1, h2, rfl⟩
    refine ⟨n, ⟨h1, h2⟩, ?_⟩
    unfold propertyMapFormat2BitToCode
    congr 1
    show 16 * n + 128 + r = _
    omega

theorem code_split (c : Byte) (h : 0x80 ≤ c.toNat) :
    c.toNat = 0x80 + 0x10 * ((c.toNat - 0x80) / 16) + c.toNat % 16 := by omega

/-- What decoding gives for rows with known bits. -/
theorem mem_decode (f : Nat → Byte) (c : Byte) :
    c ∈ (List.range 16).flatMap (fun r => propertyMapFormat2ByteToCodes r (f r)) ↔
      0x80 ≤ c.toNat ∧ c.toNat < 0xC0 ∧ (f (c.toNat % 16)).getLsbD ((c.toNat - 0x80) / 16) = true := by
  simp only [List.mem_flatMap, List.mem_range]
  constructor
  · rintro ⟨r, hr, h⟩
    obtain ⟨n, hn, hb, hc⟩ := (mem_byteToCodes r hr _ c).mp h
    have hcn : c.toNat = 0x80 + 0x10 * n + r := by
      rw [hc, BitVec.toNat_ofNat]; omega
    have h1 : c.toNat % 16 = r := by omega
    have h2 : (c.toNat - 0x80) / 16 = n := by omega
    rw [h1, h2]
    exact ⟨by omega, by omega, hb⟩
  · rintro ⟨h1, h2, h3⟩
    refine ⟨c.toNat % 16, by omega, (mem_byteToCodes _ (by omega) _ c).mpr
      ⟨(c.toNat - 0x80) / 16, by omega, h3, ?_⟩⟩
    rw [← code_split c h1, BitVec.ofNat_toNat, BitVec.setWidth_eq]

/-- The decoded list has no duplicates. -/
theorem nodup_decode (f : Nat → Byte) :
    ((List.range 16).flatMap (fun r => propertyMapFormat2ByteToCodes r (f r))).Nodup := by
  rw [List.Nodup, List.pairwise_flatMap]
  constructor
  · intro r hr
    rw [byteToCodes_eq, List.pairwise_map]
    apply List.Pairwise.filter
    apply List.Pairwise.imp_of_mem (R := (· < ·)) _ (List.pairwise_lt_range (n := 4))
    intro a b ha hb hab h
    have := congrArg BitVec.toNat h
    simp only [propertyMapFormat2BitToCode, BitVec.toNat_ofNat, propertyCodeMin] at this
    simp only [List.mem_range] at ha hb hr
    omega
  · apply List.Pairwise.imp_of_mem (R := (· < ·)) _ (List.pairwise_lt_range (n := 16))
    intro a b ha hb hab x hx y hy hxy
    simp only [List.mem_range] at ha hb
    obtain ⟨n, hn, -, h1⟩ := (mem_byteToCodes a ha _ x).mp hx
    obtain ⟨m, hm, -, h2⟩ := (mem_byteToCodes b hb _ y).mp hy
    rw [hxy, h2] at h1
    have := congrArg BitVec.toNat h1
    simp only [BitVec.toNat_ofNat] at this
    omega

/-- C22, what holds: 16 to 255 codes are written without failure, and reading back gives exactly
the listed codes from 0x80 to 0xBF, each once. (Missing: the codes from 0xC0 on.) -/
theorem C22_read_back_partial (p : EProp) (hp : IsMapCode p.code) (cs : List Byte)
    (h1 : 16 ≤ cs.length) (h2 : cs.length ≤ 255) :
    ∃ d out, propertyMapBytes cs = .ok d ∧ (p.setData d).propertyMapData = .ok out ∧ out.Nodup ∧
      d.length = 17 ∧ ∀ c, c ∈ out ↔ c ∈ cs ∧ 0x80 ≤ c.toNat ∧ c.toNat < 0xC0 := by
  have hn : (BitVec.ofNat 8 cs.length).toNat = cs.length := by simp; omega
  refine ⟨_, _, propertyMapBytes_format2 cs (by omega),
    propertyMapData_format2
      (p.setData (BitVec.ofNat 8 cs.length :: (List.range 16).map (rowOf cs))) hp
      (BitVec.ofNat 8 cs.length) (rowOf cs) (by omega) rfl, nodup_decode _, by simp, ?_⟩
  intro c
  rw [mem_decode]
  constructor
  · rintro ⟨a, b, h⟩
    rw [rowOf_bit cs _ _ (by omega) (by omega)] at h
    simp only [Bool.and_eq_true, mapBit, List.contains_iff_mem] at h
    rw [← code_split c a, BitVec.ofNat_toNat, BitVec.setWidth_eq] at h
    exact ⟨h.2, a, b⟩
  · rintro ⟨h, a, b⟩
    refine ⟨a, b, ?_⟩
    rw [rowOf_bit cs _ _ (by omega) (by omega)]
    simp only [Bool.and_eq_true, mapBit, List.contains_iff_mem]
    rw [← code_split c a, BitVec.ofNat_toNat, BitVec.setWidth_eq]
    exact ⟨decide_eq_true (by omega), h⟩

/-- C22, what holds: if no code lies above 0xBF, the data written is the standard bitmap and the
same set of codes is read back. -/
theorem C22_below_C0_partial (p : EProp) (hp : IsMapCode p.code) (cs : List Byte)
    (h1 : 16 ≤ cs.length) (h2 : cs.length ≤ 255)
    (hc : ∀ c ∈ cs, 0x80 ≤ c.toNat ∧ c.toNat < 0xC0) :
    ∃ out, propertyMapBytes cs = .ok (Spec.propertyMap cs) ∧
      (p.setData (Spec.propertyMap cs)).propertyMapData = .ok out ∧
      ∀ c, c ∈ out ↔ c ∈ cs := by
  have hspec : propertyMapBytes cs = .ok (Spec.propertyMap cs) := by
    rw [propertyMapBytes_format2 cs (by omega), Spec.propertyMap, if_neg (by omega)]
    congr 2
    apply List.map_congr_left
    intro r hr
    simp only [List.mem_range] at hr
    apply byte_ext
    intro b hb
    rw [ofBits_bit _ _ hb, rowOf_bit cs r b hr hb]
    by_cases hb4 : b < 4
    · simp [hb4]
    · simp only [hb4, decide_false, Bool.false_and]
      symm
      rw [Bool.eq_false_iff]
      intro hm
      simp only [mapBit, List.contains_iff_mem] at hm
      have := hc _ hm
      simp only [BitVec.toNat_ofNat] at this
      omega
  obtain ⟨d, out, hd, ho, -, -, hm⟩ := C22_read_back_partial p hp cs h1 h2
  rw [hspec] at hd
  cases hd
  refine ⟨out, hspec, ho, fun c => ?_⟩
  rw [hm]
  exact ⟨fun h => h.1, fun h => ⟨h, hc c h⟩⟩

/-- Sixteen codes below C0: written and read back as they are. -/
example : let cs : List Byte := [0x80, 0x81, 0x82, 0x83, 0x88, 0x8A, 0x9D, 0x9E, 0x9F, 0xB0, 0xB1, 0xA0, 0xA1, 0xA2, 0xA3, 0xBF]
    16 ≤ cs.length ∧ cs.length ≤ 255 ∧ (∀ c ∈ cs, 0x80 ≤ c.toNat ∧ c.toNat < 0xC0) ∧
    IsMapCode (EProp.make 0x9F "" [] 1 0 0).code := by
  refine ⟨by decide, by decide, by decide +kernel, by unfold IsMapCode; decide⟩

/-- C22 refuted, writing: whenever 16 to 255 codes include one from 0xC0 on, the data written is
not the standard bitmap, and that code is not read back. -/
theorem C22_refuted_write (p : EProp) (hp : IsMapCode p.code) (cs : List Byte)
    (h1 : 16 ≤ cs.length) (h2 : cs.length ≤ 255) (c : Byte) (hc : c ∈ cs) (hc' : 0xC0 ≤ c.toNat) :
    ∃ d out, propertyMapBytes cs = .ok d ∧ (p.setData d).propertyMapData = .ok out ∧
      c ∉ out ∧ d ≠ Spec.propertyMap cs := by
  obtain ⟨d, out, hd, ho, -, -, hm⟩ := C22_read_back_partial p hp cs h1 h2
  refine ⟨d, out, hd, ho, fun h => ?_, fun h => ?_⟩
  · have := (hm c).mp h; omega
  · rw [propertyMapBytes_format2 cs (by omega)] at hd
    cases hd
    rw [Spec.propertyMap, if_neg (by omega)] at h
    have h' := (List.cons.inj h).2
    have := List.map_inj_left.mp h' (c.toNat % 16) (by simp; omega)
    have hb := congrArg (fun x => x.getLsbD ((c.toNat - 0x80) / 16)) this
    try simp only at hb
    have hlt := c.isLt
    rw [ofBits_bit _ _ (by omega), rowOf_bit cs _ _ (by omega) (by omega)] at hb
    rw [decide_eq_false (by omega), Bool.false_and] at hb
    simp only [mapBit] at hb
    rw [← code_split c (by omega), BitVec.ofNat_toNat, BitVec.setWidth_eq] at hb
    have := List.contains_iff_mem.mpr hc
    rw [← hb] at this
    cases this

/-- C22 refuted, reading: a standard bitmap written by any other implementation is read without
its codes from 0xC0 on. -/
theorem C22_refuted_read (p : EProp) (hp : IsMapCode p.code) (cs : List Byte)
    (h1 : 16 ≤ cs.length) (h2 : cs.length ≤ 255) :
    ∃ out, (p.setData (Spec.propertyMap cs)).propertyMapData = .ok out ∧
      ∀ c, c ∈ out ↔ c ∈ cs ∧ 0x80 ≤ c.toNat ∧ c.toNat < 0xC0 := by
  have hn : (BitVec.ofNat 8 cs.length).toNat = cs.length := by simp; omega
  refine ⟨_, propertyMapData_format2 (p.setData (Spec.propertyMap cs)) hp
    (BitVec.ofNat 8 cs.length) (fun r => BitVec.ofNat 8 (ofBits (mapBit cs r))) (by omega) ?_, ?_⟩
  · show Spec.propertyMap cs = _
    rw [Spec.propertyMap, if_neg (by omega)]
  · intro c
    rw [mem_decode]
    constructor
    · rintro ⟨a, b, h⟩
      rw [ofBits_bit _ _ (by omega)] at h
      simp only [mapBit, List.contains_iff_mem] at h
      rw [← code_split c a, BitVec.ofNat_toNat, BitVec.setWidth_eq] at h
      exact ⟨h, a, b⟩
    · rintro ⟨h, a, b⟩
      refine ⟨a, b, ?_⟩
      rw [ofBits_bit _ _ (by omega)]
      simp only [mapBit, List.contains_iff_mem]
      rw [← code_split c a, BitVec.ofNat_toNat, BitVec.setWidth_eq]
      exact h

/-- Sixteen codes, the last one above 0xBF. -/
def sixteenCodes : List Byte :=
  [0x80, 0x81, 0x82, 0x83, 0x88, 0x8A, 0x9D, 0x9E, 0x9F, 0xB0, 0xB1, 0xA0, 0xA1, 0xA2, 0xA3, 0xE0]

/-- C22 refuted on a concrete set of sixteen distinct codes. -/
theorem C22_refuted_example : sixteenCodes.Nodup ∧ (∀ c ∈ sixteenCodes, 0x80 ≤ c.toNat) ∧
    propertyMapBytes sixteenCodes ≠ .ok (Spec.propertyMap sixteenCodes) ∧
    (∀ out, ((EProp.make 0x9F "" [] 1 0 0).setData (Spec.propertyMap sixteenCodes)).propertyMapData
      = .ok out → 0xE0 ∉ out) := by
  refine ⟨by decide, by decide +kernel, ?_, ?_⟩
  · obtain ⟨d, out, hd, -, -, hne⟩ := C22_refuted_write (EProp.make 0x9F "" [] 1 0 0)
      (by right; right; rfl) sixteenCodes (by decide) (by decide) 0xE0 (by decide) (by decide)
    rw [hd]
    intro h
    exact hne (Res.ok.inj h)
  intro out h
  obtain ⟨out', h', hm⟩ := C22_refuted_read (EProp.make 0x9F "" [] 1 0 0) (by right; right; rfl)
    sixteenCodes (by decide) (by decide)
  rw [h] at h'
  cases h'
  rw [hm]
  decide

end Verif.Props
