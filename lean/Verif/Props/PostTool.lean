import Verif.Model.PostTool
import Verif.Props.Hex
import Verif.Props.Exchange
import Verif.Props.Commands
import Verif.Props.Light

/-! # C110: the arguments of uechopost -/

namespace Verif.Props
open Verif Model Spec Lemmas

set_option maxRecDepth 4000 in
theorem fromHex_plain_ascii : ∀ n < 128, ∀ v < 16, (fromHexChar (Char.ofNat n) = some v ↔ HexDigit (Char.ofNat n) v) := by
  decide +kernel

theorem hexDigit_ascii {c : Char} {v : Nat} (h : HexDigit c v) : c.toNat < 128 := by
  have hv := hexDigit_lt h
  have : ∀ v < 16, ∀ d ∈ ["0123456789abcdef".toList[v]?, "0123456789ABCDEF".toList[v]?],
      ∀ c ∈ d, c.toNat < 128 := by decide +kernel
  rcases h with h | h
  · exact this v hv _ (by simp) c h
  · exact this v hv _ (by simp) c h

theorem fromHexChar_iff (c : Char) (v : Nat) : fromHexChar c = some v ↔ HexDigit c v := by
  by_cases hc : c.toNat < 128
  · by_cases hv : v < 16
    · exact forall_ascii (P := fun c => ∀ v < 16, (fromHexChar c = some v ↔ HexDigit c v)) fromHex_plain_ascii c hc v hv
    · exact ⟨fun h => absurd (fromHexChar_lt16 h) hv, fun h => absurd (hexDigit_lt h) hv⟩
  · exact ⟨fun h => absurd (fromHexChar_lt h) hc, fun h => absurd (hexDigit_ascii h) hc⟩

theorem hexDecode_plain : ∀ (s : Str) (bs : Bytes), hexDecode s = some bs ↔ HexBytes s bs
  | [], bs => by
    simp only [hexDecode, Option.some.injEq]
    exact ⟨fun h => h ▸ .nil, fun h => by cases h; rfl⟩
  | [a], bs => by
    simp only [hexDecode]
    exact ⟨fun h => (by cases h), fun h => (by cases h)⟩
  | a :: b :: s, bs => by
    have ih := hexDecode_plain s
    simp only [hexDecode]
    constructor
    · intro h
      split at h
      · next x y bs' ha hb hs =>
        cases h
        rw [Nat.mul_comm x 16]
        exact .cons ((fromHexChar_iff a x).mp ha) ((fromHexChar_iff b y).mp hb) ((ih _).mp hs)
      · cases h
    · intro h
      cases h with
      | cons ha hb hs =>
        rw [(fromHexChar_iff a _).mpr ha, (fromHexChar_iff b _).mpr hb, (ih _).mpr hs]
        simp only
        rw [Nat.mul_comm]

/-- The value read so far. -/
def digits (s : Str) : Option Nat :=
  s.foldl (fun acc c => acc.bind (fun n => (fromHexChar c).map (fun v => 16 * n + v))) (some 0)

theorem digits_snoc (s : Str) (c : Char) : digits (s ++ [c])
    = (digits s).bind (fun n => (fromHexChar c).map (fun v => 16 * n + v)) := by
  unfold digits
  rw [List.foldl_append]
  rfl

theorem hexNumber_digits {s : Str} {n : Nat} (h : HexNumber s n) : s ≠ [] ∧ digits s = some n := by
  induction h with
  | @digit c v h =>
    refine ⟨by simp, ?_⟩
    show digits ([] ++ [c]) = _
    rw [digits_snoc, (fromHexChar_iff c v).mpr h]
    show some (16 * 0 + v) = _
    rw [Nat.mul_zero, Nat.zero_add]
  | @snoc s n c v _ hd ih =>
    refine ⟨by simp, ?_⟩
    rw [digits_snoc, ih.2, (fromHexChar_iff c v).mpr hd]
    rfl

theorem digits_hexNumber (k : Nat) : ∀ (s : Str) (n : Nat), s.length = k → s ≠ [] → digits s = some n → HexNumber s n := by
  induction k with
  | zero =>
    intro s n hl hs
    exact absurd (List.eq_nil_of_length_eq_zero hl) hs
  | succ k ih =>
    intro s n hl hs h
    obtain ⟨t, c, rfl⟩ : ∃ t c, s = t ++ [c] := ⟨_, _, (List.dropLast_concat_getLast hs).symm⟩
    rw [digits_snoc, Option.bind_eq_some_iff] at h
    obtain ⟨m, hm, h⟩ := h
    rw [Option.map_eq_some_iff] at h
    obtain ⟨v, hv, rfl⟩ := h
    have hd := (fromHexChar_iff c v).mp hv
    by_cases ht : t = []
    · subst ht
      cases hm
      rw [Nat.mul_zero, Nat.zero_add]
      exact .digit hd
    · refine .snoc (ih t m ?_ ht hm) hd
      rw [List.length_append] at hl
      simpa using hl

theorem parseUint_iff (bits : Nat) (s : Str) (n : Nat) :
    PostTool.parseUint bits s = some n ↔ HexNumber s n ∧ n < 2 ^ bits := by
  unfold PostTool.parseUint
  by_cases hs : s = []
  · rw [if_pos hs]
    exact ⟨fun h => (by cases h), fun h => absurd hs (hexNumber_digits h.1).1⟩
  · rw [if_neg hs]
    show (match digits s with | some n => if n < 2 ^ bits then some n else none | none => none) = some n ↔ _
    constructor
    · intro h
      cases hd : digits s with
      | none => rw [hd] at h; cases h
      | some k =>
        rw [hd] at h
        dsimp only at h
        split at h
        · next hk => cases h; exact ⟨digits_hexNumber _ s _ rfl hs hd, hk⟩
        · cases h
    · rintro ⟨h1, h2⟩
      rw [(hexNumber_digits h1).2]
      dsimp only
      rw [if_pos h2]

/-- A property argument is taken exactly if it denotes two bytes or more; the first is the code and the
others are the data. -/
theorem property_iff (s : Str) (p : PProp) :
    PostTool.property s = some p ↔ HexBytes s (p.code :: p.data) ∧ p.data ≠ [] := by
  unfold PostTool.property
  constructor
  · intro h
    cases hd : hexDecode s with
    | none => rw [hd] at h; cases h
    | some bs =>
      rw [hd] at h
      dsimp only at h
      match bs, h with
      | c :: x :: d, h =>
        cases h
        exact ⟨(hexDecode_plain _ _).mp hd, by simp⟩
  · rintro ⟨h1, h2⟩
    rw [(hexDecode_plain _ _).mpr h1]
    obtain ⟨c, d⟩ := p
    cases d with
    | nil => exact absurd rfl h2
    | cons x d => rfl

/-! ## Specification -/

/-- The service exists. -/
def IsService (e : Nat) : Prop := ∃ s ∈ Esv.table, s.code.toNat = e

/-- The texts denote the properties: code and data, two digits for each byte. -/
def DenoteProps (ss : List Str) (ps : List PProp) : Prop :=
  ss.length = ps.length ∧ ∀ (i : Nat) s p, ss[i]? = some s → ps[i]? = some p → HexBytes s (p.code :: p.data)

theorem mapM_props (ss : List Str) : ∀ ps : List PProp, ss.mapM PostTool.property = some ps ↔
    DenoteProps ss ps ∧ ∀ p ∈ ps, p.data ≠ [] := by
  induction ss with
  | nil =>
    intro ps
    cases ps with
    | nil => simp [DenoteProps]
    | cons p ps => simp [DenoteProps]
  | cons s ss ih =>
    intro ps
    rw [List.mapM_cons]
    constructor
    · intro h
      obtain ⟨p, hp, h⟩ := Option.bind_eq_some_iff.mp h
      obtain ⟨qs, hq, h⟩ := Option.bind_eq_some_iff.mp h
      cases h
      obtain ⟨⟨i1, i2⟩, i3⟩ := (ih qs).mp hq
      obtain ⟨p1, p2⟩ := (property_iff s p).mp hp
      refine ⟨⟨by simp [i1], fun i => ?_⟩, fun x hx => ?_⟩
      · cases i with
        | zero => intro s' p' hs hp'; cases hs; cases hp'; exact p1
        | succ i => intro s' p' hs hp'; exact i2 i s' p' hs hp'
      · rcases List.mem_cons.mp hx with rfl | hx
        · exact p2
        · exact i3 x hx
    · rintro ⟨⟨h1, h2⟩, h3⟩
      cases ps with
      | nil => simp at h1
      | cons p ps =>
        have hp := (property_iff s p).mpr ⟨h2 0 s p rfl rfl, h3 p List.mem_cons_self⟩
        have hq := (ih ps).mpr ⟨⟨by simpa using h1, fun i s' p' hs hp' => h2 (i + 1) s' p' hs hp'⟩,
          fun x hx => h3 x (List.mem_cons_of_mem _ hx)⟩
        rw [hp, hq]
        rfl

/-- What the program does with its arguments. -/
theorem request_iff (found : Str → ObjectCode → Bool) (a : PostTool.Args) (m : Message) :
    PostTool.request found a = some m ↔ a.props ≠ [] ∧ ∃ o e ps, HexNumber a.obj o ∧ o < 2 ^ 32 ∧
      found a.address (BitVec.ofNat 64 o) = true ∧ HexNumber a.esv e ∧ e < 2 ^ 8 ∧
      ESV.isValid (BitVec.ofNat 8 e) = true ∧ a.props.mapM PostTool.property = some ps ∧
      m = ((Message.new.setDEOJ (BitVec.ofNat 64 o)).setESV (BitVec.ofNat 8 e)).addProperties (ps.map some) := by
  unfold PostTool.request
  by_cases hp : a.props = []
  · rw [if_pos hp]
    exact ⟨fun h => (by cases h), fun h => absurd hp h.1⟩
  · rw [if_neg hp]
    constructor
    · intro h
      refine ⟨hp, ?_⟩
      obtain ⟨o, ho, h⟩ := Option.bind_eq_some_iff.mp h
      dsimp only at h
      cases hf : found a.address (BitVec.ofNat 64 o) with
      | false => rw [hf] at h; cases h
      | true =>
        rw [hf] at h
        obtain ⟨e, he, h⟩ := Option.bind_eq_some_iff.mp h
        cases hv : ESV.isValid (BitVec.ofNat 8 e) with
        | false => rw [hv] at h; cases h
        | true =>
          rw [hv] at h
          obtain ⟨ps, hps, h⟩ := Option.bind_eq_some_iff.mp h
          obtain ⟨o1, o2⟩ := (parseUint_iff _ _ _).mp ho
          obtain ⟨e1, e2⟩ := (parseUint_iff _ _ _).mp he
          exact ⟨o, e, ps, o1, o2, hf, e1, e2, hv, hps, (Option.some.inj h).symm⟩
    · rintro ⟨-, o, e, ps, o1, o2, hf, e1, e2, hv, hps, rfl⟩
      rw [(parseUint_iff 32 _ _).mpr ⟨o1, o2⟩]
      show (if (!found a.address (BitVec.ofNat 64 o)) = true then none else _) = _
      rw [hf, (parseUint_iff 8 _ _).mpr ⟨e1, e2⟩]
      show (if (!ESV.isValid (BitVec.ofNat 8 e)) = true then none else _) = _
      rw [hv, hps]
      rfl

/-- The message made of an object code, a service and properties. -/
theorem made_message (o e : Nat) (ps : List PProp) (ho : o < 2 ^ 24) (he : e < 2 ^ 8) (hl : ps.length ≤ 255)
    (m : Message) (hm : m = ((Message.new.setDEOJ (BitVec.ofNat 64 o)).setESV (BitVec.ofNat 8 e)).addProperties (ps.map some)) :
    m.getDEOJ.toNat = o ∧ m.esv.toNat = e ∧ m.ep = ps.map some ∧ properties m = ps ∧ Built m := by
  have hb : Built ((Message.new.setDEOJ (BitVec.ofNat 64 o)).setESV (BitVec.ofNat 8 e)) := .setESV _ (.setDEOJ _ .new)
  have hB : ∀ (l : List (Option PProp)) (x : Message), Built x → Built (l.foldl Message.addProperty x) := by
    intro l
    induction l with
    | nil => exact fun _ h => h
    | cons p l ih => exact fun x h => ih _ (.addProperty p h)
  have hm' : m = { ((Message.new.setDEOJ (BitVec.ofNat 64 o)).setESV (BitVec.ofNat 8 e)) with
      ep := ps.map some, opc := BitVec.ofNat 8 ps.length } := by
    rw [hm]
    unfold Message.addProperties
    rw [addProperties_eq]
    show ({ ((Message.new.setDEOJ (BitVec.ofNat 64 o)).setESV (BitVec.ofNat 8 e)) with
      ep := [] ++ ps.map some, opc := 0 + BitVec.ofNat 8 (ps.map some).length } : Message) = _
    rw [List.nil_append, List.length_map, show (0 : Byte) + BitVec.ofNat 8 ps.length = BitVec.ofNat 8 ps.length by simp]
  have hdj : m.deoj = beBytes 3 o := by
    rw [hm']
    show (Message.new.setDEOJ (BitVec.ofNat 64 o)).deoj = _
    rw [newDEOJ, BitVec.toNat_ofNat, Nat.mod_eq_of_lt (by omega)]
  refine ⟨?_, ?_, ?_, ?_, ?_⟩
  · rw [getDEOJ_toNat (by rw [hdj]; exact beBytes_length _ _), hdj, beNat_beBytes, Nat.mod_eq_of_lt (by simpa using ho)]
  · rw [hm']
    show (BitVec.ofNat 8 e).toNat = e
    rw [BitVec.toNat_ofNat, Nat.mod_eq_of_lt he]
  · rw [hm']
  · rw [hm']
    unfold properties
    show ((ps.map some).take (BitVec.ofNat 8 ps.length).toNat).filterMap id = ps
    rw [BitVec.toNat_ofNat, Nat.mod_eq_of_lt (by omega), List.take_of_length_le (by simp), List.filterMap_map]
    simp
  · rw [hm]
    exact hB _ _ hb

/-- C110. If the arguments name an object that was found, a service and at most 255 properties written as code
followed by data that are not empty, the request is exactly that. Missing for the whole property: the
documented form, with the size of the data after the code (`C110_refuted`), and properties without
data (`C110_refuted_read`). -/
theorem C110_request_partial (found : Str → ObjectCode → Bool) (a : PostTool.Args) (o e : Nat) (ps : List PProp)
    (ho : HexNumber a.obj o) (hol : o < 2 ^ 24) (hf : found a.address (BitVec.ofNat 64 o) = true)
    (he : HexNumber a.esv e) (hs : IsService e) (hp : DenoteProps a.props ps) (hd : ∀ p ∈ ps, p.data ≠ [])
    (hne : ps ≠ []) (hl : ps.length ≤ 255) :
    ∃ m, PostTool.request found a = some m ∧ m.getDEOJ.toNat = o ∧ m.esv.toNat = e ∧ properties m = ps ∧ Built m := by
  obtain ⟨s, hs1, rfl⟩ := hs
  have he8 : s.code.toNat < 2 ^ 8 := s.code.isLt
  have hv : ESV.isValid (BitVec.ofNat 8 s.code.toNat) = true := by
    rw [BitVec.ofNat_toNat, BitVec.setWidth_eq]
    exact (esv_in_table _).mpr ⟨s, hs1, rfl⟩
  obtain ⟨k1, k2, -, k3, k4⟩ := made_message o s.code.toNat ps hol he8 hl _ rfl
  refine ⟨_, (request_iff found a _).mpr ⟨?_, o, _, ps, ho, by omega, hf, he, he8, hv, (mapM_props _ _).mpr ⟨hp, hd⟩, rfl⟩,
    k1, k2, k3, k4⟩
  intro hx
  have := hp.1
  rw [hx] at this
  exact hne (List.eq_nil_of_length_eq_zero this.symm)

/-- Two properties given without their size. -/
example : ∃ m, PostTool.request (fun _ _ => true)
      ⟨"192.168.0.2".toList, "029101".toList, "61".toList, ["8030".toList, "b0FF01".toList]⟩ = some m ∧
    properties m = [⟨0x80, [0x30]⟩, ⟨0xB0, [0xFF, 0x01]⟩] := by
  have hp : DenoteProps ["8030".toList, "b0FF01".toList] [⟨0x80, [0x30]⟩, ⟨0xB0, [0xFF, 0x01]⟩] := by
    refine ⟨rfl, fun i s p h1 h2 => ?_⟩
    match i with
    | 0 =>
      cases h1; cases h2
      exact (hexDecode_plain _ _).mp (by decide +kernel)
    | 1 =>
      cases h1; cases h2
      exact (hexDecode_plain _ _).mp (by decide +kernel)
    | i + 2 => cases h1
  obtain ⟨m, h1, -, -, h4, -⟩ := C110_request_partial (fun _ _ => true)
      ⟨"192.168.0.2".toList, "029101".toList, "61".toList, ["8030".toList, "b0FF01".toList]⟩ 0x029101 0x61
      _ (digits_hexNumber _ _ _ rfl (by decide) (by decide +kernel)) (by decide) rfl
      (digits_hexNumber _ _ _ rfl (by decide) (by decide +kernel))
      ⟨⟨0x61, .request, true, false, some 0x71, some 0x51⟩, by decide, rfl⟩ hp (by decide) (by decide) (by decide)
  exact ⟨m, h1, h4⟩

/-- C110. Nothing is sent unless the object is a hexadecimal number and was found at the address, the
service is the number of one, and there are properties, each at least two bytes. -/
theorem C110_stops (found : Str → ObjectCode → Bool) (a : PostTool.Args) (m : Message)
    (h : PostTool.request found a = some m) :
    (∃ o, HexNumber a.obj o ∧ found a.address (BitVec.ofNat 64 o) = true) ∧ (∃ e, HexNumber a.esv e ∧ IsService e) ∧
    a.props ≠ [] ∧ ∀ s ∈ a.props, ∃ bs, HexBytes s bs ∧ 2 ≤ bs.length := by
  obtain ⟨hp, o, e, ps, o1, o2, hf, e1, e2, hv, hps, -⟩ := (request_iff found a m).mp h
  refine ⟨⟨o, o1, hf⟩, ⟨e, e1, ?_⟩, hp, ?_⟩
  · obtain ⟨s, s1, s2⟩ := (esv_in_table _).mp hv
    refine ⟨s, s1, ?_⟩
    rw [s2, BitVec.toNat_ofNat, Nat.mod_eq_of_lt e2]
  · intro s hs
    obtain ⟨⟨h1, h2⟩, h3⟩ := (mapM_props _ _).mp hps
    obtain ⟨i, hi⟩ := List.mem_iff_getElem?.mp hs
    have hlt : i < ps.length := by rw [← h1]; exact (List.getElem?_eq_some_iff.mp hi).1
    have hpi : ps[i]? = some ps[i] := List.getElem?_eq_getElem hlt
    refine ⟨_, h2 i s ps[i] hi hpi, ?_⟩
    have := h3 ps[i] (List.getElem_mem hlt)
    cases hx : ps[i].data with
    | nil => exact absurd hx this
    | cons x d => simp

/-- C110 fails for every property written as documented, with the size of its data between code and data: the
size is sent as part of the data. -/
theorem C110_refuted (found : Str → ObjectCode → Bool) (a : PostTool.Args) (m : Message)
    (h : PostTool.request found a = some m) (i : Nat) (s : Str) (hi : a.props[i]? = some s) (c : Byte) (d : Bytes)
    (hs : HexBytes s (c :: BitVec.ofNat 8 d.length :: d)) :
    m.ep[i]? = some (some ⟨c, BitVec.ofNat 8 d.length :: d⟩) ∧ m.ep[i]? ≠ some (some ⟨c, d⟩) := by
  obtain ⟨hp, o, e, ps, -, -, -, -, -, -, hps, rfl⟩ := (request_iff found a m).mp h
  obtain ⟨⟨h1, h2⟩, h3⟩ := (mapM_props _ _).mp hps
  have hlt : i < ps.length := by rw [← h1]; exact (List.getElem?_eq_some_iff.mp hi).1
  have hpi : ps[i]? = some ps[i] := List.getElem?_eq_getElem hlt
  have hb := h2 i s ps[i] hi hpi
  have e1 := (hexDecode_plain _ _).mpr hb
  rw [(hexDecode_plain _ _).mpr hs] at e1
  have e2 := Option.some.inj e1
  rw [List.cons.injEq] at e2
  have hep : (((Message.new.setDEOJ (BitVec.ofNat 64 o)).setESV (BitVec.ofNat 8 e)).addProperties (ps.map some)).ep
      = ps.map some := by
    unfold Message.addProperties
    rw [addProperties_eq]
    show [] ++ ps.map some = _
    rw [List.nil_append]
  have hx : (ps.map some)[i]? = some (some ⟨c, BitVec.ofNat 8 d.length :: d⟩) := by
    rw [List.getElem?_map, hpi]
    show some (some ps[i]) = _
    rw [e2.1, e2.2]
  rw [hep, hx]
  refine ⟨rfl, fun hc => ?_⟩
  have := congrArg List.length (congrArg PProp.data (Option.some.inj (Option.some.inj hc)))
  simp at this

/-- C110 fails for every property without data: no request of this program has one, so that it cannot send
a read request as the protocol has it. -/
theorem C110_refuted_read (found : Str → ObjectCode → Bool) (a : PostTool.Args) (m : Message)
    (h : PostTool.request found a = some m) (c : Byte) : some ⟨c, []⟩ ∉ m.ep := by
  obtain ⟨hp, o, e, ps, -, -, -, -, -, -, hps, rfl⟩ := (request_iff found a m).mp h
  obtain ⟨-, h3⟩ := (mapM_props _ _).mp hps
  have hep : (((Message.new.setDEOJ (BitVec.ofNat 64 o)).setESV (BitVec.ofNat 8 e)).addProperties (ps.map some)).ep
      = ps.map some := by
    unfold Message.addProperties
    rw [addProperties_eq]
    show [] ++ ps.map some = _
    rw [List.nil_append]
  rw [hep]
  intro hc
  obtain ⟨p, hp', e⟩ := List.mem_map.mp hc
  exact h3 p hp' (by rw [Option.some.inj e])

/-- The command of the documentation that should switch the example light on or off, `029101 61 8001xx`, is
refused by the light, which stays as it is. -/
theorem C110_refuted_light (found : Str → ObjectCode → Bool) (a : PostTool.Args) (w : Byte) (s : Str)
    (hp : a.props = [s]) (hs : HexBytes s [0x80, 0x01, w]) (m : Message) (h : PostTool.request found a = some m)
    (ho : HexNumber a.obj 0x029101) (he : HexNumber a.esv 0x61)
    (d : Obj) (hd : NewLight d) (n : Node) (v : Byte) (hn : IsLight d n v) :
    ∃ out r, n.received Light.env stdDB m = .ok out ∧ out.node = n ∧ out.sent = [] ∧ out.reply = some r ∧
      r.esv = 0x51 := by
  obtain ⟨-, o, e, ps, o1, -, -, e1, e2, -, hps, hm⟩ := (request_iff found a m).mp h
  have eo : o = 0x029101 := by
    have := (hexNumber_digits o1).2
    rw [(hexNumber_digits ho).2] at this
    exact (Option.some.inj this).symm
  have ee : e = 0x61 := by
    have := (hexNumber_digits e1).2
    rw [(hexNumber_digits he).2] at this
    exact (Option.some.inj this).symm
  subst eo ee
  rw [hp] at hps
  have hpp : PostTool.property s = some ⟨0x80, [0x01, w]⟩ := (property_iff s _).mpr ⟨hs, by simp⟩
  have hpsv : ps = [⟨0x80, [0x01, w]⟩] := by
    rw [List.mapM_cons, hpp] at hps
    exact (Option.some.inj hps).symm
  subst hpsv
  obtain ⟨k1, k2, -, k3, k4⟩ := made_message _ _ _ (by decide) (by decide) (by simp) m hm
  have hdj : m.getDEOJ = 0x029101 := BitVec.eq_of_toNat_eq k1
  have hes : m.esv = 0x61 := BitVec.eq_of_toNat_eq k2
  have ha : ¬ Accepts n m := by
    rintro ⟨r, x, hx, -, hperm⟩
    obtain ⟨-, rfl⟩ := addressed_unique (by rw [hdj]; exact light_addressed hd hn) hx
    obtain ⟨q, hq, hw, -⟩ := hperm (by rw [hes]; decide) ⟨0x80, [0x01, w]⟩ (by rw [k3]; simp)
    obtain ⟨q', hq', hl, -⟩ := lightAt_power hd v
    dsimp only at hq
    rw [hq'] at hq
    cases hq
    have := (hw (by rw [hes]; decide)).2
    rw [hl] at this
    simp at this
  obtain ⟨out, r, h1, h2, -, h3, h4, -, -, -, -, h5⟩ := C33_rejected Light.env stdDB n m k4 (light_hears hn m) ha
  refine ⟨out, r, h1, h2, h3, h4, ?_⟩
  rw [h5, hes]
  decide

/-- The arguments of the documentation, and those that work. -/
example : (PostTool.request (fun _ _ => true) ⟨"192.168.0.2".toList, "029101".toList, "61".toList, ["800130".toList]⟩).map
      (fun m => (m.getDEOJ, m.esv, m.ep)) = some (0x029101, 0x61, [some ⟨0x80, [0x01, 0x30]⟩]) ∧
    (PostTool.request (fun _ _ => true) ⟨"192.168.0.2".toList, "029101".toList, "61".toList, ["8030".toList, "b0FF".toList]⟩).map
      (fun m => (m.getDEOJ, m.esv, m.ep)) = some (0x029101, 0x61, [some ⟨0x80, [0x30]⟩, some ⟨0xB0, [0xFF]⟩]) ∧
    (PostTool.request (fun _ _ => true) ⟨"192.168.0.2".toList, "029101".toList, "62".toList, ["80".toList]⟩).isNone := by
  decide +kernel

end Verif.Props
