import Verif.Props.Hex
import Verif.Lemmas.RoundTrip
import Verif.Lemmas.Fields

/-! # C74, C75: the requests of the tools and the tables of messages -/

namespace Verif.Props
open Verif Model Spec Lemmas

/-! ## C74: requests -/

theorem ofNat64_beBytes (k n : Nat) (h : k ≤ 8) :
    beBytes k (BitVec.ofNat 64 n).toNat = beBytes k n := by
  rw [BitVec.toNat_ofNat, show (2 : Nat) ^ 64 = 256 ^ 8 by decide]
  exact beBytes_mod k 8 n h

theorem newDEOJ (v : GoUint) : (Message.new.setDEOJ v).deoj = beBytes 3 v.toNat := by
  show integerToByte v Message.new.deoj = _
  rw [integerToByte_eq]
  rfl

/-- The destination of the request `get` posts is the object named and it reads exactly the property
named, provided the object has at most three bytes and the property has one. Missing for the whole property:
longer arguments are not rejected (`C74_refuted`). -/
theorem C74_get_partial (l : Lowering) (obj prop : Str) (o : Bytes) (p : Byte)
    (ho : HexBytes (noBlanks obj) o) (hl : o.length ≤ 3) (hp : HexBytes (noBlanks prop) [p]) :
    ∃ m, getRequest l obj prop = .ok m ∧ m.deoj = beBytes 3 (beNat o) ∧ m.getDEOJ.toNat = beNat o ∧
      m.esv = 0x62 ∧ m.opc = 1 ∧ m.ep = [some ⟨p, []⟩] := by
  have hb := beNat_lt o
  have hb' : 256 ^ o.length ≤ 256 ^ 3 := Nat.pow_le_pow_right (by decide) hl
  have hd : beBytes 3 (BitVec.ofNat 64 (beNat o)).toNat = beBytes 3 (beNat o) :=
    ofNat64_beBytes 3 _ (by decide)
  unfold getRequest
  rw [int_of_bytes l obj o ho, int_of_bytes l prop [p] hp]
  refine ⟨_, rfl, (newDEOJ _).trans hd, ?_, rfl, rfl, ?_⟩
  · rw [getDEOJ_toNat (by show (Message.new.setDEOJ _).deoj.length = 3; rw [newDEOJ]; exact beBytes_length _ _)]
    show beNat (Message.new.setDEOJ _).deoj = _
    rw [newDEOJ, hd, beNat_beBytes, Nat.mod_eq_of_lt (by omega)]
  · show [some (PProp.mk _ _)] = _
    have : (BitVec.ofNat 64 (beNat [p])).setWidth 8 = p := by
      apply BitVec.eq_of_toNat_eq
      have := p.isLt
      simp [beNat]
    rw [this]
    rfl

example : ∃ m, getRequest asciiLowering "0130 01".toList "80".toList = .ok m ∧ m.deoj = [0x01, 0x30, 0x01] ∧
    m.esv = 0x62 ∧ m.ep = [some ⟨0x80, []⟩] := by
  obtain ⟨m, h, hd, _, he, _, hp⟩ := C74_get_partial asciiLowering "0130 01".toList "80".toList [1, 0x30, 1] 0x80
    (((C65_bytes asciiLowering _).1 _).mp (by decide +kernel)) (by decide)
    (((C65_bytes asciiLowering _).1 _).mp (by decide +kernel))
  exact ⟨m, h, by rw [hd]; decide, he, hp⟩

/-- The request `set` sends writes exactly the bytes given to the property of the object named. Missing for
the whole property: as above. -/
theorem C74_set_partial (l : Lowering) (obj prop value : Str) (o v : Bytes) (p : Byte)
    (ho : HexBytes (noBlanks obj) o) (hl : o.length ≤ 3) (hp : HexBytes (noBlanks prop) [p])
    (hv : HexBytes (noBlanks value) v) :
    ∃ m, setRequest l obj prop value = .ok m ∧ m.deoj = beBytes 3 (beNat o) ∧ m.getDEOJ.toNat = beNat o ∧
      m.esv = 0x60 ∧ m.opc = 1 ∧ m.ep = [some ⟨p, v⟩] := by
  have hb := beNat_lt o
  have hb' : 256 ^ o.length ≤ 256 ^ 3 := Nat.pow_le_pow_right (by decide) hl
  have hd : beBytes 3 (BitVec.ofNat 64 (beNat o)).toNat = beBytes 3 (beNat o) :=
    ofNat64_beBytes 3 _ (by decide)
  unfold setRequest
  rw [int_of_bytes l obj o ho, int_of_bytes l prop [p] hp, ((C65_bytes l value).1 v).mpr hv]
  refine ⟨_, rfl, (newDEOJ _).trans hd, ?_, rfl, rfl, ?_⟩
  · rw [getDEOJ_toNat (by show (Message.new.setDEOJ _).deoj.length = 3; rw [newDEOJ]; exact beBytes_length _ _)]
    show beNat (Message.new.setDEOJ _).deoj = _
    rw [newDEOJ, hd, beNat_beBytes, Nat.mod_eq_of_lt (by omega)]
  · show [some (PProp.mk _ _)] = _
    have : (BitVec.ofNat 64 (beNat [p])).setWidth 8 = p := by
      apply BitVec.eq_of_toNat_eq
      have := p.isLt
      simp [beNat]
    rw [this]
    rfl

example : ∃ m, setRequest asciiLowering "013001".toList "80".toList "30".toList = .ok m ∧
    m.deoj = [0x01, 0x30, 0x01] ∧ m.ep = [some ⟨0x80, [0x30]⟩] := by
  refine ⟨_, rfl, ?_, ?_⟩ <;> decide +kernel

/-- Nothing is sent when an argument is not hexadecimal. -/
theorem C74_rejects (l : Lowering) (obj prop value : Str)
    (h : (¬ ∃ bs, HexBytes (noBlanks obj) bs) ∨ (¬ ∃ bs, HexBytes (noBlanks prop) bs)) :
    (∃ e, getRequest l obj prop = .err e) ∧ ∃ e, setRequest l obj prop value = .err e := by
  have hi : ∀ s, (∃ v, hexStringToInt l s = .ok v) ∨ ∃ e, hexStringToInt l s = .err e := by
    intro s
    by_cases hs : ∃ bs, HexBytes (noBlanks s) bs
    · obtain ⟨bs, hb⟩ := hs
      exact .inl ⟨_, int_of_bytes l s bs hb⟩
    · exact .inr ((C65_number_partial l s).2 hs)
  unfold getRequest setRequest
  rcases h with h | h
  · obtain ⟨e, he⟩ := (C65_number_partial l obj).2 h
    rw [he]
    exact ⟨⟨e, rfl⟩, ⟨e, rfl⟩⟩
  · obtain ⟨e, he⟩ := (C65_number_partial l prop).2 h
    rw [he]
    rcases hi obj with ⟨v, hv⟩ | ⟨e', he'⟩
    · rw [hv]; exact ⟨⟨e, rfl⟩, ⟨e, rfl⟩⟩
    · rw [he']; exact ⟨⟨e', rfl⟩, ⟨e', rfl⟩⟩

example : ∃ e, getRequest asciiLowering "01300".toList "80".toList = .err e := by
  refine (C74_rejects asciiLowering "01300".toList "80".toList [] (.inl ?_)).1
  rintro ⟨bs, h⟩
  have h' : hexStringToByte asciiLowering "01300".toList = .err .other := by decide +kernel
  rw [((C65_bytes asciiLowering "01300".toList).1 bs).mpr h] at h'
  cases h'

/-- The same for the value to write. -/
theorem C74_rejects_value (l : Lowering) (obj prop value : Str)
    (h : ¬ ∃ bs, HexBytes (noBlanks value) bs) : ∃ e, setRequest l obj prop value = .err e := by
  by_cases ho : ∃ bs, HexBytes (noBlanks obj) bs
  · by_cases hp : ∃ bs, HexBytes (noBlanks prop) bs
    · obtain ⟨o, ho⟩ := ho
      obtain ⟨p, hp⟩ := hp
      obtain ⟨e, he⟩ := (C65_bytes l value).2 h
      unfold setRequest
      rw [int_of_bytes l obj o ho, int_of_bytes l prop p hp, he]
      exact ⟨e, rfl⟩
    · exact (C74_rejects l obj prop value (.inr hp)).2
  · exact (C74_rejects l obj prop value (.inl ho)).2

example : ∃ e, setRequest asciiLowering "013001".toList "80".toList "3".toList = .err e := by
  refine C74_rejects_value asciiLowering "013001".toList "80".toList "3".toList ?_
  rintro ⟨bs, h⟩
  have h' : hexStringToByte asciiLowering "3".toList = .err .other := by decide +kernel
  rw [((C65_bytes asciiLowering "3".toList).1 bs).mpr h] at h'
  cases h'

theorem setWidth_last (bs : Bytes) (c : Byte) :
    (BitVec.ofNat 64 (beNat (bs ++ [c]))).setWidth 8 = c := by
  apply BitVec.eq_of_toNat_eq
  have := c.isLt
  rw [beNat_append]
  simp [beNat]
  omega

/-- The claim fails for longer arguments: of the property code only the last two digits count, and of the
object code only the last six, so that another property than the one named is read or written, and
another object. -/
theorem C74_refuted (l : Lowering) (o o' p p' value : Str) (ob ob' pb : Bytes) (pc : Byte)
    (ho : HexBytes (noBlanks o) ob) (ho' : HexBytes (noBlanks o') ob') (h3 : ob'.length = 3)
    (hp : HexBytes (noBlanks p) pb) (hp' : HexBytes (noBlanks p') [pc]) :
    getRequest l (o ++ o') (p ++ p') = getRequest l o' p' ∧
    setRequest l (o ++ o') (p ++ p') value = setRequest l o' p' value := by
  have e : ∀ s t, noBlanks (s ++ t) = noBlanks s ++ noBlanks t := fun s t => List.filter_append ..
  have h1 := int_of_bytes l (o ++ o') (ob ++ ob') (e o o' ▸ hexBytes_append ho ho')
  have h2 := int_of_bytes l (p ++ p') (pb ++ [pc]) (e p p' ▸ hexBytes_append hp hp')
  have h1' := int_of_bytes l o' ob' ho'
  have h2' := int_of_bytes l p' [pc] hp'
  have hd : Message.new.setDEOJ (BitVec.ofNat 64 (beNat (ob ++ ob'))) =
      Message.new.setDEOJ (BitVec.ofNat 64 (beNat ob')) := by
    have : integerToByte (BitVec.ofNat 64 (beNat (ob ++ ob'))) Message.new.deoj =
        integerToByte (BitVec.ofNat 64 (beNat ob')) Message.new.deoj := by
      rw [integerToByte_eq, integerToByte_eq, ofNat64_beBytes _ _ (by decide), ofNat64_beBytes _ _ (by decide),
        beNat_append, h3]
      exact beBytes_add_mul 3 _ _
    unfold Message.setDEOJ
    rw [this]
  have hs : (BitVec.ofNat 64 (beNat (pb ++ [pc]))).setWidth 8 = pc := setWidth_last pb pc
  have hs' : (BitVec.ofNat 64 (beNat [pc])).setWidth 8 = pc := setWidth_last [] pc
  unfold getRequest setRequest
  rw [h1, h2, h1', h2']
  simp only [Res.ok_bind, hd, hs, hs']
  exact ⟨trivial, trivial⟩

/-- `get <node> 013001 0180` reads the property `80`. -/
example : getRequest asciiLowering ("".toList ++ "013001".toList) ("01".toList ++ "80".toList) =
    getRequest asciiLowering "013001".toList "80".toList :=
  (C74_refuted asciiLowering _ _ _ _ [] [] [1, 0x30, 1] [1] 0x80
    (((C65_bytes asciiLowering _).1 _).mp (by decide +kernel))
    (((C65_bytes asciiLowering _).1 _).mp (by decide +kernel)) rfl
    (((C65_bytes asciiLowering _).1 _).mp (by decide +kernel))
    (((C65_bytes asciiLowering _).1 _).mp (by decide +kernel))).1

/-! ## C75: tables of messages -/

theorem hexDigit_char : ∀ n < 16, HexDigit (hexDigitChar n) n := by decide

theorem fmtX_number (n : Nat) : HexNumber (fmtX n) n := by
  induction n using Nat.strongRecOn with
  | _ n ih =>
    rw [fmtX]
    split
    · next h => exact .digit (hexDigit_char n h)
    · next h =>
      have := HexNumber.snoc (ih (n / 16) (by omega)) (hexDigit_char (n % 16) (by omega))
      rwa [show 16 * (n / 16) + n % 16 = n by omega] at this

theorem fmtX_length (n w : Nat) (hw : 0 < w) (h : n < 16 ^ w) : (fmtX n).length ≤ w := by
  induction n using Nat.strongRecOn generalizing w with
  | _ n ih =>
    rw [fmtX]
    split
    · exact hw
    · next h' =>
      cases w with
      | zero => omega
      | succ w =>
        rw [Nat.pow_succ] at h
        cases w with
        | zero => omega
        | succ w =>
          have := ih (n / 16) (by omega) (w + 1) (by omega) (by omega)
          rw [List.length_append, List.length_singleton]
          omega

theorem number_zero {s : Str} {n : Nat} (h : HexNumber s n) : HexNumber ('0' :: s) n := by
  induction h with
  | digit h =>
    have := HexNumber.snoc (.digit (show HexDigit '0' 0 by decide)) h
    rwa [Nat.mul_zero, Nat.zero_add] at this
  | snoc _ h ih => exact HexNumber.snoc ih h

theorem number_zeros {s : Str} {n : Nat} (k : Nat) (h : HexNumber s n) :
    HexNumber (List.replicate k '0' ++ s) n := by
  induction k with
  | zero => exact h
  | succ k ih => exact number_zero ih

theorem fmtX0_number (w n : Nat) : HexNumber (fmtX0 w n) n := number_zeros _ (fmtX_number n)

theorem fmtX0_length (w n : Nat) (hw : 0 < w) (h : n < 16 ^ w) : (fmtX0 w n).length = w := by
  have := fmtX_length n w hw h
  unfold fmtX0
  rw [List.length_append, List.length_replicate]
  omega

theorem fmtXBytes_bytes (bs : Bytes) : HexBytes (fmtXBytes bs) bs := by
  unfold fmtXBytes
  induction bs with
  | nil => exact .nil
  | cons b bs ih =>
    have hb := b.isLt
    have := HexBytes.cons (hexDigit_char (b.toNat / 16) (by omega)) (hexDigit_char (b.toNat % 16) (by omega)) ih
    rwa [show 16 * (b.toNat / 16) + b.toNat % 16 = b.toNat by omega, BitVec.ofNat_toNat,
      BitVec.setWidth_eq] at this

/-- The three cells of a property. -/
def threeCells (p : PProp) : Row := [fmtX0 2 p.code.toNat, fmtX0 2 p.size, fmtXBytes p.data]

theorem propertiesCells_some (ps : List PProp) :
    propertiesCells (ps.map some) = .ok (ps.flatMap threeCells) := by
  induction ps with
  | nil => rfl
  | cons p ps ih =>
    rw [List.map_cons, propertiesCells, ih]
    rfl

theorem flatMap_three {α β : Type} (f : α → List β) (hf : ∀ a, (f a).length = 3) (l : List α) :
    (l.flatMap f).length = 3 * l.length ∧
    ∀ (i j : Nat) (a : α), l[i]? = some a → j < 3 → (l.flatMap f)[3 * i + j]? = (f a)[j]? := by
  induction l with
  | nil => exact ⟨rfl, fun i j a h => by simp at h⟩
  | cons b l ih =>
    refine ⟨by rw [List.flatMap_cons, List.length_append, hf, ih.1, List.length_cons]; omega, ?_⟩
    intro i j a hi hj
    rw [List.flatMap_cons]
    cases i with
    | zero =>
      rw [List.getElem?_cons_zero] at hi
      cases hi
      rw [List.getElem?_append_left (by rw [hf]; omega), Nat.mul_zero, Nat.zero_add]
    | succ i =>
      rw [List.getElem?_cons_succ] at hi
      rw [List.getElem?_append_right (by rw [hf]; omega), hf,
        show 3 * (i + 1) + j - 3 = 3 * i + j by omega]
      exact ih.2 i j a hi hj

/-- The properties of a decoded message. -/
theorem decoded_props {d : Bytes} {m : Message} (h : Message.newWithBytes d = .ok m) :
    ∃ ps : List PProp, m.ep = ps.map some ∧ ps.length = m.opc.toNat ∧ ∀ p ∈ ps, p.data.length < 256 := by
  obtain ⟨t0, t1, s0, s1, s2, d0, d1, d2, esv, opc, rest, _, rfl⟩ := newWithBytes_ok h
  refine ⟨(lenientProps opc.toNat rest).map ofWire, ?_, ?_, ?_⟩
  · simp [decoded]
  · simp [decoded, lenientProps_length]
  · intro p hp
    obtain ⟨w, hw, rfl⟩ := List.mem_map.mp hp
    exact lenient_small _ _ w hw

/-- The row of a message. -/
def rowOf (m : Message) (ps : List PProp) : Row :=
  [fmtX0 2 m.ehd1.toNat ++ fmtX0 2 m.ehd2.toNat, fmtX0 4 m.getTID.toNat, fmtX0 6 m.getSEOJ.toNat,
    fmtX0 6 m.getDEOJ.toNat, fmtX0 2 m.esv.toNat, fmtX0 2 m.getOPC] ++ ps.flatMap threeCells

theorem messageRow_eq {m : Message} {ps : List PProp} (h : m.ep = ps.map some) :
    messageRow m = .ok (rowOf m ps) := by
  unfold messageRow
  rw [h, propertiesCells_some]
  rfl

theorem rowOf_length (m : Message) (ps : List PProp) : (rowOf m ps).length = 6 + 3 * ps.length := by
  unfold rowOf
  rw [List.length_append, (flatMap_three threeCells (fun _ => rfl) ps).1]
  rfl

/-- The row printed for a received message has a cell for every field: each shows the value of the field with
as many digits as the field has, and the data of each property byte by byte. -/
theorem C75_row (d : Bytes) (m : Message) (h : Message.newWithBytes d = .ok m) :
    ∃ row, messageRow m = .ok row ∧ row.length = 6 + 3 * m.getOPC ∧
      row[0]? = some "1081".toList ∧
      ShowsNumber 4 row[1]? m.getTID.toNat ∧ ShowsNumber 6 row[2]? m.getSEOJ.toNat ∧
      ShowsNumber 6 row[3]? m.getDEOJ.toNat ∧ ShowsNumber 2 row[4]? m.esv.toNat ∧
      ShowsNumber 2 row[5]? m.getOPC ∧
      ∀ (i : Nat) (p : PProp), m.ep[i]? = some (some p) →
        ShowsNumber 2 row[6 + 3 * i]? p.code.toNat ∧ ShowsNumber 2 row[6 + (3 * i + 1)]? p.data.length ∧
        ShowsBytes row[6 + (3 * i + 2)]? p.data := by
  obtain ⟨ps, hps, hlen, hsmall⟩ := decoded_props h
  obtain ⟨t0, t1, s0, s1, s2, d0, d1, d2, esv, opc, rest, _, hm⟩ := newWithBytes_ok h
  have hwf : WF m := hm ▸ decoded_wf ..
  have show_ : ∀ w n, 0 < w → n < 16 ^ w → ShowsNumber w (some (fmtX0 w n)) n :=
    fun w n hw hn => ⟨_, rfl, fmtX0_length w n hw hn, fmtX0_number w n⟩
  refine ⟨rowOf m ps, messageRow_eq hps, by rw [rowOf_length, hlen]; rfl, ?_, ?_, ?_, ?_, ?_, ?_, ?_⟩
  · show some (fmtX0 2 m.ehd1.toNat ++ fmtX0 2 m.ehd2.toNat) = _
    rw [hm]
    show some (fmtX0 2 16 ++ fmtX0 2 129) = _
    simp [fmtX0, fmtX]
    decide
  · refine show_ 4 _ (by decide) ?_
    rw [getTID_toNat hwf.tid]
    have := beNat_lt m.tid
    rw [hwf.tid] at this
    exact this
  · refine show_ 6 _ (by decide) ?_
    rw [getSEOJ_toNat hwf.seoj]
    have := beNat_lt m.seoj
    rw [hwf.seoj] at this
    exact this
  · refine show_ 6 _ (by decide) ?_
    rw [getDEOJ_toNat hwf.deoj]
    have := beNat_lt m.deoj
    rw [hwf.deoj] at this
    exact this
  · exact show_ 2 _ (by decide) m.esv.isLt
  · exact show_ 2 _ (by decide) m.opc.isLt
  · intro i p hp
    have hi : ps[i]? = some p := by
      rw [hps, List.getElem?_map] at hp
      cases hq : ps[i]? with
      | none => rw [hq] at hp; cases hp
      | some q => rw [hq] at hp; cases hp; rfl
    have hc : ∀ j < 3, (rowOf m ps)[6 + (3 * i + j)]? = (threeCells p)[j]? := by
      intro j hj
      unfold rowOf
      rw [List.getElem?_append_right (by simp)]
      show (ps.flatMap threeCells)[6 + (3 * i + j) - 6]? = _
      rw [Nat.add_sub_cancel_left]
      exact (flatMap_three threeCells (fun _ => rfl) ps).2 i j p hi hj
    have h0 := hc 0 (by decide)
    rw [Nat.add_zero] at h0
    rw [h0, hc 1 (by decide), hc 2 (by decide)]
    exact ⟨show_ 2 _ (by decide) p.code.isLt,
      show_ 2 _ (by decide) (hsmall p (List.mem_of_getElem? hi)), ⟨_, rfl, fmtXBytes_bytes p.data⟩⟩

/-- A response carrying one property. -/
def aMessage : Message := decoded 0 1 0x01 0x30 0x01 0x05 0xFF 0x01 0x72 1 [0x80, 0x01, 0x30]

example : Message.newWithBytes [0x10, 0x81, 0, 1, 0x01, 0x30, 0x01, 0x05, 0xFF, 0x01, 0x72, 1, 0x80, 1, 0x30] =
    .ok aMessage := newWithBytes_cons ..

/-! ### JSON -/

/-- The rows of the table, each cell under the name of its column. -/
theorem jsonRow (cols row : Row) (hd : cols.Nodup) (hl : cols.length ≤ row.length) :
    forRange cols.length (fun j (obj : List (Str × Str)) => do
      let col ← rd cols j
      let cell ← rd row j
      Res.ok (obj.filter (fun (e : Str × Str) => e.1 ≠ col) ++ [(col, cell)])) [] = .ok (cols.zip row) := by
  have key : ∀ cnt i, i + cnt = cols.length →
      forFrom (fun j (obj : List (Str × Str)) => do
        let col ← rd cols j
        let cell ← rd row j
        Res.ok (obj.filter (fun (e : Str × Str) => e.1 ≠ col) ++ [(col, cell)])) cnt i ((cols.zip row).take i) =
      .ok (cols.zip row) := by
    intro cnt
    induction cnt with
    | zero =>
      intro i hi
      unfold forFrom
      rw [List.take_of_length_le (by rw [List.length_zip]; omega)]
    | succ cnt ih =>
      intro i hi
      have h1 : i < cols.length := by omega
      have h2 : i < row.length := by omega
      unfold forFrom
      rw [rd_ok cols i h1, rd_ok row i h2]
      simp only [Res.ok_bind]
      have hz : i < (cols.zip row).length := by rw [List.length_zip]; omega
      have hf : ((cols.zip row).take i).filter (fun e => e.1 ≠ cols[i]) = (cols.zip row).take i := by
        rw [List.filter_eq_self]
        intro e he
        obtain ⟨j, hj, hje⟩ := List.mem_iff_getElem.mp he
        rw [List.length_take] at hj
        rw [List.getElem_take, List.getElem_zip] at hje
        subst hje
        simp only [ne_eq, decide_not, Bool.not_eq_eq_eq_not, Bool.not_true, decide_eq_false_iff_not]
        intro hce
        have hlt : j < i := by omega
        have := (List.getElem_inj hd).mp hce
        omega
      rw [hf]
      have : (cols.zip row).take i ++ [(cols[i], row[i])] = (cols.zip row).take (i + 1) := by
        rw [List.take_add_one, List.getElem?_eq_getElem hz, List.getElem_zip]
        rfl
      rw [this]
      exact ih (i + 1) (by omega)
  have := key cols.length 0 (by omega)
  rwa [List.take_zero] at this

theorem json_fold (cols : Row) (rows : List Row) (hd : cols.Nodup) (hl : ∀ r ∈ rows, cols.length ≤ r.length)
    (acc : List (List (Str × Str))) :
    rows.foldlM (fun (acc : List (List (Str × Str))) row => do
      let obj ← forRange cols.length (fun j (obj : List (Str × Str)) => do
        let col ← rd cols j
        let cell ← rd row j
        Res.ok (obj.filter (fun (e : Str × Str) => e.1 ≠ col) ++ [(col, cell)])) []
      Res.ok (acc ++ [obj])) acc = .ok (acc ++ rows.map (cols.zip ·)) := by
  induction rows generalizing acc with
  | nil => simp
  | cons row rows ih =>
    rw [List.foldlM_cons, jsonRow cols row hd (hl row (by simp))]
    simp only [Res.ok_bind]
    rw [ih (fun r hr => hl r (by simp [hr]))]
    simp

/-- A table whose columns have different names and whose rows have a cell for each is printed as
JSON with every cell under the name of its column. -/
theorem json_ok (t : Table) (hd : t.columns.Nodup) (hl : ∀ r ∈ t.rows, t.columns.length ≤ r.length) :
    t.jsonObjects = .ok (t.rows.map (t.columns.zip ·)) := by
  unfold Table.jsonObjects
  have := json_fold t.columns t.rows hd hl []
  rwa [List.nil_append] at this

theorem decimal_digit : ∀ n < 10, (hexDigitChar n).toNat - 48 = n := by decide

theorem decimal_fmtD (n : Nat) : decimal (fmtD n) = n := by
  induction n using Nat.strongRecOn with
  | _ n ih =>
    rw [fmtD]
    split
    · next h =>
      simp only [decimal, List.foldl_cons, List.foldl_nil]
      rw [decimal_digit n h]; omega
    · next h =>
      have := ih (n / 10) (by omega)
      unfold decimal at this ⊢
      rw [List.foldl_append, this]
      simp only [List.foldl_cons, List.foldl_nil]
      rw [decimal_digit (n % 10) (by omega)]
      omega

theorem fmtD_inj {a b : Nat} (h : fmtD a = fmtD b) : a = b := by
  rw [← decimal_fmtD a, ← decimal_fmtD b, h]

/-- The three column names of a property. -/
def threeNames (n : Nat) : Row := ["EPC".toList ++ fmtD n, "PDC".toList ++ fmtD n, "EDT".toList ++ fmtD n]

theorem names_mem {k : Nat} {c : Str} (h : c ∈ (List.range k).flatMap threeNames) :
    ∃ n < k, c ∈ threeNames n := by
  obtain ⟨n, hn, hc⟩ := List.mem_flatMap.mp h
  exact ⟨n, List.mem_range.mp hn, hc⟩

theorem names_eq {a b : Nat} {c : Str} (ha : c ∈ threeNames a) (hb : c ∈ threeNames b) : a = b := by
  simp only [threeNames, List.mem_cons, List.not_mem_nil, or_false] at ha hb
  rcases ha with rfl | rfl | rfl <;> rcases hb with h | h | h <;>
    first
    | (exfalso; simp at h; done)
    | exact fmtD_inj (by simpa using h)

theorem columns_nodup (k : Nat) : (["EHD".toList, "TID".toList, "SEOJ".toList, "DEOJ".toList, "ESV".toList,
    "OPC".toList] ++ (List.range k).flatMap threeNames).Nodup := by
  rw [List.nodup_append]
  refine ⟨by decide, ?_, ?_⟩
  · induction k with
    | zero => simp
    | succ k ih =>
      rw [List.range_succ, List.flatMap_append, List.nodup_append]
      refine ⟨ih, ?_, ?_⟩
      · simp [threeNames]
      · intro a ha b hb
        obtain ⟨n, hn, hc⟩ := names_mem ha
        rw [List.flatMap_singleton] at hb
        rintro rfl
        have := names_eq hc hb
        omega
  · intro a ha b hb
    obtain ⟨n, _, hc⟩ := names_mem hb
    rintro rfl
    simp only [threeNames, List.mem_cons, List.not_mem_nil, or_false] at ha hc
    rcases ha with rfl | rfl | rfl | rfl | rfl | rfl <;> rcases hc with h | h | h <;> simp at h

theorem columns_eq (m : Message) : messageColumns [m] =
    ["EHD".toList, "TID".toList, "SEOJ".toList, "DEOJ".toList, "ESV".toList, "OPC".toList] ++
      (List.range m.getOPC).flatMap threeNames := by
  unfold messageColumns
  simp only [List.foldl_cons, List.foldl_nil]
  have : (if 0 < m.getOPC then m.getOPC else 0) = m.getOPC := by split <;> omega
  rw [this]
  rfl

theorem columns_length (k : Nat) : (["EHD".toList, "TID".toList, "SEOJ".toList, "DEOJ".toList, "ESV".toList,
    "OPC".toList] ++ (List.range k).flatMap threeNames).length = 6 + 3 * k := by
  rw [List.length_append, (flatMap_three threeNames (fun _ => rfl) _).1, List.length_range]
  rfl

/-- The response printed by `get` as JSON: one object holding every cell of the row under the name of its
column. Missing for the whole property: tables of several messages (`C75_refuted`). -/
theorem C75_json_partial (d : Bytes) (m : Message) (h : Message.newWithBytes d = .ok m) :
    ∃ t row, messageTable [m] = .ok t ∧ messageRow m = .ok row ∧ t.rows = [row] ∧
      t.columns.length = row.length ∧ t.columns.Nodup ∧ t.jsonObjects = .ok [t.columns.zip row] := by
  obtain ⟨ps, hps, hlen, _⟩ := decoded_props h
  have hr := messageRow_eq hps
  have hl : (messageColumns [m]).length = (rowOf m ps).length := by
    rw [columns_eq, columns_length, rowOf_length, hlen]; rfl
  have hn : (messageColumns [m]).Nodup := by rw [columns_eq]; exact columns_nodup _
  refine ⟨⟨messageColumns [m], [rowOf m ps]⟩, rowOf m ps, ?_, hr, rfl, hl, hn, ?_⟩
  · unfold messageTable messageRows messageRows
    rw [hr]; rfl
  · exact json_ok _ hn (by simp [hl])

theorem forFrom_short (cols row : Row) : ∀ cnt i (obj : List (Str × Str)), i + cnt = cols.length → row.length < cols.length →
    i ≤ row.length → forFrom (fun j (obj : List (Str × Str)) => do
      let col ← rd cols j
      let cell ← rd row j
      Res.ok (obj.filter (fun (e : Str × Str) => e.1 ≠ col) ++ [(col, cell)])) cnt i obj = .panic := by
  intro cnt
  induction cnt with
  | zero => intro i obj h1 h2 h3; omega
  | succ cnt ih =>
    intro i obj h1 h2 h3
    unfold forFrom
    rw [rd_ok cols i (by omega)]
    simp only [Res.ok_bind]
    by_cases hi : i < row.length
    · rw [rd_ok row i hi]
      simp only [Res.ok_bind]
      exact ih (i + 1) _ (by omega) h2 (by omega)
    · have : rd row i = .panic := by unfold rd; rw [List.getElem?_eq_none (by omega)]
      rw [this]
      rfl

/-- The claim fails for several messages: when the first one has fewer properties than another one, printing
the table of messages as JSON panics. -/
theorem C75_refuted (d d' : Bytes) (m m' : Message) (h : Message.newWithBytes d = .ok m)
    (h' : Message.newWithBytes d' = .ok m') (hlt : m.getOPC < m'.getOPC) :
    ∃ t, messageTable [m, m'] = .ok t ∧ t.jsonObjects = .panic := by
  obtain ⟨ps, hps, hlen, _⟩ := decoded_props h
  obtain ⟨ps', hps', hlen', _⟩ := decoded_props h'
  have hcol : messageColumns [m, m'] = ["EHD".toList, "TID".toList, "SEOJ".toList, "DEOJ".toList, "ESV".toList,
      "OPC".toList] ++ (List.range m'.getOPC).flatMap threeNames := by
    unfold messageColumns
    simp only [List.foldl_cons, List.foldl_nil]
    have : (if (if 0 < m.getOPC then m.getOPC else 0) < m'.getOPC then m'.getOPC
        else if 0 < m.getOPC then m.getOPC else 0) = m'.getOPC := by
      have : (if 0 < m.getOPC then m.getOPC else 0) = m.getOPC := by split <;> omega
      rw [this, if_pos hlt]
    rw [this]
    rfl
  refine ⟨⟨messageColumns [m, m'], [rowOf m ps, rowOf m' ps']⟩, ?_, ?_⟩
  · unfold messageTable messageRows messageRows messageRows
    rw [messageRow_eq hps, messageRow_eq hps']; rfl
  · unfold Table.jsonObjects
    simp only [List.foldlM_cons]
    unfold forRange
    rw [forFrom_short]
    · rfl
    · simp
    · rw [hcol, columns_length, rowOf_length, hlen]
      show 6 + 3 * m.getOPC < _
      omega
    · exact Nat.zero_le _

example : aMessage.getOPC < (decoded 0 1 0x01 0x30 0x01 0x05 0xFF 0x01 0x72 2
    [0x80, 0x01, 0x30, 0x81, 0x00]).getOPC := by decide

/-- The data printed for a property can be given to `set`: it writes the same data. -/
theorem C75_printed (l : Lowering) (bs : Bytes) : hexStringToByte l (fmtXBytes bs) = .ok bs := by
  rw [(C65_bytes l _).1]
  have := fmtXBytes_bytes bs
  have e : noBlanks (fmtXBytes bs) = fmtXBytes bs := by
    unfold noBlanks
    rw [List.filter_eq_self]
    intro c hc
    have : ∀ n < 16, hexDigitChar n ≠ ' ' := by decide
    obtain ⟨b, _, hb⟩ := List.mem_flatMap.mp hc
    have hlt := b.isLt
    simp only [List.mem_cons, List.not_mem_nil, or_false] at hb
    rcases hb with rfl | rfl
    · simpa using this (b.toNat / 16) (by omega)
    · simpa using this (b.toNat % 16) (by omega)
  rw [e]
  exact this

/-- The hypothesis of `C75_row` and `C75_json_partial`. -/
example : ∃ row, messageRow aMessage = .ok row ∧ row.length = 9 := by
  obtain ⟨row, h, hl, _⟩ := C75_row [0x10, 0x81, 0, 1, 0x01, 0x30, 0x01, 0x05, 0xFF, 0x01, 0x72, 1, 0x80, 1, 0x30] aMessage
    (newWithBytes_cons ..)
  exact ⟨row, h, by rw [hl]; decide⟩

end Verif.Props
