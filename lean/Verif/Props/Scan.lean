import Verif.Model.Scan
import Verif.Props.Commands
import Verif.Props.Table
import Verif.Props.Controller

/-! # C78: the table of a scan -/

namespace Verif.Props
open Verif Model Spec Lemmas

theorem Each.append {α β : Type} {R : α → β → Prop} {as as' : List α} {bs bs' : List β}
    (h : Each R as bs) (h' : Each R as' bs') : Each R (as ++ as') (bs ++ bs') := by
  induction h with
  | nil => exact h'
  | cons h _ ih => exact .cons h ih

theorem Each.mem_right {α β : Type} {R : α → β → Prop} {as : List α} {bs : List β}
    (h : Each R as bs) {b : β} (hb : b ∈ bs) : ∃ a ∈ as, R a b := by
  induction h with
  | nil => cases hb
  | cons h _ ih =>
    rcases List.mem_cons.mp hb with rfl | hb
    · exact ⟨_, by simp, h⟩
    · obtain ⟨a, ha, hr⟩ := ih hb
      exact ⟨a, by simp [ha], hr⟩

theorem Each.length_eq {α β : Type} {R : α → β → Prop} {as : List α} {bs : List β}
    (h : Each R as bs) : as.length = bs.length := by
  induction h with
  | nil => rfl
  | cons _ _ ih => simp [ih]

/-- A node is to be shown: no address was given, or its own one. -/
def Asked (q : Query) (n : RemoteNode) : Bool := q.address = "" ∨ n.address = q.address

/-- The request for one property. -/
def Reads (m : Message) (obj : Nat) (code : Byte) : Prop :=
  m.esv = 0x62 ∧ m.getDEOJ.toNat = obj ∧ m.opc = 1 ∧ m.ep = [some ⟨code, []⟩]

/-- The manufacturer shown for a node: the registered name for the code the node answered when asked for its
property `8A`, and `unknown` otherwise. -/
def ShowsManufacturer (t : List Manufacture) (ans : PostAnswers) (n : RemoteNode) (cell : Str) : Prop :=
  ∃ k m, Reads m 0x0EF001 0x8A ∧
    ((∃ p man, ans k n m = .ok [p] ∧ lookupManufacture t (beNat p.data % 2 ^ 64) = some man ∧
        cell = man.name.toList) ∨
     ((∀ p man, ans k n m = .ok [p] → lookupManufacture t (beNat p.data % 2 ^ 64) ≠ some man) ∧
        cell = "unknown".toList))

/-- The number of a port in a cell. -/
def ShowsPort (cell : Str) (n : Nat) : Prop := (∀ c ∈ cell, c.isDigit = true) ∧ cell ≠ [] ∧ decimal cell = n

/-- The name of the class of an object, or `unknown`. -/
def ShowsClass (o : Obj) (cell : Str) : Prop :=
  cell = if o.clsName = "" then "unknown".toList else o.clsName.toList

/-- The cells that name an object. -/
def ShowsObject (t : List Manufacture) (ans : PostAnswers) (n : RemoteNode) (o : Obj) (row : Row) : Prop :=
  ∃ port manu code name, row = [n.address.toList, port, manu, code, name] ∧ ShowsPort port n.port ∧
    ShowsManufacturer t ans n manu ∧ ShowsNumber 6 (some code) o.code.toNat ∧ ShowsClass o name

/-- A letter for each of the services get, set and announce: upper case if it is required, lower case if it is
optional. -/
def rule (p : EProp) : Str :=
  [if p.getAttr = 1 then 'R' else if p.getAttr = 2 then 'r' else '-',
   if p.setAttr = 1 then 'W' else if p.setAttr = 2 then 'w' else '-',
   if p.annoAttr = 1 then 'A' else if p.annoAttr = 2 then 'a' else '-']

/-- The data shown for a property: nothing unless reading is required; the data of the answer if it has one
property; the error if there was none. -/
def ShowsData (ans : PostAnswers) (n : RemoteNode) (o : Obj) (p : EProp) (cell : Str) : Prop :=
  if p.getAttr = 1 then
    ∃ k m, Reads m o.code.toNat p.code ∧
      ((∃ q, ans k n m = .ok [q] ∧ HexBytes cell q.data) ∨ ans k n m = .error cell ∨
        ((∀ q, ans k n m ≠ .ok [q]) ∧ cell = []))
  else cell = []

/-- The cells of a property: those of its object, and four more. -/
def ShowsProperty (t : List Manufacture) (ans : PostAnswers) (n : RemoteNode) (o : Obj) (p : EProp)
    (row : Row) : Prop :=
  ∃ obj code name data, row = obj ++ [code, name, rule p, data] ∧ ShowsObject t ans n o obj ∧
    ShowsNumber 2 (some code) p.code.toNat ∧
    name = (if p.name = "" then "(unknown)".toList else p.name.toList) ∧ ShowsData ans n o p data

theorem fmtD_digits (n : Nat) : (∀ c ∈ fmtD n, c.isDigit = true) ∧ fmtD n ≠ [] := by
  have hd : ∀ n < 10, (hexDigitChar n).isDigit = true := by decide
  induction n using Nat.strongRecOn with
  | _ n ih =>
    rw [fmtD]
    split
    · next h => exact ⟨by simpa using hd n h, by simp⟩
    · next h =>
      refine ⟨?_, by simp⟩
      intro c hc
      rcases List.mem_append.mp hc with hc | hc
      · exact (ih (n / 10) (by omega)).1 c hc
      · rw [List.mem_singleton.mp hc]; exact hd _ (by omega)

theorem showsPort (n : Nat) : ShowsPort (fmtD n) n :=
  ⟨(fmtD_digits n).1, (fmtD_digits n).2, decimal_fmtD n⟩

theorem toList_empty (s : String) : s.toList.length = 0 ↔ s = "" := by
  rw [List.length_eq_zero_iff]
  constructor
  · intro h; exact String.toList_inj.mp (by rw [h]; rfl)
  · rintro rfl; rfl

theorem showsClass (o : Obj) : ShowsClass o (objectName o) := by
  unfold ShowsClass objectName
  by_cases h : o.clsName = ""
  · rw [if_pos ((toList_empty _).mpr h), if_pos h]; rfl
  · rw [if_neg (fun h' => h ((toList_empty _).mp h')), if_neg h]

theorem showsManufacturer (t : List Manufacture) (ans : PostAnswers) (n : RemoteNode) (k : Nat) :
    ShowsManufacturer t ans n (manufacturerName t (ans k n manufacturerRequest)) := by
  refine ⟨k, manufacturerRequest, ⟨rfl, by decide, rfl, rfl⟩, ?_⟩
  unfold manufacturerName
  cases ha : ans k n manufacturerRequest with
  | error e => exact .inr ⟨fun p man h => (by cases h), rfl⟩
  | ok props =>
    match props with
    | [] => exact .inr ⟨fun p man h => (by cases h), rfl⟩
    | _ :: _ :: _ => exact .inr ⟨fun p man h => (by cases h), rfl⟩
    | [p] =>
      have e : (byteToInteger 64 p.data).toNat = beNat p.data % 2 ^ 64 := byteToInteger_toNat 64 p.data
      simp only
      cases hl : lookupManufacture t (byteToInteger 64 p.data).toNat with
      | none =>
        refine .inr ⟨fun q man h h' => ?_, rfl⟩
        cases h
        rw [e, h'] at hl; cases hl
      | some man => exact .inl ⟨p, man, rfl, by rw [← e]; exact hl, rfl⟩

theorem code_lt {o : Obj} (h : o.codes.length = 3) : o.code.toNat = beNat o.codes ∧ o.code.toNat < 256 ^ 3 := by
  have hb := beNat_lt o.codes
  rw [h] at hb
  have e : o.code.toNat = beNat o.codes := by
    unfold Obj.code
    rw [byteToInteger_toNat, Nat.mod_eq_of_lt (by omega)]
  exact ⟨e, by omega⟩

theorem showsObject (t : List Manufacture) (ans : PostAnswers) (n : RemoteNode) (o : Obj) (manu : Str)
    (hm : ShowsManufacturer t ans n manu) (ho : o.codes.length = 3) :
    ShowsObject t ans n o [n.address.toList, fmtD n.port, manu, fmtX0 6 o.code.toNat, objectName o] :=
  ⟨_, _, _, _, rfl, showsPort _, hm, ⟨_, rfl, fmtX0_length 6 _ (by decide) (code_lt ho).2, fmtX0_number 6 _⟩,
    showsClass o⟩

theorem hexEncode_bytes (bs : Bytes) : HexBytes (hexEncode bs) bs := by
  have hd : ∀ n < 16, HexDigit (hexDigitChar n).toLower n := by decide
  unfold hexEncode fmtXBytes
  induction bs with
  | nil => exact .nil
  | cons b bs ih =>
    have hb := b.isLt
    have := HexBytes.cons (hd (b.toNat / 16) (by omega)) (hd (b.toNat % 16) (by omega)) ih
    rwa [show 16 * (b.toNat / 16) + b.toNat % 16 = b.toNat by omega, BitVec.ofNat_toNat,
      BitVec.setWidth_eq] at this

theorem showsProperty (t : List Manufacture) (ans : PostAnswers) (n : RemoteNode) (o : Obj) (manu : Str)
    (hm : ShowsManufacturer t ans n manu) (ho : o.codes.length = 3) (p : EProp) (posts : Nat) :
    ShowsProperty t ans n o p (propertyRow ans n manu o posts p).2 := by
  have hr : Reads (dataRequest o p) o.code.toNat p.code := by
    refine ⟨rfl, ?_, rfl, rfl⟩
    have hd : ((Message.new.setESV ESV.readRequest).setDEOJ o.code).deoj = beBytes 3 o.code.toNat := by
      show integerToByte o.code Message.new.deoj = _
      rw [integerToByte_eq]; rfl
    rw [getDEOJ_toNat (by show ((Message.new.setESV ESV.readRequest).setDEOJ o.code).deoj.length = 3
                          rw [hd]; exact beBytes_length _ _)]
    show beNat ((Message.new.setESV ESV.readRequest).setDEOJ o.code).deoj = _
    rw [hd, beNat_beBytes, Nat.mod_eq_of_lt (code_lt ho).2]
  refine ⟨[n.address.toList, fmtD n.port, manu, fmtX0 6 o.code.toNat, objectName o], fmtX0 2 p.code.toNat,
    (if p.name.toList.length = 0 then ['('] ++ unknownStr ++ [')'] else p.name.toList),
    (if p.isReadRequired then
        (match ans posts n (dataRequest o p) with
        | .ok [q] => hexEncode q.data
        | .ok _ => []
        | .error e => e)
    else []), ?_, showsObject t ans n o manu hm ho,
    ⟨_, rfl, fmtX0_length 2 _ (by decide) p.code.isLt, fmtX0_number 2 _⟩, ?_, ?_⟩
  · have hrule : propAttrString p.getAttr 'r' ++ propAttrString p.setAttr 'w' ++ propAttrString p.annoAttr 'a' =
        rule p := by
      have one : ∀ (a : BitVec 64) (c u : Char), c.toUpper = u →
          propAttrString a c = [if a = 1 then u else if a = 2 then c else '-'] := by
        intro a c u hu
        unfold propAttrString Attr.required Attr.optional
        rw [hu]
        by_cases h1 : a = 1
        · rw [if_pos h1, if_pos h1]
        · rw [if_neg h1, if_neg h1]
          by_cases h2 : a = 2
          · rw [if_pos h2, if_pos h2]
          · rw [if_neg h2, if_neg h2]
      rw [one _ 'r' 'R' (by decide), one _ 'w' 'W' (by decide), one _ 'a' 'A' (by decide)]
      rfl
    unfold propertyRow
    simp only
    rw [hrule]
    by_cases hq : p.isReadRequired = true
    · rw [if_pos hq, if_pos hq]; rfl
    · rw [if_neg hq, if_neg hq]; rfl
  · by_cases h : p.name = ""
    · rw [if_pos ((toList_empty _).mpr h), if_pos h]; decide
    · rw [if_neg (fun h' => h ((toList_empty _).mp h')), if_neg h]
  · unfold ShowsData
    have hreq : p.isReadRequired = true ↔ p.getAttr = 1 := by
      unfold EProp.isReadRequired Attr.isRequired Attr.required
      exact beq_iff_eq
    by_cases hq : p.getAttr = 1
    · rw [if_pos hq, if_pos (hreq.mpr hq)]
      refine ⟨posts, dataRequest o p, hr, ?_⟩
      cases ha : ans posts n (dataRequest o p) with
      | error e => exact .inr (.inl rfl)
      | ok props =>
        match props with
        | [] => exact .inr (.inr ⟨fun q h => (by cases h), rfl⟩)
        | _ :: _ :: _ => exact .inr (.inr ⟨fun q h => (by cases h), rfl⟩)
        | [q] => exact .inl ⟨q, rfl, hexEncode_bytes q.data⟩
    · rw [if_neg hq, if_neg (fun h => hq (hreq.mp h))]

theorem propertyRows_each (t : List Manufacture) (ans : PostAnswers) (n : RemoteNode) (o : Obj) (manu : Str)
    (hm : ShowsManufacturer t ans n manu) (ho : o.codes.length = 3) (ps : List EProp) (posts : Nat) :
    Each (fun p row => ShowsProperty t ans n o p row) ps (propertyRows ans n manu o posts ps).2 := by
  induction ps generalizing posts with
  | nil => exact .nil
  | cons p ps ih => exact .cons (showsProperty t ans n o manu hm ho p posts) (ih _)

theorem Each.map_left {α β γ : Type} {R : β → γ → Prop} (f : α → β) {as : List α} {cs : List γ}
    (h : Each (fun a c => R (f a) c) as cs) : Each R (as.map f) cs := by
  induction h with
  | nil => exact .nil
  | cons h _ ih => exact .cons h ih

theorem objectRows_plain (t : List Manufacture) (ans : PostAnswers) (n : RemoteNode) (manu : Str)
    (hm : ShowsManufacturer t ans n manu) (os : List Obj) (ho : ∀ o ∈ os, o.codes.length = 3) (posts : Nat) :
    Each (fun (x : RemoteNode × Obj) row => ShowsObject t ans x.1 x.2 row) (os.map (fun o => (n, o)))
      (objectRows ans false n manu posts os).2 := by
  induction os generalizing posts with
  | nil => exact .nil
  | cons o os ih =>
    exact .cons (showsObject t ans n o manu hm (ho o (by simp))) (ih (fun x hx => ho x (by simp [hx])) _)

theorem objectRows_detail (t : List Manufacture) (ans : PostAnswers) (n : RemoteNode) (manu : Str)
    (hm : ShowsManufacturer t ans n manu) (os : List Obj) (ho : ∀ o ∈ os, o.codes.length = 3) (posts : Nat) :
    Each (fun (x : RemoteNode × Obj × EProp) row => ShowsProperty t ans x.1 x.2.1 x.2.2 row)
      (os.flatMap (fun o => o.props.properties.map (fun p => (n, o, p))))
      (objectRows ans true n manu posts os).2 := by
  induction os generalizing posts with
  | nil => exact .nil
  | cons o os ih =>
    rw [List.flatMap_cons]
    refine Each.append ?_ (ih (fun x hx => ho x (by simp [hx])) _)
    exact Each.map_left (R := fun (x : RemoteNode × Obj × EProp) row => ShowsProperty t ans x.1 x.2.1 x.2.2 row)
      (fun p => (n, o, p)) (propertyRows_each t ans n o manu hm (ho o (by simp)) _ posts)

theorem asked_iff (q : Query) (n : RemoteNode) :
    Asked q n = true ↔ ¬ (0 < q.address.toList.length ∧ n.address ≠ q.address) := by
  unfold Asked
  rw [decide_eq_true_iff]
  constructor
  · rintro (h | h) ⟨h1, h2⟩
    · rw [(toList_empty _).mpr h] at h1; omega
    · exact h2 h
  · intro h
    by_cases hq : q.address = ""
    · exact .inl hq
    · refine .inr (Classical.byContradiction fun hne => h ⟨?_, hne⟩)
      have := mt (toList_empty q.address).mp hq
      omega

theorem nodeRows_plain (t : List Manufacture) (ans : PostAnswers) (q : Query) (hq : q.details = false)
    (ns : List RemoteNode) (ho : ∀ n ∈ ns, ∀ o ∈ n.devices ++ n.profiles, o.codes.length = 3) (posts : Nat) :
    Each (fun (x : RemoteNode × Obj) row => ShowsObject t ans x.1 x.2 row)
      ((ns.filter (Asked q)).flatMap (fun n => (n.devices ++ n.profiles).map (fun o => (n, o))))
      (nodeRows t ans q posts ns).2 := by
  induction ns generalizing posts with
  | nil => exact .nil
  | cons n ns ih =>
    unfold nodeRows
    by_cases h : 0 < q.address.toList.length ∧ n.address ≠ q.address
    · rw [if_pos h, List.filter_cons_of_neg (by rw [asked_iff]; exact fun h' => h' h)]
      exact ih (fun x hx => ho x (by simp [hx])) _
    · rw [if_neg h, List.filter_cons_of_pos ((asked_iff q n).mpr h), List.flatMap_cons]
      simp only
      refine Each.append ?_ (ih (fun x hx => ho x (by simp [hx])) _)
      rw [hq]
      exact objectRows_plain t ans n _ (showsManufacturer t ans n posts) _ (ho n (by simp)) _

theorem nodeRows_detail (t : List Manufacture) (ans : PostAnswers) (q : Query) (hq : q.details = true)
    (ns : List RemoteNode) (ho : ∀ n ∈ ns, ∀ o ∈ n.devices ++ n.profiles, o.codes.length = 3) (posts : Nat) :
    Each (fun (x : RemoteNode × Obj × EProp) row => ShowsProperty t ans x.1 x.2.1 x.2.2 row)
      ((ns.filter (Asked q)).flatMap (fun n => (n.devices ++ n.profiles).flatMap
        (fun o => o.props.properties.map (fun p => (n, o, p)))))
      (nodeRows t ans q posts ns).2 := by
  induction ns generalizing posts with
  | nil => exact .nil
  | cons n ns ih =>
    unfold nodeRows
    by_cases h : 0 < q.address.toList.length ∧ n.address ≠ q.address
    · rw [if_pos h, List.filter_cons_of_neg (by rw [asked_iff]; exact fun h' => h' h)]
      exact ih (fun x hx => ho x (by simp [hx])) _
    · rw [if_neg h, List.filter_cons_of_pos ((asked_iff q n).mpr h), List.flatMap_cons]
      simp only
      refine Each.append ?_ (ih (fun x hx => ho x (by simp [hx])) _)
      rw [hq]
      exact objectRows_detail t ans n _ (showsManufacturer t ans n posts) _ (ho n (by simp)) _

/-- Without details the table of a scan has one row for each object of each node asked for, in the order of
nodes, devices and profiles: address, port, manufacturer, code and class of the object. -/
theorem C78_objects (t : List Manufacture) (ans : PostAnswers) (q : Query) (hq : q.details = false)
    (ns : List RemoteNode) (ho : ∀ n ∈ ns, ∀ o ∈ n.devices ++ n.profiles, o.codes.length = 3) :
    Each (fun (x : RemoteNode × Obj) row => ShowsObject t ans x.1 x.2 row)
      ((ns.filter (Asked q)).flatMap (fun n => (n.devices ++ n.profiles).map (fun o => (n, o))))
      (discoveredNodeTable t ans q ns).rows :=
  nodeRows_plain t ans q hq ns ho 0

/-- With details it has one row for each property of each object of each node asked for. -/
theorem C78_properties (t : List Manufacture) (ans : PostAnswers) (q : Query) (hq : q.details = true)
    (ns : List RemoteNode) (ho : ∀ n ∈ ns, ∀ o ∈ n.devices ++ n.profiles, o.codes.length = 3) :
    Each (fun (x : RemoteNode × Obj × EProp) row => ShowsProperty t ans x.1 x.2.1 x.2.2 row)
      ((ns.filter (Asked q)).flatMap (fun n => (n.devices ++ n.profiles).flatMap
        (fun o => o.props.properties.map (fun p => (n, o, p)))))
      (discoveredNodeTable t ans q ns).rows :=
  nodeRows_detail t ans q hq ns ho 0

theorem scan_rows (t : List Manufacture) (ans : PostAnswers) (q : Query)
    (ns : List RemoteNode) (ho : ∀ n ∈ ns, ∀ o ∈ n.devices ++ n.profiles, o.codes.length = 3) :
    ∀ row ∈ (discoveredNodeTable t ans q ns).rows, ∃ n ∈ ns, ∃ o obj rest, row = obj ++ rest ∧
      ShowsObject t ans n o obj ∧ rest.length = if q.details then 4 else 0 := by
  intro row hrow
  cases hq : q.details with
  | false =>
    obtain ⟨x, hx, hs⟩ := Each.mem_right (C78_objects t ans q hq ns ho) hrow
    obtain ⟨n, hn, hx⟩ := List.mem_flatMap.mp hx
    obtain ⟨o, _, rfl⟩ := List.mem_map.mp hx
    exact ⟨n, (List.mem_filter.mp hn).1, o, row, [], by simp, hs, rfl⟩
  | true =>
    obtain ⟨x, hx, hs⟩ := Each.mem_right (C78_properties t ans q hq ns ho) hrow
    obtain ⟨n, hn, hx⟩ := List.mem_flatMap.mp hx
    obtain ⟨o, _, hx⟩ := List.mem_flatMap.mp hx
    obtain ⟨p, _, rfl⟩ := List.mem_map.mp hx
    obtain ⟨obj, code, name, data, e, h1, _⟩ := hs
    exact ⟨n, (List.mem_filter.mp hn).1, o, obj, _, e, h1, rfl⟩

theorem scanColumns_nodup : ∀ d, (scanColumns d).Nodup := by decide

/-- Every row has a cell for each column, so that the JSON output has each cell under the name of its
column. -/
theorem C78_json (t : List Manufacture) (ans : PostAnswers) (q : Query)
    (ns : List RemoteNode) (ho : ∀ n ∈ ns, ∀ o ∈ n.devices ++ n.profiles, o.codes.length = 3) :
    (∀ row ∈ (discoveredNodeTable t ans q ns).rows,
      row.length = (discoveredNodeTable t ans q ns).columns.length) ∧
    (discoveredNodeTable t ans q ns).jsonObjects =
      .ok ((discoveredNodeTable t ans q ns).rows.map ((discoveredNodeTable t ans q ns).columns.zip ·)) := by
  have hl : ∀ row ∈ (discoveredNodeTable t ans q ns).rows,
      row.length = (discoveredNodeTable t ans q ns).columns.length := by
    intro row hrow
    obtain ⟨n, _, o, obj, rest, rfl, ⟨port, manu, code, name, rfl, _⟩, hr⟩ := scan_rows t ans q ns ho row hrow
    rw [List.length_append, hr]
    show 5 + _ = (scanColumns q.details).length
    cases q.details <;> decide
  exact ⟨hl, json_ok _ (scanColumns_nodup _) (fun r hr => Nat.le_of_eq (hl r hr).symm)⟩

/-- The table printed by `scan`, with repetitions hidden in the first five columns: no information is lost,
since filling the blanks of a column from above gives the column back before blank rows are left out. Node
addresses and registered names are not blank. -/
theorem C78_hidden (t : List Manufacture) (ht : ∀ m ∈ t, m.name ≠ "") (ans : PostAnswers) (q : Query)
    (ns : List RemoteNode) (ho : ∀ n ∈ ns, ∀ o ∈ n.devices ++ n.profiles, o.codes.length = 3)
    (ha : ∀ n ∈ ns, n.address ≠ "") :
    ∃ out, (discoveredNodeTable t ans q ns).hideDuplicateColumns [0, 1, 2, 3, 4] =
        .ok { columns := scanColumns q.details, rows := out.filter (fun r => ¬ ∀ c ∈ r, c = []) } ∧
      out.map List.length = (discoveredNodeTable t ans q ns).rows.map List.length ∧
      (∀ j, j ∉ [0, 1, 2, 3, 4] → column out j = column (discoveredNodeTable t ans q ns).rows j) ∧
      ∀ k ∈ [0, 1, 2, 3, 4], fillDown [] (column out k) = column (discoveredNodeTable t ans q ns).rows k := by
  have hlen : ∀ k ∈ [0, 1, 2, 3, 4], ∀ r ∈ (discoveredNodeTable t ans q ns).rows, k < r.length := by
    intro k hk r hr
    obtain ⟨n, _, o, obj, rest, rfl, ⟨port, manu, code, name, rfl, _⟩, _⟩ := scan_rows t ans q ns ho r hr
    rw [List.length_append]
    have : k < 5 := (by decide : ∀ k ∈ [0, 1, 2, 3, 4], k < 5) k hk
    show k < 5 + _
    omega
  obtain ⟨out, h1, h2, h3, h4⟩ := C66_partial (discoveredNodeTable t ans q ns) [0, 1, 2, 3, 4] (by decide) hlen
  refine ⟨out, h1, h2, h3, fun k hk => h4 k hk ?_⟩
  intro r hr
  obtain ⟨n, hn, o, obj, rest, rfl, ⟨port, manu, code, name, rfl, hp, ⟨_, _, _, hm⟩, ⟨s, hs, hsl, _⟩, hc⟩, _⟩ :=
    scan_rows t ans q ns ho r hr
  have hne : ∀ s : String, s ≠ "" → s.toList ≠ [] := by
    intro s h h'
    exact h ((toList_empty s).mp (by rw [h']; rfl))
  have hmanu : manu ≠ [] := by
    rcases hm with ⟨p, man, _, hl, rfl⟩ | ⟨_, rfl⟩
    · refine hne _ (ht man ?_)
      unfold lookupManufacture at hl
      exact List.mem_reverse.mp (List.mem_of_find?_eq_some hl)
    · decide
  have hcode : code ≠ [] := by
    cases hs
    rintro rfl
    simp at hsl
  have hname : name ≠ [] := by
    rw [hc]
    split
    · decide
    · next h => exact hne _ h
  simp only [List.mem_cons, List.not_mem_nil, or_false] at hk
  rcases hk with rfl | rfl | rfl | rfl | rfl
  · exact hne _ (ha n hn)
  · exact hp.2.1
  · exact hmanu
  · exact hcode
  · exact hname

example : ∀ m ∈ Mra.manufacturers, m.name ≠ "" := by decide +kernel

/-- The claim that each object is listed once fails for every node found by its list of instances: its node
profile is listed twice. -/
theorem C78_refuted (db : StdDB) (t : List Manufacture) (ans : PostAnswers) (autoPort : Bool) (m : Message)
    (n : RemoteNode) (h : RemoteNode.ofInstanceListAndConfig db autoPort m = .ok n) :
    ∃ (i j : Nat) (rowi rowj : Row), i ≠ j ∧
      (discoveredNodeTable t ans ⟨false, ""⟩ [n]).rows[i]? = some rowi ∧
      (discoveredNodeTable t ans ⟨false, ""⟩ [n]).rows[j]? = some rowj ∧
      ShowsNumber 6 rowi[3]? 0x0EF001 ∧ ShowsNumber 6 rowj[3]? 0x0EF001 := by
  have hex : ∃ cs, InstanceList m cs ∧ Known db cs := by
    apply Classical.byContradiction
    intro hn
    obtain ⟨e, he⟩ := C47_refused db autoPort m hn
    rw [h] at he; cases he
  obtain ⟨cs, hi, hk⟩ := hex
  obtain ⟨n', h', hd⟩ := C47_decoded db autoPort m cs hi hk
  rw [h] at h'
  cases h'
  have h3 : ∀ c ∈ cs, c.length = 3 := by
    obtain ⟨-, p, -, -, h3, -⟩ := hi
    exact h3
  have ho : ∀ x ∈ [n], ∀ o ∈ x.devices ++ x.profiles, o.codes.length = 3 := by
    intro x hx o hox
    rw [List.mem_singleton.mp hx] at hox
    rcases List.mem_append.mp hox with hox | hox
    · have : o.codes ∈ n.devices.map (·.codes) := List.mem_map_of_mem hox
      rw [hd.devices] at this
      exact h3 _ (List.mem_filter.mp this).1
    · have : o.codes ∈ n.profiles.map (·.codes) := List.mem_map_of_mem hox
      rw [hd.profiles] at this
      simp only [List.mem_append, List.mem_singleton] at this
      rcases this with (h | h) | h
      · rw [h]; rfl
      · exact h3 _ (List.mem_filter.mp h).1
      · rw [h]; rfl
  have hE := C78_objects t ans ⟨false, ""⟩ rfl [n] ho
  have hf : [n].filter (Asked ⟨false, ""⟩) = [n] := by simp [Asked]
  rw [hf, List.flatMap_singleton] at hE
  have each_get : ∀ {α β : Type} {R : α → β → Prop} {as : List α} {bs : List β}, Each R as bs →
      ∀ (i : Nat) (a : α), as[i]? = some a → ∃ b, bs[i]? = some b ∧ R a b := by
    intro α β R as bs hE
    induction hE with
    | nil => intro i a h; simp at h
    | cons hr _ ih =>
      intro i a h
      cases i with
      | zero => rw [List.getElem?_cons_zero] at h; cases h; exact ⟨_, rfl, hr⟩
      | succ i => rw [List.getElem?_cons_succ] at h; exact ih i a h
  -- the two node profiles
  have hlen : n.profiles.length = (cs.filter ofProfile).length + 2 := by
    have := congrArg List.length hd.profiles
    simp at this
    omega
  have get : ∀ i : Nat, (n.profiles.map (·.codes))[i]? = some [0x0E, 0xF0, 0x01] →
      ∃ row, (discoveredNodeTable t ans ⟨false, ""⟩ [n]).rows[n.devices.length + i]? = some row ∧
        ShowsNumber 6 row[3]? 0x0EF001 := by
    intro i hi
    rw [List.getElem?_map] at hi
    cases ho : n.profiles[i]? with
    | none => rw [ho] at hi; cases hi
    | some o =>
      rw [ho] at hi
      have hc : o.codes = [0x0E, 0xF0, 0x01] := Option.some.inj hi
      obtain ⟨row, hr, port, manu, code, name, rfl, _, _, hcode, _⟩ := each_get hE (n.devices.length + i) (n, o) (by
        rw [List.getElem?_map, List.getElem?_append_right (by omega), Nat.add_sub_cancel_left, ho]; rfl)
      refine ⟨_, hr, ?_⟩
      have e : o.code.toNat = 0x0EF001 := by
        rw [(code_lt (o := o) (by rw [hc]; rfl)).1, hc]; decide
      rw [e] at hcode
      exact hcode
  obtain ⟨r0, h0, s0⟩ := get 0 (by rw [hd.profiles]; rfl)
  obtain ⟨r1, h1, s1⟩ := get ((cs.filter ofProfile).length + 1) (by
    rw [hd.profiles, List.getElem?_append_right (by simp)]
    simp)
  exact ⟨_, _, r0, r1, by omega, h0, h1, s0, s1⟩

/-- Two air conditioners and a profile are announced: the hypotheses of the theorems hold of the node found. -/
example (ans : PostAnswers) :
    ∃ n, RemoteNode.ofInstanceListAndConfig stdDB true
        (listMessage ⟨"10.0.0.2", 4000⟩ [3, 1, 0x30, 1, 0x0E, 0xF0, 1, 1, 0x30, 2, 9]) = .ok n ∧
      (∀ o ∈ n.devices ++ n.profiles, o.codes.length = 3) ∧ n.address = "10.0.0.2" ∧
      (discoveredNodeTable Mra.manufacturers ans ⟨false, "10.0.0.2"⟩ [n]).rows.length = 5 ∧
      (discoveredNodeTable Mra.manufacturers ans ⟨false, "10.0.0.3"⟩ [n]).rows = [] := by
  have h : InstanceList (listMessage ⟨"10.0.0.2", 4000⟩ [3, 1, 0x30, 1, 0x0E, 0xF0, 1, 1, 0x30, 2, 9])
      [[1, 0x30, 1], [0x0E, 0xF0, 1], [1, 0x30, 2]] :=
    ⟨by decide, ⟨0xD5, _⟩, rfl, .inl rfl, by decide, 3, [9], rfl, rfl⟩
  have hk : Known stdDB [[1, 0x30, 1], [0x0E, 0xF0, 1], [1, 0x30, 2]] := by
    unfold Known; decide +kernel
  obtain ⟨n, e, d⟩ := C47_decoded stdDB true _ _ h hk
  have hc : (n.devices ++ n.profiles).map (·.codes) =
      [[1, 0x30, 1], [1, 0x30, 2], [0x0E, 0xF0, 1], [0x0E, 0xF0, 1], [0x0E, 0xF0, 1]] := by
    rw [List.map_append, d.devices, d.profiles]; decide
  have h3 : ∀ o ∈ n.devices ++ n.profiles, o.codes.length = 3 := by
    intro o ho
    have : o.codes ∈ (n.devices ++ n.profiles).map (·.codes) := List.mem_map_of_mem ho
    rw [hc] at this
    revert this
    generalize o.codes = c
    intro this
    simp only [List.mem_cons, List.not_mem_nil, or_false] at this
    rcases this with rfl | rfl | rfl | rfl | rfl <;> rfl
  have hl : (n.devices ++ n.profiles).length = 5 := by
    have := congrArg List.length hc
    rw [List.length_map] at this
    exact this
  have ha : n.address = "10.0.0.2" := d.address
  refine ⟨n, e, h3, ha, ?_, ?_⟩
  · have := Each.length_eq (C78_objects Mra.manufacturers ans ⟨false, "10.0.0.2"⟩ rfl [n] (by simpa using h3))
    rw [← this, List.filter_cons_of_pos (by simp [Asked, ha])]
    simpa using hl
  · have := Each.length_eq (C78_objects Mra.manufacturers ans ⟨false, "10.0.0.3"⟩ rfl [n] (by simpa using h3))
    rw [List.filter_cons_of_neg (by simp [Asked, ha])] at this
    exact List.length_eq_zero_iff.mp this.symm

end Verif.Props
