import Verif.Lemmas.Database
import Verif.Props.Object
import Verif.Props.Service

/-! # C25 to C28, C67: devices and the standard database -/

namespace Verif.Props
open Verif Model Spec Lemmas

/-- The class of an object code: group code and class code. -/
def classOf (c : ObjectCode) : Nat × Nat := (c.toNat / 65536 % 256, c.toNat / 256 % 256)

/-- C26. A description is found exactly when the class is registered, and it is the one registered
for the class. -/
theorem C26_lookup (c : ObjectCode) (o : Obj) :
    stdDB.lookupObject c = some o ↔
      ∃ r ∈ Mra.table, (r.grpCode.toNat, r.clsCode.toNat) = classOf c ∧ o = r.build := by
  unfold stdDB classOf
  rw [lookup_init _ table_distinct]
  simp only [Prod.mk.injEq, and_assoc]

/-- C26. The instance code never matters. -/
theorem C26_instance (c c' : ObjectCode) (h : classOf c = classOf c') :
    stdDB.lookupObject c = stdDB.lookupObject c' := by
  apply Option.ext
  intro o
  rw [C26_lookup, C26_lookup, h]

example : stdDB.lookupObject 0x013001 = stdDB.lookupObject 0x013055 := C26_instance _ _ (by decide)

/-- C26. The registered description has the class name, the class and the properties of the
table: under each code the last entry with that code, without data. -/
theorem C26_contents (r : RawObj) (c : Byte) :
    r.build.clsName = r.clsName ∧ r.build.codes = [r.grpCode, r.clsCode, 0] ∧
    r.build.props.lookup c
      = (r.props.reverse.find? (fun p => p.code == c)).map newStandardProperty ∧
    ∀ p, r.build.props.lookup c = some p → p.data = [] ∧ p.code = c := by
  refine ⟨(build_fields r).2, (build_fields r).1, build_lookup r c, ?_⟩
  intro p hp
  refine ⟨?_, lookup_code hp⟩
  rw [build_lookup, Option.map_eq_some_iff] at hp
  obtain ⟨q, -, rfl⟩ := hp
  rfl

/-- C26. Every registered property code is a property code (0x80 or more), and there are 57
classes. -/
theorem C26_codes : (∀ r ∈ Mra.table, ∀ p ∈ r.props, 0x80 ≤ p.code.toNat) ∧
    Mra.table.length = 57 := by
  constructor
  · have : (Mra.table.all fun r => r.props.all fun p => decide (0x80 ≤ p.code.toNat)) = true := by
      decide +kernel
    intro r hr p hp
    have h1 := List.all_eq_true.mp this r hr
    have h2 := List.all_eq_true.mp h1 p hp
    simpa using h2
  · decide +kernel

/-- C26. The super object and the node profile of the database are the descriptions registered for them. -/
theorem C26_special : stdDB.superObject = some Mra.obj0000.build ∧ stdDB.nodeProfile = some Mra.obj0EF0.build ∧
    Mra.obj0000.build.clsName = "Super class" ∧ Mra.obj0EF0.build.clsName = "Node profile" := by
  refine ⟨(C26_lookup 0 _).mpr ⟨Mra.obj0000, by simp [Mra.table], rfl, rfl⟩,
    (C26_lookup 0x0EF000 _).mpr ⟨Mra.obj0EF0, by simp [Mra.table], rfl, rfl⟩, ?_, ?_⟩
  · rw [(C26_contents Mra.obj0000 0).1]; rfl
  · rw [(C26_contents Mra.obj0EF0 0).1]; rfl

/-- C26. Every registered manufacturer is found under its own code. -/
theorem C26_manufacturers : ∀ m ∈ Mra.manufacturers,
    lookupManufacture Mra.manufacturers m.code = some m := by
  have hn : (Mra.manufacturers.map (·.code)).Nodup := by decide +kernel
  intro m hm
  unfold lookupManufacture
  have hs : (Mra.manufacturers.reverse.find? (fun x => x.code == m.code)).isSome := by
    rw [List.find?_isSome]
    exact ⟨m, List.mem_reverse.mpr hm, by simp⟩
  obtain ⟨x, hx⟩ := Option.isSome_iff_exists.mp hs
  rw [hx]
  have h1 := List.mem_reverse.mp (List.mem_of_find?_eq_some hx)
  have h2 : x.code = m.code := by simpa using List.find?_some hx
  obtain ⟨i, hi, rfl⟩ := List.getElem_of_mem hm
  obtain ⟨j, hj, rfl⟩ := List.getElem_of_mem h1
  have := List.getElem_inj (i := j) (j := i) (h₀ := by simpa using hj) (h₁ := by simpa using hi) hn
  rw [List.getElem_map, List.getElem_map] at this
  have e := this.mp h2
  subst e
  rfl

example : (stdDB.lookupObject 0x013001).map (·.codes) = some [0x01, 0x30, 0x00] ∧
    (stdDB.lookupObject 0x0130FF).map (·.codes) = some [0x01, 0x30, 0x00] ∧
    (stdDB.lookupObject 0x013201).map (·.codes) = none ∧
    ((stdDB.lookupObject 0x013001).bind (·.props.lookup 0xB0)).map (·.getAttr) = some 1 := by
  decide +kernel

theorem setCode_code {o : Obj} (h : o.codes.length = 3) (c : ObjectCode) :
    (o.setCode c).code.toNat = c.toNat % 2 ^ 24 := by
  unfold Obj.code Obj.setCode
  rw [C01_write_read, h]

theorem lookupObject_mod (db : StdDB) (c c' : ObjectCode) (h : c'.toNat = c.toNat % 2 ^ 24) :
    db.lookupObject c' = db.lookupObject c := by
  rw [lookupObject_eq, lookupObject_eq]
  congr 1
  apply BitVec.eq_of_toNat_eq
  rw [mask_class, mask_class]
  omega

theorem newSuper_codes (db : StdDB) : (Obj.newSuper db).codes = [0, 0, 0] := by
  unfold Obj.newSuper
  dsimp only
  rw [updatePropertyMap_fst]
  exact std_codes db (Obj.new.setCode superObjectCode) _

theorem newSuper_lookup (db : StdDB) (x : Byte) :
    ((Obj.newSuper db).props.lookup x).map skel
      = (((db.lookupObject 0).bind (·.props.lookup x)).map (·.copy)).map skel := by
  unfold Obj.newSuper
  dsimp only
  rw [updatePropertyMap_sameSkel, std_lookup]
  rw [show (Obj.new.setCode superObjectCode).props.lookup x = none from rfl, Option.or_none]
  rfl

theorem newSuper_lookup_other (db : StdDB) (x : Byte) (hx : ¬ IsMapCode x) :
    (Obj.newSuper db).props.lookup x
      = ((db.lookupObject 0).bind (·.props.lookup x)).map (·.copy) := by
  unfold Obj.newSuper
  dsimp only
  rw [updatePropertyMap_lookup_other _ _ hx, std_lookup_other db _ _ _ hx]
  rw [show (Obj.new.setCode superObjectCode).props.lookup x = none from rfl, Option.or_none]
  rfl

/-- What a new device of class `c` should have under property code `x`: the entry of its class,
or else the one of the super class. -/
def standardProperty (db : StdDB) (c : ObjectCode) (x : Byte) : Option EProp :=
  ((db.lookupObject c).bind (·.props.lookup x)).or ((db.lookupObject 0).bind (·.props.lookup x))

/-- C25. `NewDeviceWithCode` succeeds exactly when the class is in the database. -/
theorem C25_succeeds (db : StdDB) (c : ObjectCode) :
    ((∃ o, Obj.newDeviceWithCode db c = .ok o) ↔ (db.lookupObject c).isSome) ∧
    (db.lookupObject c = none → Obj.newDeviceWithCode db c = .err .other) := by
  unfold Obj.newDeviceWithCode Obj.withDeviceCode
  cases db.lookupObject c with
  | none => simp
  | some s => simp

/-- C25. A new device has the code and exactly the standard properties of its class and of the
super class, all with empty data except the property maps. -/
theorem C25_device (db : StdDB) (c : ObjectCode) (o : Obj)
    (h : Obj.newDeviceWithCode db c = .ok o) :
    o.code.toNat = c.toNat % 2 ^ 24 ∧
    (∀ x, ¬ IsMapCode x → o.props.lookup x
      = (standardProperty db c x).map (fun p => { p with data := [] })) ∧
    (∀ x, (o.props.lookup x).map (fun p => { p with data := [] })
      = (standardProperty db c x).map (fun p => { p with data := [] })) ∧
    Reached db o := by
  unfold Obj.newDeviceWithCode Obj.withDeviceCode at h
  cases hc : db.lookupObject c with
  | none => rw [hc] at h; cases h
  | some s =>
    rw [hc] at h
    have ho : ((Obj.newDevice db).superSetCode db c).1 = o := Res.ok.inj h
    have hcode : (((Obj.newSuper db)).setCode c).code.toNat = c.toNat % 2 ^ 24 :=
      setCode_code (by rw [newSuper_codes]; rfl) c
    have hl : db.lookupObject ((Obj.newSuper db).setCode c).code = db.lookupObject c :=
      lookupObject_mod db c _ hcode
    have hor : ∀ a b : Option EProp, (a.map EProp.copy).or (b.map EProp.copy)
        = (a.or b).map EProp.copy := by
      intro a b; cases a <;> rfl
    refine ⟨?_, ?_, ?_, ?_⟩
    · rw [← ho]
      unfold Obj.superSetCode
      show (byteToInteger 64 (Obj.addStandardPropertiesWithCode db _ _).1.codes).toNat = _
      rw [std_codes]
      exact hcode
    · intro x hx
      rw [← ho]
      unfold Obj.superSetCode
      show (Obj.addStandardPropertiesWithCode db _ _).1.props.lookup x = _
      rw [std_lookup_other db _ _ _ hx]
      show (((db.lookupObject ((Obj.newSuper db).setCode c).code).bind _).map EProp.copy).or
        ((Obj.newSuper db).props.lookup x) = _
      rw [hl, newSuper_lookup_other db x hx, hor]
      rfl
    · intro x
      rw [← ho]
      unfold Obj.superSetCode
      show ((Obj.addStandardPropertiesWithCode db _ _).1.props.lookup x).map skel = _
      rw [std_lookup]
      show ((((db.lookupObject ((Obj.newSuper db).setCode c).code).bind _).map EProp.copy).or
        ((Obj.newSuper db).props.lookup x)).map skel = _
      rw [hl]
      have hn := newSuper_lookup db x
      unfold standardProperty
      cases hb : (db.lookupObject c).bind (fun s => s.props.lookup x) with
      | some p => rfl
      | none =>
        simp only [Option.map_none, Option.none_or]
        rw [hn]
        cases (db.lookupObject 0).bind (fun s => s.props.lookup x) <;> rfl
    · exact ⟨[.setCode c], ho.symm⟩

/-- C25, on the standard database: the class entry is the last line of the table for the property
code, and otherwise the last line of the super class. -/
theorem C25_standard (c : ObjectCode) (o : Obj) (h : Obj.newDeviceWithCode stdDB c = .ok o) (x : Byte)
    (hx : ¬ IsMapCode x) : ∃ r ∈ Mra.table, (r.grpCode.toNat, r.clsCode.toNat) = classOf c ∧
      o.props.lookup x = ((r.props.reverse.find? (fun p => p.code == x)).or
        (Mra.obj0000.props.reverse.find? (fun p => p.code == x))).map newStandardProperty := by
  have h0 : stdDB.lookupObject 0 = some Mra.obj0000.build :=
    (C26_lookup 0 _).mpr ⟨Mra.obj0000, by simp [Mra.table], rfl, rfl⟩
  obtain ⟨s, hs⟩ := Option.isSome_iff_exists.mp ((C25_succeeds stdDB c).1.mp ⟨o, h⟩)
  obtain ⟨r, hr, hcls, rfl⟩ := (C26_lookup c s).mp hs
  refine ⟨r, hr, hcls, ?_⟩
  rw [(C25_device stdDB c o h).2.1 x hx]
  unfold standardProperty
  rw [hs, h0, Option.bind_some, Option.bind_some, build_lookup, build_lookup]
  cases r.props.reverse.find? (fun p => p.code == x) with
  | some p => rfl
  | none => cases Mra.obj0000.props.reverse.find? (fun p => p.code == x) <;> rfl

example : ∃ o, Obj.newDeviceWithCode stdDB 0x013001 = .ok o ∧ (o.props.lookup 0xB0).isSome = true ∧
    o.props.count = 68 := by
  obtain ⟨o, ho⟩ := (C25_succeeds stdDB 0x013001).1.mpr (by decide +kernel)
  refine ⟨o, ho, ?_⟩
  have : (match Obj.newDeviceWithCode stdDB 0x013001 with
    | .ok o => (o.props.lookup 0xB0).isSome && o.props.count == 68
    | _ => false) = true := by decide +kernel
  rw [ho] at this
  simpa using this

/-- Shape of all simple setters: on an object having the property, the value is stored and no
other property changes. -/
theorem write_then (o : Obj) (c : Byte) (d : Bytes) (h : (o.props.lookup c).isSome) :
    (o.setPropertyData c d).2.2 = none ∧
    (∃ p, (o.setPropertyData c d).1.props.lookup c = some p ∧ p.data = d) ∧
    (∀ c', c' ≠ c → (o.setPropertyData c d).1.props.lookup c' = o.props.lookup c') ∧
    { (o.setPropertyData c d).1 with props := o.props } = o := by
  refine ⟨?_, ?_, ?_, ?_⟩
  · rw [setPropertyData_err, if_pos h]
  · obtain ⟨p, hp⟩ := Option.isSome_iff_exists.mp h
    refine ⟨p.setData d, ?_, rfl⟩
    rw [setPropertyData_fst]
    show (o.props.update c d).lookup c = _
    rw [lookup_update, if_pos rfl, hp]
    rfl
  · intro c' hc
    rw [setPropertyData_fst]
    show (o.props.update c d).lookup c' = _
    rw [lookup_update, if_neg hc]
  · rw [setPropertyData_fst]

/-- Only the property under code `c` may differ. -/
def OnlyChanges (o o' : Obj) (c : Byte) : Prop :=
  (∀ c', c' ≠ c → o'.props.lookup c' = o.props.lookup c') ∧ { o' with props := o.props } = o

/-- C27. Operating status: set and read back, changing nothing else. -/
theorem C27_operating_status (o : Obj) (b : Bool) (h : (o.props.lookup 0x80).isSome) :
    (o.setOperatingStatus b).2.2 = none ∧ (o.setOperatingStatus b).1.operatingStatus = .ok b ∧
    OnlyChanges o (o.setOperatingStatus b).1 0x80 := by
  obtain ⟨h1, ⟨p, hp, hd⟩, h3, h4⟩ := write_then o 0x80
    [if b then objectOperatingStatusOn else objectOperatingStatusOff] h
  refine ⟨h1, ?_, h3, h4⟩
  unfold Obj.operatingStatus Obj.lookupPropertyByte Obj.setOperatingStatus
  rw [setPropertyByte_eq]
  rw [show objectOperatingStatus = 0x80 from rfl, hp]
  simp only [EProp.asByte, hd, rd]
  cases b <;> rfl

/-- C27. Fault status. -/
theorem C27_fault_status (o : Obj) (b : Bool) (h : (o.props.lookup 0x88).isSome) :
    (o.setFaultStatus b).2.2 = none ∧ (o.setFaultStatus b).1.faultStatus = .ok b ∧
    OnlyChanges o (o.setFaultStatus b).1 0x88 := by
  obtain ⟨h1, ⟨p, hp, hd⟩, h3, h4⟩ := write_then o 0x88
    [if b then deviceFaultOccurred else deviceNoFaultOccurred] h
  refine ⟨h1, ?_, h3, h4⟩
  unfold Obj.faultStatus Obj.lookupPropertyByte Obj.setFaultStatus
  rw [setPropertyByte_eq]
  rw [show deviceFaultStatus = 0x88 from rfl, hp]
  simp only [EProp.asByte, hd, rd]
  cases b <;> rfl

/-- C27. Installation location. -/
theorem C27_installation_location (o : Obj) (b : Byte) (h : (o.props.lookup 0x81).isSome) :
    (o.setInstallationLocation b).2.2 = none ∧
    (o.setInstallationLocation b).1.installationLocation = .ok b ∧
    OnlyChanges o (o.setInstallationLocation b).1 0x81 := by
  obtain ⟨h1, ⟨p, hp, hd⟩, h3, h4⟩ := write_then o 0x81 [b] h
  refine ⟨h1, ?_, h3, h4⟩
  unfold Obj.installationLocation Obj.lookupPropertyByte Obj.setInstallationLocation
  rw [setPropertyByte_eq]
  rw [show deviceInstallationLocation = 0x81 from rfl, hp]
  simp only [EProp.asByte, hd, rd]
  rfl

/-- C27. Manufacturer code, three bytes. -/
theorem C27_manufacturer_code (o : Obj) (v : GoUint) (h : (o.props.lookup 0x8A).isSome) :
    (o.setManufacturerCode v).2.2 = none ∧
    (∃ r, (o.setManufacturerCode v).1.manufacturerCode = .ok r ∧ r.toNat = v.toNat % 2 ^ 24) ∧
    OnlyChanges o (o.setManufacturerCode v).1 0x8A := by
  obtain ⟨h1, ⟨p, hp, hd⟩, h3, h4⟩ := write_then o 0x8A (EProp.integerData v 3) h
  refine ⟨h1, ?_, h3, h4⟩
  unfold Obj.manufacturerCode Obj.lookupPropertyInteger Obj.setManufacturerCode
  rw [setPropertyInteger_eq]
  rw [show objectManufacturerCode = 0x8A from rfl, show objectManufacturerCodeSize = 3 from rfl, hp]
  obtain ⟨r, hr, hv⟩ := (C18_integer p v 3).1 (by decide)
  refine ⟨r, ?_, hv⟩
  rw [← hr]
  simp only [EProp.asInteger, hd]
  rfl

/-- C27. Every getter reports an error when the property is absent or empty, and none of them
panics. -/
theorem C27_absent (o : Obj) :
    (((o.props.lookup 0x80).elim [] (·.data)) = [] → o.operatingStatus.IsErr) ∧
    (((o.props.lookup 0x88).elim [] (·.data)) = [] → o.faultStatus.IsErr) ∧
    (((o.props.lookup 0x81).elim [] (·.data)) = [] → o.installationLocation.IsErr) ∧
    (((o.props.lookup 0x8A).elim [] (·.data)) = [] → o.manufacturerCode.IsErr) := by
  refine ⟨?_, ?_, ?_, ?_⟩ <;> intro h
  · unfold Obj.operatingStatus Obj.lookupPropertyByte
    rw [show objectOperatingStatus = 0x80 from rfl]
    cases hl : o.props.lookup 0x80 with
    | none => trivial
    | some p => rw [hl] at h; simp only [Option.elim] at h; simp [EProp.asByte, h, Res.IsErr]
  · unfold Obj.faultStatus Obj.lookupPropertyByte
    rw [show deviceFaultStatus = 0x88 from rfl]
    cases hl : o.props.lookup 0x88 with
    | none => trivial
    | some p => rw [hl] at h; simp only [Option.elim] at h; simp [EProp.asByte, h, Res.IsErr]
  · unfold Obj.installationLocation Obj.lookupPropertyByte
    rw [show deviceInstallationLocation = 0x81 from rfl]
    cases hl : o.props.lookup 0x81 with
    | none => trivial
    | some p => rw [hl] at h; simp only [Option.elim] at h; simp [EProp.asByte, h, Res.IsErr]
  · unfold Obj.manufacturerCode Obj.lookupPropertyInteger
    rw [show objectManufacturerCode = 0x8A from rfl]
    cases hl : o.props.lookup 0x8A with
    | none => trivial
    | some p => rw [hl] at h; simp only [Option.elim] at h; simp [EProp.asInteger, h, Res.IsErr]

/-- C27. Every new standard device has the four properties. -/
theorem C27_standard_devices (c : ObjectCode) (o : Obj) (h : Obj.newDeviceWithCode stdDB c = .ok o) :
    (o.props.lookup 0x80).isSome ∧ (o.props.lookup 0x81).isSome ∧ (o.props.lookup 0x88).isSome ∧
    (o.props.lookup 0x8A).isSome ∧ (o.props.lookup 0x82).isSome := by
  have key : ∀ x : Byte, ¬ IsMapCode x →
      (Mra.obj0000.props.reverse.find? (fun p => p.code == x)).isSome → (o.props.lookup x).isSome := by
    intro x hx hs
    obtain ⟨r, -, -, hl⟩ := C25_standard c o h x hx
    rw [hl]
    cases r.props.reverse.find? (fun p => p.code == x) with
    | some q => rfl
    | none =>
      obtain ⟨q, hq⟩ := Option.isSome_iff_exists.mp hs
      rw [hq]
      rfl
  refine ⟨key _ ?_ ?_, key _ ?_ ?_, key _ ?_ ?_, key _ ?_ ?_, key _ ?_ ?_⟩ <;>
    first | (unfold IsMapCode; decide) | decide +kernel

/-- The hypotheses of the `C27` theorems: every device of the standard database has the properties. -/
example (c : ObjectCode) (o : Obj) (h : Obj.newDeviceWithCode stdDB c = .ok o) :
    (o.setOperatingStatus false).1.operatingStatus = .ok false ∧ (o.setFaultStatus true).1.faultStatus = .ok true ∧
    (o.setInstallationLocation 0x41).1.installationLocation = .ok 0x41 ∧ o.operatingStatus.IsErr := by
  have h' := C27_standard_devices c o h
  refine ⟨(C27_operating_status o false h'.1).2.1, (C27_fault_status o true h'.2.2.1).2.1,
    (C27_installation_location o 0x41 h'.2.1).2.1, (C27_absent o).1 ?_⟩
  have hm : ¬ IsMapCode 0x80 := by unfold IsMapCode; decide
  rw [(C25_device stdDB c o h).2.1 0x80 hm]
  cases standardProperty stdDB c 0x80 <;> rfl

/-- C28 refuted: after `SetStandardVersion` on any object having the property, for every version,
`StandardVersion` returns an error. -/
theorem C28_refuted (o : Obj) (v : Byte) (h : (o.props.lookup 0x82).isSome) :
    (o.setStandardVersion v).2.2 = none ∧
    (o.setStandardVersion v).1.standardVersion = .err .invalid := by
  obtain ⟨h1, ⟨p, hp, hd⟩, -, -⟩ := write_then o 0x82 [0x00, 0x00, v, 0x00] h
  refine ⟨h1, ?_⟩
  unfold Obj.standardVersion Obj.lookupPropertyData Obj.setStandardVersion
  rw [show deviceStandardVersion = 0x82 from rfl, hp]
  simp [hd, deviceStandardVersionSize]

/-- C28, what holds: the version is stored as third of four bytes, as the specification has it,
and nothing else changes. (Missing: `StandardVersion` only accepts data of five bytes or more.) -/
theorem C28_stored_partial (o : Obj) (v : Byte) (h : (o.props.lookup 0x82).isSome) :
    (o.setStandardVersion v).2.2 = none ∧
    (o.setStandardVersion v).1.lookupPropertyData 0x82 = .ok [0, 0, v, 0] ∧
    OnlyChanges o (o.setStandardVersion v).1 0x82 := by
  obtain ⟨h1, ⟨p, hp, hd⟩, h3, h4⟩ := write_then o 0x82 [0x00, 0x00, v, 0x00] h
  refine ⟨h1, ?_, h3, h4⟩
  unfold Obj.lookupPropertyData Obj.setStandardVersion
  rw [show deviceStandardVersion = 0x82 from rfl, hp]
  simp [hd]

/-- C28. `StandardVersion` never panics and never returns anything but the third byte. -/
theorem C28_reads (o : Obj) : o.standardVersion ≠ .panic ∧
    ∀ v, o.standardVersion = .ok v → ∃ p, o.props.lookup 0x82 = some p ∧ p.data[2]? = some v := by
  unfold Obj.standardVersion Obj.lookupPropertyData
  rw [show deviceStandardVersion = 0x82 from rfl]
  cases hl : o.props.lookup 0x82 with
  | none => simp
  | some p =>
    simp only [Res.ok_bind]
    split
    · simp
    · next hlen =>
      simp only [deviceStandardVersionSize] at hlen
      rw [rd_ok _ _ (by omega)]
      simp only [ne_eq, reduceCtorEq, not_false_eq_true, true_and]
      intro v hv
      refine ⟨p, rfl, ?_⟩
      cases hv
      simp

example : ∃ o, Obj.newDeviceWithCode stdDB 0x013001 = .ok o ∧
    (o.setStandardVersion 0x47).1.standardVersion = .err .invalid := by
  obtain ⟨o, ho⟩ := (C25_succeeds stdDB 0x013001).1.mpr (by decide +kernel)
  exact ⟨o, ho, (C28_refuted o 0x47 (C27_standard_devices _ o ho).2.2.2.2).2⟩

/-- A rule of the appendix that gives the service to every device, or to those meeting a
condition. -/
def Rule.provides : Rule → Bool
  | .notApplicable => false
  | _ => true

/-- C67 refuted: the television class requires writing the operating status under a condition
("required_o"), but its device is built with that property not writable; the illuminance sensor
cannot even be read. -/
theorem C67_refuted :
    (∃ r ∈ Mra.table, ∃ p ∈ r.props, Rule.provides p.setRule = true ∧
      ∃ c o q, Obj.newDeviceWithCode stdDB c = .ok o ∧ (r.grpCode.toNat, r.clsCode.toNat) = classOf c ∧
        o.props.lookup p.code = some q ∧ q.isWritable = false) ∧
    (∃ r ∈ Mra.table, ∃ p ∈ r.props, Rule.provides p.getRule = true ∧
      ∃ c o q, Obj.newDeviceWithCode stdDB c = .ok o ∧ (r.grpCode.toNat, r.clsCode.toNat) = classOf c ∧
        o.props.lookup p.code = some q ∧ q.isReadable = false) := by
  have find : ∀ (c : ObjectCode) (x : Byte) (sel : EProp → Bool),
      (match Obj.newDeviceWithCode stdDB c with
        | .ok o => match o.props.lookup x with
          | some q => !sel q
          | none => false
        | _ => false) = true →
      ∃ o q, Obj.newDeviceWithCode stdDB c = .ok o ∧ o.props.lookup x = some q ∧ sel q = false := by
    intro c x sel h
    cases ho : Obj.newDeviceWithCode stdDB c with
    | ok o =>
      rw [ho] at h
      cases hq : o.props.lookup x with
      | some q => simp only [hq] at h; exact ⟨o, q, rfl, hq, by simpa using h⟩
      | none => simp only [hq] at h; cases h
    | err e => rw [ho] at h; cases h
    | panic => rw [ho] at h; cases h
  constructor
  · obtain ⟨o, q, h1, h2, h3⟩ := find 0x060201 0x80 (·.isWritable) (by decide +kernel)
    refine ⟨Mra.obj0602, by simp [Mra.table], ?_⟩
    have : ∃ p ∈ Mra.obj0602.props, p.code = 0x80 ∧ Rule.provides p.setRule = true := by
      decide +kernel
    obtain ⟨p, hp, hc, hr⟩ := this
    exact ⟨p, hp, hr, 0x060201, o, q, h1, by decide +kernel, by rw [hc]; exact h2, h3⟩
  · obtain ⟨o, q, h1, h2, h3⟩ := find 0x00D001 0xE0 (·.isReadable) (by decide +kernel)
    refine ⟨Mra.obj00D0, by simp [Mra.table], ?_⟩
    have : ∃ p ∈ Mra.obj00D0.props, p.code = 0xE0 ∧ Rule.provides p.getRule = true := by
      decide +kernel
    obtain ⟨p, hp, hc, hr⟩ := this
    exact ⟨p, hp, hr, 0x00D001, o, q, h1, by decide +kernel, by rw [hc]; exact h2, h3⟩

/-- C67, what holds: for every line of the table, the services with the rules "required",
"optional" and "notApplicable" are set up as the rule says. (Missing: "required_c" and
"required_o", which the code treats as not applicable.) -/
theorem C67_unconditional_partial (p : RawProp) :
    (p.getRule ≠ .requiredC → p.getRule ≠ .requiredO →
      (newStandardProperty p).isReadable = Rule.provides p.getRule ∧
      ((newStandardProperty p).isReadRequired = true ↔ p.getRule = .required)) ∧
    (p.setRule ≠ .requiredC → p.setRule ≠ .requiredO →
      (newStandardProperty p).isWritable = Rule.provides p.setRule ∧
      ((newStandardProperty p).isWriteRequired = true ↔ p.setRule = .required)) ∧
    (p.annoRule ≠ .requiredC → p.annoRule ≠ .requiredO →
      (newStandardProperty p).isAnnounceable = Rule.provides p.annoRule ∧
      ((newStandardProperty p).isAnnounceRequired = true ↔ p.annoRule = .required)) := by
  obtain ⟨c, n, g, s, a⟩ := p
  refine ⟨?_, ?_, ?_⟩
  · cases g <;> simp [newStandardProperty, EProp.make, EProp.isReadable, EProp.isReadRequired,
      strAttrToPropertyAttr, Rule.provides, Attr.isProhibited, Attr.isRequired, Attr.prohibited,
      Attr.required, Attr.optional]
  · cases s <;> simp [newStandardProperty, EProp.make, EProp.isWritable, EProp.isWriteRequired,
      strAttrToPropertyAttr, Rule.provides, Attr.isProhibited, Attr.isRequired, Attr.prohibited,
      Attr.required, Attr.optional]
  · cases a <;> simp [newStandardProperty, EProp.make, EProp.isAnnounceable, EProp.isAnnounceRequired,
      strAttrToPropertyAttr, Rule.provides, Attr.isProhibited, Attr.isRequired, Attr.prohibited,
      Attr.required, Attr.optional]

/-- A property the standard requires to be readable and allows to be written. -/
example : ∃ r ∈ Mra.table, ∃ p ∈ r.props, p.getRule = .required ∧ p.setRule = .optional := by decide +kernel

/-- C67 is false for every line of the table with a conditional rule, and exactly for these: a device of a standard
class allows a service on a property exactly if the line of the property, of its class or else of the super class,
says "required" or "optional". -/
theorem C67_refuted_any (c : ObjectCode) (o : Obj) (h : Obj.newDeviceWithCode stdDB c = .ok o) (x : Byte)
    (hx : ¬ IsMapCode x) (q : EProp) (hq : o.props.lookup x = some q) :
    ∃ r ∈ Mra.table, (r.grpCode.toNat, r.clsCode.toNat) = classOf c ∧
      ∃ p, (r.props.reverse.find? (fun p => p.code == x)).or
          (Mra.obj0000.props.reverse.find? (fun p => p.code == x)) = some p ∧ p.code = x ∧
        (q.isReadable = true ↔ p.getRule = .required ∨ p.getRule = .optional) ∧
        (q.isWritable = true ↔ p.setRule = .required ∨ p.setRule = .optional) ∧
        (q.isAnnounceable = true ↔ p.annoRule = .required ∨ p.annoRule = .optional) := by
  obtain ⟨r, hr, hc, hl⟩ := C25_standard c o h x hx
  rw [hq] at hl
  obtain ⟨p, hp, rfl⟩ := Option.map_eq_some_iff.mp hl.symm
  refine ⟨r, hr, hc, p, hp, ?_, ?_⟩
  · rcases Option.or_eq_some_iff.mp hp with h1 | ⟨-, h1⟩
    · simpa using List.find?_some h1
    · simpa using List.find?_some h1
  · obtain ⟨c, n, g, s, a⟩ := p
    refine ⟨?_, ?_, ?_⟩
    · cases g <;> simp [newStandardProperty, EProp.make, EProp.isReadable, strAttrToPropertyAttr,
        Attr.isProhibited, Attr.prohibited, Attr.required, Attr.optional]
    · cases s <;> simp [newStandardProperty, EProp.make, EProp.isWritable, strAttrToPropertyAttr,
        Attr.isProhibited, Attr.prohibited, Attr.required, Attr.optional]
    · cases a <;> simp [newStandardProperty, EProp.make, EProp.isAnnounceable, strAttrToPropertyAttr,
        Attr.isProhibited, Attr.prohibited, Attr.required, Attr.optional]

/-- The operating status of a television. -/
example : ¬ IsMapCode 0x80 ∧ ∃ o q, Obj.newDeviceWithCode stdDB 0x060201 = .ok o ∧ o.props.lookup 0x80 = some q := by
  refine ⟨by unfold IsMapCode; decide, ?_⟩
  obtain ⟨o, ho⟩ := (C25_succeeds stdDB 0x060201).1.mpr (by decide +kernel)
  obtain ⟨q, hq⟩ := Option.isSome_iff_exists.mp (C27_standard_devices _ o ho).1
  exact ⟨o, q, ho, hq⟩

/-- C22 and C23, consequence for every standard device and for the node profile: the Get property
map of the node profile does not list the instance list properties, although they are readable. -/
theorem C22_refuted_node_profile :
    ∃ p out, (Obj.newNodeProfile stdDB).props.lookup 0x9F = some p ∧ p.propertyMapData = .ok out ∧
      0xD6 ∉ out ∧ ∃ q, (Obj.newNodeProfile stdDB).props.lookup 0xD6 = some q ∧ q.isReadable = true := by
  have h : (match (Obj.newNodeProfile stdDB).props.lookup 0x9F with
      | some p => match p.propertyMapData with
        | .ok out => !out.contains 0xD6
        | _ => false
      | none => false) = true := by decide +kernel
  have h2 : (match (Obj.newNodeProfile stdDB).props.lookup 0xD6 with
      | some q => q.isReadable
      | none => false) = true := by decide +kernel
  cases hp : (Obj.newNodeProfile stdDB).props.lookup 0x9F with
  | none => rw [hp] at h; cases h
  | some p =>
    rw [hp] at h
    simp only at h
    cases ho : p.propertyMapData with
    | err e => rw [ho] at h; cases h
    | panic => rw [ho] at h; cases h
    | ok out =>
      rw [ho] at h
      refine ⟨p, out, rfl, ho, by simpa using h, ?_⟩
      cases hq : (Obj.newNodeProfile stdDB).props.lookup 0xD6 with
      | none => rw [hq] at h2; cases h2
      | some q => rw [hq] at h2; exact ⟨q, rfl, h2⟩

end Verif.Props
