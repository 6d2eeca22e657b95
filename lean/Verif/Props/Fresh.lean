import Verif.Props.Discovery

/-!
# C92, C93: a device that was just made

doc/device_inside.md:21-39 says which properties a new device has and what they hold. The properties are there, but
they hold nothing; and since a write is refused unless its data is as long as what is stored, no property of a
new device can be written by another node before the application has stored something.
-/

namespace Verif.Props
open Verif Model Spec Lemmas

/-- The mandatory properties of the documentation. -/
def mandatory : List Byte := [0x80, 0x81, 0x82, 0x88, 0x8A, 0x9D, 0x9E, 0x9F]

theorem super_mandatory : ∀ x ∈ mandatory, (Mra.obj0000.props.reverse.find? (fun p => p.code == x)).isSome := by
  decide +kernel

/-- C92, the properties: every device made by `NewDeviceWithCode` has the mandatory properties. -/
theorem C92_mandatory_partial (c : ObjectCode) (o : Obj) (h : Obj.newDeviceWithCode stdDB c = .ok o) :
    ∀ x ∈ mandatory, (o.props.lookup x).isSome := by
  intro x hx
  have h0 : stdDB.lookupObject 0 = some Mra.obj0000.build :=
    (C26_lookup 0 _).mpr ⟨Mra.obj0000, by simp [Mra.table], rfl, rfl⟩
  have hs := super_mandatory x hx
  have key : (standardProperty stdDB c x).isSome := by
    unfold standardProperty
    rw [h0, Option.bind_some, build_lookup, Option.isSome_or, Option.isSome_map, hs, Bool.or_true]
  have := (C25_device stdDB c o h).2.2.1 x
  cases ho : o.props.lookup x with
  | some p => rfl
  | none =>
    rw [ho] at this
    obtain ⟨q, hq⟩ := Option.isSome_iff_exists.mp key
    rw [hq] at this
    cases this

theorem fresh_empty (c : ObjectCode) (o : Obj) (h : Obj.newDeviceWithCode stdDB c = .ok o) (x : Byte)
    (hx : ¬ IsMapCode x) (p : EProp) (hp : o.props.lookup x = some p) : p.data = [] := by
  rw [(C25_device stdDB c o h).2.1 x hx, Option.map_eq_some_iff] at hp
  obtain ⟨q, -, rfl⟩ := hp
  rfl

/-- C92 is false for every device: its operation status, installation location, version, fault status and
manufacturer code hold no data, and reading any of them by its getter fails. -/
theorem C92_refuted (c : ObjectCode) (o : Obj) (h : Obj.newDeviceWithCode stdDB c = .ok o) :
    (∀ x ∈ [(0x80 : Byte), 0x81, 0x82, 0x88, 0x8A], (o.props.lookup x).map (·.data) = some []) ∧
    o.operatingStatus = .err .noData ∧ o.installationLocation = .err .noData ∧
    o.faultStatus = .err .noData ∧ o.manufacturerCode = .err .noData ∧ o.standardVersion = .err .invalid := by
  have key : ∀ x ∈ [(0x80 : Byte), 0x81, 0x82, 0x88, 0x8A], ∃ p, o.props.lookup x = some p ∧ p.data = [] := by
    intro x hx
    have hm : x ∈ mandatory := by
      simp only [List.mem_cons, List.not_mem_nil, or_false] at hx
      rcases hx with rfl | rfl | rfl | rfl | rfl <;> decide
    have hn : ¬ IsMapCode x := by
      simp only [List.mem_cons, List.not_mem_nil, or_false] at hx
      rcases hx with rfl | rfl | rfl | rfl | rfl <;> (unfold IsMapCode; decide)
    obtain ⟨p, hp⟩ := Option.isSome_iff_exists.mp (C92_mandatory_partial c o h x hm)
    exact ⟨p, hp, fresh_empty c o h x hn p hp⟩
  refine ⟨fun x hx => ?_, ?_, ?_, ?_, ?_, ?_⟩
  · obtain ⟨p, hp, hd⟩ := key x hx
    rw [hp, Option.map_some, hd]
  · obtain ⟨p, hp, hd⟩ := key 0x80 (by simp)
    change o.props.lookup 128#8 = some p at hp
    simp [Obj.operatingStatus, Obj.lookupPropertyByte, objectOperatingStatus, hp, EProp.asByte, hd]
  · obtain ⟨p, hp, hd⟩ := key 0x81 (by simp)
    change o.props.lookup 129#8 = some p at hp
    simp [Obj.installationLocation, Obj.lookupPropertyByte, deviceInstallationLocation, hp, EProp.asByte, hd]
  · obtain ⟨p, hp, hd⟩ := key 0x88 (by simp)
    change o.props.lookup 136#8 = some p at hp
    simp [Obj.faultStatus, Obj.lookupPropertyByte, deviceFaultStatus, hp, EProp.asByte, hd]
  · obtain ⟨p, hp, hd⟩ := key 0x8A (by simp)
    change o.props.lookup 138#8 = some p at hp
    simp [Obj.manufacturerCode, Obj.lookupPropertyInteger, objectManufacturerCode, hp, EProp.asInteger, hd]
  · obtain ⟨p, hp, hd⟩ := key 0x82 (by simp)
    change o.props.lookup 130#8 = some p at hp
    simp [Obj.standardVersion, Obj.lookupPropertyData, deviceStandardVersion, hp, hd, deviceStandardVersionSize]

/-- C92, the manufacturer code: adding the device to a node stores the code of the node, in three bytes. -/
theorem C92_manufacturer_partial (c : ObjectCode) (o : Obj) (h : Obj.newDeviceWithCode stdDB c = .ok o)
    (ops : List NodeOp) (hops : ∀ op ∈ ops, Ordinary stdDB op) :
    let n := (NodeOp.runAll stdDB (Node.new stdDB) ops).1
    ∃ d, ((NodeOp.addDevice o).run stdDB n).1.devices = n.devices ++ [d] ∧ d.code = o.code ∧
      (d.props.lookup 0x8A).map (·.data) = some (EProp.integerData n.manufacturer 3) ∧
      ∀ x, x ≠ 0x8A → d.props.lookup x = o.props.lookup x := by
  intro n
  have hb := (ordinary_all stdDB new_std.1 new_std.2 ops hops).1
  have hr := (C25_device stdDB c o h).2.2.2
  refine ⟨_, (addDevice_devices stdDB n o hb hr).1, setMan_code o _, ?_, ?_⟩
  · rw [setMan_fst]
    simp only
    rw [lookup_update, if_pos rfl]
    obtain ⟨p, hp⟩ := Option.isSome_iff_exists.mp (C92_mandatory_partial c o h 0x8A (by decide))
    rw [hp]; rfl
  · intro x hx
    rw [setMan_fst]
    simp only
    rw [lookup_update, if_neg hx]

theorem experimental : (Node.new stdDB).manufacturer = 0xFFFFFF ∧
    EProp.integerData (Node.new stdDB).manufacturer 3 = [0xFF, 0xFF, 0xFF] := by decide +kernel

/-- C92, the manufacturer code in the documentation is false as well: a device added to a new node holds FFFFFF,
not FFFFF0. -/
theorem C92_refuted_manufacturer (c : ObjectCode) (o : Obj) (h : Obj.newDeviceWithCode stdDB c = .ok o) :
    ∃ d, ((NodeOp.addDevice o).run stdDB (Node.new stdDB)).1.devices = (Node.new stdDB).devices ++ [d] ∧
      (d.props.lookup 0x8A).map (·.data) = some [0xFF, 0xFF, 0xFF] := by
  have hrun : (NodeOp.runAll stdDB (Node.new stdDB) []).1 = Node.new stdDB := by rw [NodeOp.runAll]
  have he := experimental.2
  have key := C92_manufacturer_partial c o h [] (by simp)
  generalize (NodeOp.runAll stdDB (Node.new stdDB) []).1 = n at key hrun
  rw [← hrun] at he ⊢
  obtain ⟨d, h1, -, h3, -⟩ := key
  rw [he] at h3
  exact ⟨d, h1, h3⟩

/-! ## Writing -/

/-- Adding a device to a node makes it addressed, if no device of the node has its code. -/
theorem added_addressed {n n' : Node} {d o : Obj} {c : ObjectCode} (hd : n'.devices = n.devices ++ [d])
    (hc : d.code = c) (hn : ∀ x ∈ n.devices, x.code ≠ c) {r : ObjRef} (h : Addressed n' c r o) :
    o = d ∧ r = .device n.devices.length := by
  cases r with
  | profile i => exact absurd hc (h.1 d (by rw [hd]; simp))
  | device i =>
    obtain ⟨h1, h2, h3⟩ := h
    rw [hd] at h1
    rcases Nat.lt_trichotomy i n.devices.length with hi | hi | hi
    · rw [List.getElem?_append_left hi] at h1
      exact absurd h2 (hn o (List.mem_of_getElem? h1))
    · subst hi
      simp at h1
      exact ⟨h1.symm, rfl⟩
    · rw [List.getElem?_eq_none (by simp; omega)] at h1
      cases h1

/-- C93 is false for every device and every property the library does not fill itself: right after the device
was added to a node, every write request carrying data for it is refused, whatever the standard says. -/
theorem C93_refuted (ops : List NodeOp) (hops : ∀ op ∈ ops, Ordinary stdDB op) (c : ObjectCode) (o : Obj)
    (ho : Obj.newDeviceWithCode stdDB c = .ok o) (n : Node) (hn : n = (NodeOp.runAll stdDB (Node.new stdDB) ops).1)
    (hfree : ∀ x ∈ n.devices, x.code ≠ o.code) (m : Message) (hm : m.getDEOJ = o.code)
    (he : m.esv = 0x60 ∨ m.esv = 0x61 ∨ m.esv = 0x6E) (p : PProp) (hp : p ∈ properties m) (hd : p.data ≠ [])
    (hx : ¬ IsMapCode p.code) (hx' : p.code ≠ 0x8A) :
    ¬ Accepts ((NodeOp.addDevice o).run stdDB n).1 m := by
  obtain ⟨d, h1, h2, -, h4⟩ := C92_manufacturer_partial c o ho ops hops
  rw [← hn] at h1
  rintro ⟨r, q, ha, -, hq⟩
  rw [hm] at ha
  obtain ⟨rfl, -⟩ := added_addressed h1 h2 hfree ha
  obtain ⟨e, k1, k2, -⟩ := hq (by rcases he with he | he | he <;> simp [he]) p hp
  rw [h4 _ hx'] at k1
  have := fresh_empty c o ho p.code hx e k1
  have := (k2 he).2
  simp_all

/-- C93 as it holds: once the application has stored data of some length in a property that may be written,
every write request for this property with data of that length is accepted. -/
theorem C93_stored_partial (ops : List NodeOp) (hops : ∀ op ∈ ops, Ordinary stdDB op) (c : ObjectCode) (o : Obj)
    (ho : Obj.newDeviceWithCode stdDB c = .ok o) (n : Node) (hn : n = (NodeOp.runAll stdDB (Node.new stdDB) ops).1)
    (hfree : ∀ x ∈ n.devices, x.code ≠ o.code) (x : Byte) (q : EProp) (hq : o.props.lookup x = some q)
    (hw : q.setAttr ≠ 0) (hx' : x ≠ 0x8A) (d : Bytes) (m : Message) (hm : m.getDEOJ = o.code)
    (he : m.esv = 0x60 ∨ m.esv = 0x61)
    (hp : ∀ p ∈ properties m, p.code = x ∧ p.data.length = d.length) :
    Accepts (NodeOp.runAll stdDB n [.addDevice o, .obj (.device n.devices.length) (.write x d)]).1 m := by
  obtain ⟨e, h1, h2, -, h4⟩ := C92_manufacturer_partial c o ho ops hops
  rw [← hn] at h1
  generalize hn1 : ((NodeOp.addDevice o).run stdDB n).1 = n1 at h1
  have hrun : (NodeOp.runAll stdDB n [.addDevice o, .obj (.device n.devices.length) (.write x d)]).1
      = (n1.onObj (.device n.devices.length) (fun o => Node.dropErr ((ObjOp.write x d).run stdDB o))).1 := by
    rw [← hn1]; rfl
  rw [hrun]
  generalize hn2 : (n1.onObj (.device n.devices.length)
    (fun o => Node.dropErr ((ObjOp.write x d).run stdDB o))).1 = n2
  have hget : n1.get (.device n.devices.length) = some e := by
    show n1.devices[n.devices.length]? = some e
    rw [h1]; simp
  have hdev : ∀ i, n2.devices[i]? = if i = n.devices.length then some (e.setPropertyData x d).1
      else n1.devices[i]? := by
    intro i
    show n2.get (.device i) = _
    rw [← hn2, onObj_get]
    by_cases hi : i = n.devices.length
    · subst hi
      rw [if_pos rfl, if_pos rfl, hget, Option.map_some]
      rfl
    · rw [if_neg (by simpa using hi), if_neg hi]; rfl
  refine ⟨.device n.devices.length, (e.setPropertyData x d).1, ⟨?_, ?_, ?_⟩, ?_, ?_⟩
  · rw [hdev, if_pos rfl]
  · rw [hm, ← h2, setPropertyData_fst]; rfl
  · intro j hj y hy
    rw [hdev, if_neg (by omega), h1, List.getElem?_append_left hj] at hy
    rw [hm]
    exact hfree y (List.mem_of_getElem? hy)
  · rcases he with he | he <;> rw [he] <;> decide
  · intro _ p hpm
    obtain ⟨rfl, hl⟩ := hp p hpm
    refine ⟨q.setData d, ?_, fun _ => ⟨hw, hl⟩, ?_⟩
    · rw [setPropertyData_fst]
      simp only
      rw [lookup_update, if_pos rfl, h4 _ hx', hq]; rfl
    · intro h
      rcases he with he | he <;> rw [he] at h <;> simp at h

/-- An air conditioner added to a new node refuses to be switched on. -/
example : ∃ o, Obj.newDeviceWithCode stdDB 0x013001 = .ok o ∧ o.code = 0x013001 ∧
    (o.props.lookup 0x80).map (·.setAttr) = some 1 ∧
    ¬ Accepts ((NodeOp.addDevice o).run stdDB (Node.new stdDB)).1 (request 0x61 [⟨0x80, [0x30]⟩]) ∧
    Accepts (NodeOp.runAll stdDB (Node.new stdDB) [.addDevice o, .obj (.device 0) (.write 0x80 [0x31])]).1
      (request 0x61 [⟨0x80, [0x30]⟩]) := by
  obtain ⟨o, ho⟩ := (C25_succeeds stdDB 0x013001).1.mpr (by decide +kernel)
  have hc : (match Obj.newDeviceWithCode stdDB 0x013001 with
    | .ok o => o.code == 0x013001 && (o.props.lookup 0x80).map (·.setAttr) == some 1
    | _ => false) = true := by decide +kernel
  rw [ho] at hc
  simp only [Bool.and_eq_true, beq_iff_eq] at hc
  obtain ⟨hc, ha⟩ := hc
  obtain ⟨q, hq, hs⟩ := Option.map_eq_some_iff.mp ha
  have hm : (request 0x61 [⟨0x80, [0x30]⟩]).getDEOJ = o.code := by rw [hc]; decide +kernel
  have hnil : (Node.new stdDB).devices = [] := by decide +kernel
  have hp : properties (request 0x61 [⟨0x80, [0x30]⟩]) = [⟨0x80, [0x30]⟩] := by decide +kernel
  have hs' : q.setAttr ≠ 0 := by rw [hs]; decide
  have hrun : Node.new stdDB = (NodeOp.runAll stdDB (Node.new stdDB) []).1 := by rw [NodeOp.runAll]
  have hfree : ∀ x ∈ (Node.new stdDB).devices, x.code ≠ o.code := by rw [hnil]; simp
  have hlen : (Node.new stdDB).devices.length = 0 := by rw [hnil]; rfl
  have h1 := C93_refuted [] (by simp) 0x013001 o ho (Node.new stdDB) hrun hfree _ hm
    (.inr (.inl (by decide +kernel))) ⟨0x80, [0x30]⟩ (by rw [hp]; simp) (by simp) (by unfold IsMapCode; decide)
    (by decide)
  have h2 := C93_stored_partial [] (by simp) 0x013001 o ho (Node.new stdDB) hrun hfree 0x80 q hq
    hs' (by decide) [0x31] _ hm (.inr (by decide +kernel)) (by rw [hp]; simp)
  rw [hlen] at h2
  exact ⟨o, ho, hc, ha, h1, h2⟩

end Verif.Props
