import Verif.Props.Device
import Verif.Props.Controller

/-!
# C133 to C136: version and identification of a node, copies and kinds, looking nodes up
-/

namespace Verif.Props
open Verif Model Spec Lemmas

/-! ## C133: version and identification of a node profile -/

/-- The sizes the library declares for the version information (node_profile.go:34) and for the
identification number (node_profile.go:35-37) of a node profile. -/
def versionSize : Nat := 4
def identificationSize : Nat := 1 + 3 + 13

/-- C133 is false, for every node profile and every version: `SetVersion` succeeds and leaves version
information of one byte instead of four, and two versions that differ in the minor number only
cannot be told apart. -/
theorem C133_refuted_version (o : Obj) (major minor : Int) (h : (o.props.lookup 0x82).isSome) :
    (o.setVersion major minor).2.2 = none ∧
    (∃ p, (o.setVersion major minor).1.props.lookup 0x82 = some p ∧ p.data.length ≠ versionSize) ∧
    ∀ minor', o.setVersion major minor' = o.setVersion major minor := by
  obtain ⟨h1, ⟨p, hp, hd⟩, -⟩ := write_then o 0x82 [BitVec.ofInt 8 major] h
  refine ⟨h1, ⟨p, hp, ?_⟩, fun _ => rfl⟩
  rw [hd]
  exact fun h => absurd h (by show ¬ (1 = 4); decide)

/-- C133 is false, for every node profile and every manufacturer: `SetID` succeeds and leaves an
identification number that lacks one byte, the one in front of the manufacturer code. -/
theorem C133_refuted_identification (o : Obj) (man : GoUint) (h : (o.props.lookup 0x83).isSome) :
    (o.setID man).2.2 = none ∧
    ∃ p, (o.setID man).1.props.lookup 0x83 = some p ∧ p.data.length + 1 = identificationSize := by
  obtain ⟨h1, ⟨p, hp, hd⟩, -⟩ := write_then o 0x83 _ h
  refine ⟨h1, p, hp, ?_⟩
  rw [hd, List.length_append, integerToByte_length]
  decide

/-- C133, the part that holds: the major version and the manufacturer code (its three low bytes,
highest first) are stored, with zeros for the unique number; no other property changes; and on a
profile without the property both report an error and change nothing. Missing: the minor version,
the rest of the version information and the first byte of the identification number. -/
theorem C133_stored_partial (o : Obj) (major minor : Int) (man : GoUint) :
    ((o.props.lookup 0x82).isSome →
      (∃ p, (o.setVersion major minor).1.props.lookup 0x82 = some p ∧ p.data.length = 1 ∧
        ∃ b, p.data[0]? = some b ∧ (0 ≤ major → major < 256 → (b.toNat : Int) = major)) ∧
      OnlyChanges o (o.setVersion major minor).1 0x82) ∧
    ((o.props.lookup 0x83).isSome →
      (∃ p, (o.setID man).1.props.lookup 0x83 = some p ∧ beNat (p.data.take 3) = man.toNat % 2 ^ 24 ∧
        p.data.drop 3 = List.replicate 13 0) ∧
      OnlyChanges o (o.setID man).1 0x83) ∧
    (o.props.lookup 0x82 = none → o.setVersion major minor = (o, [], some .notFound)) ∧
    (o.props.lookup 0x83 = none → o.setID man = (o, [], some .notFound)) := by
  refine ⟨fun h => ?_, fun h => ?_, fun h => ?_, fun h => ?_⟩
  · obtain ⟨-, ⟨p, hp, hd⟩, h3, h4⟩ := write_then o 0x82 [BitVec.ofInt 8 major] h
    refine ⟨⟨p, hp, by rw [hd]; rfl, BitVec.ofInt 8 major, by rw [hd]; rfl, fun h0 h1 => ?_⟩, h3, h4⟩
    rw [BitVec.toNat_ofInt]
    omega
  · obtain ⟨-, ⟨p, hp, hd⟩, h3, h4⟩ := write_then o 0x83
      (integerToByte man (List.replicate 3 0) ++ List.replicate 13 0) h
    refine ⟨⟨p, hp, ?_, ?_⟩, h3, h4⟩
    · rw [hd, List.take_left' (by rw [integerToByte_length]; rfl)]
      rw [integerToByte_eq, beNat_beBytes]
      rfl
    · rw [hd, List.drop_left' (by rw [integerToByte_length]; rfl)]
  · unfold Obj.setVersion
    rw [setPropertyData_eq, h]
  · unfold Obj.setID
    rw [setPropertyData_eq, h]

/-- The node profile of every node has both properties. -/
example : ((Obj.newNodeProfile stdDB).props.lookup 0x82).isSome ∧ ((Obj.newNodeProfile stdDB).props.lookup 0x83).isSome := by
  decide +kernel

/-! ## C134: class and kind of an object -/

/-- C134. Of every object: `Class()` is the class of its code, `Code()` is made of the class and the
instance, it is a profile exactly when its group is 0x0E and a device exactly when it is not a
profile; nothing panics. -/
theorem C134_kind (db : StdDB) (o : Obj) (h : ReachedPlain o ∨ Reached db o) :
    ∃ g c i, o.classGroupCode = .ok g ∧ o.classCode = .ok c ∧ o.instanceCode = .ok i ∧
      o.cls = .ok ⟨g, c⟩ ∧ o.code.toNat = g.toNat * 65536 + c.toNat * 256 + i.toNat ∧
      o.isProfile = .ok (decide (g = 0x0E)) ∧ o.isDevice = .ok (decide (g ≠ 0x0E)) := by
  have hw : OWF o := h.elim ReachedPlain.owf Reached.owf
  obtain ⟨cn, n, codes, ps⟩ := o
  obtain ⟨hc, -⟩ := hw
  match codes, hc with
  | [g, c, i], _ =>
    refine ⟨g, c, i, rfl, rfl, rfl, rfl, ?_, ?_, ?_⟩
    · show (byteToInteger 64 [g, c, i]).toNat = _
      rw [byteToInteger_toNat]
      have h1 := g.isLt
      have h2 := c.isLt
      have h3 := i.isLt
      simp only [beNat, List.length_cons, List.length_nil]
      omega
    · rfl
    · show Res.ok (!(decide (g = 0x0E))) = _
      rw [← decide_not]

/-- C134. Two classes are equal for `Equals` exactly when group and class code are the same. -/
theorem C134_equal (a b : Cls) : a.equals b = true ↔ a = b := by
  obtain ⟨g, c⟩ := a
  obtain ⟨g', c'⟩ := b
  unfold Cls.equals
  by_cases h1 : g = g' <;> by_cases h2 : c = c' <;> simp [h1, h2]

/-- C134. Two objects have equal classes exactly when their codes differ in the instance only. -/
theorem C134_same_class (db : StdDB) (o o' : Obj) (h : ReachedPlain o ∨ Reached db o)
    (h' : ReachedPlain o' ∨ Reached db o') :
    ∃ a b, o.cls = .ok a ∧ o'.cls = .ok b ∧ (a.equals b = true ↔ o.code.toNat / 256 = o'.code.toNat / 256) := by
  obtain ⟨g, c, i, -, -, -, e, hc, -, -⟩ := C134_kind db o h
  obtain ⟨g', c', i', -, -, -, e', hc', -, -⟩ := C134_kind db o' h'
  refine ⟨_, _, e, e', ?_⟩
  rw [C134_equal, hc, hc', Cls.mk.injEq]
  have h1 := g.isLt
  have h2 := c.isLt
  have h3 := i.isLt
  have h4 := g'.isLt
  have h5 := c'.isLt
  have h6 := i'.isLt
  constructor
  · rintro ⟨rfl, rfl⟩
    omega
  · intro hh
    exact ⟨BitVec.eq_of_toNat_eq (by omega), BitVec.eq_of_toNat_eq (by omega)⟩

/-- Class and kind of an object. -/
def sampleKind (r : Res Obj) : Res (Cls × Bool × Bool) := do
  let o ← r
  .ok (← o.cls, ← o.isProfile, ← o.isDevice)

/-- An air conditioner is a device, the node profile a profile. -/
example : (sampleKind (Obj.newDeviceWithCode stdDB 0x013001)) = .ok (⟨0x01, 0x30⟩, false, true) ∧
    (sampleKind (.ok (Obj.newNodeProfile stdDB))) = .ok (⟨0x0E, 0xF0⟩, true, false) := by decide +kernel

/-! ## C135: equality and copies of properties -/

/-- C135. `Equals` of two properties says whether code and data are the same. -/
theorem C135_equals (p q : EProp) : p.equals q = true ↔ p.code = q.code ∧ p.data = q.data := by
  unfold EProp.equals
  by_cases h1 : p.code = q.code <;> by_cases h2 : p.data = q.data <;> simp [h1, h2]

/-- C135. `Copy` gives a property with the same name, code and permissions and no data; it equals
the original exactly when that has none. -/
theorem C135_copy (p : EProp) :
    p.copy.name = p.name ∧ p.copy.code = p.code ∧ p.copy.data = [] ∧
    (∀ esv, p.copy.isAvailableService esv = p.isAvailableService esv) ∧
    p.copy.isAnnounceable = p.isAnnounceable ∧ p.copy.isReadRequired = p.isReadRequired ∧
    p.copy.isWriteRequired = p.isWriteRequired ∧ p.copy.isAnnounceRequired = p.isAnnounceRequired ∧
    (p.copy.equals p = true ↔ p.data = []) := by
  refine ⟨rfl, rfl, rfl, fun _ => rfl, rfl, rfl, rfl, rfl, ?_⟩
  rw [C135_equals]
  exact ⟨fun h => h.2.symm, fun h => ⟨rfl, h.symm⟩⟩

/-- C135. The properties of a message asking for codes have these codes, in order, and no data. -/
theorem C135_codes (cs : List Byte) :
    (PProp.newWithCodes cs).map (·.code) = cs ∧ ∀ p ∈ PProp.newWithCodes cs, p.data = [] := by
  unfold PProp.newWithCodes
  constructor
  · rw [List.map_map]
    exact List.map_id _
  · intro p hp
    obtain ⟨c, -, rfl⟩ := List.mem_map.mp hp
    rfl

example : (EProp.make 0x80 "Operating status" [0x30] .required .optional .required).copy.equals
    (EProp.make 0x80 "Operating status" [0x30] .required .optional .required) = false := by decide

/-! ## C136: looking nodes up -/

/-- C136. Whatever happened to a controller, `LookupNode` finds a node exactly when one of `Nodes()`
has the address, and it is then the one found first. -/
theorem C136_first (c : Ctrl) (a : String) :
    (∀ n, c.lookupNode a = some n ↔ ∃ (i : Nat), c.found[i]? = some n ∧ n.address = a ∧
      ∀ (j : Nat) n', j < i → c.found[j]? = some n' → n'.address ≠ a) ∧
    (c.lookupNode a = none ↔ ∀ n ∈ c.found, n.address ≠ a) := by
  unfold Ctrl.lookupNode
  constructor
  · intro n
    generalize c.found = l
    induction l with
    | nil => simp
    | cons x l ih =>
      rw [List.find?_cons]
      by_cases hx : x.address = a
      · rw [show (x.address == a) = true from by simp [hx]]
        simp only [Option.some.injEq]
        constructor
        · rintro rfl
          exact ⟨0, rfl, hx, fun j n' hj => absurd hj (Nat.not_lt_zero j)⟩
        · rintro ⟨i, h1, h2, h3⟩
          cases i with
          | zero => simpa using h1
          | succ i => exact absurd hx (h3 0 x (Nat.succ_pos i) rfl)
      · rw [show (x.address == a) = false from by simp [hx]]
        simp only
        rw [ih]
        constructor
        · rintro ⟨i, h1, h2, h3⟩
          refine ⟨i + 1, h1, h2, fun j n' hj hn => ?_⟩
          cases j with
          | zero =>
            simp only [List.getElem?_cons_zero, Option.some.injEq] at hn
            rw [← hn]
            exact hx
          | succ j => exact h3 j n' (by omega) hn
        · rintro ⟨i, h1, h2, h3⟩
          cases i with
          | zero =>
            simp only [List.getElem?_cons_zero, Option.some.injEq] at h1
            rw [← h1] at h2
            exact absurd h2 hx
          | succ i => exact ⟨i, h1, h2, fun j n' hj hn => h3 (j + 1) n' (by omega) hn⟩
  · rw [List.find?_eq_none]
    simp

/-- The controller has no automatic port binding, and the nodes it found have the port of the standard. -/
def PortFixed (c : Ctrl) : Prop := c.autoPort = false ∧ ∀ n ∈ c.found, n.port = 3610

theorem announces_port {db : StdDB} {m : Message} {n : RemoteNode} (h : Announces db false m n) : n.port = 3610 := by
  obtain ⟨-, -, h⟩ := h
  unfold RemoteNode.ofInstanceListAndConfig at h
  obtain ⟨n', -, h⟩ := Res.bind_eq_ok.mp h
  simp only [Bool.not_false, if_true, Res.ok.injEq] at h
  rw [← h]
  rfl

theorem portFixed_step (db : StdDB) (c : Ctrl) (op : CtrlOp) (hop : ∀ s, op ≠ .configure s true)
    (h : PortFixed c) : PortFixed (op.run db c).1 := by
  obtain ⟨h1, h2⟩ := h
  cases op with
  | received e m =>
    obtain ⟨out, hr, r1, r2, r3⟩ := received_cases db e c m
    simp only [CtrlOp.run]
    by_cases hh : Handles c m
    · by_cases hn : ∃ n, Announces db c.autoPort m n ∧ Fresh c n
      · obtain ⟨n, ha, hf⟩ := hn
        rw [r3 hh n ha hf]
        refine ⟨h1, fun x hx => ?_⟩
        rcases List.mem_append.mp hx with hx | hx
        · exact h2 x hx
        · rw [List.mem_singleton.mp hx]
          rw [h1] at ha
          exact announces_port ha
      · rw [r2 hh hn]
        exact ⟨h1, h2⟩
    · rw [r1 hh]
      exact ⟨h1, h2⟩
  | start => exact ⟨h1, fun x hx => absurd hx List.not_mem_nil⟩
  | stop => exact ⟨h1, h2⟩
  | clear => exact ⟨h1, fun x hx => absurd hx List.not_mem_nil⟩
  | search => exact ⟨h1, h2⟩
  | setListener b => exact ⟨h1, h2⟩
  | configure s a =>
    cases a with
    | true => exact absurd rfl (hop s)
    | false => exact ⟨rfl, h2⟩
  | node op => exact ⟨h1, h2⟩

/-- C136, the part that holds: while automatic port binding is not enabled, every node of `Nodes()` is
found by its address, whatever happens to the controller. Missing: nodes with other ports. -/
theorem C136_found_partial (db : StdDB) (ops : List CtrlOp) (hops : ∀ op ∈ ops, ∀ s, op ≠ .configure s true)
    (n : RemoteNode) (hn : n ∈ (CtrlOp.runAll db (Ctrl.new db) ops).1.found) :
    (CtrlOp.runAll db (Ctrl.new db) ops).1.lookupNode n.address = some n := by
  have key : ∀ (ops : List CtrlOp) (c : Ctrl), PortFixed c → (∀ op ∈ ops, ∀ s, op ≠ .configure s true) →
      PortFixed (CtrlOp.runAll db c ops).1 := by
    intro ops
    induction ops with
    | nil => intro c h _; exact h
    | cons op ops ih =>
      intro c h ho
      exact ih _ (portFixed_step db c op (ho op List.mem_cons_self) h) (fun x hx => ho x (List.mem_cons_of_mem _ hx))
  have hp := (key ops (Ctrl.new db) ⟨rfl, fun x hx => absurd hx List.not_mem_nil⟩ hops).2
  have hd := C44_unique db ops
  generalize (CtrlOp.runAll db (Ctrl.new db) ops).1 = c at *
  obtain ⟨i, hi⟩ := List.getElem?_of_mem hn
  refine ((C136_first c n.address).1 n).mpr ⟨i, hi, rfl, fun j n' hj hn' ha => ?_⟩
  obtain ⟨hi1, hi2⟩ := List.getElem?_eq_some_iff.mp hi
  obtain ⟨hj1, hj2⟩ := List.getElem?_eq_some_iff.mp hn'
  have := List.pairwise_iff_getElem.mp hd j i hj1 hi1 hj
  rw [hi2, hj2] at this
  exact this ⟨ha, by rw [hp n hn, hp n' (List.mem_of_getElem? hn')]⟩

/-- C136 is false with automatic port binding, whatever happened to the controller: of two nodes that it lists and that
have the same address, the one found later is not found by it. -/
theorem C136_refuted (db : StdDB) (ops : List CtrlOp) (i j : Nat) (hij : i < j) (n n' : RemoteNode)
    (hi : (CtrlOp.runAll db (Ctrl.new db) ops).1.found[i]? = some n)
    (hj : (CtrlOp.runAll db (Ctrl.new db) ops).1.found[j]? = some n') (ha : n.address = n'.address) :
    ∃ m, (CtrlOp.runAll db (Ctrl.new db) ops).1.lookupNode n'.address = some m ∧
      m.address = n'.address ∧ m.port ≠ n'.port := by
  have hd := C44_unique db ops
  generalize (CtrlOp.runAll db (Ctrl.new db) ops).1 = c at *
  cases hl : c.lookupNode n'.address with
  | none => exact absurd ha ((C136_first c n'.address).2.mp hl n (List.mem_of_getElem? hi))
  | some m =>
    obtain ⟨k, h1, h2, h3⟩ := ((C136_first c n'.address).1 m).mp hl
    have hk : k ≤ i := by
      rcases Nat.lt_or_ge i k with h | h
      · exact absurd ha (h3 i n h hi)
      · exact h
    refine ⟨m, rfl, h2, fun hp => ?_⟩
    obtain ⟨hk1, hk2⟩ := List.getElem?_eq_some_iff.mp h1
    obtain ⟨hj1, hj2⟩ := List.getElem?_eq_some_iff.mp hj
    have := List.pairwise_iff_getElem.mp hd k j hk1 hj1 (by omega)
    rw [hk2, hj2] at this
    exact this ⟨h2, hp⟩

/-- A controller with automatic port binding hears of two nodes of one host. -/
def twoAtOne : List CtrlOp :=
  [.configure false true, .start (some (true, ⟨"10.0.0.1", 3610⟩)) true [],
   .received noEnv (listMessage ⟨"10.0.0.2", 3610⟩ [1, 0x01, 0x30, 0x01]),
   .received noEnv (listMessage ⟨"10.0.0.2", 3611⟩ [1, 0x02, 0x90, 0x01])]

/-- It lists both and finds the first only. -/
theorem C136_refuted_reachable :
    let c := (CtrlOp.runAll stdDB (Ctrl.new stdDB) twoAtOne).1
    c.found.map (fun n => (n.address, n.port)) = [("10.0.0.2", 3610), ("10.0.0.2", 3611)] ∧
    (c.lookupNode "10.0.0.2").map (·.port) = some 3610 := by decide +kernel

/-- Without it, a controller finds the nodes of two hosts. -/
example :
    let c := (CtrlOp.runAll stdDB (Ctrl.new stdDB) [.start (some (true, ⟨"10.0.0.1", 3610⟩)) true [],
      .received noEnv (listMessage ⟨"10.0.0.2", 3610⟩ [1, 0x01, 0x30, 0x01]),
      .received noEnv (listMessage ⟨"10.0.0.3", 4000⟩ [1, 0x02, 0x90, 0x01])]).1
    (c.lookupNode "10.0.0.3").map (fun n => (n.address, n.port)) = some ("10.0.0.3", 3610) ∧
    c.lookupNode "10.0.0.4" = none := by decide +kernel

end Verif.Props
