import Verif.Model.NodeOptions
import Verif.Props.Announce
import Verif.Props.Node

/-! # C104: the options of a new node -/

namespace Verif.Props
open Verif Model Spec Lemmas

/-- The manufacturer code given last, if any. -/
def optManufacturer (opts : List NodeOpt) : Option GoUint :=
  (opts.filterMap (fun x => match x with | .manufacturer c => some c | _ => none)).getLast?

/-- The devices given, in order. -/
def allDevices (opts : List NodeOpt) : List Obj :=
  (opts.map (fun x => match x with | .devices ds => ds | _ => [])).flatten

/-- The listener given last, if any. -/
def lastListener (opts : List NodeOpt) : Option Nat :=
  (opts.filterMap (fun x => match x with | .listener l => some l | _ => none)).getLast?

/-- The configuration given last, if any. -/
def lastConfig (opts : List NodeOpt) : Option Bool :=
  (opts.filterMap (fun x => match x with | .config b => some b | _ => none)).getLast?

/-! ## A node that is not running sends nothing -/

theorem emit_stopped (n : Node) (h : n.running = false) (as : List Ann) : n.emit as = (n, []) := by
  induction as with
  | nil => rfl
  | cons a as ih =>
    have : n.announceFrom a = (n, []) := by
      unfold Node.announceFrom
      rw [h]
      rfl
    unfold Node.emit
    rw [this]
    dsimp only
    rw [ih]
    rfl

theorem onObj_stopped (n : Node) (h : n.running = false) (r : ObjRef) (f : Obj → Obj × List Ann) :
    (n.onObj r f).2 = [] ∧ (n.onObj r f).1.lastTID = n.lastTID := by
  unfold Node.onObj
  cases n.get r with
  | none => exact ⟨rfl, rfl⟩
  | some o =>
    dsimp only
    have hs : (n.set r (f o).1).running = false := by cases r <;> exact h
    rw [emit_stopped _ hs]
    refine ⟨rfl, ?_⟩
    cases r <;> rfl

theorem onObjs_stopped (f : Obj → Obj × List Ann) (rs : List ObjRef) : ∀ n : Node, n.running = false →
    (n.onObjs f rs).2 = [] ∧ (n.onObjs f rs).1.lastTID = n.lastTID := by
  induction rs with
  | nil => exact fun _ _ => ⟨rfl, rfl⟩
  | cons r rs ih =>
    intro n h
    obtain ⟨a, b⟩ := onObj_stopped n h r f
    obtain ⟨c, d⟩ := ih (n.onObj r f).1 ((onObj_frame n r f).running.trans h)
    unfold Node.onObjs
    dsimp only
    rw [a, c]
    exact ⟨rfl, d.trans b⟩

theorem update_stopped (n : Node) (h : n.running = false) :
    n.updateNodeProfile.2 = [] ∧ n.updateNodeProfile.1.lastTID = n.lastTID := by
  unfold Node.updateNodeProfile
  cases n.nodeProfile with
  | none => exact ⟨rfl, rfl⟩
  | some r =>
    dsimp only
    generalize hf1 : (fun o : Obj => Node.dropErr (o.setInstanceCount (BitVec.ofNat 64 n.devices.length))) = f1
    generalize hf2 : (fun o : Obj => Node.dropErr (o.setClassCount (BitVec.ofNat 64 n.classes.length))) = f2
    generalize hf3 : (fun o : Obj => Node.dropErr (o.setInstanceList n.devices)) = f3
    generalize hf4 : (fun o : Obj => Node.dropErr (o.setClassList n.classes)) = f4
    obtain ⟨a1, b1⟩ := onObj_stopped n h r f1
    have h1 := (onObj_frame n r f1).running.trans h
    obtain ⟨a2, b2⟩ := onObj_stopped _ h1 r f2
    have h2 := (onObj_frame _ r f2).running.trans h1
    obtain ⟨a3, b3⟩ := onObj_stopped _ h2 r f3
    have h3 := (onObj_frame _ r f3).running.trans h2
    obtain ⟨a4, b4⟩ := onObj_stopped _ h3 r f4
    rw [a1, a2, a3, a4]
    exact ⟨rfl, b4.trans (b3.trans (b2.trans b1))⟩

/-! ## Nodes with the same contents -/

theorem node_ext {a b : Node} (hg : ∀ r, a.get r = b.get r) (hf : SameFrame a b) (ht : a.lastTID = b.lastTID) :
    a = b := by
  have hd : a.devices = b.devices := List.ext_getElem? (fun i => hg (.device i))
  have hp : a.profiles = b.profiles := List.ext_getElem? (fun i => hg (.profile i))
  obtain ⟨-, -, f3, f4, f5, f6, f7⟩ := hf
  cases a; cases b
  simp_all

/-- The manufacturer code in an object. -/
def withManufacturer (c : GoUint) (o : Obj) : Obj := { o with props := o.props.update 0x8A (EProp.integerData c 3) }

theorem setMan_with (o : Obj) (c : GoUint) : (o.setManufacturerCode c).1 = withManufacturer c o := by
  unfold Obj.setManufacturerCode
  rw [setPropertyInteger_eq, setPropertyData_fst]
  rfl

theorem update_comm (m : PMap) (a b : Byte) (h : a ≠ b) (x y : Bytes) :
    (m.update a x).update b y = (m.update b y).update a x := by
  unfold PMap.update
  rw [List.map_map, List.map_map]
  apply List.map_congr_left
  intro p _
  simp only [Function.comp]
  by_cases ha : p.code = a
  · have hb : p.code ≠ b := fun e => h (ha.symm.trans e)
    simp [ha, EProp.setData, h]
  · by_cases hb : p.code = b
    · simp [hb, EProp.setData, Ne.symm h]
    · simp [ha, hb]

theorem update_twice (m : PMap) (a : Byte) (x y : Bytes) : (m.update a x).update a y = m.update a y := by
  unfold PMap.update
  rw [List.map_map]
  apply List.map_congr_left
  intro p _
  simp only [Function.comp]
  by_cases ha : p.code = a
  · simp [ha, EProp.setData]
  · simp [ha]

theorem withManufacturer_twice (c d : GoUint) (o : Obj) :
    withManufacturer d (withManufacturer c o) = withManufacturer d o := by
  unfold withManufacturer
  rw [update_twice]

theorem write_man (c : GoUint) (o : Obj) (x : Byte) (hx : x ≠ 0x8A) (d : Bytes) :
    ((withManufacturer c o).setPropertyData x d).1 = withManufacturer c (o.setPropertyData x d).1 := by
  rw [setPropertyData_fst, setPropertyData_fst]
  unfold withManufacturer
  simp only
  rw [update_comm _ _ _ (Ne.symm hx)]

theorem list_man (c : GoUint) (ds : List Obj) (o : Obj) :
    ((withManufacturer c o).setInstanceList ds).1 = withManufacturer c (o.setInstanceList ds).1 := by
  have e1 := setPropertyData_err o 0xD5 (Obj.instanceListData ds)
  have e2 := setPropertyData_err (withManufacturer c o) 0xD5 (Obj.instanceListData ds)
  have f := write_man c o 0xD5 (by decide) (Obj.instanceListData ds)
  have hl : ((withManufacturer c o).props.lookup 0xD5) = o.props.lookup 0xD5 := by
    unfold withManufacturer
    simp only
    rw [lookup_update, if_neg (by decide)]
  rw [hl, ← e1] at e2
  unfold Obj.setInstanceList
  dsimp only
  generalize o.setPropertyData 0xD5 (Obj.instanceListData ds) = u at *
  generalize (withManufacturer c o).setPropertyData 0xD5 (Obj.instanceListData ds) = v at *
  obtain ⟨u1, u2, u3⟩ := u
  obtain ⟨v1, v2, v3⟩ := v
  dsimp only at e2 f
  subst e2
  subst f
  cases v3 with
  | some e => rfl
  | none => exact write_man c u1 0xD6 (by decide) _

theorem profileWrites_man (c : GoUint) (ds : List Obj) (cs : List Cls) (o : Obj) :
    profileWrites ds cs (withManufacturer c o) = withManufacturer c (profileWrites ds cs o) := by
  unfold profileWrites Obj.setClassList Obj.setClassCount Obj.setInstanceCount
  simp only [setPropertyInteger_eq]
  rw [write_man _ _ _ (by decide), write_man _ _ _ (by decide), list_man, write_man _ _ _ (by decide)]

theorem profileWrites_devices (c : GoUint) (ds : List Obj) (cs : List Cls) (o : Obj) :
    profileWrites (ds.map (withManufacturer c)) cs o = profileWrites ds cs o := by
  have : Obj.instanceListData (ds.map (withManufacturer c)) = Obj.instanceListData ds := by
    unfold Obj.instanceListData
    rw [List.length_map, List.map_map]
    rfl
  unfold profileWrites Obj.setInstanceList
  rw [List.length_map, this]

/-! ## The order of options -/

theorem setMan_get (n : Node) (c : GoUint) (r : ObjRef) :
    (n.setManufacturerCode c).1.get r = (n.get r).map (withManufacturer c) := by
  rw [setManufacturerCode_get]
  congr 1
  funext o
  exact setMan_with o c

theorem setMan_devices (n : Node) (c : GoUint) :
    (n.setManufacturerCode c).1.devices = n.devices.map (withManufacturer c) := by
  apply List.ext_getElem?
  intro i
  rw [List.getElem?_map]
  exact setMan_get n c (.device i)

theorem setMan_profiles (n : Node) (c : GoUint) :
    (n.setManufacturerCode c).1.profiles = n.profiles.map (withManufacturer c) := by
  apply List.ext_getElem?
  intro i
  rw [List.getElem?_map]
  exact setMan_get n c (.profile i)

theorem findIdx_man (c : GoUint) (x : ObjectCode) (l : List Obj) :
    (l.map (withManufacturer c)).findIdx? (fun o => o.code == x) = l.findIdx? (fun o => o.code == x) := by
  rw [List.findIdx?_map]
  rfl

theorem setMan_stopped (n : Node) (h : n.running = false) (c : GoUint) :
    (n.setManufacturerCode c).2 = [] ∧ (n.setManufacturerCode c).1.lastTID = n.lastTID := by
  unfold Node.setManufacturerCode
  exact onObjs_stopped _ _ _ h

/-- A manufacturer code given before another one has no effect. -/
theorem setMan_twice (n : Node) (h : n.running = false) (c d : GoUint) :
    ((n.setManufacturerCode c).1.setManufacturerCode d).1 = (n.setManufacturerCode d).1 := by
  have f1 := setManufacturerCode_frame n c
  have f2 := setManufacturerCode_frame (n.setManufacturerCode c).1 d
  have f3 := setManufacturerCode_frame n d
  have h1 : (n.setManufacturerCode c).1.running = false := f1.running.trans h
  refine node_ext (fun r => ?_) ?_ ?_
  · rw [setMan_get, setMan_get, setMan_get, Option.map_map]
    congr 1
    funext o
    exact withManufacturer_twice c d o
  · have a : SameFrame ((n.setManufacturerCode c).1.setManufacturerCode d).1 { n with manufacturer := d } :=
      ⟨(f2.devices.trans f1.devices).symm, (f2.profiles.trans f1.profiles).symm, f2.manufacturer.symm,
        (f2.running.trans f1.running).symm, (f2.selfMsg.trans f1.selfMsg).symm, (f2.addr.trans f1.addr).symm,
        (f2.pending.trans f1.pending).symm⟩
    exact a.trans f3
  · rw [(setMan_stopped _ h1 d).2, (setMan_stopped _ h c).2, (setMan_stopped _ h d).2]

/-- The node before `updateNodeProfile` in `addDevice`. -/
theorem addDevice_eq (n : Node) (d : Obj) : n.addDevice d
    = ({ n with devices := n.devices ++ [withManufacturer n.manufacturer d] } : Node).updateNodeProfile := by
  unfold Node.addDevice
  rw [setMan_with]

theorem addDevice_stopped (n : Node) (h : n.running = false) (d : Obj) :
    (n.addDevice d).2 = [] ∧ (n.addDevice d).1.lastTID = n.lastTID ∧ (n.addDevice d).1.running = false := by
  rw [addDevice_eq]
  generalize ha : ({ n with devices := n.devices ++ [withManufacturer n.manufacturer d] } : Node) = a
  have ra : a.running = false := by rw [← ha]; exact h
  obtain ⟨x, y⟩ := update_stopped a ra
  exact ⟨x, y.trans (by rw [← ha]), (updateNodeProfile_frame a).running.trans ra⟩

/-- Adding a device and giving the manufacturer code can be swapped. -/
theorem setMan_addDevice (n : Node) (h : n.running = false) (c : GoUint) (d : Obj) :
    ((n.addDevice d).1.setManufacturerCode c).1 = ((n.setManufacturerCode c).1.addDevice d).1 := by
  have f1 := setManufacturerCode_frame n c
  have s1 := (setMan_stopped n h c).2
  have sd := setMan_devices n c
  have sp := setMan_profiles n c
  generalize (n.setManufacturerCode c).1 = m at *
  have h1 : m.running = false := f1.running.trans h
  have hm : m.manufacturer = c := f1.manufacturer
  rw [addDevice_eq n d, addDevice_eq m d]
  -- the node with the device, with and without the code
  generalize ha : ({ n with devices := n.devices ++ [withManufacturer n.manufacturer d] } : Node) = a
  generalize hb : ({ m with devices := m.devices ++ [withManufacturer m.manufacturer d] } : Node) = b
  have ra : a.running = false := by rw [← ha]; exact h
  have rb : b.running = false := by rw [← hb]; exact h1
  have db : b.devices = a.devices.map (withManufacturer c) := by
    rw [← ha, ← hb]
    simp only [List.map_append, List.map_cons, List.map_nil, withManufacturer_twice, sd, hm]
  have pb : b.profiles = a.profiles.map (withManufacturer c) := by
    rw [← ha, ← hb]
    exact sp
  have gb : ∀ r, b.get r = (a.get r).map (withManufacturer c) := by
    intro r
    cases r with
    | device i => show b.devices[i]? = _; rw [db, List.getElem?_map]; rfl
    | profile i => show b.profiles[i]? = _; rw [pb, List.getElem?_map]; rfl
  have nb : b.nodeProfile = a.nodeProfile := by
    unfold Node.nodeProfile Node.lookupProfile
    rw [pb, findIdx_man, findIdx_man]
  have cb : b.classes = a.classes := by
    unfold Node.classes
    rw [db, pb, ← List.map_append, List.map_map]
    rfl
  have fa := updateNodeProfile_frame a
  have fb := updateNodeProfile_frame b
  have fm := setManufacturerCode_frame a.updateNodeProfile.1 c
  have r1 : a.updateNodeProfile.1.running = false := fa.running.trans ra
  refine node_ext (fun r => ?_) ?_ ?_
  · rw [setMan_get, updateNodeProfile_get, updateNodeProfile_get, nb, cb, db, gb]
    split
    · rw [Option.map_map, Option.map_map]
      congr 1
      funext o
      simp only [Function.comp]
      rw [profileWrites_devices, profileWrites_man]
    · rfl
  · refine ⟨?_, ?_, ?_, ?_, ?_, ?_, ?_⟩
    · rw [fb.devices, fm.devices, db, List.length_map]; exact fa.devices.symm
    · rw [fb.profiles, fm.profiles, pb, List.length_map]; exact fa.profiles.symm
    · rw [fb.manufacturer, fm.manufacturer, ← hb]; exact hm
    · rw [fb.running, fm.running, rb]; exact r1.symm
    · rw [fb.selfMsg, fm.selfMsg, ← hb]
      refine (f1.selfMsg).trans ?_
      show n.selfMsg = a.updateNodeProfile.1.selfMsg
      rw [fa.selfMsg, ← ha]
    · rw [fb.addr, fm.addr, ← hb]
      refine (f1.addr).trans ?_
      show n.addr = a.updateNodeProfile.1.addr
      rw [fa.addr, ← ha]
    · rw [fb.pending, fm.pending, ← hb]
      refine (f1.pending).trans ?_
      show n.pending = a.updateNodeProfile.1.pending
      rw [fa.pending, ← ha]
  · rw [(setMan_stopped _ r1 c).2, (update_stopped a ra).2, (update_stopped b rb).2, ← ha, ← hb]
    exact s1.symm

/-- The flag for own messages. -/
def withSelf (b : Bool) (n : Node) : Node := { n with selfMsg := b }

theorem withSelf_get (b : Bool) (n : Node) (r : ObjRef) : (withSelf b n).get r = n.get r := by cases r <;> rfl

theorem setMan_self (n : Node) (h : n.running = false) (c : GoUint) (b : Bool) :
    (withSelf b (n.setManufacturerCode c).1) = ((withSelf b n).setManufacturerCode c).1 := by
  have f1 := setManufacturerCode_frame n c
  have f2 := setManufacturerCode_frame (withSelf b n) c
  have h1 : (withSelf b n).running = false := h
  refine node_ext (fun r => ?_) ?_ ?_
  · rw [withSelf_get, setMan_get, setMan_get, withSelf_get]
  · exact ⟨f2.devices.trans f1.devices.symm, f2.profiles.trans f1.profiles.symm,
      f2.manufacturer.trans f1.manufacturer.symm, f2.running.trans f1.running.symm, f2.selfMsg,
      f2.addr.trans f1.addr.symm, f2.pending.trans f1.pending.symm⟩
  · rw [(setMan_stopped _ h1 c).2]
    exact (setMan_stopped _ h c).2

theorem update_self (n : Node) (h : n.running = false) (b : Bool) :
    (withSelf b n.updateNodeProfile.1) = (withSelf b n).updateNodeProfile.1 := by
  have f1 := updateNodeProfile_frame n
  have f2 := updateNodeProfile_frame (withSelf b n)
  have h1 : (withSelf b n).running = false := h
  refine node_ext (fun r => ?_) ?_ ?_
  · rw [withSelf_get, updateNodeProfile_get, updateNodeProfile_get, withSelf_get]
    rfl
  · exact ⟨f2.devices.trans f1.devices.symm, f2.profiles.trans f1.profiles.symm,
      f2.manufacturer.trans f1.manufacturer.symm, f2.running.trans f1.running.symm, f2.selfMsg,
      f2.addr.trans f1.addr.symm, f2.pending.trans f1.pending.symm⟩
  · rw [(update_stopped _ h1).2]
    exact (update_stopped _ h).2

theorem addDevice_self (n : Node) (h : n.running = false) (d : Obj) (b : Bool) :
    (withSelf b (n.addDevice d).1) = ((withSelf b n).addDevice d).1 := by
  rw [addDevice_eq, addDevice_eq]
  have hr : ({ n with devices := n.devices ++ [withManufacturer n.manufacturer d] } : Node).running = false := h
  exact update_self _ hr b

/-! ## What the options lead to -/

/-- Devices are added one after another. -/
def addAll (n : Node) (ds : List Obj) : Node := ds.foldl (fun n d => (n.addDevice d).1) n

theorem addAll_stopped (ds : List Obj) : ∀ n : Node, n.running = false → (addAll n ds).running = false := by
  induction ds with
  | nil => exact fun _ h => h
  | cons d ds ih => exact fun n h => ih _ (addDevice_stopped n h d).2.2

theorem addAll_man (c : GoUint) (ds : List Obj) : ∀ n : Node, n.running = false →
    ((addAll n ds).setManufacturerCode c).1 = addAll (n.setManufacturerCode c).1 ds := by
  induction ds with
  | nil => exact fun _ _ => rfl
  | cons d ds ih =>
    intro n h
    show ((addAll (n.addDevice d).1 ds).setManufacturerCode c).1 = addAll ((n.setManufacturerCode c).1.addDevice d).1 ds
    rw [ih _ (addDevice_stopped n h d).2.2, setMan_addDevice n h]

theorem addAll_self (b : Bool) (ds : List Obj) : ∀ n : Node, n.running = false →
    withSelf b (addAll n ds) = addAll (withSelf b n) ds := by
  induction ds with
  | nil => exact fun _ _ => rfl
  | cons d ds ih =>
    intro n h
    show withSelf b (addAll (n.addDevice d).1 ds) = addAll ((withSelf b n).addDevice d).1 ds
    rw [ih _ (addDevice_stopped n h d).2.2, addDevice_self n h]

theorem addDevices_eq (ds : List Obj) : ∀ x : Making, x.node.running = false →
    x.addDevices ds = { x with node := addAll x.node ds } := by
  induction ds with
  | nil => exact fun _ _ => rfl
  | cons d ds ih =>
    intro x h
    unfold Making.addDevices
    obtain ⟨a, -, b⟩ := addDevice_stopped x.node h d
    rw [ih _ b, a, List.append_nil]
    rfl

/-- The node without its devices. -/
def bare (db : StdDB) (man : Option GoUint) (cfg : Option Bool) : Node :=
  let n := match man with
    | none => Node.new db
    | some c => ((Node.new db).setManufacturerCode c).1
  match cfg with
  | none => n
  | some b => withSelf b n

theorem new_stopped (db : StdDB) : (Node.new db).running = false := by
  unfold Node.new Node.addProfile
  dsimp only
  rw [(updateNodeProfile_frame _).running]
  rfl

theorem bare_cases (db : StdDB) (man : Option GoUint) (cfg : Option Bool) : ∃ n0, Node.new db = n0 ∧ bare db man cfg =
    (let n := match man with
      | none => n0
      | some c => (n0.setManufacturerCode c).1
     match cfg with
      | none => n
      | some b => withSelf b n) := ⟨_, rfl, rfl⟩

theorem bare_stopped (db : StdDB) (man : Option GoUint) (cfg : Option Bool) : (bare db man cfg).running = false := by
  have h := new_stopped db
  obtain ⟨n0, e0, e⟩ := bare_cases db man cfg
  rw [e]
  rw [e0] at h
  cases man with
  | none => cases cfg <;> exact h
  | some c =>
    have h' := (setManufacturerCode_frame n0 c).running.trans h
    cases cfg <;> exact h'

theorem bare_man (db : StdDB) (man : Option GoUint) (cfg : Option Bool) (c : GoUint) :
    ((bare db man cfg).setManufacturerCode c).1 = bare db (some c) cfg := by
  have h := new_stopped db
  unfold bare
  generalize Node.new db = n0 at *
  cases man with
  | none =>
    cases cfg with
    | none => rfl
    | some b => exact (setMan_self n0 h c b).symm
  | some c0 =>
    cases cfg with
    | none => exact setMan_twice n0 h c0 c
    | some b =>
      have h' := (setManufacturerCode_frame n0 c0).running.trans h
      show ((withSelf b (n0.setManufacturerCode c0).1).setManufacturerCode c).1
        = withSelf b (n0.setManufacturerCode c).1
      rw [← setMan_self _ h', setMan_twice _ h]

theorem bare_self (db : StdDB) (man : Option GoUint) (cfg : Option Bool) (b : Bool) :
    withSelf b (bare db man cfg) = bare db man (some b) := by
  unfold bare
  generalize Node.new db = n0
  cases cfg <;> rfl

/-- What the options amount to. -/
def made (db : StdDB) (opts : List NodeOpt) : Making :=
  ⟨addAll (bare db (optManufacturer opts) (lastConfig opts)) (allDevices opts), lastListener opts, []⟩

theorem made_step (db : StdDB) (pre : List NodeOpt) (o : NodeOpt) :
    (made db pre).apply o = made db (pre ++ [o]) := by
  have hb := bare_stopped db (optManufacturer pre) (lastConfig pre)
  have hs : (made db pre).node.running = false := addAll_stopped _ _ hb
  cases o with
  | manufacturer c =>
    have e1 : optManufacturer (pre ++ [.manufacturer c]) = some c := by simp [optManufacturer]
    have e2 : allDevices (pre ++ [.manufacturer c]) = allDevices pre := by simp [allDevices]
    have e3 : lastListener (pre ++ [.manufacturer c]) = lastListener pre := by simp [lastListener]
    have e4 : lastConfig (pre ++ [.manufacturer c]) = lastConfig pre := by simp [lastConfig]
    unfold Making.apply
    dsimp only
    rw [(setMan_stopped _ hs c).1]
    unfold made
    rw [e1, e2, e3, e4, addAll_man _ _ _ hb, bare_man]
    rfl
  | devices ds =>
    have e1 : optManufacturer (pre ++ [.devices ds]) = optManufacturer pre := by simp [optManufacturer]
    have e2 : allDevices (pre ++ [.devices ds]) = allDevices pre ++ ds := by simp [allDevices]
    have e3 : lastListener (pre ++ [.devices ds]) = lastListener pre := by simp [lastListener]
    have e4 : lastConfig (pre ++ [.devices ds]) = lastConfig pre := by simp [lastConfig]
    unfold Making.apply
    dsimp only
    rw [addDevices_eq ds _ hs]
    unfold made
    rw [e1, e2, e3, e4]
    dsimp only
    unfold addAll
    rw [List.foldl_append]
  | listener l =>
    have e1 : optManufacturer (pre ++ [.listener l]) = optManufacturer pre := by simp [optManufacturer]
    have e2 : allDevices (pre ++ [.listener l]) = allDevices pre := by simp [allDevices]
    have e3 : lastListener (pre ++ [.listener l]) = some l := by simp [lastListener]
    have e4 : lastConfig (pre ++ [.listener l]) = lastConfig pre := by simp [lastConfig]
    unfold made
    rw [e1, e2, e3, e4]
    rfl
  | config b =>
    have e1 : optManufacturer (pre ++ [.config b]) = optManufacturer pre := by simp [optManufacturer]
    have e2 : allDevices (pre ++ [.config b]) = allDevices pre := by simp [allDevices]
    have e3 : lastListener (pre ++ [.config b]) = lastListener pre := by simp [lastListener]
    have e4 : lastConfig (pre ++ [.config b]) = some b := by simp [lastConfig]
    unfold made
    rw [e1, e2, e3, e4, ← bare_self db _ (lastConfig pre), ← addAll_self _ _ _ hb]
    rfl

theorem made_all (db : StdDB) (opts : List NodeOpt) : ∀ pre : List NodeOpt,
    opts.foldl Making.apply (made db pre) = made db (pre ++ opts) := by
  induction opts with
  | nil => intro pre; rw [List.append_nil]; rfl
  | cons o os ih =>
    intro pre
    rw [List.foldl_cons, made_step, ih, List.append_assoc]
    rfl

theorem new_made (db : StdDB) (opts : List NodeOpt) : Making.newLocalNode db opts = made db opts := by
  have := made_all db opts []
  exact this

/-! ## C104 -/

/-- `d'` is the device `d`, now reporting the manufacturer code `c` if it has property 0x8A. -/
def Marked (c : GoUint) (d d' : Obj) : Prop :=
  d'.codes = d.codes ∧ d'.name = d.name ∧ d'.clsName = d.clsName ∧
  (∀ x, x ≠ 0x8A → d'.props.lookup x = d.props.lookup x) ∧
  d'.props.lookup 0x8A = (d.props.lookup 0x8A).map (fun p => { p with data := beBytes 3 c.toNat })

theorem marked_with (c : GoUint) (d : Obj) : Marked c d (withManufacturer c d) := by
  refine ⟨rfl, rfl, rfl, fun x hx => ?_, ?_⟩
  · unfold withManufacturer
    simp only
    rw [lookup_update, if_neg hx]
  · unfold withManufacturer
    simp only
    rw [lookup_update, if_pos rfl]
    unfold EProp.integerData
    rw [integerToByte_eq]
    rfl

theorem addDevice_keeps (n : Node) (d : Obj) :
    (n.addDevice d).1.devices = n.devices ++ [withManufacturer n.manufacturer d] ∧
    (n.addDevice d).1.manufacturer = n.manufacturer ∧ (n.addDevice d).1.selfMsg = n.selfMsg ∧
    (n.addDevice d).1.profiles.length = n.profiles.length := by
  rw [addDevice_eq]
  generalize ha : ({ n with devices := n.devices ++ [withManufacturer n.manufacturer d] } : Node) = a
  have f := updateNodeProfile_frame a
  refine ⟨?_, ?_, ?_, ?_⟩
  · have : a.updateNodeProfile.1.devices = a.devices := by
      refine devices_eq_of_get (fun i => ?_)
      rw [updateNodeProfile_get, if_neg]
      intro e
      obtain ⟨j, hj, -⟩ := nodeProfile_cases e
      cases hj
    rw [this, ← ha]
  · rw [f.manufacturer, ← ha]
  · rw [f.selfMsg, ← ha]
  · rw [f.profiles, ← ha]

theorem addAll_keeps (ds : List Obj) : ∀ n : Node,
    (addAll n ds).devices = n.devices ++ ds.map (withManufacturer n.manufacturer) ∧
    (addAll n ds).manufacturer = n.manufacturer ∧ (addAll n ds).selfMsg = n.selfMsg ∧
    (addAll n ds).profiles.length = n.profiles.length := by
  induction ds with
  | nil => exact fun n => ⟨(List.append_nil _).symm, rfl, rfl, rfl⟩
  | cons d ds ih =>
    intro n
    obtain ⟨a, b, c, e⟩ := addDevice_keeps n d
    obtain ⟨a', b', c', e'⟩ := ih (n.addDevice d).1
    refine ⟨a'.trans ?_, b'.trans b, c'.trans c, e'.trans e⟩
    rw [a, b, List.append_assoc]
    rfl

theorem new_keeps (db : StdDB) : (Node.new db).devices = [] ∧ (Node.new db).manufacturer = 0xFFFFFF ∧
    (Node.new db).selfMsg = true ∧ (Node.new db).profiles.length = 1 := by
  unfold Node.new Node.addProfile
  dsimp only
  generalize ha : ({ Node.initial with
    profiles := Node.initial.profiles ++ [((Obj.newNodeProfile db).setManufacturerCode Node.initial.manufacturer).1]
      } : Node) = a
  have f := updateNodeProfile_frame a
  refine ⟨?_, ?_, ?_, ?_⟩
  · apply List.eq_nil_of_length_eq_zero
    rw [f.devices, ← ha]
    rfl
  · rw [f.manufacturer, ← ha]; rfl
  · rw [f.selfMsg, ← ha]; rfl
  · rw [f.profiles, ← ha]; rfl

theorem bare_keeps (db : StdDB) (man : Option GoUint) (cfg : Option Bool) : (bare db man cfg).devices = [] ∧
    (bare db man cfg).manufacturer = man.getD 0xFFFFFF ∧
    (bare db man cfg).selfMsg = cfg.getD true ∧ (bare db man cfg).profiles.length = 1 := by
  obtain ⟨a, b, c, d⟩ := new_keeps db
  unfold bare
  generalize Node.new db = n0 at *
  cases man with
  | none =>
    cases cfg with
    | none => exact ⟨a, b, c, d⟩
    | some s => exact ⟨a, b, rfl, d⟩
  | some m =>
    have f := setManufacturerCode_frame n0 m
    have g := setMan_devices n0 m
    rw [a] at g
    cases cfg with
    | none => exact ⟨g, f.manufacturer, f.selfMsg.trans c, f.profiles.trans d⟩
    | some s => exact ⟨g, f.manufacturer, rfl, f.profiles.trans d⟩

/-- C104. Whatever options `NewLocalNode` is given, in whatever order: the node does not run and nothing is sent;
it has the listener and the configuration given last, the manufacturer code given last (0xFFFFFF if none is), and
exactly the devices given, in the order given, all reporting that code, also those given before the code. -/
theorem C104_options (db : StdDB) (opts : List NodeOpt) (x : Making) (hx : x = Making.newLocalNode db opts) :
    x.sent = [] ∧ x.node.running = false ∧ x.listener = lastListener opts ∧
    x.node.selfMsg = (lastConfig opts).getD true ∧
    x.node.manufacturer = (optManufacturer opts).getD 0xFFFFFF ∧
    x.node.profiles.length = 1 ∧ x.node.devices.length = (allDevices opts).length ∧
    ∀ (i : Nat) d, (allDevices opts)[i]? = some d →
      ∃ d', x.node.devices[i]? = some d' ∧ Marked ((optManufacturer opts).getD 0xFFFFFF) d d' := by
  rw [new_made] at hx
  subst hx
  obtain ⟨a, b, c, d⟩ := bare_keeps db (optManufacturer opts) (lastConfig opts)
  obtain ⟨a', b', c', d'⟩ := addAll_keeps (allDevices opts) (bare db (optManufacturer opts) (lastConfig opts))
  refine ⟨rfl, addAll_stopped _ _ (bare_stopped db _ _), rfl, c'.trans c, b'.trans b, d'.trans d, ?_, ?_⟩
  · show (addAll _ _).devices.length = _
    rw [a', a, List.nil_append, List.length_map]
  · intro i d hd
    refine ⟨withManufacturer ((optManufacturer opts).getD 0xFFFFFF) d, ?_, marked_with _ _⟩
    show (addAll _ _).devices[i]? = _
    rw [a', a, b, List.nil_append, List.getElem?_map, hd]
    rfl

/-- C104. Only the last manufacturer code, the last listener, the last configuration and the order of the devices
matter: options that agree in these make the same node. -/
theorem C104_order (db : StdDB) (opts opts' : List NodeOpt)
    (hm : optManufacturer opts = optManufacturer opts') (hd : allDevices opts = allDevices opts')
    (hl : lastListener opts = lastListener opts') (hc : lastConfig opts = lastConfig opts') :
    Making.newLocalNode db opts = Making.newLocalNode db opts' := by
  rw [new_made, new_made]
  unfold made
  rw [hm, hd, hl, hc]

/-- Options given in another order, and some of them twice: the same node. -/
example : Making.newLocalNode stdDB [.config false, .devices [sampleDevice 0x013001], .manufacturer 5, .listener 1] =
    Making.newLocalNode stdDB [.manufacturer 9, .listener 1, .devices [], .manufacturer 5, .config true,
      .devices [sampleDevice 0x013001], .config false] :=
  C104_order stdDB _ _ (by simp [optManufacturer]) (by simp [allDevices]) (by simp [lastListener]) (by simp [lastConfig])

/-- The calls an option stands for. -/
def NodeOpt.ops : NodeOpt → List NodeOp
  | .manufacturer c => [.setManufacturer c]
  | .devices ds => ds.map .addDevice
  | .listener _ => []
  | .config b => [.setSelf b]

theorem runAll_append (db : StdDB) (a b : List NodeOp) : ∀ n : Node,
    (NodeOp.runAll db n (a ++ b)).1 = (NodeOp.runAll db (NodeOp.runAll db n a).1 b).1 := by
  induction a with
  | nil => exact fun _ => rfl
  | cons o a ih => exact fun n => ih (o.run db n).1

theorem addDevices_run (db : StdDB) (ds : List Obj) : ∀ x : Making,
    (x.addDevices ds).node = (NodeOp.runAll db x.node (ds.map .addDevice)).1 := by
  induction ds with
  | nil => exact fun _ => rfl
  | cons d ds ih => exact fun x => ih _

theorem apply_run (db : StdDB) (x : Making) (o : NodeOpt) :
    (x.apply o).node = (NodeOp.runAll db x.node (NodeOpt.ops o)).1 := by
  cases o with
  | manufacturer c => rfl
  | devices ds => exact addDevices_run db ds x
  | listener l => rfl
  | config b => rfl

theorem options_run (db : StdDB) (opts : List NodeOpt) : ∀ x : Making,
    (opts.foldl Making.apply x).node = (NodeOp.runAll db x.node (opts.map NodeOpt.ops).flatten).1 := by
  induction opts with
  | nil => exact fun _ => rfl
  | cons o os ih =>
    intro x
    rw [List.foldl_cons, ih, apply_run db, List.map_cons, List.flatten_cons, runAll_append]

theorem new_run (db : StdDB) (opts : List NodeOpt) :
    (Making.newLocalNode db opts).node = (NodeOp.runAll db (Node.new db) (opts.map NodeOpt.ops).flatten).1 := by
  unfold Making.newLocalNode
  rw [options_run db]

/-- C104. With devices made by the library (and fewer than 2^63 of them, as in any Go slice) the new node's profile
describes it: the number and list of its devices and classes. Its devices and its profile report the code. The node is one that calls on a new node lead to, so
everything proved of such nodes holds of it. -/
theorem C104_described (opts : List NodeOpt) (hd : ∀ d ∈ allDevices opts, Reached stdDB d)
    (hlen : (allDevices opts).length + 1 < 2 ^ 63) (x : Making) (hx : x = Making.newLocalNode stdDB opts) :
    DescribesNode x.node ∧ NodeReached stdDB x.node ∧
    ∀ o ∈ x.node.devices ++ x.node.profiles, ∀ p, o.props.lookup 0x8A = some p →
      p.data = beBytes 3 ((optManufacturer opts).getD 0xFFFFFF).toNat := by
  obtain ⟨-, -, -, -, h5, h6, h7, -⟩ := C104_options stdDB opts x hx
  have hrun : x.node = (NodeOp.runAll stdDB (Node.new stdDB) (opts.map NodeOpt.ops).flatten).1 := by
    rw [hx, new_run]
  have hadd : ∀ op ∈ (opts.map NodeOpt.ops).flatten,
      (∃ d, op = .addDevice d ∧ Reached stdDB d) ∨ (∃ c, op = .setManufacturer c) ∨ ∃ b, op = .setSelf b := by
    intro op hop
    rw [List.mem_flatten] at hop
    obtain ⟨l, hl, hop⟩ := hop
    rw [List.mem_map] at hl
    obtain ⟨o, ho, rfl⟩ := hl
    cases o with
    | manufacturer c => exact .inr (.inl ⟨c, List.mem_singleton.mp hop⟩)
    | devices ds =>
      obtain ⟨d, hds, rfl⟩ := List.mem_map.mp hop
      refine .inl ⟨d, rfl, hd d ?_⟩
      unfold allDevices
      rw [List.mem_flatten]
      exact ⟨ds, List.mem_map.mpr ⟨_, ho, rfl⟩, hds⟩
    | listener l => cases hop
    | config b => exact .inr (.inr ⟨b, List.mem_singleton.mp hop⟩)
  refine ⟨C30_node_profile _ (fun op hop => ?_) _ hrun (by rw [h6, h7]; exact hlen), ⟨_, fun op hop => ?_, hrun⟩, ?_⟩
  · rcases hadd op hop with ⟨d, rfl, h⟩ | ⟨c, rfl⟩ | ⟨b, rfl⟩
    · exact h
    · trivial
    · trivial
  · rcases hadd op hop with ⟨d, rfl, h⟩ | ⟨c, rfl⟩ | ⟨b, rfl⟩
    · exact h
    · trivial
    · trivial
  · have hs : ∀ op ∈ (opts.map NodeOpt.ops).flatten, SparesMan stdDB op := by
      intro op hop
      rcases hadd op hop with ⟨d, rfl, h⟩ | ⟨c, rfl⟩ | ⟨b, rfl⟩
      · exact h
      · trivial
      · trivial
    obtain ⟨-, hm⟩ := uniform_all stdDB (new_uniform stdDB).1 _ hs
    rw [← hrun, h5, (new_uniform stdDB).2] at hm
    intro o ho p hp
    rw [hm]
    exact (C31_uniform stdDB _ hs o x.node hrun ho p hp).1

example : ((Obj.newNodeProfile stdDB).props.lookup 0x8A).isSome = true := by decide +kernel

/-- A device before the manufacturer code, one after it, and an earlier code and listener that are overridden. -/
def sampleOpts : List NodeOpt :=
  [.manufacturer 0x000005, .devices [sampleDevice 0x013001], .listener 1, .manufacturer 0x00000B, .config false,
   .listener 2, .devices [sampleDevice 0x029001, sampleDevice 0x013002]]

example : optManufacturer sampleOpts = some 0x0B ∧ lastListener sampleOpts = some 2 ∧
    lastConfig sampleOpts = some false ∧ (allDevices sampleOpts).length = 3 ∧
    (∀ d ∈ allDevices sampleOpts, Reached stdDB d) := by
  refine ⟨by simp [optManufacturer, sampleOpts], by simp [lastListener, sampleOpts], by simp [lastConfig, sampleOpts],
    by simp [allDevices, sampleOpts], ?_⟩
  intro d hd
  have : d = sampleDevice 0x013001 ∨ d = sampleDevice 0x029001 ∨ d = sampleDevice 0x013002 := by
    unfold allDevices sampleOpts at hd
    simpa using hd
  have hr : ∀ c, Reached stdDB (sampleDevice c) := fun c => ⟨[.setCode c], rfl⟩
  rcases this with h | h | h <;> (rw [h]; exact hr _)

example : ((sampleDevice 0x013001).props.lookup 0x8A).isSome = true := by decide +kernel

end Verif.Props
