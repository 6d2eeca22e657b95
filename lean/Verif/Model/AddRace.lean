import Verif.Model.Node
import Verif.Model.ListMem

/-!
# Model of goroutines that add devices to a node

`AddDevice` (local_node.go:179-184) takes no lock: it appends to the list of devices (base_node.go:33-35), sets the
manufacturer code and the node of the device, and writes five properties of the node profile (local_node.go:231-288).
`Verif.Model.Node` makes it one step; here it is taken apart, so that several calls and the handling of
messages come in between. Devices are pointers, and the list is a Go slice (`Verif.Model.ListMem`).

Simplified: memory is sequentially consistent; collecting the classes, building the list of instances and writing one
property are one step each; the node has one profile, its node profile, with the codes of a node profile, and no
profile is added meanwhile; announcements of the node profile are left out (`Verif.Model.AnnounceRace` is about those).
-/

namespace Verif.Model

/-- Where a goroutine is that adds devices. `todo` are the devices it will add after the current one. -/
inductive JoinPc where
  | idle (todo : List Nat)                                   -- between calls
  | put (d : Nat) (v : View) (todo : List Nat)               -- base_node.go:34 has loaded the list
  | store (d : Nat) (v : View) (todo : List Nat)             -- base_node.go:34, before storing the list
  | man (d : Nat) (todo : List Nat)                          -- before local_node.go:181
  | parent (d : Nat) (todo : List Nat)                       -- before local_node.go:182
  | classes (todo : List Nat)                                -- before local_node.go:232-270
  | count (cs : List Cls) (todo : List Nat)                  -- before local_node.go:274
  | setCount (cs : List Cls) (k : Nat) (todo : List Nat)     -- before local_node.go:275
  | setClassCount (cs : List Cls) (todo : List Nat)          -- before local_node.go:279
  | list (cs : List Cls) (todo : List Nat)                   -- before local_node.go:283, node_profile.go:129-138
  | setD5 (cs : List Cls) (l : Bytes) (todo : List Nat)      -- before node_profile.go:140
  | setD6 (cs : List Cls) (l : Bytes) (todo : List Nat)      -- before node_profile.go:145
  | setClasses (cs : List Cls) (todo : List Nat)             -- before local_node.go:287
deriving DecidableEq, Repr

/-- The arrays of device pointers and the list `devices` of the node (base_node.go:18-21), the devices, which of them
know their node (object.go:226-228), the manufacturer code of the node, its node profile, and the goroutines. -/
structure JoinSt where
  cells : Cells Nat
  field : View
  devs : Nat → Obj
  joined : Nat → Bool
  man : GoUint
  prof : Obj
  adders : List JoinPc

namespace JoinSt

/-- The devices of the node, as `Devices` shows them; nil does not occur (`C170_listed_partial`). -/
def listed (s : JoinSt) : List Nat := (s.cells.shows s.field).filterMap id

/-- The classes of the devices and of the node profile (local_node.go:238-270). -/
def classesNow (s : JoinSt) : List Cls := ((s.listed.map s.devs ++ [s.prof]).map Obj.clsD).foldl addClass []

/-- A goroutine goes on. -/
def goto (s : JoinSt) (i : Nat) (p : JoinPc) : JoinSt :=
  ⟨s.cells, s.field, s.devs, s.joined, s.man, s.prof, s.adders.set i p⟩

/-- The node profile is written, and a goroutine goes on. -/
def write (s : JoinSt) (i : Nat) (o : Obj) (p : JoinPc) : JoinSt :=
  ⟨s.cells, s.field, s.devs, s.joined, s.man, o, s.adders.set i p⟩

/-- The next step of goroutine `i`, which is at `p` (local_node.go:179-184, 231-288, base_node.go:33-35,
node_profile.go:123-171). -/
def act (room : Nat → Nat → Nat) (s : JoinSt) (i : Nat) : JoinPc → JoinSt
  | .idle [] => s
  | .idle (d :: todo) => s.goto i (.put d s.field todo)
  | .put d v todo =>
    ⟨(s.cells.append room v d).1, s.field, s.devs, s.joined, s.man, s.prof,
      s.adders.set i (.store d (s.cells.append room v d).2 todo)⟩
  | .store d v todo => ⟨s.cells, v, s.devs, s.joined, s.man, s.prof, s.adders.set i (.man d todo)⟩
  | .man d todo =>
    ⟨s.cells, s.field, fun x => if x = d then ((s.devs d).setManufacturerCode s.man).1 else s.devs x, s.joined, s.man,
      s.prof, s.adders.set i (.parent d todo)⟩
  | .parent d todo =>
    ⟨s.cells, s.field, s.devs, fun x => if x = d then true else s.joined x, s.man, s.prof,
      s.adders.set i (.classes todo)⟩
  | .classes todo => s.goto i (.count s.classesNow todo)
  | .count cs todo => s.goto i (.setCount cs s.listed.length todo)
  | .setCount cs k todo => s.write i (s.prof.setInstanceCount (BitVec.ofNat 64 k)).1 (.setClassCount cs todo)
  | .setClassCount cs todo => s.write i (s.prof.setClassCount (BitVec.ofNat 64 cs.length)).1 (.list cs todo)
  | .list cs todo => s.goto i (.setD5 cs (Obj.instanceListData (s.listed.map s.devs)) todo)
  | .setD5 cs l todo =>
    match (s.prof.setPropertyData 0xD5 l).2.2 with
    | none => s.write i (s.prof.setPropertyData 0xD5 l).1 (.setD6 cs l todo)
    | some _ => s.write i (s.prof.setPropertyData 0xD5 l).1 (.setClasses cs todo)
  | .setD6 cs l todo => s.write i (s.prof.setPropertyData 0xD6 l).1 (.setClasses cs todo)
  | .setClasses cs todo => s.write i (s.prof.setClassList cs).1 (.idle todo)

/-- One step of goroutine `i`. -/
def step (room : Nat → Nat → Nat) (s : JoinSt) (i : Nat) : JoinSt :=
  match s.adders[i]? with
  | some p => s.act room i p
  | none => s

/-- A schedule. -/
def run (room : Nat → Nat → Nat) (s : JoinSt) (is : List Nat) : JoinSt := is.foldl (step room) s

end JoinSt
end Verif.Model
