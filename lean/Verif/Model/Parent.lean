import Verif.Model.Object

/-!
# Model of devices that are added to nodes by pointer (local_node.go, object.go, property.go)

`Verif.Model.Node` treats a device as a part of its node. In Go a node keeps pointers to its devices, and each device
keeps a pointer to one node, its parent, through which changes are announced. Nodes and devices are numbers here.
Simplification: `AddProfile` does the same as `AddDevice` and is left out, as is the manufacturer code that
`AddDevice` writes, a property that is not announced.
-/

namespace Verif.Model

/-- What a program holds: for each node whether it runs and its devices (base_node.go:18-21), for each device the
`parentNode` (object.go:110). -/
structure PWorld where
  running : Nat → Bool
  devices : Nat → List Nat
  parent : Nat → Option Nat

/-- The calls of a program. -/
inductive POp where
  | addDevice (n d : Nat)
  | setParentNode (d : Nat) (n : Option Nat)
  | start (n : Nat)
  | stop (n : Nat)
deriving DecidableEq, Repr

namespace PWorld

/-- New nodes and devices. -/
def init : PWorld := ⟨fun _ => false, fun _ => [], fun _ => none⟩

/-- `localNode.AddDevice` (local_node.go:179-184, base_node.go:33-35), `object.SetParentNode` (object.go:226-228),
`Start` and `Stop` that succeed (local_node.go:195-215). -/
def step (w : PWorld) : POp → PWorld
  | .addDevice n d =>
    { w with devices := fun x => if x = n then w.devices x ++ [d] else w.devices x,
             parent := fun x => if x = d then some n else w.parent x }
  | .setParentNode d n => { w with parent := fun x => if x = d then n else w.parent x }
  | .start n => { w with running := fun x => if x = n then true else w.running x }
  | .stop n => { w with running := fun x => if x = n then false else w.running x }

/-- A history of calls. -/
def run (w : PWorld) (ops : List POp) : PWorld := ops.foldl step w

/-- `property.Announce` (property.go:461-472): the nodes that send the announcement of a property of device `d`, which
is its `Node()` (property.go:206-212, object.go:231-233) when this runs. -/
def announcers (w : PWorld) (d : Nat) : List Nat :=
  match w.parent d with
  | none => []
  | some n => if !w.running n then [] else [n]

end PWorld
end Verif.Model
