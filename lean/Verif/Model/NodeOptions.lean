import Verif.Model.Node

/-! # Model of the options of `NewLocalNode` (`local_node.go`) -/

namespace Verif.Model
open Verif.Spec

/-- `LocalNodeOption` (local_node.go:17, 36-64). A listener is named by a number; of a configuration only the
flag for own messages belongs to the node (`Verif.Model.Config` has the rest). -/
inductive NodeOpt where
  | manufacturer (c : GoUint)     -- WithLocalNodeManufacturerCode (36-41)
  | devices (ds : List Obj)       -- WithLocalNodeDevices (43-50)
  | listener (l : Nat)            -- WithLocalNodeListener (52-57)
  | config (selfMsg : Bool)       -- WithLocalNodeConfig (59-64)

/-- A node with its listener (local_node.go:84) and the messages sent so far. -/
structure Making where
  node : Node
  listener : Option Nat
  sent : List Message

namespace Making

/-- `localNode.AddDevice` for each of the devices (local_node.go:46-48). -/
def addDevices (x : Making) : List Obj → Making
  | [] => x
  | d :: ds => addDevices { x with node := (x.node.addDevice d).1, sent := x.sent ++ (x.node.addDevice d).2 } ds

/-- An option is applied (local_node.go:108-110). -/
def apply (x : Making) : NodeOpt → Making
  | .manufacturer c => { x with node := (x.node.setManufacturerCode c).1,
                                sent := x.sent ++ (x.node.setManufacturerCode c).2 }
  | .devices ds => x.addDevices ds
  | .listener l => { x with listener := some l }
  | .config s => { x with node := { x.node with selfMsg := s } }

/-- `NewLocalNode` (local_node.go:88-113) with options. -/
def newLocalNode (db : StdDB) (opts : List NodeOpt) : Making :=
  opts.foldl apply ⟨Node.new db, none, []⟩

end Making
end Verif.Model
