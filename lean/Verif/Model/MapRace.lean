import Verif.Spec.Object

/-!
# Model of concurrent uses of the map of properties of one object

The properties of an object are in a Go map (property_map.go:22-25) that no lock guards. Messages are handled each in
its own goroutine (transport/unicast_server.go:134, multicast_server.go:92), and the program calls methods of the
object from its own. A use of the map begins and ends; when one use begins before another has ended, and one of them
is an assignment, the program has a data race on the map, and the Go runtime ends the process when it notices.
Simplification: reads of the map that follow one another without anything in between are one use.
-/

namespace Verif.Model

/-- A use of the map. -/
inductive MapUse where
  | read
  | assign
deriving DecidableEq, Repr

/-- Calls that use the map of properties of an object. -/
inductive ObjUse where
  | lookup (c : Byte)                -- LookupProperty, HasProperty, LookupPropertyData, ... and SetPropertyData, ...
  | list                             -- Properties
  | add (p : EProp)                  -- AddProperty of a device, profile or super object
  | setCode (c : ObjectCode)         -- SetCode of a device, profile or super object
  | serve (n : Nat)                  -- the node accepts and answers a read request with n + 1 properties of the object
deriving DecidableEq, Repr

/-- The uses of the map a call makes, in order: property_map.go:86-89, 109-178 (lookup), 64-83 (list), 51-54 with
super_object.go:139-170 (add: assigns, then reads to update the property maps), super_object.go:71-74, 83-97 (the
properties of the class are added one after the other), local_node_message_handler.go:79 and 156 (serve: reads to
validate the request, then, after the listeners, to make the response). -/
def ObjUse.uses (db : StdDB) : ObjUse → List MapUse
  | .lookup _ => [.read]
  | .list => [.read]
  | .add _ => [.assign, .read]
  | .setCode c =>
    match db.lookupObject (byteToInteger 64 (integerToByte c (List.replicate objectCodeSize 0))) with
    | none => []
    | some o => o.props.properties.flatMap (fun _ => [.assign, .read])
  | .serve _ => [.read, .read]

/-- A goroutine: the uses it has still to make, and whether it is within the first of them. -/
structure MapRunner where
  todo : List MapUse
  inside : Bool
deriving DecidableEq, Repr

/-- The goroutine begins its next use or ends the one it is within. -/
def MapRunner.step (g : MapRunner) : MapRunner :=
  if g.inside then ⟨g.todo.tail, false⟩
  else if g.todo.isEmpty then g
  else ⟨g.todo, true⟩

/-- The use the goroutine is within. -/
def MapRunner.now (g : MapRunner) : Option MapUse := if g.inside then g.todo.head? else none

/-- Goroutines, each with the calls it makes one after the other. -/
def mapRunners (db : StdDB) (calls : List (List ObjUse)) : List MapRunner :=
  calls.map (fun us => ⟨us.flatMap (ObjUse.uses db), false⟩)

/-- A schedule: which goroutine takes the next step. -/
def mapRun (gs : List MapRunner) : List Nat → List MapRunner
  | [] => gs
  | i :: is => mapRun (gs.modify i MapRunner.step) is

end Verif.Model
