import Verif.Model.Node

/-!
# Model of a program with several nodes that hold their objects by pointers (local_node.go, base_node.go, object.go)

`Verif.Model.Node` treats the devices and profiles of a node as parts of it. In Go a node holds pointers: the program
may add one `Device` to two nodes or twice to one, and may go on calling it in any case. Each object has one pointer to a
node, its parent, through which changes are announced. Here objects are cells named by pointers.

Simplifications: nodes are created at the beginning; the objects a program creates (`NewDevice`, `NewProfile`) exist
from the beginning, with the contents they are created with, which does not depend on anything else. A pointer is not
both a device and a profile (the types exclude it). Announcing is made after the change of the object as in
`Verif.Model.Node`.
-/

namespace Verif.Model
open Verif.Spec

/-- Pointers to objects: the node profile a node makes for itself (local_node.go:107), and objects the program makes. -/
inductive Ptr where
  | own (n : Nat)
  | made (k : Nat)
deriving DecidableEq, Repr

/-- `localNode` (local_node.go:71-82) with pointers to its devices and profiles (base_node.go:18-21); of `base` only the
other fields are used. -/
structure NodeCell where
  base : Node
  devs : List Ptr
  profs : List Ptr

/-- The objects (object.go:102-111) with their `parentNode`, and the nodes. -/
structure Prog where
  objs : Ptr → Obj
  parent : Ptr → Option Nat
  nodes : Nat → NodeCell

/-- The calls of a program. -/
inductive ProgOp where
  | addDevice (n : Nat) (p : Ptr)                  -- AddDevice
  | addProfile (n : Nat) (p : Ptr)                 -- AddProfile
  | setManufacturer (n : Nat) (c : GoUint)         -- SetManufacturerCode of a node
  | setSelf (n : Nat) (b : Bool)                   -- SetConfig, its self message flag
  | obj (p : Ptr) (op : ObjOp)                     -- a call on an object
  | setParent (p : Ptr) (n : Option Nat)           -- SetParentNode
  | start (n : Nat) (res : Option (Bool × Addr)) (stays : Bool) -- Start
  | stop (n : Nat)                                 -- Stop
  | send (n : Nat) (m : Message)                   -- SendMessage, SendRequest
deriving DecidableEq, Repr

namespace Prog

/-- What a node finds behind its pointers. -/
def view (w : Prog) (n : Nat) : Node :=
  { (w.nodes n).base with devices := (w.nodes n).devs.map w.objs, profiles := (w.nodes n).profs.map w.objs }

/-- A change of one node. -/
def setNode (w : Prog) (n : Nat) (c : NodeCell) : Prog :=
  { w with nodes := fun m => if m = n then c else w.nodes m }

/-- The announcements of a call on an object, which its parent makes if there is one (property.go:206-212, 461-472,
object.go:226-233). -/
def emitBy (w : Prog) (k : Option Nat) (as : List Ann) : Prog × List (Nat × Sent) :=
  match k with
  | none => (w, [])
  | some k =>
    let (b, ms) := (w.nodes k).base.emit as
    (w.setNode k { w.nodes k with base := b }, ms.map (fun m => (k, .multicast m)))

/-- A call on an object. -/
def onPtr (w : Prog) (p : Ptr) (f : Obj → Obj × List Ann) : Prog × List (Nat × Sent) :=
  let (o, as) := f (w.objs p)
  emitBy { w with objs := fun q => if q = p then o else w.objs q } (w.parent p) as

/-- The same call on several objects. -/
def onPtrs (w : Prog) (f : Obj → Obj × List Ann) : List Ptr → Prog × List (Nat × Sent)
  | [] => (w, [])
  | p :: ps =>
    let (w, ms) := w.onPtr p f
    let (w, ms') := w.onPtrs f ps
    (w, ms ++ ms')

/-- The pointer of a node at a position. -/
def ptrAt (w : Prog) (n : Nat) : ObjRef → Option Ptr
  | .device i => (w.nodes n).devs[i]?
  | .profile i => (w.nodes n).profs[i]?

/-- `localNode.updateNodeProfile` (local_node.go:231-288). -/
def updateNodeProfile (w : Prog) (n : Nat) : Prog × List (Nat × Sent) :=
  match (w.view n).nodeProfile.bind (w.ptrAt n) with
  | none => (w, [])
  | some p =>
    let classes := (w.view n).classes
    let devices := (w.view n).devices
    let (w, m1) := w.onPtr p (fun o => Node.dropErr (o.setInstanceCount (BitVec.ofNat 64 devices.length)))
    let (w, m2) := w.onPtr p (fun o => Node.dropErr (o.setClassCount (BitVec.ofNat 64 classes.length)))
    let (w, m3) := w.onPtr p (fun o => Node.dropErr (o.setInstanceList devices))
    let (w, m4) := w.onPtr p (fun o => Node.dropErr (o.setClassList classes))
    (w, m1 ++ m2 ++ m3 ++ m4)

/-- `object.SetParentNode` (object.go:226-228). -/
def setParent (w : Prog) (p : Ptr) (n : Option Nat) : Prog :=
  { w with parent := fun q => if q = p then n else w.parent q }

/-- `localNode.AddDevice` (local_node.go:179-184, base_node.go:33-35). -/
def addDevice (w : Prog) (n : Nat) (p : Ptr) : Prog × List (Nat × Sent) :=
  let w := w.setNode n { w.nodes n with devs := (w.nodes n).devs ++ [p] }
  let (w, m1) := w.onPtr p (fun o => Node.dropErr (o.setManufacturerCode (w.nodes n).base.manufacturer))
  let (w, m2) := (w.setParent p (some n)).updateNodeProfile n
  (w, m1 ++ m2)

/-- `localNode.AddProfile` (local_node.go:187-192, base_node.go:54-56). -/
def addProfile (w : Prog) (n : Nat) (p : Ptr) : Prog × List (Nat × Sent) :=
  let w := w.setNode n { w.nodes n with profs := (w.nodes n).profs ++ [p] }
  let (w, m1) := w.onPtr p (fun o => Node.dropErr (o.setManufacturerCode (w.nodes n).base.manufacturer))
  let (w, m2) := (w.setParent p (some n)).updateNodeProfile n
  (w, m1 ++ m2)

/-- `localNode.SetManufacturerCode` (local_node.go:138-146). -/
def setManufacturer (w : Prog) (n : Nat) (c : GoUint) : Prog × List (Nat × Sent) :=
  let w := w.setNode n { w.nodes n with base := { (w.nodes n).base with manufacturer := c } }
  w.onPtrs (fun o => Node.dropErr (o.setManufacturerCode c)) ((w.nodes n).devs ++ (w.nodes n).profs)

/-- A call on a node that changes none of its objects (`Verif.Model.Node`). -/
def onNode (db : StdDB) (w : Prog) (n : Nat) (op : NodeOp) : Prog × List (Nat × Sent) :=
  let (b, ms) := op.run db (w.view n)
  (w.setNode n { w.nodes n with base := { b with devices := [], profiles := [] } }, ms.map (fun m => (n, m)))

/-- One call: what is then, and the messages the nodes hand to the transport. -/
def step (db : StdDB) (w : Prog) : ProgOp → Prog × List (Nat × Sent)
  | .addDevice n p => w.addDevice n p
  | .addProfile n p => w.addProfile n p
  | .setManufacturer n c => w.setManufacturer n c
  | .setSelf n b => w.onNode db n (.setSelf b)
  | .obj p op => w.onPtr p (fun o => Node.dropErr (op.run db o))
  | .setParent p n => (w.setParent p n, [])
  | .start n res stays => w.onNode db n (.start res stays)
  | .stop n => w.onNode db n .stop
  | .send n m => w.onNode db n (.send m)

/-- A history of calls. -/
def run (db : StdDB) (w : Prog) : List ProgOp → Prog × List (Nat × Sent)
  | [] => (w, [])
  | op :: ops =>
    let (w, ms) := w.step db op
    let (w, ms') := run db w ops
    (w, ms ++ ms')

/-- New nodes (`newLocalNode`, local_node.go:92-113, as `Node.new`), each with its own node profile, and objects made
with the contents `made`. -/
def init (db : StdDB) (made : Nat → Obj) : Prog where
  objs
    | .own _ => (Node.new db).profiles.headD (Obj.newNodeProfile db)
    | .made k => made k
  parent
    | .own n => some n
    | .made _ => none
  nodes n := ⟨{ Node.new db with devices := [], profiles := [] }, [], [.own n]⟩

end Prog
end Verif.Model
