import Verif.Spec.Object

/-!
# Model of `net/echonet/base_node.go`, `local_node.go` and the announcing part of
`local_node_msssage.go`

A node owns its devices and profiles; an object of a node is named by its position, which never
changes since objects are only appended. Adding the same `Device` value twice, or to two nodes, is
modelled in `Verif.Model.Program`. Announcing only takes a transaction identifier and sends a message, so the
announcements of one call are made after the change of the object instead of in the middle of it;
each carries the contents it had in the middle (`Ann`).
-/

namespace Verif.Model
open Verif.Spec

/-- controller.go:16 -/ def tidMin : GoUint := 0
/-- super_object.go:40, node.go:8 -/ def nodeManufacturerExperimental : GoUint := 0xFFFFFF

/-- `localNode` (local_node.go:71-82) with `baseNode` (base_node.go:18-21). `running` is what
`MessageManager.IsRunning` returns, `addr` what `Address` and `Port` return; both are set by the
outcome of `Start` and `Stop` (`Verif.Model.Transport`). `pending` is `postRequestMsg`, with
`postResponseCh` non-nil exactly when it is `some`. -/
structure Node where
  devices : List Obj
  profiles : List Obj
  manufacturer : GoUint
  lastTID : GoUint
  running : Bool
  selfMsg : Bool
  addr : Addr
  pending : Option Message
deriving DecidableEq, Repr

/-- A reference to an object of a node. -/
inductive ObjRef where
  | device (i : Nat)
  | profile (i : Nat)
deriving DecidableEq, Repr

/-- `object.Class` (object.go:180-183) as a value: `codes` always has three bytes (`Lemmas.OWF`),
so that `Obj.cls` does not panic (`Lemmas.cls_eq`). -/
def Obj.clsD (o : Obj) : Cls :=
  match o.codes with
  | g :: c :: _ => ⟨g, c⟩
  | _ => ⟨0, 0⟩

/-- The loop of `updateNodeProfile` collecting classes (local_node.go:242-270): a class equal to
one collected before is skipped. -/
def addClass (classes : List Cls) (c : Cls) : List Cls :=
  if classes.any (fun x => x.equals c) then classes else classes ++ [c]

namespace Node

/-- Dereferencing. -/
def get (n : Node) : ObjRef → Option Obj
  | .device i => n.devices[i]?
  | .profile i => n.profiles[i]?

/-- A change through a pointer. -/
def set (n : Node) (r : ObjRef) (o : Obj) : Node :=
  match r with
  | .device i => { n with devices := n.devices.set i o }
  | .profile i => { n with profiles := n.profiles.set i o }

/-- `baseNode.LookupDevice` (base_node.go:43-51). -/
def lookupDevice (n : Node) (c : ObjectCode) : Option ObjRef :=
  (n.devices.findIdx? (fun o => o.code == c)).map .device

/-- `baseNode.LookupProfile` (base_node.go:64-72). -/
def lookupProfile (n : Node) (c : ObjectCode) : Option ObjRef :=
  (n.profiles.findIdx? (fun o => o.code == c)).map .profile

/-- `baseNode.LookupObject` (base_node.go:117-127). -/
def lookupObject (n : Node) (c : ObjectCode) : Option ObjRef :=
  match n.lookupDevice c with
  | some r => some r
  | none => n.lookupProfile c

/-- `baseNode.NodeProfile` (base_node.go:75-85). -/
def nodeProfile (n : Node) : Option ObjRef :=
  match n.lookupProfile nodeProfileObjectCode with
  | some r => some r
  | none => n.lookupProfile nodeProfileObjectReadOnlyCode

/-- `localNode.NextTID` (local_node.go:169-176); the value returned is the new `lastTID`. -/
def nextTID (n : Node) : Node :=
  if tidMax ≤ n.lastTID then { n with lastTID := tidMin } else { n with lastTID := n.lastTID + 1 }

/-- `localNode.AnnounceMessage` (local_node_msssage.go:26-33): the message handed to the transport
for multicasting, or an error when not running. -/
def announceMessage (n : Node) (m : Message) : Node × List Message × Option Err :=
  if !n.running then (n, [], some .invalid)
  else
    let n := n.nextTID
    (n, [(m.setTID n.lastTID).setDEOJ nodeProfileObjectCode], none)

/-- `localNode.AnnounceProperty` (local_node_msssage.go:36-42). -/
def announceProperty (n : Node) (a : Ann) : Node × List Message × Option Err :=
  n.announceMessage (((Message.new.setESV ESV.notification).setSEOJ a.seoj).addProperty (some a.prop))

/-- `property.Announce` (property.go:461-472) for a property of an object of the node; `SetData`
drops the error (property.go:376). -/
def announceFrom (n : Node) (a : Ann) : Node × List Message :=
  if !n.running then (n, [])
  else
    let (n, ms, _) := n.announceProperty a
    (n, ms)

/-- The announcements of a call, one after the other. -/
def emit (n : Node) : List Ann → Node × List Message
  | [] => (n, [])
  | a :: as =>
    let (n, ms) := n.announceFrom a
    let (n, ms') := n.emit as
    (n, ms ++ ms')

/-- A call on an object of the node. -/
def onObj (n : Node) (r : ObjRef) (f : Obj → Obj × List Ann) : Node × List Message :=
  match n.get r with
  | none => (n, [])
  | some o =>
    let (o, as) := f o
    (n.set r o).emit as

/-- The same call on several objects. -/
def onObjs (n : Node) (f : Obj → Obj × List Ann) : List ObjRef → Node × List Message
  | [] => (n, [])
  | r :: rs =>
    let (n, ms) := n.onObj r f
    let (n, ms') := n.onObjs f rs
    (n, ms ++ ms')

/-- The object and announcements of a call, without its error. -/
def dropErr (x : Obj × List Ann × Option Err) : Obj × List Ann := (x.1, x.2.1)

/-- References to all devices, then all profiles. -/
def refs (n : Node) : List ObjRef :=
  (List.range n.devices.length).map .device ++ (List.range n.profiles.length).map .profile

/-- `localNode.SetManufacturerCode` (local_node.go:138-146). -/
def setManufacturerCode (n : Node) (c : GoUint) : Node × List Message :=
  let n := { n with manufacturer := c }
  n.onObjs (fun o => dropErr (o.setManufacturerCode c)) n.refs

/-- The classes collected by `updateNodeProfile` (local_node.go:238-270). -/
def classes (n : Node) : List Cls :=
  ((n.devices ++ n.profiles).map Obj.clsD).foldl addClass []

/-- `localNode.updateNodeProfile` (local_node.go:231-288). -/
def updateNodeProfile (n : Node) : Node × List Message :=
  match n.nodeProfile with
  | none => (n, [])
  | some r =>
    let classes := n.classes
    let devices := n.devices
    let (n, m1) := n.onObj r (fun o => dropErr (o.setInstanceCount (BitVec.ofNat 64 devices.length)))
    let (n, m2) := n.onObj r (fun o => dropErr (o.setClassCount (BitVec.ofNat 64 classes.length)))
    let (n, m3) := n.onObj r (fun o => dropErr (o.setInstanceList devices))
    let (n, m4) := n.onObj r (fun o => dropErr (o.setClassList classes))
    (n, m1 ++ m2 ++ m3 ++ m4)

/-- `localNode.AddDevice` (local_node.go:179-184). The device gets its node only after its
manufacturer code (line 182), so that this change is not announced. -/
def addDevice (n : Node) (dev : Obj) : Node × List Message :=
  let dev := (dev.setManufacturerCode n.manufacturer).1
  let n := { n with devices := n.devices ++ [dev] }
  n.updateNodeProfile

/-- `localNode.AddProfile` (local_node.go:187-192). -/
def addProfile (n : Node) (prof : Obj) : Node × List Message :=
  let prof := (prof.setManufacturerCode n.manufacturer).1
  let n := { n with profiles := n.profiles ++ [prof] }
  n.updateNodeProfile

/-- The fields set by `newLocalNode` (local_node.go:92-106). -/
def initial : Node :=
  { devices := [], profiles := [], manufacturer := nodeManufacturerExperimental,
    lastTID := tidMin, running := false, selfMsg := true, addr := ⟨"", 3610⟩, pending := none }

/-- `newLocalNode` (local_node.go:92-113) without options. -/
def new (db : StdDB) : Node := (initial.addProfile (Obj.newNodeProfile db)).1

/-- `localNode.Announce` (local_node_msssage.go:45-59). -/
def announce (n : Node) : Node × List Message × Option Err :=
  match n.nodeProfile with
  | none => (n, [], some .notFound)
  | some r =>
    match n.get r with
    | none => (n, [], some .notFound)
    | some o =>
      match o.props.lookup 0xD5 with
      | none => (n, [], some .notFound)
      | some p => n.announceProperty ⟨o.code, p.toProtocol⟩

/-- `localNode.Start` (local_node.go:195-207). `res` is the outcome of the transport: `none` when
`server.Start` fails (which leaves the node stopped or not, `stays`), otherwise whether it is then
running and its address. -/
def start (n : Node) (res : Option (Bool × Addr)) (stays : Bool) : Node × List Message × Option Err :=
  match res with
  | none => ({ n with running := stays }, [], some .other)
  | some (run, a) => { n with running := run, addr := a }.announce

/-- `localNode.Stop` (local_node.go:210-215). -/
def stop (n : Node) : Node := { n with running := false }

/-- The part of `SendMessage` (local_node_msssage.go:76-91) that concerns the node: the header of
the message sent to `dst`, or an error. -/
def sendMessage (n : Node) (m : Message) : Node × Option Message × Option Err :=
  if !n.running then (n, none, some .invalid)
  else
    let n := n.nextTID
    let m := m.setTID n.lastTID
    match n.nodeProfile with
    | none => (n, none, some .notFound)
    | some r =>
      match n.get r with
      | none => (n, none, some .notFound)
      | some o => (n, some (m.setSEOJ o.code), none)

end Node

/-- What a program can do to a local node and its objects. -/
inductive NodeOp where
  | addDevice (o : Obj)                     -- AddDevice
  | addProfile (o : Obj)                    -- AddProfile
  | setManufacturer (c : GoUint)            -- SetManufacturerCode
  | setSelf (b : Bool)                      -- SetConfig, its self message flag
  | obj (r : ObjRef) (op : ObjOp)           -- a call on a device or profile of the node
  | start (res : Option (Bool × Addr)) (stays : Bool) -- Start
  | stop                                    -- Stop
  | send (m : Message)                      -- SendMessage, SendRequest
deriving DecidableEq, Repr

/-- A message handed to the transport. -/
inductive Sent where
  | multicast (m : Message)
  | unicast (m : Message)
deriving DecidableEq, Repr

/-- The message itself. -/
def Sent.msg : Sent → Message
  | .multicast m => m
  | .unicast m => m

/-- Announcements as sent messages. -/
def casts (x : Node × List Message) : Node × List Sent := (x.1, x.2.map .multicast)

namespace NodeOp

/-- The node after the call and the messages it sends. -/
def run (db : StdDB) (n : Node) : NodeOp → Node × List Sent
  | addDevice o => casts (n.addDevice o)
  | addProfile o => casts (n.addProfile o)
  | setManufacturer c => casts (n.setManufacturerCode c)
  | setSelf b => ({ n with selfMsg := b }, [])
  | obj r op => casts (n.onObj r (fun o => Node.dropErr (op.run db o)))
  | start res stays => casts ((n.start res stays).1, (n.start res stays).2.1)
  | stop => (n.stop, [])
  | send m => ((n.sendMessage m).1, ((n.sendMessage m).2.1.map Sent.unicast).toList)

/-- A sequence of calls. -/
def runAll (db : StdDB) (n : Node) : List NodeOp → Node × List Sent
  | [] => (n, [])
  | op :: ops =>
    let (n, ms) := op.run db n
    let (n, ms') := runAll db n ops
    (n, ms ++ ms')

end NodeOp
end Verif.Model
