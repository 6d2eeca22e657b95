import Verif.Model.Handler
import Verif.Model.NodeOptions
import Verif.Model.Print
import Verif.Spec.Object

/-!
# Model of the example light `examples/uecholight`

Of what the program prints, only the line for a switch is modelled.
-/

namespace Verif.Model
open Verif.Spec

namespace Light

/-- `LightObjectCode` (examples/uecholight/const.go:13). -/
def objectCode : ObjectCode := 0x029101
/-- `LightPropertyPowerCode` (examples/uecholight/const.go:14). -/
def powerCode : Byte := 0x80
/-- `LightPropertyPowerOn` (examples/uecholight/const.go:15). -/
def powerOn : GoUint := 0x30

/-- The device made by `NewLightNode` (examples/uecholight/light_node.go:44-51): the error of
`NewDevice` is dropped there, and calling the nil device panics. -/
def device (db : StdDB) : Res Obj :=
  match Obj.newDeviceWith db [.code objectCode, .manufacturer 0xFFFFFF, .requestHandler] with
  | .ok dev => .ok (dev.setPropertyInteger powerCode powerOn 1).1
  | _ => .panic

/-- `NewLightNode` (examples/uecholight/light_node.go:15-57). -/
def node (db : StdDB) : Res Node := do
  let dev ← device db
  .ok (Making.newLocalNode db [.devices [dev]]).node

/-- The node of `main` before it is started (examples/uecholight/uecholight.go:48-49), with the
manufacturer code given on the command line. -/
def program (db : StdDB) (man : GoUint) : Res Node := do
  let n ← node db
  .ok ((NodeOp.setManufacturer man).run db n).1

/-- The request handler of the light (examples/uecholight/light_node.go:16-42): what it does to the
node and the error it returns. `SetData` of the property found (line 34) is modelled as writing
the property of the object, which has it whenever the handler is called. -/
def onRequest (r : ObjRef) (esv : ESV) (p : PProp) : List NodeOp × Option Err :=
  if !esv.isWriteRequest then ([], none)
  else if p.code = powerCode then
    match p.asByte with
    | .ok b =>
      if b = 0x30 ∨ b = 0x31 then ([.obj r (.write p.code p.data)], none)
      else ([], some (.user 1))
    | .err e => ([], some e)
    | .panic => ([], some .other)
  else ([], some (.user 1))

/-- The line the request handler prints (examples/uecholight/light_node.go:34-36) for an object `o`: the
arguments are taken after the property was written. `%02X` of the service is that of its text, since it has a method
`String` (`fmtXText`). Lines about errors are left out. -/
def printed (o : Obj) (esv : ESV) (p : PProp) : Option Str :=
  if !esv.isWriteRequest then none
  else if p.code = powerCode then
    match p.asByte with
    | .ok b =>
      if b = 0x30 ∨ b = 0x31 then
        let o := (o.setPropertyData p.code p.data).1
        let data := match o.props.lookup p.code with
          | some q => q.data
          | none => []
        some ("0x".toList ++ fmtXText esv.string ++ " : 0x".toList ++ hexEncode data ++ " -> 0x".toList ++ hexEncode p.data)
      else none
    | _ => none
  else none

/-- The callbacks of the program: only the request handler of the one device
(examples/uecholight/light_node.go:47). -/
def env : Env where
  listener := false
  objListener := fun _ => false
  reqHandler := fun r => r = .device 0
  behave := fun _ _ c =>
    match c with
    | .handler r esv p => onRequest r esv p
    | _ => ([], none)

/-- What happens to the running program: the node is started or stopped
(examples/uecholight/uecholight.go:51-90; `Restart` is both), or a message comes in. -/
inductive Event where
  | start (res : Option (Bool × Addr)) (stays : Bool)
  | stop
  | message (m : Message)

/-- One event. -/
def step (db : StdDB) (n : Node) : Event → Res Node
  | .start res stays => .ok ((NodeOp.start res stays).run db n).1
  | .stop => .ok (NodeOp.stop.run db n).1
  | .message m => do
    let out ← n.received env db m
    .ok out.node

/-- A history of events. -/
def run (db : StdDB) (n : Node) : List Event → Res Node
  | [] => .ok n
  | e :: es => do
    let n ← step db n e
    run db n es

end Light
end Verif.Model
