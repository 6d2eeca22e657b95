import Verif.Model.Controller

/-!
# Model of controller listeners that act on the controller

`Verif.Model.Controller` leaves out that a controller listener may clear, start or stop the controller or set another
listener while it is called. Here it may do any of this. Left out: calls of `Search`, which wait, and
request handlers of the node doing so. Handlers of other messages run in other goroutines (Verif.Model.ListRace).
-/

namespace Verif.Model
open Verif.Spec

/-- What a controller listener does with the controller while it is called. -/
inductive CtrlAct where
  | clear                                                                    -- Clear
  | start (res : Option (Bool × Addr)) (stays : Bool) (servers : List Addr)  -- Start
  | stop                                                                     -- Stop
  | setListener (b : Bool)                                                   -- SetListener
  | configure (selfMsg autoPort : Bool)                                      -- SetConfig
  | node (op : NodeOp)                                                       -- on the embedded node
deriving DecidableEq, Repr

namespace CtrlAct

/-- The event of `CtrlOp` (controller.go:80-168). -/
def op : CtrlAct → CtrlOp
  | clear => .clear
  | start res stays servers => .start res stays servers
  | stop => .stop
  | setListener b => .setListener b
  | configure s a => .configure s a
  | node op => .node op

/-- What it does to the embedded node: `Start` (controller.go:152-160) and `Stop` (controller.go:163-168) call those of
the node. -/
def nodeOps : CtrlAct → List NodeOp
  | clear => []
  | start res stays _ => [.start res stays]
  | stop => [.stop]
  | setListener _ => []
  | configure s _ => [.setSelf s]
  | node op => [op]

/-- The controller afterwards. -/
def run (db : StdDB) (c : Ctrl) (a : CtrlAct) : Ctrl := (a.op.run db c).1

end CtrlAct

/-- The listener: what it does when called, from the controller and the calls before. -/
abbrev CtrlListener := Ctrl → List CtrlCall → CtrlCall → List CtrlAct

/-- The state while a message is handled: the controller, the calls so far and what was done to the node. -/
structure CtrlTurn where
  ctrl : Ctrl
  calls : List CtrlCall
  ops : List NodeOp

namespace CtrlTurn

/-- A call of the listener. -/
def call (db : StdDB) (l : CtrlListener) (s : CtrlTurn) (x : CtrlCall) : CtrlTurn :=
  let acts := l s.ctrl s.calls x
  ⟨acts.foldl (CtrlAct.run db) s.ctrl, s.calls ++ [x], s.ops ++ acts.flatMap CtrlAct.nodeOps⟩

/-- `controller.addNode` (controller_message_listener.go:88-100). -/
def addNode (db : StdDB) (l : CtrlListener) (s : CtrlTurn) (n : RemoteNode) : CtrlTurn :=
  if s.ctrl.found.any n.equals then s
  else
    let s := { s with ctrl := { s.ctrl with found := s.ctrl.found ++ [n] } }
    if s.ctrl.listener then s.call db l (.newNode n) else s

/-- `controller.parseNodeProfileMessage` (controller_message_listener.go:72-85). -/
def parseNodeProfileMessage (db : StdDB) (l : CtrlListener) (s : CtrlTurn) (m : Message) : Res CtrlTurn :=
  if !s.ctrl.node.selfMsg && s.ctrl.isSelfMessage m then .ok s
  else
    match RemoteNode.ofInstanceListAndConfig db s.ctrl.autoPort m with
    | .panic => .panic
    | .err _ => .ok s
    | .ok n => .ok (s.addNode db l n)

/-- `controller.OnMessage` (controller_message_listener.go:40-69): the listener is looked up again for the message. -/
def onMessage (db : StdDB) (l : CtrlListener) (s : CtrlTurn) (m : Message) : Res CtrlTurn :=
  if !s.ctrl.node.selfMsg && s.ctrl.isSelfMessage m then .ok s
  else do
    let s ← if Ctrl.isNodeProfileMessage m then s.parseNodeProfileMessage db l m else .ok s
    .ok (if s.ctrl.listener then s.call db l (.message m) else s)

end CtrlTurn

/-- The callbacks of the local node: its listener is the controller, whose listener does `ops` to the node. -/
def Ctrl.envLive (e : Env) (ops : List NodeOp) : Env where
  listener := true
  objListener := e.objListener
  reqHandler := e.reqHandler
  behave := fun n cs x => match x with
    | .message _ => (ops, none)
    | _ => e.behave n cs x

/-- A message arrives at the controller (local_node_message_handler.go:13-46). The node listener is called before any
other callback, so it sees the controller as it was when the message arrived. -/
def Ctrl.receivedLive (db : StdDB) (l : CtrlListener) (e : Env) (c : Ctrl) (m : Message) :
    Res (Ctrl × List CtrlCall × Outcome) := do
  let t ← CtrlTurn.onMessage db l ⟨c, [], []⟩ m
  let out ← c.node.received (Ctrl.envLive e t.ops) db m
  if out.calls.contains (.message m) then .ok ({ t.ctrl with node := out.node }, t.calls, out)
  else .ok ({ c with node := out.node }, [], out)

/-- What happens to a controller: a message arrives, or the program acts between messages. -/
inductive CtrlEvent where
  | received (l : CtrlListener) (e : Env) (m : Message)
  | act (a : CtrlAct)

/-- The controller after an event. -/
def CtrlEvent.run (db : StdDB) (c : Ctrl) : CtrlEvent → Ctrl
  | received l e m =>
    match c.receivedLive db l e m with
    | .ok (c, _) => c
    | _ => c
  | act a => a.run db c

end Verif.Model
