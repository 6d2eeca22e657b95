import Verif.Model.Handler

/-!
# Model of callbacks that change the message they are given and the callbacks that are set

`Verif.Model.Handler` has callbacks that leave both alone. In Go a node listener gets a pointer to the message
(node_listener.go:11-16), a listener or handler of an object gets a pointer to a property of the message
(object_handler.go:11-22), and any callback may call `SetListener` and `SetRequestHandler` (object.go:236-243,
local_node.go:150-153). Here a callback may leave any message and any property in their place; this allows more than
the methods of messages and properties do.
-/

namespace Verif.Model
open Verif.Spec

/-- Which callbacks are set: `localNode.listener` (local_node.go:83), `object.listener` and `object.reqHandler`
(object.go:108-109). -/
structure Regs where
  listener : Bool
  objListener : ObjRef → Bool
  reqHandler : ObjRef → Bool

/-- The state while a message is handled: the node, the callbacks called and the messages sent so far, the message
and the callbacks that are set. -/
structure Turn where
  node : Node
  calls : List Call
  sent : List Sent
  msg : Message
  regs : Regs

/-- What a callback does: its calls on the node, the error it returns, the message and the property it was given as
it leaves them, and the callbacks that are set afterwards. -/
structure Doing where
  ops : List NodeOp
  err : Option Err
  msg : Message
  prop : PProp
  regs : Regs

/-- The callbacks of the program: what each does, from what it can see. -/
abbrev Callbacks := Turn → Call → Doing

namespace Turn

/-- Calling a callback. -/
def step (cb : Callbacks) (db : StdDB) (s : Turn) (c : Call) : Turn :=
  let d := cb s c
  let (n, ms) := NodeOp.runAll db s.node d.ops
  ⟨n, s.calls ++ [c], s.sent ++ ms, d.msg, d.regs⟩

/-- `object.notifyPropertyRequest` (object.go:246-255): both callbacks get the same pointer to a property; each is
looked up when its turn comes. -/
def notify (cb : Callbacks) (db : StdDB) (r : ObjRef) (esv : ESV) (p : PProp) (s : Turn) : Turn × Option Err :=
  if s.regs.objListener r then
    let d := cb s (.request r esv p)
    let s := s.step cb db (.request r esv p)
    if s.regs.reqHandler r then
      (s.step cb db (.handler r esv d.prop), Node.joinErr d.err (cb s (.handler r esv d.prop)).err)
    else (s, Node.joinErr d.err none)
  else if s.regs.reqHandler r then
    (s.step cb db (.handler r esv p), Node.joinErr none (cb s (.handler r esv p)).err)
  else (s, none)

/-- The loop over the properties in `executeMessageListeners` (local_node_message_handler.go:125-134): the number of
turns is that of the message received, the properties are those the message has when their turn comes. -/
def notifyAll (cb : Callbacks) (db : StdDB) (r : ObjRef) (esv : ESV) :
    List Nat → Turn → Option Err → Turn × Option Err
  | [], s, lastErr => (s, lastErr)
  | i :: is, s, lastErr =>
    match s.msg.property i with
    | .ok (some p) =>
      let (s, e) := notify cb db r esv p s
      notifyAll cb db r esv is s (match e with | some e => some e | none => lastErr)
    | _ => notifyAll cb db r esv is s lastErr

/-- `localNode.executeMessageListeners` (local_node_message_handler.go:103-138): the object, the service and the number
of properties are read before the first callback is called. -/
def execute (cb : Callbacks) (db : StdDB) (s : Turn) : Turn × Option Err :=
  match s.node.lookupObject s.msg.getDEOJ with
  | none => (s, some .notFound)
  | some r =>
    let esv := s.msg.esv
    let is := List.range s.msg.getOPC
    if s.regs.listener then
      notifyAll cb db r esv is (s.step cb db (.message s.msg)) (cb s (.message s.msg)).err
    else notifyAll cb db r esv is s none

end Turn

/-- The outcome of handling a message, with the message as it is left, whose source the reply is sent to. -/
structure TurnOutcome where
  live : Turn
  delivered : Bool
  reply : Option Message
  error : Option Err

/-- `localNode.ProtocolMessageReceived` (local_node_message_handler.go:13-46). -/
def Node.receivedLive (cb : Callbacks) (db : StdDB) (regs : Regs) (n : Node) (m : Message) : Res TurnOutcome :=
  let s : Turn := ⟨n, [], [], m, regs⟩
  if !n.selfMsg && n.isSelfMessage m then .ok ⟨s, false, none, none⟩
  else
    let delivered := n.isResponseMessage m
    if !n.validateReceivedMessage m then do
      let r ← m.newImpossible
      .ok ⟨s, delivered, some r, none⟩
    else
      match s.execute cb db with
      | (s, some e) => .ok ⟨s, delivered, none, some e⟩
      | (s, none) =>
        if !s.msg.esv.isResponseRequired then .ok ⟨s, delivered, none, none⟩
        else
          let (r, e) := s.node.createResponse s.msg
          .ok ⟨s, delivered, r, e⟩

end Verif.Model
