import Verif.Model.Node

/-!
# Model of `net/echonet/local_node_message_handler.go`

User callbacks are arbitrary: the environment decides, from the node, the calls made so far and
the arguments, which calls on the node a callback makes and whether it returns an error. Which
callbacks are registered does not change while one message is handled, and callbacks do not change
the message they get a pointer to; both are simplifications, which `Verif.Model.Callbacks` does without.
-/

namespace Verif.Model
open Verif.Spec

/-- A call of a user callback. -/
inductive Call where
  | message (m : Message)                            -- NodeListener.OnMessage
  | request (r : ObjRef) (esv : ESV) (p : PProp)     -- ObjectHandler.OnRequest
  | handler (r : ObjRef) (esv : ESV) (p : PProp)     -- ObjectRequestHandler
deriving DecidableEq, Repr

/-- The callbacks of the program using the library. -/
structure Env where
  /-- a node listener is set -/
  listener : Bool
  /-- an object listener is set for the object -/
  objListener : ObjRef → Bool
  /-- a request handler is set for the object -/
  reqHandler : ObjRef → Bool
  /-- what a callback does -/
  behave : Node → List Call → Call → List NodeOp × Option Err

/-- The state while a message is handled: the node, the callbacks called and the messages
sent so far. -/
structure HState where
  node : Node
  calls : List Call
  sent : List Sent

/-- Calling a callback. -/
def Env.call (env : Env) (db : StdDB) (s : HState) (c : Call) : HState × Option Err :=
  let (ops, e) := env.behave s.node s.calls c
  let (n, ms) := NodeOp.runAll db s.node ops
  (⟨n, s.calls ++ [c], s.sent ++ ms⟩, e)

/-- The properties read by the loops `for n := range msgOPC { msgProp := msg.Property(n) … }`
(local_node_message_handler.go:71-75, 125-129, 152-156), those that are nil being skipped. The
index is not negative, so `Property` does not panic. -/
def Message.requested (m : Message) : List PProp :=
  (List.range m.getOPC).filterMap (fun (i : Nat) =>
    match m.property i with
    | .ok p => p
    | _ => none)

namespace Node

/-- The checks for one property (local_node_message_handler.go:76-94). -/
def validProperty (o : Obj) (esv : ESV) (p : PProp) : Bool :=
  match o.props.lookup p.code with
  | none => false
  | some prop =>
    if !prop.isAvailableService esv then false
    else if esv.isWriteRequest then
      if !prop.isWritable then false
      else if p.size ≠ prop.size then false
      else true
    else true

/-- `localNode.validateReceivedMessage` (local_node_message_handler.go:49-100). -/
def validateReceivedMessage (n : Node) (m : Message) : Bool :=
  match n.lookupObject m.getDEOJ with
  | none => false
  | some r =>
    match n.get r with
    | none => false
    | some o =>
      if !m.esv.isValid then false
      else if m.esv.isReadRequest || m.esv.isWriteRequest then
        m.requested.all (validProperty o m.esv)
      else true

/-- `errors.Join` of the two results in `object.notifyPropertyRequest` (object.go:246-255): nil
exactly when both are. -/
def joinErr : Option Err → Option Err → Option Err
  | none, none => none
  | some e, _ => some e
  | none, some e => some e

/-- `object.notifyPropertyRequest` (object.go:246-255). -/
def notifyPropertyRequest (env : Env) (db : StdDB) (r : ObjRef) (esv : ESV) (p : PProp) (s : HState) :
    HState × Option Err :=
  let (s, e1) := if env.objListener r then env.call db s (.request r esv p) else (s, none)
  let (s, e2) := if env.reqHandler r then env.call db s (.handler r esv p) else (s, none)
  (s, joinErr e1 e2)

/-- The loop over the properties in `executeMessageListeners`
(local_node_message_handler.go:125-134): a later error replaces an earlier one, a later success
does not. -/
def notifyAll (env : Env) (db : StdDB) (r : ObjRef) (esv : ESV) :
    List PProp → HState → Option Err → HState × Option Err
  | [], s, lastErr => (s, lastErr)
  | p :: ps, s, lastErr =>
    let (s, e) := notifyPropertyRequest env db r esv p s
    notifyAll env db r esv ps s (match e with | some e => some e | none => lastErr)

/-- `localNode.executeMessageListeners` (local_node_message_handler.go:103-138). -/
def executeMessageListeners (env : Env) (db : StdDB) (m : Message) (s : HState) :
    HState × Option Err :=
  match s.node.lookupObject m.getDEOJ with
  | none => (s, some .notFound)
  | some r =>
    let (s, lastErr) := if env.listener then env.call db s (.message m) else (s, none)
    notifyAll env db r m.esv m.requested s lastErr

/-- `localNode.createResponseMessageForRequestMessage` (local_node_message_handler.go:141-164). -/
def createResponse (n : Node) (m : Message) : Option Message × Option Err :=
  match n.lookupObject m.getDEOJ with
  | none => (none, some .notFound)
  | some r =>
    match n.get r with
    | none => (none, some .notFound)
    | some o =>
      (some (m.requested.foldl (fun res p =>
        match o.props.lookup p.code with
        | none => res
        | some prop => res.addProperty (some prop.toProtocol)) m.newResponse), none)

/-- The test for own messages (local_node_message_handler.go:14-19) with
`newRemoteNodeWithRequestMessage` (remote_node.go:40-45) and `nodeEquals` (node.go:40-48). -/
def isSelfMessage (n : Node) (m : Message) : Bool :=
  if m.src.port ≠ n.addr.port then false
  else if m.src.ip ≠ n.addr.ip then false
  else true

/-- `localNode.isResponseMessageWaiting` and `isResponseMessage` (local_node_msssage.go:112-135). -/
def isResponseMessage (n : Node) (m : Message) : Bool :=
  match n.pending with
  | none => false
  | some req =>
    if Message.equals (some m) (some req) then false
    else if m.getTID ≠ req.getTID then false
    else true

end Node

/-- The outcome of handling a message: node afterwards, callbacks called, messages sent by
them, whether the message was handed to a waiting post, the reply and the error returned to the
transport. -/
structure Outcome where
  node : Node
  calls : List Call
  sent : List Sent
  delivered : Bool
  reply : Option Message
  error : Option Err

/-- `localNode.ProtocolMessageReceived` (local_node_message_handler.go:13-46). Handing the message
to a waiting post (lines 21-25) is only recorded here; `Verif.Model.Post` has the channel. The
result is a panic exactly when `NewImpossibleMessageWithMessage` panics, which it never does. -/
def Node.received (env : Env) (db : StdDB) (n : Node) (m : Message) : Res Outcome :=
  if !n.selfMsg && n.isSelfMessage m then .ok ⟨n, [], [], false, none, none⟩
  else
    let delivered := n.isResponseMessage m
    if !n.validateReceivedMessage m then do
      let r ← m.newImpossible
      .ok ⟨n, [], [], delivered, some r, none⟩
    else
      match Node.executeMessageListeners env db m ⟨n, [], []⟩ with
      | (s, some e) => .ok ⟨s.node, s.calls, s.sent, delivered, none, some e⟩
      | (s, none) =>
        if !m.esv.isResponseRequired then .ok ⟨s.node, s.calls, s.sent, delivered, none, none⟩
        else
          let (r, e) := s.node.createResponse m
          .ok ⟨s.node, s.calls, s.sent, delivered, r, e⟩

end Verif.Model
