import Verif.Model.Tcp

/-!
# Model of `PostMessage` of a node with TCP

The two attempts of `localNode.PostMessage`: over TCP, waiting on the connection, and then without
waiting there. What arrives for the second one is decided by the handlers, which are modelled in
Model/Post; here it is a parameter.
-/

namespace Verif.Model
open Transport

/-- What becomes of a post: what is returned, the node, the message as it was last sent, the
connections, and the attempts at sending made by the second part. -/
structure PostOutcome where
  result : Res Message
  node : Node
  request : Message
  world : TcpWorld
  attempts : List Attempt

/-- `postMessageSynchronously` (local_node_msssage.go:94-109) with `MessageManager.PostMessage`
(transport/message_manager.go:96-98). The identifier a message has when the node profile is missing is
left out: no node loses its profile. -/
def Node.postSync (n : Node) (dials : Nat → Dial) (tcp : Bool) (servers : List UServer) (to : Addr)
    (m : Message) (w : TcpWorld) : PostOutcome :=
  match n.sendMessage m with
  | (n, some m, _) => let (r, w) := managerPost dials tcp servers to m w; ⟨r, n, m, w, []⟩
  | (n, none, e) => ⟨.err (e.getD .other), n, m, w, []⟩

/-- The second part of `PostMessage` (local_node_msssage.go:178-200): `answer` is the message handed over
by a handler within the request timeout, if any. -/
def Node.postAsync (n : Node) (out : SendOs) (answer : Option Message) (s : Transport) (m : Message)
    (w : TcpWorld) : PostOutcome :=
  match n.sendMessage m with
  | (n, none, e) => ⟨.err (e.getD .other), n, m, w, []⟩
  | (n, some m, _) =>
    match s.sendMessage out with
    | (.inr e, made) => ⟨.err e, n, m, w, made⟩
    | (.inl _, made) =>
      match answer with
      | some r => ⟨.ok r, n, m, w, made⟩
      | none => ⟨.err .timeout, n, m, w, made⟩

/-- `localNode.PostMessage` (local_node_msssage.go:157-201). The settings of the node and of its
transport agree on TCP (`SetConfig`, local_node.go:132-135). -/
def Node.postMessage (n : Node) (dials : Nat → Dial) (out : SendOs) (answer : Option Message)
    (s : Transport) (to : Addr) (m : Message) (w : TcpWorld) : PostOutcome :=
  if s.config.unicast.tcpEnabled then
    let o := n.postSync dials true s.uservers to m w
    match o.result with
    | .ok _ => o
    | .panic => o
    | .err _ => o.node.postAsync out answer s o.request o.world
  else n.postAsync out answer s m w

end Verif.Model
