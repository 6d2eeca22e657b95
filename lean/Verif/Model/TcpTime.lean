import Verif.Model.NodePost

/-!
# Model of the time a message takes over TCP

How long the calls made for a connection take is given by the network and the other side. Only writing and reading
have a deadline: `net.DialTCP` (transport/tcp_socket.go:192) is called without one. All other calls, and sending over
UDP, take no time. Waiting for the lock of the node is left out (it is in Model/PostTime).
-/

namespace Verif.Model
open Transport

/-- The time that `DialTCP` takes until there is a connection or an error, and the time that `Write` and the reads of
a response would take without a deadline. -/
structure Pace where
  dial : Nat
  write : Nat
  read : Nat
deriving DecidableEq, Repr

/-- The time of `TCPSocket.dialAndWriteBytes` (transport/tcp_socket.go:179-211) with the timeout `T`. -/
def dialTime (T : Nat) (p : Pace) (d : Dial) (bound : Bool) : Nat :=
  match d.resolve with
  | some _ => 0
  | none =>
    if !bound then 0
    else
      match d.dial with
      | some _ => p.dial
      | none =>
        match d.setWrite with
        | some _ => p.dial
        | none => p.dial + min p.write T

/-- The time of `TCPSocket.PostMessage` (transport/tcp_socket.go:129-144): the deadline of the reads counts from the
end of the write. -/
def tcpPostTime (T : Nat) (p : Pace) (d : Dial) (bound : Bool) (to : Addr) (m : Message) (w : TcpWorld) : Nat :=
  dialTime T p d bound +
    match (dialAndWrite d bound to m.bytes w).1 with
    | (some _, _, none) =>
      match d.setRead with
      | some _ => 0
      | none => min p.read T
    | _ => 0

/-- The time of the loop of `UnicastManager.PostMessage` (transport/unicast_manager.go:192-199), which is
`tcpPostFrom`. -/
def tcpPostFromTime (T : Nat) (paces : Nat → Pace) (dials : Nat → Dial) (to : Addr) (m : Message) :
    Nat → List UServer → TcpWorld → Nat
  | _, [], _ => 0
  | k, server :: servers, w =>
    tcpPostTime T (paces k) (dials k) (decide (server.port ≠ 0)) to m w +
      match tcpPost (dials k) (decide (server.port ≠ 0)) to m w with
      | (.err _, w) => tcpPostFromTime T paces dials to m (k + 1) servers w
      | _ => 0

/-- The time of the attempts at sending that were made (`Transport.sendMessage`), the first having the number given:
`TCPSocket.SendMessage` (transport/tcp_socket.go:120-126) dials and writes. Simplified: a connection that was not made
takes the time of a write too, which is 0 in truth. -/
def sendTime (T : Nat) (paces : Nat → Pace) : Nat → List Attempt → Nat
  | _, [] => 0
  | k, a :: as => (if a.proto = .tcp then (paces k).dial + min (paces k).write T else 0) + sendTime T paces (k + 1) as

/-- The time of `localNode.SendMessage` (local_node_msssage.go:76-91). -/
def Node.sendTakes (n : Node) (T : Nat) (paces : Nat → Pace) (out : SendOs) (s : Transport) (m : Message) : Nat :=
  match n.sendMessage m with
  | (_, none, _) => 0
  | (_, some _, _) => sendTime T paces 0 (s.sendMessage out).2

/-- The time of `postMessageSynchronously` (local_node_msssage.go:94-109). -/
def Node.postSyncTakes (n : Node) (T : Nat) (paces : Nat → Pace) (dials : Nat → Dial) (servers : List UServer)
    (to : Addr) (m : Message) (w : TcpWorld) : Nat :=
  match n.sendMessage m with
  | (_, some m, _) => tcpPostFromTime T paces dials to m 0 servers w
  | (_, none, _) => 0

/-- The time of the second part of `PostMessage` (local_node_msssage.go:178-200) with the request timeout `R`, `answer`
being the message that a handler hands over and how long after the sending. -/
def Node.postAsyncTakes (n : Node) (T R : Nat) (paces : Nat → Pace) (out : SendOs) (answer : Option (Message × Nat))
    (s : Transport) (m : Message) : Nat :=
  n.sendTakes T paces out s m +
    match n.sendMessage m with
    | (_, none, _) => 0
    | (_, some _, _) =>
      match (s.sendMessage out).1 with
      | .inr _ => 0
      | .inl _ =>
        match answer with
        | some (_, t) => min t R
        | none => R

/-- The time of `localNode.PostMessage` (local_node_msssage.go:157-201). `paces` are those of the connections of the
first part, `paces'` those of the second. -/
def Node.postTakes (n : Node) (T R : Nat) (paces paces' : Nat → Pace) (dials : Nat → Dial) (out : SendOs)
    (answer : Option (Message × Nat)) (s : Transport) (to : Addr) (m : Message) (w : TcpWorld) : Nat :=
  if s.config.unicast.tcpEnabled then
    let o := n.postSync dials true s.uservers to m w
    n.postSyncTakes T paces dials s.uservers to m w +
      match o.result with
      | .err _ => o.node.postAsyncTakes T R paces' out answer s o.request
      | _ => 0
  else n.postAsyncTakes T R paces' out answer s m

end Verif.Model
