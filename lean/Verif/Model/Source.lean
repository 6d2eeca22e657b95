import Verif.Model.Address
import Verif.Model.NodePost

/-!
# Model of the source of a received message, and of what `PostMessage` returns

The address of a received message with the zone of the peer, which the other models leave out, and the
value of type `Message` that `PostMessage` returns, which may be nil or hold nil.
-/

namespace Verif.Model
open Transport

/-- `net.UDPAddr` and `net.TCPAddr` (Go standard library): the address of a peer. -/
structure Peer where
  ip : Bytes
  zone : Str
  port : Nat
deriving DecidableEq, Repr

/-- The host part of the text of a peer. -/
def Peer.host (v6 : V6) (p : Peer) : Str :=
  if p.zone = [] then ipString v6 p.ip else ipString v6 p.ip ++ '%' :: p.zone

/-- `UDPAddr.String` and `TCPAddr.String` (Go standard library). -/
def Peer.string (v6 : V6) (p : Peer) : Str := joinHostPort (p.host v6) (itoa p.port)

/-- The source of a message read by `UDPSocket.ReadMessage` (transport/udp_socket.go:144-145). -/
def udpSource (p : Peer) : Address := ⟨p.ip, p.port⟩

/-- The source of a message read by `TCPSocket.ReadMessage` (transport/tcp_socket.go:103-108); `none` is an
error. -/
def tcpSource (v6 : V6) (p : Peer) : Option Address := Address.ofString v6 (p.string v6)

/-- `Message.SourceAddress` (protocol/message.go:283-285). -/
def Address.sourceAddress (v6 : V6) (a : Address) : Str := ipString v6 a.ip

/-- The text of the address to which `UnicastUDPSocket.ResponseMessageForRequestMessage` sends the response
(transport/unicast_udp_socket.go:64-69, transport/udp_socket.go:73), to be resolved. -/
def replyTarget (v6 : V6) (a : Address) : Str := joinHostPort (a.sourceAddress v6) (itoa a.port)

/-- A value of the interface type `Message` (message.go:15-37): nil, or a `*message` (message.go:45-47) that holds
a pointer. -/
inductive MsgValue where
  | nil
  | holds (m : Option Message)
deriving DecidableEq, Repr

/-- A comparison with nil. -/
def MsgValue.isNil : MsgValue → Bool
  | .nil => true
  | .holds _ => false

/-- A call of one of the methods of `Message` (message.go:15-37): each reads a field of the message
(protocol/message.go:171-290, message.go:119-138), and so panics without one. -/
def MsgValue.read {α : Type} (f : Message → α) : MsgValue → Res α
  | .nil => .panic
  | .holds none => .panic
  | .holds (some m) => .ok (f m)

/-- What the second part of `PostMessage` returns (local_node_msssage.go:188-200). -/
def Node.asyncReturn (n : Node) (out : SendOs) (answer : Option Message) (s : Transport) (m : Message) :
    MsgValue × Option Err :=
  match n.sendMessage m with
  | (_, none, e) => (.nil, some (e.getD .other))
  | (_, some _, _) =>
    match s.sendMessage out with
    | (.inr e, _) => (.nil, some e)
    | (.inl _, _) => (.holds answer, if answer.isSome then none else some .timeout)

/-- What `localNode.PostMessage` (local_node_msssage.go:157-201) returns. -/
def Node.postReturn (n : Node) (dials : Nat → Dial) (out : SendOs) (answer : Option Message)
    (s : Transport) (to : Addr) (m : Message) (w : TcpWorld) : Res (MsgValue × Option Err) :=
  if s.config.unicast.tcpEnabled then
    let o := n.postSync dials true s.uservers to m w
    match o.result with
    | .ok r => .ok (.holds (some r), none)
    | .panic => .panic
    | .err _ => .ok (o.node.asyncReturn out answer s o.request)
  else .ok (n.asyncReturn out answer s m)

end Verif.Model
