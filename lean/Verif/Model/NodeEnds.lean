import Verif.Model.Transport
import Verif.Model.Address
import Verif.Model.Controller

/-!
# Address, port and restart of a local node

`local_node.go`: `Address`, `Port`, `Restart`, `Equals` and `String`, and what they say about the messages the
node sends itself.
-/

namespace Verif.Model
namespace Transport

/-- `localNode.Address` (local_node.go:116-124) with `Socket.Address` (transport/socket.go:69-74): a socket counts
as bound if its port is not 0 (lines 48-50). `localNode.Port` (local_node.go:127-129) is the field `port`. -/
def address (s : Transport) : Str :=
  match s.uservers.find? (fun u => u.port ≠ 0) with
  | some u => u.addr
  | none => []

/-- `localNode.String` (local_node.go:291-293). -/
def nodeString (s : Transport) : Str := joinHostPort s.address (itoa s.port)

/-- `localNode.Equals` (local_node.go:226-228) with `nodeEquals` (node.go:40-48), for two local nodes. -/
def nodeEquals (a b : Transport) : Bool :=
  if a.port ≠ b.port then false
  else if a.address ≠ b.address then false
  else true

/-- `localNode.Restart` (local_node.go:218-223), with the attempts at announcing the node. -/
def restart (os : Os) (out : SendOs) (s : Transport) : Res (Option Err × Transport × List Attempt) := do
  let (e, s) ← s.stop os
  match e with
  | some e => .ok (some e, s, [])
  | none => s.nodeStart os out

/-- The address messages are compared with to find those of the node itself
(local_node_message_handler.go:14-19 with remote_node.go:40-45 and node.go:40-48). -/
def nodeAddr (s : Transport) : Addr := ⟨String.ofList s.address, s.port⟩

/-- The addresses a controller compares messages with (controller_message_listener.go:19-35): the bound status of
its multicast servers, whose port is `Port` (transport/multicast_socket.go:47). -/
def ctrlServers (s : Transport) : List Addr := s.mservers.map (fun m => ⟨String.ofList m.addr, echonetPort⟩)

/-- Where a datagram comes from: `UDPSocket.SendBytes` (transport/udp_socket.go:79-86) writes to the bound socket,
and the receiver sees its address and port. A TCP connection has a port chosen by the system
(transport/tcp_socket.go:192): `none`. -/
def Attempt.source (a : Attempt) : Option Addr :=
  match a.proto with
  | .udp => a.server.udp.map (fun x => ⟨String.ofList x.addr, x.port⟩)
  | _ => none

end Transport
end Verif.Model
