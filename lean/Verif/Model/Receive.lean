import Verif.Model.Parser
import Verif.Model.Handler

/-!
# Model of UDP sending and receiving

`transport/udp_socket.go`, the receive loops of `transport/unicast_server.go` and
`transport/multicast_server.go`, and the replies they send. What the network does with a datagram
between `WriteToUDP` and `ReadFromUDP` is not modelled: a datagram that arrives, arrives as sent
(UDP checksums). Logging is left out.
-/

namespace Verif.Model

/-- A datagram: its payload and the address it comes from or goes to. -/
structure Datagram where
  data : Bytes
  peer : Addr
deriving DecidableEq, Repr

/-- transport/const.go:17 -/ def maxPacketSize : Nat := 1024

/-- `UDPSocket` (transport/udp_socket.go:18-24) with the interface of its `Socket`; `conn` says
whether `Conn` is not nil. -/
structure UdpSocket where
  conn : Bool
  readBuffer : Bytes
  ifc : Option String
deriving DecidableEq, Repr

/-- What `ReadFromUDP` gives: a datagram or an error. -/
inductive RecvEvent where
  | datagram (d : Datagram)
  | failure
deriving DecidableEq, Repr

namespace UdpSocket

/-- `NewUDPSocket` (transport/udp_socket.go:27-36). -/
def new : UdpSocket := ⟨false, List.replicate maxPacketSize 0, none⟩

/-- A successful `Bind` on the interface (transport/unicast_udp_socket.go:30-61,
transport/multicast_socket.go:28-67); the failures are in `Verif.Model.Transport`. -/
def bind (s : UdpSocket) (ifi : String) : UdpSocket := { s with conn := true, ifc := some ifi }

/-- `UDPSocket.Close` (transport/udp_socket.go:50-59). -/
def close (s : UdpSocket) : UdpSocket := { s with conn := false }

/-- `Conn.ReadFromUDP(sock.readBuffer)` for an arrived datagram: as many of its bytes as fit the
buffer are written to its front, the rest of the datagram is dropped; the number of bytes written
is returned. -/
def fill (buf : Bytes) (data : Bytes) : Bytes × Nat :=
  (data.take buf.length ++ buf.drop data.length, min data.length buf.length)

/-- `UDPSocket.ReadMessage` (transport/udp_socket.go:127-149). -/
def readMessage (s : UdpSocket) (ev : RecvEvent) : UdpSocket × Res Message :=
  if !s.conn then (s, .err .invalid)
  else
    match ev with
    | .failure => (s, .err .other)
    | .datagram d =>
      let (buf, n) := fill s.readBuffer d.data
      ({ s with readBuffer := buf }, do
        let m ← Message.newWithBytes (← slice buf 0 n)
        .ok { m with src := d.peer, ifc := s.ifc })

/-- `UDPSocket.SendMessage` and `SendBytes` (transport/udp_socket.go:72-105, 108-110): the datagram handed
to the system. -/
def sendMessage (to : Addr) (m : Message) : Datagram := ⟨m.bytes, to⟩

end UdpSocket

/-- The two receive loops. -/
inductive ServerKind where
  | unicast
  | multicast
deriving DecidableEq, Repr

/-- A server's socket, whether its receive goroutine still loops, and the messages it started a
handling goroutine for, oldest first. -/
structure UdpServer where
  kind : ServerKind
  sock : UdpSocket
  looping : Bool
  handled : List Message
deriving DecidableEq, Repr

/-- The packet type set by the two loops (transport/unicast_server.go:132,
transport/multicast_server.go:90). -/
def ServerKind.packetType : ServerKind → Nat
  | .unicast => udpUnicastPacket
  | .multicast => multicastPacket

namespace UdpServer

/-- A server that has just been started on an interface. -/
def started (k : ServerKind) (ifi : String) : UdpServer := ⟨k, UdpSocket.new.bind ifi, true, []⟩

/-- One round of `handleUnicastUDPConnection` (transport/unicast_server.go:122-137) and of
`handleMulticastConnection` (transport/multicast_server.go:79-95). Stopping the server is not part
of this machine. -/
def step (s : UdpServer) (ev : RecvEvent) : UdpServer :=
  if !s.looping then s
  else
    match s.sock.readMessage ev with
    | (sock, .ok m) =>
      { s with sock := sock, handled := s.handled ++ [{ m with pktType := s.kind.packetType }] }
    | (sock, _) =>
      match s.kind with
      | .unicast => { s with sock := sock, looping := false }
      | .multicast => { s with sock := sock.close, looping := false }

/-- A sequence of events. -/
def run (s : UdpServer) (evs : List RecvEvent) : UdpServer := evs.foldl step s

end UdpServer

/-- `handleUnicastUDPRequestMessage` (transport/unicast_server.go:107-120) and
`handleMulticastRequestMessage` (transport/multicast_server.go:64-77) with a unicast server set, for
a node as handler: the node afterwards and the datagrams written to the UDP socket as a reply
(`ResponseMessageForRequestMessage`, transport/unicast_udp_socket.go:64-69). -/
def Node.onMessageUDP (env : Env) (db : StdDB) (n : Node) (m : Message) : Res (Node × List Datagram) := do
  let o ← n.received env db m
  match o.error, o.reply with
  | none, some r => .ok (o.node, [UdpSocket.sendMessage m.src r])
  | _, _ => .ok (o.node, [])

end Verif.Model
