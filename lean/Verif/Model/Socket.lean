import Verif.Model.Address
import Verif.Model.Interface

/-!
# Model of one socket and its status (transport/socket.go, udp_socket.go, tcp_socket.go, unicast_udp_socket.go, multicast_socket.go)

The three kinds of sockets a program can make, bind and close, with what they then report. The outcome of
each call of the operating system is a parameter. A connection or listener is a number, the interface a name.
-/

namespace Verif.Model

/-- The kinds of sockets: `UnicastUDPSocket`, `MulticastSocket` (both embed `UDPSocket`), `TCPSocket`. -/
inductive SockKind where
  | unicast | multicast | tcp
deriving DecidableEq, Repr

/-- `Socket` (transport/socket.go:16-20) with `UDPSocket.Conn` (transport/udp_socket.go:20) or
`TCPSocket.Listener` (transport/tcp_socket.go:24). -/
structure SocketState where
  conn : Option Nat
  ifi : Option Str
  addr : Str
  port : Int
deriving DecidableEq, Repr

/-- What the operating system answers in one call of `Bind` or `Close`: `none` is success. -/
structure SockOs where
  close : Option Err := none
  resolve : Option Err := none
  listen : Nat ⊕ Err
  raw : Option Err := none
  reuse : Option Err := none
  loop : Option Err := none

namespace SocketState

/-- `NewSocket` (transport/socket.go:23-31) in `NewUDPSocket` (transport/udp_socket.go:26-36) and `NewTCPSocket`
(transport/tcp_socket.go:29-36). -/
def new : SocketState := ⟨none, none, [], 0⟩

/-- `Socket.SetBoundStatus` (transport/socket.go:41-45). -/
def setBoundStatus (s : SocketState) (i : Str) (a : Str) (p : Int) : SocketState := { s with ifi := some i, addr := a, port := p }

/-- `Socket.IsBound` (transport/socket.go:48-50). -/
def isBound (s : SocketState) : Bool := s.port != 0

/-- `Socket.Port` (transport/socket.go:53-58). -/
def getPort (s : SocketState) : Res Int := if !s.isBound then .err .other else .ok s.port

/-- `Socket.Interface` (transport/socket.go:61-66). -/
def getInterface (s : SocketState) : Res (Option Str) := if !s.isBound then .err .other else .ok s.ifi

/-- `Socket.Address` (transport/socket.go:69-74). -/
def getAddress (s : SocketState) : Res Str := if !s.isBound then .err .other else .ok s.addr

/-- `Socket.IPAddr` (transport/socket.go:77-89). -/
def ipAddr (s : SocketState) : Res Str := do
  let p ← s.getPort
  let a ← s.getAddress
  .ok (joinHostPort a (itoa p))

/-- `UDPSocket.Close` (transport/udp_socket.go:50-59), `TCPSocket.Close` (transport/tcp_socket.go:70-84). They hide
`Socket.Close` (transport/socket.go:34-38), which they do not call. -/
def close (k : SockKind) (os : SockOs) (s : SocketState) : SocketState × Option Err :=
  match s.conn with
  | none => (s, none)
  | some _ =>
    match k with
    | .tcp =>
      match os.close with
      | some e => (s, some e)
      | none => ({ s with conn := none }, none)
    | _ => ({ s with conn := none }, os.close)

/-- `UnicastUDPSocket.Bind` (transport/unicast_udp_socket.go:30-61). -/
def bindUnicast (os : SockOs) (s : SocketState) (i a : Str) (p : Int) : SocketState × Option Err :=
  match s.close .unicast os with
  | (s, some e) => (s, some e)
  | (s, none) =>
    match os.resolve with
    | some e => (s, some e)
    | none =>
      match os.listen with
      | .inr e => ({ s with conn := none }, some e)
      | .inl n =>
        let s := { s with conn := some n }
        match os.raw with
        | some e => ((s.close .unicast os).1, some e)
        | none =>
          match os.reuse with
          | some e => ((s.close .unicast os).1, some e)
          | none => (s.setBoundStatus i a p, none)

/-- `TCPSocket.Bind` (transport/tcp_socket.go:39-67). -/
def bindTcp (os : SockOs) (s : SocketState) (i a : Str) (p : Int) : SocketState × Option Err :=
  match s.close .tcp os with
  | (s, some e) => (s, some e)
  | (s, none) =>
    match os.resolve with
    | some e => (s, some e)
    | none =>
      match os.listen with
      | .inr e => ({ s with conn := none }, some e)
      | .inl n =>
        let s := { s with conn := some n }
        match os.raw with
        | some e => (s, some e)
        | none =>
          match os.reuse with
          | some e => (s, some e)
          | none => (s.setBoundStatus i a p, none)

/-- `MulticastSocket.Bind` (transport/multicast_socket.go:28-68) with `MulticastSocket.Listen`
(transport/multicast_socket_listen.go:16-28); the port is `Port` (transport/const.go:12). -/
def bindMulticast (os : SockOs) (s : SocketState) (i a : Str) : SocketState × Option Err :=
  match s.close .multicast os with
  | (s, some e) => (s, some e)
  | (s, none) =>
    if !(isIPv4Address a) && !(isIPv6Address a) then (s, some .other)
    else
      match os.resolve with
      | some e => (s, some e)
      | none =>
        match os.listen with
        | .inr e => ({ s with conn := none }, some e)
        | .inl n =>
          let s := ({ s with conn := some n } : SocketState).setBoundStatus i a 3610
          match os.raw with
          | some e => ((s.close .multicast os).1, some e)
          | none =>
            match os.reuse with
            | some e => (s, some e)
            | none =>
              match os.loop with
              | some e => (s, some e)
              | none => (s, none)

/-- `Bind` of each kind; the port of a multicast socket is fixed. -/
def bind (k : SockKind) (os : SockOs) (s : SocketState) (i a : Str) (p : Int) : SocketState × Option Err :=
  match k with
  | .unicast => s.bindUnicast os i a p
  | .tcp => s.bindTcp os i a p
  | .multicast => s.bindMulticast os i a

end SocketState

/-- The calls a program makes. -/
inductive SockOp where
  | bind (os : SockOs) (i a : Str) (p : Int)
  | close (os : SockOs)

namespace SockOp

/-- A call, with the error it returns. -/
def run (k : SockKind) (s : SocketState) : SockOp → SocketState × Option Err
  | bind os i a p => s.bind k os i a p
  | close os => s.close k os

/-- The socket after a history of calls. -/
def runAll (k : SockKind) (s : SocketState) (ops : List SockOp) : SocketState := ops.foldl (fun s op => (op.run k s).1) s

end SockOp
end Verif.Model
