import Verif.Model.Receive

/-!
# Model of a running node's sockets, their goroutines and `Stop`

The goroutines started by `MulticastServer.Start` and `UnicastServer.Start`, the goroutines these
start for the messages they read and for the connections they accept, the end of
`MessageManager.Start` and any number of calls of `MessageManager.Stop`, as a machine with one step
for each access to what they share: the field `Conn` of a UDP socket, its operating system socket,
the channels, the field `UnicastServer` and the server lists of the managers. Any number of them are
interleaved in any way.

Simplifications: memory is sequentially consistent; a connection is accepted in one step
(`handleUnicastTCPListener`, transport/unicast_server.go:160-173) and closing a listener is one;
sending succeeds when the system socket is open; the errors `Stop` collects are left out; the unicast
server of a multicast server is chosen when `Start` gets to it and found even if `Stop` runs then;
what `ProtocolMessageReceived` answers is a parameter, which gets the messages handled before
(`Verif.Model.Handler` models it). A nil `*net.UDPConn` returns an error when it is read or written
(`UDPConn.ok` in Go's net package).
-/

namespace Verif.Model

/-- Where a receive goroutine is: `handleUnicastUDPConnection` (transport/unicast_server.go:122-137),
`handleMulticastConnection` (transport/multicast_server.go:79-95), `UDPSocket.ReadMessage`
(transport/udp_socket.go:127-149) and, deferred for multicast servers, `UDPSocket.Close` (50-59). -/
inductive LoopPc where
  | select                  -- unicast_server.go:124-127, multicast_server.go:82-85
  | check                   -- udp_socket.go:128
  | load                    -- udp_socket.go:132, `sock.Conn` is read again
  | read (held : Bool)      -- udp_socket.go:132, in `ReadFromUDP` of a connection or of nil
  | got (m : Message)       -- unicast_server.go:134, multicast_server.go:92
  | closing                 -- udp_socket.go:51-54
  | clearing                -- udp_socket.go:55
  | shutting                -- udp_socket.go:57-58
  | ended
deriving DecidableEq, Repr

/-- A server: a `UnicastServer` (transport/unicast_server.go:15-24) or a `MulticastServer`
(transport/multicast_server.go:15-22), with its socket and receive goroutine. `conn`: the field `Conn`
is not nil; `isOpen`: its system socket is open; `queue`: the datagrams the system holds for it;
`stopped`: `UDPChannel` is closed; `via`: the server replies are sent through (`UnicastServer`; a
unicast server replies through itself); `tcp`, `tcpStopped`, `listening`: `TCPEnabled`, `TCPChannel` is
closed, the listener is open. -/
structure Live where
  kind : ServerKind
  conn : Bool
  isOpen : Bool
  stopped : Bool
  queue : List Datagram
  pc : LoopPc
  via : Option Nat
  tcp : Bool
  tcpStopped : Bool
  listening : Bool
deriving DecidableEq, Repr

/-- Where the goroutine for a message is: `handleUnicastUDPRequestMessage`
(transport/unicast_server.go:107-120), `handleMulticastRequestMessage`
(transport/multicast_server.go:64-77), `UDPSocket.SendBytes` (transport/udp_socket.go:72-105). -/
inductive ReplyPc where
  | handle                          -- unicast_server.go:114, multicast_server.go:71
  | via (r : Message)               -- multicast_server.go:72
  | check (j : Nat) (r : Message)   -- udp_socket.go:80
  | load (j : Nat) (r : Message)    -- udp_socket.go:81, `sock.Conn` is read again
  | write (j : Nat) (r : Message)   -- udp_socket.go:81, in `WriteToUDP`
  | dial (r : Message)              -- udp_socket.go:91-102
  | done (a : Option Message)       -- the end; what the handler had answered
deriving DecidableEq, Repr

/-- The goroutine for a message and the server that received it. -/
structure Replying where
  server : Nat
  msg : Message
  pc : ReplyPc
deriving DecidableEq, Repr

/-- Where something is sent from: the socket of a server, a new socket with a port of its own, or an
accepted connection. -/
inductive Source where
  | bound (server : Nat)
  | fresh
  | conn (c : Nat)
deriving DecidableEq, Repr

/-- Something sent. -/
structure Outgoing where
  source : Source
  to : Addr
  data : Bytes
deriving DecidableEq, Repr

/-- Where the goroutine of an accepted connection is: `handleUnicastTCPConnection`
(transport/unicast_server.go:139-158). -/
inductive ConnPc where
  | reading
  | writing (m r : Message)
  | done
deriving DecidableEq, Repr

/-- What a call of `MessageManager.Stop` (transport/message_manager.go:130-143), or the end of a call
of `Start` (118), has still to do. -/
inductive Instr where
  | takeM          -- `range mgr.Servers`, multicast_manager.go:89
  | takeU          -- `range mgr.Servers`, unicast_manager.go:118
  | halt (i : Nat)     -- `close(server.UDPChannel)`, unicast_server.go:90
  | close (i : Nat)    -- `conn := sock.Conn`, udp_socket.go:51-54
  | clear (i : Nat)    -- `sock.Conn = nil`, udp_socket.go:55
  | shut (i : Nat)     -- `conn.Close()`, udp_socket.go:57-58
  | haltTcp (i : Nat)  -- `close(server.TCPChannel)`, unicast_server.go:97
  | shutTcp (i : Nat)  -- `server.TCPSocket.Close()`, unicast_server.go:98
  | forgetM        -- `mgr.Servers = make(...)`, multicast_manager.go:96
  | forgetU        -- `mgr.Servers = make(...)`, unicast_manager.go:127
  | link (i j : Nat)   -- `SetUnicastServer`, multicast_manager.go:114
deriving DecidableEq, Repr

/-- The servers, the server lists of the two managers, the goroutines for messages and connections,
the calls, the messages given to the handler, everything sent, and whether the process has
crashed. -/
structure RunSt where
  servers : List Live
  mcast : List Nat
  ucast : List Nat
  replying : List Replying
  conns : List ConnPc
  calls : List (List Instr)
  seen : List Message
  sent : List Outgoing
  crashed : Bool
deriving DecidableEq, Repr

/-- What can happen next. -/
inductive RunAct where
  | arrive (i : Nat) (d : Datagram)   -- a datagram reaches the system socket of server `i`
  | loop (i : Nat)                    -- the receive goroutine of server `i` makes a step
  | reply (h : Nat)                   -- the goroutine for a message makes a step
  | accept (i : Nat)                  -- server `i` accepts a connection
  | request (c : Nat) (m : Message)   -- a complete message has arrived on connection `c`
  | answer (c : Nat)                  -- the answer is written to connection `c`
  | stop                              -- `Stop` is called
  | call (k : Nat)                    -- call `k` makes a step
deriving DecidableEq, Repr

/-- A unicast server `UnicastServer.Start` has started (transport/unicast_server.go:62-84). -/
def Live.unicast (i : Nat) (tcp : Bool) : Live :=
  ⟨.unicast, true, true, false, [], .select, some i, tcp, false, tcp⟩

/-- A multicast server `MulticastServer.Start` has started (transport/multicast_server.go:47-54); the
unicast server is not set yet (26-34). -/
def Live.multicast : Live := ⟨.multicast, true, true, false, [], .select, none, false, false, false⟩

namespace RunSt

/-- `MessageManager.Start` (transport/message_manager.go:101-127) has started a unicast server for each
of `tcps`, which says whether it has TCP, and a multicast server for each of `links`, which is the
unicast server it will reply through (`getAppropriateServerForInterface`). It has still to set
these (transport/multicast_manager.go:107-117). -/
def starting (tcps : List Bool) (links : List Nat) : RunSt where
  servers := tcps.mapIdx Live.unicast ++ links.map (fun _ => Live.multicast)
  ucast := List.range tcps.length
  mcast := (List.range links.length).map (tcps.length + ·)
  replying := []
  conns := []
  calls := [links.mapIdx (fun k j => .link (tcps.length + k) j)]
  seen := []
  sent := []
  crashed := false

def onServer (s : RunSt) (i : Nat) (f : Live → Live) : RunSt := { s with servers := s.servers.modify i f }

def setReplying (s : RunSt) (h : Nat) (x : Replying) : RunSt := { s with replying := s.replying.set h x }

/-- The field `Conn` of server `j` is not nil. -/
def hasConn (s : RunSt) (j : Nat) : Bool := ((s.servers[j]?).map (·.conn)).getD false

/-- The system socket of server `j` is open. -/
def hasOpen (s : RunSt) (j : Nat) : Bool := ((s.servers[j]?).map (·.isOpen)).getD false

/-- The receive goroutine leaves its loop: at once (transport/unicast_server.go:122), or closing its
socket first (transport/multicast_server.go:80). -/
def leave (v : Live) : Live :=
  match v.kind with
  | .unicast => { v with pc := .ended }
  | .multicast => { v with pc := .closing }

/-- The result of reading a datagram (transport/udp_socket.go:137-148, with the packet type of
transport/unicast_server.go:132 and multicast_server.go:90); the interface is left out. -/
def decode (k : ServerKind) (d : Datagram) : Option Message :=
  match Message.newWithBytes (d.data.take maxPacketSize) with
  | .ok m => some { m with src := d.peer, pktType := k.packetType }
  | _ => none

/-- A step of a receive goroutine; the message for which it starts a goroutine, if any. -/
def stepLoop (v : Live) : Live × Option Message :=
  match v.pc with
  | .select => (if v.kind = .unicast ∧ v.stopped = true then leave v else { v with pc := .check }, none)
  | .check => (if v.conn then { v with pc := .load } else leave v, none)
  | .load => ({ v with pc := .read v.conn }, none)
  | .read held =>
    if !held || !v.isOpen then (leave v, none)
    else
      match v.queue with
      | [] => (v, none)
      | d :: ds =>
        match decode v.kind d with
        | some m => ({ v with queue := ds, pc := .got m }, none)
        | none => (leave { v with queue := ds }, none)
  | .got m => ({ v with pc := .select }, some m)
  | .closing => ({ v with pc := if v.conn then .clearing else .ended }, none)
  | .clearing => ({ v with conn := false, pc := .shutting }, none)
  | .shutting => ({ v with isOpen := false, queue := [], pc := .ended }, none)
  | .ended => (v, none)

/-- A step of the goroutine for a message. -/
def stepReply (answer : List Message → Message → Option Message) (s : RunSt) (h : Nat) (x : Replying) : RunSt :=
  match x.pc with
  | .handle =>
    { s.setReplying h { x with pc := match answer s.seen x.msg with | none => .done none | some r => .via r } with
      seen := s.seen ++ [x.msg] }
  | .via r =>
    s.setReplying h { x with pc := match (s.servers[x.server]?).bind (·.via) with
      | none => .done (some r)
      | some j => .check j r }
  | .check j r => s.setReplying h { x with pc := if s.hasConn j then .load j r else .dial r }
  | .load j r => s.setReplying h { x with pc := if s.hasConn j then .write j r else .done (some r) }
  | .write j r =>
    if s.hasOpen j then
      { s.setReplying h { x with pc := .done (some r) } with sent := s.sent ++ [⟨.bound j, x.msg.src, r.bytes⟩] }
    else s.setReplying h { x with pc := .done (some r) }
  | .dial r => { s.setReplying h { x with pc := .done (some r) } with sent := s.sent ++ [⟨.fresh, x.msg.src, r.bytes⟩] }
  | .done _ => s

/-- One instruction of a call and what the call has to do then. -/
def exec (s : RunSt) (rest : List Instr) : Instr → RunSt × List Instr
  | .takeM => (s, s.mcast.map .close ++ rest)
  | .takeU =>
    (s, s.ucast.flatMap (fun i => [.halt i, .close i] ++
      if ((s.servers[i]?).map (·.tcp)).getD false then [.haltTcp i, .shutTcp i] else []) ++ rest)
  | .halt i =>
    if ((s.servers[i]?).map (·.stopped)).getD false then ({ s with crashed := true }, rest)
    else (s.onServer i (fun v => { v with stopped := true }), rest)
  | .close i => (s, if s.hasConn i then .clear i :: rest else rest)
  | .clear i => (s.onServer i (fun v => { v with conn := false }), .shut i :: rest)
  | .shut i => (s.onServer i (fun v => { v with isOpen := false, queue := [] }), rest)
  | .haltTcp i =>
    if ((s.servers[i]?).map (·.tcpStopped)).getD false then ({ s with crashed := true }, rest)
    else (s.onServer i (fun v => { v with tcpStopped := true }), rest)
  | .shutTcp i => (s.onServer i (fun v => { v with listening := false }), rest)
  | .forgetM => ({ s with mcast := [] }, rest)
  | .forgetU => ({ s with ucast := [] }, rest)
  | .link i j => (s.onServer i (fun v => { v with via := some j }), rest)

/-- The instructions of `MessageManager.Stop` (transport/message_manager.go:130-143). -/
def stopProgram : List Instr := [.takeM, .forgetM, .takeU, .forgetU]

/-- One step of the process. -/
def step (answer : List Message → Message → Option Message) (s : RunSt) : RunAct → RunSt
  | .arrive i d => if s.hasOpen i then s.onServer i (fun v => { v with queue := v.queue ++ [d] }) else s
  | .loop i =>
    match s.servers[i]? with
    | none => s
    | some v =>
      let (v', m) := stepLoop v
      { s with servers := s.servers.set i v',
               replying := match m with
                 | none => s.replying
                 | some m => s.replying ++ [⟨i, m, .handle⟩] }
  | .reply h =>
    match s.replying[h]? with
    | none => s
    | some x => stepReply answer s h x
  | .accept i =>
    if ((s.servers[i]?).map (·.listening)).getD false then { s with conns := s.conns ++ [.reading] } else s
  | .request c m =>
    match s.conns[c]? with
    | some .reading =>
      { s with seen := s.seen ++ [m],
               conns := s.conns.set c (match answer s.seen m with | none => .done | some r => .writing m r) }
    | _ => s
  | .answer c =>
    match s.conns[c]? with
    | some (.writing m r) =>
      { s with conns := s.conns.set c .done, sent := s.sent ++ [⟨.conn c, m.src, r.bytes⟩] }
    | _ => s
  | .stop => { s with calls := s.calls ++ [stopProgram] }
  | .call k =>
    match s.calls[k]? with
    | some (i :: rest) =>
      let (s', rest') := s.exec rest i
      { s' with calls := s'.calls.set k rest' }
    | _ => s

/-- A run of the process; after a crash nothing happens any more. -/
def run (answer : List Message → Message → Option Message) (s : RunSt) : List RunAct → RunSt
  | [] => s
  | a :: acts => if s.crashed then s else (s.step answer a).run answer acts

end RunSt

end Verif.Model
