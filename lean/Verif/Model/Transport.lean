import Verif.Model.Config
import Verif.Model.Interface

/-!
# Model of the transport managers

`transport/unicast_manager.go`, `transport/unicast_server.go`, `transport/multicast_manager.go`,
`transport/multicast_server.go`, `transport/message_manager.go` and the `Bind` and `Close` functions
of the sockets.

The operating system is a parameter. Every call of it has a time, and what it answers may depend on
that time. An error return is a value here (`Option Err`, `none` = no error), since the state
reached counts also then; `Res.panic` is a Go panic.

Not modelled: the windows variants, waiting times, the handlers (`Verif.Model.Receive`) and
everything concurrent but the end of a multicast loop between two calls (`TOp.mcastEnds`).
A socket object nothing refers to any more may also be closed by the garbage collector at any later
time; the model keeps it open.
-/

namespace Verif.Model

/-- What happens when a socket is opened and prepared:
`refused`: the address is not resolved or listening fails, no socket is open;
`noRaw`: the socket is open but `SyscallConn` fails;
`badOption`: the socket is open but setting one of the options fails. -/
inductive BindOutcome where
  | ok
  | refused
  | noRaw
  | badOption
deriving DecidableEq, Repr

/-- The operating system. `udp` and `tcp` are given time, address and port, `mcast` time and
interface; `closeErr t`: does the `Close` at time `t` report an error? -/
structure Os extends IfOs where
  udp : Nat → Str → Nat → BindOutcome
  tcp : Nat → Str → Nat → BindOutcome
  mcast : Nat → NetIf → BindOutcome
  closeErr : Nat → Bool

/-- The kind of a socket. -/
inductive Proto where
  | udp
  | tcp
  | mcast
deriving DecidableEq, Repr

/-- An open socket of the process: the time it was opened names it. -/
structure Sock where
  id : Nat
  proto : Proto
  addr : Str
  port : Nat
deriving DecidableEq, Repr

/-- The time, and the sockets that are open. -/
structure World where
  clock : Nat
  opened : List Sock
deriving DecidableEq, Repr

namespace World

/-- A call of the system that opens and closes nothing. -/
def tick (w : World) : World := { w with clock := w.clock + 1 }

/-- A socket is opened now. -/
def opening (w : World) (p : Proto) (addr : Str) (port : Nat) : Sock × World :=
  let s : Sock := ⟨w.clock, p, addr, port⟩
  (s, ⟨w.clock + 1, s :: w.opened⟩)

/-- A socket is closed: it is closed also if `Close` reports an error. -/
def close (os : Os) (w : World) (s : Sock) : Option Err × World :=
  (if os.closeErr w.clock then some .other else none,
   ⟨w.clock + 1, w.opened.filter (fun x => x.id ≠ s.id)⟩)

end World

/-- A Go channel as far as `close` is concerned. -/
inductive Chan where
  | nil
  | open
  | closed
deriving DecidableEq, Repr

/-- `close(ch)` panics for a nil or closed channel. -/
def Chan.close : Chan → Res Chan
  | .open => .ok .closed
  | _ => .panic

/-- `UnicastServer` (transport/unicast_server.go:15-24): `udp` and `tcp` are `UDPSocket.Conn` and
`TCPSocket.Listener`, `ifi`, `addr` and `port` the bound status of the UDP socket
(transport/socket.go:16-20), which is the same for the TCP socket. -/
structure UServer where
  tcpEnabled : Bool
  ifi : Option IfPtr
  addr : Str
  port : Nat
  udp : Option Sock
  tcp : Option Sock
  udpChan : Chan
  tcpChan : Chan
deriving DecidableEq, Repr

/-- `UnicastUDPSocket.Bind` (transport/unicast_udp_socket.go:30-61) of a new socket. Every failure
after the socket is open closes it again (the errors of these `Close` calls are ignored). -/
def udpBind (os : Os) (w : World) (addr : Str) (port : Nat) : Option Err × Option Sock × World :=
  match os.udp w.clock addr port with
  | .ok => let (s, w) := w.opening .udp addr port; (none, some s, w)
  | .refused => (some .other, none, w.tick)
  | .noRaw => let (s, w) := w.opening .udp addr port; (some .other, none, (w.close os s).2)
  | .badOption => let (s, w) := w.opening .udp addr port; (some .other, none, (w.close os s).2)

/-- `TCPSocket.Bind` (transport/tcp_socket.go:39-67) of a new socket. A failure after the socket is
open leaves it open. -/
def tcpBind (os : Os) (w : World) (addr : Str) (port : Nat) : Option Err × Option Sock × World :=
  match os.tcp w.clock addr port with
  | .ok => let (s, w) := w.opening .tcp addr port; (none, some s, w)
  | .refused => (some .other, none, w.tick)
  | .noRaw => let (s, w) := w.opening .tcp addr port; (some .other, some s, w)
  | .badOption => let (s, w) := w.opening .tcp addr port; (some .other, some s, w)

/-- `UDPSocket.Close` (transport/udp_socket.go:50-59). -/
def udpClose (os : Os) (w : World) (conn : Option Sock) : Option Err × Option Sock × World :=
  match conn with
  | none => (none, none, w)
  | some s => let (e, w) := w.close os s; (e, none, w)

/-- `TCPSocket.Close` (transport/tcp_socket.go:70-84): the listener is kept if it reports an error. -/
def tcpClose (os : Os) (w : World) (listener : Option Sock) : Option Err × Option Sock × World :=
  match listener with
  | none => (none, none, w)
  | some s =>
    match w.close os s with
    | (some e, w) => (some e, some s, w)
    | (none, w) => (none, none, w)

namespace UServer

/-- `NewUnicastServer` and `SetConfig` (transport/unicast_server.go:27-38, unicast_manager.go:51-52). -/
def new (tcpEnabled : Bool) : UServer := ⟨tcpEnabled, none, [], 0, none, none, .nil, .nil⟩

/-- `UnicastServer.Start` (transport/unicast_server.go:62-84). The bound status is set by
`UnicastUDPSocket.Bind` and again at the end. -/
def start (os : Os) (w : World) (server : UServer) (ifi : IfPtr) (addr : Str) (port : Nat) :
    Option Err × UServer × World :=
  match udpBind os w addr port with
  | (some e, c, w) =>
    let (_, l, w) := tcpClose os w server.tcp
    (some e, { server with udp := c, tcp := l }, w)
  | (none, c, w) =>
    let server := { server with
      udp := c, ifi := some ifi, addr := addr, port := port, udpChan := .open }
    if server.tcpEnabled then
      match tcpBind os w addr port with
      | (some e, l, w) => (some e, { server with tcp := l }, w)
      | (none, l, w) => (none, { server with tcp := l, tcpChan := .open }, w)
    else (none, server, w)

/-- `UnicastServer.Stop` (transport/unicast_server.go:87-105). -/
def stop (os : Os) (w : World) (server : UServer) : Res (Option Err × UServer × World) := do
  let uc ← server.udpChan.close
  let (e1, c, w) := udpClose os w server.udp
  let server := { server with udpChan := uc, udp := c }
  if server.tcpEnabled then do
    let tc ← server.tcpChan.close
    let (e2, l, w) := tcpClose os w server.tcp
    .ok (if e2.isSome then e2 else e1, { server with tcpChan := tc, tcp := l }, w)
  else .ok (e1, server, w)

end UServer

/-- `MulticastServer` (transport/multicast_server.go:15-22): `conn` is `MulticastSocket.Conn`, `ifi`
and `addr` the bound status. `unicast` is the server replies are sent through, as it was when it was
chosen. -/
structure MServer where
  ifi : IfPtr
  addr : Str
  conn : Option Sock
  unicast : Option UServer
deriving DecidableEq, Repr

/-- The multicast address for an interface address (transport/multicast_socket.go:34-41). -/
def multicastIPv4Address : Str := ['2', '2', '4', '.', '0', '.', '2', '3', '.', '0']
def multicastIPv6Address : Str := ['f', 'f', '0', '2', ':', ':', '1']

/-- `Port` (transport/const.go:12). -/
def echonetPort : Nat := 3610

/-- `MulticastSocket.Bind` (transport/multicast_socket.go:28-67) of a new socket, with `Listen`
(transport/multicast_socket_listen.go:16-28). When setting an option fails the socket stays open. -/
def mcastBind (os : Os) (w : World) (ifi : IfPtr) (addr : Str) : Option Err × Option Sock × World :=
  if isIPv4Address addr || isIPv6Address addr then
    let maddr := if isIPv4Address addr then multicastIPv4Address else multicastIPv6Address
    match os.mcast w.clock ifi.nif with
    | .ok => let (s, w) := w.opening .mcast maddr echonetPort; (none, some s, w)
    | .refused => (some .other, none, w.tick)
    | .noRaw => let (s, w) := w.opening .mcast maddr echonetPort; (some .other, none, (w.close os s).2)
    | .badOption => let (s, w) := w.opening .mcast maddr echonetPort; (some .other, some s, w)
  else (some .invalid, none, w)

/-- The transport of a node: `MessageManager` (transport/message_manager.go:12-17) with its two
managers (transport/unicast_manager.go:15-21, transport/multicast_manager.go:14-17) and the system.
Ports are natural numbers: negative ones are not modelled. -/
structure Transport where
  config : TransportConfig
  port : Nat
  uservers : List UServer
  mservers : List MServer
  world : World
deriving DecidableEq, Repr

namespace Transport

/-- `NewMessageManager` (transport/message_manager.go:20-28). -/
def new (clock : Nat) : Transport := ⟨.default, echonetPort, [], [], ⟨clock, []⟩⟩

/-! ## Unicast manager -/

/-- `UnicastManager.StartWithInterfaceAndPort` (transport/unicast_manager.go:50-59). -/
def startUnicastAt (os : Os) (s : Transport) (ifi : IfPtr) (addr : Str) (port : Nat) :
    Option Err × Transport :=
  match (UServer.new s.config.unicast.tcpEnabled).start os s.world ifi addr port with
  | (some e, _, w) => (some e, { s with world := w })
  | (none, server, w) => (none, { s with uservers := s.uservers ++ [server], world := w })

/-- The loop over the addresses of an interface (transport/unicast_manager.go:92-97). -/
def bindAddrs (os : Os) (ifi : IfPtr) (port : Nat) : List Str → Option Err → Transport → Option Err × Transport
  | [], lastErr, s => (lastErr, s)
  | addr :: addrs, _, s =>
    match s.startUnicastAt os ifi addr port with
    | (some e, s) => (some e, s)
    | (none, s) => bindAddrs os ifi port addrs none s

/-- The loop over the interfaces (transport/unicast_manager.go:87-98). -/
def bindIfs (os : Os) (port : Nat) : List IfPtr → Option Err → Transport → Option Err × Transport
  | [], lastErr, s => (lastErr, s)
  | ifi :: ifis, lastErr, s =>
    match getInterfaceAddresses (os.addrs s.world.clock ifi.nif) with
    | .ok addrs =>
      let (lastErr, s) := bindAddrs os ifi port addrs lastErr { s with world := s.world.tick }
      bindIfs os port ifis lastErr s
    | _ => bindIfs os port ifis lastErr { s with world := s.world.tick }

/-- The loop of the retries (transport/unicast_manager.go:86-105): `n` retries remain after this
attempt. -/
def bindRetry (os : Os) (port : Nat) (ifis : List IfPtr) : Nat → Option Err → Transport → Option Err × Transport
  | 0, lastErr, s => bindIfs os port ifis lastErr s
  | n + 1, lastErr, s =>
    match bindIfs os port ifis lastErr s with
    | (none, s) => (none, s)
    | (some e, s) => bindRetry os port ifis n (some e) s

/-- The loop over the ports (transport/unicast_manager.go:80-110): `n` ports remain after `port`. -/
def bindPorts (os : Os) (ifis : List IfPtr) (retries : Nat) :
    (n port : Nat) → Option Err → Transport → Option Err × Transport
  | 0, port, lastErr, s =>
    match bindRetry os port ifis retries lastErr s with
    | (none, s) => (none, { s with port := port })
    | (some e, s) => (some e, s)
  | n + 1, port, lastErr, s =>
    match bindRetry os port ifis retries lastErr s with
    | (none, s) => (none, { s with port := port })
    | (some e, s) => bindPorts os ifis retries n (port + 1) (some e) s

/-- The loop of `UnicastManager.Stop` (transport/unicast_manager.go:118-126). -/
def stopUServers (os : Os) : List UServer → Option Err → World → Res (Option Err × World)
  | [], lastErr, w => .ok (lastErr, w)
  | server :: servers, lastErr, w => do
    let (e, _, w) ← server.stop os w
    stopUServers os servers (if e.isSome then e else lastErr) w

/-- `UnicastManager.Stop` (transport/unicast_manager.go:116-129). -/
def stopUnicast (os : Os) (s : Transport) : Res (Option Err × Transport) := do
  let (e, w) ← stopUServers os s.uservers none s.world
  .ok (e, { s with uservers := [], world := w })

/-- The time after `GetAvailableInterfaces`: one call for the list and one for each interface that
gets so far (the others need no time in the code; here all do). -/
def afterInterfaces (os : Os) (w : World) : World :=
  match os.interfaces w.clock with
  | none => w.tick
  | some is => { w with clock := w.clock + 1 + is.length }

/-- `UDPPortRange` (transport/const.go:22). -/
def udpPortRange : Nat := 100

/-- `UnicastManager.Start` (transport/unicast_manager.go:62-113). -/
def startUnicast (os : Os) (s : Transport) : Res (Option Err × Transport) := do
  let (e, s) ← s.stopUnicast os
  match e with
  | some e => .ok (some e, s)
  | none =>
    match getAvailableInterfaces os.toIfOs s.world.clock with
    | .ok ifis =>
      let s := { s with world := afterInterfaces os s.world }
      let auto := s.config.autoPortBindingEnabled
      .ok (bindPorts os ifis (if auto then 0 else s.config.unicast.bindRetryCount.toNat)
        (if auto then udpPortRange else 0) s.port none s)
    | .err e => .ok (some e, { s with world := afterInterfaces os s.world })
    | .panic => .panic

/-! ## Multicast manager -/

/-- The loop of `MulticastManager.Stop` (transport/multicast_manager.go:89-94) with
`MulticastServer.Stop` (transport/multicast_server.go:57-62). -/
def stopMServers (os : Os) : List MServer → Option Err → World → Option Err × World
  | [], lastErr, w => (lastErr, w)
  | server :: servers, lastErr, w =>
    let (e, _, w) := udpClose os w server.conn
    stopMServers os servers (if e.isSome then e else lastErr) w

/-- `MulticastManager.Stop` (transport/multicast_manager.go:86-99). -/
def stopMulticast (os : Os) (s : Transport) : Option Err × Transport :=
  let (e, w) := stopMServers os s.mservers none s.world
  (e, { s with mservers := [], world := w })

/-- `MulticastManager.StartWithInterface` (transport/multicast_manager.go:46-54) with
`MulticastServer.Start` (transport/multicast_server.go:47-54). -/
def startMulticastAt (os : Os) (s : Transport) (ifi : IfPtr) (addr : Str) : Option Err × Transport :=
  match mcastBind os s.world ifi addr with
  | (some e, _, w) => (some e, { s with world := w })
  | (none, c, w) => (none, { s with mservers := s.mservers ++ [⟨ifi, addr, c, none⟩], world := w })

/-- The loop over the addresses (transport/multicast_manager.go:73-79). -/
def joinAddrs (os : Os) (ifi : IfPtr) : List Str → Transport → Option Err × Transport
  | [], s => (none, s)
  | addr :: addrs, s =>
    match s.startMulticastAt os ifi addr with
    | (some e, s) => (some e, (s.stopMulticast os).2)
    | (none, s) => joinAddrs os ifi addrs s

/-- The loop over the interfaces (transport/multicast_manager.go:68-80). -/
def joinIfs (os : Os) : List IfPtr → Transport → Option Err × Transport
  | [], s => (none, s)
  | ifi :: ifis, s =>
    match getInterfaceAddresses (os.addrs s.world.clock ifi.nif) with
    | .ok addrs =>
      match joinAddrs os ifi addrs { s with world := s.world.tick } with
      | (some e, s) => (some e, s)
      | (none, s) => joinIfs os ifis s
    | _ => joinIfs os ifis { s with world := s.world.tick }

/-- `MulticastManager.Start` (transport/multicast_manager.go:57-83). -/
def startMulticast (os : Os) (s : Transport) : Option Err × Transport :=
  match s.stopMulticast os with
  | (some e, s) => (some e, s)
  | (none, s) =>
    match getAvailableInterfaces os.toIfOs s.world.clock with
    | .ok ifis => joinIfs os ifis { s with world := afterInterfaces os s.world }
    | .err e => (some e, { s with world := afterInterfaces os s.world })
    | .panic => (none, s) -- not reached: `C64_selected`

/-- `getAppropriateServerForInterface` (transport/unicast_manager.go:132-147). Interfaces are
compared as pointers. -/
def appropriateServer (servers : List UServer) (ifi : IfPtr) : Option UServer :=
  match servers with
  | [] => none
  | first :: _ =>
    match servers.find? (fun server => server.ifi = some ifi) with
    | some server => some server
    | none => some first

/-- `setUnicastManager` (transport/multicast_manager.go:107-117). -/
def setUnicastManager (os : Os) (s : Transport) : Option Err × Transport :=
  match s.mservers, s.uservers with
  | [], _ => (none, s)
  | _ :: _, [] => (some .notRunning, (s.stopMulticast os).2)
  | ms, us => (none, { s with mservers := ms.map (fun m => { m with unicast := appropriateServer us m.ifi }) })

/-! ## Message manager -/

/-- `MessageManager.Stop` (transport/message_manager.go:130-143). -/
def stop (os : Os) (s : Transport) : Res (Option Err × Transport) := do
  let (e1, s) := s.stopMulticast os
  let (e2, s) ← s.stopUnicast os
  .ok (if e2.isSome then e2 else e1, s)

/-- `MessageManager.Start` (transport/message_manager.go:101-127). `mgr.SetPort` at the end sets the
port to itself. -/
def start (os : Os) (s : Transport) : Res (Option Err × Transport) := do
  let (e, s) ← s.stop os
  match e with
  | some e => .ok (some e, s)
  | none =>
    let (e, s) ← s.startUnicast os
    match e with
    | some e => .ok (some e, s)
    | none =>
      match s.startMulticast os with
      | (some e, s) => do
        let (_, s) ← s.stop os
        .ok (some e, s)
      | (none, s) =>
        match s.setUnicastManager os with
        | (some e, s) => do
          let (_, s) ← s.stop os
          .ok (some e, s)
        | (none, s) => .ok (none, { s with port := s.port })

/-- `MessageManager.IsRunning` (transport/message_manager.go:146-156). -/
def isRunning (s : Transport) : Bool :=
  if s.uservers.length = 0 then false
  else if s.mservers.length = 0 then false
  else true

/-- `SetPort` (transport/message_manager.go:64-66). -/
def setPort (s : Transport) (port : Nat) : Transport := { s with port := port }

/-- `SetConfig` (transport/message_manager.go:54-56). -/
def setConfig (s : Transport) (c : TransportConfig) : Transport := { s with config := s.config.setConfig c }

/-- The loop of the multicast server at position `i` ends and closes its socket
(transport/multicast_server.go:79-95). -/
def mcastEnds (os : Os) (s : Transport) (i : Nat) : Transport :=
  match s.mservers[i]? with
  | none => s
  | some m =>
    let (_, c, w) := udpClose os s.world m.conn
    { s with mservers := s.mservers.set i { m with conn := c }, world := w }

/-- What happens to a transport. -/
inductive Op where
  | start
  | stop
  | setPort (port : Nat)
  | setConfig (c : TransportConfig)
  | mcastEnds (i : Nat)
deriving DecidableEq, Repr

def step (os : Os) (s : Transport) : Op → Res Transport
  | .start => do let (_, s) ← s.start os; .ok s
  | .stop => do let (_, s) ← s.stop os; .ok s
  | .setPort p => .ok (s.setPort p)
  | .setConfig c => .ok (s.setConfig c)
  | .mcastEnds i => .ok (s.mcastEnds os i)

def run (os : Os) (s : Transport) : List Op → Res Transport
  | [] => .ok s
  | op :: ops => do let s ← s.step os op; run os s ops

/-! ## Sending -/

/-- One attempt to send: through the socket of which server, and how. -/
structure Attempt where
  server : UServer
  proto : Proto
deriving DecidableEq, Repr

/-- Outcome of the attempts at sending, by their number: the number of bytes written, or an error.
`TCPSocket.SendMessage` (transport/tcp_socket.go:120-126) fails before it dials when its socket is
not bound (lines 187-190): this is part of `serverSend`. -/
abbrev SendOs := Nat → Attempt → Nat ⊕ Err

/-- `UnicastServer.SendMessage` (transport/unicast_server.go:46-54): the result, and the attempts
made, given how many were made before. -/
def serverSend (out : SendOs) (k : Nat) (server : UServer) : (Nat ⊕ Err) × List Attempt :=
  if server.tcpEnabled then
    if server.port ≠ 0 then
      match out k ⟨server, .tcp⟩ with
      | .inl n => (.inl n, [⟨server, .tcp⟩])
      | .inr _ => (out (k + 1) ⟨server, .udp⟩, [⟨server, .tcp⟩, ⟨server, .udp⟩])
    else (out k ⟨server, .udp⟩, [⟨server, .udp⟩])
  else (out k ⟨server, .udp⟩, [⟨server, .udp⟩])

/-- The loop of `UnicastManager.SendMessage` (transport/unicast_manager.go:157-163). -/
def sendFrom (out : SendOs) : Nat → Option Err → List UServer → (Nat ⊕ Err) × List Attempt
  | _, lastErr, [] => (.inr (lastErr.getD .notRunning), [])
  | k, _, server :: servers =>
    match serverSend out k server with
    | (.inl n, as) => (.inl n, as)
    | (.inr e, as) =>
      let (r, bs) := sendFrom out (k + as.length) (some e) servers
      (r, as ++ bs)

/-- `MessageManager.SendMessage` (transport/message_manager.go:86-88, unicast_manager.go:155-168). -/
def sendMessage (out : SendOs) (s : Transport) : (Nat ⊕ Err) × List Attempt := sendFrom out 0 none s.uservers

/-- `UnicastServer.AnnounceMessage` with `UDPSocket.AnnounceMessage` (transport/unicast_server.go:57-59,
transport/udp_socket.go:113-124): it fails without sending when the socket is not bound, that is, when
its port is 0. -/
def serverAnnounce (out : SendOs) (k : Nat) (server : UServer) : (Nat ⊕ Err) × List Attempt :=
  if server.port = 0 then (.inr .invalid, [])
  else (out k ⟨server, .udp⟩, [⟨server, .udp⟩])

/-- The loop of `UnicastManager.AnnounceMessage` (transport/unicast_manager.go:173-179). -/
def announceFrom (out : SendOs) : Nat → Option Err → List UServer → Option Err × List Attempt
  | _, lastErr, [] => (some (lastErr.getD .notRunning), [])
  | k, _, server :: servers =>
    match serverAnnounce out k server with
    | (.inl _, as) => (none, as)
    | (.inr e, as) =>
      let (r, bs) := announceFrom out (k + as.length) (some e) servers
      (r, as ++ bs)

/-- `MessageManager.AnnounceMessage` (transport/message_manager.go:91-93, unicast_manager.go:171-184). -/
def announceMessage (out : SendOs) (s : Transport) : Option Err × List Attempt :=
  announceFrom out 0 none s.uservers

/-- `localNode.Announce` (local_node_msssage.go:45-59) down to `AnnounceMessage` (lines 26-33): the
node must be running. The node profile and its instance list property, which a local node always has
(C29), are not looked up here. -/
def announce (out : SendOs) (s : Transport) : Option Err × List Attempt :=
  if s.isRunning = false then (some .invalid, []) else s.announceMessage out

/-- `localNode.Start` (local_node.go:195-207), with the attempts at announcing the node. -/
def nodeStart (os : Os) (out : SendOs) (s : Transport) : Res (Option Err × Transport × List Attempt) := do
  let (e, s) ← s.start os
  match e with
  | some e => .ok (some e, s, [])
  | none =>
    let (e, made) := s.announce out
    .ok (e, s, made)

end Transport
end Verif.Model
