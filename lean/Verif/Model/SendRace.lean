import Verif.Model.Shutdown

/-!
# Model of goroutines that send while the node runs and stops

Any number of calls of `LocalNode.SendMessage` and `AnnounceMessage` (local_node_msssage.go:26-33, 76-91), taken apart
into one step for each access to what they share with the calls of `Stop` and the goroutines of the node, whose model is
`Verif.Model.Shutdown`. The calls only read what that model holds.

Simplified, besides what is said there: an attempt over TCP is one step, and one that fails sends nothing; the destination is
fixed when the call is made (an announcement goes to the multicast address of the family of the server's address,
transport/udp_socket.go:113-124); the errors are not told apart; the servers were started, so that they have a port
other than 0 (transport/socket.go:69-74).
-/

namespace Verif.Model

/-- Where a call is. `rest`: the servers still to try. -/
inductive SendPc where
  | askU                              -- message_manager.go:147, from local_node_msssage.go:27, 77
  | askM                              -- message_manager.go:151
  | take                              -- `range mgr.Servers`, unicast_manager.go:157, 173
  | next (rest : List Nat)            -- before the next server
  | tcp (j : Nat) (rest : List Nat)   -- unicast_server.go:48
  | check (j : Nat) (rest : List Nat) -- udp_socket.go:80
  | load (j : Nat) (rest : List Nat)  -- udp_socket.go:81, `sock.Conn` is read again
  | write (j : Nat) (rest : List Nat) -- udp_socket.go:81, in `WriteToUDP`
  | dial (rest : List Nat)            -- udp_socket.go:91-102
  | returned (ok : Bool)              -- the end; whether without an error
deriving DecidableEq, Repr

/-- A call: whether it is `AnnounceMessage`, the destination, the bytes of the message, where it is. -/
structure Sending where
  announce : Bool
  to : Addr
  data : Bytes
  pc : SendPc
deriving DecidableEq, Repr

/-- How a message was sent: in a datagram from the socket of a server, in one from a new socket with a port of its own,
over a TCP connection. -/
inductive SendVia where
  | bound (server : Nat)
  | fresh
  | tcp
deriving DecidableEq, Repr

/-- A message that was sent, and the call that sent it. -/
structure Posted where
  call : Nat
  via : SendVia
  to : Addr
  data : Bytes
deriving DecidableEq, Repr

/-- The node, the calls and what they have sent. -/
structure SendSt where
  node : RunSt
  calls : List Sending
  out : List Posted

/-- What can happen next: something in the node; `SendMessage` or `AnnounceMessage` is called; call `h` makes a step, and
if it is one at which the system can fail, `ok` says whether it succeeds. -/
inductive SendAct where
  | node (a : RunAct)
  | send (announce : Bool) (to : Addr) (data : Bytes)
  | go (h : Nat) (ok : Bool)
deriving DecidableEq, Repr

namespace SendSt

/-- The node of `RunSt.starting`, without calls. -/
def starting (tcps : List Bool) (links : List Nat) : SendSt := ⟨RunSt.starting tcps links, [], []⟩

def goto (s : SendSt) (h : Nat) (x : Sending) (p : SendPc) : SendSt :=
  ⟨s.node, s.calls.set h ⟨x.announce, x.to, x.data, p⟩, s.out⟩

/-- The message is sent, and the call returns (transport/unicast_manager.go:159-161, 175-177). -/
def post (s : SendSt) (h : Nat) (x : Sending) (w : SendVia) : SendSt :=
  ⟨s.node, s.calls.set h ⟨x.announce, x.to, x.data, .returned true⟩, s.out ++ [⟨h, w, x.to, x.data⟩]⟩

/-- `TCPEnabled` of server `j` (transport/unicast_server.go:47). -/
def hasTcp (s : SendSt) (j : Nat) : Bool := ((s.node.servers[j]?).map (·.tcp)).getD false

/-- A step of call `h` (local_node_msssage.go:26-33, 76-91, transport/message_manager.go:146-156,
unicast_manager.go:155-184, unicast_server.go:46-59, udp_socket.go:72-105). -/
def stepCall (s : SendSt) (h : Nat) (x : Sending) (ok : Bool) : SendSt :=
  match x.pc with
  | .askU => s.goto h x (if s.node.ucast.length ≠ 0 then .askM else .returned false)
  | .askM => s.goto h x (if s.node.mcast.length ≠ 0 then .take else .returned false)
  | .take => s.goto h x (.next s.node.ucast)
  | .next [] => s.goto h x (.returned false)
  | .next (j :: rest) => s.goto h x (if !x.announce && s.hasTcp j then .tcp j rest else .check j rest)
  | .tcp j rest => if ok then s.post h x .tcp else s.goto h x (.check j rest)
  | .check j rest => s.goto h x (if s.node.hasConn j then .load j rest else .dial rest)
  | .load j rest => s.goto h x (if s.node.hasConn j then .write j rest else .next rest)
  | .write j rest => if s.node.hasOpen j && ok then s.post h x (.bound j) else s.goto h x (.next rest)
  | .dial rest => if ok then s.post h x .fresh else s.goto h x (.next rest)
  | .returned _ => s

/-- One step of the process. -/
def step (answer : List Message → Message → Option Message) (s : SendSt) : SendAct → SendSt
  | .node a => ⟨s.node.step answer a, s.calls, s.out⟩
  | .send announce to data => ⟨s.node, s.calls ++ [⟨announce, to, data, .askU⟩], s.out⟩
  | .go h ok =>
    match s.calls[h]? with
    | some x => s.stepCall h x ok
    | none => s

/-- A run of the process; after a crash nothing happens any more. -/
def run (answer : List Message → Message → Option Message) (s : SendSt) : List SendAct → SendSt
  | [] => s
  | a :: acts => if s.node.crashed then s else (s.step answer a).run answer acts

end SendSt
end Verif.Model
