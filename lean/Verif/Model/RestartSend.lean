import Verif.Model.StartRace
import Verif.Model.SendRace

/-!
# Model of goroutines that send while others start and stop the node

Any number of calls of `LocalNode.SendMessage` (local_node_msssage.go:76-91), taken apart into one step for each access
to what they share with the calls of `Start` and `Stop` of `Verif.Model.StartRace`. They take no lock. The range loop
keeps the slice it began with, and reads each element when it comes to it.

`AnnounceMessage` (local_node_msssage.go:26-33) takes the same steps (unicast_manager.go:171-185, udp_socket.go:113-124): it
is a call whose destination is the multicast address. Its look at the address of the socket always succeeds, as `Close` of
a UDP socket leaves it marked as bound (udp_socket.go:50-59, socket.go:48-50), and the address is an IPv4 one (C180).

Simplified, besides what is said there (TCP is disabled): whether the multicast manager has servers is left open; the
errors are not told apart.
-/

namespace Verif.Model

/-- Where a call is. `v`: the list of servers it goes through, `k`: the next index, `x`: the server it is at. -/
inductive RePc where
  | askU                                 -- message_manager.go:147, from local_node_msssage.go:77
  | askM                                 -- message_manager.go:151
  | take                                 -- `range mgr.Servers`, unicast_manager.go:157
  | next (v : View) (k : Nat)            -- before the next server
  | check (x : Nat) (v : View) (k : Nat) -- udp_socket.go:80
  | load (x : Nat) (v : View) (k : Nat)  -- udp_socket.go:81, `sock.Conn` is read again
  | write (x : Nat) (v : View) (k : Nat) -- udp_socket.go:81, in `WriteToUDP`
  | dial (v : View) (k : Nat)            -- udp_socket.go:91-102
  | returned (ok : Bool)                 -- the end; whether without an error
deriving DecidableEq, Repr

/-- A call: the destination, the bytes of the message, where it is. -/
structure ReCall where
  to : Addr
  data : Bytes
  pc : RePc
deriving DecidableEq, Repr

/-- The unicast manager with the goroutines that start and stop it, the calls and what they have sent. -/
structure ReSt where
  man : ManSt
  calls : List ReCall
  out : List Posted

/-- What can happen next: goroutine `i`, which starts and stops, makes a step; `SendMessage` is called; call `c` makes a
step, and if it is one that can fail, `ok` says whether it succeeds. -/
inductive ReAct where
  | man (i : Nat)
  | send (to : Addr) (data : Bytes)
  | go (c : Nat) (ok : Bool)
deriving DecidableEq, Repr

namespace ReSt

/-- A node that was not started (`NewUnicastManager`, transport/unicast_manager.go:24-32), goroutines that will start and
stop it, and no calls. -/
def new (port : Nat) (calls : List (List ManCall)) : ReSt := ⟨ManSt.new port calls, [], []⟩

/-- The socket of a server is open, `sock.Conn` is set (transport/udp_socket.go:80). -/
def hasConn (s : ReSt) (x : Nat) : Bool := ((s.man.made[x]?).map (·.isOpen)).getD false

/-- A call goes on. -/
def goto (s : ReSt) (c : Nat) (x : ReCall) (p : RePc) : ReSt := ⟨s.man, s.calls.set c ⟨x.to, x.data, p⟩, s.out⟩

/-- The message is sent, and the call returns (transport/unicast_manager.go:159-161). -/
def post (s : ReSt) (c : Nat) (x : ReCall) (w : SendVia) : ReSt :=
  ⟨s.man, s.calls.set c ⟨x.to, x.data, .returned true⟩, s.out ++ [⟨c, w, x.to, x.data⟩]⟩

/-- A nil pointer is used: the process ends. -/
def panic (s : ReSt) : ReSt :=
  ⟨⟨s.man.cells, s.man.field, s.man.made, s.man.port, s.man.callers, true⟩, s.calls, s.out⟩

/-- A step of call `c` (local_node_msssage.go:76-91, transport/message_manager.go:146-156, unicast_manager.go:155-168,
unicast_server.go:46-54, udp_socket.go:72-105). -/
def stepCall (s : ReSt) (c : Nat) (x : ReCall) (ok : Bool) : ReSt :=
  match x.pc with
  | .askU => s.goto c x (if s.man.field.len ≠ 0 then .askM else .returned false)
  | .askM => s.goto c x (if ok then .take else .returned false)
  | .take => s.goto c x (.next s.man.field 0)
  | .next v k =>
    match (s.man.cells.shows v)[k]? with
    | none => s.goto c x (.returned false)
    | some none => s.panic
    | some (some y) => s.goto c x (.check y v (k + 1))
  | .check y v k => s.goto c x (if s.hasConn y then .load y v k else .dial v k)
  | .load y v k => s.goto c x (if s.hasConn y then .write y v k else .next v k)
  | .write y v k => if s.hasConn y && ok then s.post c x (.bound y) else s.goto c x (.next v k)
  | .dial v k => if ok then s.post c x .fresh else s.goto c x (.next v k)
  | .returned _ => s

/-- One step of the process. -/
def step (h : ManHost) (room : Nat → Nat → Nat) (s : ReSt) : ReAct → ReSt
  | .man i => ⟨s.man.step h room i, s.calls, s.out⟩
  | .send to data => ⟨s.man, s.calls ++ [⟨to, data, .askU⟩], s.out⟩
  | .go c ok =>
    match s.calls[c]? with
    | some x => s.stepCall c x ok
    | none => s

/-- A run of the process; after a panic nothing happens any more. -/
def run (h : ManHost) (room : Nat → Nat → Nat) (s : ReSt) : List ReAct → ReSt
  | [] => s
  | a :: acts => if s.man.crashed then s else (s.step h room a).run h room acts

end ReSt
end Verif.Model
