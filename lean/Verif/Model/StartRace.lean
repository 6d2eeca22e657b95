import Verif.Model.ListMem

/-!
# Model of goroutines that start and stop a unicast manager

`UnicastManager.Start` and `Stop` (transport/unicast_manager.go:62-129) take no lock, and neither do
`MessageManager.Start` and `Stop` (transport/message_manager.go:98-138), which call them, or `LocalNode.Start` and `Stop`
(local_node.go:195-216). `Verif.Model.Transport` makes each call one step; here they are taken apart, so that several
calls come in between each other. Servers are pointers, and the list of servers is a Go slice (`Verif.Model.ListMem`).

Simplified: memory is sequentially consistent; starting one server and stopping one are one step each; TCP is
disabled (C60 is about what a failed bind of TCP leaves); the interfaces and their addresses do not change and there is
at least one; closing a socket succeeds; what the calls return is left out. A socket cannot be bound to an address and
port at which another one is open, as on Linux: `SetReuseAddr` comes after the bind
(transport/unicast_udp_socket.go:41-52).
-/

namespace Verif.Model

/-- The calls. -/
inductive ManCall where
  | start
  | stop
deriving DecidableEq, Repr

/-- What is fixed: the addresses of the interfaces, the addresses and ports other programs use, the number of further
attempts (`BindRetryCount`, or 0 with automatic port binding) and of further ports (transport/unicast_manager.go:74-85). -/
structure ManHost where
  addrs : List (List String)
  taken : String → Nat → Bool
  retries : Nat
  ports : Nat

/-- Where `Start` is in its loops (transport/unicast_manager.go:80-110): the addresses still to do, by interface;
`lastErr` is set; how many further attempts and ports there are; the port. -/
structure Trying where
  rest : List (List String)
  err : Bool
  more : Nat
  ports : Nat
  port : Nat
deriving DecidableEq, Repr

/-- Where a goroutine is. `calls` are the calls it will make after the current one; `go`: the `Stop` is the one at the
beginning of `Start`. -/
inductive ManPc where
  | idle (calls : List ManCall)                              -- between calls
  | stopping (v : View) (k : Nat) (go : Bool) (calls : List ManCall)   -- unicast_manager.go:118-126, before server `k`
  | reset (go : Bool) (calls : List ManCall)                 -- before unicast_manager.go:127
  | bind (t : Trying) (calls : List ManCall)                -- unicast_manager.go:80-110, before an address
  | load (x : Nat) (t : Trying) (calls : List ManCall)      -- before unicast_manager.go:57
  | put (x : Nat) (v : View) (t : Trying) (calls : List ManCall)      -- unicast_manager.go:57 has loaded the list
  | store (v : View) (t : Trying) (calls : List ManCall)    -- unicast_manager.go:57, before storing the list
deriving DecidableEq, Repr

/-- A server that was started: its address and port, and whether its socket is open. -/
structure ManServer where
  addr : String
  port : Nat
  isOpen : Bool
deriving DecidableEq, Repr

/-- The arrays of server pointers and the list `Servers` (transport/unicast_manager.go:15-21), all servers ever
started, the port of the manager, the goroutines, and whether one of them panicked. -/
structure ManSt where
  cells : Cells Nat
  field : View
  made : List ManServer
  port : Nat
  callers : List ManPc
  crashed : Bool

namespace ManSt

/-- A manager that was not started (`NewUnicastManager`, transport/unicast_manager.go:24-32), and goroutines that
will make the given calls. -/
def new (port : Nat) (calls : List (List ManCall)) : ManSt :=
  ⟨[[]], ⟨0, 0, 0, 0⟩, [], port, calls.map .idle, false⟩

/-- The servers of the manager. -/
def listed (s : ManSt) : List Nat := (s.cells.shows s.field).filterMap id

/-- A goroutine goes on. -/
def goto (s : ManSt) (i : Nat) (p : ManPc) : ManSt := ⟨s.cells, s.field, s.made, s.port, s.callers.set i p, s.crashed⟩

/-- A socket can be bound (transport/unicast_udp_socket.go:41). -/
def canBind (h : ManHost) (s : ManSt) (a : String) (p : Nat) : Bool :=
  !h.taken a p && !s.made.any (fun x => x.isOpen && x.addr == a && x.port == p)

/-- `UnicastServer.Stop` (transport/unicast_server.go:85-104): the second one panics, as it closes a closed channel. -/
def stopServer (s : ManSt) (x : Nat) : ManSt :=
  match s.made[x]? with
  | some y =>
    if y.isOpen then ⟨s.cells, s.field, s.made.set x ⟨y.addr, y.port, false⟩, s.port, s.callers, s.crashed⟩
    else ⟨s.cells, s.field, s.made, s.port, s.callers, true⟩
  | none => s

/-- The next step of goroutine `i`, which is at `p` (transport/unicast_manager.go:49-129). -/
def act (h : ManHost) (room : Nat → Nat → Nat) (s : ManSt) (i : Nat) : ManPc → ManSt
  | .idle [] => s
  | .idle (.start :: calls) => s.goto i (.stopping s.field 0 true calls)
  | .idle (.stop :: calls) => s.goto i (.stopping s.field 0 false calls)
  | .stopping v k go calls =>
    match (s.cells.shows v)[k]? with
    | none => s.goto i (.reset go calls)
    | some none => s.goto i (.stopping v (k + 1) go calls)
    | some (some x) => (s.stopServer x).goto i (.stopping v (k + 1) go calls)
  | .reset go calls =>
    let (c, v) := s.cells.make [] 0
    ⟨c, v, s.made, s.port,
      s.callers.set i (if go then .bind ⟨h.addrs, false, h.retries, h.ports, s.port⟩ calls else .idle calls), s.crashed⟩
  | .bind t calls =>
    match t.rest with
    | [] =>
      if !t.err then ⟨s.cells, s.field, s.made, t.port, s.callers.set i (.idle calls), s.crashed⟩
      else if 0 < t.more then s.goto i (.bind ⟨h.addrs, true, t.more - 1, t.ports, t.port⟩ calls)
      else if 0 < t.ports then s.goto i (.bind ⟨h.addrs, true, h.retries, t.ports - 1, t.port + 1⟩ calls)
      else s.goto i (.idle calls)
    | [] :: rest => s.goto i (.bind ⟨rest, t.err, t.more, t.ports, t.port⟩ calls)
    | (a :: as) :: rest =>
      if s.canBind h a t.port then
        ⟨s.cells, s.field, s.made ++ [⟨a, t.port, true⟩], s.port,
          s.callers.set i (.load s.made.length ⟨as :: rest, false, t.more, t.ports, t.port⟩ calls), s.crashed⟩
      else s.goto i (.bind ⟨rest, true, t.more, t.ports, t.port⟩ calls)
  | .load x t calls => s.goto i (.put x s.field t calls)
  | .put x v t calls =>
    ⟨(s.cells.append room v x).1, s.field, s.made, s.port,
      s.callers.set i (.store (s.cells.append room v x).2 t calls), s.crashed⟩
  | .store v t calls => ⟨s.cells, v, s.made, s.port, s.callers.set i (.bind t calls), s.crashed⟩

/-- One step of goroutine `i`; after a panic nothing happens. -/
def step (h : ManHost) (room : Nat → Nat → Nat) (s : ManSt) (i : Nat) : ManSt :=
  if s.crashed then s
  else
    match s.callers[i]? with
    | some p => s.act h room i p
    | none => s

/-- A schedule. -/
def run (h : ManHost) (room : Nat → Nat → Nat) (s : ManSt) (is : List Nat) : ManSt := is.foldl (step h room) s

end ManSt
end Verif.Model
