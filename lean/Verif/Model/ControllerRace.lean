import Verif.Model.Controller

/-!
# Model of concurrent message handlers adding nodes

The transport handles each message in its own goroutine (transport/unicast_server.go:134,
multicast_server.go:92), so several `controller.addNode` (controller_message_listener.go:88-100)
run at the same time, without a lock. A step is one access to the shared field `foundNodes`.
Simplifications: memory is sequentially consistent, and `append` makes a new list (in Go it may
write the new element into the shared array: `Verif.Model.ListRace`). Calls of the listener are left out.
-/

namespace Verif.Model

/-- Where a handler adding the node `n` is. -/
inductive AddPc where
  | check (n : RemoteNode)                                -- before line 89 loads `foundNodes`
  | append (n : RemoteNode)                               -- before line 93 loads `foundNodes`
  | store (n : RemoteNode) (loaded : List RemoteNode)     -- before line 93 stores `foundNodes`
  | done
deriving DecidableEq, Repr

/-- The field `foundNodes` and the handlers. -/
structure AddSt where
  found : List RemoteNode
  pcs : List AddPc
deriving DecidableEq, Repr

namespace AddSt

/-- The handlers of messages making `ns` known start. -/
def init (found ns : List RemoteNode) : AddSt := ⟨found, ns.map .check⟩

/-- One step of `controller.addNode` (controller_message_listener.go:88-100) in handler `i`. -/
def step (s : AddSt) (i : Nat) : AddSt :=
  match s.pcs[i]? with
  | some (.check n) =>
    if s.found.any n.equals then { s with pcs := s.pcs.set i .done }   -- line 89-91
    else { s with pcs := s.pcs.set i (.append n) }
  | some (.append n) => { s with pcs := s.pcs.set i (.store n s.found) }  -- line 93, reading
  | some (.store n l) => { found := l ++ [n], pcs := s.pcs.set i .done }  -- line 93, writing
  | _ => s

/-- A schedule: the handlers that take a step, in order. -/
def run (s : AddSt) : List Nat → AddSt
  | [] => s
  | i :: is => run (s.step i) is

end AddSt
end Verif.Model
