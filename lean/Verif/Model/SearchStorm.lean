import Verif.Model.ControllerRace

/-!
# Model of a controller whose listener searches when a node is found (`net/echonet/controller_message_listener.go`)

`controller.addNode` calls `ControllerNewNodeFound` of the user's listener (lines 95-97), which here calls
`SearchAllObjects` (controller.go:107-109), as a program does that wants to know every node around a new one. Every
node of the network answers a search, and each answer is handled by a goroutine of its own
(transport/unicast_server.go:134, transport/multicast_server.go:92). The handlers are those of
`Verif.Model.ControllerRace`, with its simplifications. A message that is lost or late is a handler that takes no step.
The listener searches in the same step in which the node is stored. The network does not change, and a node answers
with one message. `Search` (controller.go:125-144) sends the same message and then waits; the waiting is left out.
-/

namespace Verif.Model

/-- The controller, with a handler for each message, and the number of searches the listener has made. -/
structure Storm where
  st : AddSt
  searches : Nat
deriving DecidableEq, Repr

namespace Storm

/-- A controller that knows `found`, when messages making `ns` known arrive. -/
def init (found ns : List RemoteNode) : Storm := ⟨AddSt.init found ns, 0⟩

/-- One step of handler `i` (controller_message_listener.go:88-100) in a network of the nodes `net`: after the node is
stored the listener searches, and each node answers. -/
def step (net : List RemoteNode) (s : Storm) (i : Nat) : Storm :=
  match s.st.pcs[i]? with
  | some (.store _ _) => ⟨⟨(s.st.step i).found, (s.st.step i).pcs ++ net.map .check⟩, s.searches + 1⟩
  | _ => ⟨s.st.step i, s.searches⟩

/-- A schedule: the handlers that take a step, in order. -/
def run (net : List RemoteNode) (s : Storm) : List Nat → Storm
  | [] => s
  | i :: is => run net (s.step net i) is

end Storm
end Verif.Model
