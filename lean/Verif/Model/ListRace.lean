import Verif.Model.Controller
import Verif.Model.ListMem

/-!
# Model of concurrent message handlers adding nodes to a shared array

As `Verif.Model.ControllerRace`, without its simplification of `append`: the list of nodes is a Go slice, and `append`
writes the new element into the array of the slice it has read when there is room (controller_message_listener.go:93).
The program may call `Nodes` (controller.go:85-87) and `Clear` (controller.go:146-149, also called by `Start`) at any
time. A step is one access to the field `foundNodes` or to an array; memory is sequentially consistent, a node
is read and written in one step, and looking a node up and copying an array take one step each. Calls of the listener
are left out.
-/

namespace Verif.Model

/-- Where a handler adding the node `n` is (controller_message_listener.go:88-100). -/
inductive FindPc where
  | check (n : RemoteNode)             -- before line 89 loads `foundNodes` and looks the node up
  | load (n : RemoteNode)              -- before line 93 loads `foundNodes`
  | put (n : RemoteNode) (v : View)    -- before line 93 writes the node into the array of `v` or a new one
  | store (v : View)                   -- before line 93 stores `foundNodes`
  | done
deriving DecidableEq, Repr

/-- The arrays, the field `foundNodes`, the handlers, and the lists the program got from `Nodes`. -/
structure FindSt where
  cells : Cells RemoteNode
  field : View
  pcs : List FindPc
  held : List View
deriving DecidableEq, Repr

/-- What happens. -/
inductive FindAct where
  | arrive (n : RemoteNode)  -- a handler starts for a message that makes `n` known
  | handler (i : Nat)        -- a handler takes a step
  | nodes                    -- the program calls `Nodes`
  | clear                    -- the program calls `Clear` or `Start`
deriving DecidableEq, Repr

namespace FindSt

/-- `newController` (controller.go:66-77): an empty list. -/
def init : FindSt := ⟨[[]], ⟨0, 0, 0, 0⟩, [], []⟩

/-- One step of a handler. -/
def handle (room : Nat → Nat → Nat) (s : FindSt) (i : Nat) : FindSt :=
  match s.pcs[i]? with
  | some (.check n) =>
    if (s.cells.shows s.field).any (fun x => x.any n.equals) then { s with pcs := s.pcs.set i .done }
    else { s with pcs := s.pcs.set i (.load n) }
  | some (.load n) => { s with pcs := s.pcs.set i (.put n s.field) }
  | some (.put n v) =>
    let (c, w) := s.cells.append room v n
    { s with cells := c, pcs := s.pcs.set i (.store w) }
  | some (.store v) => { s with field := v, pcs := s.pcs.set i .done }
  | _ => s

/-- A step. -/
def step (room : Nat → Nat → Nat) (s : FindSt) : FindAct → FindSt
  | .arrive n => { s with pcs := s.pcs ++ [.check n] }
  | .handler i => s.handle room i
  | .nodes => { s with held := s.held ++ [s.field] }
  | .clear =>
    let (c, v) := s.cells.make [] 0
    { s with cells := c, field := v }

/-- A schedule. -/
def run (room : Nat → Nat → Nat) (s : FindSt) (acts : List FindAct) : FindSt := acts.foldl (step room) s

/-- What `Nodes` would return. -/
def found (s : FindSt) : List (Option RemoteNode) := s.cells.shows s.field

/-- The elements of list `v` that the program got from `Nodes`. -/
def got (s : FindSt) (v : Nat) : Option (List (Option RemoteNode)) := (s.held[v]?).map s.cells.shows

end FindSt
end Verif.Model
