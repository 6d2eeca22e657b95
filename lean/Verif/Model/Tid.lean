import Verif.Model.Node

/-!
# Model of concurrent calls of `NextTID`

`localNode.NextTID` (local_node.go:169-176) is called by announcements, sends and posts, from any
goroutine and without a lock. A step is one access to the field `lastTID`. Simplification: memory is
sequentially consistent.
-/

namespace Verif.Model

/-- Where a call is. -/
inductive TidPc where
  | check                -- before line 170 reads
  | reset                -- before line 171 writes
  | read                 -- before line 173 reads
  | write (v : GoUint)   -- before line 173 writes
  | load                 -- before line 175 reads
  | done (v : GoUint)    -- returned `v`
deriving DecidableEq, Repr

/-- The field and the calls. -/
structure TidSt where
  lastTID : GoUint
  calls : List TidPc
deriving DecidableEq, Repr

namespace TidSt

/-- One step of `NextTID` (local_node.go:169-176) in call `i`. -/
def step (s : TidSt) (i : Nat) : TidSt :=
  match s.calls[i]? with
  | some .check => { s with calls := s.calls.set i (if tidMax ≤ s.lastTID then .reset else .read) }
  | some .reset => { lastTID := tidMin, calls := s.calls.set i .load }
  | some .read => { s with calls := s.calls.set i (.write (s.lastTID + 1)) }
  | some (.write v) => { lastTID := v, calls := s.calls.set i .load }
  | some .load => { s with calls := s.calls.set i (.done s.lastTID) }
  | _ => s

/-- A schedule. -/
def run (s : TidSt) : List Nat → TidSt
  | [] => s
  | i :: is => run (s.step i) is

end TidSt
end Verif.Model
