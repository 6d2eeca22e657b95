import Verif.Model.RestartSend

/-!
# What a schedule of sends, starts and stops asks for
-/

namespace Verif.Spec

open Verif.Model

/-- The messages a schedule asks to send, and where to. -/
def sendsIn (acts : List ReAct) : List (Addr × Bytes) :=
  acts.filterMap fun | .send to data => some (to, data) | _ => none

/-- How many steps call `c` makes in a schedule. -/
def turnsIn (c : Nat) (acts : List ReAct) : Nat :=
  acts.countP fun | .go c' _ => c' == c | _ => false

/-- The steps of `Start` and `Stop` in a schedule. -/
def startsIn (acts : List ReAct) : List Nat :=
  acts.filterMap fun | .man i => some i | _ => none

/-- What call `c` has sent. -/
def sentByCall (s : ReSt) (c : Nat) : List Posted := s.out.filter (fun p => p.call == c)

end Verif.Spec
