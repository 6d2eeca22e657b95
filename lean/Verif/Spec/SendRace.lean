import Verif.Model.SendRace
import Verif.Spec.Shutdown

/-! # What the property about sending while a node stops (C173) speaks of -/

namespace Verif.Spec

open Verif.Model

/-- What call `h` has sent. -/
def postedBy (s : SendSt) (h : Nat) : List Posted := s.out.filter (fun p => p.call == h)

/-- `Stop` is called in a schedule. -/
def StopCalled (acts : List SendAct) : Prop := .node .stop ∈ acts

/-- The calls made in a schedule: whether it is an announcement, the destination, the bytes. -/
def asked (acts : List SendAct) : List (Bool × Addr × Bytes) :=
  acts.filterMap fun | .send announce to data => some (announce, to, data) | _ => none

/-- How many steps call `h` makes in a schedule. -/
def turnsOf (h : Nat) (acts : List SendAct) : Nat :=
  acts.countP fun | .go h' _ => h' == h | _ => false

end Verif.Spec
