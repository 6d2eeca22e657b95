import Verif.Model.Shutdown

/-! # What the properties about stopping a node speak of -/

namespace Verif.Spec

open Verif.Model

/-- Every call that was made, of `Start` and of `Stop`, has returned. -/
def Returned (s : RunSt) : Prop := ∀ p ∈ s.calls, p = []

/-- The message which the receive goroutine of server `i` has read and not handed over yet. -/
def inHand (s : RunSt) (i : Nat) : Option Message :=
  match (s.servers[i]?).map Live.pc with
  | some (LoopPc.got m) => some m
  | _ => none

/-- `Stop` is only called when every call before has returned. -/
def OneAtATime (answer : List Message → Message → Option Message) : RunSt → List RunAct → Prop
  | _, [] => True
  | s, a :: acts => (a = .stop → Returned s) ∧ OneAtATime answer (s.step answer a) acts

end Verif.Spec
