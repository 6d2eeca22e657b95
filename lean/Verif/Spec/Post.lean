import Verif.Model.Post

/-!
# What is said about posts

The stages of a post and of a handler, as far as the properties speak about them.
-/

namespace Verif.Spec
open Verif Model

/-- The post holds the lock: it is between taking and releasing it. -/
def Pending : PostPc → Prop
  | .start | .lock | .done _ => False
  | _ => True

instance (pc : PostPc) : Decidable (Pending pc) := by cases pc <;> simp only [Pending] <;> infer_instance

/-- The result of a post, once it is known. -/
def result : PostPc → Option PostRes
  | .close r | .clearCh r | .clearReq r | .unlock r | .done r => some r
  | _ => none

/-- The handler is in the middle of handing its message to a post: it has begun and not ended. -/
def Busy : HandPc → Prop
  | .req1 | .past => False
  | _ => True

instance (pc : HandPc) : Decidable (Busy pc) := by cases pc <;> simp only [Busy] <;> infer_instance

/-- The handler has begun to compare its message with a request, and not ended. -/
def Compared : HandPc → Prop
  | .tid | .req3 | .ch3 | .load | .sending _ => True
  | _ => False

instance (pc : HandPc) : Decidable (Compared pc) := by
  cases pc <;> simp only [Compared] <;> infer_instance

/-- The post is giving up its channel and its request. -/
def Closing : PostPc → Prop
  | .close _ | .clearCh _ | .clearReq _ => True
  | _ => False

instance (pc : PostPc) : Decidable (Closing pc) := by cases pc <;> simp only [Closing] <;> infer_instance

/-- The post has closed its channel, and has not yet given up its request. -/
def HalfClosed : PostPc → Prop
  | .clearCh _ | .clearReq _ => True
  | _ => False

instance (pc : PostPc) : Decidable (HalfClosed pc) := by
  cases pc <;> simp only [HalfClosed] <;> infer_instance

/-- No message is in the middle of being handed over while a post ends: neither does a post end
while a handler is busy, nor does a handler take a step while a post ends. -/
def Calm (s : PostSt) : PostAct → Prop
  | .own i => ∀ p ∈ s.posters[i]?, Closing p.pc → ∀ x ∈ s.handlers, ¬ Busy x.pc
  | .handler _ => ∀ p ∈ s.posters, ¬ HalfClosed p.pc
  | _ => True

instance (s : PostSt) (a : PostAct) : Decidable (Calm s a) := by
  cases a <;> simp only [Calm] <;> infer_instance

/-- Every step of the schedule is calm. -/
def CalmRun (s : PostSt) : List PostAct → Prop
  | [] => True
  | a :: as => Calm s a ∧ CalmRun (s.step a) as

instance decidableCalmRun : (s : PostSt) → (as : List PostAct) → Decidable (CalmRun s as)
  | _, [] => .isTrue trivial
  | s, a :: as =>
    have := decidableCalmRun (s.step a) as
    inferInstanceAs (Decidable (_ ∧ _))

end Verif.Spec
