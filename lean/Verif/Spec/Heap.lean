import Verif.Model.Heap

/-! What the sharing properties are stated with. -/

namespace Verif.Spec
open Verif Model

/-- The operation leaves the properties in `P` and the message `M` to themselves: it does not set their
code, their data or their header, does not add a property to the message, and does not hand out the slice of
their data. Every other operation is allowed: writing to slices obtained earlier, using the same slice for
other properties, decoding, receiving, and so on. -/
def Avoids (P : Nat → Prop) (M : Option Nat) : Heap.HOp → Prop
  | .setCode p _ | .setData p _ | .getData p => ¬ P p
  | .setTID m _ | .setSEOJ m _ | .setDEOJ m _ | .setESV m _ | .setOPC m _ | .addProp m _ => M ≠ some m
  | _ => True

end Verif.Spec
