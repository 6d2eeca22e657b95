import Verif.Spec.Wire

/-!
# What a decoder that never rejects a truncated property section yields

`lenientProps k bs` reads `k` properties from `bs`. Missing bytes leave defaults
(code 0, no data); when fewer data bytes remain than PDC announces, the property gets
no data and reading goes on *right after PDC*.
-/

namespace Verif.Spec

def lenientProps : Nat → Bytes → List WireProp
  | 0, _ => []
  | k + 1, [] => ⟨0, []⟩ :: lenientProps k []
  | k + 1, [c] => ⟨c, []⟩ :: lenientProps k []
  | k + 1, c :: l :: rest =>
    if rest.length < l.toNat then ⟨c, []⟩ :: lenientProps k rest
    else ⟨c, rest.take l.toNat⟩ :: lenientProps k (rest.drop l.toNat)

/-- The bytes hold `k` complete properties (possibly followed by other bytes). -/
def complete : Nat → Bytes → Prop
  | 0, _ => True
  | _ + 1, [] => False
  | _ + 1, [_] => False
  | k + 1, _ :: l :: rest => l.toNat ≤ rest.length ∧ complete k (rest.drop l.toNat)

end Verif.Spec
