import Verif.Model.SuperObject

/-!
# Classes made by options, and kinds of profiles (class.go, profile.go, node_profile.go)
-/

namespace Verif.Model
open Verif

/-- `ClassOption` (class.go:39-61): the three options there are. -/
inductive ClassOption where
  /-- `WithClassBytes(codes)` (class.go:39-45) -/
  | bytes (codes : Bytes)
  /-- `WithClassCode(code)` (class.go:48-53) -/
  | code (c : Byte)
  /-- `WithClassGroupCode(code)` (class.go:56-61) -/
  | group (c : Byte)
deriving DecidableEq, Repr

namespace Cls

/-- `newClass` (class.go:74-78): two zero bytes. -/
def new : Cls := ⟨0, 0⟩

/-- One option applied to a class (class.go:39-61). `WithClassBytes` reads `codes[0]` and `codes[1]`
without looking at the length, so it panics when there are fewer. -/
def applyOption (c : Cls) : ClassOption → Res Cls
  | .bytes cs => do
    let g ← rd cs 0
    let k ← rd cs 1
    .ok ⟨g, k⟩
  | .code k => .ok { c with code := k &&& 0xFF }
  | .group g => .ok { c with group := g &&& 0xFF }

/-- The loop of `NewClass` (class.go:66-70). -/
def applyOptions (c : Cls) : List ClassOption → Res Cls
  | [] => .ok c
  | o :: os => do (← c.applyOption o).applyOptions os

/-- `NewClass` (class.go:64-72). -/
def newWith (os : List ClassOption) : Res Cls := new.applyOptions os

/-- The class after its user assigned `b` to element `i` of the slice `Bytes()` returned
(class.go:101-103): the slice is the one the class keeps. An index out of range panics in the code of
the user. -/
def writeBytes (c : Cls) (i : Nat) (b : Byte) : Res Cls :=
  match c.bytes.set i b with
  | [g, k] => if i < 2 then .ok ⟨g, k⟩ else .panic
  | _ => .panic

end Cls

namespace Obj

/-- `profile.IsNodeProfile` (profile.go:69-71). -/
def isNodeProfile (o : Obj) : Bool := isNodeProfileObjectCode o.code

/-- `nodeProfile.IsReadOnly` (node_profile.go:99-101). -/
def isReadOnly (o : Obj) : Bool := o.code == nodeProfileObjectReadOnlyCode

end Obj
end Verif.Model
