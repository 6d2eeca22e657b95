import Verif.Model.Cmd

/-!
# Model of the arguments of `examples/uechopost`

Searching the node and the object is a parameter; what is printed is left out.
-/

namespace Verif.Model
namespace PostTool

/-- `strconv.ParseUint(s, 16, bits)`. The Go function stops at the first number out of range, after which
no digit leads back into the range; both errors are the same here. -/
def parseUint (bits : Nat) (s : Str) : Option Nat :=
  if s = [] then none
  else
    match s.foldl (fun acc c => acc.bind (fun n => (fromHexChar c).map (fun v => 16 * n + v))) (some 0) with
    | some n => if n < 2 ^ bits then some n else none
    | none => none

/-- One argument for a property (examples/uechopost/uechopost.go:137-155). -/
def property (arg : Str) : Option PProp :=
  match hexDecode arg with
  | none => none
  | some bytes =>
    match bytes with
    | [] => none
    | [_] => none
    | c :: data => some ⟨c, data⟩

/-- The arguments after the program name; there have to be four at least
(examples/uechopost/uechopost.go:83-88). -/
structure Args where
  address : Str
  obj : Str
  esv : Str
  props : List Str

/-- The request made from the arguments (examples/uechopost/uechopost.go:83-161), none if the program
stops with a message before. `found` says whether the node at the address was found and has the
object. `NewMessage` applies the options in order (message.go:72-78). -/
def request (found : Str → ObjectCode → Bool) (a : Args) : Option Message :=
  if a.props = [] then none
  else do
    let obj ← parseUint 32 a.obj
    let code : ObjectCode := BitVec.ofNat 64 obj
    if !found a.address code then none
    else
      let e ← parseUint 8 a.esv
      let esv : ESV := BitVec.ofNat 8 e
      if !esv.isValid then none
      else
        let props ← a.props.mapM property
        some (((Message.new.setDEOJ code).setESV esv).addProperties (props.map some))

end PostTool
end Verif.Model
