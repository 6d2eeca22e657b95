import Verif.Model.ListMem

/-!
# Lists of the library and of the program
-/

namespace Verif.Spec
open Verif Model

variable {α : Type}

/-- The program writes and appends only to lists that were made for it. -/
def MindsOne (s : ListMem α) : ListOp α → Prop
  | .write v _ _ => ∀ l, s.held[v]? = some l → l.mine = true
  | .push v _ => ∀ l, s.held[v]? = some l → l.mine = true
  | _ => True

/-- The same for a history. -/
def Minds (room : Nat → Nat → Nat) : ListMem α → List (ListOp α) → Prop
  | _, [] => True
  | s, op :: ops => MindsOne s op ∧ Minds room (s.step room op) ops

/-- What a step does to the lists of the library, as values. -/
def listed (ls : List (List α)) : ListOp α → List (List α)
  | .new => ls ++ [[]]
  | .add i x => ls.modify i (· ++ [x])
  | .clear i => ls.modify i (fun _ => [])
  | _ => ls

/-- What the lists of the library hold: what was added since they were made or cleared. -/
def contents (ops : List (ListOp α)) : List (List α) := ops.foldl listed []

/-- A step of the library, not one of the program with a list it holds. -/
def OfLibrary : ListOp α → Prop
  | .sub _ _ _ => False
  | .write _ _ _ => False
  | .push _ _ => False
  | _ => True

end Verif.Spec
