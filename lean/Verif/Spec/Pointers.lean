import Verif.Model.Pointers

/-! # What pointers to objects show, and which programs keep them apart -/

namespace Verif.Spec
open Verif Model

/-- What the object at an address shows to a reader: its names and code, and the properties its map points to. -/
def shows (m : Mem) (o : Nat) : Obj :=
  { clsName := (m.obj o).clsName, name := (m.obj o).name, codes := (m.obj o).codes,
    props := (m.obj o).map.map (fun e => (m.prop e.2).prop) }

/-- What the standard database shows. -/
def showsDB (m : Mem) : StdDB := ⟨m.db.map (fun e => (e.1, shows m e.2))⟩

/-- The program made the object itself; it is not one of the standard database. -/
def Mine (m : Mem) (o : Nat) : Prop := o < m.nobjs ∧ ∀ e ∈ m.db, e.2 ≠ o

/-- Careful calls: on objects of the program, `AddProperty` only with a property that was never added to an object,
no `SetCode`, no `SetObject` to another object and no change of name or attributes of a property after it was added, no change of a property of the
database. Data may be set and cleared through pointers to properties at any time. -/
def Careful (m : Mem) : MemOp → Prop
  | .newSuper => True
  | .newProperty _ => True
  | .call o _ => Mine m o
  | .add o r => Mine m o ∧ r < m.nprops ∧ (m.prop r).parent = none
  | .setData r _ => ∀ x, (m.prop r).parent = some x → Mine m x
  | .clear r => ∀ x, (m.prop r).parent = some x → Mine m x
  | .announce r => ∀ x, (m.prop r).parent = some x → Mine m x
  | .bareAdd o r => Mine m o ∧ r < m.nprops ∧ (m.prop r).parent = none
  | .setObject r o => (m.prop r).parent = some o
  | .setCode r _ => (m.prop r).parent = none
  | .setName r _ => (m.prop r).parent = none
  | .setAttrs r _ _ _ => (m.prop r).parent = none

/-- As `Careful`, but names and attributes of properties may be changed after they were added. -/
def Tidy (m : Mem) : MemOp → Prop
  | .setName r _ => ∀ x, (m.prop r).parent = some x → Mine m x
  | .setAttrs r _ _ _ => ∀ x, (m.prop r).parent = some x → Mine m x
  | op => Careful m op

/-- The memory after some calls. -/
def after (m : Mem) (ops : List MemOp) : Mem := ops.foldl (fun m op => (op.run m).1) m

/-- Each call satisfies a condition in the memory in which it is made. -/
def Always (P : Mem → MemOp → Prop) : Mem → List MemOp → Prop
  | _, [] => True
  | m, op :: ops => P m op ∧ Always P (op.run m).1 ops

/-- The property `LookupProperty` finds. -/
def finds (m : Mem) (o : Nat) (c : Byte) : Option EProp := (m.look o c).map (fun r => (m.prop r).prop)

/-- The object that has a property: `LookupProperty` of its code gives the property. -/
def holder (m : Mem) (r : Nat) : Option Nat :=
  match (m.prop r).parent with
  | none => none
  | some o => if m.look o (m.prop r).prop.code = some r then some o else none

/-- The object a call is meant for, with the method of the object that does the same. -/
def aim (m : Mem) : MemOp → Option (Nat × ObjOp)
  | .call o op => some (o, op)
  | .add o r => some (o, .add (m.prop r).prop)
  | .setData r d => (holder m r).map (fun o => (o, .write (m.prop r).prop.code d))
  | .clear r => (holder m r).map (fun o => (o, .clear (m.prop r).prop.code))
  | .announce r => (holder m r).map (fun o => (o, .announce (m.prop r).prop.code))
  | .bareAdd o r => some (o, .bareAdd (m.prop r).prop)
  | _ => none

/-- Of some calls, those meant for one object. -/
def aimedAt (o : Nat) : Mem → List MemOp → List ObjOp
  | _, [] => []
  | m, op :: ops =>
    match aim m op with
    | some (x, q) => if x = o then q :: aimedAt o (op.run m).1 ops else aimedAt o (op.run m).1 ops
    | none => aimedAt o (op.run m).1 ops

end Verif.Spec
