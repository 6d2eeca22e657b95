import Verif.Model.StdDatabase

/-!
# Model of the listings of the standard database (`net/echonet/database.go`)

Go does not say in what order a map is gone through, so a listing is a relation: every order can be the result.
-/

namespace Verif.Model

/-- `stdDatabase.Objects` (database.go:59-65): the values of the map, in any order. -/
def StdDB.Objects (db : StdDB) (l : List Obj) : Prop := l.Perm (db.objects.map (·.2))

/-- `stdDatabase.addManufacture` (database.go:45-47): assignment to the map. -/
def addManufacture (t : List (Nat × Manufacture)) (m : Manufacture) : List (Nat × Manufacture) :=
  (m.code, m) :: t.filter (fun e => e.1 ≠ m.code)

/-- `initManufactures` (database_manufacturers.go:8-245) on a table. -/
def initManufactures (t : List Manufacture) : List (Nat × Manufacture) := t.foldl addManufacture []

/-- `stdDatabase.Manufactures` (database.go:50-56): the values of the map, in any order. -/
def Manufactures (t : List (Nat × Manufacture)) (l : List Manufacture) : Prop := l.Perm (t.map (·.2))

end Verif.Model
