import Verif.Model.Object

/-!
# Model of `net/echonet/database.go`, `manufacturer.go` and of the functions of
`database_mra_objects.go`

The tables themselves are in the generated modules `DatabaseMra` and `DatabaseManufacturers`.
-/

namespace Verif.Model

/-- The rule strings occurring in `database_mra_objects.go`: "required", "optional",
"notApplicable", "required_c", "required_o". -/
inductive Rule where
  | required | optional | notApplicable | requiredC | requiredO
deriving DecidableEq, Repr

/-- Arguments of a call of `newStandardProperty` (database_mra_objects.go:15). The data type and
size are left out: the function ignores them. -/
structure RawProp where
  code : Byte
  name : String
  getRule : Rule
  setRule : Rule
  annoRule : Rule
deriving Repr

/-- One block of `initObjects`: a `newStandardObject` call, the `AddProperty` calls, and
`addObject`. -/
structure RawObj where
  clsName : String
  grpCode : Byte
  clsCode : Byte
  props : List RawProp
deriving Repr

/-- `strAttrToPropertyAttr` (database_mra_objects.go:16-24). -/
def strAttrToPropertyAttr : Rule → Attr
  | .required => .required
  | .optional => .optional
  | _ => .prohibited

/-- `newStandardProperty` (database_mra_objects.go:15-33). -/
def newStandardProperty (r : RawProp) : EProp :=
  EProp.make r.code r.name [] (strAttrToPropertyAttr r.getRule) (strAttrToPropertyAttr r.setRule)
    (strAttrToPropertyAttr r.annoRule)

/-- `newStandardObject` (database_mra_objects.go:7-13). -/
def newStandardObject (clsName : String) (grpCode clsCode : Byte) : Obj :=
  ((Obj.new.setClassName clsName).setClassGroupCode grpCode).setClassCode clsCode

/-- One block of `initObjects`. -/
def RawObj.build (r : RawObj) : Obj :=
  r.props.foldl (fun o p => o.addProperty (newStandardProperty p))
    (newStandardObject r.clsName r.grpCode r.clsCode)

/-- `stdDatabase` (database.go:29-32), the objects: a map from codes to objects. -/
structure StdDB where
  objects : List (ObjectCode × Obj)

namespace StdDB

/-- `stdDatabase.addObject` (database.go:73-75): assignment to the map. -/
def addObject (db : StdDB) (o : Obj) : StdDB :=
  ⟨(o.code, o) :: db.objects.filter (fun e => e.1 ≠ o.code)⟩

/-- `stdDatabase.LookupObject` (database.go:78-81). -/
def lookupObject (db : StdDB) (c : ObjectCode) : Option Obj :=
  (db.objects.find? (fun e => e.1 == (c &&& 0xFFFF00))).map (·.2)

/-- `initObjects` (database_mra_objects.go:36-1249) on a table. -/
def init (t : List RawObj) : StdDB := t.foldl (fun db r => db.addObject r.build) ⟨[]⟩

/-- `stdDatabase.SuperObject` (database.go:84-87); `nil` is `none`. -/
def superObject (db : StdDB) : Option Obj := db.lookupObject 0x000000

/-- `stdDatabase.NodeProfile` (database.go:90-93). -/
def nodeProfile (db : StdDB) : Option Obj := db.lookupObject 0x0EF000

end StdDB

/-- `manufacture` (manufacturer.go:20-23). `ManufactureCode` is an `int`. -/
structure Manufacture where
  code : Nat
  name : String
deriving Repr

/-- `stdDatabase.LookupManufacture` (database.go:68-71) over the map built by `initManufactures`
(`addManufacture`, database.go:45-47: the last registration of a code wins). -/
def lookupManufacture (t : List Manufacture) (c : Nat) : Option Manufacture :=
  t.reverse.find? (fun m => m.code == c)

end Verif.Model
