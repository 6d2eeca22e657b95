import Verif.Spec.Object

/-!
# Model of objects, properties and the standard database as Go holds them: by pointers

The other modules treat a property as a part of its object. In Go the map of an object holds pointers to properties,
each property has a pointer back to an object, and the program can hold pointers to both; the standard database is
made of objects of the same kind. Here properties and objects are cells of a memory. Data of a property are a value
(`Verif.Model.Heap` has their arrays); objects are super objects, devices and profiles, those of the database plain.
-/

namespace Verif.Model
open Verif.Spec

/-- `property` (property.go:114-122) with its pointer `parentObject`. -/
structure PCell where
  prop : EProp
  parent : Option Nat

/-- `object` (object.go:102-111); the map of properties (property_map.go:22-25) holds pointers under codes, each code
at most once. -/
structure OCell where
  clsName : String
  name : String
  codes : Bytes
  map : List (Byte × Nat)

/-- The memory: properties and objects by address, the next free addresses, and the map of the standard database
(database.go:29-32). -/
structure Mem where
  prop : Nat → PCell
  obj : Nat → OCell
  nprops : Nat
  nobjs : Nat
  db : List (ObjectCode × Nat)

namespace Mem

/-- Before anything is made. -/
def empty : Mem :=
  { prop := fun _ => ⟨EProp.new, none⟩, obj := fun _ => ⟨"", "", List.replicate objectCodeSize 0, []⟩,
    nprops := 0, nobjs := 0, db := [] }

/-- A change of a property. -/
def onProp (m : Mem) (r : Nat) (f : PCell → PCell) : Mem :=
  { m with prop := fun x => if x = r then f (m.prop x) else m.prop x }

/-- A change of an object. -/
def onObj (m : Mem) (o : Nat) (f : OCell → OCell) : Mem :=
  { m with obj := fun x => if x = o then f (m.obj x) else m.obj x }

/-- `NewProperty` with options (property.go:174-193), `property.Copy` (property.go:491-501): a new cell. -/
def alloc (m : Mem) (p : EProp) : Mem × Nat :=
  ({ m with prop := fun x => if x = m.nprops then ⟨p, none⟩ else m.prop x, nprops := m.nprops + 1 }, m.nprops)

/-- `newObject` (object.go:113-127): a new cell. -/
def newObject (m : Mem) : Mem × Nat :=
  ({ m with obj := fun x => if x = m.nobjs then ⟨"", "", List.replicate objectCodeSize 0, []⟩ else m.obj x,
            nobjs := m.nobjs + 1 }, m.nobjs)

/-- `propertyMap.LookupProperty` (property_map.go:86-89): a pointer. -/
def look (m : Mem) (o : Nat) (c : Byte) : Option Nat := ((m.obj o).map.find? (fun e => e.1 == c)).map (·.2)

/-- Assignment to a Go map. -/
def assign (l : List (Byte × Nat)) (c : Byte) (r : Nat) : List (Byte × Nat) :=
  if l.any (fun e => e.1 == c) then l.map (fun e => if e.1 = c then (c, r) else e) else l ++ [(c, r)]

/-- `propertyMap.AddProperty` (property_map.go:51-54). -/
def addProperty (m : Mem) (o r : Nat) : Mem :=
  (m.onObj o (fun x => { x with map := assign x.map (m.prop r).prop.code r })).onProp r
    (fun x => { x with parent := some o })

/-- `object.Code` (object.go:160-162). -/
def code (m : Mem) (o : Nat) : ObjectCode := byteToInteger 64 (m.obj o).codes

/-- `property.SetData` (property.go:369-380) with `Announce` (property.go:461-472): the announcement names the object
the property points to (local_node_msssage.go:36-42). -/
def setData (m : Mem) (r : Nat) (d : Bytes) : Mem × List Ann :=
  let m' := m.onProp r (fun x => { x with prop := x.prop.setData d })
  (m', if (m.prop r).prop.isAnnounceable then
      match (m.prop r).parent with
      | none => []
      | some o => [⟨m.code o, (m'.prop r).prop.toProtocol⟩]
    else [])

/-- `property.Announce` (property.go:461-472), called by the program: the announcement names the object the property
points to. -/
def announce (m : Mem) (r : Nat) : List Ann :=
  match (m.prop r).parent with
  | none => []
  | some o => [⟨m.code o, (m.prop r).prop.toProtocol⟩]

/-- `propertyMap.SetPropertyData` (property_map.go:109-116). -/
def setPropertyData (m : Mem) (o : Nat) (c : Byte) (d : Bytes) : Mem × List Ann × Option Err :=
  match m.look o c with
  | none => (m, [], some .notFound)
  | some r => ((m.setData r d).1, (m.setData r d).2, none)

/-- `propertyMap.Properties` (property_map.go:64-83): pointers, sorted by the codes of the map. -/
def properties (m : Mem) (o : Nat) : List Nat :=
  (sortCodes ((m.obj o).map.map (·.1))).filterMap (fun c => m.look o c)

/-- `superObject.setPropertyMapProperty` (super_object.go:106-136). -/
def setPropertyMapProperty (m : Mem) (o : Nat) (mapCode : Byte) (codes : List Byte) : Mem × List Ann × Option Err :=
  if !(m.look o mapCode).isSome then (m, [], some .notFound)
  else m.setPropertyData o mapCode (mapData codes)

/-- The codes collected by `updatePropertyMap` (super_object.go:149-160). -/
def codesWith (m : Mem) (o : Nat) (f : EProp → Bool) : List Byte :=
  ((m.properties o).filter (fun r => f (m.prop r).prop)).map (fun r => (m.prop r).prop.code)

/-- `superObject.updatePropertyMap` (super_object.go:139-170). -/
def updatePropertyMap (m : Mem) (o : Nat) : Mem × List Ann :=
  let g := m.codesWith o (·.isReadable)
  let s := m.codesWith o (·.isWritable)
  let a := m.codesWith o (·.isAnnounceable)
  let (m1, a1, _) := m.setPropertyMapProperty o objectGetPropertyMap g
  let (m2, a2, _) := m1.setPropertyMapProperty o objectSetPropertyMap s
  let (m3, a3, _) := m2.setPropertyMapProperty o objectAnnoPropertyMap a
  (m3, a1 ++ a2 ++ a3)

/-- `superObject.AddProperty` (super_object.go:100-103). -/
def superAdd (m : Mem) (o r : Nat) : Mem × List Ann := (m.addProperty o r).updatePropertyMap o

/-- Copies of properties are added one after the other (super_object.go:94-96). -/
def superAddCopies (m : Mem) (o : Nat) : List Nat → Mem × List Ann
  | [] => (m, [])
  | r :: rs =>
    let (m, r') := m.alloc (m.prop r).prop.copy
    let (m, a) := m.superAdd o r'
    let (m, as) := m.superAddCopies o rs
    (m, a ++ as)

/-- `stdDatabase.LookupObject` (database.go:78-81): a pointer. -/
def lookupObject (m : Mem) (c : ObjectCode) : Option Nat :=
  (m.db.find? (fun e => e.1 == (c &&& 0xFFFF00))).map (·.2)

/-- `superObject.addStandardPropertiesWithCode` (super_object.go:88-97). -/
def addStandard (m : Mem) (o : Nat) (c : ObjectCode) : Mem × List Ann :=
  match m.lookupObject c with
  | none => (m, [])
  | some s => (m.onObj o (fun x => { x with clsName := (m.obj s).clsName })).superAddCopies o (m.properties s)

/-- A change of the code bytes (object.go:155-157, 165-167, 186-188, 196-198, 206-208). -/
def onCodes (m : Mem) (o : Nat) (f : Bytes → Bytes) : Mem := m.onObj o (fun x => { x with codes := f x.codes })

/-- `NewSuperObject` (super_object.go:60-68). -/
def newSuper (m : Mem) : Mem × Nat :=
  let (m, o) := m.newObject
  let m := m.onCodes o (integerToByte superObjectCode)
  let m := (m.addStandard o superObjectCode).1
  ((m.updatePropertyMap o).1, o)

/-- A call on a super object, device or profile; `AddProperty` gets a property made for it. -/
def call (m : Mem) (o : Nat) : ObjOp → Mem × List Ann × Option Err
  | .add p => let (m, r) := m.alloc p; let (m, a) := m.superAdd o r; (m, a, none)
  | .setCode c =>
    let m := m.onCodes o (integerToByte c)
    let (m, a) := m.addStandard o (m.code o)
    (m, a, none)
  | .setCodes cs =>
    let m := m.onCodes o (fun x => cs.take x.length ++ x.drop cs.length)
    let (m, a) := m.addStandard o (m.code o)
    (m, a, none)
  | .write c d => m.setPropertyData o c d
  | .writeByte c b => m.setPropertyData o c [b]
  | .writeInt c v n => m.setPropertyData o c (EProp.integerData v n)
  | .setName s => (m.onObj o (fun x => { x with name := s }), [], none)
  | .setClassName s => (m.onObj o (fun x => { x with clsName := s }), [], none)
  | .setInstance b => (m.onCodes o (fun x => x.set 2 b), [], none)
  | .setGroup b => (m.onCodes o (fun x => x.set 0 b), [], none)
  | .setClass b => (m.onCodes o (fun x => x.set 1 b), [], none)
  | .clear c =>
    match m.look o c with
    | none => (m, [], none)
    | some r => (m.onProp r (fun x => { x with prop := x.prop.clear }), [], none)
  | .announce c =>
    match m.look o c with
    | none => (m, [], none)
    | some r => (m, m.announce r, none)
  | .bareAdd p => let (m, r) := m.alloc p; (m.addProperty o r, [], none)
  | .bareSetCode c => (m.onCodes o (integerToByte c), [], none)
  | .bareSetCodes cs => (m.onCodes o (fun x => cs.take x.length ++ x.drop cs.length), [], none)

/-- The properties of one block of `initObjects` are made and added (database_mra_objects.go:39-1246). -/
def loadProps (m : Mem) (o : Nat) : List RawProp → Mem
  | [] => m
  | p :: ps =>
    let (m, r) := m.alloc (newStandardProperty p)
    loadProps (m.addProperty o r) o ps

/-- One block of `initObjects` (database_mra_objects.go:39-1246), with `newStandardObject` (7-13) and `addObject`
(database.go:73-75). -/
def loadObject (m : Mem) (r : RawObj) : Mem :=
  let (m, o) := m.newObject
  let m := m.onObj o (fun x => { x with clsName := r.clsName, codes := (x.codes.set 0 r.grpCode).set 1 r.clsCode })
  let m := m.loadProps o r.props
  { m with db := (m.code o, o) :: m.db.filter (fun e => e.1 ≠ m.code o) }

/-- `initObjects` (database_mra_objects.go:36-1249). -/
def load (t : List RawObj) : Mem := t.foldl loadObject empty

end Mem

/-- What a program can do with objects and properties it holds pointers to. -/
inductive MemOp where
  | newSuper                              -- NewDevice, NewProfile, before the code is set
  | newProperty (p : EProp)               -- NewProperty with options
  | call (o : Nat) (op : ObjOp)           -- a method of an object
  | add (o r : Nat)                       -- AddProperty with a property made before
  | setData (r : Nat) (d : Bytes)         -- SetData of a property
  | clear (r : Nat)                       -- Clear
  | setCode (r : Nat) (c : Byte)          -- SetCode
  | setName (r : Nat) (s : String)        -- SetName
  | announce (r : Nat)                    -- Announce of a property
  | bareAdd (o r : Nat)                   -- AddProperty on the inner object
  | setObject (r : Nat) (o : Nat)         -- SetObject (property.go:196-198), WithPropertyObject (125-129)
  | setAttrs (r : Nat) (g s a : Attr)     -- SetReadAttribute, SetWriteAttribute, SetAnnoAttribute

namespace MemOp

/-- The memory after the call and the announcements asked for. -/
def run (m : Mem) : MemOp → Mem × List Ann
  | newSuper => (m.newSuper.1, [])
  | newProperty p => ((m.alloc p).1, [])
  | call o op => ((m.call o op).1, (m.call o op).2.1)
  | add o r => m.superAdd o r
  | setData r d => m.setData r d
  | clear r => (m.onProp r (fun x => { x with prop := x.prop.clear }), [])
  | setCode r c => (m.onProp r (fun x => { x with prop := { x.prop with code := c } }), [])
  | setName r s => (m.onProp r (fun x => { x with prop := { x.prop with name := s } }), [])
  | announce r => (m, m.announce r)
  | bareAdd o r => (m.addProperty o r, [])
  | setObject r o => (m.onProp r (fun x => { x with parent := some o }), [])
  | setAttrs r g s a =>
    (m.onProp r (fun x => { x with prop := { x.prop with getAttr := g, setAttr := s, annoAttr := a } }), [])

end MemOp
end Verif.Model
