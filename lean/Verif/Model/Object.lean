import Verif.Model.Property

/-!
# Model of `net/echonet/property_map.go`, `object.go` and `class.go`

Announcements. `property.SetData` calls `property.Announce` when the property is announceable,
which sends a notification if the object belongs to a running local node (property.go:461-472).
The functions below return the announcements they ask for, in order, each with the object code
and the property contents at that moment. `Verif.Model.Node` turns them into messages when the
object belongs to a running node and drops them otherwise.
-/

namespace Verif.Model

/-- The Go map `propertyMap.properties` (property_map.go:22-25), keyed by the code of the property:
a list in which every code occurs at most once. The order of the list stands for the arbitrary
iteration order of a Go map. -/
abbrev PMap := List EProp

/-- `slices.Sort` on property codes, as insertion sort (any sorting function gives the same
result). -/
def insertCode (c : Byte) : List Byte → List Byte
  | [] => [c]
  | x :: xs => if c ≤ x then c :: x :: xs else x :: insertCode c xs

/-- See `insertCode`. -/
def sortCodes : List Byte → List Byte
  | [] => []
  | c :: cs => insertCode c (sortCodes cs)

namespace PMap

/-- `propertyMap.LookupProperty` (property_map.go:86-89). -/
def lookup (m : PMap) (c : Byte) : Option EProp := m.find? (fun p => p.code == c)

/-- `propertyMap.AddProperty` (property_map.go:51-54): assignment to the map. -/
def add (m : PMap) (p : EProp) : PMap :=
  if m.any (fun q => q.code == p.code) then m.map (fun q => if q.code = p.code then p else q)
  else m ++ [p]

/-- `propertyMap.ClearAllProperties` (property_map.go:57-61). -/
def clearAll (_ : PMap) : PMap := []

/-- `propertyMap.Properties` (property_map.go:64-83). -/
def properties (m : PMap) : List EProp :=
  (sortCodes (m.map (·.code))).filterMap (fun c => m.lookup c)

/-- `propertyMap.PropertyCount` (property_map.go:104-106). -/
def count (m : PMap) : Nat := m.length

/-- `propertyMap.HasProperty` (property_map.go:139-142). -/
def has (m : PMap) (c : Byte) : Bool := (m.lookup c).isSome

/-- The change made by `prop.SetData` through the pointer in the map. -/
def update (m : PMap) (c : Byte) (d : Bytes) : PMap :=
  m.map (fun p => if p.code = c then p.setData d else p)

end PMap

/-- A request to announce a property: the code of its object, its code and its data. -/
structure Ann where
  seoj : ObjectCode
  prop : PProp
deriving DecidableEq, Repr

/-- object.go:27 via protocol/object.go -/ def objectCodeSize : Nat := 3

/-- `object` (object.go:102-111). The handlers are part of the environment of the node
(`Verif.Model.Env`) and the parent node is implied by membership in a node. -/
structure Obj where
  clsName : String
  name : String
  codes : Bytes
  props : PMap
deriving DecidableEq, Repr

/-- `class` (class.go:34-36): group code and class code. -/
structure Cls where
  group : Byte
  code : Byte
deriving DecidableEq, Repr

namespace Cls
/-- `class.Bytes` (class.go:101-103). -/
def bytes (c : Cls) : Bytes := [c.group, c.code]

/-- `class.Equals` (class.go:106-117); the length test always succeeds. -/
def equals (c o : Cls) : Bool :=
  if c.group ≠ o.group then false else if c.code ≠ o.code then false else true
end Cls

namespace Obj

/-- `newObject` (object.go:113-127). -/
def new : Obj := { clsName := "", name := "", codes := List.replicate objectCodeSize 0, props := [] }

/-- `object.SetClassName` (object.go:135-137). -/
def setClassName (o : Obj) (s : String) : Obj := { o with clsName := s }

/-- `object.SetName` (object.go:145-147). -/
def setName (o : Obj) (s : String) : Obj := { o with name := s }

/-- `object.SetCode` (object.go:155-157). -/
def setCode (o : Obj) (c : ObjectCode) : Obj := { o with codes := integerToByte c o.codes }

/-- `object.Code` (object.go:160-162). -/
def code (o : Obj) : ObjectCode := byteToInteger 64 o.codes

/-- `object.SetCodes` (object.go:165-167): Go `copy`. -/
def setCodes (o : Obj) (cs : Bytes) : Obj :=
  { o with codes := cs.take o.codes.length ++ o.codes.drop cs.length }

/-- `object.IsCode` (object.go:175-177). -/
def isCode (o : Obj) (c : ObjectCode) : Bool := c == o.code

/-- `object.SetClassGroupCode` (object.go:186-188). `codes` always has three bytes, so the
assignment never panics (`Lemmas.OWF`). -/
def setClassGroupCode (o : Obj) (b : Byte) : Obj := { o with codes := o.codes.set 0 b }
/-- `object.SetClassCode` (object.go:196-198). -/
def setClassCode (o : Obj) (b : Byte) : Obj := { o with codes := o.codes.set 1 b }
/-- `object.SetInstanceCode` (object.go:206-208). -/
def setInstanceCode (o : Obj) (b : Byte) : Obj := { o with codes := o.codes.set 2 b }

/-- `object.ClassGroupCode` (object.go:191-193). -/
def classGroupCode (o : Obj) : Res Byte := rd o.codes 0
/-- `object.ClassCode` (object.go:201-203). -/
def classCode (o : Obj) : Res Byte := rd o.codes 1
/-- `object.InstanceCode` (object.go:211-213). -/
def instanceCode (o : Obj) : Res Byte := rd o.codes 2

/-- `object.Class` (object.go:180-183) with `WithClassBytes` (class.go:39-45). -/
def cls (o : Obj) : Res Cls := do
  let codes ← slice o.codes 0 2
  .ok ⟨← rd codes 0, ← rd codes 1⟩

/-- `object.IsProfile` (object.go:221-223), `isProfileObjectCode` (profile.go:50-52). -/
def isProfile (o : Obj) : Res Bool := do .ok ((← rd o.codes 0) == 0x0E)

/-- `object.IsDevice` (object.go:216-218). -/
def isDevice (o : Obj) : Res Bool := do .ok (!(← o.isProfile))

/-- `object.AddProperty` = `propertyMap.AddProperty` (property_map.go:51-54). -/
def addProperty (o : Obj) (p : EProp) : Obj := { o with props := o.props.add p }

/-- `property.SetData` on the property `p` of the object (property.go:369-380): the new object
and the announcement asked for. -/
def setPropData (o : Obj) (p : EProp) (d : Bytes) : Obj × List Ann :=
  ({ o with props := o.props.update p.code d },
   if p.isAnnounceable then [⟨o.code, (p.setData d).toProtocol⟩] else [])

/-- `property.Clear` (property.go:237-239) on the property under code `c`, found by
`LookupProperty`. Nothing is announced. -/
def clearProperty (o : Obj) (c : Byte) : Obj := { o with props := o.props.update c [] }

/-- `property.Announce` (property.go:461-472) on the property under code `c`, found by `LookupProperty`: the announcement
asked for, whatever the attributes of the property (local_node_msssage.go:36-42). -/
def announceProperty (o : Obj) (c : Byte) : List Ann :=
  match o.props.lookup c with
  | none => []
  | some p => [⟨o.code, p.toProtocol⟩]

/-- `propertyMap.SetPropertyData` (property_map.go:109-116). -/
def setPropertyData (o : Obj) (c : Byte) (d : Bytes) : Obj × List Ann × Option Err :=
  match o.props.lookup c with
  | none => (o, [], some .notFound)
  | some p => let (o, as) := o.setPropData p d; (o, as, none)

/-- `propertyMap.SetPropertyByte` (property_map.go:119-126). -/
def setPropertyByte (o : Obj) (c : Byte) (b : Byte) : Obj × List Ann × Option Err :=
  match o.props.lookup c with
  | none => (o, [], some .notFound)
  | some p => let (o, as) := o.setPropData p [b]; (o, as, none)

/-- `propertyMap.SetPropertyInteger` (property_map.go:129-136). -/
def setPropertyInteger (o : Obj) (c : Byte) (v size : GoUint) : Obj × List Ann × Option Err :=
  match o.props.lookup c with
  | none => (o, [], some .notFound)
  | some p => let (o, as) := o.setPropData p (EProp.integerData v size); (o, as, none)

/-- `propertyMap.LookupPropertyDataSize` (property_map.go:145-151). -/
def lookupPropertyDataSize (o : Obj) (c : Byte) : Res Nat :=
  match o.props.lookup c with
  | none => .err .notFound
  | some p => .ok p.data.length

/-- `propertyMap.LookupPropertyData` (property_map.go:154-160). -/
def lookupPropertyData (o : Obj) (c : Byte) : Res Bytes :=
  match o.props.lookup c with
  | none => .err .notFound
  | some p => .ok p.data

/-- `propertyMap.LookupPropertyByte` (property_map.go:163-169). -/
def lookupPropertyByte (o : Obj) (c : Byte) : Res Byte :=
  match o.props.lookup c with
  | none => .err .notFound
  | some p => p.asByte

/-- `propertyMap.LookupPropertyInteger` (property_map.go:172-178). -/
def lookupPropertyInteger (o : Obj) (c : Byte) : Res GoUint :=
  match o.props.lookup c with
  | none => .err .notFound
  | some p => p.asInteger

/-- `object.Copy` (object.go:258-276). The code of the new object is set from itself (line 269),
so it stays 0. -/
def copy (o : Obj) : Obj :=
  let n : Obj := { clsName := o.clsName, name := o.name,
                   codes := List.replicate objectCodeSize 0, props := [] }
  let n := n.setCode n.code
  o.props.properties.foldl (fun n p => n.addProperty p.copy) n

end Obj
end Verif.Model
