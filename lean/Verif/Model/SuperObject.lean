import Verif.Model.Database

/-!
# Model of `net/echonet/super_object.go`, `device.go`, `profile.go` and `node_profile.go`

The standard database is a parameter `db`.
-/

namespace Verif.Model

/-- super_object.go:10 -/ def superObjectCode : ObjectCode := 0x000000
/-- super_object.go:18 -/ def objectOperatingStatus : Byte := 0x80
/-- super_object.go:19 -/ def objectManufacturerCode : Byte := 0x8A
/-- super_object.go:20 -/ def objectAnnoPropertyMap : Byte := 0x9D
/-- super_object.go:21 -/ def objectSetPropertyMap : Byte := 0x9E
/-- super_object.go:22 -/ def objectGetPropertyMap : Byte := 0x9F
/-- super_object.go:26 -/ def objectOperatingStatusOn : Byte := 0x30
/-- super_object.go:27 -/ def objectOperatingStatusOff : Byte := 0x31
/-- super_object.go:31 -/ def objectManufacturerCodeSize : GoUint := 3
/-- device.go:14 -/ def deviceInstallationLocation : Byte := 0x81
/-- device.go:15 -/ def deviceStandardVersion : Byte := 0x82
/-- device.go:21 -/ def deviceFaultStatus : Byte := 0x88
/-- device.go:41 -/ def deviceStandardVersionSize : Nat := 4
/-- device.go:76 -/ def deviceFaultOccurred : Byte := 0x41
/-- device.go:77 -/ def deviceNoFaultOccurred : Byte := 0x42
/-- node_profile.go:12 -/ def nodeProfileObjectCode : ObjectCode := 0x0EF001
/-- node_profile.go:13 -/ def nodeProfileObjectReadOnlyCode : ObjectCode := 0x0EF002

/-- The data of `propertyMapBytes`, which always returns some (`Lemmas.propertyMapBytes_eq`). -/
def mapData (cs : List Byte) : Bytes :=
  match propertyMapBytes cs with
  | .ok d => d
  | _ => []

namespace Obj

/-- `superObject.setPropertyMapProperty` (super_object.go:106-136). -/
def setPropertyMapProperty (o : Obj) (mapCode : Byte) (codes : List Byte) :
    Obj × List Ann × Option Err :=
  if !o.props.has mapCode then (o, [], some .notFound)
  else o.setPropertyData mapCode (mapData codes)

/-- The codes collected by `updatePropertyMap` (super_object.go:149-160). -/
def readableCodes (o : Obj) : List Byte := (o.props.properties.filter (·.isReadable)).map (·.code)
/-- super_object.go:149-160 -/
def writableCodes (o : Obj) : List Byte := (o.props.properties.filter (·.isWritable)).map (·.code)
/-- super_object.go:149-160 -/
def announceableCodes (o : Obj) : List Byte :=
  (o.props.properties.filter (·.isAnnounceable)).map (·.code)

/-- `superObject.updatePropertyMap` (super_object.go:139-170); the returned error is dropped by
all callers and left out. -/
def updatePropertyMap (o : Obj) : Obj × List Ann :=
  let g := o.readableCodes
  let s := o.writableCodes
  let a := o.announceableCodes
  let (o1, a1, _) := o.setPropertyMapProperty objectGetPropertyMap g
  let (o2, a2, _) := o1.setPropertyMapProperty objectSetPropertyMap s
  let (o3, a3, _) := o2.setPropertyMapProperty objectAnnoPropertyMap a
  (o3, a1 ++ a2 ++ a3)

/-- `superObject.AddProperty` (super_object.go:100-103). -/
def superAddProperty (o : Obj) (p : EProp) : Obj × List Ann := (o.addProperty p).updatePropertyMap

/-- Adding several properties one after the other (super_object.go:94-96). -/
def superAddProperties (o : Obj) : List EProp → Obj × List Ann
  | [] => (o, [])
  | p :: ps =>
    let (o, a) := o.superAddProperty p
    let (o, as) := o.superAddProperties ps
    (o, a ++ as)

/-- `superObject.addStandardPropertiesWithCode` (super_object.go:88-97). -/
def addStandardPropertiesWithCode (db : StdDB) (o : Obj) (c : ObjectCode) : Obj × List Ann :=
  match db.lookupObject c with
  | none => (o, [])
  | some std => (o.setClassName std.clsName).superAddProperties (std.props.properties.map (·.copy))

/-- `NewSuperObject` (super_object.go:60-68). -/
def newSuper (db : StdDB) : Obj :=
  let o := Obj.new.setCode superObjectCode
  let (o, _) := o.addStandardPropertiesWithCode db superObjectCode
  (o.updatePropertyMap).1

/-- `superObject.SetCode` (super_object.go:71-74). -/
def superSetCode (db : StdDB) (o : Obj) (c : ObjectCode) : Obj × List Ann :=
  let o := o.setCode c
  o.addStandardPropertiesWithCode db o.code

/-- `superObject.SetCodes` (super_object.go:77-80). -/
def superSetCodes (db : StdDB) (o : Obj) (cs : Bytes) : Obj × List Ann :=
  let o := o.setCodes cs
  o.addStandardPropertiesWithCode db o.code

/-- `superObject.SetOperatingStatus` (super_object.go:173-179). -/
def setOperatingStatus (o : Obj) (stats : Bool) : Obj × List Ann × Option Err :=
  o.setPropertyByte objectOperatingStatus
    (if stats then objectOperatingStatusOn else objectOperatingStatusOff)

/-- `superObject.OperatingStatus` (super_object.go:182-191). -/
def operatingStatus (o : Obj) : Res Bool := do
  let b ← o.lookupPropertyByte objectOperatingStatus
  if b = objectOperatingStatusOff then .ok false else .ok true

/-- `superObject.SetManufacturerCode` (super_object.go:194-196). -/
def setManufacturerCode (o : Obj) (c : GoUint) : Obj × List Ann × Option Err :=
  o.setPropertyInteger objectManufacturerCode c objectManufacturerCodeSize

/-- `superObject.ManufacturerCode` (super_object.go:199-201). -/
def manufacturerCode (o : Obj) : Res GoUint := o.lookupPropertyInteger objectManufacturerCode

/-- `newDevice` (device.go:138-143). -/
def newDevice (db : StdDB) : Obj := newSuper db

/-- `WithDeviceCode` (device.go:101-110). The announcements are dropped: a device under
construction has no node. -/
def withDeviceCode (db : StdDB) (o : Obj) (c : ObjectCode) : Res Obj :=
  match db.lookupObject c with
  | none => .err .other
  | some _ => .ok (o.superSetCode db c).1

/-- `NewDeviceWithCode` (device.go:148-154). -/
def newDeviceWithCode (db : StdDB) (c : ObjectCode) : Res Obj := (newDevice db).withDeviceCode db c

/-- The options of `NewDevice`: `WithDeviceCode` and `WithDeviceManufacturerCode` (device.go:101-110, 113-117);
`WithDeviceRequestHandler` does not change the modelled part. -/
inductive DeviceOption where
  | code (c : ObjectCode)
  | manufacturer (c : GoUint)
  | requestHandler
deriving DecidableEq, Repr

/-- Applying one option. -/
def DeviceOption.apply (db : StdDB) (o : Obj) : DeviceOption → Res Obj
  | .code c => o.withDeviceCode db c
  | .manufacturer c =>
    match o.setManufacturerCode c with
    | (o, _, none) => .ok o
    | (_, _, some e) => .err e
  | .requestHandler => .ok o

/-- `NewDevice` (device.go:128-136). -/
def newDeviceWith (db : StdDB) (opts : List DeviceOption) : Res Obj :=
  opts.foldlM (DeviceOption.apply db) (newDevice db)

/-- `device.SetInstallationLocation` (device.go:157-159). -/
def setInstallationLocation (o : Obj) (b : Byte) : Obj × List Ann × Option Err :=
  o.setPropertyByte deviceInstallationLocation b

/-- `device.InstallationLocation` (device.go:162-164). -/
def installationLocation (o : Obj) : Res Byte := o.lookupPropertyByte deviceInstallationLocation

/-- `device.SetStandardVersion` (device.go:167-170). -/
def setStandardVersion (o : Obj) (v : Byte) : Obj × List Ann × Option Err :=
  o.setPropertyData deviceStandardVersion [0x00, 0x00, v, 0x00]

/-- `device.StandardVersion` (device.go:173-182). The test `len(verBytes) <= 4` (line 178) is
reproduced as it is. -/
def standardVersion (o : Obj) : Res Byte := do
  let verBytes ← o.lookupPropertyData deviceStandardVersion
  if verBytes.length ≤ deviceStandardVersionSize then .err .invalid
  else rd verBytes 2

/-- `device.SetFaultStatus` (device.go:185-191). -/
def setFaultStatus (o : Obj) (stats : Bool) : Obj × List Ann × Option Err :=
  o.setPropertyByte deviceFaultStatus (if stats then deviceFaultOccurred else deviceNoFaultOccurred)

/-- `device.FaultStatus` (device.go:194-203). -/
def faultStatus (o : Obj) : Res Bool := do
  let b ← o.lookupPropertyByte deviceFaultStatus
  if b = deviceFaultOccurred then .ok true else .ok false

/-- `NewProfileWithCode` (profile.go:60-66). -/
def newProfileWithCode (db : StdDB) (c : ObjectCode) : Obj := ((newSuper db).superSetCode db c).1

/-- `NewProfile` (profile.go:55-57). -/
def newProfile (db : StdDB) : Obj := newProfileWithCode db nodeProfileObjectCode

/-- `NewNodeProfile` (node_profile.go:70-74). -/
def newNodeProfile (db : StdDB) : Obj := ((newProfile db).superSetCode db nodeProfileObjectCode).1

/-- `isNodeProfileObjectCode` (node_profile.go:88-96). -/
def isNodeProfileObjectCode (c : ObjectCode) : Bool :=
  if c = nodeProfileObjectCode then true
  else if c = nodeProfileObjectReadOnlyCode then true else false

/-- `nodeProfile.SetVersion` (node_profile.go:104-109); the versions are `int`, the major one is
truncated to a byte. -/
def setVersion (o : Obj) (major _minor : Int) : Obj × List Ann × Option Err :=
  o.setPropertyData 0x82 [BitVec.ofInt 8 major]

/-- `nodeProfile.SetID` (node_profile.go:112-120). -/
def setID (o : Obj) (man : GoUint) : Obj × List Ann × Option Err :=
  o.setPropertyData 0x83 (integerToByte man (List.replicate 3 0) ++ List.replicate 13 0)

/-- `nodeProfile.SetInstanceCount` (node_profile.go:123-125). -/
def setInstanceCount (o : Obj) (n : GoUint) : Obj × List Ann × Option Err :=
  o.setPropertyInteger 0xD3 n 3

/-- The list built by `SetInstanceList` (node_profile.go:129-138). -/
def instanceListData (devices : List Obj) : Bytes :=
  (if devices.length ≤ 0xFF - 1 then BitVec.ofNat 8 devices.length else 0xFF)
    :: (devices.map (·.codes)).flatten

/-- `nodeProfile.SetInstanceList` (node_profile.go:128-151). -/
def setInstanceList (o : Obj) (devices : List Obj) : Obj × List Ann × Option Err :=
  let l := instanceListData devices
  match o.setPropertyData 0xD5 l with
  | (o, as, some e) => (o, as, some e)
  | (o, as, none) =>
    match o.setPropertyData 0xD6 l with
    | (o, as', e) => (o, as ++ as', e)

/-- `nodeProfile.SetClassCount` (node_profile.go:154-156). -/
def setClassCount (o : Obj) (n : GoUint) : Obj × List Ann × Option Err :=
  o.setPropertyInteger 0xD4 n 2

/-- The list built by `SetClassList` (node_profile.go:160-169). -/
def classListData (classes : List Cls) : Bytes :=
  (if classes.length ≤ 0xFF - 1 then BitVec.ofNat 8 classes.length else 0xFF)
    :: (classes.map (·.bytes)).flatten

/-- `nodeProfile.SetClassList` (node_profile.go:159-171). -/
def setClassList (o : Obj) (classes : List Cls) : Obj × List Ann × Option Err :=
  o.setPropertyData 0xD7 (classListData classes)

end Obj
end Verif.Model
