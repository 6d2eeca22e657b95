import Verif.Model.Message

/-!
# Model of `net/echonet/property.go`, `property_attr.go`, `property_func.go` and `property_data.go`
-/

namespace Verif.Model

/-- `type PropertyAttribute uint` (property_attr.go:8). -/
abbrev Attr := GoUint

namespace Attr
/-- property_attr.go:11 -/ def prohibited : Attr := 0x00
/-- property_attr.go:12 -/ def required : Attr := 0x01
/-- property_attr.go:13 -/ def optional : Attr := 0x02
/-- property_attr.go:17-19 -/ def isRequired (a : Attr) : Bool := a == required
/-- property_attr.go:22-24 -/ def isOptional (a : Attr) : Bool := a == optional
/-- property_attr.go:27-29 -/ def isProhibited (a : Attr) : Bool := a == prohibited
end Attr

/-- `property` (property.go:114-122). The parent pointer is not stored: a property is either
free or held in the map of exactly one object (sharing one `Property` value between objects is in
`Verif.Model.Pointers`). -/
structure EProp where
  name : String
  code : Byte
  data : Bytes
  getAttr : Attr
  setAttr : Attr
  annoAttr : Attr
deriving DecidableEq, Repr

/-- property.go:17 -/ def propertyCodeMin : Byte := 0x80
/-- property.go:18 -/ def propertyCodeMax : Byte := 0xFF
/-- property.go:19 -/ def propertyMapFormat1MaxSize : Nat := 15
/-- property.go:20 -/ def propertyMapFormat2MapSize : Nat := 16

namespace EProp

/-- `newProperty` (property.go:183-193). -/
def new : EProp :=
  { name := "", code := 0, data := [], getAttr := .prohibited, setAttr := .prohibited,
    annoAttr := .prohibited }

/-- `NewProperty` with the options `WithPropertyCode`, `WithPropertyName`, `WithPropertyData`,
`WithPropertyReadAttribute`, `…WriteAttribute`, `…AnnoAttribute` (property.go:131-181). -/
def make (code : Byte) (name : String) (data : Bytes) (g s a : Attr) : EProp :=
  { new with code := code, name := name, data := data, getAttr := g, setAttr := s, annoAttr := a }

/-- `property.Clear` (property.go:237-239). -/
def clear (p : EProp) : EProp := { p with data := [] }

/-- `property.Size` (property.go:242-244). -/
def size (p : EProp) : Nat := p.data.length

/-- `property.IsReadable` (property.go:280-282). -/
def isReadable (p : EProp) : Bool := !p.getAttr.isProhibited
/-- `property.IsWritable` (property.go:285-287). -/
def isWritable (p : EProp) : Bool := !p.setAttr.isProhibited
/-- `property.IsAnnounceable` (property.go:290-292). -/
def isAnnounceable (p : EProp) : Bool := !p.annoAttr.isProhibited
/-- `property.IsReadRequired` (property.go:295-297). -/
def isReadRequired (p : EProp) : Bool := p.getAttr.isRequired
/-- `property.IsWriteRequired` (property.go:300-302). -/
def isWriteRequired (p : EProp) : Bool := p.setAttr.isRequired
/-- `property.IsAnnounceRequired` (property.go:305-307). -/
def isAnnounceRequired (p : EProp) : Bool := p.annoAttr.isRequired

/-- `property.IsReadOnly` (property.go:310-318). -/
def isReadOnly (p : EProp) : Bool :=
  if p.isWritable then false else if !p.isReadable then false else true

/-- `property.IsWriteOnly` (property.go:321-329). -/
def isWriteOnly (p : EProp) : Bool :=
  if p.isReadable then false else if !p.isWritable then false else true

/-- `property.IsAvailableService` (property.go:332-366). -/
def isAvailableService (p : EProp) (esv : ESV) : Bool :=
  if esv = ESV.writeRequest then (if p.isWritable then true else false)
  else if esv = ESV.writeRequestResponseRequired then (if p.isWritable then true else false)
  else if esv = ESV.readRequest then (if p.isReadable then true else false)
  else if esv = ESV.notificationRequest then (if p.isAnnounceable then true else false)
  else if esv = ESV.writeReadRequest then (if p.isWritable && p.isReadable then true else false)
  else if esv = ESV.notificationResponseRequired then (if p.isAnnounceable then true else false)
  else false

/-- `property.SetData` (property.go:369-380), the change of the data (allocates and copies).
The announcement that follows is decided by `isAnnounceable` and is made by the caller of this
function in the model (`PMap.setData`). -/
def setData (p : EProp) (data : Bytes) : EProp := { p with data := data }

/-- Data of `property.SetInteger` (property.go:388-392). `make` panics for a size that no memory can
hold; this is not modelled. -/
def integerData (data : GoUint) (size : GoUint) : Bytes :=
  integerToByte data (List.replicate size.toNat 0)

/-- `property.SetInteger` (property.go:388-392). -/
def setInteger (p : EProp) (data : GoUint) (size : GoUint) : EProp :=
  p.setData (integerData data size)

/-- `property.AsByte` (property.go:400-410). -/
def asByte (p : EProp) : Res Byte :=
  if p.data.length = 0 then .err .noData
  else if p.data.length = 1 then rd p.data 0
  else .err .invalid

/-- `property.AsString` (property.go:413-418); the Go string is its bytes. -/
def asString (p : EProp) : Res Bytes :=
  if p.data.length = 0 then .err .noData else .ok p.data

/-- `property.AsInteger` (property.go:421-426). -/
def asInteger (p : EProp) : Res GoUint :=
  if p.data.length = 0 then .err .noData else .ok (byteToInteger 64 p.data)

/-- `newProtocolPropertyFrom` (property_data.go:22-27) and `property.ToProtocol`
(property.go:475-477). -/
def toProtocol (p : EProp) : PProp := (PProp.new.setCode p.code).setData p.data

/-- `property.Equals` (property.go:480-488). -/
def equals (p q : EProp) : Bool :=
  if p.code ≠ q.code then false else if p.data ≠ q.data then false else true

/-- `property.Copy` (property.go:491-501). -/
def copy (p : EProp) : EProp := { p with data := [] }

end EProp

/-- `isPropertyMapDescriptionFormat1` (property_func.go:18-20). -/
def isFormat1 (n : Nat) : Bool := n ≤ propertyMapFormat1MaxSize

/-- `isPropertyMapDescriptionFormat2` (property_func.go:22-24). -/
def isFormat2 (n : Nat) : Bool := !isFormat1 n

/-- `propertyMapCodeToFormat2` (property_func.go:7-16): index, bit and whether valid. -/
def propertyMapCodeToFormat2 (propCode : Byte) : Nat × Nat × Bool :=
  if propCode < propertyCodeMin ∨ propertyCodeMax < propCode then (0, 0, false)
  else
    let propCodeIdx := ((propCode - propertyCodeMin) &&& 0x0F).toNat + 1
    let propCodeBit := (((propCode - propertyCodeMin).toNat &&& 0xF0) >>> 4) &&& 0x0F
    (propCodeIdx, propCodeBit, true)

/-- `propertyMapFormat2BitToCode` (property_func.go:26-32). -/
def propertyMapFormat2BitToCode (row bit : Nat) : Byte :=
  BitVec.ofNat 8 (0x10 * bit + propertyCodeMin.toNat + row)

/-- `propertyMapFormat2ByteToCodes` (property_func.go:34-44). The mask `byte((0x01 << n) & 0x0F)`
(line 37) is reproduced as it is. -/
def propertyMapFormat2ByteToCodes (row : Nat) (b : Byte) : List Byte :=
  (List.range 8).flatMap fun n =>
    let bit : Byte := BitVec.ofNat 8 ((0x01 <<< n) &&& 0x0F)
    if b &&& bit = 0 then [] else [propertyMapFormat2BitToCode row n]

/-- The data written by `setPropertyMapProperty` (super_object.go:111-135) for a list of property
codes. The mask `byte((0x01 << propCodeBit) & 0x0F)` (line 132) is reproduced as it is. -/
def propertyMapBytes (propCodes : List Byte) : Res Bytes :=
  if isFormat1 propCodes.length then
    -- super_object.go:113-120
    let propMapData := List.replicate (propCodes.length + 1) (0 : Byte)
    do
      let propMapData ← wr propMapData 0 (BitVec.ofNat 8 propCodes.length)
      forRange propCodes.length (fun n d => do wr d (n + 1) (← rd propCodes n)) propMapData
  else
    -- super_object.go:124-135
    let propMapData := List.replicate (propertyMapFormat2MapSize + 1) (0 : Byte)
    do
      let propMapData ← wr propMapData 0 (BitVec.ofNat 8 propCodes.length)
      propCodes.foldlM (fun d propCode => do
        let (idx, bit, ok) := propertyMapCodeToFormat2 propCode
        if !ok then .ok d
        else do
          let b ← rd d idx
          wr d idx (b ||| BitVec.ofNat 8 ((0x01 <<< bit) &&& 0x0F))) propMapData

namespace EProp

/-- `property.PropertyMapData` (property.go:429-458). -/
def propertyMapData (p : EProp) : Res (List Byte) :=
  if p.code = 0x9F ∨ p.code = 0x9E ∨ p.code = 0x9D then
    if p.data.length = 0 then .err .invalid
    else do
      let propMapCount := (← rd p.data 0).toNat
      if isFormat1 propMapCount then
        if p.data.length ≠ propMapCount + 1 then .err .invalid
        else forRange propMapCount (fun n codes => do .ok (codes ++ [← rd p.data (n + 1)])) []
      else if isFormat2 propMapCount then
        if p.data.length ≠ propertyMapFormat2MapSize + 1 then .err .invalid
        else forRange propertyMapFormat2MapSize (fun n codes => do
          .ok (codes ++ propertyMapFormat2ByteToCodes n (← rd p.data (n + 1)))) []
      else .err .invalid
  else .err .invalid

end EProp
end Verif.Model
