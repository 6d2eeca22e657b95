import Verif.Model.Encoding
import Verif.Model.Esv

/-!
# Model of `net/echonet/protocol/property.go`, `object.go` and `message.go`
-/

namespace Verif.Model

/-- `type ObjectCode uint` (protocol/object.go:21). -/
abbrev ObjectCode := GoUint

/-- `protocol.property` (protocol/property.go:46-49). -/
structure PProp where
  code : Byte
  data : Bytes
deriving DecidableEq, Repr

namespace PProp

/-- `protocol.NewProperty` (protocol/property.go:51-62). -/
def new : PProp := { code := 0, data := [] }

/-- `property.SetCode` (protocol/property.go:81-83). -/
def setCode (p : PProp) (c : Byte) : PProp := { p with code := c }

/-- `property.SetData` (protocol/property.go:91-94): allocates and copies. -/
def setData (p : PProp) (d : Bytes) : PProp := { p with data := d }

/-- `protocol.NewPropertyWithCode` (protocol/property.go:65-69). -/
def newWithCode (c : Byte) : PProp := new.setCode c

/-- `protocol.NewPropertiesWithCodes` (protocol/property.go:72-78). -/
def newWithCodes (cs : List Byte) : List PProp := cs.map newWithCode

/-- `property.Size` (protocol/property.go:131-133). -/
def size (p : PProp) : Nat := p.data.length

/-- `property.AsByte` (protocol/property.go:102-112). -/
def asByte (p : PProp) : Res Byte :=
  if p.data.length = 0 then .err .noData
  else if p.data.length = 1 then rd p.data 0
  else .err .invalid

/-- `property.AsString` (protocol/property.go:115-120); a Go string of the same bytes. -/
def asString (p : PProp) : Res Bytes :=
  if p.data.length = 0 then .err .noData else .ok p.data

/-- `property.AsInteger` (protocol/property.go:123-128). -/
def asInteger (p : PProp) : Res GoUint :=
  if p.data.length = 0 then .err .noData else .ok (byteToInteger 64 p.data)

end PProp

namespace ObjectCode

/-- `protocol.NewObjectCodeFromBytes` (protocol/object.go:24-29). -/
def fromBytes (codes : Bytes) : Res ObjectCode :=
  if codes.length ≠ 3 then .err .invalid else .ok (byteToInteger 64 codes)

/-- `ObjectCode.Bytes` (protocol/object.go:37-41). -/
def bytes (c : ObjectCode) : Bytes := integerToByte c (List.replicate 3 0)

end ObjectCode

/-- `protocol.Address` (protocol/address.go): IP in its printed form, and port. -/
structure Addr where
  ip : String
  port : Nat
deriving DecidableEq, Repr

/-- `protocol.Message` (protocol/message.go:37-49). `ep` holds interface values, which
may be `nil` when a caller added `nil`. `From` is `src`; the pointer is never nil. -/
structure Message where
  ehd1 : Byte
  ehd2 : Byte
  tid : Bytes
  seoj : Bytes
  deoj : Bytes
  esv : ESV
  opc : Byte
  ep : List (Option PProp)
  src : Addr
  pktType : Nat
  ifc : Option String
deriving DecidableEq, Repr

/-- protocol/message.go:17 -/ def frameHeaderSize : Nat := 1 + 1 + 2
/-- protocol/message.go:18 -/ def format1HeaderSize : Nat := 3 + 3 + 1 + 1
/-- protocol/message.go:19 -/ def format1MinSize : Nat := frameHeaderSize + format1HeaderSize
/-- protocol/message.go:20 -/ def format1PropertyHeaderSize : Nat := 2
/-- protocol/message.go:21 -/ def ehd1Echonet : Byte := 0x10
/-- protocol/message.go:22 -/ def ehd2Format1 : Byte := 0x81
/-- protocol/message.go:23 -/ def tidSize : Nat := 2
/-- protocol/message.go:24 -/ def tidMax : GoUint := 65535
/-- protocol/message.go:25 -/ def eojSize : Nat := 3
/-- protocol/message.go:29 -/ def unknownPacket : Nat := 0x00
/-- protocol/message.go:30 -/ def multicastPacket : Nat := 0x01
/-- protocol/message.go:31 -/ def udpUnicastPacket : Nat := 0x10
/-- protocol/message.go:32 -/ def tcpUnicastPacket : Nat := 0x20
/-- protocol/message.go:33 -/ def unicastPacket : Nat := udpUnicastPacket ||| tcpUnicastPacket

namespace Message

/-- `protocol.NewMessage` (protocol/message.go:52-67). The zero IP prints as `<nil>`. -/
def new : Message where
  ehd1 := ehd1Echonet
  ehd2 := ehd2Format1
  tid := List.replicate tidSize 0
  seoj := List.replicate eojSize 0
  deoj := List.replicate eojSize 0
  esv := 0
  opc := 0
  ep := []
  src := { ip := "<nil>", port := 0 }
  pktType := unknownPacket
  ifc := none

/-- `Message.SetTID` (protocol/message.go:162-169). -/
def setTID (m : Message) (value : GoUint) : Message :=
  let value := if tidMax < value then value % tidMax else value
  let tid := m.tid.set 0 (((value &&& 0xFF00) >>> 8).setWidth 8)
  let tid := tid.set 1 ((value &&& 0x00FF).setWidth 8)
  { m with tid := tid }

/-- `Message.TID` (protocol/message.go:177-179). Reads `tid[0]` and `tid[1]`; the slice
always has two bytes (`Built.wf`), the third case is the panic of a shorter slice. -/
def getTID (m : Message) : GoUint :=
  match m.tid with
  | b0 :: b1 :: _ => (b0.setWidth 64 <<< 8) + b1.setWidth 64
  | _ => 0

/-- `Message.SetSEOJ` (protocol/message.go:187-189). -/
def setSEOJ (m : Message) (c : ObjectCode) : Message := { m with seoj := integerToByte c m.seoj }

/-- `Message.SEOJ` (protocol/message.go:192-194). -/
def getSEOJ (m : Message) : ObjectCode := byteToInteger 64 m.seoj

/-- `Message.SetDEOJ` (protocol/message.go:202-204). -/
def setDEOJ (m : Message) (c : ObjectCode) : Message := { m with deoj := integerToByte c m.deoj }

/-- `Message.DEOJ` (protocol/message.go:207-209). -/
def getDEOJ (m : Message) : ObjectCode := byteToInteger 64 m.deoj

/-- `Message.SetESV` (protocol/message.go:217-219). -/
def setESV (m : Message) (e : ESV) : Message := { m with esv := e }

/-- `Message.SetOPC` (protocol/message.go:232-239); `value` is an `int`, of which only
the low 8 bits are used. -/
def setOPC (m : Message) (value : Int) : Message :=
  let opc : Byte := BitVec.ofInt 8 value
  { m with opc := opc, ep := List.replicate opc.toNat (some PProp.new) }

/-- `Message.OPC` (protocol/message.go:242-244). -/
def getOPC (m : Message) : Nat := m.opc.toNat

/-- `Message.AddProperty` (protocol/message.go:247-250). -/
def addProperty (m : Message) (p : Option PProp) : Message :=
  { m with opc := m.opc + 1, ep := m.ep ++ [p] }

/-- `Message.AddProperties` (protocol/message.go:253-257). -/
def addProperties (m : Message) (ps : List (Option PProp)) : Message :=
  ps.foldl addProperty m

/-- `Message.Property` (protocol/message.go:260-265) on the property slice `ep`: `nil`
beyond the end; a negative index panics. -/
def propAt (ep : List (Option PProp)) (n : Int) : Res (Option PProp) :=
  if (ep.length : Int) - 1 < n then .ok none
  else if n < 0 then .panic
  else rd ep n.toNat

/-- `Message.Property` (protocol/message.go:260-265). -/
def property (m : Message) (n : Int) : Res (Option PProp) := propAt m.ep n

/-- `Message.HasProperty` (protocol/message.go:273-280): calling `Code` on a nil
interface value panics. -/
def hasProperty (m : Message) (c : Byte) : Res Bool :=
  let rec go : List (Option PProp) → Res Bool
    | [] => .ok false
    | none :: _ => .panic
    | some p :: ps => if p.code = c then .ok true else go ps
  go m.ep

/-- `Message.IsPacketType` (protocol/message.go:303-305). -/
def isPacketType (m : Message) (t : Nat) : Bool := (m.pktType &&& t) != 0

/-- `Message.IsMulticastPacket` (protocol/message.go:308-310). -/
def isMulticastPacket (m : Message) : Bool := m.isPacketType multicastPacket

/-- `Message.IsUnicastPacket` (protocol/message.go:313-315). -/
def isUnicastPacket (m : Message) : Bool := m.isPacketType unicastPacket

/-- `Message.IsTCPUnicastPacket` (protocol/message.go:318-320). -/
def isTCPUnicastPacket (m : Message) : Bool := m.isPacketType tcpUnicastPacket

/-- `Message.IsUDPUnicastPacket` (protocol/message.go:323-325). -/
def isUDPUnicastPacket (m : Message) : Bool := m.isPacketType udpUnicastPacket

/-- `Message.Size` (protocol/message.go:328-341). -/
def size (m : Message) : Res Nat :=
  forRange m.opc.toNat (fun n sz => do
    match ← m.property n with
    | none => .ok sz
    | some p => .ok (sz + 2 + p.size)) format1MinSize

/-- `Message.Bytes` on a non-nil message (protocol/message.go:344-389). The loop state is
the buffer and the write offset; every index is checked. -/
def bytesRes (m : Message) : Res Bytes := do
  let buf := List.replicate (← m.size) 0
  let buf ← wr buf 0 m.ehd1
  let buf ← wr buf 1 m.ehd2
  let buf ← wr buf 2 (← rd m.tid 0)
  let buf ← wr buf 3 (← rd m.tid 1)
  let buf ← wr buf 4 (← rd m.seoj 0)
  let buf ← wr buf 5 (← rd m.seoj 1)
  let buf ← wr buf 6 (← rd m.seoj 2)
  let buf ← wr buf 7 (← rd m.deoj 0)
  let buf ← wr buf 8 (← rd m.deoj 1)
  let buf ← wr buf 9 (← rd m.deoj 2)
  let buf ← wr buf 10 m.esv
  let buf ← wr buf 11 m.opc
  let (buf, _) ← forRange m.opc.toNat (fun n (buf, offset) => do
    match ← m.property n with
    | none => .ok (buf, offset)
    | some p => do
      let buf ← wr buf offset p.code
      let offset := offset + 1
      let propSize := p.size
      let buf ← wr buf offset (BitVec.ofNat 8 propSize)
      let offset := offset + 1
      if propSize = 0 then .ok (buf, offset)
      else do
        let buf ← forRange propSize (fun i buf => do wr buf (offset + i) (← rd p.data i)) buf
        .ok (buf, offset + propSize)) (buf, 12)
  .ok buf

/-- The value `Message.Bytes` returns; the default is never used for messages built
through the API, for which `bytesRes` does not panic (theorem `C03_layout`). -/
def bytes (m : Message) : Bytes :=
  match m.bytesRes with
  | .ok b => b
  | _ => []

/-- `Message.Equals` (protocol/message.go:392-400); a Go nil pointer is `none`. -/
def equals (a b : Option Message) : Bool :=
  match a, b with
  | some a, some b => decide (a.bytes = b.bytes)
  | _, _ => false

/-- `protocol.NewResponseMessageWithMessage` (protocol/message.go:104-126). -/
def newResponse (req : Message) : Message :=
  let m := ((new.setTID req.getTID).setSEOJ req.getDEOJ).setDEOJ req.getSEOJ
  if req.esv = ESV.writeRequestResponseRequired then m.setESV ESV.writeResponse
  else if req.esv = ESV.readRequest then m.setESV ESV.readResponse
  else if req.esv = ESV.notificationRequest then m.setESV ESV.notification
  else if req.esv = ESV.writeReadRequest then m.setESV ESV.writeReadResponse
  else if req.esv = ESV.notificationResponseRequired then m.setESV ESV.notificationResponse
  else m.setESV 0

/-- `protocol.NewImpossibleMessageWithMessage` (protocol/message.go:129-159). The loop reads
`msg.Property(n)`, the property of the *new* message, not of the request. -/
def newImpossible (req : Message) : Res Message :=
  let m := ((new.setTID req.getTID).setSEOJ req.getDEOJ).setDEOJ req.getSEOJ
  let m :=
    if req.esv = ESV.writeRequest then m.setESV ESV.writeRequestError
    else if req.esv = ESV.writeRequestResponseRequired then
      m.setESV ESV.writeRequestResponseRequiredError
    else if req.esv = ESV.readRequest then m.setESV ESV.readRequestError
    else if req.esv = ESV.notificationRequest then m.setESV ESV.notificationRequestError
    else if req.esv = ESV.writeReadRequest then m.setESV ESV.writeReadRequestError
    else if req.esv = ESV.notificationResponseRequired then
      m.setESV ESV.notificationRequestError
    else m.setESV 0
  let reqOPC := req.getOPC
  let m := m.setOPC reqOPC
  forRange reqOPC (fun n m => do
    let reqProp ← m.property n
    .ok (m.addProperty reqProp)) m

end Message
end Verif.Model
