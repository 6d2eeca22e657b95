import Verif.Model.Parser
import Verif.Model.Receive

/-!
# Memory: slices, properties and messages by reference

The rest of the model treats a Go slice as a value. Here a slice is a window on an array in a heap, and
properties and messages are records reached by pointers, so that sharing is visible. `Prop` stands for both
`protocol.property` and `echonet.property`, whose `SetData` are alike.
-/

namespace Verif.Model

/-- A slice: an array of the heap and a window of it. The capacity is taken to be the length. -/
structure Slice where
  arr : Nat
  off : Nat
  len : Nat
deriving DecidableEq, Repr

/-- `protocol.property` (protocol/property.go:46-49), and the fields `code` and `data` of
`echonet.property` (property.go:114-122). -/
structure HProp where
  code : Byte
  data : Slice
deriving DecidableEq, Repr

/-- `protocol.Message` (protocol/message.go:37-49) without source and packet type, which are not slices the
library shares; `ep` holds pointers to properties. -/
structure HMsg where
  ehd1 : Byte
  ehd2 : Byte
  tid : Slice
  seoj : Slice
  deoj : Slice
  esv : ESV
  opc : Byte
  ep : List (Option Nat)
deriving DecidableEq, Repr

/-- The heap. `vars` are the slices the user of the library holds; `sock` is the read buffer of a UDP
socket (transport/udp_socket.go:23). Nothing is ever freed. -/
structure Heap where
  arrays : List Bytes
  props : List HProp
  msgs : List HMsg
  vars : List Slice
  sock : Slice
deriving DecidableEq, Repr

namespace Heap

/-- What a slice shows. -/
def bytes (h : Heap) (s : Slice) : Bytes := ((h.arrays.getD s.arr []).drop s.off).take s.len

/-- `make([]byte, n)`. -/
def make (h : Heap) (n : Nat) : Heap × Slice :=
  ({ h with arrays := h.arrays ++ [List.replicate n 0] }, ⟨h.arrays.length, 0, n⟩)

/-- `s[i]`. -/
def get (h : Heap) (s : Slice) (i : Nat) : Res Byte :=
  if i < s.len then rd (h.arrays.getD s.arr []) (s.off + i) else .panic

/-- `s[i] = b`. -/
def put (h : Heap) (s : Slice) (i : Nat) (b : Byte) : Res Heap :=
  if i < s.len then .ok { h with arrays := h.arrays.modify s.arr (fun a => a.set (s.off + i) b) }
  else .panic

/-- `s[lo:hi]`. -/
def sub (s : Slice) (lo hi : Nat) : Res Slice :=
  if lo ≤ hi ∧ hi ≤ s.len then .ok ⟨s.arr, s.off + lo, hi - lo⟩ else .panic

/-- Write bytes to the front of a slice: what `copy` does with the bytes of its source. -/
def fill (h : Heap) (dst : Slice) (bs : Bytes) : Heap :=
  let d := bs.take dst.len
  { h with arrays := h.arrays.modify dst.arr (fun a => a.take dst.off ++ d ++ a.drop (dst.off + d.length)) }

/-- `newProperty` (protocol/property.go:51-57, property.go:183-193): the new heap and the pointer. -/
def newProperty (h : Heap) : Heap × Nat :=
  let (h', s) := h.make 0
  ({ h' with props := h'.props ++ [⟨0, s⟩] }, h'.props.length)

/-- `SetCode` (protocol/property.go:81-83). -/
def setCode (h : Heap) (p : Nat) (c : Byte) : Heap :=
  { h with props := h.props.modify p (fun q => { q with code := c }) }

/-- `SetData` (protocol/property.go:91-94, property.go:369-371): `make`, then `copy`. -/
def setData (h : Heap) (p : Nat) (data : Slice) : Heap :=
  let (h', d) := h.make data.len
  let h' := h'.fill d (h'.bytes data)
  { h' with props := h'.props.modify p (fun q => { q with data := d }) }

/-- `newProtocolPropertyFrom` (property_data.go:22-27), and the property `message.Properties` makes
(message.go:123-126). -/
def copyProperty (h : Heap) (p : Nat) : Heap × Nat :=
  match h.props[p]? with
  | none => (h, p)
  | some q =>
    let (h', n) := h.newProperty
    ((h'.setCode n q.code).setData n q.data, n)

/-- `protocol.NewMessage` (protocol/message.go:52-67). -/
def newMessage (h : Heap) : Heap × HMsg :=
  let (h, tid) := h.make tidSize
  let (h, seoj) := h.make eojSize
  let (h, deoj) := h.make eojSize
  (h, { ehd1 := ehd1Echonet, ehd2 := ehd2Format1, tid := tid, seoj := seoj, deoj := deoj, esv := 0, opc := 0,
        ep := [] })

/-- The loop of `SetOPC` (protocol/message.go:235-237). -/
def newProperties (h : Heap) : Nat → Heap × List (Option Nat)
  | 0 => (h, [])
  | k + 1 =>
    let (h, p) := h.newProperty
    let (h, ps) := newProperties h k
    (h, some p :: ps)

/-- `SetOPC` (protocol/message.go:232-239). -/
def setOPC (h : Heap) (m : HMsg) (value : Int) : Heap × HMsg :=
  let opc := BitVec.ofInt 8 value
  let (h, ps) := h.newProperties opc.toNat
  (h, { m with opc := opc, ep := ps })

/-- `parseFrameHeaderBytes` (protocol/message_parser.go:12-33). -/
def parseFrameHeaderBytes (h : Heap) (m : HMsg) (data : Slice) : Res Heap :=
  if data.len < frameHeaderSize then .err .invalid
  else do
    if (← h.get data 0) ≠ ehd1Echonet then .err .invalid
    else if (← h.get data 1) ≠ ehd2Format1 then .err .invalid
    else do
      let h ← h.put m.tid 0 (← h.get data 2)
      h.put m.tid 1 (← h.get data 3)

/-- `parseFormat1HeaderBytes` (protocol/message_parser.go:36-65). -/
def parseFormat1HeaderBytes (h : Heap) (m : HMsg) (data : Slice) : Res (Heap × HMsg) :=
  if data.len < format1HeaderSize then .err .invalid
  else do
    let h ← h.put m.seoj 0 (← h.get data 0)
    let h ← h.put m.seoj 1 (← h.get data 1)
    let h ← h.put m.seoj 2 (← h.get data 2)
    let h ← h.put m.deoj 0 (← h.get data 3)
    let h ← h.put m.deoj 1 (← h.get data 4)
    let h ← h.put m.deoj 2 (← h.get data 5)
    let m := { m with esv := ← h.get data 6 }
    .ok (h.setOPC m (← h.get data 7).toNat)

/-- `Message.Property` (protocol/message.go:260-265) for an index that is not negative. -/
def property (ep : List (Option Nat)) (n : Nat) : Option Nat :=
  if (ep.length : Int) - 1 < n then none else (ep[n]?).join

/-- One iteration of the loop of `parseFormat1PropertyBytes` (protocol/message_parser.go:72-105). -/
def parsePropertyStep (ep : List (Option Nat)) (data : Slice) (n : Nat) : Heap × Nat → Res (Heap × Nat)
  | (h, offset) =>
    let dataSize : Int := data.len
    match property ep n with
    | none => .ok (h, offset)
    | some p =>
      if dataSize - 1 < offset then .ok (h, offset)
      else do
        let h := h.setCode p (← h.get data offset)
        let offset := offset + 1
        if dataSize - 1 < offset then .ok (h, offset)
        else do
          let propDataSize := (← h.get data offset).toNat
          let offset := offset + 1
          if dataSize - 1 < (offset : Int) + propDataSize - 1 then .ok (h, offset)
          else do
            let h := h.setData p (← sub data offset (offset + propDataSize))
            .ok (h, offset + propDataSize)

/-- `ParseBytes` (protocol/message_parser.go:111-134) on a new message, that is, `NewMessageWithBytes`
(protocol/message.go:79-85). -/
def newMessageWithBytes (h : Heap) (data : Slice) : Res (Heap × HMsg) := do
  let (h, m) := h.newMessage
  let h ← h.parseFrameHeaderBytes m data
  let (h, m) ← h.parseFormat1HeaderBytes m (← sub data frameHeaderSize data.len)
  let rest ← sub data format1MinSize data.len
  let (h, _) ← forRange m.opc.toNat (parsePropertyStep m.ep rest) (h, 0)
  .ok (h, m)

/-- What a pointer to a property shows. -/
def propAt (h : Heap) (p : Nat) : Option PProp := (h.props[p]?).map (fun q => ⟨q.code, h.bytes q.data⟩)

/-- What a message shows, as a value of the rest of the model. -/
def message (h : Heap) (m : HMsg) : Message :=
  { Message.new with
      ehd1 := m.ehd1, ehd2 := m.ehd2, tid := h.bytes m.tid, seoj := h.bytes m.seoj, deoj := h.bytes m.deoj,
      esv := m.esv, opc := m.opc, ep := m.ep.map (fun r => r.bind h.propAt) }

/-- What can be done: by the user with the slices they hold, and by the library on their behalf. -/
inductive HOp where
  /-- The user makes a slice of their own. -/
  | buffer (bs : Bytes)
  /-- The user takes a part of a slice, or extends it over its array. -/
  | sub (v lo hi : Nat)
  /-- The user writes to a slice. -/
  | write (v i : Nat) (b : Byte)
  /-- `NewPropertyWithCode` (protocol/property.go:65-69). -/
  | newProp (c : Byte)
  /-- `SetCode`. -/
  | setCode (p : Nat) (c : Byte)
  /-- `SetData`. -/
  | setData (p v : Nat)
  /-- `Data` (protocol/property.go:97-99, property.go:395-397): the user gets the slice of the property. -/
  | getData (p : Nat)
  /-- `ToProtocol` and the elements of `Properties`. -/
  | copyProp (p : Nat)
  /-- `NewMessage`. -/
  | newMsg
  /-- `SetTID` (protocol/message.go:162-169). -/
  | setTID (m : Nat) (v : GoUint)
  /-- `SetSEOJ` (protocol/message.go:187-189). -/
  | setSEOJ (m : Nat) (c : ObjectCode)
  /-- `SetDEOJ` (protocol/message.go:202-204). -/
  | setDEOJ (m : Nat) (c : ObjectCode)
  /-- `SetESV` (protocol/message.go:217-219). -/
  | setESV (m : Nat) (e : ESV)
  /-- `SetOPC`. -/
  | setOPC (m : Nat) (n : Int)
  /-- `AddProperty` (protocol/message.go:247-250). -/
  | addProp (m p : Nat)
  /-- `Bytes` (protocol/message.go:344-389): the user gets the new slice. -/
  | msgBytes (m : Nat)
  /-- `NewMessageWithBytes`. -/
  | parse (v : Nat)
  /-- `UDPSocket.ReadMessage` (transport/udp_socket.go:127-149): the datagram is put into the read buffer
  of the socket and parsed from there. -/
  | receive (d : Bytes)
deriving DecidableEq, Repr

/-- Add the message of a successful parse. -/
def addParsed (h : Heap) : Res (Heap × HMsg) → Heap
  | .ok (h', m) => { h' with msgs := h'.msgs ++ [m] }
  | _ => h

/-- A step. An operation on something that does not exist, or that panics, changes nothing; the arrays
allocated by a parse that fails are not kept, nothing refers to them. -/
def step (h : Heap) : HOp → Heap
  | .buffer bs =>
    let (h', s) := h.make bs.length
    let h' := h'.fill s bs
    { h' with vars := h'.vars ++ [s] }
  | .sub v lo hi =>
    match h.vars[v]? with
    | none => h
    | some s =>
      if lo ≤ hi ∧ s.off + hi ≤ (h.arrays.getD s.arr []).length then
        { h with vars := h.vars ++ [⟨s.arr, s.off + lo, hi - lo⟩] }
      else h
  | .write v i b =>
    match h.vars[v]? with
    | none => h
    | some s => match h.put s i b with
      | .ok h' => h'
      | _ => h
  | .newProp c => let (h', p) := h.newProperty; h'.setCode p c
  | .setCode p c => h.setCode p c
  | .setData p v =>
    match h.vars[v]? with
    | none => h
    | some s => h.setData p s
  | .getData p =>
    match h.props[p]? with
    | none => h
    | some q => { h with vars := h.vars ++ [q.data] }
  | .copyProp p => (h.copyProperty p).1
  | .newMsg => let (h', m) := h.newMessage; { h' with msgs := h'.msgs ++ [m] }
  | .setTID m v =>
    match h.msgs[m]? with
    | none => h
    | some msg => h.fill msg.tid ((h.message msg).setTID v).tid
  | .setSEOJ m c =>
    match h.msgs[m]? with
    | none => h
    | some msg => h.fill msg.seoj ((h.message msg).setSEOJ c).seoj
  | .setDEOJ m c =>
    match h.msgs[m]? with
    | none => h
    | some msg => h.fill msg.deoj ((h.message msg).setDEOJ c).deoj
  | .setESV m e => { h with msgs := h.msgs.modify m (fun msg => { msg with esv := e }) }
  | .setOPC m n =>
    match h.msgs[m]? with
    | none => h
    | some msg =>
      let (h', msg') := h.setOPC msg n
      { h' with msgs := h'.msgs.set m msg' }
  | .addProp m p =>
    if p < h.props.length then
      { h with msgs := h.msgs.modify m (fun msg => { msg with opc := msg.opc + 1, ep := msg.ep ++ [some p] }) }
    else h
  | .msgBytes m =>
    match h.msgs[m]? with
    | none => h
    | some msg => match (h.message msg).bytesRes with
      | .ok bs =>
        let (h', s) := h.make bs.length
        let h' := h'.fill s bs
        { h' with vars := h'.vars ++ [s] }
      | _ => h
  | .parse v =>
    match h.vars[v]? with
    | none => h
    | some s => h.addParsed (h.newMessageWithBytes s)
  | .receive d =>
    let n := min d.length h.sock.len
    let h := h.fill h.sock d
    h.addParsed (h.newMessageWithBytes { h.sock with len := n })

/-- A history. -/
def run (h : Heap) (ops : List HOp) : Heap := ops.foldl step h

/-- The start: a socket with its read buffer (transport/udp_socket.go:27-36). -/
def init : Heap where
  arrays := [List.replicate maxPacketSize 0]
  props := []
  msgs := []
  vars := []
  sock := ⟨0, 0, maxPacketSize⟩

end Heap

end Verif.Model
