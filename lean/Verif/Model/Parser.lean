import Verif.Model.Message

/-!
# Model of `net/echonet/protocol/message_parser.go`

On an error return the partially filled receiver is not modelled (every caller
in the repository drops it).
-/

namespace Verif.Model.Message

/-- `parseFrameHeaderBytes` (protocol/message_parser.go:12-33). -/
def parseFrameHeaderBytes (m : Message) (data : Bytes) : Res Message :=
  if data.length < frameHeaderSize then .err .invalid
  else do
    if (← rd data 0) ≠ ehd1Echonet then .err .invalid
    else if (← rd data 1) ≠ ehd2Format1 then .err .invalid
    else do
      let tid ← wr m.tid 0 (← rd data 2)
      let tid ← wr tid 1 (← rd data 3)
      .ok { m with tid := tid }

/-- `parseFormat1HeaderBytes` (protocol/message_parser.go:36-65). -/
def parseFormat1HeaderBytes (m : Message) (data : Bytes) : Res Message :=
  if data.length < format1HeaderSize then .err .invalid
  else do
    let seoj ← wr m.seoj 0 (← rd data 0)
    let seoj ← wr seoj 1 (← rd data 1)
    let seoj ← wr seoj 2 (← rd data 2)
    let deoj ← wr m.deoj 0 (← rd data 3)
    let deoj ← wr deoj 1 (← rd data 4)
    let deoj ← wr deoj 2 (← rd data 5)
    let m := { m with seoj := seoj, deoj := deoj, esv := ← rd data 6 }
    .ok (m.setOPC (← rd data 7).toNat)

/-- One iteration of the loop of `parseFormat1PropertyBytes`
(protocol/message_parser.go:72-105). The state is the property slice and `offset`;
`prop.SetCode`/`SetData` act on the pointer stored at index `n`. The Go comparisons
`(dataSize-1) < offset` on `int` are written on `Int`. -/
def parseFormat1PropertyStep (data : Bytes) (n : Nat) :
    List (Option PProp) × Nat → Res (List (Option PProp) × Nat)
  | (ep, offset) => do
    let dataSize : Int := data.length
    let prop ← propAt ep n
    match prop with
    | none => .ok (ep, offset)
    | some p =>
      if dataSize - 1 < offset then .ok (ep, offset)
      else do
        let p := p.setCode (← rd data offset)
        let ep := ep.set n (some p)
        let offset := offset + 1
        if dataSize - 1 < offset then .ok (ep, offset)
        else do
          let propDataSize := (← rd data offset).toNat
          let offset := offset + 1
          if dataSize - 1 < (offset : Int) + propDataSize - 1 then .ok (ep, offset)
          else do
            let p := p.setData (← slice data offset (offset + propDataSize))
            .ok (ep.set n (some p), offset + propDataSize)

/-- `parseFormat1PropertyBytes` (protocol/message_parser.go:68-108). -/
def parseFormat1PropertyBytes (m : Message) (data : Bytes) : Res Message := do
  let (ep, _) ← forRange m.opc.toNat (parseFormat1PropertyStep data) (m.ep, 0)
  .ok { m with ep := ep }

/-- `Message.ParseBytes` (protocol/message_parser.go:111-134). -/
def parseBytes (m : Message) (data : Bytes) : Res Message := do
  let m ← m.parseFrameHeaderBytes data
  let m ← m.parseFormat1HeaderBytes (← sliceFrom data frameHeaderSize)
  m.parseFormat1PropertyBytes (← sliceFrom data format1MinSize)

/-- `protocol.NewMessageWithBytes` (protocol/message.go:79-85). -/
def newWithBytes (data : Bytes) : Res Message := new.parseBytes data

/-- `protocol.NewMessageWithMessage` (protocol/message.go:88-101). -/
def newWithMessage (m : Message) : Res Message := do
  let c ← newWithBytes (← m.bytesRes)
  .ok { c with src := m.src, pktType := m.pktType, ifc := m.ifc }

end Verif.Model.Message
