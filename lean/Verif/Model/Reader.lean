import Verif.Model.Parser

/-!
# Model of `net/echonet/protocol/message_parser_reader.go`

A reader is any state machine: a `Read` of `n` bytes yields a new state, the bytes
written to the front of the buffer and possibly an error. The `io.Reader` contract
(at most `n` bytes) is the field `le`.
-/

namespace Verif.Model

/-- An `io.Reader` with internal state `σ`. -/
structure Reader (σ : Type) where
  read : σ → Nat → σ × Bytes × Option Err
  le : ∀ s n, (read s n).2.1.length ≤ n

namespace Message

/-- `n, err := reader.Read(buf)` into a zeroed buffer of size `sz`, followed by the two
checks `err != nil` and `n < sz` (protocol/message_parser_reader.go:22-28, 33-39, 51-57,
66-72). Returns the reader state and the filled buffer. -/
def readFull {σ : Type} (r : Reader σ) (s : σ) (sz : Nat) : Res (σ × Bytes) :=
  match r.read s sz with
  | (s', bs, none) => if bs.length < sz then .err .invalid else .ok (s', bs)
  | (_, _, some e) => .err e

/-- One iteration of the loop of `parseFormat1PropertyReader`
(protocol/message_parser_reader.go:16-41). -/
def parseFormat1PropertyReaderStep {σ : Type} (r : Reader σ) (n : Nat) :
    σ × List (Option PProp) → Res (σ × List (Option PProp))
  | (s, ep) => do
    let prop ← propAt ep n
    match prop with
    | none => .ok (s, ep)
    | some p => do
      let (s, hdr) ← readFull r s format1PropertyHeaderSize
      let p := p.setCode (← rd hdr 0)
      let propDataSize := (← rd hdr 1).toNat
      let (s, propData) ← readFull r s propDataSize
      .ok (s, ep.set n (some (p.setData propData)))

/-- `parseFormat1PropertyReader` (protocol/message_parser_reader.go:13-44). -/
def parseFormat1PropertyReader {σ : Type} (r : Reader σ) (s : σ) (m : Message) :
    Res (σ × Message) := do
  let (s, ep) ← forRange m.opc.toNat (parseFormat1PropertyReaderStep r) (s, m.ep)
  .ok (s, { m with ep := ep })

/-- `Message.ParseReader` (protocol/message_parser_reader.go:47-86). -/
def parseReader {σ : Type} (r : Reader σ) (s : σ) (m : Message) : Res (σ × Message) := do
  let (s, frameHeader) ← readFull r s frameHeaderSize
  let m ← m.parseFrameHeaderBytes frameHeader
  let (s, format1Header) ← readFull r s format1HeaderSize
  let m ← m.parseFormat1HeaderBytes format1Header
  parseFormat1PropertyReader r s m

/-- `protocol.NewMessageWithReader` (protocol/message.go:70-76). -/
def newWithReader {σ : Type} (r : Reader σ) (s : σ) : Res (σ × Message) := parseReader r s new

end Message
end Verif.Model
