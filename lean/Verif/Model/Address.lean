import Verif.Model.Cmd

/-!
# Model of addresses

`protocol/address.go`, and the functions of the Go standard library it calls: `net.SplitHostPort`,
`net.JoinHostPort`, `net.ParseIP`, `net.IP.String`, `strconv.Atoi`, `strconv.Itoa`. The text form of
IPv6 addresses is a parameter.
-/

namespace Verif.Model

/-- The part of the standard library that reads and writes IPv6 addresses (16 bytes). -/
structure V6 where
  parse : Str → Option Bytes
  format : Bytes → Str

/-- `net.JoinHostPort` (Go standard library). -/
def joinHostPort (host port : Str) : Str :=
  if ':' ∈ host then '[' :: host ++ [']', ':'] ++ port else host ++ ':' :: port

/-- The index of the last colon (`bytealg.LastIndexByteString`). -/
def lastColon (s : Str) : Option Nat :=
  match s.reverse.idxOf? ':' with
  | none => none
  | some i => some (s.length - 1 - i)

/-- `net.SplitHostPort` (Go standard library); all errors are one. -/
def splitHostPort (s : Str) : Option (Str × Str) :=
  match lastColon s with
  | none => none
  | some i =>
    if s.head? = some '[' then
      match s.idxOf? ']' with
      | none => none
      | some e =>
        if e + 1 ≠ i then none
        else if '[' ∈ s.drop 1 then none
        else if ']' ∈ s.drop (e + 1) then none
        else some ((s.take e).drop 1, s.drop (i + 1))
    else if ':' ∈ s.take i then none
    else if '[' ∈ s then none
    else if ']' ∈ s then none
    else some (s.take i, s.drop (i + 1))

/-- The value of a decimal digit. -/
def digitValue (c : Char) : Nat := c.toNat - 48

/-- The loop of `parseIPv4Fields` (Go standard library, net/netip): the fields read, and the value and
number of digits of the current one. The code looks for a missing digit at a point beside the next or
previous one, and at the ends; here it is found by the number of digits. -/
def ipv4Loop : Bytes → Nat → Nat → Str → Option Bytes
  | fields, val, digLen, [] =>
    if digLen = 0 then none else if fields.length < 3 then none else some (fields ++ [BitVec.ofNat 8 val])
  | fields, val, digLen, c :: s =>
    if c.isDigit then
      if digLen = 1 ∧ val = 0 then none
      else if 255 < val * 10 + digitValue c then none
      else ipv4Loop fields (val * 10 + digitValue c) (digLen + 1) s
    else if c = '.' then
      if digLen = 0 then none
      else if fields.length = 3 then none
      else ipv4Loop (fields ++ [BitVec.ofNat 8 val]) 0 0 s
    else none

/-- An IPv4 address in the 16 byte form. -/
def v4InV6 (b : Bytes) : Bytes := [0, 0, 0, 0, 0, 0, 0, 0, 0, 0, 0xFF, 0xFF] ++ b

/-- `net.ParseIP` (Go standard library): the first of the characters `.`, `:`, `%` decides. `none` stands
for nil. -/
def parseIP (v6 : V6) (s : Str) : Option Bytes :=
  match s.find? (fun c => c = '.' ∨ c = ':' ∨ c = '%') with
  | some '.' => (ipv4Loop [] 0 0 s).map v4InV6
  | some ':' => v6.parse s
  | _ => none

/-- Four bytes in dotted decimal. -/
def dotted (b : Bytes) : Str := List.intercalate ['.'] (b.map (fun x => fmtD x.toNat))

/-- `net.IP.String` (Go standard library) for an address of 4 or 16 bytes or nil; other lengths, which
no function of the library gives, are treated as nil. -/
def ipString (v6 : V6) (ip : Bytes) : Str :=
  if ip.length = 4 then dotted ip
  else if ip.length = 16 then
    if ip.take 12 = [0, 0, 0, 0, 0, 0, 0, 0, 0, 0, 0xFF, 0xFF] then dotted (ip.drop 12) else v6.format ip
  else "<nil>".toList

/-- `strconv.Itoa` (Go standard library). -/
def itoa (n : Int) : Str := if n < 0 then '-' :: fmtD n.natAbs else fmtD n.natAbs

/-- The digits of a number, all of them decimal. -/
def atoiDigits : Nat → Str → Option Nat
  | acc, [] => some acc
  | acc, c :: s => if c.isDigit then atoiDigits (acc * 10 + digitValue c) s else none

/-- `strconv.Atoi` (Go standard library): an optional sign, at least one digit, the range of a 64 bit
`int`. -/
def atoi (s : Str) : Option Int :=
  let neg := s.head? = some '-'
  let ds := if neg ∨ s.head? = some '+' then s.drop 1 else s
  if ds = [] then none
  else
    match atoiDigits 0 ds with
    | none => none
    | some n =>
      if neg then if n ≤ 2 ^ 63 then some (-n) else none
      else if n < 2 ^ 63 then some n else none

/-- `protocol.Address` (protocol/address.go:14-18); an empty `ip` is nil. `Zone` is never set. -/
structure Address where
  ip : Bytes
  port : Int
deriving DecidableEq, Repr

/-- `Address.ParseString` (protocol/address.go:41-56): the address afterwards, and whether there was no
error. -/
def Address.parseString (v6 : V6) (a : Address) (s : Str) : Address × Bool :=
  match splitHostPort s with
  | none => (a, false)
  | some (host, port) =>
    let a := { a with ip := (parseIP v6 host).getD [] }
    match atoi port with
    | none => (a, false)
    | some p => ({ a with port := p }, true)

/-- `NewAddressWithString` (protocol/address.go:31-38) with `NewAddress` (21-28). -/
def Address.ofString (v6 : V6) (s : Str) : Option Address :=
  match Address.parseString v6 ⟨[], 0⟩ s with
  | (a, true) => some a
  | (_, false) => none

/-- `Address.String` (protocol/address.go:59-61). -/
def Address.string (v6 : V6) (a : Address) : Str := joinHostPort (ipString v6 a.ip) (itoa a.port)

end Verif.Model
