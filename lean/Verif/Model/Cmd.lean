import Verif.Model.Interface
import Verif.Model.Message

/-!
# Model of the command line tools: `net/echonet/cmd/func.go`, `format.go`, `table.go`,
`table_formatter.go` and `message_formatter.go`

Strings are lists of characters (valid UTF-8). The functions of the Go library are modelled as far
as they are used; how characters beyond ASCII are lowered is a parameter.
-/

namespace Verif.Model

/-- `unicode.ToLower` beyond ASCII. Of these characters only U+0130 and the Kelvin sign U+212A have an
ASCII lower case letter, `i` and `k`. -/
structure Lowering where
  lower : Char → Char
  ascii : ∀ c, c.toNat ≥ 128 → (lower c).toNat ≥ 128 ∨ lower c = 'i' ∨ lower c = 'k'

/-- `unicode.ToLower`. -/
def Lowering.toLower (l : Lowering) (c : Char) : Char :=
  if c.toNat < 128 then (if 'A' ≤ c ∧ c ≤ 'Z' then Char.ofNat (c.toNat + 32) else c) else l.lower c

/-- `len` of a string: its bytes. -/
def byteLen (s : Str) : Nat := (s.map Char.utf8Size).sum

/-- The digits of `encoding/hex`. -/
def fromHexChar (c : Char) : Option Nat :=
  if '0' ≤ c ∧ c ≤ '9' then some (c.toNat - 48)
  else if 'a' ≤ c ∧ c ≤ 'f' then some (c.toNat - 97 + 10)
  else if 'A' ≤ c ∧ c ≤ 'F' then some (c.toNat - 65 + 10)
  else none

/-- `hex.DecodeString`: an error for every character that is no digit, and for an odd number of
them. -/
def hexDecode : Str → Option Bytes
  | [] => some []
  | [_] => none
  | a :: b :: cs =>
    match fromHexChar a, fromHexChar b, hexDecode cs with
    | some x, some y, some bs => some (BitVec.ofNat 8 (x * 16 + y) :: bs)
    | _, _, _ => none

/-- `hexStringToByte` (cmd/func.go:31-47). -/
def hexStringToByte (l : Lowering) (hexStr : Str) : Res Bytes :=
  let cleanHex := (hexStr.map l.toLower).filter (· ≠ ' ')
  if byteLen cleanHex % 2 ≠ 0 then .err .other
  else
    match hexDecode cleanHex with
    | none => .err .other
    | some bytes => .ok bytes

/-- `hexStringToInt` (cmd/func.go:49-63). An `int` has 64 bits; its value is that of the bits as a
signed number. -/
def hexStringToInt (l : Lowering) (hexStr : Str) : Res (BitVec 64) := do
  let bytes ← hexStringToByte l hexStr
  .ok (bytes.foldl (fun result b => (result <<< 8) + b.setWidth 64) 0)

/-! ## Format -/

/-- `Format` (cmd/format.go:13-19). -/
inductive Format where
  | table | json | csv
deriving DecidableEq, Repr

/-- `formatMap` (cmd/format.go:36-40). -/
def formatMap : List (Str × Format) :=
  [(['t', 'a', 'b', 'l', 'e'], .table), (['j', 's', 'o', 'n'], .json), (['c', 's', 'v'], .csv)]

/-- `strings.TrimSpace`; `space` is `unicode.IsSpace`. -/
def trimSpace (space : Char → Bool) (s : Str) : Str :=
  ((s.dropWhile space).reverse.dropWhile space).reverse

/-- `NewFormatFromString` (cmd/format.go:43-49). -/
def newFormatFromString (l : Lowering) (space : Char → Bool) (s : Str) : Res Format :=
  let s := (trimSpace space s).map l.toLower
  match formatMap.find? (fun e => e.1 == s) with
  | some e => .ok e.2
  | none => .err .other

/-- `Format.String` (cmd/format.go:52-59). -/
def Format.string (f : Format) : Str :=
  match formatMap.find? (fun e => e.2 == f) with
  | some e => e.1
  | none => ['u', 'n', 'k', 'n', 'o', 'w', 'n']

/-! ## Tables -/

abbrev Row := List Str

/-- `table` (cmd/table.go:23-26). -/
structure Table where
  columns : Row
  rows : List Row
deriving DecidableEq, Repr

/-- The loop of `stripDuplicateRowColumns` (cmd/table_formatter.go:33-54) for a row that is not the
first one: the row and the new `lastRowContext`. -/
def stripRow (columnIdx : Nat) (last : Str) (row : Row) : Res (Row × Str) := do
  let cell ← rd row columnIdx
  if cell = last then
    if columnIdx = 0 then .ok (← wr row columnIdx [], last)
    else if (← rd row (columnIdx - 1)) = [] then .ok (← wr row columnIdx [], last)
    else .ok (row, last)
  else .ok (row, cell)

/-- The rows after the first one. -/
def stripRows (columnIdx : Nat) : Str → List Row → Res (List Row)
  | _, [] => .ok []
  | last, row :: rows => do
    let (row, last) ← stripRow columnIdx last row
    .ok (row :: (← stripRows columnIdx last rows))

/-- `stripDuplicateRowColumns` (cmd/table_formatter.go:30-56). -/
def stripDuplicateRowColumns (rows : List Row) (columnIdx : Nat) : Res (List Row) :=
  match rows with
  | [] => .ok []
  | row :: rows => do
    let last ← rd row columnIdx
    .ok (row :: (← stripRows columnIdx last rows))

/-- `FilterEmptyRows` (cmd/table_formatter.go:67-84). -/
def Table.filterEmptyRows (t : Table) : Table :=
  { t with rows := t.rows.filter (fun row => row.any (fun cell => cell ≠ [])) }

/-- `HideDuplicateColumns` (cmd/table_formatter.go:28-64). Column numbers are not negative. -/
def Table.hideDuplicateColumns (t : Table) (columnIdxes : List Nat) : Res Table := do
  let rows ← columnIdxes.foldlM stripDuplicateRowColumns t.rows
  .ok (Table.filterEmptyRows { t with rows := rows })

/-- The objects `OutputJSON` (cmd/table.go:70-84) marshals, one for each row: the cell of every
column. A column named as an earlier one overwrites it. -/
def Table.jsonObjects (t : Table) : Res (List (List (Str × Str))) :=
  t.rows.foldlM (fun acc row => do
    let obj ← forRange t.columns.length (fun j obj => do
      let col ← rd t.columns j
      let cell ← rd row j
      .ok (obj.filter (fun e => e.1 ≠ col) ++ [(col, cell)])) []
    .ok (acc ++ [obj])) []

/-- `strings.Join(cols, ",")`. -/
def joinComma : Row → Str
  | [] => []
  | [c] => c
  | c :: cs => c ++ [','] ++ joinComma cs

/-- What `OutputCSV` (cmd/table.go:87-99) prints; a row without cells prints nothing. -/
def Table.csv (t : Table) : Str :=
  (t.columns :: t.rows).flatMap (fun row => if row.length = 0 then [] else joinComma row ++ ['\n'])

/-! ## Messages -/

/-- The digits of `%X`. -/
def hexDigitChar (n : Nat) : Char :=
  ['0', '1', '2', '3', '4', '5', '6', '7', '8', '9', 'A', 'B', 'C', 'D', 'E', 'F'].getD n '0'

/-- `%X` of a number. -/
def fmtX (n : Nat) : Str :=
  if n < 16 then [hexDigitChar n] else fmtX (n / 16) ++ [hexDigitChar (n % 16)]

/-- `%0wX` of a number. -/
def fmtX0 (w n : Nat) : Str := List.replicate (w - (fmtX n).length) '0' ++ fmtX n

/-- `%X` of bytes. -/
def fmtXBytes (bs : Bytes) : Str :=
  bs.flatMap (fun b => [hexDigitChar (b.toNat / 16), hexDigitChar (b.toNat % 16)])

/-- `%d` of a number that is not negative. -/
def fmtD (n : Nat) : Str :=
  if n < 10 then [hexDigitChar n] else fmtD (n / 10) ++ [hexDigitChar (n % 10)]

/-- `defaultMessageFormatter.Columns` (cmd/message_formatter.go:34-58). -/
def messageColumns (msgs : List Message) : Row :=
  let opc := msgs.foldl (fun opc msg => if opc < msg.getOPC then msg.getOPC else opc) 0
  ["EHD".toList, "TID".toList, "SEOJ".toList, "DEOJ".toList, "ESV".toList, "OPC".toList] ++
    (List.range opc).flatMap (fun n =>
      ["EPC".toList ++ fmtD n, "PDC".toList ++ fmtD n, "EDT".toList ++ fmtD n])

/-- The cells of a property (cmd/message_formatter.go:72-79); `message.Properties`
(net/echonet/message.go:119-129) panics on a nil property. -/
def propertyCells : Option PProp → Res Row
  | none => .panic
  | some p => .ok [fmtX0 2 p.code.toNat, fmtX0 2 p.size, fmtXBytes p.data]

/-- The cells of all properties. -/
def propertiesCells : List (Option PProp) → Res Row
  | [] => .ok []
  | p :: ps => do
    let c ← propertyCells p
    .ok (c ++ (← propertiesCells ps))

/-- The row of a message (cmd/message_formatter.go:63-80). -/
def messageRow (msg : Message) : Res Row := do
  let cells ← propertiesCells msg.ep
  .ok ([fmtX0 2 msg.ehd1.toNat ++ fmtX0 2 msg.ehd2.toNat,
    fmtX0 4 msg.getTID.toNat,
    fmtX0 6 msg.getSEOJ.toNat,
    fmtX0 6 msg.getDEOJ.toNat,
    fmtX0 2 msg.esv.toNat,
    fmtX0 2 msg.getOPC] ++ cells)

/-- `defaultMessageFormatter.Rows` (cmd/message_formatter.go:60-83). -/
def messageRows : List Message → Res (List Row)
  | [] => .ok []
  | msg :: msgs => do
    let row ← messageRow msg
    .ok (row :: (← messageRows msgs))

/-- The table `get` prints (cmd/get.go:94-95). -/
def messageTable (msgs : List Message) : Res Table := do
  let rows ← messageRows msgs
  .ok { columns := messageColumns msgs, rows := rows }

/-- The request `get` posts (cmd/get.go:41-59), before the controller fills in identifier and source.
Converting the number to `PropertyCode` keeps its last byte. -/
def getRequest (l : Lowering) (obj prop : Str) : Res Message := do
  let objCode ← hexStringToInt l obj
  let propCode ← hexStringToInt l prop
  .ok (((Message.new.setDEOJ objCode).setESV ESV.readRequest).addProperty
    (some ((PProp.new.setCode (propCode.setWidth 8)).setData [])))

/-- The request `set` sends (cmd/set.go:36-60). -/
def setRequest (l : Lowering) (obj prop value : Str) : Res Message := do
  let objCode ← hexStringToInt l obj
  let propCode ← hexStringToInt l prop
  let propData ← hexStringToByte l value
  .ok (((Message.new.setDEOJ objCode).setESV ESV.writeRequest).addProperty
    (some ((PProp.new.setCode (propCode.setWidth 8)).setData propData)))

end Verif.Model
