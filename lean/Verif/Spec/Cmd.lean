import Verif.Model.Interface
import Verif.Spec.Wire

/-!
# What the command line tools should read and print

Written without looking at the code.
-/

namespace Verif.Spec
open Verif Model

/-- `c` is the hexadecimal digit of value `v`, in either case. -/
def HexDigit (c : Char) (v : Nat) : Prop :=
  "0123456789abcdef".toList[v]? = some c ∨ "0123456789ABCDEF".toList[v]? = some c

/-- Two digits for each byte. -/
inductive HexBytes : Str → Bytes → Prop
  | nil : HexBytes [] []
  | cons {a b : Char} {x y : Nat} {s : Str} {bs : Bytes} :
      HexDigit a x → HexDigit b y → HexBytes s bs →
      HexBytes (a :: b :: s) (BitVec.ofNat 8 (16 * x + y) :: bs)

/-- The number written by hexadecimal digits, the first one being the most significant. -/
inductive HexNumber : Str → Nat → Prop
  | digit {c : Char} {v : Nat} : HexDigit c v → HexNumber [c] v
  | snoc {s : Str} {n : Nat} {c : Char} {v : Nat} :
      HexNumber s n → HexDigit c v → HexNumber (s ++ [c]) (16 * n + v)

/-- The cell shows the number with that many digits. -/
def ShowsNumber (w : Nat) (cell : Option Str) (n : Nat) : Prop :=
  ∃ s, cell = some s ∧ s.length = w ∧ HexNumber s n

/-- The cell shows the bytes. -/
def ShowsBytes (cell : Option Str) (bs : Bytes) : Prop := ∃ s, cell = some s ∧ HexBytes s bs

/-- The text without its blanks. -/
def noBlanks (s : Str) : Str := s.filter (· ≠ ' ')

/-- The same letter in lower or upper case (ASCII). -/
def SameLetter (c lower : Char) : Prop := c = lower ∨ c = lower.toUpper

/-- The same word in any mixture of lower and upper case. -/
def SameWord (s lower : Str) : Prop :=
  s.length = lower.length ∧ ∀ p ∈ s.zip lower, SameLetter p.1 p.2

/-- Reading a column top down, a blank cell meaning the same as above. -/
def fillDown : Str → List Str → List Str
  | _, [] => []
  | above, c :: cs => let v := if c = [] then above else c; v :: fillDown v cs

/-- The cells of a column. -/
def column (rows : List (List Str)) (k : Nat) : List Str := rows.map (·.getD k [])

/-- A reader of comma separated values without quotes: lines, and in each the fields. -/
def splitOn (d : Char) : Str → List Str
  | [] => [[]]
  | c :: cs =>
    if c = d then [] :: splitOn d cs
    else
      match splitOn d cs with
      | [] => [[c]]
      | x :: xs => (c :: x) :: xs

/-- What a reader of comma separated values makes of a text whose lines all end with a line feed. -/
def readCsv (s : Str) : List (List Str) := (splitOn '\n' s).dropLast.map (splitOn ',')

/-- Two lists of the same length whose elements are related one by one. -/
inductive Each {α β : Type} (R : α → β → Prop) : List α → List β → Prop
  | nil : Each R [] []
  | cons {a : α} {b : β} {as : List α} {bs : List β} : R a b → Each R as bs → Each R (a :: as) (b :: bs)

/-- The number a decimal numeral denotes. -/
def decimal (s : Str) : Nat := s.foldl (fun n c => 10 * n + (c.toNat - 48)) 0

end Verif.Spec
