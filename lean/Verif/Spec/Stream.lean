import Verif.Model.Reader
import Verif.Spec.Wire

/-!
# Streams

`segReader` is a buffered reader over a connection on which the bytes arrive in segments:
one `Read` delivers bytes of one segment only, a read of zero bytes delivers nothing
(Go's `bufio.Reader`: "the bytes are taken from at most one Read on the underlying Reader").
`bytesReader` is Go's `bytes.Reader`, which answers EOF at the end even to a read of zero
bytes. Both are standard library behaviour and part of the trusted base.
-/

namespace Verif.Spec
open Verif Model

/-- Segments left to deliver (empty ones are never kept in front). -/
def segNorm : List Bytes → List Bytes
  | [] :: cs => segNorm cs
  | cs => cs

/-- End of input. -/
def eof : Err := .io 0

def segRead (s : List Bytes) (n : Nat) : List Bytes × Bytes × Option Err :=
  if n = 0 then (s, [], none)
  else match segNorm s with
    | [] => ([], [], some eof)
    | c :: cs => (c.drop n :: cs, c.take n, none)

def segReader : Reader (List Bytes) where
  read := segRead
  le := by
    intro s n
    unfold segRead
    split
    · simp
    · split
      · simp
      · simp; omega

def bytesReader : Reader Bytes where
  read s n := match s with
    | [] => ([], [], some eof)
    | c :: cs => ((c :: cs).drop n, (c :: cs).take n, none)
  le := by
    intro s n
    cases s <;> simp
    omega

/-- Any reader, remembering the bytes it delivered. -/
def logged {σ : Type} (r : Reader σ) : Reader (σ × Bytes) where
  read s n := let x := r.read s.1 n; ((x.1, s.2 ++ x.2.1), x.2.1, x.2.2)
  le s n := r.le s.1 n

/-- The sizes of the pieces a frame is read in: 4 (header and TID), 8 (SEOJ, DEOJ, ESV,
OPC), then for every property 2 (EPC, PDC) and PDC. -/
def propPieces (ps : List WireProp) : List Nat := ps.flatMap (fun p => [2, p.edt.length])
def pieces (f : Frame) : List Nat := 4 :: 8 :: propPieces f.props

/-- Pieces laid out one after the other over segments of the given sizes: every non-empty
piece lies within one segment. -/
def aligned : List Nat → List Nat → Bool
  | [], _ => true
  | 0 :: ps, ss => aligned ps ss
  | (_ + 1) :: _, [] => false
  | (n + 1) :: ps, 0 :: ss => aligned ((n + 1) :: ps) ss
  | (n + 1) :: ps, (s + 1) :: ss => if n ≤ s then aligned ps ((s - n) :: ss) else false

end Verif.Spec
