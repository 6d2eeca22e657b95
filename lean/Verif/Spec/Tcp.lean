import Verif.Spec.Stream

/-!
# What a TCP connection delivers

A `bufio.Reader` asks the connection for up to 4096 bytes at a time. So what arrives in one portion
is seen in blocks of at most 4096 bytes.
-/

namespace Verif.Spec
open Verif Model

/-- `b` cut into blocks of `k` bytes, the last one may be shorter. -/
def blocks (k : Nat) (b : Bytes) : List Bytes :=
  if b.length ≤ k ∨ k = 0 then [b] else b.take k :: blocks k (b.drop k)
termination_by b.length
decreasing_by simp; omega

/-- Portions as a reader with a buffer of `k` bytes gets them. -/
def portions (k : Nat) (segs : List Bytes) : List Bytes := segs.flatMap (blocks k)

end Verif.Spec
