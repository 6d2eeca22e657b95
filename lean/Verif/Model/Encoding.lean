import Verif.Go

/-! # Model of `net/echonet/encoding/binary.go` -/

namespace Verif.Model

/-- `encoding.IntegerToByte` (encoding/binary.go:8-14), for a `uint` of `w` bits.
The buffer `b` is the caller's slice; the result is its content afterwards. The
index `len-1-n` is in range for every iteration, so no panic branch is needed. -/
def integerToByte {w : Nat} (v : BitVec w) (b : Bytes) : Bytes :=
  (List.range b.length).foldl
    (fun acc n => acc.set ((b.length - 1) - n) (((v >>> (n * 8)) &&& 0xFF#w).setWidth 8)) b

/-- `encoding.ByteToInteger` (encoding/binary.go:17-25), for a `uint` of `w` bits.
The read `b[idx]` carries its bounds proof, so no panic branch is needed. -/
def byteToInteger (w : Nat) (b : Bytes) : BitVec w :=
  Fin.foldl b.length
    (fun v n => v + ((b[(b.length - 1) - n.val]'(by omega)).setWidth w <<< (n.val * 8))) 0#w

end Verif.Model
