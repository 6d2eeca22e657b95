import Verif.Go

/-!
# Property maps (ECHONET Lite specification, part 5, appendix 1)

A property map lists at most 128 property codes 0x80 … 0xFF. Up to 15 codes: the number of codes,
then the codes. From 16 codes on: the number, then 16 bytes, where bit `b` of byte `r` (counted
from 0) tells whether code `0x80 + 0x10·b + r` is listed.
-/

namespace Verif.Spec

/-- Bit `b` of the bitmap byte `r` of a set of codes. -/
def mapBit (codes : List Byte) (r b : Nat) : Bool :=
  codes.contains (BitVec.ofNat 8 (0x80 + 0x10 * b + r))

/-- The number with the given bits. -/
def ofBits (f : Nat → Bool) : Nat := (List.range 8).foldl (fun acc b => acc + if f b then 2 ^ b else 0) 0

/-- The standard description of a list of codes. -/
def propertyMap (codes : List Byte) : Bytes :=
  if codes.length ≤ 15 then BitVec.ofNat 8 codes.length :: codes
  else BitVec.ofNat 8 codes.length ::
    (List.range 16).map (fun r => BitVec.ofNat 8 (ofBits (mapBit codes r)))

end Verif.Spec
