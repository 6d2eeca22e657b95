import Verif.Go

/-!
# Specification of the ECHONET Lite frame

Written from the ECHONET Lite specification (part 2, section 3), without any
definition of the model.
-/

namespace Verif.Spec

/-- The number written by a byte string, most significant byte first. -/
def beNat : Bytes → Nat
  | [] => 0
  | b :: bs => b.toNat * 256 ^ bs.length + beNat bs

/-- `n` as exactly `k` bytes, most significant first (higher digits dropped). -/
def beBytes : (k : Nat) → Nat → Bytes
  | 0, _ => []
  | k + 1, n => BitVec.ofNat 8 (n / 256 ^ k) :: beBytes k n

/-- A property as it travels: EPC and EDT (PDC is the length of EDT). -/
structure WireProp where
  epc : Byte
  edt : Bytes
deriving DecidableEq, Repr

/-- Fields of a format 1 frame. -/
structure Frame where
  tid : Nat
  seoj : Nat
  deoj : Nat
  esv : Byte
  props : List WireProp
deriving DecidableEq, Repr

/-- Numbers fit their fields, and property count and data sizes fit one byte. -/
def Frame.Valid (f : Frame) : Prop :=
  f.tid < 256 ^ 2 ∧ f.seoj < 256 ^ 3 ∧ f.deoj < 256 ^ 3 ∧
  f.props.length < 256 ∧ ∀ p ∈ f.props, p.edt.length < 256

/-- EPC, PDC, EDT. -/
def WireProp.encode (p : WireProp) : Bytes :=
  p.epc :: BitVec.ofNat 8 p.edt.length :: p.edt

/-- EHD1 EHD2 TID SEOJ DEOJ ESV OPC (EPC PDC EDT)*. -/
def Frame.encode (f : Frame) : Bytes :=
  [0x10#8, 0x81#8] ++ beBytes 2 f.tid ++ beBytes 3 f.seoj ++ beBytes 3 f.deoj ++
    [f.esv, BitVec.ofNat 8 f.props.length] ++ f.props.flatMap WireProp.encode

end Verif.Spec
