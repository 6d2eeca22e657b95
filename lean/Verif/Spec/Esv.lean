import Verif.Go

/-!
# ECHONET Lite service codes

Tables 3-9 to 3-11 of the ECHONET Lite specification (part 2, section 3.2.5).
-/

namespace Verif.Spec.Esv

inductive Kind where
  | request | response | notification | error
deriving DecidableEq, Repr

structure Service where
  code : Byte
  kind : Kind
  writes : Bool     -- asks to write, or answers a write
  reads : Bool      -- asks to read, or answers a read
  reply : Option Byte   -- code of the answer that has to follow
  refusal : Option Byte -- code of the answer when the request cannot be served
deriving DecidableEq, Repr

/-- The services of ECHONET Lite. `INFC` (0x74) is a notification that is answered by
`INFC_Res`; it has no refusal of its own in the table. `INF_REQ` is answered by `INF`. -/
def table : List Service := [
  ⟨0x60, .request,  true,  false, none,      some 0x50⟩,   -- SetI
  ⟨0x61, .request,  true,  false, some 0x71, some 0x51⟩,   -- SetC
  ⟨0x62, .request,  false, true,  some 0x72, some 0x52⟩,   -- Get
  ⟨0x63, .request,  false, false, some 0x73, some 0x53⟩,   -- INF_REQ
  ⟨0x6E, .request,  true,  true,  some 0x7E, some 0x5E⟩,   -- SetGet
  ⟨0x71, .response, true,  false, none, none⟩,             -- Set_Res
  ⟨0x72, .response, false, true,  none, none⟩,             -- Get_Res
  ⟨0x73, .notification, false, false, none, none⟩,         -- INF
  ⟨0x74, .notification, false, false, some 0x7A, none⟩,    -- INFC
  ⟨0x7A, .response, false, false, none, none⟩,             -- INFC_Res
  ⟨0x7E, .response, true,  true,  none, none⟩,             -- SetGet_Res
  ⟨0x50, .error, true,  false, none, none⟩,                -- SetI_SNA
  ⟨0x51, .error, true,  false, none, none⟩,                -- SetC_SNA
  ⟨0x52, .error, false, true,  none, none⟩,                -- Get_SNA
  ⟨0x53, .error, false, false, none, none⟩,                -- INF_SNA
  ⟨0x5E, .error, true,  true,  none, none⟩]                -- SetGet_SNA

def find (c : Byte) : Option Service := table.find? (fun s => s.code == c)

end Verif.Spec.Esv
