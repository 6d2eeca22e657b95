import Verif.Model.Address
import Verif.Model.Scan

/-!
# Model of the text forms of codes, messages and nodes

`protocol/object.go`, `protocol/esv.go`, `protocol/message.go` and `remote_node.go`.
-/

namespace Verif.Model

/-- `ObjectCode.String` (protocol/object.go:32-34): `%06X`. -/
def ObjectCode.string (c : ObjectCode) : Str := fmtX0 6 c.toNat

/-- `ESV.String` (protocol/esv.go:151-153): `%02X`. -/
def ESV.string (e : ESV) : Str := fmtX0 2 e.toNat

/-- `Message.String` (protocol/message.go:403-408); a Go nil pointer is `none`. The outcome is that of
`Bytes`. -/
def Message.string : Option Message → Res Str
  | none => .ok []
  | some m => do .ok (hexEncode (← m.bytesRes))

/-- `remoteNode.String` (remote_node.go:165-167), and `localNode.String` (local_node.go:291-293) for the
address and port of the node. -/
def nodeString (address : String) (port : Nat) : Str := joinHostPort address.toList (itoa port)

/-- `remoteNode.String` (remote_node.go:165-167). -/
def RemoteNode.string (n : RemoteNode) : Str := nodeString n.address n.port

end Verif.Model
