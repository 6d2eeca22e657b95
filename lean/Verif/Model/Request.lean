import Verif.Model.Handler

/-!
# Model of building requests and of reading responses (`net/echonet/message.go`)
-/

namespace Verif.Model

/-- The options of `NewMessage` (message.go:51-69). A nil property in `WithMessageProperties` is not
modelled (it panics in `newProtocolPropertyFrom`). -/
inductive MsgOpt where
  | deoj (c : ObjectCode)
  | esv (e : ESV)
  | props (ps : List EProp)
deriving DecidableEq

namespace Message

/-- `message.AddProperties` (message.go:111-116); `AddProperty` (105-108) is the case of one property. -/
def addEProps (m : Message) (ps : List EProp) : Message :=
  ps.foldl (fun m p => m.addProperty (some p.toProtocol)) m

/-- What an option does (message.go:51-69) with `SetDEOJ` and `SetESV` (93-102). -/
def apply (m : Message) : MsgOpt → Message
  | .deoj c => m.setDEOJ c
  | .esv e => m.setESV e
  | .props ps => m.addEProps ps

/-- `NewMessage` (message.go:73-79, 88-90). -/
def build (opts : List MsgOpt) : Message := opts.foldl apply Message.new

/-- The loop of `message.Properties` (message.go:122-127): `Code()` of a nil property panics. -/
def clientProps : List (Option PProp) → Res (List EProp)
  | [] => .ok []
  | none :: _ => .panic
  | some p :: ps => do
    let rest ← clientProps ps
    .ok (EProp.make p.code "" p.data .prohibited .prohibited .prohibited :: rest)

/-- `message.Properties` (message.go:119-129) with `protocol.Message.Properties`
(protocol/message.go:268-270). -/
def clientProperties (m : Message) : Res (List EProp) := clientProps m.ep

/-- `message.Property` (message.go:132-138): none is `nil, false`. -/
def clientProperty (m : Message) (n : Int) : Res (Option EProp) := do
  let ps ← m.clientProperties
  if n < 0 ∨ (ps.length : Int) ≤ n then .ok none else .ok ps[n.toNat]?

end Message

/-- The message of `localNode.SendRequest` and `PostRequest` (local_node_msssage.go:204-221). -/
def requestOf (objCode : ObjectCode) (esv : ESV) (ps : List EProp) : Message :=
  Message.build [.deoj objCode, .esv esv, .props ps]

/-- `localNode.SendRequest` (local_node_msssage.go:204-211) up to the transport: the node afterwards, the
message handed to the transport, the error. -/
def Node.sendRequest (n : Node) (objCode : ObjectCode) (esv : ESV) (ps : List EProp) :
    Node × Option Message × Option Err :=
  n.sendMessage (requestOf objCode esv ps)

end Verif.Model
