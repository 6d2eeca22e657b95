import Verif.Model.Handler
import Verif.Spec.Esv

/-!
# What a node should do with a received message

Written without the functions of `Verif.Model.Handler`, except for the type of callbacks.
-/

namespace Verif.Spec
open Verif Model

/-- `o` is the first object of the list with code `c`, at position `i`. -/
def FirstAt (l : List Obj) (c : ObjectCode) (i : Nat) (o : Obj) : Prop :=
  l[i]? = some o ∧ o.code = c ∧ ∀ j, j < i → ∀ x, l[j]? = some x → x.code ≠ c

/-- The object a code addresses: the first device with this code, or the first profile if there is
no such device. -/
def Addressed (n : Node) (c : ObjectCode) : ObjRef → Obj → Prop
  | .device i, o => FirstAt n.devices c i o
  | .profile i, o => (∀ x ∈ n.devices, x.code ≠ c) ∧ FirstAt n.profiles c i o

/-- The properties of a message, as far as its property count says. -/
def properties (m : Message) : List PProp := (m.ep.take m.opc.toNat).filterMap id

/-- The object lets the service `e` be applied to the property `p` of a message. -/
def Permits (o : Obj) (e : Byte) (p : PProp) : Prop :=
  ∃ q, o.props.lookup p.code = some q ∧
    (e = 0x60 ∨ e = 0x61 ∨ e = 0x6E → q.setAttr ≠ 0 ∧ p.data.length = q.data.length) ∧
    (e = 0x62 ∨ e = 0x6E → q.getAttr ≠ 0)

/-- The message is one the node should act on. -/
def Accepts (n : Node) (m : Message) : Prop :=
  ∃ r o, Addressed n m.getDEOJ r o ∧ (∃ s ∈ Esv.table, s.code = m.esv) ∧
    (m.esv = 0x60 ∨ m.esv = 0x61 ∨ m.esv = 0x62 ∨ m.esv = 0x6E →
      ∀ p ∈ properties m, Permits o m.esv p)

/-- The callbacks a message for object `r` should reach, in order. -/
def expectedCalls (env : Env) (r : ObjRef) (m : Message) : List Call :=
  (if env.listener then [.message m] else []) ++
  (properties m).flatMap (fun p =>
    (if env.objListener r then [.request r m.esv p] else []) ++
    (if env.reqHandler r then [.handler r m.esv p] else []))

/-- Calling the callbacks `cs` one after the other, and nothing else, takes the node from `n` to
`n'`, sends `ms` and gives the results `rs`; `done` are the calls made before. -/
inductive Effects (env : Env) (db : StdDB) :
    Node → List Call → List Call → Node → List Sent → List (Option Err) → Prop
  | nil (n done) : Effects env db n done [] n [] []
  | cons {n done c cs n'' ms rs} :
      Effects env db (NodeOp.runAll db n (env.behave n done c).1).1 (done ++ [c]) cs n'' ms rs →
      Effects env db n done (c :: cs) n''
        ((NodeOp.runAll db n (env.behave n done c).1).2 ++ ms) ((env.behave n done c).2 :: rs)

end Verif.Spec
