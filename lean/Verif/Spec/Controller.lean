import Verif.Model.Controller
import Verif.Spec.Wire

/-!
# Instance lists and the nodes they describe

Written without the functions of `Verif.Model.Controller`.
-/

namespace Verif.Spec
open Verif Model

/-- The bytes `d` list the object codes `cs`: a count, then three bytes for each; bytes after
them are ignored. -/
def Lists (d : Bytes) (cs : List Bytes) : Prop :=
  (∀ c ∈ cs, c.length = 3) ∧ ∃ n rest, d = n :: (cs.flatten ++ rest) ∧ n.toNat = cs.length

/-- The message has a first property, this is an instance list (0xD5 or 0xD6), and it lists `cs`. -/
def InstanceList (m : Message) (cs : List Bytes) : Prop :=
  m.opc ≠ 0 ∧ ∃ p, m.ep[0]? = some (some p) ∧ (p.code = 0xD5 ∨ p.code = 0xD6) ∧ Lists p.data cs

/-- The code is one of the profile group (0x0E). -/
def ofProfile (c : Bytes) : Bool := c.head? == some 0x0E

/-- The code of a class: its number. -/
def codeNumber (c : Bytes) : ObjectCode := BitVec.ofNat 64 (beNat c)

/-- Every device class listed is in the database. -/
def Known (db : StdDB) (cs : List Bytes) : Prop :=
  ∀ c ∈ cs, ofProfile c = false → (db.lookupObject (codeNumber c)).isSome

/-- The node `n` is the one described by the codes `cs` in a message from `a`. -/
structure Described (db : StdDB) (autoPort : Bool) (a : Addr) (cs : List Bytes) (n : RemoteNode) :
    Prop where
  address : n.address = a.ip
  port : n.port = if autoPort then a.port else 3610
  devices : n.devices.map (·.codes) = cs.filter (fun c => !ofProfile c)
  made : ∀ o ∈ n.devices, Obj.newDeviceWithCode db o.code = .ok o
  profiles : n.profiles.map (·.codes) =
    [[0x0E, 0xF0, 0x01]] ++ cs.filter ofProfile ++ [[0x0E, 0xF0, 0x01]]

/-- No two nodes have the same address and port. -/
def Distinct (ns : List RemoteNode) : Prop :=
  ns.Pairwise (fun a b => ¬ (a.address = b.address ∧ a.port = b.port))

/-- The nodes reported to a controller listener. -/
def reported (calls : List CtrlCall) : List RemoteNode :=
  calls.filterMap (fun c => match c with | .newNode n => some n | .message _ => none)

/-- The messages passed to a controller listener. -/
def passed (calls : List CtrlCall) : List Message :=
  calls.filterMap (fun c => match c with | .newNode _ => none | .message m => some m)

end Verif.Spec
