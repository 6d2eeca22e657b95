import Verif.Model.Node

/-!
# Model of several goroutines that write an announced property

The program may call `SetPropertyData` (property_map.go:109-116) for the same property of an object of a node from
several goroutines, and so do request handlers, each in a goroutine of its own. No lock is taken from the
change of the data (property.go:370-371) to the multicast of the announcement (local_node_msssage.go:32), so these
may be interleaved. A step is one access to the property or to the node.

Simplifications: memory is sequentially consistent; the data is replaced in one step (in pieces in
`Verif.Model.DataRace`) and so is the identifier taken (in pieces in `Verif.Model.Tid`); nothing else happens to the node
meanwhile; the transport takes messages in the order in which it is called.
-/

namespace Verif.Model

/-- Where a goroutine is that writes some values one after the other; `todo` are those not yet written. -/
inductive AnnPc where
  | idle (todo : List Bytes)              -- before property_map.go:110, property.go:370
  | check (todo : List Bytes)             -- before property.go:375, 462-467
  | build (todo : List Bytes)             -- before local_node_msssage.go:37-40
  | number (m : Message) (todo : List Bytes)  -- before local_node_msssage.go:27-31
  | send (m : Message) (todo : List Bytes)    -- before local_node_msssage.go:32
deriving DecidableEq, Repr

/-- The node, the goroutines and the messages handed to the transport for multicasting, in order
(local_node_msssage.go:32). -/
structure AnnSt where
  node : Node
  writers : List AnnPc
  sent : List Message
deriving DecidableEq, Repr

namespace AnnSt

/-- Goroutines about to write the values of a list each (property_map.go:109). -/
def init (n : Node) (values : List (List Bytes)) : AnnSt := ⟨n, values.map .idle, []⟩

/-- The message `AnnounceProperty` makes (local_node_msssage.go:37-40). -/
def notice (o : Obj) (p : EProp) : Message :=
  ((Message.new.setESV ESV.notification).setSEOJ o.code).addProperty (some p.toProtocol)

/-- The property with code `c` of object `r`, with the object (property_map.go:110). -/
def find (s : AnnSt) (r : ObjRef) (c : Byte) : Option (Obj × EProp) :=
  (s.node.get r).bind (fun o => (o.props.lookup c).map (fun p => (o, p)))

/-- One step of goroutine `i`, which writes the property with code `c` of object `r` (property_map.go:109-116,
property.go:369-380, 461-472, local_node_msssage.go:26-42). -/
def step (r : ObjRef) (c : Byte) (s : AnnSt) (i : Nat) : AnnSt :=
  match s.writers[i]? with
  | some (.idle (d :: ds)) =>
    match s.find r c with
    | none => ⟨s.node, s.writers.set i (.idle ds), s.sent⟩
    | some (o, p) =>
      ⟨s.node.set r { o with props := o.props.update p.code d }, s.writers.set i (.check ds), s.sent⟩
  | some (.check ds) =>
    match s.find r c with
    | none => ⟨s.node, s.writers.set i (.idle ds), s.sent⟩
    | some (_, p) =>
      if p.isAnnounceable && s.node.running then ⟨s.node, s.writers.set i (.build ds), s.sent⟩
      else ⟨s.node, s.writers.set i (.idle ds), s.sent⟩
  | some (.build ds) =>
    match s.find r c with
    | none => ⟨s.node, s.writers.set i (.idle ds), s.sent⟩
    | some (o, p) => ⟨s.node, s.writers.set i (.number (notice o p) ds), s.sent⟩
  | some (.number m ds) =>
    if s.node.running then
      ⟨s.node.nextTID,
        s.writers.set i (.send ((m.setTID s.node.nextTID.lastTID).setDEOJ nodeProfileObjectCode) ds), s.sent⟩
    else ⟨s.node, s.writers.set i (.idle ds), s.sent⟩
  | some (.send m ds) => ⟨s.node, s.writers.set i (.idle ds), s.sent ++ [m]⟩
  | _ => s

/-- A schedule: which goroutine takes the next step. -/
def run (r : ObjRef) (c : Byte) (s : AnnSt) (is : List Nat) : AnnSt := is.foldl (step r c) s

/-- The data the property holds (property.go:395-397). -/
def held (r : ObjRef) (c : Byte) (s : AnnSt) : Option Bytes := (s.find r c).map (·.2.data)

end AnnSt
end Verif.Model
