import Verif.Model.SuperObject

/-!
# What a user can do to an object, and what the object should then hold

The operations of a device, profile or super object, in terms of the public methods, and an
abstract object: its code bytes and a partial map from property codes to properties.
-/

namespace Verif.Spec
open Verif Model

/-- A call of a public method that changes an object. -/
inductive ObjOp where
  | add (p : EProp)                       -- AddProperty
  | setCode (c : ObjectCode)              -- SetCode
  | setCodes (cs : Bytes)                 -- SetCodes
  | write (c : Byte) (d : Bytes)          -- SetPropertyData
  | writeByte (c b : Byte)                -- SetPropertyByte
  | writeInt (c : Byte) (v n : GoUint)    -- SetPropertyInteger
  | setName (s : String)                  -- SetName
  | setClassName (s : String)             -- SetClassName
  | setInstance (b : Byte)                -- SetInstanceCode
  | setGroup (b : Byte)                   -- SetClassGroupCode
  | setClass (b : Byte)                   -- SetClassCode
  | clear (c : Byte)                      -- Clear on the property under code c, if there is one
  | announce (c : Byte)                   -- Announce on the property under code c, if there is one
  | bareAdd (p : EProp)                   -- AddProperty on the inner object, see `run`
  | bareSetCode (c : ObjectCode)          -- SetCode on the inner object
  | bareSetCodes (cs : Bytes)             -- SetCodes on the inner object
deriving DecidableEq, Repr

namespace ObjOp

/-- The call on a super object, device or profile (the model of the code). A super object wraps a plain `object`
(super_object.go:55-57, 61-63). This inner object is what `Object()` of a property returns (property_map.go:53,
object.go:124, property.go:201-203) and what request handlers and listeners get (object.go:247-255): on it `AddProperty`,
`SetCode` and `SetCodes` are those of `object`, all other methods are the same as on the device. -/
def run (db : StdDB) (o : Obj) : ObjOp → Obj × List Ann × Option Err
  | add p => let (o, a) := o.superAddProperty p; (o, a, none)
  | setCode c => let (o, a) := o.superSetCode db c; (o, a, none)
  | setCodes cs => let (o, a) := o.superSetCodes db cs; (o, a, none)
  | write c d => o.setPropertyData c d
  | writeByte c b => o.setPropertyByte c b
  | writeInt c v n => o.setPropertyInteger c v n
  | setName s => (o.setName s, [], none)
  | setClassName s => (o.setClassName s, [], none)
  | setInstance b => (o.setInstanceCode b, [], none)
  | setGroup b => (o.setClassGroupCode b, [], none)
  | setClass b => (o.setClassCode b, [], none)
  | clear c => (o.clearProperty c, [], none)
  | announce c => (o, o.announceProperty c, none)
  | bareAdd p => (o.addProperty p, [], none)
  | bareSetCode c => (o.setCode c, [], none)
  | bareSetCodes cs => (o.setCodes cs, [], none)

/-- The object after a history of calls. -/
def runAll (db : StdDB) (o : Obj) (ops : List ObjOp) : Obj := ops.foldl (fun o op => (op.run db o).1) o

/-- The call on a plain `NewObject()`, where `AddProperty` and `SetCode` do nothing more. -/
def runPlain (o : Obj) : ObjOp → Obj × Option Err
  | add p => (o.addProperty p, none)
  | setCode c => (o.setCode c, none)
  | setCodes cs => (o.setCodes cs, none)
  | write c d => let (o, _, e) := o.setPropertyData c d; (o, e)
  | writeByte c b => let (o, _, e) := o.setPropertyByte c b; (o, e)
  | writeInt c v n => let (o, _, e) := o.setPropertyInteger c v n; (o, e)
  | setName s => (o.setName s, none)
  | setClassName s => (o.setClassName s, none)
  | setInstance b => (o.setInstanceCode b, none)
  | setGroup b => (o.setClassGroupCode b, none)
  | setClass b => (o.setClassCode b, none)
  | clear c => (o.clearProperty c, none)
  | announce _ => (o, none)
  | bareAdd p => (o.addProperty p, none)
  | bareSetCode c => (o.setCode c, none)
  | bareSetCodes cs => (o.setCodes cs, none)

/-- The property a write is aimed at, if the call is a write. -/
def target : ObjOp → Option (Byte × Bytes)
  | write c d => some (c, d)
  | writeByte c b => some (c, [b])
  | writeInt c v n => some (c, (List.range n.toNat).map
      (fun i => BitVec.ofNat 8 (v.toNat / 256 ^ (n.toNat - 1 - i))))
  | _ => none

/-- The data a call stores in an existing property: that of a write, or none for `Clear`. -/
def stores : ObjOp → Option (Byte × Bytes)
  | clear c => some (c, [])
  | op => op.target

end ObjOp

/-- The abstract contents: a partial map from codes to properties. -/
abbrev Contents := Byte → Option EProp

/-- Adding a property replaces what was held under its code. -/
def Contents.add (s : Contents) (p : EProp) : Contents := fun c => if c = p.code then some p else s c

/-- Writing changes the data of one property, if it is there. -/
def Contents.write (s : Contents) (c : Byte) (d : Bytes) : Contents := fun c' =>
  if c' = c then (s c).map (fun p => { p with data := d }) else s c'

/-- What a plain object should hold after a call. -/
def Contents.step (s : Contents) (op : ObjOp) : Contents :=
  match op, op.stores with
  | .add p, _ => s.add p
  | .bareAdd p, _ => s.add p
  | _, some (c, d) => s.write c d
  | _, none => s

end Verif.Spec
