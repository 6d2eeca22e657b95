import Verif.Model.Cmd
import Verif.Model.Controller
import Verif.Model.DatabaseManufacturers

/-!
# Model of the `scan` command: `net/echonet/cmd/controller.go`

The nodes are those the controller has found when the table is made. What `PostMessage` returns is a
parameter: the properties of the response (`message.Properties`), or the text of the error, for the given
post.
-/

namespace Verif.Model

/-- `Query` (cmd/query.go). -/
structure Query where
  details : Bool
  address : String
deriving DecidableEq, Repr

/-- What a post returns: properties of the response or error text; the number counts the posts made
before. -/
abbrev PostAnswers := Nat → RemoteNode → Message → Except Str (List PProp)

/-- `unknown` (cmd/scan.go:15) -/
def unknownStr : Str := "unknown".toList

/-- `baseNode.Objects` (base_node.go:101-114). -/
def RemoteNode.objects (n : RemoteNode) : List Obj := n.devices ++ n.profiles

/-- The request for the manufacturer (cmd/controller.go:72-79). -/
def manufacturerRequest : Message :=
  ((Message.new.setESV ESV.readRequest).setDEOJ 0x0EF001).addProperty
    (some ((PProp.new.setCode 0x8A).setData []))

/-- The manufacturer of a node (cmd/controller.go:71-88). -/
def manufacturerName (t : List Manufacture) (ans : Except Str (List PProp)) : Str :=
  match ans with
  | .error _ => unknownStr
  | .ok props =>
    match props with
    | [p] =>
      match lookupManufacture t (byteToInteger 64 p.data).toNat with
      | some m => m.name.toList
      | none => unknownStr
    | _ => unknownStr

/-- The name shown for an object (cmd/controller.go:91-94). -/
def objectName (o : Obj) : Str := if o.clsName.toList.length = 0 then unknownStr else o.clsName.toList

/-- `propAttrString` (cmd/controller.go:115-124); `s` is one lower case letter. -/
def propAttrString (a : Attr) (s : Char) : Str :=
  if a = Attr.required then [s.toUpper] else if a = Attr.optional then [s] else ['-']

/-- `hex.EncodeToString`. -/
def hexEncode (bs : Bytes) : Str := (fmtXBytes bs).map Char.toLower

/-- The request for the data of a property (cmd/controller.go:132-140). -/
def dataRequest (o : Obj) (p : EProp) : Message :=
  ((Message.new.setESV ESV.readRequest).setDEOJ o.code).addProperty
    (some ((PProp.new.setCode p.code).setData []))

/-- The row of a property (cmd/controller.go:108-163), and the number of posts made. -/
def propertyRow (ans : PostAnswers) (n : RemoteNode) (manu : Str) (o : Obj) (posts : Nat) (p : EProp) :
    Nat × Row :=
  let propName := if p.name.toList.length = 0 then ['('] ++ unknownStr ++ [')'] else p.name.toList
  let propAttr := propAttrString p.getAttr 'r' ++ propAttrString p.setAttr 'w' ++ propAttrString p.annoAttr 'a'
  let (posts, propData) :=
    if p.isReadRequired then
      (posts + 1,
        match ans posts n (dataRequest o p) with
        | .ok [q] => hexEncode q.data
        | .ok _ => []
        | .error e => e)
    else (posts, [])
  (posts, [n.address.toList, fmtD n.port, manu, fmtX0 6 o.code.toNat, objectName o,
    fmtX0 2 p.code.toNat, propName, propAttr, propData])

/-- The rows of the properties of an object. -/
def propertyRows (ans : PostAnswers) (n : RemoteNode) (manu : Str) (o : Obj) :
    Nat → List EProp → Nat × List Row
  | posts, [] => (posts, [])
  | posts, p :: ps =>
    let (posts, row) := propertyRow ans n manu o posts p
    let (posts, rows) := propertyRows ans n manu o posts ps
    (posts, row :: rows)

/-- The rows of the objects of a node (cmd/controller.go:90-165). -/
def objectRows (ans : PostAnswers) (details : Bool) (n : RemoteNode) (manu : Str) :
    Nat → List Obj → Nat × List Row
  | posts, [] => (posts, [])
  | posts, o :: os =>
    let (posts, rows) :=
      if !details then (posts, [[n.address.toList, fmtD n.port, manu, fmtX0 6 o.code.toNat, objectName o]])
      else propertyRows ans n manu o posts o.props.properties
    let (posts, rest) := objectRows ans details n manu posts os
    (posts, rows ++ rest)

/-- The rows of the nodes (cmd/controller.go:61-166). -/
def nodeRows (t : List Manufacture) (ans : PostAnswers) (q : Query) : Nat → List RemoteNode → Nat × List Row
  | posts, [] => (posts, [])
  | posts, n :: ns =>
    if 0 < q.address.toList.length ∧ n.address ≠ q.address then nodeRows t ans q posts ns
    else
      let manu := manufacturerName t (ans posts n manufacturerRequest)
      let (posts, rows) := objectRows ans q.details n manu (posts + 1) n.objects
      let (posts, rest) := nodeRows t ans q posts ns
      (posts, rows ++ rest)

/-- The columns (cmd/controller.go:43-57). -/
def scanColumns (details : Bool) : Row :=
  ["node_address".toList, "node_port".toList, "manufacture".toList, "object_code".toList,
    "object_name".toList] ++
  (if details then ["property_code".toList, "property_name".toList, "property_rule".toList,
    "property_data".toList] else [])

/-- `Controller.DiscoveredNodeTable` (cmd/controller.go:40-169). -/
def discoveredNodeTable (t : List Manufacture) (ans : PostAnswers) (q : Query) (nodes : List RemoteNode) :
    Table :=
  { columns := scanColumns q.details, rows := (nodeRows t ans q 0 nodes).2 }

end Verif.Model
