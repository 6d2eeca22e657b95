import Verif.Model.Text

/-!
# Model of what the example programs print

`examples/uechosearch`, `examples/uechobench` and `examples/uechopost`. The nodes are those the controller has found,
and what `PostMessage` returns is a parameter, as in Model/Scan. Starting, searching and stopping are left out.
-/

namespace Verif.Model

/-- `%wX` of a value whose type has a method `String` (Go package `fmt`, `handleMethods`: the verbs `%v %s %q %x %X`
call the method and format its result as a string): two digits for each byte of the text `s`. The texts here have
only ASCII characters and at least half the width `w`, so that nothing is padded. -/
def fmtXText (s : Str) : Str := s.flatMap (fun c => [hexDigitChar (c.toNat / 16), hexDigitChar (c.toNat % 16)])

/-- `%-ws` of a text. -/
def fmtPad (w : Nat) (s : Str) : Str := s ++ List.replicate (w - s.length) ' '

/-- `%2X` of a number: padded with a blank. -/
def fmtX2 (n : Nat) : Str := List.replicate (2 - (fmtX n).length) ' ' ++ fmtX n

/-- A line on the screen: of a node, an object or a property. -/
inductive ToolLine where
  | node (i : Nat) (n : RemoteNode) (manufacturer : Str)
  | object (j : Nat) (o : Obj)
  | property (p : EProp) (data : Str)

/-- One of the two programs that list nodes: which properties are asked for, what is shown for an answer with another
number of properties, and how a property is printed. -/
structure ListTool where
  keep : EProp → Bool
  blank : Str
  line : Byte → Str → Str → Str

/-- `uechosearch` (examples/uechosearch/uechosearch.go:113, 120, 136). -/
def ListTool.search : ListTool where
  keep := EProp.isReadRequired
  blank := "--".toList
  line := fun c name data => "        [".toList ++ fmtX0 2 c.toNat ++ "] ".toList ++ name ++ ": ".toList ++ data ++ ['\n']

/-- `uechobench` (examples/uechobench/uechobench.go:107, 114, 132). -/
def ListTool.bench : ListTool where
  keep := EProp.isReadable
  blank := []
  line := fun c name data => "        [".toList ++ fmtX0 2 c.toNat ++ "] ".toList ++ data ++ " (".toList ++ name ++ ")\n".toList

namespace ListTool

/-- What is shown for an answer (examples/uechosearch/uechosearch.go:120-135,
examples/uechobench/uechobench.go:114-131). -/
def shown (t : ListTool) : Except Str (List PProp) → Str
  | .ok [q] => hexEncode q.data
  | .ok _ => t.blank
  | .error e => e

/-- The properties of an object (examples/uechosearch/uechosearch.go:110-137,
examples/uechobench/uechobench.go:106-133): the requests made, after `made`, and the lines. -/
def properties (t : ListTool) (ans : PostAnswers) (n : RemoteNode) (o : Obj) :
    List (RemoteNode × Message) → List EProp → List (RemoteNode × Message) × List ToolLine
  | made, [] => (made, [])
  | made, p :: ps =>
    if !t.keep p then properties t ans n o made ps
    else
      let m := dataRequest o p
      let data := t.shown (ans made.length n m)
      let (made, ls) := properties t ans n o (made ++ [(n, m)]) ps
      (made, .property p data :: ls)

/-- The objects of a node, from number `j` (examples/uechosearch/uechosearch.go:99-138,
examples/uechobench/uechobench.go:99-134). -/
def objects (t : ListTool) (ans : PostAnswers) (n : RemoteNode) :
    Nat → List (RemoteNode × Message) → List Obj → List (RemoteNode × Message) × List ToolLine
  | _, made, [] => (made, [])
  | j, made, o :: os =>
    let (made, ls) := t.properties ans n o made o.props.properties
    let (made, ls') := objects t ans n (j + 1) made os
    (made, .object j o :: ls ++ ls')

/-- The nodes, from number `i` (examples/uechosearch/uechosearch.go:71-139,
examples/uechobench/uechobench.go:76-135). -/
def nodes (t : ListTool) (mans : List Manufacture) (ans : PostAnswers) :
    Nat → List (RemoteNode × Message) → List RemoteNode → List (RemoteNode × Message) × List ToolLine
  | _, made, [] => (made, [])
  | i, made, n :: ns =>
    let name := manufacturerName mans (ans made.length n manufacturerRequest)
    let (made, ls) := t.objects ans n 0 (made ++ [(n, manufacturerRequest)]) n.objects
    let (made, ls') := nodes t mans ans (i + 1) made ns
    (made, .node i n name :: ls ++ ls')

/-- The loop of `uechobench` (examples/uechobench/uechobench.go:75-136): the nodes known when each round begins. -/
def rounds (t : ListTool) (mans : List Manufacture) (ans : PostAnswers) :
    List (RemoteNode × Message) → List (List RemoteNode) → List (RemoteNode × Message) × List ToolLine
  | made, [] => (made, [])
  | made, ns :: rs =>
    let (made, ls) := t.nodes mans ans 0 made ns
    let (made, ls') := rounds t mans ans made rs
    (made, ls ++ ls')

/-- The text of a line (examples/uechosearch/uechosearch.go:97, 106, 136, examples/uechobench/uechobench.go:97, 104,
132). The object code is printed by `%06X`, and has a method `String`. -/
def text (t : ListTool) : ToolLine → Str
  | .node i n man => ['['] ++ fmtD i ++ "] ".toList ++ fmtPad 15 n.address.toList ++ [':'] ++ fmtD n.port ++ " (".toList ++
      man ++ ")\n".toList
  | .object j o => "    [".toList ++ fmtD j ++ "] ".toList ++ fmtXText o.code.string ++ " (".toList ++ objectName o ++
      ")\n".toList
  | .property p data => t.line p.code
      (if p.name.toList.length = 0 then ['('] ++ unknownStr ++ [')'] else p.name.toList) data

end ListTool

/-- `outputTransportMessage` of `uechopost` (examples/uechopost/uechopost.go:39-51), for the properties of the message.
The object code and the service have a method `String`. -/
def PostTool.output (pre address : Str) (obj : ObjectCode) (esv : ESV) (props : List PProp) : Str :=
  pre ++ [' '] ++ fmtPad 15 address ++ " : ".toList ++ fmtXText obj.string ++ [' '] ++ fmtXText esv.string ++ [' '] ++
    props.flatMap (fun p => fmtX2 p.code.toNat ++ hexEncode p.data ++ [' ']) ++ ['\n']

end Verif.Model
