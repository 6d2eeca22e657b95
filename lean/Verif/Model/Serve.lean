import Verif.Model.Handler

/-!
# Model of messages handled at the same time

Every arriving datagram and connection gets a goroutine of its own (transport/unicast_server.go:122-137,
139-158, transport/multicast_server.go:79-95) which runs `localNode.ProtocolMessageReceived`
(local_node_message_handler.go:13-46). No lock is taken, so any number of such goroutines and calls
of the program are interleaved. A step reads or writes one property of the node, or is one call a
callback makes.

Simplifications: memory is sequentially consistent; finding an object and reading or writing the
data of one property are one step each (`Verif.Model.DataRace` has the latter in pieces); what a
callback will do is decided when it is called; which callbacks are registered does not change.
Handing a message to a waiting post is in `Verif.Model.Post`.
-/

namespace Verif.Model
open Verif.Spec

/-- What follows a callback. -/
inductive AfterCall where
  | message (r : ObjRef)
  | request (r : ObjRef) (p : PProp) (ps : List PProp) (last : Option Err)
  | handler (r : ObjRef) (e1 : Option Err) (ps : List PProp) (last : Option Err)

/-- Where a goroutine is in `ProtocolMessageReceived` (local_node_message_handler.go:13-46). -/
inductive ServePc where
  /-- lines 14-19, 27, 52-66 -/
  | start
  /-- lines 71-96: the properties still to be checked -/
  | check (r : ObjRef) (todo : List PProp)
  /-- lines 31, 104-122 -/
  | listeners
  /-- in a callback: the calls it still makes, what it returns, what follows -/
  | inside (ops : List NodeOp) (e : Option Err) (k : AfterCall)
  /-- lines 125-130, object.go:248: the properties still to be passed on, the last error -/
  | request (r : ObjRef) (todo : List PProp) (last : Option Err)
  /-- object.go:251 -/
  | handler (r : ObjRef) (p : PProp) (e1 : Option Err) (todo : List PProp) (last : Option Err)
  /-- lines 32-40, 142-150 -/
  | respond
  /-- lines 151-161: the properties still to be added to the response -/
  | answer (r : ObjRef) (todo : List PProp) (res : Message)
  /-- lines 16, 28, 33, 37, 45: returned -/
  | done (reply : Option Message) (e : Option Err)
  /-- panicked in line 28 -/
  | crashed

/-- A goroutine: its message, the callbacks it has called and where it is. -/
structure Serving where
  msg : Message
  calls : List Call
  pc : ServePc

namespace Serving

/-- `object.notifyPropertyRequest` and the loop around it (object.go:246-255,
local_node_message_handler.go:130-133): the last error after a property. -/
def lastErr (e1 e2 last : Option Err) : Option Err :=
  match Node.joinErr e1 e2 with
  | some e => some e
  | none => last

/-- What follows a callback that returns `e`. -/
def after (e : Option Err) (m : Message) : AfterCall → ServePc
  | .message r => .request r m.requested e
  | .request r p ps last => .handler r p e ps last
  | .handler r e1 ps last => .request r ps (lastErr e1 e last)

/-- A callback is called (`Env.call` in `Verif.Model.Handler`). -/
def callback (env : Env) (n : Node) (h : Serving) (c : Call) (k : AfterCall) : Serving :=
  ⟨h.msg, h.calls ++ [c], .inside (env.behave n h.calls c).1 (env.behave n h.calls c).2 k⟩

/-- Line 28: the message cannot be processed. -/
def impossible (h : Serving) : Serving :=
  match h.msg.newImpossible with
  | .ok r => { h with pc := .done (some r) none }
  | _ => { h with pc := .crashed }

/-- One step of a goroutine (local_node_message_handler.go:13-164): the node, the goroutine and the
messages sent. -/
def step (env : Env) (db : StdDB) (n : Node) (h : Serving) : Node × Serving × List Sent :=
  match h.pc with
  | .start =>
    if !n.selfMsg && n.isSelfMessage h.msg then (n, { h with pc := .done none none }, [])
    else
      match n.lookupObject h.msg.getDEOJ with
      | none => (n, h.impossible, [])
      | some r =>
        if !h.msg.esv.isValid then (n, h.impossible, [])
        else if h.msg.esv.isReadRequest || h.msg.esv.isWriteRequest then
          (n, { h with pc := .check r h.msg.requested }, [])
        else (n, { h with pc := .listeners }, [])
  | .check _ [] => (n, { h with pc := .listeners }, [])
  | .check r (p :: ps) =>
    match n.get r with
    | none => (n, h.impossible, [])
    | some o =>
      if Node.validProperty o h.msg.esv p then (n, { h with pc := .check r ps }, [])
      else (n, h.impossible, [])
  | .listeners =>
    match n.lookupObject h.msg.getDEOJ with
    | none => (n, { h with pc := .done none (some .notFound) }, [])
    | some r =>
      if env.listener then (n, h.callback env n (.message h.msg) (.message r), [])
      else (n, { h with pc := .request r h.msg.requested none }, [])
  | .inside [] e k => (n, { h with pc := after e h.msg k }, [])
  | .inside (op :: ops) e k =>
    let (n, ms) := op.run db n
    (n, { h with pc := .inside ops e k }, ms)
  | .request _ [] none => (n, { h with pc := .respond }, [])
  | .request _ [] (some e) => (n, { h with pc := .done none (some e) }, [])
  | .request r (p :: ps) last =>
    if env.objListener r then (n, h.callback env n (.request r h.msg.esv p) (.request r p ps last), [])
    else (n, { h with pc := .handler r p none ps last }, [])
  | .handler r p e1 ps last =>
    if env.reqHandler r then (n, h.callback env n (.handler r h.msg.esv p) (.handler r e1 ps last), [])
    else (n, { h with pc := .request r ps (lastErr e1 none last) }, [])
  | .respond =>
    if !h.msg.esv.isResponseRequired then (n, { h with pc := .done none none }, [])
    else
      match n.lookupObject h.msg.getDEOJ with
      | none => (n, { h with pc := .done none (some .notFound) }, [])
      | some r => (n, { h with pc := .answer r h.msg.requested h.msg.newResponse }, [])
  | .answer _ [] res => (n, { h with pc := .done (some res) none }, [])
  | .answer r (p :: ps) res =>
    match (n.get r).bind (·.props.lookup p.code) with
    | none => (n, { h with pc := .answer r ps res }, [])
    | some prop => (n, { h with pc := .answer r ps (res.addProperty (some prop.toProtocol)) }, [])
  | .done _ _ => (n, h, [])
  | .crashed => (n, h, [])

end Serving

/-- The node, the goroutines, in the order their messages arrived, and the messages sent. -/
structure ServeSt where
  node : Node
  serving : List Serving
  sent : List Sent

/-- What can happen next. -/
inductive ServeAct where
  | arrive (m : Message)      -- a goroutine is started
  | step (i : Nat)            -- the next step of goroutine `i`
  | call (op : NodeOp)        -- the program makes a call

namespace ServeSt

/-- One step. -/
def step (env : Env) (db : StdDB) (s : ServeSt) : ServeAct → ServeSt
  | .arrive m => { s with serving := s.serving ++ [⟨m, [], .start⟩] }
  | .step i =>
    match s.serving[i]? with
    | none => s
    | some h =>
      let (n, h, ms) := h.step env db s.node
      ⟨n, s.serving.set i h, s.sent ++ ms⟩
  | .call op =>
    let (n, ms) := op.run db s.node
    { s with node := n, sent := s.sent ++ ms }

/-- A schedule. -/
def run (env : Env) (db : StdDB) (s : ServeSt) (acts : List ServeAct) : ServeSt :=
  acts.foldl (step env db) s

/-- No message has arrived. -/
def init (n : Node) : ServeSt := ⟨n, [], []⟩

end ServeSt
end Verif.Model
