import Verif.Model.Node

/-!
# Model of posts and of the handlers of arriving messages

`localNode.PostMessage` (local_node_msssage.go:157-201) and the part of
`localNode.ProtocolMessageReceived` that hands messages to it
(local_node_message_handler.go:21-25) as a machine with one step for each access to the shared
fields `postResponseCh` and `postRequestMsg`, to the mutex and to the channel. Any number of posts
and of arriving messages are interleaved in any way.

Simplifications: memory is sequentially consistent; time is left out, so the timeout of a waiting
post may come at any moment; the identifier `NextTID` gives is chosen by the schedule (it is
`Verif.Model.Tid` that models it); no two posts use the same message value; `NodeProfile` finds the
node profile. What a handler does after line 25 is in `Verif.Model.Handler`.
-/

namespace Verif.Model

/-- How a post ends. -/
inductive PostRes where
  | ok (m : Message)
  | failed
  | timeout
deriving DecidableEq, Repr

/-- Where a post is in `PostMessage` (local_node_msssage.go:157-201). -/
inductive PostPc where
  | start                   -- 166
  | lock                    -- 178
  | makeCh                  -- 183
  | setReq                  -- 184
  | setTID                  -- 188, SendMessage 77-81, updateMessageDestinationHeader 63
  | setSEOJ                 -- updateMessageDestinationHeader 66-70
  | send                    -- SendMessage 86
  | wait                    -- 194-198
  | close (r : PostRes)     -- closeResponseChannel 148-151, deferred in 181
  | clearCh (r : PostRes)   -- 152
  | clearReq (r : PostRes)  -- 153
  | unlock (r : PostRes)    -- deferred in 179
  | done (r : PostRes)
deriving DecidableEq, Repr

/-- A call of `PostMessage`: destination, `TCPEnabled`, the message (changed by the call), whether
the context is done. -/
structure Poster where
  dst : Addr
  tcp : Bool
  msg : Message
  ctxDone : Bool
  pc : PostPc
deriving DecidableEq, Repr

/-- Where a handler is in `ProtocolMessageReceived` (local_node_message_handler.go:21-25). -/
inductive HandPc where
  | req1                    -- line 21, isResponseMessageWaiting: local_node_msssage.go:113
  | ch1                     -- line 21: 116
  | req2                    -- line 22, isResponseMessage 125: 113
  | ch2                     -- 116
  | equal                   -- 128
  | tid                     -- 131
  | req3                    -- line 23, setResponseMessage 139: 113
  | ch3                     -- 116
  | load                    -- 142, the channel is read
  | sending (c : Nat)       -- 142, sending on the channel of post `c`
  | blocked                 -- 142, sending on a nil channel
  | past                    -- behind line 25
deriving DecidableEq, Repr

/-- A handler and its message. -/
structure Handling where
  msg : Message
  pc : HandPc
deriving DecidableEq, Repr

/-- The node fields (local_node.go:77-83), the channels closed, the posts and handlers, and whether
the process has crashed. A channel, like the message of a post, is named by the post that made it. -/
structure PostSt where
  mutex : Option Nat
  ch : Option Nat
  req : Option Nat
  closed : List Nat
  posters : List Poster
  handlers : List Handling
  crashed : Bool
deriving DecidableEq, Repr

/-- What can happen next. -/
inductive PostAct where
  | post (dst : Addr) (tcp : Bool) (m : Message)               -- PostMessage is called
  | arrive (m : Message)                                       -- a message arrives
  | cancel (i : Nat)                                           -- the context of post `i` is done
  | tcp (i : Nat) (running : Bool) (tid : GoUint) (r : Option Message)  -- lines 166-171
  | own (i : Nat)                                              -- the next step of post `i`
  | header (i : Nat) (running : Bool) (tid : GoUint)           -- the step `setTID`
  | send (i : Nat) (ok : Bool)                                 -- the step `send`
  | receive (i h : Nat)                                        -- post `i` receives from handler `h`
  | timeout (i : Nat)                                          -- the timer of post `i`
  | handler (h : Nat)                                          -- the next step of handler `h`
deriving DecidableEq, Repr

namespace PostSt

/-- No post, no message, the fields as in a new node (local_node.go:96-101). -/
def init : PostSt := ⟨none, none, none, [], [], [], false⟩

def setPoster (s : PostSt) (i : Nat) (p : Poster) : PostSt := { s with posters := s.posters.set i p }

def setHandler (s : PostSt) (h : Nat) (x : Handling) : PostSt :=
  { s with handlers := s.handlers.set h x }

/-- The message `postRequestMsg` points to. -/
def reqMsg (s : PostSt) : Option Message :=
  match s.req with
  | none => none
  | some i => (s.posters[i]?).map (·.msg)

/-- Lines 166-171 with `postMessageSynchronously` (94-109): `r` is the message read from the
connection, if everything went well. -/
def stepTCP (s : PostSt) (i : Nat) (p : Poster) (running : Bool) (tid : GoUint) (r : Option Message) :
    PostSt :=
  if p.pc = .start ∧ p.tcp = true then
    if !running then s.setPoster i { p with pc := .lock }
    else
      let p := { p with msg := (p.msg.setTID tid).setSEOJ nodeProfileObjectCode }
      match r with
      | some m => s.setPoster i { p with pc := .done (.ok m) }
      | none => s.setPoster i { p with pc := .lock }
  else s

/-- The steps of a post that leave no choice (local_node_msssage.go:147-201). -/
def stepOwn (s : PostSt) (i : Nat) (p : Poster) : PostSt :=
  match p.pc with
  | .start => if p.tcp then s else s.setPoster i { p with pc := .lock }
  | .lock => if s.mutex = none then { s.setPoster i { p with pc := .makeCh } with mutex := some i } else s
  | .makeCh => { s.setPoster i { p with pc := .setReq } with ch := some i }
  | .setReq => { s.setPoster i { p with pc := .setTID } with req := some i }
  | .setSEOJ => s.setPoster i { p with pc := .send, msg := p.msg.setSEOJ nodeProfileObjectCode }
  | .close r =>
    match s.ch with
    | none => s.setPoster i { p with pc := .unlock r }
    | some c =>
      if c ∈ s.closed then { s with crashed := true }
      else { s.setPoster i { p with pc := .clearCh r } with closed := c :: s.closed }
  | .clearCh r => { s.setPoster i { p with pc := .clearReq r } with ch := none }
  | .clearReq r => { s.setPoster i { p with pc := .unlock r } with req := none }
  | .unlock r => { s.setPoster i { p with pc := .done r } with mutex := none }
  | _ => s

/-- `SendMessage` up to the identifier (local_node_msssage.go:77-81, 63). -/
def stepHeader (s : PostSt) (i : Nat) (p : Poster) (running : Bool) (tid : GoUint) : PostSt :=
  if p.pc = .setTID then
    if !running then s.setPoster i { p with pc := .close .failed }
    else s.setPoster i { p with pc := .setSEOJ, msg := p.msg.setTID tid }
  else s

/-- `SendMessage`, the sending (local_node_msssage.go:86-91, 188-191). -/
def stepSend (s : PostSt) (i : Nat) (p : Poster) (ok : Bool) : PostSt :=
  if p.pc = .send then
    if ok then s.setPoster i { p with pc := .wait } else s.setPoster i { p with pc := .close .failed }
  else s

/-- The select (194-198) receiving from a handler that sends on the channel of the post. -/
def stepReceive (s : PostSt) (i : Nat) (p : Poster) (h : Nat) (x : Handling) : PostSt :=
  if p.pc = .wait ∧ x.pc = .sending i then
    (s.setPoster i { p with pc := .close (.ok x.msg) }).setHandler h { x with pc := .past }
  else s

/-- A handler (local_node_message_handler.go:21-25, local_node_msssage.go:112-144). -/
def stepHandler (s : PostSt) (h : Nat) (x : Handling) : PostSt :=
  match x.pc with
  | .req1 => s.setHandler h { x with pc := if s.req = none then .past else .ch1 }
  | .ch1 => s.setHandler h { x with pc := if s.ch = none then .past else .req2 }
  | .req2 => s.setHandler h { x with pc := if s.req = none then .past else .ch2 }
  | .ch2 => s.setHandler h { x with pc := if s.ch = none then .past else .equal }
  | .equal => s.setHandler h { x with pc := if Message.equals (some x.msg) s.reqMsg then .past else .tid }
  | .tid =>
    match s.reqMsg with
    | none => { s with crashed := true }
    | some q => s.setHandler h { x with pc := if x.msg.getTID ≠ q.getTID then .past else .req3 }
  | .req3 => s.setHandler h { x with pc := if s.req = none then .past else .ch3 }
  | .ch3 => s.setHandler h { x with pc := if s.ch = none then .past else .load }
  | .load =>
    match s.ch with
    | none => s.setHandler h { x with pc := .blocked }
    | some c => s.setHandler h { x with pc := .sending c }
  | .sending c => if c ∈ s.closed then { s with crashed := true } else s
  | .blocked => s
  | .past => s

/-- One step; nothing happens after a crash, nor when the action is not possible. -/
def step (s : PostSt) (a : PostAct) : PostSt :=
  if s.crashed then s
  else
    match a with
    | .post dst tcp m => { s with posters := s.posters ++ [⟨dst, tcp, m, false, .start⟩] }
    | .arrive m => { s with handlers := s.handlers ++ [⟨m, .req1⟩] }
    | .cancel i =>
      match s.posters[i]? with
      | none => s
      | some p => s.setPoster i { p with ctxDone := true }
    | .tcp i running tid r =>
      match s.posters[i]? with
      | none => s
      | some p => s.stepTCP i p running tid r
    | .own i =>
      match s.posters[i]? with
      | none => s
      | some p => s.stepOwn i p
    | .header i running tid =>
      match s.posters[i]? with
      | none => s
      | some p => s.stepHeader i p running tid
    | .send i ok =>
      match s.posters[i]? with
      | none => s
      | some p => s.stepSend i p ok
    | .receive i h =>
      match s.posters[i]?, s.handlers[h]? with
      | some p, some x => s.stepReceive i p h x
      | _, _ => s
    | .timeout i =>
      match s.posters[i]? with
      | none => s
      | some p => if p.pc = .wait then s.setPoster i { p with pc := .close .timeout } else s
    | .handler h =>
      match s.handlers[h]? with
      | none => s
      | some x => s.stepHandler h x

/-- A schedule. -/
def run (s : PostSt) : List PostAct → PostSt
  | [] => s
  | a :: as => run (s.step a) as

end PostSt
end Verif.Model
