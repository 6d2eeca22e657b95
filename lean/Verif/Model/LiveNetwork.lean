import Verif.Model.Network
import Verif.Model.Serve

/-!
# Model of two nodes and the network, messages handled at the same time

As `Verif.Model.Network`, but the node asked handles messages in goroutines of their own
(transport/unicast_server.go:122-137), as in `Verif.Model.Serve`: a request that arrives starts a
goroutine, whose steps are interleaved with those of others and with calls of the program; when it
returns a reply, this is sent (transport/unicast_server.go:107-120).

Simplified as these two are.
-/

namespace Verif.Model

/-- The two nodes and the datagrams (the field `server` is the node asked, as it is now), the goroutines of
the node asked, in the order their messages arrived, for each whether its message came from the posting
node, and the messages it sent on its own account. -/
structure LiveNet where
  net : Net
  serving : List Serving
  asked : List Bool
  sent : List Sent

/-- What may happen next. -/
inductive LiveAct where
  | post (objCode : ObjectCode) (esv : ESV) (ps : List EProp) -- `PostRequest` is called
  | other                          -- the posting node uses an identifier for another message
  | deliver (k : Nat)              -- the `k`-th reply arrives at the posting node
  | timeout                        -- the post gives up
  | arrive (k : Nat)               -- the `k`-th request arrives at the node asked
  | message (m : Message)          -- a message of somebody else arrives there
  | step (i : Nat)                 -- the next step of goroutine `i`
  | call (op : NodeOp)             -- a program calls the node asked

namespace LiveNet

/-- A goroutine is started (transport/unicast_server.go:135). -/
def start (s : LiveNet) (m : Message) (back : Bool) : LiveNet :=
  ⟨s.net, s.serving ++ [⟨m, [], .start⟩], s.asked ++ [back], s.sent⟩

/-- What is written if the goroutine `h` goes on to `h'` (transport/unicast_server.go:107-120): the reply, when
the handler returns one and no error. -/
def written (h h' : Serving) : List Bytes :=
  match h.pc with
  | .done _ _ => []
  | _ =>
    match h'.pc with
    | .done (some r) none => [r.bytes]
    | _ => []

/-- One step of goroutine `i`. -/
def go (L : Link) (s : LiveNet) (i : Nat) : LiveNet :=
  match s.serving[i]? with
  | none => s
  | some h =>
    let (n, h', ms) := h.step L.env L.db s.net.server
    ⟨⟨s.net.client, n, s.net.requests,
        s.net.replies ++ (if s.asked[i]? = some true then written h h' else []), s.net.waiting, s.net.returned⟩,
      s.serving.set i h', s.asked, s.sent ++ ms⟩

/-- One step. -/
def step (L : Link) (s : LiveNet) : LiveAct → LiveNet
  | .post objCode esv ps => ⟨s.net.step L (.post objCode esv ps), s.serving, s.asked, s.sent⟩
  | .other => ⟨s.net.step L .other, s.serving, s.asked, s.sent⟩
  | .deliver k => ⟨s.net.step L (.deliver k), s.serving, s.asked, s.sent⟩
  | .timeout => ⟨s.net.step L .timeout, s.serving, s.asked, s.sent⟩
  | .arrive k =>
    match s.net.requests[k]? with
    | none => s
    | some b =>
      match arriving L.toIf L.from_ b with
      | none => s
      | some m => s.start m true
  | .message m => s.start m false
  | .step i => s.go L i
  | .call op => ⟨s.net.step L (.change op), s.serving, s.asked, s.sent ++ (op.run L.db s.net.server).2⟩

/-- Nothing sent yet. -/
def init (c n : Node) : LiveNet := ⟨Net.init c n, [], [], []⟩

/-- A sequence of steps. -/
def run (L : Link) (s : LiveNet) (acts : List LiveAct) : LiveNet := acts.foldl (step L) s

end LiveNet

end Verif.Model
