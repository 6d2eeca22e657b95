import Verif.Model.Receive
import Verif.Model.Request

/-!
# Model of two nodes and the network between them

A node that posts requests over UDP (`PostRequest`, local_node_msssage.go:213-221, `PostMessage`,
local_node_msssage.go:157-199) and a node that answers them
(`handleUnicastUDPRequestMessage`, transport/unicast_server.go:107-120), put together from the models of
the single functions. The network keeps every datagram and may deliver it at any time, any number of
times or never, in any order; it does not change datagrams and makes up none.

Simplified: one step is one call of the answering node or one datagram handled, so the answering node
handles one message at a time (interleaved handling is in `Verif.Model.Serve`); the posting node
handles one post at a time, as the mutex of `PostMessage` enforces (`Verif.Model.Post`); its own
callbacks are left out; messages that other nodes, or the answering node on its own account, send to the
posting node are left out (that a post takes any message with its identifier is C51).
-/

namespace Verif.Model

/-- What is fixed: the callbacks of the answering node, the object database, the addresses and
interfaces of the posting and of the answering node. -/
structure Link where
  env : Env
  db : StdDB
  from_ : Addr
  to_ : Addr
  fromIf : String
  toIf : String

/-- The two nodes, the datagrams that either sent to the other so far, oldest first, the request of the
post that waits for a response (`postRequestMsg`, local_node.go:83), and the responses that posts
returned so far, oldest first. -/
structure Net where
  client : Node
  server : Node
  requests : List Bytes
  replies : List Bytes
  waiting : Option Message
  returned : List Message

/-- What may happen next. -/
inductive NetAct where
  | post (objCode : ObjectCode) (esv : ESV) (ps : List EProp) -- `PostRequest` is called
  | other                          -- the posting node uses an identifier for another message
  | serve (k : Nat)                -- the `k`-th request arrives at the answering node
  | deliver (k : Nat)              -- the `k`-th reply arrives at the posting node
  | timeout                        -- the post gives up
  | change (op : NodeOp)           -- a program calls the answering node
  | message (m : Message)          -- the answering node handles a message of somebody else

/-- The message a datagram from `a` is handled as, if it is
(transport/unicast_server.go:122-137). -/
def arriving (ifi : String) (a : Addr) (b : Bytes) : Option Message :=
  ((UdpServer.started .unicast ifi).run [.datagram ⟨b, a⟩]).handled.head?

namespace Net

/-- `PostRequest` and `PostMessage` up to the wait (local_node_msssage.go:157-190, 213-221). A second
post waits for the mutex, it is not a step. -/
def post (s : Net) (objCode : ObjectCode) (esv : ESV) (ps : List EProp) : Net :=
  match s.waiting with
  | some _ => s
  | none =>
    match s.client.sendRequest objCode esv ps with
    | (c, some q, _) => { s with client := c, requests := s.requests ++ [q.bytes], waiting := some q }
    | (c, none, _) => { s with client := c }

/-- The answering node handles a message; its reply goes to the posting node if the message came from
there (transport/unicast_server.go:107-120). -/
def answer (L : Link) (s : Net) (m : Message) (back : Bool) : Net :=
  match s.server.onMessageUDP L.env L.db m with
  | .ok (n, ds) =>
    { s with server := n, replies := s.replies ++ (if back then ds.map (·.data) else []) }
  | _ => s

/-- A request arrives. -/
def serve (L : Link) (s : Net) (k : Nat) : Net :=
  match s.requests[k]? with
  | none => s
  | some b =>
    match arriving L.toIf L.from_ b with
    | none => s
    | some m => s.answer L m true

/-- A reply arrives: the waiting post returns it if it is taken for the response
(local_node_message_handler.go:21-25, local_node_msssage.go:112-144, 192-199). -/
def deliver (L : Link) (s : Net) (k : Nat) : Net :=
  match s.replies[k]? with
  | none => s
  | some b =>
    match arriving L.fromIf L.to_ b with
    | none => s
    | some m =>
      if Node.isResponseMessage { s.client with pending := s.waiting } m then
        { s with waiting := none, returned := s.returned ++ [m] }
      else s

/-- One step. -/
def step (L : Link) (s : Net) : NetAct → Net
  | .post objCode esv ps => s.post objCode esv ps
  | .other => { s with client := s.client.nextTID }
  | .serve k => s.serve L k
  | .deliver k => s.deliver L k
  | .timeout => { s with waiting := none }
  | .change op => { s with server := (op.run L.db s.server).1 }
  | .message m => s.answer L m false

/-- Nothing sent yet. -/
def init (c n : Node) : Net := ⟨c, n, [], [], none, []⟩

/-- A sequence of steps. -/
def run (L : Link) (s : Net) (acts : List NetAct) : Net := acts.foldl (step L) s

end Net

end Verif.Model
