import Verif.Model.Node

/-!
# Model of callbacks that post requests

A callback that handles a message (`OnMessage`, `ObjectRequestHandler`) runs in the goroutine of that message, and may
call `PostMessage` before it returns. A post holds the mutex of its node until it returns
(local_node_msssage.go:178-179); receiving and handling messages do not take it.

Simplifications: requests, replies and callbacks are told apart by labels, not by their bytes; a reply reaches the post
whose request it answers (the part of Model/Post that decides this is left out, and so are its races); a post takes the
mutex and sends its request in one step, over UDP; sending does not fail; datagrams may be lost, delayed and repeated;
callbacks make a fixed list of posts for each request, whatever the answers.
-/

namespace Verif.Model

/-- A post: the node asked, and what it is asked. -/
structure Ask (α : Type) where
  to : Nat
  what : α
deriving DecidableEq, Repr

/-- The posts that the callbacks of a node make, one after the other, for a request. -/
abbrev Posting (α : Type) := Nat → α → List (Ask α)

/-- A goroutine: of the program, or one that handles a request. It runs on a node, handles the request of post `k` of
goroutine `t` if `origin` is `(t, k)`, makes the posts `asks` in order, and has the results of the first ones (`true`
for an answer, `false` for a timeout). `pending`: the next post waits for its answer. `ended`: the goroutine is through
with its posts, and has replied to a request. -/
structure Worker (α : Type) where
  node : Nat
  origin : Option (Nat × Nat)
  asks : List (Ask α)
  results : List Bool
  pending : Bool
  ended : Bool
deriving DecidableEq, Repr

/-- The next post, or the one that waits. -/
def Worker.next {α : Type} (x : Worker α) : Option (Ask α) := x.asks[x.results.length]?

/-- All goroutines, the requests on their way with the post they belong to, and the replies on their way with the post
they answer. -/
structure Nest (α : Type) where
  workers : List (Worker α)
  requests : List ((Nat × Nat) × Ask α)
  replies : List (Nat × Nat)
deriving DecidableEq, Repr

/-- What can happen. -/
inductive NestAct (α : Type) where
  | call (n : Nat) (asks : List (Ask α))  -- a goroutine of the program of node `n` is going to make these posts
  | post (t : Nat)                        -- goroutine `t` makes its next post
  | arrive (j : Nat)                      -- request `j` arrives
  | finish (t : Nat)                      -- goroutine `t` has made its posts; it replies
  | reply (j : Nat)                       -- reply `j` arrives
  | timeout (t : Nat)                     -- the post of goroutine `t` times out
  | loseRequest (j : Nat)
  | loseReply (j : Nat)
  | repeatRequest (j : Nat)               -- the network makes a copy of request `j`
  | repeatReply (j : Nat)
deriving DecidableEq, Repr

namespace Nest
variable {α : Type}

def init : Nest α := ⟨[], [], []⟩

/-- The mutex of node `n` is held: by a post that has not returned. -/
def held (s : Nest α) (n : Nat) : Bool := s.workers.any (fun x => x.node = n && x.pending)

/-- `PostMessage` up to the wait (local_node_msssage.go:178-191), in which the mutex must be free. -/
def post (s : Nest α) (t : Nat) : Nest α :=
  match s.workers[t]? with
  | none => s
  | some x =>
    match x.next with
    | none => s
    | some q =>
      if s.held x.node then s
      else ⟨s.workers.set t { x with pending := true }, s.requests ++ [((t, x.results.length), q)], s.replies⟩

/-- A datagram arrives and gets its own goroutine (transport/unicast_server.go:134, multicast_server.go:92), which calls
the callbacks (local_node_message_handler.go:31, 102-136). -/
def arrive (cb : Posting α) (s : Nest α) (j : Nat) : Nest α :=
  match s.requests[j]? with
  | none => s
  | some (p, q) => ⟨s.workers ++ [⟨q.to, some p, cb q.to q.what, [], false, false⟩], s.requests.eraseIdx j, s.replies⟩

/-- The callbacks have returned; the reply is made and sent (local_node_message_handler.go:40-45,
transport/unicast_server.go:107-120). -/
def finish (s : Nest α) (t : Nat) : Nest α :=
  match s.workers[t]? with
  | none => s
  | some x =>
    if x.next.isNone && !x.ended then
      ⟨s.workers.set t { x with ended := true }, s.requests, s.replies ++ x.origin.toList⟩
    else s

/-- The post of goroutine `t` returns (local_node_msssage.go:193-200, with the deferred calls of 179 and 181). -/
def returns (s : Nest α) (t : Nat) (x : Worker α) (answered : Bool) : List (Worker α) :=
  s.workers.set t { x with pending := false, results := x.results ++ [answered] }

/-- A reply arrives and is handed to the post that waits for it (local_node_message_handler.go:21-25). -/
def reply (s : Nest α) (j : Nat) : Nest α :=
  match s.replies[j]? with
  | none => s
  | some (t, k) =>
    match s.workers[t]? with
    | none => ⟨s.workers, s.requests, s.replies.eraseIdx j⟩
    | some x =>
      if x.pending && x.results.length == k then ⟨s.returns t x true, s.requests, s.replies.eraseIdx j⟩
      else ⟨s.workers, s.requests, s.replies.eraseIdx j⟩

/-- The request timeout of a post that waits (local_node_msssage.go:196-197). -/
def timeout (s : Nest α) (t : Nat) : Nest α :=
  match s.workers[t]? with
  | none => s
  | some x => if x.pending then ⟨s.returns t x false, s.requests, s.replies⟩ else s

/-- One step. -/
def step (cb : Posting α) (s : Nest α) : NestAct α → Nest α
  | .call n asks => ⟨s.workers ++ [⟨n, none, asks, [], false, false⟩], s.requests, s.replies⟩
  | .post t => s.post t
  | .arrive j => s.arrive cb j
  | .finish t => s.finish t
  | .reply j => s.reply j
  | .timeout t => s.timeout t
  | .loseRequest j => ⟨s.workers, s.requests.eraseIdx j, s.replies⟩
  | .loseReply j => ⟨s.workers, s.requests, s.replies.eraseIdx j⟩
  | .repeatRequest j => ⟨s.workers, s.requests ++ s.requests[j]?.toList, s.replies⟩
  | .repeatReply j => ⟨s.workers, s.requests, s.replies ++ s.replies[j]?.toList⟩

def run (cb : Posting α) (s : Nest α) (acts : List (NestAct α)) : Nest α := acts.foldl (step cb) s

end Nest
end Verif.Model
