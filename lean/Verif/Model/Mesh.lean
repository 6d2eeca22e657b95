import Verif.Model.Receive

/-!
# Model of any number of nodes and the datagrams between them

Each node handles what arrives (`handleUnicastUDPRequestMessage`, transport/unicast_server.go:107-120,
`handleMulticastRequestMessage`, transport/multicast_server.go:64-77): it calls the callbacks of its program, which may
announce changes (local_node_msssage.go:26-42), and replies to the sender. The programs do nothing else.

Simplified: a node handles one message at a time (several at once in `Verif.Model.Serve`); it sends from the address it
has (C113, C129); the network delivers each datagram at most once to each node it is for, in any order; a multicast
reaches all nodes, also the one that sends it; messages that callbacks send to some address (`SendMessage`) are left
out; datagrams that are no messages are dropped (they stop the socket, C56).
-/

namespace Verif.Model

/-- A datagram on its way: which node it reaches, where it comes from and what is in it. -/
structure Packet where
  dest : Nat
  src : Addr
  data : Bytes
deriving DecidableEq, Repr

/-- The nodes and the datagrams on their way. -/
structure Mesh where
  nodes : List Node
  air : List Packet

/-- What happens next: the `k`-th datagram arrives, or is lost. -/
inductive MeshAct where
  | deliver (k : Nat)
  | lose (k : Nat)
deriving DecidableEq, Repr

namespace Mesh

/-- The node with an address, if there is one. -/
def whereIs (s : Mesh) (a : Addr) : Option Nat := s.nodes.findIdx? (fun n => n.addr = a)

/-- The datagrams of a multicast (`AnnounceMessage`, local_node_msssage.go:26-33). -/
def cast (s : Mesh) (from_ : Addr) : Sent → List Packet
  | .multicast m => (List.range s.nodes.length).map (fun j => ⟨j, from_, m.bytes⟩)
  | .unicast _ => []

/-- The datagram of a reply (transport/unicast_server.go:119, transport/multicast_server.go:76,
transport/unicast_udp_socket.go:64-69). -/
def replyTo (s : Mesh) (from_ : Addr) (m : Message) (o : Outcome) : List Packet :=
  match o.error, o.reply with
  | none, some r =>
    match s.whereIs m.src with
    | some j => [⟨j, from_, r.bytes⟩]
    | none => []
  | _, _ => []

/-- Node `i` handles a message (local_node_message_handler.go:13-46): announcements of the callbacks go out first. -/
def handle (envs : Nat → Env) (db : StdDB) (s : Mesh) (i : Nat) (n : Node) (m : Message) : Mesh :=
  match n.received (envs i) db m with
  | .ok o => ⟨s.nodes.set i o.node, s.air ++ (o.sent.flatMap (s.cast n.addr) ++ s.replyTo n.addr m o)⟩
  | _ => s

/-- One step (transport/unicast_server.go:122-137, transport/multicast_server.go:79-96). -/
def step (envs : Nat → Env) (db : StdDB) (s : Mesh) : MeshAct → Mesh
  | .deliver k =>
    match s.air[k]? with
    | none => s
    | some p =>
      match s.nodes[p.dest]?, Message.newWithBytes p.data with
      | some n, .ok d => handle envs db ⟨s.nodes, s.air.eraseIdx k⟩ p.dest n { d with src := p.src }
      | _, _ => ⟨s.nodes, s.air.eraseIdx k⟩
  | .lose k => ⟨s.nodes, s.air.eraseIdx k⟩

/-- A program makes a call on node `i` (`NodeOp`). -/
def call (db : StdDB) (s : Mesh) (i : Nat) (op : NodeOp) : Mesh :=
  match s.nodes[i]? with
  | none => s
  | some n => ⟨s.nodes.set i (op.run db n).1, s.air ++ (op.run db n).2.flatMap (s.cast n.addr)⟩

/-- A sequence of steps. -/
def run (envs : Nat → Env) (db : StdDB) (s : Mesh) (acts : List MeshAct) : Mesh := acts.foldl (step envs db) s

/-- The first `t` steps of an endless sequence. -/
def runFor (envs : Nat → Env) (db : StdDB) (s : Mesh) (f : Nat → MeshAct) (t : Nat) : Mesh :=
  s.run envs db ((List.range t).map f)

end Mesh
end Verif.Model
