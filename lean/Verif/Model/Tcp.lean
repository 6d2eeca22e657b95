import Verif.Model.Reader
import Verif.Model.Receive
import Verif.Model.Transport

/-!
# Model of the TCP connections

`transport/tcp_socket.go` and the TCP part of `transport/unicast_server.go` and
`transport/unicast_manager.go`: reading a message from a connection, answering it, accepting
connections, and dialling, writing and reading for a post. Logging is left out. The peer of a
connection is an address `Address.ParseString` can read.
-/

namespace Verif.Model

/-- The reading end of a TCP connection: the bytes that arrive, in the portions in which `Read` can
get them, the error `Read` gives after them (end of file, reset, deadline), and the address of the
other side. -/
structure Conn where
  segs : List Bytes
  fin : Err
  peer : Addr
deriving DecidableEq, Repr

/-- Stands for the error of a `Read` that does not return: the other side neither sends nor closes,
and no deadline is set. Nothing that would follow the `Read` is executed. -/
def stalled : Err := .io 1

/-- `Read` of at least one byte on a connection: bytes of one portion, or the final error, never
both. -/
def Conn.readSegs (fin : Err) (n : Nat) : List Bytes → List Bytes × Bytes × Option Err
  | [] => ([], [], some fin)
  | [] :: segs => Conn.readSegs fin n segs
  | seg :: segs => (seg.drop n :: segs, seg.take n, none)

/-- `Read` into a buffer of `n` bytes. -/
def Conn.read (c : Conn) (n : Nat) : Conn × Bytes × Option Err :=
  match Conn.readSegs c.fin n c.segs with
  | (segs, bs, e) => ({ c with segs := segs }, bs, e)

/-- The size of the buffer `bufio.NewReader` makes (`defaultBufSize`). -/
def bufSize : Nat := 4096

/-- A `bufio.Reader` on a connection: the bytes read but not yet delivered, and the error kept for
the next `Read`. -/
structure BufReader where
  buf : Bytes
  err : Option Err
  conn : Conn
deriving DecidableEq, Repr

/-- `bufio.Reader.Read` (Go standard library). -/
def BufReader.read (b : BufReader) (n : Nat) : BufReader × Bytes × Option Err :=
  if n = 0 then
    if b.buf ≠ [] then (b, [], none) else ({ b with err := none }, [], b.err)
  else if b.buf ≠ [] then ({ b with buf := b.buf.drop n }, b.buf.take n, none)
  else
    match b.err with
    | some e => ({ b with err := none }, [], some e)
    | none =>
      if bufSize ≤ n then
        match b.conn.read n with
        | (c, bs, e) => ({ b with conn := c }, bs, e)
      else
        match b.conn.read bufSize with
        | (c, bs, e) =>
          if bs = [] then ({ b with conn := c }, [], e)
          else (⟨bs.drop n, e, c⟩, bs.take n, none)

theorem Conn.readSegs_le (fin : Err) (n : Nat) (segs : List Bytes) :
    (Conn.readSegs fin n segs).2.1.length ≤ n := by
  induction segs with
  | nil => simp [Conn.readSegs]
  | cons seg segs ih =>
    cases seg with
    | nil => simpa [Conn.readSegs] using ih
    | cons b bs => simp [Conn.readSegs]; omega

theorem BufReader.read_le (b : BufReader) (n : Nat) : (b.read n).2.1.length ≤ n := by
  unfold BufReader.read
  split
  · split <;> simp
  · split
    · simp; omega
    · split
      · simp
      · split
        · simp only [Conn.read]; exact Conn.readSegs_le _ _ _
        · dsimp only; split
          · simp
          · simp; omega

/-- A `bufio.Reader` as a reader. -/
def bufReader : Reader BufReader := ⟨BufReader.read, BufReader.read_le⟩

/-- `TCPSocket.ReadMessage` (transport/tcp_socket.go:92-113). -/
def Conn.readMessage (c : Conn) : Res Message := do
  let (_, m) ← Message.newWithReader bufReader ⟨[], none, c⟩
  .ok { m with src := c.peer }

/-- What becomes of an accepted connection: what the node did, the bytes of every `Write`, and
whether the handling goroutine has ended and closed the connection. -/
structure ConnOutcome where
  handled : Option Outcome
  written : List Bytes
  closed : Bool

/-- `handleUnicastTCPConnection` (transport/unicast_server.go:139-158) with a node as handler and
`ResponseMessageToConnection` (transport/tcp_socket.go:155-158). -/
def Node.onConnection (env : Env) (db : StdDB) (n : Node) (c : Conn) : Res ConnOutcome :=
  match c.readMessage with
  | .panic => .panic
  | .err e => .ok ⟨none, [], decide (e ≠ stalled)⟩
  | .ok m => do
    let o ← n.received env db { m with pktType := tcpUnicastPacket }
    match o.error, o.reply with
    | none, some r => .ok ⟨some o, [r.bytes], true⟩
    | _, _ => .ok ⟨some o, [], true⟩

/-- What `AcceptTCP` gives, and `Stop`. -/
inductive AcceptEvent where
  | conn (c : Conn)
  | failure
  | stop
deriving DecidableEq, Repr

/-- The accepting goroutine: whether it still loops, and the connections it started a goroutine
for. -/
structure TcpServer where
  looping : Bool
  started : List Conn
deriving DecidableEq, Repr

/-- One round of `handleUnicastTCPListener` (transport/unicast_server.go:160-173). `Stop` closes the
channel and the listener (lines 95-101), whatever the loop is doing. -/
def TcpServer.step (s : TcpServer) (ev : AcceptEvent) : TcpServer :=
  if !s.looping then s
  else
    match ev with
    | .conn c => { s with started := s.started ++ [c] }
    | .failure => { s with looping := false }
    | .stop => { s with looping := false }

/-- A sequence of events for a server just started. -/
def TcpServer.run (evs : List AcceptEvent) : TcpServer := evs.foldl TcpServer.step ⟨true, []⟩

/-! ## Dialling -/

/-- The outcomes of the calls made for one connection that is dialled: `ResolveTCPAddr`, `DialTCP`,
`SetWriteDeadline`, `Write` (the number of bytes written with the error; without an error all are
written), `SetReadDeadline`, and what is read. -/
structure Dial where
  resolve : Option Err
  dial : Option Err
  setWrite : Option Err
  write : Nat × Option Err
  setRead : Option Err
  conn : Conn
deriving DecidableEq, Repr

/-- Connections are numbered. Those open, the next number, and the completed writes: the connection,
where it goes to and the bytes. -/
structure TcpWorld where
  opened : List Nat
  next : Nat
  writes : List (Nat × Addr × Bytes)
deriving DecidableEq, Repr

namespace TcpWorld

/-- A connection is made. -/
def connect (w : TcpWorld) : Nat × TcpWorld := (w.next, { w with opened := w.next :: w.opened, next := w.next + 1 })

/-- `conn.Close()`; closing again fails and changes nothing. -/
def close (w : TcpWorld) (c : Nat) : TcpWorld := { w with opened := w.opened.filter (· ≠ c) }

end TcpWorld

/-- `TCPSocket.dialAndWriteBytes` (transport/tcp_socket.go:179-211) with `writeBytesToConnection`
(161-176): the connection if there is one, the number of bytes written, the error. `bound` says
whether `IPAddr` succeeds (transport/socket.go:77-89). -/
def dialAndWrite (d : Dial) (bound : Bool) (to : Addr) (b : Bytes) (w : TcpWorld) :
    (Option Nat × Nat × Option Err) × TcpWorld :=
  match d.resolve with
  | some e => ((none, 0, some e), w)
  | none =>
    if !bound then ((none, 0, some .invalid), w)
    else
      match d.dial with
      | some e => ((none, 0, some e), w)
      | none =>
        let (c, w) := w.connect
        match d.setWrite with
        | some e => ((none, 0, some e), w.close c)
        | none =>
          match d.write with
          | (n, some e) => ((some c, n, some e), w.close c)
          | (_, none) => ((some c, b.length, none), { w with writes := w.writes ++ [(c, to, b)] })

/-- `TCPSocket.SendMessage` (transport/tcp_socket.go:120-126). -/
def tcpSend (d : Dial) (bound : Bool) (to : Addr) (m : Message) (w : TcpWorld) :
    (Nat × Option Err) × TcpWorld :=
  match dialAndWrite d bound to m.bytes w with
  | ((some c, n, e), w) => ((n, e), w.close c)
  | ((none, n, e), w) => ((n, e), w)

/-- `TCPSocket.PostMessage` (transport/tcp_socket.go:129-144). -/
def tcpPost (d : Dial) (bound : Bool) (to : Addr) (m : Message) (w : TcpWorld) : Res Message × TcpWorld :=
  match dialAndWrite d bound to m.bytes w with
  | ((_, _, some e), w) => (.err e, w)
  | ((none, _, none), w) => (.panic, w)
  | ((some c, _, none), w) =>
    match d.setRead with
    | some e => (.err e, (w.close c).close c)
    | none => (d.conn.readMessage, w.close c)

/-- The loop of `UnicastManager.PostMessage` (transport/unicast_manager.go:192-199): one attempt for
each server, `dials` giving the outcomes by number. A server is bound when its port is not 0. -/
def tcpPostFrom (dials : Nat → Dial) (to : Addr) (m : Message) :
    Nat → Option Err → List UServer → TcpWorld → Res Message × TcpWorld
  | _, lastErr, [], w => (.err (lastErr.getD .notRunning), w)
  | k, _, server :: servers, w =>
    match tcpPost (dials k) (decide (server.port ≠ 0)) to m w with
    | (.ok r, w) => (.ok r, w)
    | (.panic, w) => (.panic, w)
    | (.err e, w) => tcpPostFrom dials to m (k + 1) (some e) servers w

/-- `UnicastManager.PostMessage` (transport/unicast_manager.go:187-206). -/
def managerPost (dials : Nat → Dial) (tcpEnabled : Bool) (servers : List UServer) (to : Addr)
    (m : Message) (w : TcpWorld) : Res Message × TcpWorld :=
  if !tcpEnabled then (.err .other, w) else tcpPostFrom dials to m 0 none servers w

end Verif.Model
