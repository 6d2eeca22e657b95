import Verif.Props.RoundTrip
import Verif.Props.NodePost

/-! # C100: reading and writing properties of another node over TCP -/

namespace Verif.Props
open Verif Model Spec Lemmas Transport

/-- A connection that can be made, takes the request, and then delivers these bytes at once from the
other side `an`. -/
structure Delivers (d : Dial) (reply : Bytes) (an : Addr) : Prop where
  resolve : d.resolve = none
  dial : d.dial = none
  setWrite : d.setWrite = none
  write : d.write.2 = none
  setRead : d.setRead = none
  segs : d.conn.segs = [reply]
  peer : d.conn.peer = an

/-- What a connection reads of a frame that arrives at once. -/
theorem read_built (f : Frame) (hv : f.Valid) (c : Conn) (hs : c.segs = [f.encode])
    (hl : f.encode.length ≤ 4096) : ∃ m, c.readMessage = .ok m ∧ Built m ∧ Carries m f ∧ m.src = c.peer := by
  obtain ⟨m, h1, h2, h3⟩ := C79_small_partial f hv c hs hl
  refine ⟨m, h1, ?_, h2, h3⟩
  unfold Conn.readMessage at h1
  obtain ⟨x, hx, h⟩ := Res.bind_eq_ok.mp h1
  obtain ⟨s', m'⟩ := x
  simp only [Res.ok.injEq] at h
  rw [← h]
  exact .setFrom _ (.read hx)

/-- A post over a connection that delivers a frame. -/
theorem post_delivers (c : Node) (q : Message) (m : Message)
    (hq : c.sendMessage m = (c.nextTID, some q, none)) (g : Frame) (hg : g.Valid)
    (hgl : g.encode.length ≤ 4096) (an : Addr) (d : Nat → Dial) (hd : Delivers (d 0) g.encode an)
    (s : Transport) (ht : s.config.unicast.tcpEnabled = true) (server : UServer)
    (servers : List UServer) (hs : s.uservers = server :: servers) (hp : server.port ≠ 0)
    (out : SendOs) (answer : Option Message) (to : Addr) (w : TcpWorld) (hw : ConnsNumbered w) :
    ∃ res, (c.postMessage d out answer s to m w).result = .ok res ∧ Built res ∧ Carries res g ∧
      res.src = an ∧
      (c.postMessage d out answer s to m w).world.writes = w.writes ++ [(w.next, to, q.bytes)] ∧
      (c.postMessage d out answer s to m w).attempts = [] := by
  obtain ⟨res, r1, r2, r3, r4⟩ := read_built g hg (d 0).conn hd.segs hgl
  have hpost : (tcpPost (d 0) true to q w).1 = .ok res := by
    unfold tcpPost
    rcases dialAndWrite_spec (d 0) true to q.bytes w hw with ⟨c, k, e, h, _, _⟩ | ⟨_, _, _, _, _, h⟩
    · exfalso
      have := congrArg (fun x => x.1.2.2) h
      simp [dialAndWrite, hd.resolve, hd.dial, hd.setWrite, TcpWorld.connect] at this
      have hwr := hd.write
      generalize (d 0).write = x at this hwr
      obtain ⟨x1, x2⟩ := x
      dsimp only at hwr
      subst hwr
      simp at this
    · rw [h]
      simp only [hd.setRead]
      exact r1
  obtain ⟨m1, m2⟩ := C84_once_partial d server servers to q res w hw hp hpost
  refine ⟨res, ?_, r2, r3, r4.trans hd.peer, ?_, ?_⟩ <;>
  · unfold Node.postMessage Node.postSync
    rw [if_pos ht, hq, hs]
    simp only [m1, m2]

/-- What the node asked does on the connection. -/
theorem answers_connection (n : Node) (env : Env) (db : StdDB) (f g : Frame) (hv : f.Valid)
    (hl : f.encode.length ≤ 4096) (P : Node → Prop) (conn : Conn) (hs : conn.segs = [f.encode])
    (h : ∀ m, Built m → Carries m f → m.src = conn.peer → ∃ out res, n.received env db m = .ok out ∧
      P out.node ∧ out.error = none ∧ out.reply = some res ∧ res.bytes = g.encode) :
    ∃ o r, n.onConnection env db conn = .ok r ∧ r.handled = some o ∧ P o.node ∧
      r.written = [g.encode] ∧ r.closed = true := by
  obtain ⟨m, h1, h2, h3, h4⟩ := read_built f hv conn hs hl
  obtain ⟨out, res, k1, k2, k3, k4, k5⟩ := h { m with pktType := tcpUnicastPacket } (.setPacketType _ h2)
    ⟨h3.1, h3.2, h3.3, h3.4, h3.5, h3.6, h3.7, h3.8⟩ h4
  refine ⟨out, ⟨some out, [res.bytes], true⟩, ?_, rfl, k2, by rw [k5], rfl⟩
  unfold Node.onConnection
  rw [h1]
  simp only [k1, Res.ok_bind, k3, k4]

/-- C100. `PostRequest` of a running node `c` with TCP for properties of an object of another node
`n`, all of them readable. `PostRequest` writes the request `q` once, on one connection, and sends
nothing else; when its bytes arrive at `n` at once, `n` writes exactly one answer on the connection
and closes it, unchanged if its callbacks do nothing; and when these bytes arrive at once,
`PostRequest` returns a message from the object asked, with exactly the codes asked, in order, with
the data `n` stores. Both frames have at most 4096 bytes. -/
theorem C100_read (c : Node) (hb : Base c) (hr : c.running = true) (ht : c.lastTID.toNat ≤ 65535)
    (n : Node) (r : ObjRef) (o : Obj) (objCode : ObjectCode) (hc : objCode.toNat < 2 ^ 24)
    (ho : Addressed n objCode r o) (cs : List Byte) (hl : cs.length ≤ 255)
    (hread : ∀ x ∈ cs, ∃ p, o.props.lookup x = some p ∧ p.getAttr ≠ 0)
    (hdata : ∀ q ∈ o.props, q.data.length ≤ 255)
    (hfit : 12 + (cs.map (fun x => 2 + (stored o x).length)).sum ≤ 4096)
    (env : Env) (he : Passive env 0x62) (db : StdDB) (ac an : Addr)
    (hac : n.selfMsg = true ∨ ac ≠ n.addr)
    (s : Transport) (htcp : s.config.unicast.tcpEnabled = true) (server : UServer)
    (servers : List UServer) (hs : s.uservers = server :: servers) (hp : server.port ≠ 0)
    (to : Addr) (w : TcpWorld) (hw : ConnsNumbered w) :
    ∃ q reply, c.sendRequest objCode 0x62 (asking cs) = (c.nextTID, some q, none) ∧
      (∀ conn : Conn, conn.segs = [q.bytes] → conn.peer = ac →
        ∃ out x, n.onConnection env db conn = .ok x ∧ x.handled = some out ∧ out.node = n ∧
          x.written = [reply] ∧ x.closed = true) ∧
      ∀ (d : Nat → Dial) (out : SendOs) (answer : Option Message), Delivers (d 0) reply an →
        ∃ res, (c.postMessage d out answer s to (requestOf objCode 0x62 (asking cs)) w).result = .ok res ∧
          Answered q res objCode 0x72 an (cs.map (fun x => (x, stored o x))) ∧
          (c.postMessage d out answer s to (requestOf objCode 0x62 (asking cs)) w).world.writes
            = w.writes ++ [(w.next, to, q.bytes)] ∧
          (c.postMessage d out answer s to (requestOf objCode 0x62 (asking cs)) w).attempts = [] := by
  have hmem : ∀ p ∈ asking cs, p.code ∈ cs ∧ p.data = [] := by
    intro p hp
    obtain ⟨x, hx, rfl⟩ := List.mem_map.mp hp
    exact ⟨hx, rfl⟩
  have sum2 : ∀ l : List Byte, ((asking l).map (fun p => 2 + p.data.length)).sum = 2 * l.length := by
    intro l
    induction l with
    | nil => rfl
    | cons x l ih =>
      show 2 + 0 + ((asking l).map _).sum = _
      rw [ih, List.length_cons]; omega
  obtain ⟨q, f, g, h1, h2, h3, h4, h5, h6, h7, h8⟩ := exchange_frames c hb hr ht n r o objCode hc ho
    ⟨0x62, .request, false, true, some 0x72, some 0x52⟩ (by decide) 0x72 rfl (by decide) (asking cs)
    (by rw [asking, List.length_map]; exact hl)
    (fun p hp => by rw [(hmem p hp).2]; show (0 : Nat) ≤ 255; omega)
    (fun p hp => by
      obtain ⟨y, hy, hg⟩ := hread p.code (hmem p hp).1
      refine ⟨y, hy, ?_, fun _ => hg⟩
      intro h; simp at h)
    env db (· = n) o
    (fun m hm _ _ hi ha => passive_received env db n m (by rw [hm]; exact he) hi ha)
    (fun _ e => by rw [e]; exact ho)
    (fun p hp => by
      obtain ⟨y, hy, -⟩ := hread p.code (hmem p hp).1
      rw [hy]; rfl)
    hdata ac an hac
  rw [sum2] at h5
  have hgl : g.encode.length ≤ 4096 := by
    rw [h6, asking, List.map_map]; exact hfit
  have e : (asking cs).map (fun p => (p.code, stored o p.code)) = cs.map (fun x => (x, stored o x)) := by
    rw [asking, List.map_map]; rfl
  rw [e] at h8
  refine ⟨q, g.encode, h1, ?_, ?_⟩
  · intro conn hcs hpeer
    exact answers_connection n env db f g h2 (by omega) (· = n) conn (by rw [hcs, h4])
      (fun m a b c' => h7 m a b (c'.trans hpeer))
  · intro d out answer hd
    obtain ⟨res, k1, k2, k3, k4, k5, k6⟩ := post_delivers c q _ h1 g h3 hgl an d hd s htcp server
      servers hs hp out answer to w hw
    exact ⟨res, k1, h8 res k2 k3 k4, k5, k6⟩

/-- C100, writing. The same for `PostRequest` with properties to write (SetC), all of them writable,
with data of the right size, when the object listener of `n` stores what is written: it returns the
data now stored. If then `c'`, any running node with TCP, reads properties of the object, it gets
the data written, for each property the last one, and the former data for the others. -/
theorem C100_write_read (c : Node) (hb : Base c) (hr : c.running = true) (ht : c.lastTID.toNat ≤ 65535)
    (n : Node) (r : ObjRef) (o : Obj) (objCode : ObjectCode) (hc : objCode.toNat < 2 ^ 24)
    (ho : Addressed n objCode r o) (hdata : ∀ q ∈ o.props, q.data.length ≤ 255)
    (ps : List EProp) (hl : ps.length ≤ 255)
    (hsize : 12 + (ps.map (fun p => 2 + p.data.length)).sum ≤ 4096)
    (hwrite : ∀ p ∈ ps, ∃ q, o.props.lookup p.code = some q ∧ q.setAttr ≠ 0 ∧ p.data.length = q.data.length)
    (env : Env) (he : Keeping env) (db : StdDB) (ac an : Addr)
    (hac : n.selfMsg = true ∨ ac ≠ n.addr)
    (s : Transport) (htcp : s.config.unicast.tcpEnabled = true) (server : UServer)
    (servers : List UServer) (hs : s.uservers = server :: servers) (hp : server.port ≠ 0)
    (to : Addr) (w : TcpWorld) (hw : ConnsNumbered w) :
    ∃ q reply, c.sendRequest objCode 0x61 ps = (c.nextTID, some q, none) ∧
      (∀ (d : Nat → Dial) (out : SendOs) (answer : Option Message), Delivers (d 0) reply an →
        ∃ res, (c.postMessage d out answer s to (requestOf objCode 0x61 ps) w).result = .ok res ∧
          Answered q res objCode 0x71 an (ps.map (fun p => (p.code, afterWrites o ps p.code))) ∧
          (c.postMessage d out answer s to (requestOf objCode 0x61 ps) w).world.writes
            = w.writes ++ [(w.next, to, q.bytes)] ∧
          (c.postMessage d out answer s to (requestOf objCode 0x61 ps) w).attempts = []) ∧
      ∀ conn : Conn, conn.segs = [q.bytes] → conn.peer = ac →
        ∃ out x, n.onConnection env db conn = .ok x ∧ x.handled = some out ∧ x.written = [reply] ∧
          x.closed = true ∧
        ∀ (c' : Node), Base c' → c'.running = true → c'.lastTID.toNat ≤ 65535 →
        ∀ (cs : List Byte), cs.length ≤ 255 →
          (∀ x ∈ cs, ∃ p, o.props.lookup x = some p ∧ p.getAttr ≠ 0) →
          12 + (cs.map (fun x => 2 + (stored o x).length)).sum ≤ 4096 →
        ∀ (ac' : Addr), (n.selfMsg = true ∨ ac' ≠ n.addr) →
        ∃ q' reply', c'.sendRequest objCode 0x62 (asking cs) = (c'.nextTID, some q', none) ∧
          (∀ conn : Conn, conn.segs = [q'.bytes] → conn.peer = ac' →
            ∃ o' y, out.node.onConnection env db conn = .ok y ∧ y.handled = some o' ∧ o'.node = out.node ∧
              y.written = [reply'] ∧ y.closed = true) ∧
          ∀ (d : Nat → Dial) (os : SendOs) (answer : Option Message), Delivers (d 0) reply' an →
            ∃ res', (c'.postMessage d os answer s to (requestOf objCode 0x62 (asking cs)) w).result = .ok res' ∧
              Answered q' res' objCode 0x72 an (cs.map (fun x => (x, afterWrites o ps x))) := by
  have hd : ∀ p ∈ ps, p.data.length ≤ 255 := by
    intro p hp
    obtain ⟨q, h1, -, h3⟩ := hwrite p hp
    rw [h3]
    exact hdata q (lookup_mem h1)
  obtain ⟨hcodes, hsizes, hstored, hlook, hlen, hsome⟩ := rewritten o hdata ps hwrite
  generalize ho' : writeAll o (ps.map (fun p => ⟨p.code, p.data⟩)) = o' at hcodes hsizes hstored hlook hlen
  obtain ⟨q, f, g, h1, h2, h3, h4, h5, h6, h7, h8⟩ := exchange_frames c hb hr ht n r o objCode hc ho
    ⟨0x61, .request, true, false, some 0x71, some 0x51⟩ (by decide) 0x71 rfl (by decide) ps hl hd
    (fun p hp => by
      obtain ⟨y, hy, hs, hz⟩ := hwrite p hp
      refine ⟨y, hy, fun _ => ⟨hs, hz⟩, fun h => ?_⟩
      simp at h)
    env db (fun n' => SameFrame n n' ∧ ∀ r', n'.get r' = if r' = r then some o' else n.get r') o'
    (keeping_received n r o objCode ho env he db ps o' ho')
    (fun n' h => addressed_written ho hcodes h.2)
    (fun p hp => by
      obtain ⟨q, h1⟩ := Option.isSome_iff_exists.mp (hsome p hp)
      obtain ⟨q', h2, -⟩ := hlook _ q h1
      rw [h2]; rfl)
    hsizes ac an hac
  have hgl : g.encode.length ≤ 4096 := by
    have : ps.map (fun p => 2 + (stored o' p.code).length) = ps.map (fun p => 2 + p.data.length) := by
      apply List.map_congr_left
      intro p hp
      obtain ⟨q, h1, -, h3⟩ := hwrite p hp
      rw [hlen _ (hsome p hp), h3]
      unfold stored
      rw [h1]; rfl
    rw [h6, this]; exact hsize
  have e : ps.map (fun p => (p.code, stored o' p.code)) = ps.map (fun p => (p.code, afterWrites o ps p.code)) := by
    apply List.map_congr_left
    intro p hp
    rw [hstored _ (hsome p hp)]
  rw [e] at h8
  refine ⟨q, g.encode, h1, ?_, ?_⟩
  · intro d out answer hd
    obtain ⟨res, k1, k2, k3, k4, k5, k6⟩ := post_delivers c q _ h1 g h3 hgl an d hd s htcp server
      servers hs hp out answer to w hw
    exact ⟨res, k1, h8 res k2 k3 k4, k5, k6⟩
  · intro conn hcs hpeer
    obtain ⟨out, x, x1, x2, ⟨hn1, hn2⟩, x4, x5⟩ := answers_connection n env db f g h2 (by omega)
      (fun n' => SameFrame n n' ∧ ∀ r', n'.get r' = if r' = r then some o' else n.get r') conn
      (by rw [hcs, h4]) (fun m a b c' => h7 m a b (c'.trans hpeer))
    refine ⟨out, x, x1, x2, x4, x5, ?_⟩
    intro c' hb' hr' ht' cs hl' hread hfit ac' hac'
    have hcs' : ∀ x ∈ cs, (o.props.lookup x).isSome := by
      intro x hx
      obtain ⟨p, hp, -⟩ := hread x hx
      rw [hp]; rfl
    obtain ⟨q', reply', g1, g2, g3⟩ := C100_read c' hb' hr' ht' out.node r o' objCode hc
      (addressed_written ho hcodes hn2) cs hl' (fun x hx => by
        obtain ⟨p, hp, hg⟩ := hread x hx
        obtain ⟨p', hp', ha, -⟩ := hlook x p hp
        exact ⟨p', hp', by rw [ha]; exact hg⟩) hsizes (by
        have : cs.map (fun x => 2 + (stored o' x).length) = cs.map (fun x => 2 + (stored o x).length) := by
          apply List.map_congr_left
          intro x hx
          rw [hlen x (hcs' x hx)]
        rw [this]; exact hfit) env
      ⟨fun h n cs m _ => he.message h n cs m, fun r _ n cs p => he.reads n cs r p,
        fun r h => absurd h (by rw [he.handler r]; decide)⟩ db ac' an
      (by rw [hn1.selfMsg, hn1.addr]; exact hac') s htcp server servers hs hp to w hw
    refine ⟨q', reply', g1, g2, ?_⟩
    intro d os answer hd
    obtain ⟨res', k1, k2, -⟩ := g3 d os answer hd
    refine ⟨res', k1, ?_⟩
    have e : cs.map (fun x => (x, stored o' x)) = cs.map (fun x => (x, afterWrites o ps x)) := by
      apply List.map_congr_left
      intro x hx
      rw [hstored x (hcs' x hx)]
    rw [e] at k2
    exact k2

/-- A running node reads the property 0x80 of the device of `smallNode` twice over TCP. -/
example (to : Addr) (os : SendOs) :
    ∃ (c : Node) (q res : Message) (reply : Bytes) (d : Nat → Dial) (x : ConnOutcome),
    c.sendRequest 0x013001 0x62 (asking [0x80, 0x80]) = (c.nextTID, some q, none) ∧
    smallNode.onConnection noEnv stdDB ⟨[q.bytes], .io 0, ⟨"10.0.0.9", 3610⟩⟩ = .ok x ∧
    x.written = [reply] ∧
    (c.postMessage d os none (tcpTransport [aServer 3610 true]) to
      (requestOf 0x013001 0x62 (asking [0x80, 0x80])) ⟨[], 0, []⟩).result = .ok res ∧
    Answered q res 0x013001 0x72 ⟨"10.0.0.1", 3610⟩ [(0x80, [0x30]), (0x80, [0x30])] := by
  obtain ⟨n, hn⟩ : ∃ n : Node, Base n := ⟨_, new_std.1⟩
  generalize stdDB = db
  obtain ⟨q, reply, h1, h2, h3⟩ := C100_read { n with running := true, lastTID := 7 }
    ⟨fun r o h => hn.wf r o (by cases r <;> exact h), hn.prof⟩ rfl (by show (7 : GoUint).toNat ≤ 65535; decide)
    smallNode (.device 0) (smallNode.devices.head (by decide +kernel)) 0x013001 (by decide)
    ⟨by decide +kernel, by decide +kernel, by decide +kernel⟩ [0x80, 0x80] (by decide)
    (fun x hx => by
      have : x = 0x80 := by simpa using hx
      subst this
      exact ⟨_, by rfl, by decide +kernel⟩) (by decide +kernel) (by decide +kernel) noEnv
    (Silent.passive ⟨rfl, fun _ => rfl, fun _ => rfl⟩ _) db ⟨"10.0.0.9", 3610⟩ ⟨"10.0.0.1", 3610⟩
    (.inl (by decide +kernel)) (tcpTransport [aServer 3610 true]) rfl (aServer 3610 true) [] rfl (by decide) to
    ⟨[], 0, []⟩ (by intro c hc; cases hc)
  obtain ⟨out, x, x1, -, -, x2, -⟩ := h2 ⟨[q.bytes], .io 0, ⟨"10.0.0.9", 3610⟩⟩ rfl rfl
  obtain ⟨res, k1, k2, -⟩ := h3 (fun _ => goodDial [reply]) os none ⟨rfl, rfl, rfl, rfl, rfl, rfl, rfl⟩
  exact ⟨_, q, res, reply, _, x, h1, x1, x2, k1, k2⟩

/-- The hypotheses on connections are met; those on the nodes and objects are as in C89 and C90. -/
example : Delivers (goodDial [[0x10, 0x81]]) [0x10, 0x81] ⟨"10.0.0.1", 3610⟩ ∧
    (tcpTransport [aServer 3610 true]).config.unicast.tcpEnabled = true ∧
    (tcpTransport [aServer 3610 true]).uservers = [aServer 3610 true] ∧ (aServer 3610 true).port ≠ 0 ∧
    ConnsNumbered ⟨[3, 1], 4, []⟩ :=
  ⟨⟨rfl, rfl, rfl, rfl, rfl, rfl, rfl⟩, rfl, rfl, by decide, by
    intro c hc
    simp only [List.mem_cons, List.not_mem_nil, or_false] at hc
    rcases hc with rfl | rfl <;> decide⟩

end Verif.Props
