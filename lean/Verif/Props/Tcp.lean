import Verif.Props.Stream
import Verif.Props.Receive
import Verif.Lemmas.Tcp

/-! C79 to C84: TCP connections. -/

namespace Verif.Props
open Verif Model Spec Lemmas Lemmas.Tcp

/-! ## C79: messages arriving over TCP -/

/-- C79, the part that holds: a valid frame, followed by anything, is read from a connection
exactly when each of its pieces (4 bytes, 8 bytes, then 2 and PDC bytes per property) lies within one
block of at most 4096 bytes of one portion the connection delivers. Then it is read as it was sent, with
the address of the other side as its source. -/
theorem C79_received_partial (f : Frame) (hv : f.Valid) (c : Conn) (tail : Bytes)
    (hs : c.segs.flatten = f.encode ++ tail) :
    (aligned (pieces f) ((portions 4096 c.segs).map List.length) = true →
      ∃ m, c.readMessage = .ok m ∧ Carries m f ∧ m.src = c.peer) ∧
    (aligned (pieces f) ((portions 4096 c.segs).map List.length) = false →
      c.readMessage = .err .invalid) := by
  obtain ⟨h1, h2⟩ := C09_segmentation_partial f hv (portions bufSize c.segs) tail
    (by rw [flatten_portions, hs])
  have h := readMessage_blocks c
  constructor
  · intro ha
    obtain ⟨rest, m, hm, _, _, hc⟩ := h1 ha
    rw [hm] at h
    exact ⟨_, h, ⟨hc.1, hc.2, hc.3, hc.4, hc.5, hc.6, hc.7, hc.8⟩, rfl⟩
  · intro ha
    rw [h2 ha] at h
    obtain ⟨e, he, hE⟩ := h
    rcases hE with rfl | ⟨hE, _⟩
    · exact he
    · cases hE

theorem blocks_short {k : Nat} {b : Bytes} (h : b.length ≤ k) : blocks k b = [b] := by
  unfold blocks; simp [h]

theorem pieces_sum (f : Frame) : (pieces f).sum = f.encode.length := by
  have : (propPieces f.props).sum = (f.props.flatMap WireProp.encode).length := by
    generalize f.props = ps
    induction ps with
    | nil => rfl
    | cons p ps ih =>
      simp only [propPieces, List.flatMap_cons, List.sum_append, List.length_append] at ih ⊢
      rw [← ih]
      simp [WireProp.encode]
      omega
  simp [pieces, this, Frame.encode, beBytes_length]
  omega

/-- C79, in particular: a frame of up to 4096 bytes delivered in one portion is received. -/
theorem C79_small_partial (f : Frame) (hv : f.Valid) (c : Conn) (hs : c.segs = [f.encode])
    (hl : f.encode.length ≤ 4096) : ∃ m, c.readMessage = .ok m ∧ Carries m f ∧ m.src = c.peer := by
  refine (C79_received_partial f hv c [] (by simp [hs])).1 ?_
  rw [hs]
  simp only [portions, List.flatMap_cons, List.flatMap_nil, blocks_short hl, List.append_nil, List.map_cons,
    List.map_nil]
  exact aligned_one _ _ (by rw [pieces_sum]; omega)

/-- C79, refuted: a frame is rejected, even delivered at once, whenever one of its pieces crosses the
4096th byte. -/
theorem C79_refuted_long (f : Frame) (hv : f.Valid) (c : Conn) (hs : c.segs = [f.encode])
    (pre post : List Nat) (n : Nat) (hp : pieces f = pre ++ n :: post)
    (h1 : pre.sum < 4096) (h2 : 4096 < pre.sum + n) : c.readMessage = .err .invalid := by
  refine (C79_received_partial f hv c [] (by simp [hs])).2 ?_
  have hl : 4096 < f.encode.length := by
    rw [← pieces_sum, hp]; simp; omega
  rw [hs, hp]
  simp only [portions, List.flatMap_cons, List.flatMap_nil, List.append_nil]
  rw [blocks, if_neg (by omega)]
  simp only [List.map_cons, List.length_take]
  rw [Nat.min_eq_left (by omega)]
  exact aligned_false _ _ _ _ _ h1 h2

/-- Sixteen properties with the same data. -/
def longFrame (x : Bytes) : Frame := ⟨1, 0x05FF01, 0x013001, 0x60, List.replicate 16 ⟨0x80, x⟩⟩

theorem longFrame_lost (x : Bytes) (hx : x.length = 255) (c : Conn) (hs : c.segs = [(longFrame x).encode]) :
    (longFrame x).Valid ∧ c.readMessage = .err .invalid := by
  have hv : (longFrame x).Valid := by
    refine ⟨by simp [longFrame], by simp [longFrame], by simp [longFrame], by simp [longFrame], ?_⟩
    intro p hp
    rw [List.eq_of_mem_replicate hp]
    show x.length < _
    omega
  refine ⟨hv, C79_refuted_long (longFrame x) hv c hs
    (4 :: 8 :: (List.replicate 15 [2, x.length]).flatten ++ [2]) [] x.length ?_ ?_ ?_⟩
  · simp [pieces, longFrame, propPieces]
  · simp [hx]
  · simp [hx]

/-- C79, refuted: not every message sent over TCP arrives, even when the connection delivers all of
its bytes. -/
theorem C79_refuted : ¬ ∀ (f : Frame), f.Valid → ∀ c : Conn, c.segs.flatten = f.encode →
    ∃ m, c.readMessage = .ok m := by
  intro h
  obtain ⟨x, hx⟩ : ∃ x : Bytes, x.length = 255 := ⟨List.replicate 255 0, List.length_replicate⟩
  obtain ⟨hv, hm⟩ := longFrame_lost x hx ⟨[(longFrame x).encode], eof, ⟨"10.0.0.1", 3610⟩⟩ rfl
  obtain ⟨m, hm'⟩ := h (longFrame x) hv ⟨[(longFrame x).encode], eof, ⟨"10.0.0.1", 3610⟩⟩ (by simp)
  rw [hm] at hm'
  cases hm'

/-- C79, refuted for every frame: cut inside its first twelve bytes, other than between the fourth
and the fifth, it is rejected. -/
theorem C79_refuted_cut (f : Frame) (hv : f.Valid) (c : Conn) (k : Nat) (h0 : 0 < k) (h12 : k < 12)
    (h4 : k ≠ 4) (hs : c.segs = [f.encode.take k, f.encode.drop k]) : c.readMessage = .err .invalid := by
  have hlen : 12 ≤ f.encode.length := by rw [← pieces_sum]; simp [pieces]; omega
  refine (C79_received_partial f hv c [] (by simp [hs])).2 ?_
  rw [hs]
  simp only [portions, List.flatMap_cons, List.flatMap_nil, List.append_nil]
  rw [blocks_short (by simp; omega)]
  simp only [List.singleton_append, List.map_cons, List.length_take]
  rw [Nat.min_eq_left (by omega)]
  generalize (blocks 4096 _).map List.length = ss
  by_cases hk : k < 4
  · exact aligned_false 4 _ [] k ss (by simpa using h0) (by simpa using hk)
  · exact aligned_false 8 _ [4] k ss (by simp; omega) (by simp; omega)

/-! ## C80: answers over TCP -/

theorem received_returns (env : Env) (db : StdDB) (n : Node) (m : Message) :
    ∃ o, n.received env db m = .ok o := by
  unfold Node.received
  rw [newImpossible_eq]
  split
  · exact ⟨_, rfl⟩
  · dsimp only
    split
    · exact ⟨_, rfl⟩
    · split
      · exact ⟨_, rfl⟩
      · split <;> exact ⟨_, rfl⟩

/-- C80. A message read from a connection is handled as a message arriving over UDP would be, the
reply, and nothing else, is written to the same connection, and the connection is closed. -/
theorem C80_answered (env : Env) (db : StdDB) (n : Node) (c : Conn) (m : Message)
    (hm : c.readMessage = .ok m) :
    ∃ o r, n.received env db { m with pktType := tcpUnicastPacket } = .ok o ∧
      n.onConnection env db c = .ok r ∧ r.handled = some o ∧ r.closed = true ∧ r.written.length ≤ 1 ∧
      ∃ ds, n.onMessageUDP env db { m with pktType := tcpUnicastPacket } = .ok (o.node, ds) ∧
        r.written = ds.map (·.data) := by
  obtain ⟨o, ho⟩ := received_returns env db n { m with pktType := tcpUnicastPacket }
  refine ⟨o, ?_⟩
  unfold Node.onConnection Node.onMessageUDP
  rw [hm]
  simp only [ho, Res.ok_bind]
  match o.error, o.reply with
  | none, some r => exact ⟨_, trivial, rfl, rfl, rfl, by simp, _, rfl, rfl⟩
  | none, none => exact ⟨_, trivial, rfl, rfl, rfl, by simp, _, rfl, rfl⟩
  | some e, none => exact ⟨_, trivial, rfl, rfl, rfl, by simp, _, rfl, rfl⟩
  | some e, some r => exact ⟨_, trivial, rfl, rfl, rfl, by simp, _, rfl, rfl⟩

/-- C80. Whatever arrives on a connection, handling it does not panic, and nothing is handled or
written unless a message could be read. -/
theorem C80_total (env : Env) (db : StdDB) (n : Node) (c : Conn) :
    ∃ r, n.onConnection env db c = .ok r ∧
      ((∀ m, c.readMessage ≠ .ok m) → r.handled = none ∧ r.written = []) := by
  cases hm : c.readMessage with
  | ok m =>
    obtain ⟨o, r, _, h, _⟩ := C80_answered env db n c m hm
    exact ⟨r, h, fun hn => absurd rfl (hn m)⟩
  | err e =>
    refine ⟨⟨none, [], decide (e ≠ stalled)⟩, ?_, fun _ => ⟨rfl, rfl⟩⟩
    rw [Node.onConnection, hm]
  | panic =>
    exfalso
    unfold Conn.readMessage at hm
    rcases Res.bind_eq_panic.mp hm with h | ⟨_, _, h⟩
    · exact C08_no_panic _ _ h
    · cases h

/-- C80, in the terms of the wire: a request frame of up to 4096 bytes that arrives at once is
answered on its connection. -/
theorem C80_request (env : Env) (db : StdDB) (n : Node) (c : Conn) (f : Frame) (hv : f.Valid)
    (hs : c.segs = [f.encode]) (hl : f.encode.length ≤ 4096) :
    ∃ m r ds, Carries m f ∧ m.src = c.peer ∧ m.pktType = tcpUnicastPacket ∧
      n.onConnection env db c = .ok r ∧ (∃ n', n.onMessageUDP env db m = .ok (n', ds)) ∧
      r.written = ds.map (·.data) ∧ r.closed = true := by
  obtain ⟨m, h1, h2, h3⟩ := C79_small_partial f hv c hs hl
  obtain ⟨o, r, _, h4, _, h5, _, ds, h6, h7⟩ := C80_answered env db n c m h1
  exact ⟨{ m with pktType := tcpUnicastPacket }, r, ds,
    ⟨h2.1, h2.2, h2.3, h2.4, h2.5, h2.6, h2.7, h2.8⟩, h3, rfl, h4, ⟨_, h6⟩, h7, h5⟩

/-! ## C81: connections come to an end -/

/-- C81, the part that holds: the goroutine of a connection ends, and closes it, when the other side
closes it or a complete frame of up to 4096 bytes arrives at once. -/
theorem C81_ends_partial (env : Env) (db : StdDB) (n : Node) (c : Conn)
    (h : c.fin ≠ stalled ∨ ∃ f : Frame, f.Valid ∧ c.segs = [f.encode] ∧ f.encode.length ≤ 4096) :
    ∃ r, n.onConnection env db c = .ok r ∧ r.closed = true := by
  cases hm : c.readMessage with
  | ok m =>
    obtain ⟨o, r, _, h1, _, h2, _⟩ := C80_answered env db n c m hm
    exact ⟨r, h1, h2⟩
  | panic =>
    obtain ⟨r, hr, _⟩ := C80_total env db n c
    rw [Node.onConnection, hm] at hr
    cases hr
  | err e =>
    rcases h with h | ⟨f, hv, hs, hl⟩
    · refine ⟨⟨none, [], decide (e ≠ stalled)⟩, by rw [Node.onConnection, hm], ?_⟩
      suffices e ≠ stalled by simpa using this
      rcases readMessage_err hm with (rfl | rfl) | rfl
      · decide
      · decide
      · exact h
    · obtain ⟨m, h1, _⟩ := C79_small_partial f hv c hs hl
      rw [hm] at h1
      cases h1

/-- C81, refuted: a peer that connects and stays silent is waited for without end, since no read
deadline is set. -/
theorem C81_refuted (env : Env) (db : StdDB) (n : Node) (peer : Addr) :
    ∃ r, n.onConnection env db ⟨[], stalled, peer⟩ = .ok r ∧ r.closed = false :=
  ⟨_, rfl, rfl⟩

/-- A request of 15 bytes meets the hypotheses of C79, C80 and C81. -/
example : let f : Frame := ⟨1, 0x05FF01, 0x013001, 0x62, [⟨0x80, []⟩, ⟨0x81, [7]⟩]⟩
    f.Valid ∧ f.encode.length ≤ 4096 := by
  refine ⟨?_, ?_⟩
  · simp [Frame.Valid]
  · simp [Frame.encode, WireProp.encode, beBytes_length]

/-! ## C82: accepting connections -/

theorem tcp_run_started (evs : List AcceptEvent) : ∀ s : TcpServer, s.looping = true →
    (∀ ev ∈ evs, ∃ c, ev = .conn c) →
    (evs.foldl TcpServer.step s).looping = true ∧
    (evs.foldl TcpServer.step s).started.map AcceptEvent.conn = s.started.map AcceptEvent.conn ++ evs := by
  induction evs with
  | nil => intro s h _; exact ⟨h, by simp⟩
  | cons ev evs ih =>
    intro s h hall
    obtain ⟨c, rfl⟩ := hall ev List.mem_cons_self
    have := ih (s.step (.conn c)) (by simp [TcpServer.step, h])
      (fun ev hev => hall ev (List.mem_cons_of_mem _ hev))
    refine ⟨this.1, ?_⟩
    rw [List.foldl_cons, this.2]
    simp [TcpServer.step, h]

theorem tcp_run_over (evs : List AcceptEvent) : ∀ s : TcpServer, s.looping = false →
    evs.foldl TcpServer.step s = s := by
  induction evs with
  | nil => intro s _; rfl
  | cons ev evs ih =>
    intro s h
    rw [List.foldl_cons, show s.step ev = s by simp [TcpServer.step, h]]
    exact ih s h

/-- C82, the part that holds: as long as accepting succeeds every connection gets its goroutine,
whatever was received on the connections before. -/
theorem C82_accepts_partial (cs : List Conn) :
    (TcpServer.run (cs.map .conn)).looping = true ∧ (TcpServer.run (cs.map .conn)).started = cs := by
  obtain ⟨h1, h2⟩ := tcp_run_started (cs.map .conn) ⟨true, []⟩ rfl (by simp)
  refine ⟨h1, ?_⟩
  have := congrArg (List.filterMap (fun ev => match ev with | .conn c => some c | _ => none)) h2
  simpa [List.filterMap_map, Function.comp_def, TcpServer.run] using this

/-- C82, refuted: after one failed accept no connection is served any more, however many follow. -/
theorem C82_refuted (before after : List Conn) :
    (TcpServer.run (before.map .conn ++ .failure :: after.map .conn)).started = before := by
  obtain ⟨h1, h2⟩ := C82_accepts_partial before
  unfold TcpServer.run at h1 h2 ⊢
  rw [List.foldl_append, List.foldl_cons, tcp_run_over]
  · rw [show ∀ s : TcpServer, s.looping = true → (s.step .failure).started = s.started from
      fun s h => by simp [TcpServer.step, h]]
    · exact h2
    · exact h1
  · simp [TcpServer.step, h1]

example : (TcpServer.run [.conn ⟨[[0xFF]], eof, ⟨"10.0.0.1", 1⟩⟩, .conn ⟨[], stalled, ⟨"10.0.0.2", 1⟩⟩]).started.length
    = 2 := by decide

/-! ## C83: connections dialled are closed -/

/-- Connections open have numbers already given. -/
def ConnsNumbered (w : TcpWorld) : Prop := ∀ c ∈ w.opened, c < w.next

theorem close_connect {w : TcpWorld} (h : ConnsNumbered w) (ws : List (Nat × Addr × Bytes)) :
    TcpWorld.close ⟨w.next :: w.opened, w.next + 1, ws⟩ w.next = ⟨w.opened, w.next + 1, ws⟩ := by
  unfold TcpWorld.close
  congr 1
  rw [List.filter_cons_of_neg (by simp)]
  refine List.filter_eq_self.mpr ?_
  intro c hc
  have := h c hc
  simp
  omega

theorem close_twice (w : TcpWorld) (c : Nat) : (w.close c).close c = w.close c := by
  simp [TcpWorld.close]

/-- What one attempt leaves: a connection only if nothing went wrong. -/
theorem dialAndWrite_spec (d : Dial) (bound : Bool) (to : Addr) (b : Bytes) (w : TcpWorld)
    (hw : ConnsNumbered w) :
    (∃ c n e, dialAndWrite d bound to b w = ((c, n, some e), { w with next := (dialAndWrite d bound to b w).2.next }) ∧
      w.next ≤ (dialAndWrite d bound to b w).2.next ∧ (c = none ∨ c = some w.next)) ∨
    (d.resolve = none ∧ bound = true ∧ d.dial = none ∧ d.setWrite = none ∧ d.write.2 = none ∧
      dialAndWrite d bound to b w = ((some w.next, b.length, none),
        ⟨w.next :: w.opened, w.next + 1, w.writes ++ [(w.next, to, b)]⟩)) := by
  unfold dialAndWrite
  cases d.resolve with
  | some e => exact Or.inl ⟨none, 0, e, rfl, Nat.le_refl _, Or.inl rfl⟩
  | none =>
    cases bound with
    | false => exact Or.inl ⟨none, 0, .invalid, rfl, Nat.le_refl _, Or.inl rfl⟩
    | true =>
      simp only [Bool.not_true, Bool.false_eq_true, if_false]
      cases d.dial with
      | some e => exact Or.inl ⟨none, 0, e, rfl, Nat.le_refl _, Or.inl rfl⟩
      | none =>
        have hcl := close_connect hw w.writes
        cases d.setWrite with
        | some e =>
          refine Or.inl ⟨none, 0, e, ?_, by simp [TcpWorld.connect, TcpWorld.close], Or.inl rfl⟩
          simp only [TcpWorld.connect, hcl]
        | none =>
          obtain ⟨n, e⟩ := d.write
          cases e with
          | some e =>
            refine Or.inl ⟨some w.next, n, e, ?_, by simp [TcpWorld.connect, TcpWorld.close], Or.inr rfl⟩
            simp only [TcpWorld.connect, hcl]
          | none => exact Or.inr ⟨trivial, trivial, rfl, rfl, rfl, rfl⟩

/-- C83. `SendMessage` over TCP closes every connection it opens, whatever goes wrong; its result is
without error exactly when the whole message was written, once. -/
theorem C83_send (d : Dial) (bound : Bool) (to : Addr) (m : Message) (w : TcpWorld) (hw : ConnsNumbered w) :
    (tcpSend d bound to m w).2.opened = w.opened ∧ ConnsNumbered (tcpSend d bound to m w).2 ∧
    ((∃ e, (tcpSend d bound to m w).1.2 = some e ∧ (tcpSend d bound to m w).2.writes = w.writes) ∨
     ((tcpSend d bound to m w).1 = (m.bytes.length, none) ∧
       (tcpSend d bound to m w).2.writes = w.writes ++ [(w.next, to, m.bytes)])) := by
  unfold tcpSend
  have hnum : ∀ k ws, w.next ≤ k → ConnsNumbered ⟨w.opened, k, ws⟩ := fun k ws hk c hc => by
    have := hw c hc; show c < k; omega
  rcases dialAndWrite_spec d bound to m.bytes w hw with ⟨c, n, e, h, hk, hc⟩ | ⟨_, _, _, _, _, h⟩
  · generalize (dialAndWrite d bound to m.bytes w).2.next = k at h hk
    rw [h]
    rcases hc with rfl | rfl
    · exact ⟨rfl, hnum _ _ hk, Or.inl ⟨e, rfl, rfl⟩⟩
    · have : ∀ k ws, TcpWorld.close ⟨w.opened, k, ws⟩ w.next = ⟨w.opened, k, ws⟩ := by
        intro k ws
        unfold TcpWorld.close
        congr 1
        refine List.filter_eq_self.mpr ?_
        intro c hc
        have := hw c hc
        simp
        omega
      dsimp only
      rw [this]
      exact ⟨rfl, hnum _ _ hk, Or.inl ⟨e, rfl, rfl⟩⟩
  · rw [h]
    dsimp only
    rw [close_connect hw]
    exact ⟨rfl, hnum _ _ (by omega), Or.inr ⟨rfl, rfl⟩⟩

/-- C83. So does a post over TCP; the request has been written at most once, and has been if a
response is returned. -/
theorem C83_post (d : Dial) (bound : Bool) (to : Addr) (m : Message) (w : TcpWorld) (hw : ConnsNumbered w) :
    (tcpPost d bound to m w).2.opened = w.opened ∧ ConnsNumbered (tcpPost d bound to m w).2 ∧
    (tcpPost d bound to m w).1 ≠ .panic ∧
    ((∃ e, (tcpPost d bound to m w).1 = .err e ∧ (tcpPost d bound to m w).2.writes = w.writes) ∨
     ((tcpPost d bound to m w).2.writes = w.writes ++ [(w.next, to, m.bytes)] ∧
       ((∃ e, (tcpPost d bound to m w).1 = .err e) ∨
         d.setRead = none ∧ (tcpPost d bound to m w).1 = d.conn.readMessage))) := by
  unfold tcpPost
  have hnum : ∀ k ws, w.next ≤ k → ConnsNumbered ⟨w.opened, k, ws⟩ := fun k ws hk c hc => by
    have := hw c hc; show c < k; omega
  rcases dialAndWrite_spec d bound to m.bytes w hw with ⟨c, n, e, h, hk, hc⟩ | ⟨_, _, _, _, _, h⟩
  · generalize (dialAndWrite d bound to m.bytes w).2.next = k at h hk
    rw [h]
    exact ⟨rfl, hnum _ _ hk, by simp, Or.inl ⟨e, rfl, rfl⟩⟩
  · rw [h]
    dsimp only
    cases d.setRead with
    | some e =>
      dsimp only
      rw [close_twice, close_connect hw]
      exact ⟨rfl, hnum _ _ (by omega), by simp, Or.inr ⟨rfl, Or.inl ⟨e, rfl⟩⟩⟩
    | none =>
      dsimp only
      rw [close_connect hw]
      refine ⟨rfl, hnum _ _ (by omega), ?_, Or.inr ⟨rfl, Or.inr ⟨rfl, rfl⟩⟩⟩
      intro hp
      unfold Conn.readMessage at hp
      rcases Res.bind_eq_panic.mp hp with h | ⟨_, _, h⟩
      · exact C08_no_panic _ _ h
      · cases h

theorem tcpPostFrom_closes (dials : Nat → Dial) (to : Addr) (m : Message) (servers : List UServer) :
    ∀ (k : Nat) (lastErr : Option Err) (w : TcpWorld), ConnsNumbered w →
    (tcpPostFrom dials to m k lastErr servers w).2.opened = w.opened ∧
    ConnsNumbered (tcpPostFrom dials to m k lastErr servers w).2 ∧
    (tcpPostFrom dials to m k lastErr servers w).1 ≠ .panic := by
  induction servers with
  | nil => intro k l w hw; exact ⟨rfl, hw, by simp [tcpPostFrom]⟩
  | cons server servers ih =>
    intro k l w hw
    obtain ⟨h1, h2, h3, _⟩ := C83_post (dials k) (decide (server.port ≠ 0)) to m w hw
    unfold tcpPostFrom
    match hr : tcpPost (dials k) (decide (server.port ≠ 0)) to m w with
    | (.ok r, w') => rw [hr] at h1 h2; exact ⟨h1, h2, by simp⟩
    | (.panic, w') => rw [hr] at h3; exact absurd rfl h3
    | (.err e, w') =>
      rw [hr] at h1 h2
      obtain ⟨g1, g2, g3⟩ := ih (k + 1) (some e) w' h2
      exact ⟨by rw [g1]; exact h1, g2, g3⟩

/-- C83. A post over all servers of a node leaves no connection open and does not panic. -/
theorem C83_manager (dials : Nat → Dial) (tcp : Bool) (servers : List UServer) (to : Addr) (m : Message)
    (w : TcpWorld) (hw : ConnsNumbered w) :
    (managerPost dials tcp servers to m w).2.opened = w.opened ∧
    (managerPost dials tcp servers to m w).1 ≠ .panic := by
  unfold managerPost
  cases tcp with
  | false => exact ⟨rfl, by simp⟩
  | true =>
    obtain ⟨h1, _, h3⟩ := tcpPostFrom_closes dials to m servers 0 none w hw
    exact ⟨h1, h3⟩

/-- A dial on which everything succeeds and `segs` is received. -/
def goodDial (segs : List Bytes) : Dial :=
  ⟨none, none, none, (0, none), none, ⟨segs, .io 2, ⟨"10.0.0.1", 3610⟩⟩⟩

example : ConnsNumbered ⟨[3, 1], 4, []⟩ ∧
    (tcpPost (goodDial [[0x10, 0x81, 0, 1, 1, 0x30, 1, 5, 0xFF, 1, 0x72, 0]]) true ⟨"10.0.0.1", 3610⟩ Message.new
      ⟨[3, 1], 4, []⟩).2.opened = [3, 1] ∧
    (tcpPost (goodDial [[0x10, 0x81, 0, 1, 1, 0x30, 1, 5, 0xFF, 1, 0x72, 0]]) true ⟨"10.0.0.1", 3610⟩ Message.new
      ⟨[3, 1], 4, []⟩).2.writes.length = 1 := by
  refine ⟨by simp [ConnsNumbered], by decide, by decide⟩

/-! ## C84: requests are sent once -/

/-- The number of times a request was written completely. -/
def copies (before after : TcpWorld) : Nat := after.writes.length - before.writes.length

/-- C84, the part that holds: a post whose first connection delivers a response writes the request
once. -/
theorem C84_once_partial (dials : Nat → Dial) (server : UServer) (servers : List UServer) (to : Addr)
    (m r : Message) (w : TcpWorld) (hw : ConnsNumbered w) (hb : server.port ≠ 0)
    (h : (tcpPost (dials 0) true to m w).1 = .ok r) :
    (managerPost dials true (server :: servers) to m w).1 = .ok r ∧
    (managerPost dials true (server :: servers) to m w).2.writes = w.writes ++ [(w.next, to, m.bytes)] := by
  obtain ⟨_, _, _, h4⟩ := C83_post (dials 0) true to m w hw
  have hd : decide (server.port ≠ 0) = true := by simpa using hb
  unfold managerPost
  simp only [Bool.not_true, Bool.false_eq_true, if_false, tcpPostFrom, hd]
  rcases h4 with ⟨e, he, _⟩ | ⟨hws, _⟩
  · rw [h] at he; cases he
  · match hr : tcpPost (dials 0) true to m w with
    | (.ok r', w') =>
      rw [hr] at h hws
      exact ⟨h, hws⟩
    | (.err e, w') => rw [hr] at h; cases h
    | (.panic, w') => rw [hr] at h; cases h

theorem late_copies (dials : Nat → Dial) (to : Addr) (m : Message) (servers : List UServer)
    (hb : ∀ s ∈ servers, s.port ≠ 0)
    (hd : ∀ k, (dials k).resolve = none ∧ (dials k).dial = none ∧ (dials k).setWrite = none ∧
      (dials k).write.2 = none ∧ (dials k).setRead = none ∧ (dials k).conn.segs = []) :
    ∀ (k : Nat) (lastErr : Option Err) (w : TcpWorld), ConnsNumbered w →
    (∃ e, (tcpPostFrom dials to m k lastErr servers w).1 = .err e) ∧
    (tcpPostFrom dials to m k lastErr servers w).2.writes.length = w.writes.length + servers.length := by
  induction servers with
  | nil => intro k l w _; exact ⟨⟨_, rfl⟩, rfl⟩
  | cons server servers ih =>
    intro k l w hw
    have hdec : decide (server.port ≠ 0) = true := by simpa using hb server List.mem_cons_self
    obtain ⟨h1, h2, h3, h4⟩ := C83_post (dials k) true to m w hw
    obtain ⟨d1, d2, d3, d4, d5, d6⟩ := hd k
    have hres : (tcpPost (dials k) true to m w).1 = .err (dials k).conn.fin ∧
        (tcpPost (dials k) true to m w).2.writes = w.writes ++ [(w.next, to, m.bytes)] := by
      rcases dialAndWrite_spec (dials k) true to m.bytes w hw with ⟨c, n, e, h, _, _⟩ | ⟨_, _, _, _, _, h⟩
      · exfalso
        unfold dialAndWrite at h
        rw [d1, d2, d3] at h
        match hwr : (dials k).write, d4 with
        | (n, none), _ =>
          rw [hwr] at h
          simp [TcpWorld.connect] at h
      · unfold tcpPost
        rw [h, d5]
        refine ⟨?_, rfl⟩
        show Conn.readMessage _ = _
        have : (dials k).conn = ⟨[], (dials k).conn.fin, (dials k).conn.peer⟩ := by
          cases hcn : (dials k).conn
          rw [hcn] at d6
          simp at d6
          rw [d6]
        rw [this]
        rfl
    unfold tcpPostFrom
    rw [hdec]
    match hr : tcpPost (dials k) true to m w with
    | (.ok r, w') => rw [hr] at hres; cases hres.1
    | (.panic, w') => rw [hr] at hres; cases hres.1
    | (.err e, w') =>
      rw [hr] at hres h2
      obtain ⟨g1, g2⟩ := ih (fun s hs => hb s (List.mem_cons_of_mem _ hs)) (k + 1) (some e) w' h2
      refine ⟨g1, ?_⟩
      dsimp only
      rw [g2]
      have := congrArg List.length hres.2
      simp at this ⊢
      omega

/-- C84, refuted: when the other side takes the request but answers too late, the request is written
again for every further interface, so that it is delivered as many times as there are interfaces (and
once more by the following attempt without TCP, `PostMessage`). -/
theorem C84_refuted (dials : Nat → Dial) (servers : List UServer) (to : Addr) (m : Message) (w : TcpWorld)
    (hw : ConnsNumbered w) (hb : ∀ s ∈ servers, s.port ≠ 0)
    (hd : ∀ k, (dials k).resolve = none ∧ (dials k).dial = none ∧ (dials k).setWrite = none ∧
      (dials k).write.2 = none ∧ (dials k).setRead = none ∧ (dials k).conn.segs = []) :
    (∃ e, (managerPost dials true servers to m w).1 = .err e) ∧
    copies w (managerPost dials true servers to m w).2 = servers.length := by
  obtain ⟨h1, h2⟩ := late_copies dials to m servers hb hd 0 none w hw
  refine ⟨h1, ?_⟩
  show (tcpPostFrom dials to m 0 none servers w).2.writes.length - _ = _
  omega

/-- Silent peers meet the hypotheses. -/
example : let d : Dial := goodDial []
    d.resolve = none ∧ d.dial = none ∧ d.setWrite = none ∧ d.write.2 = none ∧ d.setRead = none ∧
      d.conn.segs = [] := by decide

end Verif.Props
