import Verif.Model.Receive
import Verif.Props.Wire

/-!
# C56 and C57: receiving datagrams
-/

namespace Verif.Props
open Verif Model Spec Lemmas

/-- A datagram that is not an ECHONET Lite format 1 message: too short for the fixed part, or with
another header. -/
def Malformed (d : Bytes) : Prop :=
  d.length < 12 ∨ d[0]? ≠ some 0x10 ∨ d[1]? ≠ some 0x81

theorem fill_slice (buf data : Bytes) :
    slice (UdpSocket.fill buf data).1 0 (UdpSocket.fill buf data).2 = .ok (data.take buf.length) := by
  unfold slice UdpSocket.fill
  dsimp only
  rw [if_pos ⟨by omega, by simp; omega⟩, List.drop_zero, List.take_append_of_le_length (by simp; omega),
    List.take_take]
  by_cases h : data.length ≤ buf.length
  · rw [Nat.min_eq_left h, Nat.min_eq_left h, List.take_of_length_le (Nat.le_refl _),
      List.take_of_length_le h]
  · rw [Nat.min_eq_right (a := data.length) (by omega), Nat.min_self]

theorem fill_length (buf data : Bytes) : (UdpSocket.fill buf data).1.length = buf.length := by
  unfold UdpSocket.fill
  simp only [List.length_append, List.length_take, List.length_drop]
  omega

/-- What reading a datagram gives: the decoding of its first bytes, as many as the buffer holds. -/
theorem readMessage_datagram (s : UdpSocket) (h : s.conn = true) (d : Datagram) :
    (s.readMessage (.datagram d)).2 = (do
      let m ← Message.newWithBytes (d.data.take s.readBuffer.length)
      .ok { m with src := d.peer, ifc := s.ifc }) ∧
    (s.readMessage (.datagram d)).1.conn = true ∧ (s.readMessage (.datagram d)).1.ifc = s.ifc ∧
    (s.readMessage (.datagram d)).1.readBuffer.length = s.readBuffer.length := by
  unfold UdpSocket.readMessage
  rw [if_neg (by rw [h]; decide)]
  refine ⟨?_, h, rfl, fill_length _ _⟩
  show (slice (UdpSocket.fill _ _).1 0 (UdpSocket.fill _ _).2 >>= _) = _
  rw [fill_slice]
  rfl

theorem malformed_take (d : Bytes) : Malformed (d.take 1024) ↔ Malformed d := by
  unfold Malformed
  rw [List.getElem?_take, if_pos (by omega), List.getElem?_take, if_pos (by omega), List.length_take]
  by_cases h : d.length < 12
  · simp only [h, true_or, iff_true]
    exact .inl (by omega)
  · rw [show (min 1024 d.length < 12) = (d.length < 12) from propext ⟨by omega, by omega⟩]

/-- What a malformed datagram does to the socket's reader. -/
theorem readMessage_malformed (s : UdpSocket) (hb : s.readBuffer.length = 1024)
    (d : Datagram) (hm : Malformed d.data) : ∃ e, (s.readMessage (.datagram d)).2 = .err e := by
  cases h : s.conn with
  | false => exact ⟨.invalid, by unfold UdpSocket.readMessage; rw [h]; rfl⟩
  | true =>
    obtain ⟨e, he⟩ := (C04_rejects (d.data.take 1024)).mpr ((malformed_take d.data).mpr hm)
    refine ⟨e, ?_⟩
    rw [(readMessage_datagram s h d).1, hb, he]
    rfl

theorem step_buffer (s : UdpServer) (ev : RecvEvent) :
    (s.step ev).sock.readBuffer.length = s.sock.readBuffer.length := by
  have hr : (s.sock.readMessage ev).1.readBuffer.length = s.sock.readBuffer.length := by
    unfold UdpSocket.readMessage
    split
    · rfl
    · cases ev with
      | failure => rfl
      | datagram d => exact fill_length _ _
  unfold UdpServer.step
  split
  · rfl
  · cases hx : s.sock.readMessage ev with
    | mk sock r =>
      rw [hx] at hr
      cases r with
      | ok m => exact hr
      | err e => cases hk : s.kind <;> exact hr
      | panic => cases hk : s.kind <;> exact hr

theorem run_buffer (evs : List RecvEvent) (s : UdpServer) :
    (s.run evs).sock.readBuffer.length = s.sock.readBuffer.length := by
  induction evs generalizing s with
  | nil => rfl
  | cons e evs ih => exact (ih (s.step e)).trans (step_buffer s e)

theorem run_ended (evs : List RecvEvent) (s : UdpServer) (h : s.looping = false) : s.run evs = s := by
  induction evs with
  | nil => rfl
  | cons e evs ih =>
    have : s.step e = s := by unfold UdpServer.step; rw [h]; rfl
    show (s.step e).run evs = s
    rw [this]
    exact ih

/-- C56 is false, in general: whatever was received before, after one malformed datagram a server
handles nothing any more, whatever arrives. -/
theorem C56_refuted (k : ServerKind) (ifi : String) (before after : List RecvEvent) (d : Datagram)
    (h : Malformed d.data) :
    ((UdpServer.started k ifi).run (before ++ .datagram d :: after)).handled
      = ((UdpServer.started k ifi).run before).handled := by
  unfold UdpServer.run
  rw [List.foldl_append, List.foldl_cons]
  have hb := run_buffer before (UdpServer.started k ifi)
  unfold UdpServer.run at hb
  generalize List.foldl UdpServer.step (UdpServer.started k ifi) before = s at hb
  have hb' : s.sock.readBuffer.length = 1024 := hb.trans (List.length_replicate ..)
  cases hl : s.looping with
  | false => 
    have : s.step (.datagram d) = s := by unfold UdpServer.step; rw [hl]; rfl
    rw [this]
    exact congrArg UdpServer.handled (run_ended after s hl)
  | true =>
    obtain ⟨e, he⟩ := readMessage_malformed s.sock hb' d h
    have hs : (s.step (.datagram d)).looping = false ∧ (s.step (.datagram d)).handled = s.handled := by
      unfold UdpServer.step
      rw [if_neg (by rw [hl]; decide)]
      cases hx : s.sock.readMessage (.datagram d) with
      | mk sock r =>
        rw [hx] at he
        have he' : r = .err e := he
        subst he'
        cases hk : s.kind <;> exact ⟨rfl, rfl⟩
    have := run_ended after _ hs.1
    unfold UdpServer.run at this
    rw [this, hs.2]

/-- C56 is false: an empty datagram from anywhere is enough. -/
theorem C56_refuted_empty (k : ServerKind) (ifi : String) (a : Addr) (after : List RecvEvent) :
    ((UdpServer.started k ifi).run (.datagram ⟨[], a⟩ :: after)).handled = [] :=
  C56_refuted k ifi [] after ⟨[], a⟩ (.inl (by show 0 < 12; omega))

/-- C56, what happens to the socket: it stays bound while the server reads, and after the end of the
reading a multicast server has closed its socket, while that of a unicast server stays bound (so that
datagrams still arrive there, and nobody reads them). -/
theorem C56_socket_partial (k : ServerKind) (ifi : String) (evs : List RecvEvent) :
    let s := (UdpServer.started k ifi).run evs
    s.sock.conn = (s.looping || decide (k = .unicast)) := by
  have read : ∀ (s : UdpSocket) (ev : RecvEvent), (s.readMessage ev).1.conn = s.conn := by
    intro s ev
    unfold UdpSocket.readMessage
    split
    · rfl
    · cases ev <;> rfl
  have key : ∀ (evs : List RecvEvent) (s : UdpServer), s.kind = k →
      s.sock.conn = (s.looping || decide (k = .unicast)) →
      (s.run evs).sock.conn = ((s.run evs).looping || decide (k = .unicast)) := by
    intro evs
    induction evs with
    | nil => intro s _ h; exact h
    | cons ev evs ih =>
      intro s hk h
      have hr := read s.sock ev
      show ((s.step ev).run evs).sock.conn = _
      have hs : (s.step ev).kind = k ∧ (s.step ev).sock.conn = ((s.step ev).looping || decide (k = .unicast)) := by
        unfold UdpServer.step
        split
        · exact ⟨hk, h⟩
        · next hl =>
          have hl' : s.looping = true := by simpa using hl
          rw [hl', Bool.true_or] at h
          rw [h] at hr
          cases hx : s.sock.readMessage ev with
          | mk sock r =>
            rw [hx] at hr
            have hr' : sock.conn = true := hr
            cases r with
            | ok m => exact ⟨hk, by show sock.conn = (s.looping || _); rw [hr', hl']; rfl⟩
            | err e =>
              dsimp only
              cases hs : s.kind with
              | unicast => exact ⟨by rw [← hk]; exact hs.symm, by rw [← hk, hs]; exact hr'⟩
              | multicast => exact ⟨by rw [← hk]; exact hs.symm, by rw [← hk, hs]; rfl⟩
            | panic =>
              dsimp only
              cases hs : s.kind with
              | unicast => exact ⟨by rw [← hk]; exact hs.symm, by rw [← hk, hs]; exact hr'⟩
              | multicast => exact ⟨by rw [← hk]; exact hs.symm, by rw [← hk, hs]; rfl⟩
      exact ih _ hs.1 hs.2
  exact key evs _ rfl (by rfl)

/-- An empty datagram ends the reading of both. -/
example : let s := (UdpServer.started .unicast "eth0").run [.datagram ⟨[], ⟨"10.0.0.9", 3610⟩⟩]
    let s' := (UdpServer.started .multicast "eth0").run [.datagram ⟨[], ⟨"10.0.0.9", 3610⟩⟩]
    s.looping = false ∧ s'.looping = false ∧ s.sock.conn = true ∧ s'.sock.conn = false := by decide +kernel

/-- C56, the part that holds: while only well-formed datagrams arrive (and reading does not fail),
every one of them is handled, in the order of arrival, with its sender. Missing: datagrams after a
malformed one. -/
theorem C56_wellformed_partial (k : ServerKind) (ifi : String) (ds : List Datagram)
    (h : ∀ d ∈ ds, ¬ Malformed d.data) :
    let s := (UdpServer.started k ifi).run (ds.map .datagram)
    s.looping = true ∧ s.handled.length = ds.length ∧
    ∀ (i : Nat) d, ds[i]? = some d → ∃ m, Message.newWithBytes (d.data.take 1024) = .ok m ∧
      s.handled[i]? = some { m with src := d.peer, ifc := some ifi, pktType := k.packetType } := by
  have key : ∀ (ds : List Datagram) (s : UdpServer), s.looping = true → s.sock.conn = true →
      s.sock.ifc = some ifi → s.kind = k → s.sock.readBuffer.length = 1024 →
      (∀ d ∈ ds, ¬ Malformed d.data) →
      ∃ ms : List Message, (s.run (ds.map .datagram)).looping = true ∧
        (s.run (ds.map .datagram)).handled = s.handled ++ ms ∧ ms.length = ds.length ∧
        ∀ (i : Nat) d, ds[i]? = some d → ∃ m, Message.newWithBytes (d.data.take 1024) = .ok m ∧
          ms[i]? = some { m with src := d.peer, ifc := some ifi, pktType := k.packetType } := by
    intro ds
    induction ds with
    | nil => 
      intro s hl _ _ _ _ _
      exact ⟨[], hl, (List.append_nil _).symm, rfl, fun i d hd => by cases hd⟩
    | cons d ds ih =>
      intro s hl hc hi hk hb hm
      obtain ⟨m, hmok⟩ : ∃ m, Message.newWithBytes (d.data.take 1024) = .ok m := by
        cases hx : Message.newWithBytes (d.data.take 1024) with
        | ok m => exact ⟨m, rfl⟩
        | panic => exact absurd hx (C04_no_panic _)
        | err e =>
          exact absurd ((malformed_take _).mp ((C04_rejects _).mp ⟨e, hx⟩)) (hm d List.mem_cons_self)
      obtain ⟨r1, r2, r3, r4⟩ := readMessage_datagram s.sock hc d
      rw [hb, hmok] at r1
      have r1' : (s.sock.readMessage (.datagram d)).2 = .ok { m with src := d.peer, ifc := s.sock.ifc } := r1
      have hstep : s.step (.datagram d) = { s with
          sock := (s.sock.readMessage (.datagram d)).1
          handled := s.handled ++ [{ m with src := d.peer, ifc := some ifi, pktType := k.packetType }] } := by
        unfold UdpServer.step
        rw [if_neg (by rw [hl]; decide)]
        cases hx : s.sock.readMessage (.datagram d) with
        | mk sock r =>
          rw [hx] at r1'
          have r1'' : r = _ := r1'
          subst r1''
          simp only [hi, hk]
      obtain ⟨ms, i1, i2, i3, i4⟩ := ih (s.step (.datagram d)) (by rw [hstep]; exact hl)
        (by rw [hstep]; exact r2) (by rw [hstep]; exact r3.trans hi) (by rw [hstep]; exact hk)
        (by rw [hstep]; exact r4.trans hb) (fun d' hd' => hm d' (List.mem_cons_of_mem _ hd'))
      refine ⟨{ m with src := d.peer, ifc := some ifi, pktType := k.packetType } :: ms, i1, ?_, ?_, ?_⟩
      · show ((s.step (.datagram d)).run (ds.map .datagram)).handled = _
        rw [i2, hstep]
        show (s.handled ++ [_]) ++ ms = _
        rw [List.append_assoc]
        rfl
      · rw [List.length_cons, List.length_cons, i3]
      · intro i d' hd'
        cases i with
        | zero => 
          rw [List.getElem?_cons_zero, Option.some_inj] at hd'
          subst hd'
          exact ⟨m, hmok, rfl⟩
        | succ i => exact i4 i d' hd'
  obtain ⟨ms, h1, h2, h3, h4⟩ := key ds (UdpServer.started k ifi) rfl rfl rfl rfl (List.length_replicate ..) h
  have h2' : ((UdpServer.started k ifi).run (ds.map .datagram)).handled = ms := h2
  refine ⟨h1, by rw [h2']; exact h3, ?_⟩
  rw [h2']
  exact h4

/-- Two good datagrams are handled; with an empty one between them only the first is. -/
example :
    let d : Datagram := ⟨sampleMessage.bytes, ⟨"10.0.0.2", 3610⟩⟩
    let s := UdpServer.started .unicast "eth0"
    (s.run [.datagram d, .datagram d]).handled.length = 2 ∧
    (s.run [.datagram d, .datagram ⟨[], ⟨"10.0.0.9", 9⟩⟩, .datagram d]).handled.length = 1 := by
  decide +kernel

/-! ## C57 -/

/-- C57, the part that holds: a message within the limits of the format whose encoding has at most
1024 bytes is read by any open socket (whatever it received before) as it was sent, with the
sender's address. Missing: longer messages. -/
theorem C57_intact_partial (m : Message) (hm : Built m) (hf : Fits m) (hl : m.bytes.length ≤ 1024)
    (to src : Addr) (s : UdpSocket) (hc : s.conn = true) (hb : s.readBuffer.length = 1024) :
    (s.readMessage (.datagram ⟨(UdpSocket.sendMessage to m).data, src⟩)).2
      = .ok { m with src := src, pktType := unknownPacket, ifc := s.ifc } := by
  rw [(readMessage_datagram s hc _).1, hb]
  show (Message.newWithBytes (m.bytes.take 1024) >>= _) = _
  have e := C02_roundtrip m hm hf []
  rw [List.append_nil] at e
  rw [List.take_of_length_le hl, e]
  rfl

/-- The size of a socket's buffer never changes: the hypothesis above is met by every server. -/
theorem C57_buffer (k : ServerKind) (ifi : String) (evs : List RecvEvent) :
    ((UdpServer.started k ifi).run evs).sock.readBuffer.length = 1024 :=
  (run_buffer evs _).trans (List.length_replicate ..)

/-- The bytes of the properties that have data, together, do not exceed what was read. -/
theorem lenient_total (k : Nat) (bs : Bytes) (h : ∀ p ∈ lenientProps k bs, p.edt ≠ []) :
    ((lenientProps k bs).map (fun p => p.edt.length)).sum + 2 * k ≤ bs.length := by
  induction k generalizing bs with
  | zero => simp [lenientProps]
  | succ k ih =>
    match bs with
    | [] => exact absurd rfl (h ⟨0, []⟩ (by simp [lenientProps]))
    | [c] => exact absurd rfl (h ⟨c, []⟩ (by simp [lenientProps]))
    | c :: l :: rest =>
      unfold lenientProps at h ⊢
      by_cases hl : rest.length < l.toNat
      · rw [if_pos hl] at h
        exact absurd rfl (h ⟨c, []⟩ (by simp))
      · rw [if_neg hl] at h ⊢
        have := ih (rest.drop l.toNat) (fun p hp => h p (List.mem_cons_of_mem _ hp))
        simp only [List.map_cons, List.sum_cons, List.length_cons, List.length_take,
          List.length_drop] at this ⊢
        omega

/-- C57 is false, in general: a message longer than 1024 bytes, all of whose properties have data,
is accepted by the receiver with other properties than were sent, and no error is reported. -/
theorem C57_refuted (m : Message) (hm : Built m) (hf : Fits m) (hl : 1024 < m.bytes.length)
    (hd : ∀ o ∈ m.ep, ∃ p, o = some p ∧ p.data ≠ []) (to src : Addr)
    (s : UdpSocket) (hc : s.conn = true) (hb : s.readBuffer.length = 1024) :
    ∃ m', (s.readMessage (.datagram ⟨(UdpSocket.sendMessage to m).data, src⟩)).2 = .ok m' ∧
      m'.getOPC = m.getOPC ∧ m'.ep ≠ m.ep := by
  obtain ⟨ps, h1, h2, h3⟩ := hf.props
  have hw := Built.wf hm
  have he := bytes_eq hw
  have hopc : m.opc.toNat = ps.length := by rw [hw.opc, h1, List.length_map]; omega
  have hwp : wireProps m = ps := by
    unfold wireProps
    rw [h1, hopc, List.take_of_length_le (by simp)]
    exact filterMap_some ps
  have hhl : (header m).length = 12 := by simp [header, hw.tid, hw.seoj, hw.deoj]
  have hlen : ∀ ps : List PProp, (ps.flatMap encProp).length
      = (ps.map (fun p => p.data.length)).sum + 2 * ps.length := by
    intro ps
    induction ps with
    | nil => rfl
    | cons p ps ih =>
      rw [List.flatMap_cons, List.length_append, ih, List.map_cons, List.sum_cons, List.length_cons]
      simp only [encProp, List.length_cons]
      omega
  have hbl : m.bytes.length = 12 + ((ps.map (fun p => p.data.length)).sum + 2 * ps.length) := by
    rw [he, List.length_append, hhl, hwp, hlen]
  have h11 : (m.bytes.take 1024)[11]? = some m.opc := by
    rw [List.getElem?_take, if_pos (by omega), he, List.getElem?_append_left (by rw [hhl]; omega)]
    unfold header
    rw [List.getElem?_append_right (by simp [hw.tid, hw.seoj, hw.deoj])]
    simp [hw.tid, hw.seoj, hw.deoj]
  have hgood : ¬ Malformed (m.bytes.take 1024) := by
    rw [malformed_take]
    rintro (h | h | h)
    · omega
    · exact h (by rw [he]; simp [header, hf.ehd1])
    · exact h (by rw [he]; simp [header, hf.ehd2])
  cases hx : Message.newWithBytes (m.bytes.take 1024) with
  | panic => exact absurd hx (C04_no_panic _)
  | err e => exact absurd ((C04_rejects _).mp ⟨e, hx⟩) hgood
  | ok m0 =>
    refine ⟨{ m0 with src := src, ifc := s.ifc }, ?_, ?_, ?_⟩
    · rw [(readMessage_datagram s hc _).1, hb]
      show (Message.newWithBytes (m.bytes.take 1024) >>= _) = _
      rw [hx]
      rfl
    · have := (C07_counts _ _ hx).1
      rw [h11, Option.some_inj] at this
      show m0.opc.toNat = m.opc.toNat
      rw [this]
    · have hq := (C07_counts _ _ hx).1
      rw [h11, Option.some_inj] at hq
      have hlenient := C06_lenient _ _ hx
      intro hep
      have hep' : m0.ep = m.ep := hep
      rw [hep', h1] at hlenient
      have hps : ps = (lenientProps m0.getOPC ((m.bytes.take 1024).drop 12)).map (fun p => ⟨p.epc, p.edt⟩) := by
        have := congrArg (List.filterMap id) hlenient
        rw [filterMap_some, show (fun p : WireProp => some (⟨p.epc, p.edt⟩ : PProp))
          = some ∘ (fun p : WireProp => (⟨p.epc, p.edt⟩ : PProp)) from rfl, ← List.map_map,
          filterMap_some] at this
        exact this
      have hne : ∀ p ∈ lenientProps m0.getOPC ((m.bytes.take 1024).drop 12), p.edt ≠ [] := by
        intro p hp
        obtain ⟨q, hq1, hq2⟩ := hd (some ⟨p.epc, p.edt⟩) (by
          rw [h1, hps]
          exact List.mem_map.mpr ⟨_, List.mem_map.mpr ⟨p, hp, rfl⟩, rfl⟩)
        cases hq1
        exact hq2
      have htot := lenient_total _ _ hne
      have hk : m0.getOPC = ps.length := by
        show m0.opc.toNat = _
        rw [← hq, hopc]
      have hsum : ((lenientProps m0.getOPC ((m.bytes.take 1024).drop 12)).map (fun p => p.edt.length))
          = ps.map (fun p => p.data.length) := by
        conv => rhs; rw [hps]
        rw [List.map_map]
        rfl
      rw [hsum, hk, List.length_drop, List.length_take] at htot
      omega

/-- Five properties with the data `x`. -/
def bigMessage (x : Bytes) : Message :=
  ((((((Message.new.setTID 1).setESV 0x61).addProperty (some ⟨0xB0, x⟩)).addProperty
    (some ⟨0xB1, x⟩)).addProperty (some ⟨0xB2, x⟩)).addProperty (some ⟨0xB3, x⟩)).addProperty
    (some ⟨0xB4, x⟩)

/-- Writing 250 bytes to each of five properties takes 1272 bytes, and meets the hypotheses. -/
example (x : Bytes) (hx : x.length = 250) :
    Built (bigMessage x) ∧ Fits (bigMessage x) ∧ (bigMessage x).bytes.length = 1272 ∧
    ∀ o ∈ (bigMessage x).ep, ∃ p, o = some p ∧ p.data ≠ [] := by
  have hb : Built (bigMessage x) :=
    .addProperty _ (.addProperty _ (.addProperty _ (.addProperty _ (.addProperty _
      (.setESV _ (.setTID _ .new))))))
  have hep : (bigMessage x).ep = [some ⟨0xB0, x⟩, some ⟨0xB1, x⟩, some ⟨0xB2, x⟩, some ⟨0xB3, x⟩,
    some ⟨0xB4, x⟩] := rfl
  have hx' : x ≠ [] := by intro h; rw [h] at hx; cases hx
  refine ⟨hb, ⟨rfl, rfl, by rw [hep]; simp, ?_⟩, ?_, ?_⟩
  · rw [hep]
    intro o ho
    simp only [List.mem_cons, List.not_mem_nil, or_false] at ho
    rcases ho with rfl | rfl | rfl | rfl | rfl <;> exact ⟨_, rfl, by show x.length ≤ 255; omega⟩
  · rw [bytes_eq (Built.wf hb)]
    have hw : wireProps (bigMessage x) = [⟨0xB0, x⟩, ⟨0xB1, x⟩, ⟨0xB2, x⟩, ⟨0xB3, x⟩, ⟨0xB4, x⟩] := rfl
    rw [hw]
    simp [encProp, header, (Built.wf hb).tid, (Built.wf hb).seoj, (Built.wf hb).deoj, hx]
  · rw [hep]
    intro o ho
    simp only [List.mem_cons, List.not_mem_nil, or_false] at ho
    rcases ho with rfl | rfl | rfl | rfl | rfl <;> exact ⟨_, rfl, hx'⟩

end Verif.Props
