import Verif.Props.Tcp
import Verif.Props.Node
import Verif.Props.Sending
import Verif.Model.NodePost

/-! C85, C86: posting over TCP, and again without. -/

namespace Verif.Props
open Verif Model Spec Lemmas Transport

/-- The header of a message sent by a running node. -/
theorem sendMessage_running {n : Node} (hb : Base n) (hr : n.running = true) (m : Message) :
    n.sendMessage m = (n.nextTID, some ((m.setTID n.nextTID.lastTID).setSEOJ 0x0EF001), none) := by
  obtain ⟨o, ho, hc, -⟩ := hb.prof
  have hp := hb.nodeProfile
  unfold Node.sendMessage
  rw [hr]
  have h1 : n.nextTID.nodeProfile = some (.profile 0) := by rw [nextTID_eq]; exact hp
  have h2 : n.nextTID.get (.profile 0) = some o := by rw [nextTID_eq]; exact ho
  simp only [Bool.not_true, Bool.false_eq_true, if_false, h1, h2, hc]

/-- A node keeps its profile when it draws an identifier. -/
theorem base_nextTID {n : Node} (hb : Base n) : Base n.nextTID := by
  rw [nextTID_eq]
  exact ⟨fun r o h => hb.wf r o h, hb.prof⟩

/-- The request as a post sends it over TCP: next identifier, from the node profile. -/
def tcpRequest (n : Node) (m : Message) : Message := (m.setTID n.nextTID.lastTID).setSEOJ 0x0EF001

theorem tcpRequest_tid (n : Node) (m : Message) (hm : Built m) (hl : n.lastTID.toNat ≤ 65535) :
    (tcpRequest n m).getTID.toNat = (n.lastTID.toNat + 1) % 65536 := by
  show (m.setTID n.nextTID.lastTID).getTID.toNat = _
  rw [C10_tid m hm, nextTID_eq]
  show (if (nextId n.lastTID).toNat ≤ 65535 then _ else _) = _
  rw [nextId_toNat _ hl, if_pos (by omega)]

/-! ## C85: responses over TCP are matched to requests -/

/-- C85, the part that holds: a message returned by the TCP part of a post was read from a connection
on which this request was written before, to the address asked. -/
theorem C85_connection_partial (dials : Nat → Dial) (servers : List UServer) (to : Addr) (m r : Message)
    (w : TcpWorld) (hw : ConnsNumbered w) (h : (managerPost dials true servers to m w).1 = .ok r) :
    ∃ k c, (dials k).conn.readMessage = .ok r ∧
      (managerPost dials true servers to m w).2.writes.getLast? = some (c, to, m.bytes) := by
  have key : ∀ (servers : List UServer) (k : Nat) (l : Option Err) (w : TcpWorld), ConnsNumbered w →
      (tcpPostFrom dials to m k l servers w).1 = .ok r →
      ∃ j c, (dials j).conn.readMessage = .ok r ∧
        (tcpPostFrom dials to m k l servers w).2.writes.getLast? = some (c, to, m.bytes) := by
    intro servers
    induction servers with
    | nil => intro k l w _ h; cases h
    | cons s ss ih =>
      intro k l w hw h
      obtain ⟨_, h2, _, h4⟩ := C83_post (dials k) (decide (s.port ≠ 0)) to m w hw
      unfold tcpPostFrom at h
      match hr : tcpPost (dials k) (decide (s.port ≠ 0)) to m w with
      | (.ok r', w') =>
        rw [hr] at h h4
        cases h
        rcases h4 with ⟨e, he, _⟩ | ⟨hws, ⟨e, he⟩ | ⟨_, hread⟩⟩
        · cases he
        · cases he
        · refine ⟨k, w.next, hread.symm, ?_⟩
          unfold tcpPostFrom
          rw [hr]
          dsimp only at hws ⊢
          rw [hws]
          simp
      | (.panic, w') => rw [hr] at h; cases h
      | (.err e, w') =>
        rw [hr] at h h2
        obtain ⟨k', c, g1, g2⟩ := ih (k + 1) (some e) w' h2 h
        refine ⟨k', c, g1, ?_⟩
        unfold tcpPostFrom
        rw [hr]
        exact g2
  exact key servers 0 none w hw h

/-- C85, refuted: whatever frame of up to 4096 bytes the other side sends on the connection is returned
as the response: its identifier, its objects and its service are not looked at. -/
theorem C85_refuted (n : Node) (hb : Base n) (hr : n.running = true) (s : Transport)
    (ht : s.config.unicast.tcpEnabled = true) (server : UServer) (servers : List UServer)
    (hs : s.uservers = server :: servers) (hp : server.port ≠ 0) (dials : Nat → Dial) (out : SendOs)
    (answer : Option Message) (to : Addr) (m : Message) (w : TcpWorld) (hw : ConnsNumbered w)
    (f : Frame) (hv : f.Valid) (hl : f.encode.length ≤ 4096) (hd : dials 0 = goodDial [f.encode]) :
    ∃ r, (n.postMessage dials out answer s to m w).result = .ok r ∧ Carries r f ∧
      (n.postMessage dials out answer s to m w).request = tcpRequest n m ∧
      (Built m → n.lastTID.toNat ≤ 65535 → (tcpRequest n m).getTID.toNat = (n.lastTID.toNat + 1) % 65536) := by
  obtain ⟨r, h1, h2, _⟩ := C79_small_partial f hv (goodDial [f.encode]).conn rfl hl
  have hpost : (tcpPost (dials 0) true to (tcpRequest n m) w).1 = .ok r := by
    rw [hd]
    unfold tcpPost
    rcases dialAndWrite_spec (goodDial [f.encode]) true to (tcpRequest n m).bytes w hw with
      ⟨c, k, e, h, _, _⟩ | ⟨_, _, _, _, _, h⟩
    · exfalso
      have := congrArg (fun x => x.1.2.2) h
      simp [dialAndWrite, goodDial, TcpWorld.connect] at this
    · rw [h]; exact h1
  have hm := (C84_once_partial dials server servers to (tcpRequest n m) r w hw hp hpost).1
  refine ⟨r, ?_, h2, ?_, fun hm hl => tcpRequest_tid n m hm hl⟩
  · unfold Node.postMessage Node.postSync
    rw [if_pos ht, sendMessage_running hb hr, hs]
    simp only [tcpRequest] at hm
    simp only [hm]
  · unfold Node.postMessage Node.postSync
    rw [if_pos ht, sendMessage_running hb hr, hs]
    simp only [tcpRequest] at hm
    simp only [hm]
    rfl

/-- C84, the part that holds, for `PostMessage`: a post whose first connection delivers a response returns it, and
has written its request once and tried nothing else. -/
theorem C84_post_once_partial (n : Node) (hb : Base n) (hr : n.running = true) (s : Transport)
    (ht : s.config.unicast.tcpEnabled = true) (server : UServer) (servers : List UServer)
    (hs : s.uservers = server :: servers) (hp : server.port ≠ 0) (dials : Nat → Dial) (out : SendOs)
    (answer : Option Message) (to : Addr) (m r : Message) (w : TcpWorld) (hw : ConnsNumbered w)
    (h : (tcpPost (dials 0) true to (tcpRequest n m) w).1 = .ok r) :
    (n.postMessage dials out answer s to m w).result = .ok r ∧
    (n.postMessage dials out answer s to m w).world.writes = w.writes ++ [(w.next, to, (tcpRequest n m).bytes)] ∧
    (n.postMessage dials out answer s to m w).attempts = [] := by
  obtain ⟨h1, h2⟩ := C84_once_partial dials server servers to (tcpRequest n m) r w hw hp h
  unfold Node.postMessage Node.postSync
  rw [if_pos ht, sendMessage_running hb hr, hs]
  simp only [tcpRequest] at h1 h2 ⊢
  simp only [h1]
  exact ⟨trivial, h2, trivial⟩

/-- A transport with TCP and these servers. -/
def tcpTransport (servers : List UServer) : Transport :=
  ⟨{ TransportConfig.default with unicast := { TransportConfig.default.unicast with tcpEnabled := true } },
    3610, servers, [], ⟨0, []⟩⟩

/-- A running node, a transport that sends by TCP, and a frame of another transaction as the answer. -/
example : (∃ n : Node, Base n ∧ n.running = true) ∧
    (tcpTransport [aServer 3610 true]).uservers = [aServer 3610 true] ∧ (aServer 3610 true).port ≠ 0 ∧
    ConnsNumbered ⟨[], 0, []⟩ ∧
    (⟨9, 0x013001, 0x0EF001, 0x72, [⟨0x80, [0x30]⟩]⟩ : Frame).Valid ∧
    (⟨9, 0x013001, 0x0EF001, 0x72, [⟨0x80, [0x30]⟩]⟩ : Frame).encode.length ≤ 4096 := by
  refine ⟨?_, rfl, by decide, by simp [ConnsNumbered], by simp [Frame.Valid],
    by simp [Frame.encode, WireProp.encode, beBytes_length]⟩
  obtain ⟨n, hn⟩ : ∃ n : Node, Base n := ⟨_, new_std.1⟩
  exact ⟨{ n with running := true }, ⟨fun r o h => hn.wf r o (by cases r <;> exact h), hn.prof⟩, rfl⟩

/-- C85 is false: not every message returned has the identifier of the request. -/
theorem C85_refuted_statement : ¬ ∀ (n : Node) (dials : Nat → Dial) (out : SendOs)
    (s : Transport) (to : Addr) (m r : Message) (w : TcpWorld), Base n → n.running = true → Built m →
    (n.postMessage dials out none s to m w).result = .ok r →
    r.getTID = (n.postMessage dials out none s to m w).request.getTID := by
  intro h
  obtain ⟨n, hb, hr, hl⟩ : ∃ n : Node, Base n ∧ n.running = true ∧ n.lastTID.toNat = 0 := by
    obtain ⟨n, hn⟩ : ∃ n : Node, Base n := ⟨_, new_std.1⟩
    exact ⟨{ n with running := true, lastTID := 0 }, ⟨fun r o h => hn.wf r o h, hn.prof⟩, rfl, rfl⟩
  let f : Frame := ⟨7, 0x0EF001, 0x0EF001, 0x72, []⟩
  let s := tcpTransport [aServer 3610 true]
  obtain ⟨r, h1, h2, h3, -⟩ := C85_refuted n hb hr s rfl (aServer 3610 true) [] rfl (by decide)
    (fun _ => goodDial [f.encode]) (fun _ _ => .inl 0) none ⟨"10.0.0.1", 3610⟩ Message.new ⟨[], 0, []⟩
    (fun c hc => by cases hc) f (by simp [Frame.Valid, f]) (by decide) rfl
  have h4 := h n _ _ s _ _ r _ hb hr .new h1
  rw [h3] at h4
  have h5 := congrArg BitVec.toNat h4
  rw [h2.tid, tcpRequest_tid n _ .new (by omega), hl] at h5
  revert h5
  decide

/-! ## C86: sending again by UDP -/

theorem unreached (dials : Nat → Dial) (to : Addr) (m : Message) (servers : List UServer)
    (hd : ∀ k, ∃ e, (dials k).resolve = some e ∨ (dials k).dial = some e) :
    ∀ (k : Nat) (l : Option Err) (w : TcpWorld),
    (∃ e, (tcpPostFrom dials to m k l servers w).1 = .err e) ∧ (tcpPostFrom dials to m k l servers w).2 = w := by
  induction servers with
  | nil => intro k l w; exact ⟨⟨_, rfl⟩, rfl⟩
  | cons s ss ih =>
    intro k l w
    have : ∃ e, tcpPost (dials k) (decide (s.port ≠ 0)) to m w = (.err e, w) := by
      obtain ⟨e, he⟩ := hd k
      unfold tcpPost dialAndWrite
      cases hres : (dials k).resolve with
      | some e => exact ⟨e, rfl⟩
      | none =>
        rcases he with he | he
        · rw [hres] at he; cases he
        · cases decide (s.port ≠ 0) with
          | false => exact ⟨_, rfl⟩
          | true => rw [he]; exact ⟨e, rfl⟩
    obtain ⟨e, he⟩ := this
    unfold tcpPostFrom
    rw [he]
    exact ih (k + 1) (some e) w

/-- C86, the part that holds: when no TCP connection can be made at all, nothing was written over TCP
and the request is sent again, with the identifier after the one used before, in the order of C62
without its TCP attempts; and the result is that of the second attempt. -/
theorem C86_udp_partial (n : Node) (hb : Base n) (hr : n.running = true) (s : Transport)
    (ht : s.config.unicast.tcpEnabled = true) (dials : Nat → Dial) (out : SendOs)
    (answer : Option Message) (to : Addr) (m : Message) (w : TcpWorld)
    (hd : ∀ k, ∃ e, (dials k).resolve = some e ∨ (dials k).dial = some e) :
    (n.postMessage dials out answer s to m w).world = w ∧
    (n.postMessage dials out answer s to m w).request = tcpRequest n.nextTID (tcpRequest n m) ∧
    (Built m → n.lastTID.toNat ≤ 65535 →
      (n.postMessage dials out answer s to m w).request.getTID.toNat = (n.lastTID.toNat + 2) % 65536) ∧
    (n.postMessage dials out answer s to m w).attempts = (s.sendMessage out).2 ∧
    (n.postMessage dials out answer s to m w).result = match (s.sendMessage out).1, answer with
      | .inr e, _ => .err e
      | .inl _, some r => .ok r
      | .inl _, none => .err .timeout := by
  have hun := unreached dials to (tcpRequest n m) s.uservers hd 0 none w
  obtain ⟨⟨e, he⟩, hw⟩ := hun
  have hx : managerPost dials true s.uservers to (tcpRequest n m) w = (.err e, w) := by
    show tcpPostFrom dials to (tcpRequest n m) 0 none s.uservers w = _
    rw [← he]
    exact Prod.ext rfl hw
  have hr' : n.nextTID.running = true := by rw [nextTID_eq]; exact hr
  have htid : Built m → n.lastTID.toNat ≤ 65535 →
      (tcpRequest n.nextTID (tcpRequest n m)).getTID.toNat = (n.lastTID.toNat + 2) % 65536 := by
    intro hm hl
    have hn : n.nextTID.lastTID.toNat = (n.lastTID.toNat + 1) % 65536 := by
      rw [nextTID_eq]; exact nextId_toNat _ hl
    have hq : Built (tcpRequest n m) := .setSEOJ _ (.setTID _ hm)
    rw [tcpRequest_tid _ _ hq (by omega), hn]
    omega
  have h1 : n.postMessage dials out answer s to m w
      = n.nextTID.postAsync out answer s (tcpRequest n m) w := by
    unfold Node.postMessage Node.postSync
    rw [if_pos ht, sendMessage_running hb hr]
    simp only [tcpRequest] at hx ⊢
    simp only [hx]
  rw [h1]
  unfold Node.postAsync
  rw [sendMessage_running (base_nextTID hb) hr']
  dsimp only
  rcases s.sendMessage out with ⟨k | e, made⟩
  · cases answer <;> exact ⟨rfl, rfl, htid, rfl, rfl⟩
  · exact ⟨rfl, rfl, htid, rfl, rfl⟩

/-- No connection can be opened, and the only server sends the request by UDP. -/
example : let d : Dial := { goodDial [] with dial := some (.io 111) }
    (∃ e, d.resolve = some e ∨ d.dial = some e) ∧
    ((tcpTransport [aServer 3610 true]).sendMessage (fun k _ => if k = 0 then .inr (.io 111) else .inl 14)).1 = .inl 14 := by
  refine ⟨⟨.io 111, .inr rfl⟩, by decide⟩

/-- C86, refuted: when the other side accepts connections but does not answer in time, the request is
not sent by UDP: the second attempt goes over TCP too, on a connection closed at once, where no response
can be read. -/
theorem C86_refuted (n : Node) (hb : Base n) (hr : n.running = true) (s : Transport)
    (ht : s.config.unicast.tcpEnabled = true) (server : UServer) (servers : List UServer)
    (hs : s.uservers = server :: servers) (hst : server.tcpEnabled = true)
    (hp : ∀ u ∈ s.uservers, u.port ≠ 0) (dials : Nat → Dial)
    (hd : ∀ k, dials k = goodDial []) (out : SendOs) (b : Nat)
    (ho : out 0 ⟨server, .tcp⟩ = .inl b) (answer : Option Message) (to : Addr) (m : Message) (w : TcpWorld)
    (hw : ConnsNumbered w) :
    (n.postMessage dials out answer s to m w).attempts = [⟨server, .tcp⟩] ∧
    copies w (n.postMessage dials out answer s to m w).world = s.uservers.length := by
  obtain ⟨⟨e, he⟩, hc⟩ := C84_refuted dials s.uservers to (tcpRequest n m) w hw hp
    (fun k => by rw [hd k]; decide)
  have hr' : n.nextTID.running = true := by rw [nextTID_eq]; exact hr
  have h1 : n.postMessage dials out answer s to m w
      = n.nextTID.postAsync out answer s (tcpRequest n m)
          (managerPost dials true s.uservers to (tcpRequest n m) w).2 := by
    unfold Node.postMessage Node.postSync
    rw [if_pos ht, sendMessage_running hb hr]
    simp only [tcpRequest] at he ⊢
    simp only [he]
  have h2 : s.sendMessage out = (.inl b, [⟨server, .tcp⟩]) := by
    unfold Transport.sendMessage
    rw [hs]
    have hp1 : server.port ≠ 0 := hp server (by rw [hs]; exact List.mem_cons_self)
    simp only [sendFrom, serverSend, if_pos hst, if_pos hp1, ho]
  rw [h1]
  unfold Node.postAsync
  rw [sendMessage_running (base_nextTID hb) hr', h2]
  dsimp only
  cases answer <;> exact ⟨rfl, hc⟩

/-- C84, refuted for `PostMessage`: a peer that takes the request and answers late gets it once for every
interface and once more. -/
theorem C84_refuted_post (n : Node) (hb : Base n) (hr : n.running = true) (s : Transport)
    (ht : s.config.unicast.tcpEnabled = true) (server : UServer) (servers : List UServer)
    (hs : s.uservers = server :: servers) (hst : server.tcpEnabled = true)
    (hp : ∀ u ∈ s.uservers, u.port ≠ 0) (dials : Nat → Dial)
    (hd : ∀ k, dials k = goodDial []) (out : SendOs) (b : Nat)
    (ho : out 0 ⟨server, .tcp⟩ = .inl b) (answer : Option Message) (to : Addr) (m : Message) (w : TcpWorld)
    (hw : ConnsNumbered w) :
    copies w (n.postMessage dials out answer s to m w).world +
      (n.postMessage dials out answer s to m w).attempts.length = s.uservers.length + 1 := by
  obtain ⟨h1, h2⟩ := C86_refuted n hb hr s ht server servers hs hst hp dials hd out b ho answer to m w hw
  rw [h1, h2]
  rfl

/-- Two servers with TCP and silent peers meet the hypotheses: the request is written three times. -/
example : let s := tcpTransport [aServer 3610 true, aServer 3611 true]
    s.config.unicast.tcpEnabled = true ∧ (∀ u ∈ s.uservers, u.port ≠ 0) ∧ (aServer 3610 true).tcpEnabled = true ∧
    (s.sendMessage (fun _ _ => .inl 14)).2 = [⟨aServer 3610 true, .tcp⟩] ∧
    copies ⟨[], 0, []⟩ (managerPost (fun _ => goodDial []) true s.uservers ⟨"10.0.0.1", 3610⟩ Message.new
      ⟨[], 0, []⟩).2 = 2 := by decide

end Verif.Props
