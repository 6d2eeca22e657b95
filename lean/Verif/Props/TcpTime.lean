import Verif.Props.NodePost
import Verif.Model.TcpTime

/-! # C175: how long a message takes over TCP -/

namespace Verif.Props
open Verif Model Spec Lemmas Transport

/-! ## Bounds -/

theorem dialTime_le (T : Nat) (p : Pace) (d : Dial) (bound : Bool) : dialTime T p d bound ≤ p.dial + T := by
  unfold dialTime
  repeat' split
  all_goals omega

theorem tcpPostTime_le (T : Nat) (p : Pace) (d : Dial) (bound : Bool) (to : Addr) (m : Message) (w : TcpWorld) :
    tcpPostTime T p d bound to m w ≤ p.dial + 2 * T := by
  have := dialTime_le T p d bound
  unfold tcpPostTime
  refine Nat.le_trans (Nat.add_le_add this (?_ : _ ≤ T)) (by omega)
  repeat' split
  all_goals first | exact Nat.min_le_right _ _ | exact Nat.zero_le _

theorem tcpPostFromTime_le (T D : Nat) (paces : Nat → Pace) (dials : Nat → Dial) (to : Addr) (m : Message)
    (hD : ∀ i, (paces i).dial ≤ D) (servers : List UServer) : ∀ (k : Nat) (w : TcpWorld),
    tcpPostFromTime T paces dials to m k servers w ≤ servers.length * (D + 2 * T) := by
  induction servers with
  | nil => intro k w; exact Nat.zero_le _
  | cons server servers ih =>
    intro k w
    have h1 := tcpPostTime_le T (paces k) (dials k) (decide (server.port ≠ 0)) to m w
    have h2 := hD k
    unfold tcpPostFromTime
    rw [List.length_cons, Nat.succ_mul]
    split
    · have h3 := ih (k + 1) (by assumption)
      omega
    · omega

/-- The attempts over TCP among some. -/
def overTcp (as : List Attempt) : Nat := as.countP (fun a => a.proto = .tcp)

theorem sendTime_le (T D : Nat) (paces : Nat → Pace) (hD : ∀ i, (paces i).dial ≤ D) (as : List Attempt) :
    ∀ k : Nat, sendTime T paces k as ≤ overTcp as * (D + T) := by
  induction as with
  | nil => intro k; exact Nat.zero_le _
  | cons a as ih =>
    intro k
    have h1 := ih (k + 1)
    have h2 := hD k
    unfold sendTime overTcp
    rw [List.countP_cons]
    unfold overTcp at h1
    by_cases ha : a.proto = .tcp
    · rw [if_pos ha, if_pos (by simpa using ha), Nat.succ_mul]
      omega
    · rw [if_neg ha, if_neg (by simpa using ha)]
      simpa using h1

theorem serverSend_tcp (out : SendOs) (k : Nat) (server : UServer) : overTcp (serverSend out k server).2 ≤ 1 := by
  unfold serverSend
  repeat' split
  all_goals simp [overTcp]

theorem sendFrom_tcp (out : SendOs) (servers : List UServer) : ∀ (k : Nat) (e : Option Err),
    overTcp (sendFrom out k e servers).2 ≤ servers.length := by
  induction servers with
  | nil => intro k e; exact Nat.zero_le _
  | cons server servers ih =>
    intro k e
    have h1 := serverSend_tcp out k server
    unfold sendFrom
    match h : serverSend out k server with
    | (.inl n, as) =>
      rw [h] at h1
      rw [List.length_cons]
      exact Nat.le_trans h1 (Nat.le_add_left _ _)
    | (.inr x, as) =>
      rw [h] at h1
      have h2 := ih (k + as.length) (some x)
      dsimp only at h1 ⊢
      rw [List.length_cons]
      unfold overTcp at h1 h2 ⊢
      rw [List.countP_append]
      omega

theorem sendTakes_le (n : Node) (T D : Nat) (paces : Nat → Pace) (out : SendOs) (s : Transport) (m : Message)
    (hD : ∀ i, (paces i).dial ≤ D) : n.sendTakes T paces out s m ≤ s.uservers.length * (D + T) := by
  unfold Node.sendTakes
  split
  · exact Nat.zero_le _
  · exact Nat.le_trans (sendTime_le T D paces hD _ 0) (Nat.mul_le_mul_right _ (sendFrom_tcp out s.uservers 0 none))

/-- **C175, the part that holds**: if every attempt to connect takes at most `D`, sending takes, for each interface,
at most `D` and the connection timeout `T`; posting takes that, the request timeout `R`, and for each interface again
`D` and twice the connection timeout. -/
theorem C175_bound_partial (n : Node) (T R D : Nat) (paces paces' : Nat → Pace) (dials : Nat → Dial) (out : SendOs)
    (answer : Option (Message × Nat)) (s : Transport) (to : Addr) (m : Message) (w : TcpWorld)
    (hD : ∀ i, (paces i).dial ≤ D) (hD' : ∀ i, (paces' i).dial ≤ D) :
    n.sendTakes T paces out s m ≤ s.uservers.length * (D + T) ∧
    n.postTakes T R paces paces' dials out answer s to m w ≤
      s.uservers.length * (D + 2 * T) + s.uservers.length * (D + T) + R := by
  refine ⟨sendTakes_le n T D paces out s m hD, ?_⟩
  have second : ∀ (n : Node) (m : Message),
      n.postAsyncTakes T R paces' out answer s m ≤ s.uservers.length * (D + T) + R := by
    intro n m
    have := sendTakes_le n T D paces' out s m hD'
    unfold Node.postAsyncTakes
    refine Nat.add_le_add this ?_
    repeat' split
    all_goals first | exact Nat.min_le_right _ _ | exact Nat.zero_le _ | exact Nat.le_refl _
  have first : n.postSyncTakes T paces dials s.uservers to m w ≤ s.uservers.length * (D + 2 * T) := by
    unfold Node.postSyncTakes
    split
    · exact tcpPostFromTime_le T D paces dials to _ hD s.uservers 0 w
    · exact Nat.zero_le _
  unfold Node.postTakes
  dsimp only
  split
  · split
    · have := second (n.postSync dials true s.uservers to m w).node (n.postSync dials true s.uservers to m w).request
      omega
    · omega
  · have := second n m
    omega

/-! ## Connecting -/

/-- What happens when no connection is made in the end. -/
def lostDial : Dial := ⟨none, some .timeout, none, (0, none), none, ⟨[], .timeout, ⟨"10.0.0.1", 3610⟩⟩⟩

/-- **C175, refuted**: there is no bound on the time. Connecting has no timeout: for all timeouts and every bound
`B` there is a time that connecting takes, with no connection in the end, so that sending and posting take longer than
`B`, however the rest goes. -/
theorem C175_refuted (n : Node) (hb : Base n) (hr : n.running = true) (T R B : Nat) (s : Transport)
    (ht : s.config.unicast.tcpEnabled = true) (server : UServer) (servers : List UServer)
    (hs : s.uservers = server :: servers) (hp : server.port ≠ 0) (hts : server.tcpEnabled = true) :
    ∃ (paces : Nat → Pace) (dials : Nat → Dial), (∀ i, (dials i).dial = some .timeout) ∧
      (∀ (out : SendOs) (m : Message), B < n.sendTakes T paces out s m) ∧
      ∀ (out : SendOs) (answer : Option (Message × Nat)) (to : Addr) (m : Message) (w : TcpWorld),
        B < n.postTakes T R paces paces dials out answer s to m w := by
  refine ⟨fun _ => ⟨B + 1, 0, 0⟩, fun _ => lostDial, fun _ => rfl, ?_, ?_⟩
  · intro out m
    unfold Node.sendTakes
    rw [sendMessage_running hb hr]
    dsimp only
    unfold Transport.sendMessage sendFrom serverSend
    rw [hs]
    dsimp only
    rw [if_pos hts, if_pos hp]
    cases out 0 ⟨server, .tcp⟩ with
    | inl x => simp only [sendTime]; simp
    | inr e =>
      dsimp only
      cases out (0 + 1) ⟨server, .udp⟩ with
      | inl x => simp only [sendTime]; simp
      | inr e => simp only [List.cons_append, sendTime]; simp; omega
  · intro out answer to m w
    unfold Node.postTakes
    rw [if_pos ht]
    have : B < n.postSyncTakes T (fun _ => ⟨B + 1, 0, 0⟩) (fun _ => lostDial)
        s.uservers to m w := by
      unfold Node.postSyncTakes
      rw [sendMessage_running hb hr, hs]
      dsimp only
      unfold tcpPostFromTime tcpPostTime dialTime
      have hd : decide (server.port ≠ 0) = true := by simpa using hp
      rw [hd]
      simp only [lostDial, Bool.not_true, Bool.false_eq_true, if_false]
      omega
    dsimp only
    omega

/-! ## A peer that does not answer -/

/-- What a peer does that takes connections and requests at once but never answers: the reads end at their
deadline. -/
def silentDial : Dial := ⟨none, none, none, (0, none), none, ⟨[], .timeout, ⟨"10.0.0.1", 3610⟩⟩⟩

theorem silent_time (T : Nat) (to : Addr) (m : Message) (servers : List UServer)
    (hb : ∀ u ∈ servers, u.port ≠ 0) : ∀ (k : Nat) (w : TcpWorld),
    tcpPostFromTime T (fun _ => ⟨0, 0, T⟩) (fun _ => silentDial) to m k servers w = servers.length * T := by
  induction servers with
  | nil => intro k w; simp [tcpPostFromTime]
  | cons server servers ih =>
    intro k w
    have hd : decide (server.port ≠ 0) = true := by simpa using hb server List.mem_cons_self
    unfold tcpPostFromTime
    rw [hd]
    have h1 : tcpPostTime T ⟨0, 0, T⟩ silentDial true to m w = T := by
      simp [tcpPostTime, dialTime, dialAndWrite, silentDial, TcpWorld.connect]
    have h2 : ∃ w', tcpPost silentDial true to m w = (.err .timeout, w') := ⟨_, rfl⟩
    obtain ⟨w', h2⟩ := h2
    rw [h1, h2]
    dsimp only
    rw [ih (fun u hu => hb u (List.mem_cons_of_mem _ hu)), List.length_cons, Nat.succ_mul]
    omega

/-- **C175, refuted** without slow connections: a post to a peer that takes every request at once and never answers
waits for the connection timeout on each interface, one after the other, and then for the request timeout. -/
theorem C175_refuted_silent (n : Node) (hb : Base n) (hr : n.running = true) (T R : Nat) (s : Transport)
    (ht : s.config.unicast.tcpEnabled = true) (hp : ∀ u ∈ s.uservers, u.port ≠ 0) (out : SendOs) (j : Nat)
    (hout : (s.sendMessage out).1 = .inl j) (to : Addr) (m : Message) (w : TcpWorld) (hw : ConnsNumbered w) :
    n.postTakes T R (fun _ => ⟨0, 0, T⟩) (fun _ => ⟨0, 0, 0⟩) (fun _ => silentDial) out none s to m w =
      s.uservers.length * T + R := by
  unfold Node.postTakes
  rw [if_pos ht]
  have h1 : n.postSyncTakes T (fun _ => ⟨0, 0, T⟩) (fun _ => silentDial) s.uservers to m w =
      s.uservers.length * T := by
    unfold Node.postSyncTakes
    rw [sendMessage_running hb hr]
    exact silent_time T to _ s.uservers hp 0 w
  have h2 : ∃ e, (n.postSync (fun _ => silentDial) true s.uservers to m w).result = .err e := by
    unfold Node.postSync
    rw [sendMessage_running hb hr]
    exact (late_copies (fun _ => silentDial) to _ s.uservers hp (fun _ => ⟨rfl, rfl, rfl, rfl, rfl, rfl⟩) 0 none w
      hw).1
  have h3 : (n.postSync (fun _ => silentDial) true s.uservers to m w).node = n.nextTID := by
    unfold Node.postSync
    rw [sendMessage_running hb hr]
  obtain ⟨e, h2⟩ := h2
  dsimp only
  rw [h1, h2, h3]
  dsimp only
  unfold Node.postAsyncTakes Node.sendTakes
  rw [sendMessage_running (base_nextTID hb) (by rw [nextTID_eq]; exact hr), hout]
  dsimp only
  have h5 : ∀ (as : List Attempt) (k : Nat), sendTime T (fun _ => ⟨0, 0, 0⟩) k as = 0 := by
    intro as
    induction as with
    | nil => intro k; rfl
    | cons a as ih => intro k; simp [sendTime, ih]
  rw [h5]
  omega

/-- C175 as stated is false: with two interfaces, a post to a silent peer takes longer than the two timeouts. -/
theorem C175_refuted_statement (T R : Nat) (hT : 0 < T) : ¬ ∀ (n : Node) (paces paces' : Nat → Pace)
    (dials : Nat → Dial) (out : SendOs) (answer : Option (Message × Nat)) (s : Transport) (to : Addr) (m : Message)
    (w : TcpWorld), Base n → n.running = true → ConnsNumbered w →
    n.postTakes T R paces paces' dials out answer s to m w ≤ T + R := by
  intro h
  obtain ⟨n, hb, hr⟩ : ∃ n : Node, Base n ∧ n.running = true := by
    obtain ⟨n, hn⟩ : ∃ n : Node, Base n := ⟨_, new_std.1⟩
    exact ⟨{ n with running := true }, ⟨fun r o h => hn.wf r o h, hn.prof⟩, rfl⟩
  have hw : ConnsNumbered ⟨[], 0, []⟩ := fun c hc => by cases hc
  let s := tcpTransport [aServer 3610 true, aServer 3610 true]
  have h1 := C175_refuted_silent n hb hr T R s rfl (by decide) (fun _ _ => .inl 14) 14 (by decide)
    ⟨"10.0.0.1", 3610⟩ Message.new _ hw
  have h2 := h n (fun _ => ⟨0, 0, T⟩) (fun _ => ⟨0, 0, 0⟩) (fun _ => silentDial) (fun _ _ => .inl 14) none s
    ⟨"10.0.0.1", 3610⟩ Message.new _ hb hr hw
  rw [h1] at h2
  have : s.uservers.length = 2 := rfl
  rw [this] at h2
  omega

/-- The hypotheses are met: a running node, a transport with TCP whose server is bound, and connections that take
up to 3 to be made. With an answer on the first connection after 2, the post takes 1 + 2. -/
example : (∃ n : Node, Base n ∧ n.running = true) ∧
    (tcpTransport [aServer 3610 true]).config.unicast.tcpEnabled = true ∧
    (aServer 3610 true).port ≠ 0 ∧ (aServer 3610 true).tcpEnabled = true ∧
    (∀ i : Nat, ((fun i => (⟨i % 4, 5, 1⟩ : Pace)) i).dial ≤ 3) ∧
    tcpPostFromTime 10 (fun _ => ⟨1, 0, 2⟩)
      (fun _ => goodDial [[0x10, 0x81, 0, 1, 1, 0x30, 1, 5, 0xFF, 1, 0x72, 0]]) ⟨"10.0.0.1", 3610⟩ Message.new 0
      [aServer 3610 true, aServer 3610 true] ⟨[], 0, []⟩ = 3 := by
  refine ⟨?_, rfl, by decide, by decide, fun i => ?_, by decide⟩
  · obtain ⟨n, hn⟩ : ∃ n : Node, Base n := ⟨_, new_std.1⟩
    exact ⟨{ n with running := true }, ⟨fun r o h => hn.wf r o (by cases r <;> exact h), hn.prof⟩, rfl⟩
  · show i % 4 ≤ 3
    omega

end Verif.Props
