import Verif.Model.Source
import Verif.Props.Address
import Verif.Props.NodePost

/-! # C141 and C142: what a failed post returns, and the source of a received message -/

namespace Verif.Props
open Verif Model Spec Lemmas Transport

/-! ## C141 -/

/-- C141, the part that holds. Without an error the value is a message that can be read, the one the node was
answered. With an error it is nil, or else the error is a timeout. -/
theorem C141_value_partial (n : Node) (dials : Nat → Dial) (out : SendOs) (answer : Option Message)
    (s : Transport) (to : Addr) (m : Message) (w : TcpWorld) (v : MsgValue) (e : Option Err)
    (h : n.postReturn dials out answer s to m w = .ok (v, e)) :
    (e = none → v.isNil = false ∧ ∃ r, (n.postMessage dials out answer s to m w).result = .ok r ∧
      ∀ (α : Type) (f : Message → α), v.read f = .ok (f r)) ∧
    (∀ x, e = some x → (n.postMessage dials out answer s to m w).result = .err x ∧
      (v.isNil = true ∨ x = .timeout)) := by
  have key : ∀ (n : Node) (m : Message) (w : TcpWorld), n.asyncReturn out answer s m = (v, e) →
      (e = none → v.isNil = false ∧ ∃ r, (n.postAsync out answer s m w).result = .ok r ∧
        ∀ (α : Type) (f : Message → α), v.read f = .ok (f r)) ∧
      (∀ x, e = some x → (n.postAsync out answer s m w).result = .err x ∧
        (v.isNil = true ∨ x = .timeout)) := by
    intro n m w h
    unfold Node.asyncReturn at h
    unfold Node.postAsync
    match hs : n.sendMessage m with
    | (_, none, e') =>
      rw [hs] at h
      cases h
      exact ⟨fun h => (by cases h), fun x hx => by cases hx; exact ⟨rfl, .inl rfl⟩⟩
    | (_, some m', _) =>
      rw [hs] at h
      dsimp only at h ⊢
      match ht : s.sendMessage out with
      | (.inr e', _) =>
        rw [ht] at h
        cases h
        exact ⟨fun h => (by cases h), fun x hx => by cases hx; exact ⟨rfl, .inl rfl⟩⟩
      | (.inl _, _) =>
        rw [ht] at h
        cases answer with
        | none =>
          cases h
          exact ⟨fun h => (by cases h), fun x hx => by cases hx; exact ⟨rfl, .inr rfl⟩⟩
        | some r =>
          cases h
          exact ⟨fun _ => ⟨rfl, r, rfl, fun _ _ => rfl⟩, fun x hx => (by cases hx)⟩
  unfold Node.postReturn at h
  unfold Node.postMessage
  by_cases ht : s.config.unicast.tcpEnabled = true
  · rw [if_pos ht] at h ⊢
    dsimp only at h ⊢
    cases hr : (n.postSync dials true s.uservers to m w).result with
    | ok r =>
      rw [hr] at h
      cases h
      exact ⟨fun _ => ⟨rfl, r, hr, fun _ _ => rfl⟩, fun x hx => (by cases hx)⟩
    | panic => rw [hr] at h; cases h
    | err x =>
      rw [hr] at h
      exact key _ _ _ (Res.ok.inj h)
  · rw [if_neg ht] at h ⊢
    exact key _ _ _ (Res.ok.inj h)

/-- C141 is false: whenever a request was sent and no answer comes, the value is not nil, and every method of it
panics. -/
theorem C141_refuted (n : Node) (hb : Base n) (hr : n.running = true) (dials : Nat → Dial) (out : SendOs)
    (s : Transport) (to : Addr) (m : Message) (w : TcpWorld)
    (ht : s.config.unicast.tcpEnabled = true → ∃ x, (n.postSync dials true s.uservers to m w).result = .err x)
    (k : Nat) (hs : (s.sendMessage out).1 = .inl k) :
    ∃ v, n.postReturn dials out none s to m w = .ok (v, some .timeout) ∧ v.isNil = false ∧
      ∀ (α : Type) (f : Message → α), v.read f = .panic := by
  refine ⟨.holds none, ?_, rfl, fun _ _ => rfl⟩
  have key : ∀ (n : Node) (m : Message), Base n → n.running = true →
      n.asyncReturn out none s m = (.holds none, some .timeout) := by
    intro n m hb hr
    unfold Node.asyncReturn
    rw [sendMessage_running hb hr]
    dsimp only
    match hx : s.sendMessage out with
    | (.inl _, _) => rfl
    | (.inr e, _) => rw [hx] at hs; cases hs
  unfold Node.postReturn
  by_cases htc : s.config.unicast.tcpEnabled = true
  · obtain ⟨x, hx⟩ := ht htc
    rw [if_pos htc]
    dsimp only
    rw [hx]
    dsimp only
    have hn : (n.postSync dials true s.uservers to m w).node = n.nextTID := by
      unfold Node.postSync
      rw [sendMessage_running hb hr]
    rw [key _ _ (by rw [hn]; exact base_nextTID hb) (by rw [hn, nextTID_eq]; exact hr)]
  · rw [if_neg htc, key _ _ hb hr]

/-- A running node, and a transport without and with TCP that sends the request: with TCP the first attempt, over TCP,
fails since no connection is made. -/
example : (∃ n : Node, Base n ∧ n.running = true) ∧
    (let s := tcpTransport [aServer 3610 false]
     (s.sendMessage (fun _ _ => .inl 14)).1 = .inl 14 ∧
     ∃ x, (managerPost (fun _ => { goodDial [] with dial := some (.io 111) }) true s.uservers ⟨"10.0.0.1", 3610⟩
       Message.new ⟨[], 0, []⟩).1 = .err x) := by
  refine ⟨?_, by decide, ⟨.io 111, by decide⟩⟩
  obtain ⟨n, hn⟩ : ∃ n : Node, Base n := ⟨_, new_std.1⟩
  exact ⟨{ n with running := true }, ⟨fun r o h => hn.wf r o (by cases r <;> exact h), hn.prof⟩, rfl⟩

/-! ## C142 -/

/-- The peer has an IPv4 or IPv6 address and a port. -/
def Peer.Valid (p : Peer) : Prop := (p.ip.length = 4 ∨ p.ip.length = 16) ∧ p.port < 65536

theorem ipString_sixteen (v6 : V6) (ip : Bytes) :
    ipString v6 (sixteen ip) = ipString v6 ip := by
  unfold sixteen
  by_cases h4 : ip.length = 4
  · rw [if_pos h4]
    unfold ipString v4InV6
    rw [if_pos h4, if_neg (by simp [h4]), if_pos (by simp [h4]), if_pos (by simp)]
    rfl
  · rw [if_neg h4]

/-- C142, the part that holds. For a peer without a zone the source address and port of a message are those of the
peer, over UDP and over TCP, a response goes to the address of the peer, and different peers have different
sources. Missing: peers with a zone, that is, link-local IPv6 addresses (`C142_refuted_udp`, `C142_refuted_tcp`). -/
theorem C142_source_partial (v6 : V6) (hv : V6Text v6) (p : Peer) (hp : Peer.Valid p) (hz : p.zone = []) :
    (udpSource p).sourceAddress v6 = ipString v6 p.ip ∧ (udpSource p).port = p.port ∧
    replyTarget v6 (udpSource p) = p.string v6 ∧
    (∃ a, tcpSource v6 p = some a ∧ a.sourceAddress v6 = ipString v6 p.ip ∧ a.port = p.port) ∧
    ∀ q : Peer, Peer.Valid q → q.zone = [] →
      (udpSource q).sourceAddress v6 = (udpSource p).sourceAddress v6 → (udpSource q).port = (udpSource p).port →
      sixteen q.ip = sixteen p.ip ∧ q.port = p.port := by
  have hs : p.string v6 = joinHostPort (ipString v6 p.ip) (itoa p.port) := by
    unfold Peer.string Peer.host
    rw [if_pos hz]
  refine ⟨rfl, rfl, hs.symm, ⟨⟨sixteen p.ip, p.port⟩, ?_, ipString_sixteen v6 _, rfl⟩, ?_⟩
  · have := (C87_back_partial v6 hv ⟨p.ip, p.port⟩ ⟨[], 0⟩ hp.1 (by show -2 ^ 63 ≤ (p.port : Int); omega)
      (by have := hp.2; show (p.port : Int) < 2 ^ 63; omega)).2
    unfold tcpSource
    rw [hs]
    exact this
  · intro q hq _ ha hport
    have h1 := (parse_ipString v6 hv p.ip hp.1).1
    have h2 := (parse_ipString v6 hv q.ip hq.1).1
    change ipString v6 q.ip = ipString v6 p.ip at ha
    rw [ha] at h2
    exact ⟨Option.some.inj (h2.symm.trans h1), Int.ofNat.inj hport⟩

/-- C142 is false over UDP for every peer with a zone: the zone is lost, so that the response is sent to another
address, and peers on different links have the same source. -/
theorem C142_refuted_udp (v6 : V6) (p : Peer) (hz : p.zone ≠ []) :
    replyTarget v6 (udpSource p) ≠ p.string v6 ∧
    ∀ zone, udpSource { p with zone := zone } = udpSource p := by
  refine ⟨fun h => ?_, fun _ => rfl⟩
  have hl := congrArg List.length h
  unfold replyTarget Peer.string Peer.host joinHostPort at hl
  rw [if_neg hz] at hl
  change List.length (if ':' ∈ ipString v6 p.ip then _ else _) = _ at hl
  by_cases hc : ':' ∈ ipString v6 p.ip
  · rw [if_pos hc, if_pos (List.mem_append.mpr (.inl hc))] at hl
    simp [Address.sourceAddress, udpSource] at hl
    omega
  · rw [if_neg hc] at hl
    by_cases hc' : ':' ∈ ipString v6 p.ip ++ '%' :: p.zone
    · rw [if_pos hc'] at hl
      simp [Address.sourceAddress, udpSource] at hl
      omega
    · rw [if_neg hc'] at hl
      simp [Address.sourceAddress, udpSource] at hl
      omega

/-- C142 is false over TCP for every peer with an IPv6 address and a zone: the message has no source address. -/
theorem C142_refuted_tcp (v6 : V6) (hv : V6Text v6) (p : Peer) (h16 : p.ip.length = 16)
    (hm : p.ip.take 12 ≠ [0, 0, 0, 0, 0, 0, 0, 0, 0, 0, 0xFF, 0xFF]) (hz : p.zone ≠ []) (hport : p.port < 65536)
    (z1 : '[' ∉ p.zone) (z2 : ']' ∉ p.zone) :
    ∃ a, tcpSource v6 p = some a ∧ a.sourceAddress v6 = "<nil>".toList := by
  refine ⟨⟨[], p.port⟩, ?_, rfl⟩
  have hi : ipString v6 p.ip = v6.format p.ip := by
    unfold ipString
    rw [if_neg (by omega), if_pos h16, if_neg hm]
  unfold tcpSource Peer.string Peer.host
  rw [if_neg hz, hi]
  exact C87_refuted_zone v6 hv p.ip p.zone p.port z1 z2 (by omega) (by omega)

/-- A peer with a zone and one without. -/
example : Peer.Valid ⟨List.replicate 16 1, "eth0".toList, 3610⟩ ∧ Peer.Valid ⟨[10, 0, 0, 2], [], 3610⟩ ∧
    V6Text toyV6 ∧ (List.replicate 16 (1 : Byte)).take 12 ≠ [0, 0, 0, 0, 0, 0, 0, 0, 0, 0, 0xFF, 0xFF] ∧
    tcpSource toyV6 ⟨[10, 0, 0, 2], [], 3610⟩ = some ⟨v4InV6 [10, 0, 0, 2], 3610⟩ ∧
    tcpSource toyV6 ⟨List.replicate 16 1, "eth0".toList, 3610⟩ = some ⟨[], 3610⟩ := by
  refine ⟨⟨.inr rfl, by decide⟩, ⟨.inl rfl, by decide⟩, toyV6_text, by decide, by decide +kernel, ?_⟩
  exact C87_refuted_zone toyV6 toyV6_text (List.replicate 16 1) "eth0".toList 3610 (by decide) (by decide) (by decide)
    (by decide)

end Verif.Props
