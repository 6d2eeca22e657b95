import Verif.Props.BoundFollows
import Verif.Props.SelfFound

/-! # What C149 means for C96 and C97: nodes that do not recognise their own announcements -/

namespace Verif.Props
open Verif Model Transport Lemmas Spec

/-- The first server, when nothing can be bound on the ports before `r`. -/
theorem first_server_from {H : HostSpec} {s : Transport} (p : Nat) : ∀ (k r : Nat) {n : NetIf} {a : Str},
    listening s = (List.range' p (k + 1)).flatMap H.attempt → p ≤ r → r ≤ p + k →
    (∀ p', p ≤ p' → p' < r → H.attempt p' = []) → H.nifs.head? = some n →
    (H.addrs n).head? = some a → H.free a r = true →
    ∃ u us, s.uservers = u :: us ∧ u.addr = a ∧ u.port = r := by
  intro k
  induction k generalizing p with
  | zero =>
    intro r n a hl h1 h2 _ hn hd hf
    obtain rfl : r = p := by omega
    exact first_server hl hn hd hf
  | succ k ih =>
    intro r n a hl h1 h2 h3 hn hd hf
    by_cases hr : r = p
    · subst hr
      exact first_server hl hn hd hf
    · rw [show List.range' p (k + 1 + 1) = p :: List.range' (p + 1) (k + 1) from rfl, List.flatMap_cons,
        h3 p (Nat.le_refl _) (by omega), List.nil_append] at hl
      exact ih (p + 1) r hl (by omega) (by omega) (fun p' h4 h5 => h3 p' (by omega) h5) hn hd hf

/-- The announcement of a node started with automatic ports on such a host. -/
theorem announced_from (H : HostSpec) (os : Os) (hst : Stable os) (s : Transport) (h : Reachable os s)
    (hh : H.Of os s.config.unicast.tcpEnabled) (hm : ∀ t i, os.mcast t i = .ok) (hne : ∀ n ∈ H.nifs, [] ∉ H.addrs n)
    (ha : s.config.autoPortBindingEnabled = true)
    (q : Nat) (hq1 : s.port ≤ q) (hq2 : q ≤ s.port + 100) (hq : H.Suits q) (hr : ∀ r, s.port ≤ r → r < q → ¬ H.Suits r)
    (r : Nat) (hr0 : r ≠ 0) (hr1 : s.port ≤ r) (hr2 : r < q) (hno : ∀ p, s.port ≤ p → p < r → H.attempt p = [])
    (n : NetIf) (a : Str) (hn : H.nifs.head? = some n) (hd : (H.addrs n).head? = some a) (hf : H.free a r = true)
    (out : SendOs) (hout : ∀ a, ∃ n, out 0 a = .inl n) :
    ∃ s' at_, s.start os = .ok (none, s') ∧ s'.isRunning = true ∧ s'.nodeAddr = ⟨String.ofList a, q⟩ ∧
      s'.announce out = (none, [at_]) ∧ at_.source = some ⟨String.ofList a, r⟩ := by
  obtain ⟨s', a1, a2, a3, a4⟩ := (C149_automatic_port H os s h hh hm hne ha).1 q hq1 hq2 hq hr
  obtain ⟨u, us, b1, b2, b3⟩ := first_server_from s.port (q - s.port) r a4 hr1 (by omega) hno hn hd hf
  obtain ⟨hrun, -⟩ := C58_running os hst s s' h a1
  obtain ⟨x, -, x2, -, x4, x5⟩ := a2 u (by rw [b1]; exact List.mem_cons_self ..)
  have hu0 : u.port ≠ 0 := by rw [b3]; exact hr0
  obtain ⟨k, hk⟩ := hout ⟨u, .udp⟩
  refine ⟨s', ⟨u, .udp⟩, a1, hrun, ?_, ?_, ?_⟩
  · unfold Transport.nodeAddr Transport.address
    rw [b1, List.find?_cons_of_pos (by simpa using hu0)]
    dsimp only
    rw [b2, a3]
  · unfold Transport.announce Transport.announceMessage
    rw [hrun, b1, if_neg (by simp), announceFrom_first hu0 hk]
  · unfold Attempt.source
    simp only [x2, Option.map_some, x4, x5, b2, b3]

/-- C96 is false with automatic ports for every host that does not change on which the first address
of the first interface is free on a port `r` that is not free on the whole last interface, while
nothing can be bound on the ports before `r`: the node announces itself from port `r` and says it
uses the later port `q`. It handles its own announcement like that of another node. -/
theorem C96_refuted_any (H : HostSpec) (os : Os) (hst : Stable os) (s : Transport) (h : Reachable os s)
    (hh : H.Of os s.config.unicast.tcpEnabled) (hm : ∀ t i, os.mcast t i = .ok) (hne : ∀ n ∈ H.nifs, [] ∉ H.addrs n)
    (ha : s.config.autoPortBindingEnabled = true)
    (q : Nat) (hq1 : s.port ≤ q) (hq2 : q ≤ s.port + 100) (hq : H.Suits q) (hr : ∀ r, s.port ≤ r → r < q → ¬ H.Suits r)
    (r : Nat) (hr0 : r ≠ 0) (hr1 : s.port ≤ r) (hr2 : r < q) (hno : ∀ p, s.port ≤ p → p < r → H.attempt p = [])
    (n : NetIf) (a : Str) (hn : H.nifs.head? = some n) (hd : (H.addrs n).head? = some a) (hf : H.free a r = true)
    (out : SendOs) (hout : ∀ a, ∃ n, out 0 a = .inl n) :
    ∃ s' at_, s.start os = .ok (none, s') ∧ s'.announce out = (none, [at_]) ∧
      at_.source = some ⟨String.ofList a, r⟩ ∧ s'.nodeAddr = ⟨String.ofList a, q⟩ ∧
      ∀ (env : Env) (db : StdDB) (n : Node) (m : Message), n.addr = s'.nodeAddr → some m.src = at_.source →
        ∃ o, n.received env db m = .ok o ∧ o.delivered = n.isResponseMessage m ∧
          (Accepts n m → env.listener = true → Call.message m ∈ o.calls) := by
  obtain ⟨s', at_, b1, -, b3, b4, b5⟩ := announced_from H os hst s h hh hm hne ha q hq1 hq2 hq hr r hr0 hr1 hr2 hno n a hn hd hf out hout
  refine ⟨s', at_, b1, b4, b5, b3, fun env db n m h1 h2 => ?_⟩
  rw [b5, Option.some.injEq] at h2
  have hsrc : m.src ≠ n.addr := by
    rw [h1, h2, b3]
    intro he
    rw [Addr.mk.injEq] at he
    omega
  obtain ⟨o, ho, hd⟩ := C42_others env db n m (.inr hsrc)
  refine ⟨o, ho, hd, fun hacc hl => ?_⟩
  obtain ⟨o', ho', h5, -⟩ := C43_valid_partial env db n m (fun hi => hsrc hi.2) hl
  rw [ho] at ho'
  cases ho'
  exact List.mem_of_head? (h5 hacc).1

/-- C97 is false with automatic ports on every such host if `r` is not 3610: a controller that has
just been started on it lists itself, with all its devices, when it gets its own announcement. -/
theorem C97_refuted_any (H : HostSpec) (os : Os) (hst : Stable os) (s : Transport) (h : Reachable os s)
    (hh : H.Of os s.config.unicast.tcpEnabled) (hm : ∀ t i, os.mcast t i = .ok) (hne : ∀ n ∈ H.nifs, [] ∉ H.addrs n)
    (ha : s.config.autoPortBindingEnabled = true)
    (q : Nat) (hq1 : s.port ≤ q) (hq2 : q ≤ s.port + 100) (hq : H.Suits q) (hr : ∀ r, s.port ≤ r → r < q → ¬ H.Suits r)
    (r : Nat) (hr0 : r ≠ 0) (hr1 : s.port ≤ r) (hr2 : r < q) (hno : ∀ p, s.port ≤ p → p < r → H.attempt p = [])
    (hr3 : r ≠ 3610)
    (n : NetIf) (a : Str) (hn : H.nifs.head? = some n) (hd : (H.addrs n).head? = some a) (hf : H.free a r = true)
    (out : SendOs) (hout : ∀ a, ∃ n, out 0 a = .inl n) :
    ∃ s' at_ src, s.start os = .ok (none, s') ∧ s'.announce out = (none, [at_]) ∧ at_.source = some src ∧
      ∀ (c : Ctrl) (e : Env), c.node.addr = s'.nodeAddr → c.servers = s'.ctrlServers → c.autoPort = true →
        Lawful c.node → c.node.running = true → KnownDevices c.node → c.node.devices.length ≤ 84 →
        (∃ r o, Addressed c.node 0x0EF001 r o) → c.found = [] →
        ∃ m d r, c.node.announce.2 = ([m], none) ∧ Message.newWithBytes m.bytes = .ok d ∧
          ((CtrlOp.received e { d with src := src }).run stdDB c).1.found = [r] ∧
          r.address = src.ip ∧ r.port = src.port ∧ r.devices.map (·.codes) = c.node.devices.map (·.codes) := by
  obtain ⟨s', at_, b1, -, b3, b4, b5⟩ := announced_from H os hst s h hh hm hne ha q hq1 hq2 hq hr r hr0 hr1 hr2 hno n a hn hd hf out hout
  refine ⟨s', at_, _, b1, b4, b5, fun c e h1 h2 h3 h4 h5 h6 h7 h8 h9 => ?_⟩
  obtain ⟨m, d, g1, g2, g3⟩ := C48_announced_partial c.node h4 h5 h6 h7
  obtain ⟨r', g4, g5, g6, g7⟩ := g3 ⟨String.ofList a, r⟩ c e
    ⟨h8, .inr ⟨by
      rw [h1, b3]
      intro he
      rw [Addr.mk.injEq] at he
      omega, by
      rw [h2]
      intro hmem
      obtain ⟨x, -, hx⟩ := List.mem_map.mp hmem
      rw [Addr.mk.injEq] at hx
      exact hr3 hx.2.symm⟩⟩ (by rw [h9]; simp)
  rw [h9, List.nil_append] at g4
  rw [h3] at g6
  exact ⟨m, d, r', g1, g2, g4, g5, g6, g7⟩

/-- Port 3610 is taken on both interfaces, 3611 on the second: the ports of the theorems above are
3611 and 3612. -/
example : let free := fun a p => decide (p ≠ 3610 ∧ ¬ (a = addr1 ∧ p = 3611))
    ∃ s' at_ src, ((Transport.new 0).setConfig autoConfig).start (twoHostOs free) = .ok (none, s') ∧
      s'.announce (fun _ _ => .inl 1) = (none, [at_]) ∧ at_.source = some src := by
  obtain ⟨s', at_, src, h1, h2, h3, -⟩ := C97_refuted_any (twoHost (fun a p => decide (p ≠ 3610 ∧ ¬ (a = addr1 ∧ p = 3611)))) _
    (fun _ _ _ => rfl) ((Transport.new 0).setConfig autoConfig) ⟨0, [.setConfig autoConfig], rfl⟩ (twoHost_of _ _) (fun _ _ => rfl) (by decide +kernel)
    rfl 3612 (by decide) (by decide) ((twoHost_suits _ _).mpr (by decide))
    (fun r h1 h2 h => by
      have h1 : 3610 ≤ r := h1
      have h3 := of_decide_eq_true ((twoHost_suits _ _).mp h)
      have : r = 3611 := by omega
      exact h3.2 ⟨rfl, this⟩) 3611 (by decide) (by decide) (by decide)
    (fun p h1 h2 => by
      have h1 : 3610 ≤ p := h1
      obtain rfl : p = 3610 := by omega
      decide +kernel) (by decide) eth0 addr0 rfl rfl (by decide) (fun _ _ => .inl 1) (fun _ => ⟨1, rfl⟩)
  exact ⟨s', at_, src, h1, h2, h3⟩

end Verif.Props
