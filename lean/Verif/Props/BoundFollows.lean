import Verif.Props.BoundExactly
import Verif.Props.SourcePort
import Verif.Props.Addresses

/-! # What C149 means for C94, C127 and C129 -/

namespace Verif.Props
open Verif Model Transport Lemmas Spec

/-- The first server, when the port is free on the first address of the first interface. -/
theorem first_server {H : HostSpec} {s : Transport} {p k : Nat} {n : NetIf} {a : Str}
    (hl : listening s = (List.range' p (k + 1)).flatMap H.attempt) (hn : H.nifs.head? = some n)
    (hd : (H.addrs n).head? = some a) (hf : H.free a p = true) :
    ∃ u us, s.uservers = u :: us ∧ u.addr = a ∧ u.port = p := by
  obtain ⟨ns, hns⟩ := List.head?_eq_some_iff.mp hn
  obtain ⟨l, hl'⟩ := List.head?_eq_some_iff.mp hd
  have : ∃ rest, listening s = (some n, a, p) :: rest := by
    rw [hl, show List.range' p (k + 1) = p :: List.range' (p + 1) k from rfl, List.flatMap_cons]
    unfold HostSpec.attempt
    rw [hns, List.flatMap_cons, hl', List.takeWhile_cons_of_pos (p := (H.free · p)) hf]
    exact ⟨_, rfl⟩
  obtain ⟨rest, hr⟩ := this
  unfold listening at hr
  obtain ⟨u, us, h1, h2, -⟩ := List.map_eq_cons_iff.mp hr
  rw [Prod.mk.injEq, Prod.mk.injEq] at h2
  exact ⟨u, us, h1, h2.2.1, h2.2.2⟩

/-- Nothing listens where the port is not free. -/
theorem not_listening {H : HostSpec} {s : Transport} {ps : List Nat} (hl : listening s = ps.flatMap H.attempt)
    {a : Str} {q : Nat} (hf : H.free a q = false) : ∀ u ∈ s.uservers, ¬ (u.addr = a ∧ u.port = q) := by
  rintro u hu ⟨rfl, rfl⟩
  have : (u.ifi.map (·.nif), u.addr, u.port) ∈ listening s := List.mem_map.mpr ⟨u, hu, rfl⟩
  rw [hl] at this
  obtain ⟨r, -, h1⟩ := List.mem_flatMap.mp this
  obtain ⟨m, -, hm2⟩ := List.mem_flatMap.mp h1
  obtain ⟨b, hb, hb2⟩ := List.mem_map.mp hm2
  have hfb := takeWhile_mem hb
  rw [Prod.mk.injEq, Prod.mk.injEq] at hb2
  rw [hb2.2.1, hb2.2.2, hf] at hfb
  cases hfb

/-- C94 is false with automatic port binding for every host that does not change on which the
configured port is free on the first address of the first interface but not on all of the last one,
and the port taken is not free on that first address: no server has the address and port the node
says. -/
theorem C94_refuted_any (H : HostSpec) (os : Os) (s : Transport) (h : Reachable os s)
    (hh : H.Of os s.config.unicast.tcpEnabled) (hm : ∀ t i, os.mcast t i = .ok) (hne : ∀ n ∈ H.nifs, [] ∉ H.addrs n)
    (ha : s.config.autoPortBindingEnabled = true) (h0 : s.port ≠ 0)
    (q : Nat) (hq1 : s.port ≤ q) (hq2 : q ≤ s.port + 100) (hq : H.Suits q) (hr : ∀ r, s.port ≤ r → r < q → ¬ H.Suits r)
    (n : NetIf) (a : Str) (hn : H.nifs.head? = some n) (hd : (H.addrs n).head? = some a)
    (hf : H.free a s.port = true) (hfq : H.free a q = false) :
    ∃ s', s.start os = .ok (none, s') ∧ s'.address = a ∧ s'.port = q ∧
      ∀ u ∈ s'.uservers, ¬ (u.addr = s'.address ∧ u.port = s'.port) := by
  obtain ⟨s', a1, -, a3, a4⟩ := (C149_automatic_port H os s h hh hm hne ha).1 q hq1 hq2 hq hr
  obtain ⟨u, us, b1, b2, b3⟩ := first_server a4 hn hd hf
  have hadr : s'.address = a := by
    unfold Transport.address
    rw [b1, List.find?_cons_of_pos (by rw [b3]; simpa using h0)]
    exact b2
  refine ⟨s', a1, hadr, a3, ?_⟩
  rw [hadr, a3]
  exact not_listening a4 hfq

/-- C129 is false with automatic port binding for every host that does not change on which the
configured port is free on the first address of the first interface but not on all of the last one:
the first attempt at every announcement leaves from the configured port, and `Port` is another. -/
theorem C129_refuted_any (H : HostSpec) (os : Os) (s : Transport) (h : Reachable os s)
    (hh : H.Of os s.config.unicast.tcpEnabled) (hm : ∀ t i, os.mcast t i = .ok) (hne : ∀ n ∈ H.nifs, [] ∉ H.addrs n)
    (ha : s.config.autoPortBindingEnabled = true) (h0 : s.port ≠ 0) (hp : ¬ H.Suits s.port)
    (q : Nat) (hq1 : s.port ≤ q) (hq2 : q ≤ s.port + 100) (hq : H.Suits q) (hr : ∀ r, s.port ≤ r → r < q → ¬ H.Suits r)
    (n : NetIf) (a : Str) (hn : H.nifs.head? = some n) (hd : (H.addrs n).head? = some a)
    (hf : H.free a s.port = true) :
    ∃ s', s.start os = .ok (none, s') ∧ s'.port = q ∧ q ≠ s.port ∧ ∀ out : SendOs,
      ∃ at_ rest x, (s'.announceMessage out).2 = at_ :: rest ∧ at_.proto = .udp ∧ at_.server.udp = some x ∧
        x ∈ s'.world.opened ∧ x.addr = a ∧ x.port = s.port := by
  obtain ⟨s', a1, a2, a3, a4⟩ := (C149_automatic_port H os s h hh hm hne ha).1 q hq1 hq2 hq hr
  obtain ⟨u, us, b1, b2, b3⟩ := first_server a4 hn hd hf
  refine ⟨s', a1, a3, fun he => hp (he ▸ hq), fun out => ?_⟩
  obtain ⟨x, x1, x2, -, x4, x5⟩ := a2 u (by rw [b1]; exact List.mem_cons_self ..)
  have hb : ∃ rest, (s'.announceMessage out).2 = ⟨u, .udp⟩ :: rest := by
    unfold Transport.announceMessage
    rw [b1]
    unfold announceFrom serverAnnounce
    rw [if_neg (by rw [b3]; exact h0)]
    cases out 0 ⟨u, .udp⟩ with
    | inl n => exact ⟨[], rfl⟩
    | inr e => exact ⟨_, rfl⟩
  obtain ⟨rest, hb⟩ := hb
  exact ⟨_, rest, x, hb, rfl, x2, x1, x4.trans b2, x5.trans b3⟩

/-- C127 is false for every host that does not change on which the port is free on all addresses of
the last interface but not on some address of another: that address is listed and nothing listens
on it. -/
theorem C127_refuted_any (H : HostSpec) (os : Os) (hst : Stable os) (s : Transport) (h : Reachable os s)
    (hh : H.Of os s.config.unicast.tcpEnabled) (hm : ∀ t i, os.mcast t i = .ok) (hne : ∀ n ∈ H.nifs, [] ∉ H.addrs n)
    (hp : H.Suits s.port) (n : NetIf) (a : Str) (hn : n ∈ H.nifs) (hma : a ∈ H.addrs n) (hf : H.free a s.port = false) :
    ∃ s', s.start os = .ok (none, s') ∧ a ∈ s'.addresses ∧ ∀ u ∈ s'.uservers, u.addr ≠ a := by
  obtain ⟨s', a1, a2⟩ := C59_refuted_any H os s h hh hm hne hp n a hn hma hf
  refine ⟨s', a1, ?_, a2⟩
  obtain ⟨-, -, t, ifis, b1, -, b3⟩ := C58_running os hst s s' h a1
  obtain ⟨is, c1, c2⟩ := hh.ifs t
  rw [b1] at c1
  cases c1
  rw [← c2] at hn
  obtain ⟨i, hi, rfl⟩ := List.mem_map.mp hn
  obtain ⟨m, m1, m2, -⟩ := b3 i hi 0 _ (hh.addrs 0 _ (c2 ▸ List.mem_map.mpr ⟨i, hi, rfl⟩)) a hma
  exact List.mem_map.mpr ⟨m, m1, m2⟩

/-- `C94_refuted_any`: the first interface is free on 3610 only, the second on 3611 only. -/
example : let free := fun a p => decide (a = addr0 ∧ p = 3610 ∨ a = addr1 ∧ p = 3611)
    ∃ s', ((Transport.new 0).setConfig autoConfig).start (twoHostOs free) = .ok (none, s') ∧ s'.address = addr0 ∧
      s'.port = 3611 ∧ ∀ u ∈ s'.uservers, ¬ (u.addr = s'.address ∧ u.port = s'.port) :=
  C94_refuted_any (twoHost _) _ _ ⟨0, [.setConfig autoConfig], rfl⟩ (twoHost_of _ _) (fun _ _ => rfl) (by decide +kernel)
    rfl (by decide) 3611 (by decide) (by decide) ((twoHost_suits _ _).mpr (by decide))
    (fun r h1 h2 h => by
      have h1 : 3610 ≤ r := h1
      obtain rfl : r = 3610 := by omega
      exact absurd ((twoHost_suits _ _).mp h) (by decide)) eth0 addr0 rfl rfl (by decide) (by decide)

/-- `C129_refuted_any`: the second interface refuses port 3610 only. -/
example : let free := fun a p => decide (¬ (a = addr1 ∧ p = 3610))
    ∃ s', ((Transport.new 0).setConfig autoConfig).start (twoHostOs free) = .ok (none, s') ∧ s'.port = 3611 ∧ 3611 ≠ 3610 ∧
      ∀ out : SendOs, ∃ at_ rest x, (s'.announceMessage out).2 = at_ :: rest ∧ at_.proto = .udp ∧
        at_.server.udp = some x ∧ x ∈ s'.world.opened ∧ x.addr = addr0 ∧ x.port = 3610 :=
  C129_refuted_any (twoHost _) _ _ ⟨0, [.setConfig autoConfig], rfl⟩ (twoHost_of _ _) (fun _ _ => rfl) (by decide +kernel)
    rfl (by decide) (fun h => absurd ((twoHost_suits _ _).mp h) (by decide)) 3611 (by decide) (by decide)
    ((twoHost_suits _ _).mpr (by decide))
    (fun r h1 h2 h => by
      have h1 : 3610 ≤ r := h1
      obtain rfl : r = 3610 := by omega
      exact absurd ((twoHost_suits _ _).mp h) (by decide)) eth0 addr0 rfl rfl (by decide)

/-- `C127_refuted_any`: the first interface refuses every port. -/
example : ∃ s', (Transport.new 0).start (twoHostOs (fun a _ => decide (a ≠ addr0))) = .ok (none, s') ∧
    addr0 ∈ s'.addresses ∧ ∀ u ∈ s'.uservers, u.addr ≠ addr0 :=
  C127_refuted_any (twoHost _) _ (fun _ _ _ => rfl) _ ⟨0, [], rfl⟩ (twoHost_of _ _) (fun _ _ => rfl) (by decide +kernel)
    ((twoHost_suits _ _).mpr (by decide)) eth0 addr0 (by decide) (by decide) (by decide)

end Verif.Props
