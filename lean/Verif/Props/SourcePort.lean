import Verif.Props.NodeEnds
import Verif.Props.Sending

/-!
# C129: the ports messages leave from

`doc/extensions.md`: "The bound UDP and TCP unicast ports are the same number. In addition, … `uecho-go` uses the bound
port as the source port number for the all messaging." The bound port is what `Port()` says.
-/

namespace Verif.Props
open Verif Model Transport Lemmas Spec

theorem send_servers (out : SendOs) : ∀ (l : List UServer) (k : Nat) (e : Option Err), ∀ a ∈ (sendFrom out k e l).2, a.server ∈ l := by
  intro l
  induction l with
  | nil => intro k e a ha; exact absurd ha List.not_mem_nil
  | cons u l ih =>
    intro k e a ha
    unfold sendFrom at ha
    have hu : ∀ b ∈ (serverSend out k u).2, b.server = u := by
      intro b hb
      unfold serverSend at hb
      split at hb
      · split at hb
        · split at hb
          · rw [List.mem_singleton.mp hb]
          · rcases List.mem_cons.mp hb with h | h
            · rw [h]
            · rw [List.mem_singleton.mp h]
        · rw [List.mem_singleton.mp hb]
      · rw [List.mem_singleton.mp hb]
    cases hs : serverSend out k u with
    | mk r as =>
      rw [hs] at ha hu
      cases r with
      | inl n => exact List.mem_cons.mpr (.inl (hu a ha))
      | inr e' =>
        rcases List.mem_append.mp ha with h | h
        · exact List.mem_cons.mpr (.inl (hu a h))
        · exact List.mem_cons_of_mem _ (ih _ _ a h)

theorem announce_servers (out : SendOs) : ∀ (l : List UServer) (k : Nat) (e : Option Err),
    ∀ a ∈ (announceFrom out k e l).2, a.server ∈ l ∧ a.proto = .udp := by
  intro l
  induction l with
  | nil => intro k e a ha; exact absurd ha List.not_mem_nil
  | cons u l ih =>
    intro k e a ha
    unfold announceFrom at ha
    have hu : ∀ b ∈ (serverAnnounce out k u).2, b = ⟨u, .udp⟩ := by
      intro b hb
      unfold serverAnnounce at hb
      split at hb
      · exact absurd hb List.not_mem_nil
      · exact List.mem_singleton.mp hb
    cases hs : serverAnnounce out k u with
    | mk r as =>
      rw [hs] at ha hu
      cases r with
      | inl n => rw [hu a ha]; exact ⟨List.mem_cons_self .., rfl⟩
      | inr e' =>
        rcases List.mem_append.mp ha with h | h
        · rw [hu a h]; exact ⟨List.mem_cons_self .., rfl⟩
        · exact ⟨List.mem_cons_of_mem _ (ih _ _ a h).1, (ih _ _ a h).2⟩

/-- **C129**: in every history, a server has an open UDP socket, and with TCP a listening socket bound to the same
address and port. -/
theorem C129_same (os : Os) (s : Transport) (h : Reachable os s) :
    ∀ u ∈ s.uservers, ∃ x ∈ s.world.opened, u.udp = some x ∧ x.proto = .udp ∧
      (u.tcpEnabled = true → ∃ y ∈ s.world.opened, u.tcp = some y ∧ y.proto = .tcp ∧ y.addr = x.addr ∧ y.port = x.port) ∧
      (u.tcpEnabled = false → u.tcp = none) := by
  intro u hu
  have hg := (reachable_good h).us u hu
  obtain ⟨x, a1, a2, a3, a4, a5⟩ := hg.udp
  refine ⟨x, a2, a1, a3, fun ht => ?_, hg.noTcp⟩
  obtain ⟨-, y, b1, b2, b3, b4, b5⟩ := hg.tcp ht
  exact ⟨y, b2, b1, b3, b4.trans a4.symm, b5.trans a5.symm⟩

/-- **C129**: without automatic port binding, every datagram the node sends or announces leaves from an open socket
that is bound to the port `Port()` says, which is the one configured. -/
theorem C129_port_partial (os : Os) (hst : Stable os) (out : SendOs) (s s' : Transport) (h : Reachable os s)
    (hauto : s.config.autoPortBindingEnabled = false) (hs : s.start os = .ok (none, s')) :
    s'.port = s.port ∧
    ∀ a ∈ (s'.sendMessage out).2 ++ (s'.announceMessage out).2, a.proto = .udp →
      ∃ x ∈ s'.world.opened, a.server.udp = some x ∧ x.proto = .udp ∧ x.addr = a.server.addr ∧ x.port = s'.port := by
  refine ⟨port_stays os hst h hauto hs, fun a ha _ => ?_⟩
  have hmem : a.server ∈ s'.uservers := by
    rcases List.mem_append.mp ha with h | h
    · exact send_servers out _ _ _ a h
    · exact (announce_servers out _ _ _ a h).1
  obtain ⟨h1, x, h2, h3, h4, h5, h6⟩ := server_port os hst h hauto hs a.server hmem
  exact ⟨x, h2, h3, h4, h5, h6.trans h1⟩

/-- The port `Port()` says after a history, and the port from which the first datagram leaves that is sent and the first
that is announced, if sending works. -/
def leavesFrom (os : Os) (ops : List Op) : Option (Nat × List Nat × List Nat) :=
  match run os (Transport.new 0) ops with
  | .ok s => some (s.port, (s.sendMessage (fun _ _ => .inl 14)).2.filterMap (fun a => a.server.udp.map (·.port)),
      (s.announceMessage (fun _ _ => .inl 14)).2.filterMap (fun a => a.server.udp.map (·.port)))
  | _ => none

/-- C129 is false with automatic port binding: with port 3610 taken on the second interface only, `Port()` says 3611,
but every message leaves from port 3610. -/
theorem C129_refuted : leavesFrom
      (twoIfs (fun _ a p => if a = addr1 ∧ p = 3610 then .refused else .ok) (fun _ _ _ => .ok))
      [.setConfig autoConfig, .start]
    = some (3611, [3610], [3610]) := by decide +kernel

example : leavesFrom (twoIfs (fun _ _ _ => .ok) (fun _ _ _ => .ok)) [.start] = some (3610, [3610], [3610]) := by
  decide +kernel

/-- With TCP the two sockets of the only server have port 3610. -/
example : portsAfter (oneIf (fun _ _ _ => .ok) (fun _ _ _ => .ok))
      [.setConfig ⟨UnicastConfig.default.setTCPEnabled true, false⟩, .start]
    = some (3610, [(.mcast, multicastIPv4Address, 3610), (.tcp, addr0, 3610), (.udp, addr0, 3610)]) := by decide +kernel

end Verif.Props
