import Verif.Props.Ports
import Verif.Props.Discovery
import Verif.Model.NodeEnds

/-! # C94 to C97: address and port of a node, restarting, and messages of the node itself -/

namespace Verif.Props
open Verif Model Transport Lemmas Spec

/-! ## C94 -/

/-- Without automatic port binding the port stays what it was. -/
theorem port_stays (os : Os) (hst : Stable os) {s s' : Transport} (h : Reachable os s)
    (hauto : s.config.autoPortBindingEnabled = false) (hs : s.start os = .ok (none, s')) : s'.port = s.port := by
  obtain ⟨u, hu, -, x, -, hx, hp⟩ := C61_port os hst s s' h hs
  rw [← hp]
  exact C61_configured os s s' none h hauto hs u (List.mem_of_getLast? hu) x (.inl hx)

/-- Every server is bound to the port of the node. -/
theorem server_port (os : Os) (hst : Stable os) {s s' : Transport} (h : Reachable os s)
    (hauto : s.config.autoPortBindingEnabled = false) (hs : s.start os = .ok (none, s')) :
    ∀ u ∈ s'.uservers, u.port = s'.port ∧ ∃ x ∈ s'.world.opened, u.udp = some x ∧ x.proto = .udp ∧ x.addr = u.addr ∧
      x.port = u.port := by
  intro u hu
  obtain ⟨e1, s1, a1, a2, -⟩ := start_spec os (reachable_good h)
  rw [hs] at a1
  cases a1
  obtain ⟨y, c1, c2, c3, c4, c5⟩ := (a2.us u hu).udp
  have := C61_configured os s s' none h hauto hs u hu y (.inl c1)
  exact ⟨by rw [port_stays os hst h hauto hs, ← this, c5], y, c2, c1, c3, c4, c5⟩

/-- C94, without automatic port binding: after a successful `Start`, `Address()` and `Port()` are those of an open
UDP socket of the node, and the port is the one configured. -/
theorem C94_open_partial (os : Os) (hst : Stable os) (s s' : Transport) (h : Reachable os s)
    (hauto : s.config.autoPortBindingEnabled = false) (hp : s.port ≠ 0) (hs : s.start os = .ok (none, s')) :
    s'.port = s.port ∧ ∃ x ∈ s'.world.opened, Held s' x ∧ x.proto = .udp ∧ x.addr = s'.address ∧ x.port = s'.port := by
  have hport := port_stays os hst h hauto hs
  refine ⟨hport, ?_⟩
  obtain ⟨-, ⟨v, hv, -⟩, -⟩ := C58_running os hst s s' h hs
  have hall := server_port os hst h hauto hs
  cases hf : s'.uservers.find? (fun u => u.port ≠ 0) with
  | none =>
    rw [List.find?_eq_none] at hf
    exact absurd (hf v hv) (by rw [(hall v hv).1, hport]; simpa using hp)
  | some u =>
    have hu := List.mem_of_find?_eq_some hf
    obtain ⟨h1, x, hx, hx1, hx2, hx3, hx4⟩ := hall u hu
    refine ⟨x, hx, .inl ⟨u, hu, .inl hx1⟩, hx2, ?_, hx4.trans h1⟩
    unfold Transport.address
    rw [hf]
    exact hx3

/-- C94. After `Stop`, `Address()` is empty and `Port()` is what it was. -/
theorem C94_stopped (os : Os) (s : Transport) (h : Reachable os s) :
    ∃ e s', s.stop os = .ok (e, s') ∧ s'.address = [] ∧ s'.port = s.port ∧
      s'.nodeString = ':' :: itoa s.port := by
  obtain ⟨e, s', k1, -, k3, -, -, k6, -⟩ := stop_spec os (reachable_good h)
  have ha : s'.address = [] := by unfold Transport.address; rw [k3]; rfl
  refine ⟨e, s', k1, ha, k6, ?_⟩
  unfold Transport.nodeString
  rw [ha, k6]
  rfl

/-- What a node says after a history, and the UDP sockets open then. -/
def endsAfter (os : Os) (ops : List Op) : Option (Str × Nat × List (Str × Nat)) :=
  match run os (Transport.new 0) ops with
  | .ok s => some (s.address, s.port, (s.world.opened.filter (·.proto = .udp)).map (fun x => (x.addr, x.port)))
  | _ => none

/-- C94 is false with automatic port binding: `Address()` is that of a socket left over from the first port,
`Port()` is the last port, and nothing is bound to both. -/
theorem C94_refuted :
    endsAfter (twoIfs (fun _ a p => if (a = addr1 ∧ p = 3610) ∨ (a = addr0 ∧ p = 3611) then .refused else .ok)
        (fun _ _ _ => .ok)) [.setConfig autoConfig, .start]
      = some (addr0, 3611, [(addr1, 3611), (addr0, 3610)]) := by decide +kernel

example : endsAfter (twoIfs (fun _ _ _ => .ok) (fun _ _ _ => .ok)) [.start]
    = some (addr0, 3610, [(addr1, 3610), (addr0, 3610)]) := by decide +kernel

/-- C94. `Equals` says that address and port are the same. -/
theorem C94_equals (a b : Transport) : a.nodeEquals b = true ↔ a.address = b.address ∧ a.port = b.port := by
  unfold Transport.nodeEquals
  by_cases h : a.port = b.port <;> by_cases h' : a.address = b.address <;> simp [h, h']

/-- C94, comparing nodes, is false for stopped nodes: any two with the same port are equal. -/
theorem C94_refuted_equals (os os' : Os) (s t : Transport) (hs : Reachable os s) (ht : Reachable os' t)
    (hp : s.port = t.port) : ∃ e s' f t', s.stop os = .ok (e, s') ∧ t.stop os' = .ok (f, t') ∧
      s'.nodeEquals t' = true := by
  obtain ⟨e, s', a1, a2, a3, -⟩ := C94_stopped os s hs
  obtain ⟨f, t', b1, b2, b3, -⟩ := C94_stopped os' t ht
  exact ⟨e, s', f, t', a1, b1, (C94_equals _ _).mpr ⟨by rw [a2, b2], by rw [a3, b3, hp]⟩⟩

/-! ## C95 -/

/-- C95. `Restart` does exactly what `Start` does: the same result, the same sockets, the same announcement, also
when stopping reports an error. -/
theorem C95_restart (os : Os) (out : SendOs) (s : Transport) (h : Reachable os s) :
    s.restart os out = s.nodeStart os out := by
  obtain ⟨e, s', h1, -, -, -, -, h2⟩ := C58_stop os s h
  unfold Transport.restart Transport.nodeStart Transport.start
  simp only [h1, Res.ok_bind]
  cases e with
  | some e => rfl
  | none => simp only [h2, Res.ok_bind]

/-- C95. After a successful `Restart` the node runs, its sockets are new, and those it had are closed. -/
theorem C95_fresh (os : Os) (hst : Stable os) (out : SendOs) (s s' : Transport) (made : List Attempt)
    (h : Reachable os s) (hr : s.restart os out = .ok (none, s', made)) :
    s'.isRunning = true ∧ (∀ x, Held s x → x ∉ s'.world.opened) ∧
    (∀ u ∈ s'.uservers, ∀ x, u.udp = some x ∨ u.tcp = some x → s.world.clock ≤ x.id ∧ x ∈ s'.world.opened) := by
  rw [C95_restart os out s h] at hr
  unfold Transport.nodeStart at hr
  obtain ⟨e, t, k1, k2, k3⟩ := C58_fresh os s h
  rw [k1] at hr
  simp only [Res.ok_bind] at hr
  cases e with
  | some e => cases hr
  | none =>
    rw [Res.ok.injEq] at hr
    simp only [Prod.mk.injEq] at hr
    obtain ⟨-, rfl, -⟩ := hr
    exact ⟨(C58_running os hst s t h k1).1, k3, k2⟩

/-- C95. If stopping reports an error, `Restart` reports that error, opens and announces nothing, and the node is
stopped: it has neither sockets nor servers. -/
theorem C95_stop_error (os : Os) (out : SendOs) (s s1 : Transport) (e : Err) (h : Reachable os s)
    (hs : s.stop os = .ok (some e, s1)) :
    s.restart os out = .ok (some e, s1, []) ∧ s1.isRunning = false ∧ s1.uservers = [] ∧ s1.mservers = [] ∧
      (∀ x ∈ s1.world.opened, x ∈ s.world.opened) ∧ (∀ x, Held s x → x ∉ s1.world.opened) := by
  refine ⟨by unfold Transport.restart; rw [hs]; rfl, ?_⟩
  obtain ⟨f, s', h1, h2, h3, h4, h5, -⟩ := C58_stop os s h
  obtain ⟨f', s'', k1, -, -, -, -, -, -, k8⟩ := stop_spec os (reachable_good h)
  rw [hs] at h1 k1
  cases h1
  cases k1
  exact ⟨h2, h3, h4, fun x hx => ((k8 x).mp hx).1, h5⟩

/-- A restart that fails, and one that succeeds. -/
example : let os := twoIfs (fun _ _ _ => .ok) (fun _ _ _ => .ok)
    (match run os (Transport.new 0) [.start] with
     | .ok s => (match s.restart os (fun _ _ => .inl 1), s.restart { os with closeErr := fun _ => true } (fun _ _ => .inl 1) with
       | .ok (none, s', made), .ok (some _, s'', []) => s'.isRunning && made.length == 1 && !s''.isRunning
       | _, _ => false)
     | _ => false) = true := by decide +kernel

/-! ## C96 -/

theorem announceFrom_first {out : SendOs} {u : UServer} {us : List UServer} (hu : u.port ≠ 0)
    {n : Nat} (h0 : out 0 ⟨u, .udp⟩ = .inl n) : announceFrom out 0 none (u :: us) = (none, [⟨u, .udp⟩]) := by
  simp [announceFrom, serverAnnounce, hu, h0]

/-- C96, without automatic port binding: if the first attempt at sending an announcement succeeds, the announcement
comes from `Address()` and `Port()`, and a node with self messages disabled that gets it does nothing. -/
theorem C96_ignored_partial (os : Os) (hst : Stable os) (s s' : Transport) (h : Reachable os s)
    (hauto : s.config.autoPortBindingEnabled = false) (hp : s.port ≠ 0) (hs : s.start os = .ok (none, s'))
    (out : SendOs) (hout : ∀ a, ∃ n, out 0 a = .inl n) :
    ∃ a, s'.announce out = (none, [a]) ∧ a.source = some s'.nodeAddr ∧
      ∀ (env : Env) (db : StdDB) (n : Node) (m : Message), n.selfMsg = false → n.addr = s'.nodeAddr →
        some m.src = a.source → n.received env db m = .ok ⟨n, [], [], false, none, none⟩ := by
  obtain ⟨hrun, -⟩ := C58_running os hst s s' h hs
  have hall := server_port os hst h hauto hs
  have hport := port_stays os hst h hauto hs
  cases hus : s'.uservers with
  | nil => unfold Transport.isRunning at hrun; rw [hus] at hrun; simp at hrun
  | cons u us =>
    obtain ⟨hu1, x, -, hx1, -, hx3, hx4⟩ := hall u (by rw [hus]; simp)
    have hu0 : u.port ≠ 0 := by rw [hu1, hport]; exact hp
    obtain ⟨n, hn⟩ := hout ⟨u, .udp⟩
    have hsrc : Attempt.source ⟨u, .udp⟩ = some s'.nodeAddr := by
      unfold Attempt.source Transport.nodeAddr Transport.address
      rw [hus, List.find?_cons_of_pos (by simpa using hu0)]
      simp only [hx1, Option.map_some, hx3, hx4, hu1]
    refine ⟨⟨u, .udp⟩, ?_, hsrc, fun env db n m h1 h2 h3 => ?_⟩
    · unfold Transport.announce Transport.announceMessage
      rw [hrun, hus, if_neg (by simp), announceFrom_first hu0 hn]
    · rw [hsrc, Option.some.injEq] at h3
      exact C42_own_messages env db n m h1 (h3.trans h2.symm)

/-- C96 is false: if sending through the first of two servers with different addresses fails, the announcement comes
from the second, and the node handles it as a message of another node. -/
theorem C96_refuted (s : Transport) (hr : s.isRunning = true) (u v : UServer) (us : List UServer)
    (hus : s.uservers = u :: v :: us) (hu : u.port ≠ 0) (hv : v.port ≠ 0) (x : Sock) (hx : v.udp = some x)
    (hxa : x.addr = v.addr) (hne : u.addr ≠ v.addr) (out : SendOs) (e : Err) (k : Nat)
    (h0 : out 0 ⟨u, .udp⟩ = .inr e) (h1 : out 1 ⟨v, .udp⟩ = .inl k) :
    s.announce out = (none, [⟨u, .udp⟩, ⟨v, .udp⟩]) ∧
    ∃ a, Attempt.source ⟨v, .udp⟩ = some a ∧ a ≠ s.nodeAddr ∧
      ∀ (env : Env) (db : StdDB) (n : Node) (m : Message), n.addr = s.nodeAddr → m.src = a →
        ∃ o, n.received env db m = .ok o ∧ o.delivered = n.isResponseMessage m ∧
          (Accepts n m → env.listener = true → Call.message m ∈ o.calls) := by
  have ha : s.announce out = (none, [⟨u, .udp⟩, ⟨v, .udp⟩]) := by
    unfold Transport.announce Transport.announceMessage
    rw [hr, hus, if_neg (by simp)]
    simp [announceFrom, serverAnnounce, hu, hv, h0, h1]
  have hn : (⟨String.ofList x.addr, x.port⟩ : Addr) ≠ s.nodeAddr := by
    unfold Transport.nodeAddr Transport.address
    rw [hus, List.find?_cons_of_pos (by simpa using hu)]
    simp only [ne_eq, Addr.mk.injEq, not_and]
    intro hh
    have := congrArg String.toList hh
    simp at this
    exact absurd (hxa ▸ this).symm hne
  refine ⟨ha, _, by unfold Attempt.source; simp only [hx, Option.map_some], hn, fun env db n m h3 h4 => ?_⟩
  have hsrc : m.src ≠ n.addr := by rw [h3, h4]; exact hn
  obtain ⟨o, ho, hd⟩ := C42_others env db n m (.inr hsrc)
  refine ⟨o, ho, hd, fun hacc hl => ?_⟩
  obtain ⟨o', ho', h5, -⟩ := C43_valid_partial env db n m (fun hi => hsrc hi.2) hl
  rw [ho] at ho'
  cases ho'
  exact List.mem_of_head? (h5 hacc).1

/-- A host with two interfaces, started with the configured port: the hypotheses of the theorems above. -/
example : let os := twoIfs (fun _ _ _ => .ok) (fun _ _ _ => .ok)
    Stable os ∧ Reachable os (Transport.new 0) ∧ (Transport.new 0).config.autoPortBindingEnabled = false ∧
    (Transport.new 0).port ≠ 0 ∧ ∃ s', (Transport.new 0).start os = .ok (none, s') ∧ s'.isRunning = true ∧
      ∃ u v x, s'.uservers = [u, v] ∧ u.port ≠ 0 ∧ v.port ≠ 0 ∧ v.udp = some x ∧ x.addr = v.addr ∧ u.addr ≠ v.addr :=
  ⟨fun _ _ _ => rfl, ⟨0, [], rfl⟩, rfl, by decide, _, rfl, by decide +kernel, _, _, _, rfl, by decide +kernel,
    by decide +kernel, rfl, by decide +kernel, by decide +kernel⟩

end Verif.Props
