import Verif.Props.NodeEnds

/-! # C97: a controller that does not want its own messages does not find itself -/

namespace Verif.Props
open Verif Model Transport Lemmas Spec

/-- Every unicast server is on an address of an interface of the list. -/
def Sited (os : Os) (ifis : List IfPtr) (s : Transport) : Prop :=
  ∀ u ∈ s.uservers, ∃ i ∈ ifis, ∃ t as, getInterfaceAddresses (os.addrs t i.nif) = .ok as ∧ u.addr ∈ as

theorem sited_at (os : Os) {ifis : List IfPtr} {s : Transport} (h : Sited os ifis s) {i : IfPtr} (hi : i ∈ ifis)
    {a : Str} {t : Nat} {as : List Str} (has : getInterfaceAddresses (os.addrs t i.nif) = .ok as) (ha : a ∈ as)
    (p : Nat) : Sited os ifis (s.startUnicastAt os i a p).2 := by
  unfold Transport.startUnicastAt
  rcases hu : (UServer.new s.config.unicast.tcpEnabled).start os s.world i a p with ⟨e, u, w⟩
  cases e with
  | some e => exact h
  | none =>
    have hua : u.addr = a := by
      unfold UServer.start at hu
      split at hu
      · cases hu
      · dsimp only at hu
        split at hu
        · split at hu
          · cases hu
          · cases hu; rfl
        · cases hu; rfl
    intro v hv
    rcases List.mem_append.mp hv with hv | hv
    · exact h v hv
    · rw [List.mem_singleton.mp hv]
      exact ⟨i, hi, t, as, has, by rw [hua]; exact ha⟩

theorem sited_addrs (os : Os) {ifis : List IfPtr} {i : IfPtr} (hi : i ∈ ifis) {t : Nat} {all : List Str}
    (hall : getInterfaceAddresses (os.addrs t i.nif) = .ok all) (p : Nat) (as : List Str) (hsub : ∀ a ∈ as, a ∈ all)
    (le : Option Err) (s : Transport) (h : Sited os ifis s) : Sited os ifis (bindAddrs os i p as le s).2 := by
  induction as generalizing le s with
  | nil => exact h
  | cons a as ih =>
    have h1 := sited_at os h hi hall (hsub a (by simp)) p
    unfold bindAddrs
    revert h1
    rcases s.startUnicastAt os i a p with ⟨_ | e, s1⟩ <;> intro h1
    · exact ih (fun b hb => hsub b (List.mem_cons_of_mem _ hb)) none s1 h1
    · exact h1

theorem sited_ifs (os : Os) {ifis : List IfPtr} (p : Nat) (is : List IfPtr) (hi : ∀ i ∈ is, i ∈ ifis)
    (le : Option Err) (s : Transport) (h : Sited os ifis s) : Sited os ifis (bindIfs os p is le s).2 := by
  induction is generalizing le s with
  | nil => exact h
  | cons i is ih =>
    have ih := ih (fun j hj => hi j (List.mem_cons_of_mem _ hj))
    unfold bindIfs
    cases hg : getInterfaceAddresses (os.addrs s.world.clock i.nif) with
    | ok as =>
      exact ih _ _ (sited_addrs os (hi i (by simp)) hg p as (fun _ h => h) le
        { s with world := s.world.tick } (fun u hu => h u hu))
    | err e => exact ih _ _ (fun u hu => h u hu)
    | panic => exact ih _ _ (fun u hu => h u hu)

theorem sited_retry (os : Os) {ifis : List IfPtr} (p n : Nat) (le : Option Err) (s : Transport)
    (h : Sited os ifis s) : Sited os ifis (bindRetry os p ifis n le s).2 := by
  induction n generalizing le s with
  | zero => exact sited_ifs os p ifis (fun _ h => h) le s h
  | succ n ih =>
    have h1 := sited_ifs os p ifis (fun _ h => h) le s h
    unfold bindRetry
    revert h1
    rcases bindIfs os p ifis le s with ⟨_ | e, s1⟩ <;> intro h1
    · exact h1
    · exact ih (some e) s1 h1

theorem sited_ports (os : Os) {ifis : List IfPtr} (r n p : Nat) (le : Option Err) (s : Transport)
    (h : Sited os ifis s) : Sited os ifis (bindPorts os ifis r n p le s).2 := by
  induction n generalizing p le s with
  | zero =>
    have h1 := sited_retry os p r le s h
    unfold bindPorts
    revert h1
    rcases bindRetry os p ifis r le s with ⟨_ | e, s1⟩ <;> intro h1
    · exact fun u hu => h1 u hu
    · exact h1
  | succ n ih =>
    have h1 := sited_retry os p r le s h
    unfold bindPorts
    revert h1
    rcases bindRetry os p ifis r le s with ⟨_ | e, s1⟩ <;> intro h1
    · exact fun u hu => h1 u hu
    · exact ih (p + 1) (some e) s1 h1

theorem startUnicast_sited (os : Os) {s s' : Transport} (h : Good s) (hs : s.startUnicast os = .ok (none, s')) :
    ∃ t ifis, getAvailableInterfaces os.toIfOs t = .ok ifis ∧ Sited os ifis s' := by
  obtain ⟨e, s1, hst', e0, s0, hs0, hc⟩ := startUnicast_cases os h
  rw [hs] at hst'
  cases hst'
  obtain ⟨e1, s1, k1, -, k3, -⟩ := stopUnicast_spec os h
  rw [k1] at hs0
  cases hs0
  rcases hc with ⟨h0, rfl, rfl⟩ | ⟨h0, hno, he, rfl⟩ | ⟨h0, ifis, r, hg, -, hb⟩
  · exact absurd rfl h0
  · exact absurd rfl he
  · refine ⟨_, ifis, hg, ?_⟩
    have := sited_ports os (ifis := ifis) r (if s.config.autoPortBindingEnabled then udpPortRange else 0) s.port none
      { s0 with world := afterInterfaces os s0.world } (fun u hu => by
        have hu : u ∈ s0.uservers := hu
        rw [k3] at hu; cases hu)
    rw [← hb] at this
    exact this

/-- Neither the interfaces nor their addresses change. -/
def Steady (os : Os) : Prop := Stable os ∧ ∀ t t', os.interfaces t = os.interfaces t'

theorem steady_ifs {os : Os} (hst : Steady os) {t1 t2 : Nat} {is1 is2 : List IfPtr}
    (h1 : getAvailableInterfaces os.toIfOs t1 = .ok is1) (h2 : getAvailableInterfaces os.toIfOs t2 = .ok is2)
    {i : IfPtr} (hi : i ∈ is1) : ∃ j ∈ is2, j.nif = i.nif := by
  obtain ⟨l1, a1, a2, -⟩ := (C64_selected os.toIfOs t1).1 is1 h1
  obtain ⟨l2, b1, b2, -⟩ := (C64_selected os.toIfOs t2).1 is2 h2
  have hl : l1 = l2 := by
    have := hst.2 t1 t2
    rw [a1, b1, Option.some.injEq] at this
    exact this
  have hu := (a2 i.index i.nif).mp ⟨i, hi, rfl, rfl⟩
  rw [hl, hst.1 _ (t2 + 1 + i.index)] at hu
  obtain ⟨j, hj, -, hj2⟩ := (b2 i.index i.nif).mpr hu
  exact ⟨j, hj, hj2⟩

/-- Without automatic port binding, on the standard port, every server is on an address the controller knows. -/
theorem known_sources (os : Os) (hst : Steady os) {s s' : Transport} (h : Reachable os s)
    (hauto : s.config.autoPortBindingEnabled = false) (hp : s.port = 3610) (hs : s.start os = .ok (none, s')) :
    ∀ u ∈ s'.uservers, ∃ a, Attempt.source ⟨u, .udp⟩ = some a ∧ a ∈ s'.ctrlServers := by
  intro u hu
  have hg := reachable_good h
  obtain ⟨h1, x, -, hx1, -, hx3, hx4⟩ := server_port os hst.1 h hauto hs u hu
  have hport := port_stays os hst.1 h hauto hs
  refine ⟨⟨String.ofList u.addr, 3610⟩, ?_, ?_⟩
  · unfold Attempt.source
    simp only [hx1, Option.map_some, hx3, hx4, h1, hport, hp]
  · obtain ⟨s0, s1, g0, -, -, -, -, hsu, e1, -⟩ := (start_unicast os hg hs).1 rfl
    obtain ⟨t1, is1, hi1, hsited⟩ := startUnicast_sited os g0 hsu
    obtain ⟨i, hi, t, as, has, ha⟩ := hsited u (by rw [← e1]; exact hu)
    obtain ⟨e, s2, b1, -, -, -, -, -, -, -, b9⟩ := start_spec os hg
    rw [hs] at b1
    cases b1
    obtain ⟨-, -, -, -, t2, -, is2, -, hi2, -, -, hm⟩ := b9 rfl
    obtain ⟨j, hj, hjn⟩ := steady_ifs hst hi1 hi2 hi
    obtain ⟨m, hmm, hma, -, -⟩ := hm hst.1 j hj t as (by rw [hjn]; exact has) u.addr ha
    exact List.mem_map.mpr ⟨m, hmm, by rw [hma]; rfl⟩

theorem announceFrom_mem (out : SendOs) (k : Nat) (e : Option Err) (us : List UServer) :
    ∀ a ∈ (announceFrom out k e us).2, a.server ∈ us ∧ a.proto = .udp := by
  induction us generalizing k e with
  | nil => intro a ha; cases ha
  | cons u us ih =>
    have hs : ∀ a ∈ (serverAnnounce out k u).2, a.server = u ∧ a.proto = .udp := by
      unfold serverAnnounce
      split
      · intro a ha; cases ha
      · intro a ha
        rw [List.mem_singleton.mp ha]
        exact ⟨rfl, rfl⟩
    unfold announceFrom
    revert hs
    rcases serverAnnounce out k u with ⟨_ | e', as⟩ <;> intro hs a ha
    · obtain ⟨h1, h2⟩ := hs a ha
      exact ⟨by rw [h1]; simp, h2⟩
    · rcases List.mem_append.mp ha with ha | ha
      · obtain ⟨h1, h2⟩ := hs a ha
        exact ⟨by rw [h1]; simp, h2⟩
      · obtain ⟨h1, h2⟩ := ih _ _ a ha
        exact ⟨List.mem_cons_of_mem _ h1, h2⟩

/-- C97, without automatic port binding on the standard port, while the interfaces stay as they are: whatever the
controller announces, through whichever server, comes from an address it knows as its own. With self messages
disabled it never lists a node because of such a message, and its listener is not called. -/
theorem C97_not_listed_partial (os : Os) (hst : Steady os) (s s' : Transport) (h : Reachable os s)
    (hauto : s.config.autoPortBindingEnabled = false) (hp : s.port = 3610) (hs : s.start os = .ok (none, s'))
    (out : SendOs) : ∀ a ∈ (s'.announce out).2, ∃ src, a.source = some src ∧
      ∀ (c : Ctrl) (db : StdDB) (e : Env) (m : Message), c.node.selfMsg = false → c.servers = s'.ctrlServers →
        m.src = src → ((CtrlOp.received e m).run db c).1.found = c.found ∧ ((CtrlOp.received e m).run db c).2 = [] := by
  intro a ha
  have hmem : a.server ∈ s'.uservers ∧ a.proto = .udp := by
    unfold Transport.announce at ha
    split at ha
    · cases ha
    · exact announceFrom_mem _ _ _ _ a ha
  obtain ⟨src, h1, h2⟩ := known_sources os hst h hauto hp hs a.server hmem.1
  refine ⟨src, ?_, fun c db e m h3 h4 h5 => ?_⟩
  · rw [← h1, ← hmem.2]
  · have hown : Own c m := ⟨h3, by rw [h5, h4]; exact h2⟩
    have hnh : ¬ Handles c m := fun hh => hh.2.2 hown
    obtain ⟨o, -, k1, -⟩ := received_cases db e c m
    simp [CtrlOp.run, k1 hnh]

/-- The hypotheses are met on a host with two interfaces: two servers, and announcing through the second works. -/
example : let os := twoIfs (fun _ _ _ => .ok) (fun _ _ _ => .ok)
    Steady os ∧ Reachable os (Transport.new 0) ∧ (Transport.new 0).config.autoPortBindingEnabled = false ∧
    (Transport.new 0).port = 3610 ∧ ∃ s u v x e, (Transport.new 0).start os = .ok (none, s) ∧ s.isRunning = true ∧
      s.uservers = [u, v] ∧ u.port = 3610 ∧ v.port = 3610 ∧ v.udp = some x ∧ x.addr = v.addr ∧ u.addr ≠ v.addr ∧
      s.announce (fun k _ => if k = 0 then .inr e else .inl 1) = (none, [⟨u, .udp⟩, ⟨v, .udp⟩]) := by
  refine ⟨⟨fun _ _ _ => rfl, fun _ _ => rfl⟩, ⟨0, [], rfl⟩, by decide, by decide, ?_⟩
  have key : (match (Transport.new 0).start (twoIfs (fun _ _ _ => .ok) (fun _ _ _ => .ok)) with
      | .ok (none, s) => (match s.uservers with
        | [u, v] => (match v.udp with
          | some x => decide (s.isRunning = true ∧ u.port = 3610 ∧ v.port = 3610 ∧ x.addr = v.addr ∧ u.addr ≠ v.addr ∧
              s.announce (fun k _ => if k = 0 then .inr .other else .inl 1) = (none, [⟨u, .udp⟩, ⟨v, .udp⟩]))
          | none => false)
        | _ => false)
      | _ => false) = true := by decide +kernel
  split at key
  · next s hs =>
    split at key
    · next u v hu =>
      split at key
      · next x hx =>
        obtain ⟨a, b, c, d, e, f⟩ := of_decide_eq_true key
        exact ⟨s, u, v, x, .other, hs, a, hu, b, c, hx, d, e, f⟩
      · cases key
    · cases key
  · cases key

/-- A host with two interfaces: port 3610 is taken on the second, and from the second start on also port 3611. -/
def crowded : Os :=
  twoIfs (fun t a p => if a = addr1 ∧ (p = 3610 ∨ (p = 3611 ∧ 18 ≤ t)) then .refused else .ok) (fun _ _ _ => .ok)

/-- C97 is false with automatic port binding: after the second start on this host the announcement comes from the
socket left over from the first port, which is neither the address of the node nor known to the controller. Every
controller on it lists itself, with its own devices, as soon as it gets its own announcement. -/
theorem C97_refuted : ∃ s a, run crowded (Transport.new 0) [.setConfig autoConfig, .start, .start] = .ok s ∧
    s.announce (fun _ _ => .inl 1) = (none, [a]) ∧ a.source = some ⟨"10.0.0.2", 3611⟩ ∧
    ∀ (c : Ctrl) (e : Env), c.node.selfMsg = false → c.node.addr = s.nodeAddr → c.servers = s.ctrlServers → c.autoPort = true →
      Lawful c.node → c.node.running = true → KnownDevices c.node → c.node.devices.length ≤ 84 →
      (∃ r o, Addressed c.node 0x0EF001 r o) → c.found = [] →
      ∃ m d r, c.node.announce.2 = ([m], none) ∧ Message.newWithBytes m.bytes = .ok d ∧
        ((CtrlOp.received e { d with src := ⟨"10.0.0.2", 3611⟩ }).run stdDB c).1.found = [r] ∧
        r.address = "10.0.0.2" ∧ r.port = 3611 ∧ r.devices.map (·.codes) = c.node.devices.map (·.codes) := by
  have key : (match run crowded (Transport.new 0) [.setConfig autoConfig, .start, .start] with
      | .ok s => (match s.announce (fun _ _ => .inl 1) with
        | (none, [a]) => decide (a.source = some ⟨"10.0.0.2", 3611⟩ ∧ s.nodeAddr ≠ ⟨"10.0.0.2", 3611⟩ ∧
            ⟨"10.0.0.2", 3611⟩ ∉ s.ctrlServers)
        | _ => false)
      | _ => false) = true := by decide +kernel
  split at key
  · next s hs =>
    split at key
    · next a ha =>
      obtain ⟨k1, k2, k3⟩ := of_decide_eq_true key
      refine ⟨s, a, hs, ha, k1, fun c e _ h1 h2 h3 h4 h5 h6 h7 h8 h9 => ?_⟩
      obtain ⟨m, d, g1, g2, g3⟩ := C48_announced_partial c.node h4 h5 h6 h7
      obtain ⟨r, g4, g5, g6, g7⟩ := g3 ⟨"10.0.0.2", 3611⟩ c e
        ⟨h8, .inr ⟨by rw [h1]; exact fun h => k2 h.symm, by rw [h2]; exact k3⟩⟩ (by rw [h9]; simp)
      rw [h9, List.nil_append] at g4
      rw [h3] at g6
      exact ⟨m, d, r, g1, g2, g4, g5, g6, g7⟩
    · cases key
  · cases key

/-- There is such a controller. -/
example : ∃ c : Ctrl, c.node.selfMsg = false ∧ c.node.addr = ⟨"10.0.0.2", 3612⟩ ∧ c.autoPort = true ∧
    c.servers = [⟨"10.0.0.2", 3610⟩, ⟨"10.1.0.2", 3610⟩] ∧ Lawful c.node ∧ c.node.running = true ∧
    KnownDevices c.node ∧ c.node.devices.length ≤ 84 ∧ (∃ r o, Addressed c.node 0x0EF001 r o) ∧ c.found = [] := by
  let ops : List NodeOp := [.start (some (true, ⟨"10.0.0.2", 3612⟩)) false, .setSelf false]
  have hl : Lawful (NodeOp.runAll stdDB (Node.new stdDB) ops).1 := by
    refine ⟨ops, fun op hop => ?_, rfl⟩
    rcases List.mem_cons.mp hop with rfl | hop
    · trivial
    · rw [List.mem_singleton.mp hop]; trivial
  have h1 : (NodeOp.runAll stdDB (Node.new stdDB) ops).1.selfMsg = false ∧
      (NodeOp.runAll stdDB (Node.new stdDB) ops).1.addr = ⟨"10.0.0.2", 3612⟩ ∧
      (NodeOp.runAll stdDB (Node.new stdDB) ops).1.running = true ∧
      (NodeOp.runAll stdDB (Node.new stdDB) ops).1.devices = [] := by decide +kernel
  generalize (NodeOp.runAll stdDB (Node.new stdDB) ops).1 = n at hl h1
  obtain ⟨a, b, c, d⟩ := h1
  obtain ⟨o, ho, hc, -⟩ := hl.base.1.prof
  refine ⟨⟨n, [], false, [⟨"10.0.0.2", 3610⟩, ⟨"10.1.0.2", 3610⟩], true⟩, a, b, rfl, rfl, hl, c, ?_, ?_,
    ⟨.profile 0, o, ?_, ho, hc, by omega⟩, rfl⟩
  · intro o ho
    rw [show (Ctrl.mk n [] false _ true).node.devices = [] from d] at ho
    cases ho
  · rw [show (Ctrl.mk n [] false _ true).node.devices = [] from d]; simp
  · intro x hx
    rw [show (Ctrl.mk n [] false _ true).node.devices = [] from d] at hx
    cases hx

end Verif.Props
