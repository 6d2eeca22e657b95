import Verif.Props.Binding

/-! # C61: ports, and C72: the interface of the replies to multicast requests -/

namespace Verif.Props
open Verif Model Transport Lemmas

/-! ## C61 -/

/-- C61. Without automatic port binding every unicast socket is bound to the configured port. -/
theorem C61_configured (os : Os) (s s' : Transport) (e : Option Err) (h : Reachable os s)
    (hauto : s.config.autoPortBindingEnabled = false) (hs : s.start os = .ok (e, s')) :
    ∀ u ∈ s'.uservers, ∀ x, u.udp = some x ∨ u.tcp = some x → x.port = s.port := by
  obtain ⟨e1, s1, a1, a2, -, -, a5, -⟩ := start_spec os (reachable_good h)
  rw [hs] at a1
  cases a1
  intro u hu x hx
  obtain ⟨b1, b2, -, -⟩ := a5 u hu
  have hp : u.port = s.port := by
    unfold endPort at b2
    rw [hauto] at b2
    simp only [Bool.false_eq_true, if_false] at b2
    omega
  rcases hx with hx | hx
  · obtain ⟨y, c1, -, -, -, c5⟩ := (a2.us u hu).udp
    rw [c1] at hx; cases hx
    exact c5.trans hp
  · cases hb : u.tcpEnabled with
    | false => rw [(a2.us u hu).noTcp hb] at hx; cases hx
    | true =>
      obtain ⟨-, y, c1, -, -, -, c5⟩ := (a2.us u hu).tcp hb
      rw [c1] at hx; cases hx
      exact c5.trans hp

/-- C61. With automatic port binding every unicast socket is bound to a port from the port before
the start to 100 above. -/
theorem C61_range (os : Os) (s s' : Transport) (e : Option Err) (h : Reachable os s)
    (hs : s.start os = .ok (e, s')) :
    ∀ u ∈ s'.uservers, ∀ x, u.udp = some x ∨ u.tcp = some x → s.port ≤ x.port ∧ x.port ≤ s.port + 100 := by
  obtain ⟨e1, s1, a1, a2, -, -, a5, -⟩ := start_spec os (reachable_good h)
  rw [hs] at a1
  cases a1
  intro u hu x hx
  obtain ⟨b1, b2, -, -⟩ := a5 u hu
  have hp : u.port ≤ s.port + 100 := by
    unfold endPort udpPortRange at b2
    split at b2 <;> omega
  rcases hx with hx | hx
  · obtain ⟨y, c1, -, -, -, c5⟩ := (a2.us u hu).udp
    rw [c1] at hx; cases hx
    exact ⟨by rw [c5]; exact b1, by rw [c5]; exact hp⟩
  · cases hb : u.tcpEnabled with
    | false => rw [(a2.us u hu).noTcp hb] at hx; cases hx
    | true =>
      obtain ⟨-, y, c1, -, -, -, c5⟩ := (a2.us u hu).tcp hb
      rw [c1] at hx; cases hx
      exact ⟨by rw [c5]; exact b1, by rw [c5]; exact hp⟩

/-- C61. After a successful start `Port` is the port of the server started last. -/
theorem C61_port (os : Os) (hst : Stable os) (s s' : Transport) (h : Reachable os s)
    (hs : s.start os = .ok (none, s')) :
    ∃ u, s'.uservers.getLast? = some u ∧ u.port = s'.port ∧
      ∃ x ∈ s'.world.opened, u.udp = some x ∧ x.port = s'.port := by
  obtain ⟨e1, s1, a1, a2, -, -, -, -, -, -, a9⟩ := start_spec os (reachable_good h)
  have hrun := C58_running os hst s s' h hs
  rw [hs] at a1
  cases a1
  obtain ⟨-, -, h3, -⟩ := a9 rfl
  rcases h3 with h3 | ⟨u, h3, h4⟩
  · obtain ⟨-, ⟨u, hu, -⟩, -⟩ := hrun
    rw [h3] at hu; cases hu
  · obtain ⟨x, c1, c2, -, -, c5⟩ := (a2.us u (List.mem_of_getLast? h3)).udp
    exact ⟨u, h3, h4, x, c2, c1, c5.trans h4⟩

/-- A configuration with automatic port binding. -/
def autoConfig : TransportConfig := ⟨.default, true⟩

/-- The port and what is open after a history. -/
def portsAfter (os : Os) (ops : List Op) : Option (Nat × List (Proto × Str × Nat)) :=
  match run os (Transport.new 0) ops with
  | .ok s => some (s.port, s.world.opened.map (fun x => (x.proto, x.addr, x.port)))
  | _ => none

/-- Without automatic port binding both interfaces are bound on port 3610. -/
example : portsAfter (twoIfs (fun _ _ _ => .ok) (fun _ _ _ => .ok)) [.start]
    = some (3610, [(.mcast, multicastIPv4Address, 3610), (.mcast, multicastIPv4Address, 3610),
        (.udp, addr1, 3610), (.udp, addr0, 3610)]) := by decide +kernel

/-- C61 is false in that the node may listen on several ports: with port 3610 taken on the second
interface it listens on 3610 and 3611, and `Port` says 3611. -/
theorem C61_refuted_several : portsAfter
      (twoIfs (fun _ a p => if a = addr1 ∧ p = 3610 then .refused else .ok) (fun _ _ _ => .ok))
      [.setConfig autoConfig, .start]
    = some (3611, [(.mcast, multicastIPv4Address, 3610), (.mcast, multicastIPv4Address, 3610),
        (.udp, addr1, 3611), (.udp, addr0, 3611), (.udp, addr0, 3610)]) := by decide +kernel

/-- A host with one interface. -/
def oneIf (udp tcp : Nat → Str → Nat → BindOutcome) : Os where
  interfaces _ := some [eth0]
  addrs _ _ := some [addr0 ++ ['/', '8']]
  udp := udp
  tcp := tcp
  mcast _ _ := .ok
  closeErr _ := false

/-- C61 is false in that a start overwrites the configured port: with the ports below 3710 taken at
the first start only, and port 3710 taken from then on, the node configured for port 3610 is on port
3711 after the second start, out of the range and with 3610 free. -/
theorem C61_refuted_drift : portsAfter
      (oneIf (fun t _ p => if (t < 210 ∧ p < 3710) ∨ (210 ≤ t ∧ p = 3710) then .refused else .ok) (fun _ _ _ => .ok))
      [.setConfig autoConfig, .start, .start]
    = some (3711, [(.mcast, multicastIPv4Address, 3610), (.udp, addr0, 3711)]) := by decide +kernel

/-! ## C72 -/

/-- A successful start with multicast servers has a unicast server. -/
theorem mservers_uservers (os : Os) {s s' : Transport} (h : Good s) (hs : s.start os = .ok (none, s'))
    (hm : s'.mservers ≠ []) : s'.uservers ≠ [] := by
  obtain ⟨e0, s0, k1, k2, k3, k4, k5, k6, k7, k8⟩ := stop_spec os h
  unfold Transport.start at hs
  rw [k1] at hs
  simp only [Res.ok_bind] at hs
  cases e0 with
  | some e0 => cases hs
  | none =>
    obtain ⟨e1, s1, a1, a2, -⟩ := startUnicast_spec os k2
    dsimp only at hs
    rw [a1] at hs
    simp only [Res.ok_bind] at hs
    cases e1 with
    | some e1 => cases hs
    | none =>
      dsimp only at hs
      rcases hm2 : s1.startMulticast os with ⟨_ | e2, s2⟩
      · rw [hm2] at hs
        obtain ⟨b1, -⟩ := startMulticast_spec os a2 hm2
        dsimp only at hs
        rcases hu : s2.setUnicastManager os with ⟨_ | e3, s3⟩
        · rw [hu] at hs
          cases hs
          unfold Transport.setUnicastManager at hu
          split at hu
          · next hx => cases hu; exact absurd hx hm
          · cases hu
          · next hx => cases hu; exact fun h0 => (by
              cases hm3 : s2.mservers with
              | nil => exact hm (by show List.map _ s2.mservers = []; rw [hm3]; rfl)
              | cons m ms => exact hx m ms hm3 h0)
        · rw [hu] at hs
          obtain ⟨c1, -⟩ := setUnicastManager_spec os b1.good hu
          obtain ⟨e4, s4, z1, -⟩ := stop_spec os c1.good
          dsimp only at hs
          rw [z1] at hs
          cases hs
      · rw [hm2] at hs
        obtain ⟨b1, -⟩ := startMulticast_spec os a2 hm2
        obtain ⟨e4, s4, z1, -⟩ := stop_spec os b1.good
        dsimp only at hs
        rw [z1] at hs
        cases hs

/-- C72 is false: after every successful start, all multicast servers reply through the first
unicast server, whatever interface they listen on: interfaces are compared as pointers, and these
are new for each of the two managers. -/
theorem C72_refuted (os : Os) (s s' : Transport) (h : Reachable os s) (hs : s.start os = .ok (none, s')) :
    ∀ m ∈ s'.mservers, m.unicast = s'.uservers.head? := by
  obtain ⟨e1, s1, a1, a2, -, -, -, -, -, -, a9⟩ := start_spec os (reachable_good h)
  rw [hs] at a1
  cases a1
  obtain ⟨-, -, -, t1, t2, ifis1, ifis2, f1, f2, f3, f4, -⟩ := a9 rfl
  intro m hm
  obtain ⟨g1, -, g3⟩ := f4 m hm
  rw [g3]
  unfold appropriateServer
  cases hu : s'.uservers with
  | nil => rfl
  | cons u us =>
    rw [← hu]
    have hne : s'.uservers ≠ [] := by rw [hu]; simp
    obtain ⟨ht, hg1⟩ := f1 hne
    have : s'.uservers.find? (fun server => server.ifi = some m.ifi) = none := by
      rw [List.find?_eq_none]
      intro v hv
      obtain ⟨i, hi, e⟩ := f3 v hv
      have x1 : i.time = t1 := ((C64_selected os.toIfOs t1).1 ifis1 hg1).elim fun _ y => y.2.2.2 i hi
      have x2 : m.ifi.time = t2 := ((C64_selected os.toIfOs t2).1 ifis2 f2).elim fun _ y => y.2.2.2 m.ifi g1
      simp only [decide_eq_true_eq]
      intro hc
      rw [e, Option.some_inj] at hc
      rw [hc, x2] at x1
      omega
    rw [this, hu]
    rfl

/-- The interface each multicast server listens on, and the interface its replies are sent from. -/
def replyInterfaces (r : Res (Option Err × Transport)) : List (Str × Option Str) :=
  match r with
  | .ok (_, s) => s.mservers.map (fun m => (m.ifi.nif.name, (m.unicast.bind (·.ifi)).map (·.nif.name)))
  | _ => []

/-- C72 is false: a request arriving on `eth1` is answered from the socket of `eth0`. -/
theorem C72_refuted_example : replyInterfaces ((Transport.new 0).start (twoIfs (fun _ _ _ => .ok) (fun _ _ _ => .ok)))
    = [(eth0.name, some eth0.name), (eth1.name, some eth0.name)] := by decide +kernel

/-- C72, the part that holds: on a host with one interface replies are sent from it. -/
theorem C72_single_partial (os : Os) (i : NetIf) (h1 : ∀ t is, os.interfaces t = some is → is = [i])
    (s s' : Transport) (h : Reachable os s) (hs : s.start os = .ok (none, s')) :
    ∀ m ∈ s'.mservers, m.ifi.nif = i ∧ ∃ u p, m.unicast = some u ∧ u ∈ s'.uservers ∧ u.ifi = some p ∧ p.nif = i := by
  have hr := C72_refuted os s s' h hs
  obtain ⟨e1, s1, a1, a2, -, -, -, -, -, -, a9⟩ := start_spec os (reachable_good h)
  have hone : ∀ t ifis, getAvailableInterfaces os.toIfOs t = .ok ifis → ∀ p ∈ ifis, p.nif = i := by
    intro t ifis hg p hp
    obtain ⟨is, b1, b2, -⟩ := (C64_selected os.toIfOs t).1 ifis hg
    have := ((b2 p.index p.nif).mp ⟨p, hp, rfl, rfl⟩).1
    rw [h1 t is b1] at this
    have := List.mem_of_getElem? this
    exact List.mem_singleton.mp this
  rw [hs] at a1
  cases a1
  obtain ⟨-, -, -, t1, t2, ifis1, ifis2, f1, f2, f3, f4, -⟩ := a9 rfl
  intro m hm
  refine ⟨hone t2 ifis2 f2 _ (f4 m hm).1, ?_⟩
  have hm' := hr m hm
  cases hu : s'.uservers with
  | nil =>
    exact absurd hu (mservers_uservers os (reachable_good h) hs (List.ne_nil_of_mem hm))
  | cons u us =>
    have hmem : u ∈ s'.uservers := by rw [hu]; exact List.mem_cons_self ..
    obtain ⟨p, hp, e⟩ := f3 u hmem
    have hne : s'.uservers ≠ [] := by rw [hu]; simp
    refine ⟨u, p, ?_, hu ▸ hmem, e, hone t1 ifis1 (f1 hne).2 p hp⟩
    rw [hm', hu]; rfl

/-- A host with one interface, started: the hypotheses of the theorems above. -/
example : let os := oneIf (fun _ _ _ => .ok) (fun _ _ _ => .ok)
    Reachable os (Transport.new 0) ∧ Stable os ∧ (∀ t is, os.interfaces t = some is → is = [eth0]) ∧
    ∃ s', (Transport.new 0).start os = .ok (none, s') ∧ s'.mservers.length = 1 ∧ s'.uservers.length = 1 := by
  refine ⟨⟨0, [], rfl⟩, ?_, ?_, ?_⟩
  · exact fun _ _ _ => rfl
  · intro t is h
    cases h
    rfl
  · exact ⟨_, rfl, by decide +kernel, by decide +kernel⟩

end Verif.Props
