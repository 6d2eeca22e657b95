import Verif.Lemmas.TransportStart

/-! # C58 to C61, C72: starting and stopping the transport -/

namespace Verif.Props
open Verif Model Transport Lemmas

/-- A transport some history of calls leads to. -/
def Reachable (os : Os) (s : Transport) : Prop := ∃ t ops, run os (Transport.new t) ops = .ok s

/-- A socket of one of the servers. -/
def Held (s : Transport) (x : Sock) : Prop :=
  (∃ u ∈ s.uservers, u.udp = some x ∨ u.tcp = some x) ∨ ∃ m ∈ s.mservers, m.conn = some x

/-! ## Start as a whole -/

theorem start_spec (os : Os) {s : Transport} (h : Good s) :
    ∃ e s', s.start os = .ok (e, s') ∧ Good s' ∧ s'.config = s.config ∧ s.world.clock ≤ s'.world.clock ∧
      (∀ u ∈ s'.uservers, s.port ≤ u.port ∧ u.port ≤ endPort s ∧
        u.tcpEnabled = s.config.unicast.tcpEnabled ∧ ∀ x ∈ socks u, s.world.clock ≤ x.id) ∧
      ((∀ t i, os.mcast t i ≠ .badOption) → (s.config.unicast.tcpEnabled = true → ∀ t a p, os.tcp t a p = .ok) →
        Tight s → Tight s') ∧
      (e ≠ none → s'.mservers = []) ∧
      (∀ x ∈ s'.world.opened, (x ∈ s.world.opened ∧ ¬ Held s x) ∨ s.world.clock ≤ x.id) ∧
      (e = none → s.port ≤ s'.port ∧ s'.port ≤ endPort s ∧
        (s'.uservers = [] ∨ ∃ u, s'.uservers.getLast? = some u ∧ u.port = s'.port) ∧
        ∃ t1 t2 ifis1 ifis2,
          (s'.uservers ≠ [] → t1 < t2 ∧ getAvailableInterfaces os.toIfOs t1 = .ok ifis1) ∧
          getAvailableInterfaces os.toIfOs t2 = .ok ifis2 ∧
          (∀ u ∈ s'.uservers, ∃ i ∈ ifis1, u.ifi = some i) ∧
          (∀ m ∈ s'.mservers, m.ifi ∈ ifis2 ∧ m.conn ≠ none ∧ m.unicast = appropriateServer s'.uservers m.ifi) ∧
          (Stable os → ∀ i ∈ ifis2, ∀ t as, getInterfaceAddresses (os.addrs t i.nif) = .ok as → ∀ a ∈ as,
            ∃ m ∈ s'.mservers, m.addr = a ∧ m.ifi = i ∧ m.conn ≠ none)) := by
  obtain ⟨e0, s0, k1, k2, k3, k4, k5, k6, k7, k8⟩ := stop_spec os h
  have ht0 : Tight s → Tight s0 := by
    intro ht x hx
    obtain ⟨a, b, c⟩ := (k8 x).mp hx
    rcases ht x a with ⟨u, hu, hx⟩ | ⟨m, hm, hx⟩
    · exact absurd hx (by rw [not_or]; exact b u hu)
    · exact absurd hx (c m hm)
  have hn0 : ∀ x ∈ s0.world.opened, x ∈ s.world.opened ∧ ¬ Held s x := by
    intro x hx
    obtain ⟨a, b, c⟩ := (k8 x).mp hx
    refine ⟨a, fun hh => ?_⟩
    rcases hh with ⟨u, hu, hx⟩ | ⟨m, hm, hx⟩
    · exact absurd hx (by rw [not_or]; exact b u hu)
    · exact absurd hx (c m hm)
  unfold Transport.start
  rw [k1]
  simp only [Res.ok_bind]
  cases e0 with
  | some e0 =>
    refine ⟨_, _, rfl, k2, k5, k7, fun u hu => ?_, fun _ _ ht => ht0 ht, fun _ => k4, fun x hx => .inl (hn0 x hx), fun h => (by cases h)⟩
    rw [k3] at hu; cases hu
  | none =>
    obtain ⟨e1, s1, a1, a2, a3, a4, a5, a6, a7, a8, -, an, a10⟩ := startUnicast_spec os k2
    have hport : endPort s0 = endPort s := by unfold endPort; rw [k5, k6]
    have a6' : ∀ u ∈ s1.uservers, s.port ≤ u.port ∧ u.port ≤ endPort s ∧
        u.tcpEnabled = s.config.unicast.tcpEnabled ∧ ∀ x ∈ socks u, s.world.clock ≤ x.id := by
      intro u hu
      obtain ⟨b1, b2, b3, b4⟩ := a6 u hu
      exact ⟨by rw [← k6]; exact b1, by rw [← hport]; exact b2, by rw [b3, k5], fun x hx => Nat.le_trans k7 (b4 x hx)⟩
    have hn1 : ∀ x ∈ s1.world.opened, (x ∈ s.world.opened ∧ ¬ Held s x) ∨ s.world.clock ≤ x.id := fun x hx =>
      (an x hx).elim (fun h => .inl (hn0 x h)) (fun h => .inr (Nat.le_trans k7 h))
    have hn2 : ∀ s2, MStep os s1 s2 → ∀ x ∈ s2.world.opened, (x ∈ s.world.opened ∧ ¬ Held s x) ∨ s.world.clock ≤ x.id :=
      fun s2 h x hx => (h.new x hx).elim (hn1 x) (fun h => .inr (Nat.le_trans (Nat.le_trans k7 a5) h))
    dsimp only
    rw [a1]
    simp only [Res.ok_bind]
    cases e1 with
    | some e1 =>
      exact ⟨_, _, rfl, a2, a4.trans k5, Nat.le_trans k7 a5, a6', fun _ hok ht => a8 (by rw [k5]; exact hok) (ht0 ht),
        fun _ => a3.trans k4, hn1, fun h => (by cases h)⟩
    | none =>
      dsimp only
      rcases hm : s1.startMulticast os with ⟨_ | e2, s2⟩
      · obtain ⟨b1, -, b3⟩ := startMulticast_spec os a2 hm
        obtain ⟨t2, ifis2, d1, d2, d3, d4⟩ := b3 rfl
        dsimp only
        rcases hu : s2.setUnicastManager os with ⟨_ | e3, s3⟩
        · obtain ⟨c1, c2, -, -⟩ := setUnicastManager_spec os b1.good hu
          have c2 := c2 rfl
          have hus : s3.uservers = s1.uservers := c1.us.trans b1.us
          have hp : s3.port = s1.port := c1.port.trans b1.port
          obtain ⟨t1, ifis1, f1, f2⟩ := a7
          refine ⟨none, _, rfl, c1.good, (c1.config.trans b1.config).trans (a4.trans k5),
            Nat.le_trans (Nat.le_trans k7 a5) (Nat.le_trans b1.clock c1.clock), ?_, ?_, fun h => absurd rfl h, hn2 s3 (b1.trans c1), fun _ => ?_⟩
          · intro u hu
            exact a6' u (by rw [← hus]; exact hu)
          · intro hn hok ht
            exact c1.tight hn (b1.tight hn (a8 (by rw [k5]; exact hok) (ht0 ht)))
          · obtain ⟨g1, g2, g3⟩ := a10 rfl
            refine ⟨by show s.port ≤ s3.port; rw [hp, ← k6]; exact g1, by show s3.port ≤ _; rw [hp, ← hport]; exact g2,
              by show s3.uservers = [] ∨ ∃ u, s3.uservers.getLast? = some u ∧ u.port = s3.port; rw [hus, hp]; exact g3,
              t1, t2, ifis1, ifis2, ?_, d2, ?_, ?_, ?_⟩
            · intro hne
              have hne : s1.uservers ≠ [] := by rw [← hus]; exact hne
              exact ⟨Nat.lt_of_lt_of_le (f1 hne).1 d1, (f1 hne).2⟩
            · intro u hu
              exact f2 u (by rw [← hus]; exact hu)
            · intro m hm
              have hm : m ∈ s3.mservers := hm
              rw [c2] at hm
              obtain ⟨m0, hm0, rfl⟩ := List.mem_map.mp hm
              obtain ⟨x1, x2⟩ := d3 m0 hm0
              refine ⟨x1, x2, ?_⟩
              show appropriateServer s2.uservers m0.ifi = appropriateServer s3.uservers m0.ifi
              rw [hus, b1.us]
            · intro hst i hi t as ha a hma
              obtain ⟨m, hm, y⟩ := d4 hst i hi t as ha a hma
              refine ⟨{ m with unicast := appropriateServer s2.uservers m.ifi }, ?_, y⟩
              show _ ∈ s3.mservers
              rw [c2]
              exact List.mem_map.mpr ⟨m, hm, rfl⟩
        · obtain ⟨c1, -, -, -⟩ := setUnicastManager_spec os b1.good hu
          obtain ⟨e4, s4, z1, z2, z3, z4, z5, z6, z7, z8⟩ := stop_spec os c1.good
          dsimp only
          rw [z1]
          refine ⟨_, _, rfl, z2, ?_, ?_, fun u hu => ?_, fun hn hok ht x hx => ?_, fun _ => z4, fun x hx => hn2 s3 (b1.trans c1) x ((z8 x).mp hx).1, fun h => (by cases h)⟩
          · rw [z5, c1.config, b1.config, a4, k5]
          · exact Nat.le_trans (Nat.le_trans k7 a5) (Nat.le_trans (Nat.le_trans b1.clock c1.clock) z7)
          · rw [z3] at hu; cases hu
          · have := c1.tight hn (b1.tight hn (a8 (by rw [k5]; exact hok) (ht0 ht)))
            obtain ⟨p, q, r⟩ := (z8 x).mp hx
            rcases this x p with ⟨u, hu, hx⟩ | ⟨m, hm, hx⟩
            · exact absurd hx (by rw [not_or]; exact q u hu)
            · exact absurd hx (r m hm)
      · obtain ⟨b1, -, -⟩ := startMulticast_spec os a2 hm
        obtain ⟨e4, s4, z1, z2, z3, z4, z5, z6, z7, z8⟩ := stop_spec os b1.good
        dsimp only
        rw [z1]
        refine ⟨_, _, rfl, z2, ?_, ?_, fun u hu => ?_, fun hn hok ht x hx => ?_, fun _ => z4, fun x hx => hn2 s2 b1 x ((z8 x).mp hx).1, fun h => (by cases h)⟩
        · rw [z5, b1.config, a4, k5]
        · exact Nat.le_trans (Nat.le_trans k7 a5) (Nat.le_trans b1.clock z7)
        · rw [z3] at hu; cases hu
        · have := b1.tight hn (a8 (by rw [k5]; exact hok) (ht0 ht))
          obtain ⟨p, q, r⟩ := (z8 x).mp hx
          rcases this x p with ⟨u, hu, hx⟩ | ⟨m, hm, hx⟩
          · exact absurd hx (by rw [not_or]; exact q u hu)
          · exact absurd hx (r m hm)

theorem mcastEnds_spec (os : Os) {s : Transport} (h : Good s) (i : Nat) :
    Good (s.mcastEnds os i) ∧ (s.mcastEnds os i).config = s.config ∧ (Tight s → Tight (s.mcastEnds os i)) := by
  unfold Transport.mcastEnds
  cases hm : s.mservers[i]? with
  | none => exact ⟨h, rfl, fun h => h⟩
  | some m =>
    have hmem := List.mem_of_getElem? hm
    obtain ⟨a1, a2, a3, a4⟩ := udpClose_spec os s.world m.conn
    have hx : ∀ x, x ∈ s.world.opened → m.conn ≠ some x → x ∈ (udpClose os s.world m.conn).2.2.opened := by
      intro x hx hne
      refine (a1 x).mpr ⟨hx, fun y hy e => ?_⟩
      have := h.wwf.uniq x hx y (h.ms m hmem y hy).1 e
      exact hne (by rw [this]; exact hy)
    dsimp only
    have hdist : ∀ v ∈ s.mservers.set i { m with conn := (udpClose os s.world m.conn).2.1 }, ∀ c, v.conn = some c →
        v ∈ s.mservers ∧ m.conn ≠ some c := by
      intro v hv c hc
      obtain ⟨j, hj⟩ := List.mem_iff_getElem?.mp hv
      rw [List.getElem?_set] at hj
      split at hj
      · split at hj
        · rw [Option.some_inj] at hj
          rw [← hj] at hc
          have hc : (udpClose os s.world m.conn).2.1 = some c := hc
          rw [a3] at hc
          cases hc
        · cases hj
      · next hij =>
        refine ⟨List.mem_of_getElem? hj, fun e => ?_⟩
        obtain ⟨hi', ei⟩ := List.getElem?_eq_some_iff.mp hm
        obtain ⟨hj', ej⟩ := List.getElem?_eq_some_iff.mp hj
        have hp := List.pairwise_iff_getElem.mp h.sep
        rcases Nat.lt_or_gt_of_ne hij with hlt | hlt
        · exact hp i j hi' hj' hlt c (by rw [ei]; exact e) (by rw [ej]; exact hc)
        · exact hp j i hj' hi' hlt c (by rw [ej]; exact hc) (by rw [ei]; exact e)
    refine ⟨⟨a4 h.wwf, fun u hu => ?_, fun v hv c hc => ?_, ?_⟩, rfl, fun ht x hxo => ?_⟩
    · exact (h.us u hu).mono fun x hxo hp => hx x hxo fun e => hp (h.ms m hmem x e).2
    · obtain ⟨d1, d2⟩ := hdist v hv c hc
      exact ⟨hx c (h.ms v d1 c hc).1 d2, (h.ms v d1 c hc).2⟩
    · rw [List.pairwise_iff_getElem]
      have hp := List.pairwise_iff_getElem.mp h.sep
      intro j k hj hk hjk x e1 e2
      rw [List.getElem_set] at e1 e2
      rw [List.length_set] at hj hk
      split at e1
      · have e1 : (udpClose os s.world m.conn).2.1 = some x := e1
        rw [a3] at e1; cases e1
      · split at e2
        · have e2 : (udpClose os s.world m.conn).2.1 = some x := e2
          rw [a3] at e2; cases e2
        · exact hp j k hj hk hjk x e1 e2
    · obtain ⟨b1, b2⟩ := (a1 x).mp hxo
      rcases ht x b1 with hu | ⟨v, hv, e⟩
      · exact .inl hu
      · refine .inr ⟨v, ?_, e⟩
        obtain ⟨j, hj⟩ := List.mem_iff_getElem?.mp hv
        refine List.mem_iff_getElem?.mpr ⟨j, ?_⟩
        rw [List.getElem?_set_ne, hj]
        rintro rfl
        rw [hm] at hj
        cases hj
        exact b2 x e rfl

/-! ## Every history -/

/-- Can nothing go wrong after a socket is opened? -/
def Leakless (os : Os) (ops : List Op) : Prop :=
  (∀ t i, os.mcast t i ≠ .badOption) ∧
  ((∀ c, Op.setConfig c ∈ ops → c.unicast.tcpEnabled = false) ∨ ∀ t a p, os.tcp t a p = .ok)

theorem run_good (os : Os) (ops : List Op) {s : Transport} (h : Good s) :
    ∃ s', run os s ops = .ok s' ∧ Good s' ∧
      (Leakless os ops → (s.config.unicast.tcpEnabled = true → ∀ t a p, os.tcp t a p = .ok) → Tight s →
        Tight s' ∧ (s'.config.unicast.tcpEnabled = true → ∀ t a p, os.tcp t a p = .ok)) := by
  induction ops generalizing s with
  | nil => exact ⟨s, rfl, h, fun _ hc ht => ⟨ht, hc⟩⟩
  | cons op ops ih =>
    have hstep : ∃ s1, s.step os op = .ok s1 ∧ Good s1 ∧
        (Leakless os (op :: ops) → (s.config.unicast.tcpEnabled = true → ∀ t a p, os.tcp t a p = .ok) → Tight s →
          Tight s1 ∧ (s1.config.unicast.tcpEnabled = true → ∀ t a p, os.tcp t a p = .ok)) := by
      cases op with
      | start =>
        obtain ⟨e, s1, a1, a2, a3, -, -, a6, -⟩ := start_spec os h
        refine ⟨s1, ?_, a2, fun hl hc ht => ⟨a6 hl.1 hc ht, by rw [a3]; exact hc⟩⟩
        show (s.start os >>= _) = _
        rw [a1]; rfl
      | stop =>
        obtain ⟨e, s1, k1, k2, k3, k4, k5, k6, k7, k8⟩ := stop_spec os h
        refine ⟨s1, ?_, k2, fun hl hc ht => ⟨fun x hx => ?_, by rw [k5]; exact hc⟩⟩
        · show (s.stop os >>= _) = _
          rw [k1]; rfl
        · obtain ⟨a, b, c⟩ := (k8 x).mp hx
          rcases ht x a with ⟨u, hu, hx⟩ | ⟨m, hm, hx⟩
          · exact absurd hx (by rw [not_or]; exact b u hu)
          · exact absurd hx (c m hm)
      | setPort p => exact ⟨_, rfl, ⟨h.wwf, h.us, h.ms, h.sep⟩, fun _ hc ht => ⟨ht, hc⟩⟩
      | setConfig c =>
        refine ⟨_, rfl, ⟨h.wwf, h.us, h.ms, h.sep⟩, fun hl _ ht => ⟨ht, fun htc => ?_⟩⟩
        rcases hl.2 with hn | hok
        · have htc : c.unicast.tcpEnabled = true := htc
          rw [hn c (List.mem_cons_self ..)] at htc
          cases htc
        · exact hok
      | mcastEnds i =>
        obtain ⟨a1, a2, a3⟩ := mcastEnds_spec os h i
        exact ⟨_, rfl, a1, fun _ hc ht => ⟨a3 ht, by rw [a2]; exact hc⟩⟩
    obtain ⟨s1, b1, b2, b3⟩ := hstep
    obtain ⟨s', c1, c2, c3⟩ := ih b2
    refine ⟨s', ?_, c2, fun hl hc ht => ?_⟩
    · show (s.step os op >>= _) = _
      rw [b1]
      exact c1
    · obtain ⟨d1, d2⟩ := b3 hl hc ht
      refine c3 ⟨hl.1, ?_⟩ d2 d1
      rcases hl.2 with hn | hok
      · exact .inl fun c hc => hn c (List.mem_cons_of_mem _ hc)
      · exact .inr hok

theorem reachable_good {os : Os} {s : Transport} (h : Reachable os s) : Good s := by
  obtain ⟨t, ops, h⟩ := h
  obtain ⟨s', a, b, -⟩ := run_good os ops (new_good t)
  rw [h] at a
  cases a
  exact b

/-! ## C58 -/

/-- C58. No history of calls panics: no channel is closed twice. -/
theorem C58_no_panic (os : Os) (t : Nat) (ops : List Op) : ∃ s, run os (Transport.new t) ops = .ok s := by
  obtain ⟨s, h, -⟩ := run_good os ops (new_good t)
  exact ⟨s, h⟩

/-- C58. `Stop` leaves the transport not running and without servers, with the sockets of all
servers closed, whatever errors the system reports; it may be repeated, and has nothing to do then. -/
theorem C58_stop (os : Os) (s : Transport) (h : Reachable os s) :
    ∃ e s', s.stop os = .ok (e, s') ∧ s'.isRunning = false ∧ s'.uservers = [] ∧ s'.mservers = [] ∧
      (∀ x, Held s x → x ∉ s'.world.opened) ∧ s'.stop os = .ok (none, s') := by
  obtain ⟨e, s', k1, k2, k3, k4, k5, k6, k7, k8⟩ := stop_spec os (reachable_good h)
  refine ⟨e, s', k1, ?_, k3, k4, fun x hh hx => ?_, ?_⟩
  · unfold Transport.isRunning
    rw [k3]; rfl
  · obtain ⟨-, b, c⟩ := (k8 x).mp hx
    rcases hh with ⟨u, hu, hx⟩ | ⟨m, hm, hx⟩
    · exact absurd hx (by rw [not_or]; exact b u hu)
    · exact absurd hx (c m hm)
  · obtain ⟨cfg, port, us, ms, w⟩ := s'
    simp only at k3 k4
    subst k3 k4
    rfl

/-- C58. `Start` begins by stopping: every server there is after it, successful or not, has sockets
opened by this call, and they are open. -/
theorem C58_fresh (os : Os) (s : Transport) (h : Reachable os s) :
    ∃ e s', s.start os = .ok (e, s') ∧
      (∀ u ∈ s'.uservers, ∀ x, u.udp = some x ∨ u.tcp = some x → s.world.clock ≤ x.id ∧ x ∈ s'.world.opened) ∧
      ∀ x, Held s x → x ∉ s'.world.opened := by
  obtain ⟨e, s', a1, a2, -, a4, a5, -, -, an, -⟩ := start_spec os (reachable_good h)
  refine ⟨e, s', a1, fun u hu x hx => ⟨(a5 u hu).2.2.2 x (mem_socks.mpr hx), ?_⟩, ?_⟩
  · have hg := a2.us u hu
    rcases hx with hx | hx
    · obtain ⟨y, e, m, -⟩ := hg.udp
      rw [e] at hx; cases hx; exact m
    · cases hb : u.tcpEnabled with
      | false => rw [hg.noTcp hb] at hx; cases hx
      | true =>
        obtain ⟨-, y, e, m, -⟩ := hg.tcp hb
        rw [e] at hx; cases hx; exact m
  · intro x hh hx
    have hg := reachable_good h
    rcases an x hx with hx | hx
    · exact hx.2 hh
    · refine Nat.lt_irrefl _ (Nat.lt_of_lt_of_le (hg.wwf.old x ?_) hx)
      rcases hh with ⟨u, hu, hx⟩ | ⟨m, hm, hx⟩
      · rcases hx with hx | hx
        · obtain ⟨y, e, m, -⟩ := (hg.us u hu).udp
          rw [e] at hx; cases hx; exact m
        · cases hb : u.tcpEnabled with
          | false => rw [(hg.us u hu).noTcp hb] at hx; cases hx
          | true =>
            obtain ⟨-, y, e, m, -⟩ := (hg.us u hu).tcp hb
            rw [e] at hx; cases hx; exact m
      · exact (hg.ms m hm x hx).1

/-- After a start and a stop with failures of the system in between, a transport is reachable. -/
example (os : Os) : ∃ s, Reachable os s ∧ run os (Transport.new 0) [.start, .stop, .start] = .ok s := by
  obtain ⟨s, h⟩ := C58_no_panic os 0 [.start, .stop, .start]
  exact ⟨s, ⟨0, _, h⟩, h⟩

end Verif.Props
