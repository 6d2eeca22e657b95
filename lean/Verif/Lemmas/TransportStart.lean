import Verif.Lemmas.Transport
import Verif.Props.Interface

/-! # Lemmas about starting the transport -/

namespace Verif.Lemmas
open Verif Model Transport

/-- What the parts of `MulticastManager.Start` do. -/
structure MStep (os : Os) (s s' : Transport) : Prop where
  good : Good s'
  clock : s.world.clock ≤ s'.world.clock
  us : s'.uservers = s.uservers
  config : s'.config = s.config
  port : s'.port = s.port
  tight : (∀ t i, os.mcast t i ≠ .badOption) → Tight s → Tight s'
  new : ∀ x ∈ s'.world.opened, x ∈ s.world.opened ∨ s.world.clock ≤ x.id

theorem MStep.refl {os : Os} {s : Transport} (h : Good s) : MStep os s s :=
  ⟨h, Nat.le_refl _, rfl, rfl, rfl, fun _ h => h, fun _ h => .inl h⟩

theorem MStep.trans {os : Os} {a b c : Transport} (h1 : MStep os a b) (h2 : MStep os b c) : MStep os a c :=
  ⟨h2.good, Nat.le_trans h1.clock h2.clock, h2.us.trans h1.us, h2.config.trans h1.config, h2.port.trans h1.port,
    fun hn ht => h2.tight hn (h1.tight hn ht), fun x hx =>
      (h2.new x hx).elim (fun h => h1.new x h) (fun h => .inr (Nat.le_trans h1.clock h))⟩

theorem stopMulticast_mstep (os : Os) {s : Transport} (h : Good s) : MStep os s (s.stopMulticast os).2 := by
  obtain ⟨m1, m2, m3, m4, m5, m6, m7⟩ := stopMulticast_spec os h
  refine ⟨m1, m6, m3, m4, m5, fun _ ht x hx => ?_, fun x hx => .inl ((m7 x).mp hx).1⟩
  obtain ⟨h1, h2⟩ := (m7 x).mp hx
  rcases ht x h1 with hu | ⟨m, hm, e⟩
  · left; rw [m3]; exact hu
  · exact absurd e (h2 m hm)

theorem world_mstep (os : Os) {s : Transport} (h : Good s) {w : World} (hw : Ext s.world w)
    (ho : w.opened = s.world.opened) : MStep os s { s with world := w } :=
  ⟨h.ext hw, hw.clock, rfl, rfl, rfl, fun _ ht => tight_world ht ho, hw.new⟩

theorem startMulticastAt_spec (os : Os) {s : Transport} (h : Good s) (ifi : IfPtr) (a : Str)
    {e : Option Err} {s' : Transport} (hs : s.startMulticastAt os ifi a = (e, s')) :
    MStep os s s' ∧ (e = none → ∃ c, s'.mservers = s.mservers ++ [⟨ifi, a, some c, none⟩]) := by
  unfold Transport.startMulticastAt at hs
  rcases hu : mcastBind os s.world ifi a with ⟨e1, c, w⟩
  rw [hu] at hs
  obtain ⟨a1, a2, a3⟩ := mcastBind_spec os h.wwf ifi a
  rw [hu] at a1 a2 a3
  have hg := h.ext a1
  cases e1 with
  | some e1 =>
    cases hs
    exact ⟨⟨hg, a1.clock, rfl, rfl, rfl, fun hn ht => tight_world ht (a3 (by simp) (hn _ _)), a1.new⟩, fun h => (by cases h)⟩
  | none =>
    cases hs
    obtain ⟨m, hc, hw⟩ := a2 rfl
    have hc : c = some ⟨s.world.clock, .mcast, m, echonetPort⟩ := hc
    have hw : w = (s.world.opening .mcast m echonetPort).2 := hw
    subst hc hw
    refine ⟨⟨⟨a1.wwf, hg.us, fun v hv c hc => ?_, ?_⟩, a1.clock, rfl, rfl, rfl, fun hn ht x hx => ?_, a1.new⟩, fun _ => ⟨_, rfl⟩⟩
    · rcases List.mem_append.mp hv with hv | hv
      · exact hg.ms v hv c hc
      · rw [List.mem_singleton.mp hv] at hc
        cases hc
        exact ⟨List.mem_cons_self .., rfl⟩
    · refine List.pairwise_append.mpr ⟨h.sep, List.pairwise_singleton .., fun v hv b hb x hx e => ?_⟩
      rw [List.mem_singleton.mp hb] at e
      cases e
      exact Nat.lt_irrefl _ (h.wwf.old _ (h.ms v hv _ hx).1)
    · rcases List.mem_cons.mp hx with rfl | hx
      · exact .inr ⟨_, List.mem_append_right _ (List.mem_singleton.mpr rfl), rfl⟩
      · rcases ht x hx with hu | ⟨v, hv, e⟩
        · exact .inl hu
        · exact .inr ⟨v, List.mem_append_left _ hv, e⟩

theorem joinAddrs_spec (os : Os) (ifi : IfPtr) (as : List Str) {s : Transport} (h : Good s)
    {e : Option Err} {s' : Transport} (hs : joinAddrs os ifi as s = (e, s')) :
    MStep os s s' ∧ (e ≠ none → s'.mservers = []) ∧
    (e = none → ∃ new, s'.mservers = s.mservers ++ new ∧ new.map (·.addr) = as ∧
      ∀ m ∈ new, m.ifi = ifi ∧ m.conn ≠ none) := by
  induction as generalizing s with
  | nil =>
    cases hs
    exact ⟨MStep.refl h, fun h => absurd rfl h, fun _ => ⟨[], by simp, rfl, fun m hm => (by cases hm)⟩⟩
  | cons a as ih =>
    unfold joinAddrs at hs
    rcases hm : s.startMulticastAt os ifi a with ⟨_ | e1, s1⟩
    · rw [hm] at hs
      obtain ⟨a1, a2⟩ := startMulticastAt_spec os h ifi a hm
      obtain ⟨c, a2⟩ := a2 rfl
      obtain ⟨b1, b2, b3⟩ := ih a1.good hs
      refine ⟨a1.trans b1, b2, fun he => ?_⟩
      obtain ⟨new, c1, c2, c3⟩ := b3 he
      refine ⟨⟨ifi, a, some c, none⟩ :: new, by rw [c1, a2]; simp, by rw [List.map_cons, c2], fun m hm => ?_⟩
      rcases List.mem_cons.mp hm with rfl | hm
      · exact ⟨rfl, by simp⟩
      · exact c3 m hm
    · rw [hm] at hs
      cases hs
      obtain ⟨a1, -⟩ := startMulticastAt_spec os h ifi a hm
      exact ⟨a1.trans (stopMulticast_mstep os a1.good), fun _ => rfl, fun h => (by cases h)⟩

/-- The addresses of an interface do not change. -/
def Stable (os : Os) : Prop := ∀ t t' i, os.addrs t i = os.addrs t' i

theorem joinIfs_spec (os : Os) (is : List IfPtr) {s : Transport} (h : Good s)
    {e : Option Err} {s' : Transport} (hs : joinIfs os is s = (e, s')) :
    MStep os s s' ∧ (e ≠ none → s'.mservers = []) ∧
    (e = none → ∃ new, s'.mservers = s.mservers ++ new ∧ (∀ m ∈ new, m.ifi ∈ is ∧ m.conn ≠ none) ∧
      (Stable os → ∀ i ∈ is, ∀ t as, getInterfaceAddresses (os.addrs t i.nif) = .ok as → ∀ a ∈ as,
        ∃ m ∈ new, m.addr = a ∧ m.ifi = i ∧ m.conn ≠ none)) := by
  induction is generalizing s with
  | nil =>
    cases hs
    exact ⟨MStep.refl h, fun h => absurd rfl h, fun _ => ⟨[], by simp, fun m hm => (by cases hm), fun _ i hi => (by cases hi)⟩⟩
  | cons i is ih =>
    have ht := world_mstep os h (tick_ext h.wwf 1) rfl
    unfold joinIfs at hs
    cases hg : getInterfaceAddresses (os.addrs s.world.clock i.nif) with
    | ok as =>
      rw [hg] at hs
      dsimp only at hs
      rcases hm : joinAddrs os i as { s with world := s.world.tick } with ⟨_ | e1, s1⟩
      · rw [hm] at hs
        obtain ⟨a1, -, a3⟩ := joinAddrs_spec os i as ht.good hm
        obtain ⟨n1, c1, c2, c3⟩ := a3 rfl
        obtain ⟨b1, b2, b3⟩ := ih a1.good hs
        refine ⟨(ht.trans a1).trans b1, b2, fun he => ?_⟩
        obtain ⟨n2, d1, d2, d3⟩ := b3 he
        refine ⟨n1 ++ n2, by rw [d1, c1, List.append_assoc], fun m hm => ?_, fun hst j hj t bs hb a ha => ?_⟩
        · rcases List.mem_append.mp hm with hm | hm
          · obtain ⟨x1, x2⟩ := c3 m hm
            exact ⟨by rw [x1]; exact List.mem_cons_self .., x2⟩
          · obtain ⟨x1, x2⟩ := d2 m hm
            exact ⟨List.mem_cons_of_mem _ x1, x2⟩
        · rcases List.mem_cons.mp hj with rfl | hj
          · rw [hst t s.world.clock, hg] at hb
            cases hb
            rw [← c2] at ha
            obtain ⟨m, hm, rfl⟩ := List.mem_map.mp ha
            exact ⟨m, List.mem_append_left _ hm, rfl, c3 m hm⟩
          · obtain ⟨m, hm, y⟩ := d3 hst j hj t bs hb a ha
            exact ⟨m, List.mem_append_right _ hm, y⟩
      · rw [hm] at hs
        cases hs
        obtain ⟨a1, a2, -⟩ := joinAddrs_spec os i as ht.good hm
        exact ⟨ht.trans a1, fun _ => a2 (by simp), fun h => (by cases h)⟩
    | err e1 =>
      rw [hg] at hs
      obtain ⟨b1, b2, b3⟩ := ih (s := { s with world := s.world.tick }) ht.good hs
      refine ⟨ht.trans b1, b2, fun he => ?_⟩
      obtain ⟨n2, d1, d2, d3⟩ := b3 he
      refine ⟨n2, d1, fun m hm => ⟨List.mem_cons_of_mem _ (d2 m hm).1, (d2 m hm).2⟩, fun hst j hj t bs hb a ha => ?_⟩
      rcases List.mem_cons.mp hj with rfl | hj
      · rw [hst t s.world.clock, hg] at hb
        cases hb
      · exact d3 hst j hj t bs hb a ha
    | panic =>
      rw [hg] at hs
      obtain ⟨b1, b2, b3⟩ := ih (s := { s with world := s.world.tick }) ht.good hs
      refine ⟨ht.trans b1, b2, fun he => ?_⟩
      obtain ⟨n2, d1, d2, d3⟩ := b3 he
      refine ⟨n2, d1, fun m hm => ⟨List.mem_cons_of_mem _ (d2 m hm).1, (d2 m hm).2⟩, fun hst j hj t bs hb a ha => ?_⟩
      rcases List.mem_cons.mp hj with rfl | hj
      · rw [hst t s.world.clock, hg] at hb
        cases hb
      · exact d3 hst j hj t bs hb a ha

theorem startMulticast_spec (os : Os) {s : Transport} (h : Good s)
    {e : Option Err} {s' : Transport} (hs : s.startMulticast os = (e, s')) :
    MStep os s s' ∧ (e ≠ none → s'.mservers = []) ∧
    (e = none → ∃ t ifis, s.world.clock ≤ t ∧ getAvailableInterfaces os.toIfOs t = .ok ifis ∧
      (∀ m ∈ s'.mservers, m.ifi ∈ ifis ∧ m.conn ≠ none) ∧
      (Stable os → ∀ i ∈ ifis, ∀ t as, getInterfaceAddresses (os.addrs t i.nif) = .ok as → ∀ a ∈ as,
        ∃ m ∈ s'.mservers, m.addr = a ∧ m.ifi = i ∧ m.conn ≠ none)) := by
  have h0 := stopMulticast_mstep os h
  have hm0 := (stopMulticast_spec os h).2.1
  unfold Transport.startMulticast at hs
  rcases hst : s.stopMulticast os with ⟨_ | e0, s0⟩
  · rw [hst] at hs h0 hm0
    have ha := afterInterfaces_ext os h0.good.wwf
    have hw := world_mstep os h0.good ha.1 ha.2.2
    dsimp only at hs
    cases hg : getAvailableInterfaces os.toIfOs s0.world.clock with
    | ok ifis =>
      rw [hg] at hs
      obtain ⟨b1, b2, b3⟩ := joinIfs_spec os ifis (s := { s0 with world := afterInterfaces os s0.world }) hw.good hs
      refine ⟨(h0.trans hw).trans b1, b2, fun he => ?_⟩
      obtain ⟨new, d1, d2, d3⟩ := b3 he
      have e : s'.mservers = new := by
        rw [d1]
        show s0.mservers ++ new = new
        rw [show s0.mservers = [] from hm0]
        rfl
      rw [e]
      exact ⟨_, ifis, h0.clock, hg, d2, d3⟩
    | err e1 =>
      rw [hg] at hs
      cases hs
      exact ⟨h0.trans hw, fun _ => hm0, fun h => (by cases h)⟩
    | panic => exact absurd hg (Props.C64_selected os.toIfOs _).2.2
  · rw [hst] at hs h0 hm0
    cases hs
    exact ⟨h0, fun _ => hm0, fun h => (by cases h)⟩

theorem setUnicastManager_spec (os : Os) {s : Transport} (h : Good s)
    {e : Option Err} {s' : Transport} (hs : s.setUnicastManager os = (e, s')) :
    MStep os s s' ∧
    (e = none → s'.mservers = s.mservers.map (fun m => { m with unicast := appropriateServer s.uservers m.ifi })) ∧
    (e ≠ none → s.uservers = []) ∧ s'.world.clock ≥ s.world.clock := by
  unfold Transport.setUnicastManager at hs
  split at hs
  · next hm =>
    cases hs
    exact ⟨MStep.refl h, fun _ => by rw [hm]; rfl, fun h => absurd rfl h, Nat.le_refl _⟩
  · next hm hu =>
    cases hs
    exact ⟨stopMulticast_mstep os h, fun h => (by cases h), fun _ => hu, (stopMulticast_mstep os h).clock⟩
  · cases hs
    refine ⟨⟨⟨h.wwf, h.us, fun m hm c hc => ?_, ?_⟩, Nat.le_refl _, rfl, rfl, rfl, fun _ ht x hx => ?_, fun _ h => .inl h⟩, fun _ => rfl,
      fun h => absurd rfl h, Nat.le_refl _⟩
    · obtain ⟨m0, hm0, rfl⟩ := List.mem_map.mp hm
      exact h.ms m0 hm0 c hc
    · exact List.pairwise_map.mpr h.sep
    · rcases ht x hx with hu | ⟨m, hm, e⟩
      · exact .inl hu
      · exact .inr ⟨_, List.mem_map.mpr ⟨m, hm, rfl⟩, e⟩

/-- `UnicastManager.Start`. -/
theorem startUnicast_spec (os : Os) {s : Transport} (h : Good s) :
    ∃ e s', s.startUnicast os = .ok (e, s') ∧ Good s' ∧ s'.mservers = s.mservers ∧ s'.config = s.config ∧
      s.world.clock ≤ s'.world.clock ∧
      (∀ u ∈ s'.uservers, s.port ≤ u.port ∧ u.port ≤ endPort s ∧
        u.tcpEnabled = s.config.unicast.tcpEnabled ∧ ∀ x ∈ socks u, s.world.clock ≤ x.id) ∧
      (∃ t ifis, (s'.uservers ≠ [] → t < s'.world.clock ∧ getAvailableInterfaces os.toIfOs t = .ok ifis) ∧
        ∀ u ∈ s'.uservers, ∃ i ∈ ifis, u.ifi = some i) ∧
      ((s.config.unicast.tcpEnabled = true → ∀ t a p, os.tcp t a p = .ok) → Tight s → Tight s') ∧
      (e ≠ none → s'.port = s.port) ∧
      (∀ x ∈ s'.world.opened, x ∈ s.world.opened ∨ s.world.clock ≤ x.id) ∧
      (e = none → s.port ≤ s'.port ∧ s'.port ≤ endPort s ∧
        (s'.uservers = [] ∨ ∃ u, s'.uservers.getLast? = some u ∧ u.port = s'.port)) := by
  obtain ⟨e, s', hst, e0, s0, hs0, hc⟩ := startUnicast_cases os h
  obtain ⟨e1, s1, k1, k2, k3, k4, k5, k6, k7, k8⟩ := stopUnicast_spec os h
  rw [k1] at hs0
  obtain ⟨rfl, rfl⟩ : e0 = e1 ∧ s0 = s1 := by
    rw [Res.ok.injEq, Prod.mk.injEq] at hs0
    exact ⟨hs0.1.symm, hs0.2.symm⟩
  have htight : Tight s → Tight s0 := by
    intro ht x hx
    obtain ⟨a, b⟩ := (k8 x).mp hx
    rcases ht x a with ⟨u, hu, hx⟩ | hx
    · exact absurd hx (by rw [not_or]; exact b u hu)
    · right; rw [k4]; exact hx
  have ha := afterInterfaces_ext os k2.wwf
  refine ⟨e, s', hst, ?_⟩
  have hclk : s0.world.clock ≤ (afterInterfaces os s0.world).clock := Nat.le_of_lt ha.2.1
  rcases hc with ⟨h0, rfl, rfl⟩ | ⟨h0, hno, he, rfl⟩ | ⟨h0, ifis, r, hg, -, hb⟩
  · refine ⟨k2, k4, k5, k7, fun u hu => ?_, ?_, fun _ ht => htight ht, fun _ => k6, fun x hx => .inl ((k8 x).mp hx).1, fun h => absurd h h0⟩
    · rw [k3] at hu; cases hu
    · exact ⟨0, [], fun h => absurd k3 h, fun u hu => (by rw [k3] at hu; cases hu)⟩
  · refine ⟨k2.ext ha.1, k4, k5, Nat.le_trans k7 hclk, fun u hu => ?_, ?_, fun _ ht => tight_world (htight ht) ha.2.2, fun _ => k6, fun x hx => ?_, fun h => absurd h he⟩
    · have hu : u ∈ s0.uservers := hu
      rw [k3] at hu; cases hu
    · refine ⟨s0.world.clock, [], fun h => absurd k3 h, fun u hu => ?_⟩
      have hu : u ∈ s0.uservers := hu
      rw [k3] at hu; cases hu
    · have hx : x ∈ (afterInterfaces os s0.world).opened := hx
      rw [ha.2.2] at hx
      exact .inl ((k8 x).mp hx).1
  · have hG : Good { s0 with world := afterInterfaces os s0.world } := k2.ext ha.1
    have L := bindPorts_loop (step_loops os ifis (fun q => s.port ≤ q ∧ q ≤ endPort s)) r
      (if s.config.autoPortBindingEnabled then udpPortRange else 0) s.port
      (fun q h1 h2 => ⟨h1, h2⟩) none { s0 with world := afterInterfaces os s0.world } hG
    rw [← hb] at L
    obtain ⟨new, n1, n2⟩ := L.us
    have n1 : s'.uservers = new := by
      rw [n1]
      show s0.uservers ++ new = new
      rw [k3]; rfl
    have hck : s.world.clock ≤ (afterInterfaces os s0.world).clock := Nat.le_trans k7 hclk
    refine ⟨L.good, L.ms.trans k4, L.config.trans k5, Nat.le_trans hck L.ext.clock, fun u hu => ?_, ?_, fun hok ht => ?_, fun he => ?_, fun x hx => ?_, fun he => ?_⟩
    · rw [n1] at hu
      obtain ⟨⟨p1, p2⟩, p3, -, p5⟩ := n2 u hu
      exact ⟨p1, p2, by rw [p3]; exact congrArg (·.unicast.tcpEnabled) k5, fun x hx => Nat.le_trans hck (p5 x hx)⟩
    · refine ⟨s0.world.clock, ifis, fun _ => ⟨Nat.lt_of_lt_of_le ha.2.1 L.ext.clock, hg⟩, fun u hu => ?_⟩
      rw [n1] at hu
      exact (n2 u hu).2.2.1
    · refine L.tight ?_ (tight_world (htight ht) ha.2.2)
      show s0.config.unicast.tcpEnabled = true → _
      rw [k5]
      exact hok
    · cases e with
      | none => exact absurd rfl he
      | some e => exact (bindPorts_fails _ _ _ hb.symm).trans k6
    · rcases L.ext.new x hx with hx | hx
      · have hx : x ∈ (afterInterfaces os s0.world).opened := hx
        rw [ha.2.2] at hx
        exact .inl ((k8 x).mp hx).1
      · exact .inr (Nat.le_trans hck hx)
    · subst he
      obtain ⟨le0, s3, s2, q, q1, q2, g0, b0, rfl, z0⟩ := bindPorts_none _ _ _ hG hb.symm
      refine ⟨q1, q2, ?_⟩
      rcases bindIfs_none ifis g0 b0 with ⟨rfl, e⟩ | ⟨u, hu, hp⟩
      · left
        show s2.uservers = []
        rw [e, (z0 rfl).2]
        exact k3
      · exact .inr ⟨u, hu, hp⟩

end Verif.Lemmas
