import Verif.Props.Addresses

/-!
# C131: multicast is heard on the ECHONET Lite port

`doc/extensions.md`: "The automatic function binds to the specified port, 3610, for UDP multicast", whatever port is used
for unicast messages.
-/

namespace Verif.Props
open Verif Model Transport Lemmas

/-- The group of ECHONET Lite for an address of an interface (ECHONET Lite specification, part 2, section 1.2). -/
def groupFor (a : Str) : Str := if ':' ∈ a then "ff02::1".toList else "224.0.23.0".toList

/-- Each multicast socket is bound to port 3610 and the group that fits its address. -/
def Joined (s : Transport) : Prop :=
  ∀ m ∈ s.mservers, ∀ c, m.conn = some c → c.port = 3610 ∧ c.addr = groupFor m.addr

theorem Joined.of_nil {s : Transport} (h : s.mservers = []) : Joined s :=
  fun m hm => absurd hm (by rw [h]; exact List.not_mem_nil)

theorem startMulticastAt_joined (os : Os) {s : Transport} (h : Joined s) (ifi : IfPtr) (a : Str) :
    Joined (s.startMulticastAt os ifi a).2 := by
  unfold Transport.startMulticastAt
  have hg := C64_group os s.world ifi a
  rcases hb : mcastBind os s.world ifi a with ⟨_ | e, c, w⟩
  · rw [hb] at hg
    intro m hm x hx
    rcases List.mem_append.mp hm with h1 | h1
    · exact h m h1 x hx
    · rw [List.mem_singleton.mp h1] at hx ⊢
      obtain ⟨-, g1, g2⟩ := hg x hx
      exact ⟨g1, g2⟩
  · exact h

theorem joinAddrs_joined (os : Os) (ifi : IfPtr) : ∀ (as : List Str) {s : Transport}, Joined s →
    Joined (joinAddrs os ifi as s).2
  | [], _, h => h
  | a :: as, s, h => by
    unfold joinAddrs
    have h1 := startMulticastAt_joined os h ifi a
    rcases hs : s.startMulticastAt os ifi a with ⟨_ | e, s1⟩
    · rw [hs] at h1
      exact joinAddrs_joined os ifi as h1
    · exact Joined.of_nil rfl

theorem joinIfs_joined (os : Os) : ∀ (is : List IfPtr) {s : Transport}, Joined s → Joined (joinIfs os is s).2
  | [], _, h => h
  | i :: is, s, h => by
    unfold joinIfs
    have ht : Joined { s with world := s.world.tick } := h
    cases hg : getInterfaceAddresses (os.addrs s.world.clock i.nif) with
    | ok as =>
      dsimp only
      have h1 := joinAddrs_joined os i as ht
      rcases hs : joinAddrs os i as { s with world := s.world.tick } with ⟨_ | e, s1⟩
      · rw [hs] at h1
        exact joinIfs_joined os is h1
      · rw [hs] at h1
        exact h1
    | err _ => exact joinIfs_joined os is ht
    | panic => exact joinIfs_joined os is ht

theorem startMulticast_joined (os : Os) (s : Transport) : Joined (s.startMulticast os).2 := by
  unfold Transport.startMulticast
  have h0 : Joined (s.stopMulticast os).2 := Joined.of_nil rfl
  rcases hs : s.stopMulticast os with ⟨_ | e, s0⟩
  · rw [hs] at h0
    dsimp only
    cases getAvailableInterfaces os.toIfOs s0.world.clock with
    | ok ifis => exact joinIfs_joined os ifis (s := { s0 with world := afterInterfaces os s0.world }) h0
    | err _ => exact h0
    | panic => exact h0
  · rw [hs] at h0
    exact h0

theorem setUnicastManager_joined (os : Os) {s : Transport} (h : Joined s) : Joined (s.setUnicastManager os).2 := by
  unfold Transport.setUnicastManager
  split
  · exact h
  · exact Joined.of_nil rfl
  · intro m hm x hx
    obtain ⟨m0, hm0, rfl⟩ := List.mem_map.mp hm
    exact h m0 hm0 x hx

theorem start_joined (os : Os) {s : Transport} (h : Good s) {e : Option Err} {s' : Transport}
    (hs : s.start os = .ok (e, s')) : Joined s' := by
  cases e with
  | some e =>
    obtain ⟨e1, s1, a1, -, -, -, -, -, a7, -⟩ := start_spec os h
    rw [hs] at a1
    cases a1
    exact Joined.of_nil (a7 (by simp))
  | none =>
    obtain ⟨e0, s0, k1, k2, -⟩ := stop_spec os h
    unfold Transport.start at hs
    rw [k1] at hs
    simp only [Res.ok_bind] at hs
    cases e0 with
    | some e0 => cases hs
    | none =>
      obtain ⟨e1, s1, a1, a2, -⟩ := startUnicast_spec os k2
      dsimp only at hs
      rw [a1] at hs
      simp only [Res.ok_bind] at hs
      cases e1 with
      | some e1 => cases hs
      | none =>
        dsimp only at hs
        have hj := startMulticast_joined os s1
        rcases hm : s1.startMulticast os with ⟨_ | e2, s2⟩
        · rw [hm] at hs hj
          dsimp only at hs
          have hj2 := setUnicastManager_joined os hj
          rcases hu : s2.setUnicastManager os with ⟨_ | e3, s3⟩
          · rw [hu] at hs hj2
            cases hs
            exact hj2
          · rw [hu] at hs
            dsimp only at hs
            obtain ⟨⟨e4, s4⟩, -, h4⟩ := Res.bind_eq_ok.mp hs
            cases h4
        · rw [hm] at hs
          dsimp only at hs
          obtain ⟨⟨e4, s4⟩, -, h4⟩ := Res.bind_eq_ok.mp hs
          cases h4

/-- **C131**: in every history, whatever ports are configured or taken, each multicast socket in use is open, bound to
UDP port 3610 and a member of the group of ECHONET Lite that fits the address of its interface. -/
theorem C131_port (os : Os) (s : Transport) (h : Reachable os s) :
    ∀ m ∈ s.mservers, ∀ c, m.conn = some c →
      c ∈ s.world.opened ∧ c.proto = .mcast ∧ c.port = 3610 ∧ c.addr = groupFor m.addr := by
  have hj : Joined s := by
    obtain ⟨t, ops, hr⟩ := h
    have key : ∀ (ops : List Op) (s0 : Transport), Good s0 → Joined s0 → run os s0 ops = .ok s → Joined s := by
      intro ops
      induction ops with
      | nil => intro s0 _ hj hr; cases hr; exact hj
      | cons op ops ih =>
        intro s0 hg hj hr
        obtain ⟨s1, h1, h2⟩ := Res.bind_eq_ok.mp hr
        cases op with
        | start =>
          obtain ⟨⟨e, s2⟩, k1, k2⟩ := Res.bind_eq_ok.mp h1
          cases k2
          obtain ⟨e', s', a1, a2, -⟩ := start_spec os hg
          rw [k1] at a1
          cases a1
          exact ih _ a2 (start_joined os hg k1) h2
        | stop =>
          obtain ⟨⟨e, s2⟩, k1, k2⟩ := Res.bind_eq_ok.mp h1
          cases k2
          obtain ⟨e', s', a1, a2, -, a4, -⟩ := stop_spec os hg
          rw [k1] at a1
          cases a1
          exact ih _ a2 (Joined.of_nil a4) h2
        | setPort p =>
          cases h1
          exact ih (s0.setPort p) ⟨hg.wwf, hg.us, hg.ms, hg.sep⟩ hj h2
        | setConfig c =>
          cases h1
          exact ih (s0.setConfig c) ⟨hg.wwf, hg.us, hg.ms, hg.sep⟩ hj h2
        | mcastEnds i =>
          cases h1
          refine ih _ (mcastEnds_spec os hg i).1 ?_ h2
          unfold Transport.mcastEnds
          cases hi : s0.mservers[i]? with
          | none => exact hj
          | some m =>
            intro m' hm' c hc
            rcases List.mem_or_eq_of_mem_set hm' with h3 | h3
            · exact hj m' h3 c hc
            · rw [h3] at hc
              exact absurd hc (by
                show (udpClose os s0.world m.conn).2.1 ≠ some c
                unfold udpClose
                cases m.conn <;> simp)
    exact key ops _ (new_good t) (Joined.of_nil rfl) hr
  intro m hm c hc
  obtain ⟨h1, h2⟩ := (reachable_good h).ms m hm c hc
  exact ⟨h1, h2, hj m hm c hc⟩

/-- **C131**: after a successful start there is such a socket for each address of each interface in use, whatever port
the node uses for other messages. -/
theorem C131_everywhere (os : Os) (hst : Stable os) (s s' : Transport) (h : Reachable os s)
    (hs : s.start os = .ok (none, s')) :
    ∃ t ifis, getAvailableInterfaces os.toIfOs t = .ok ifis ∧
      ∀ i ∈ ifis, ∀ t' as, getInterfaceAddresses (os.addrs t' i.nif) = .ok as → ∀ a ∈ as,
        ∃ x ∈ s'.world.opened, x.proto = .mcast ∧ x.port = 3610 ∧ x.addr = groupFor a ∧
          ∃ m ∈ s'.mservers, m.ifi = i ∧ m.addr = a ∧ m.conn = some x := by
  have h' : Reachable os s' := by
    obtain ⟨t, ops, hr⟩ := h
    have key : ∀ (ops : List Op) (s0 : Transport), run os s0 ops = .ok s → run os s0 (ops ++ [.start]) = .ok s' := by
      intro ops
      induction ops with
      | nil =>
        intro s0 hr
        cases hr
        exact Res.bind_eq_ok.mpr ⟨s', Res.bind_eq_ok.mpr ⟨_, hs, rfl⟩, rfl⟩
      | cons op ops ih =>
        intro s0 hr
        obtain ⟨s1, h1, h2⟩ := Res.bind_eq_ok.mp hr
        exact Res.bind_eq_ok.mpr ⟨s1, h1, ih s1 h2⟩
    exact ⟨t, _, key ops _ hr⟩
  obtain ⟨e1, s1, a1, -, -, -, -, -, -, -, a9⟩ := start_spec os (reachable_good h)
  rw [hs] at a1
  cases a1
  obtain ⟨-, -, -, t1, t2, ifis1, ifis2, -, f2, -, -, f5⟩ := a9 rfl
  refine ⟨t2, ifis2, f2, fun i hi t' as has a ha => ?_⟩
  obtain ⟨m, hm, ha', hi', hc⟩ := f5 hst i hi t' as has a ha
  obtain ⟨x, hx⟩ := Option.ne_none_iff_exists'.mp hc
  obtain ⟨g1, g2, g3, g4⟩ := C131_port os s' h' m hm x hx
  exact ⟨x, g1, g2, g3, by rw [g4, ha'], m, hm, hi', ha', hx⟩

/-- With port 3610 taken for unicast the node uses 3611, and still hears multicast on 3610. -/
example : portsAfter (oneIf (fun _ _ p => if p = 3610 then .refused else .ok) (fun _ _ _ => .ok))
      [.setConfig autoConfig, .start]
    = some (3611, [(.mcast, multicastIPv4Address, 3610), (.udp, addr0, 3611)]) := by decide +kernel

example : groupFor addr0 = multicastIPv4Address ∧ groupFor "fe80::1".toList = multicastIPv6Address := by decide

end Verif.Props
