import Verif.Model.Addresses
import Verif.Props.NodeEnds

/-! # C127: the addresses of a controller -/

namespace Verif.Props
open Verif Model Transport Lemmas Spec

/-- The addresses of an interface, if there are any. -/
def addressesOf (os : Os) (i : IfPtr) : List Str :=
  match getInterfaceAddresses (os.addrs 0 i.nif) with
  | .ok as => as
  | _ => []

theorem addressesOf_ok {os : Os} (hst : Stable os) {t : Nat} {i : IfPtr} {as : List Str}
    (h : getInterfaceAddresses (os.addrs t i.nif) = .ok as) : addressesOf os i = as := by
  unfold addressesOf
  rw [hst 0 t, h]

theorem available_addresses {os : Os} (hst : Stable os) (t : Nat) (is : List IfPtr) :
    availableAddressesFrom os.toIfOs t is = is.flatMap (addressesOf os) := by
  induction is generalizing t with
  | nil => rfl
  | cons i is ih =>
    rw [List.flatMap_cons]
    unfold availableAddressesFrom addressesOf
    show (match getInterfaceAddresses (os.addrs t i.nif) with | .ok a => _ | _ => _) = _
    rw [hst 0 t]
    cases getInterfaceAddresses (os.addrs t i.nif) with
    | ok as => dsimp only; rw [ih]; rfl
    | err e => dsimp only; rw [ih]; rfl
    | panic => dsimp only; rw [ih]; rfl

theorem joinIfs_addresses {os : Os} (hst : Stable os) (is : List IfPtr) {s s' : Transport} (h : Good s)
    (hs : joinIfs os is s = (none, s')) :
    s'.mservers.map (·.addr) = s.mservers.map (·.addr) ++ is.flatMap (addressesOf os) := by
  induction is generalizing s with
  | nil => cases hs; simp
  | cons i is ih =>
    unfold joinIfs at hs
    have ht := world_mstep os h (w := s.world.tick) (tick_ext h.wwf 1) rfl
    rw [List.flatMap_cons]
    cases hg : getInterfaceAddresses (os.addrs s.world.clock i.nif) with
    | ok as =>
      rw [hg] at hs
      dsimp only at hs
      rcases hj : joinAddrs os i as { s with world := s.world.tick } with ⟨_ | e, s1⟩
      · rw [hj] at hs
        obtain ⟨b1, -, b3⟩ := joinAddrs_spec os i as ht.good hj
        obtain ⟨new, d1, d2, -⟩ := b3 rfl
        rw [ih b1.good hs, d1, List.map_append, d2, addressesOf_ok hst hg, List.append_assoc]
      · rw [hj] at hs; cases hs
    | err e =>
      rw [hg] at hs
      have : addressesOf os i = [] := by unfold addressesOf; rw [hst 0 s.world.clock, hg]
      rw [ih ht.good hs, this]
      rfl
    | panic =>
      rw [hg] at hs
      have : addressesOf os i = [] := by unfold addressesOf; rw [hst 0 s.world.clock, hg]
      rw [ih ht.good hs, this]
      rfl

theorem startMulticast_addresses {os : Os} (hst : Stable os) {s s' : Transport} (h : Good s)
    (hs : s.startMulticast os = (none, s')) :
    ∃ t ifis, getAvailableInterfaces os.toIfOs t = .ok ifis ∧ s'.mservers.map (·.addr) = ifis.flatMap (addressesOf os) := by
  have h0 := stopMulticast_mstep os h
  have hm0 := (stopMulticast_spec os h).2.1
  unfold Transport.startMulticast at hs
  rcases hst' : s.stopMulticast os with ⟨_ | e0, s0⟩
  · rw [hst'] at hs h0 hm0
    have ha := afterInterfaces_ext os h0.good.wwf
    have hw := world_mstep os h0.good ha.1 ha.2.2
    dsimp only at hs
    cases hg : getAvailableInterfaces os.toIfOs s0.world.clock with
    | ok ifis =>
      rw [hg] at hs
      refine ⟨_, ifis, hg, ?_⟩
      rw [joinIfs_addresses hst ifis hw.good hs]
      show s0.mservers.map _ ++ _ = _
      rw [show s0.mservers = [] from hm0]
      rfl
    | err e1 => rw [hg] at hs; cases hs
    | panic => exact absurd hg (Props.C64_selected os.toIfOs _).2.2
  · rw [hst'] at hs; cases hs

/-- The addresses after a successful start. -/
theorem start_addresses {os : Os} (hst : Stable os) {s s' : Transport} (h : Good s) (hs : s.start os = .ok (none, s')) :
    ∃ t ifis, getAvailableInterfaces os.toIfOs t = .ok ifis ∧ s'.addresses = ifis.flatMap (addressesOf os) := by
  obtain ⟨e0, s0, k1, k2, -⟩ := stop_spec os h
  unfold Transport.start at hs
  rw [k1] at hs
  simp only [Res.ok_bind] at hs
  cases e0 with
  | some e0 => cases hs
  | none =>
    obtain ⟨e1, s1, a1, a2, -⟩ := startUnicast_spec os k2
    dsimp only at hs
    rw [a1] at hs
    simp only [Res.ok_bind] at hs
    cases e1 with
    | some e1 => cases hs
    | none =>
      dsimp only at hs
      rcases hm : s1.startMulticast os with ⟨_ | e2, s2⟩
      · rw [hm] at hs
        obtain ⟨b1, -⟩ := startMulticast_spec os a2 hm
        obtain ⟨t, ifis, j1, j2⟩ := startMulticast_addresses hst a2 hm
        dsimp only at hs
        rcases hu : s2.setUnicastManager os with ⟨_ | e3, s3⟩
        · rw [hu] at hs
          obtain ⟨-, c2, -⟩ := setUnicastManager_spec os b1.good hu
          cases hs
          refine ⟨t, ifis, j1, ?_⟩
          rw [← j2]
          show s'.mservers.map (·.addr) = _
          rw [c2 rfl, List.map_map]
          rfl
        · rw [hu] at hs
          obtain ⟨c1, -⟩ := setUnicastManager_spec os b1.good hu
          obtain ⟨e4, s4, z1, -⟩ := stop_spec os c1.good
          dsimp only at hs
          rw [z1] at hs
          cases hs
      · rw [hm] at hs
        obtain ⟨b1, -⟩ := startMulticast_spec os a2 hm
        obtain ⟨e4, s4, z1, -⟩ := stop_spec os b1.good
        dsimp only at hs
        rw [z1] at hs
        cases hs

/-! ## C127 -/

/-- **C127**: after a successful start `Addresses` lists the addresses of all available interfaces, in the order of
the interfaces, if they do not change during the start. There is at least one. -/
theorem C127_lists (os : Os) (hst : Stable os) (s s' : Transport) (h : Reachable os s)
    (hs : s.start os = .ok (none, s')) :
    ∃ t ifis, getAvailableInterfaces os.toIfOs t = .ok ifis ∧ s'.addresses ≠ [] ∧
      ∀ t', s'.addresses = availableAddressesFrom os.toIfOs t' ifis := by
  obtain ⟨t, ifis, h1, h2⟩ := start_addresses hst (reachable_good h) hs
  refine ⟨t, ifis, h1, ?_, fun t' => by rw [available_addresses hst, h2]⟩
  have hr := (C58_running os hst s s' h hs).1
  intro he
  unfold Transport.addresses at he
  unfold Transport.isRunning at hr
  rw [List.map_eq_nil_iff.mp he] at hr
  simp at hr

/-- **C127**: right after a successful start, each address listed has an open socket that receives the messages sent
to the multicast address. -/
theorem C127_open_partial (os : Os) (s s' : Transport) (h : Reachable os s) (hs : s.start os = .ok (none, s')) :
    ∀ a ∈ s'.addresses, ∃ m ∈ s'.mservers, m.addr = a ∧ ∃ x ∈ s'.world.opened, m.conn = some x := by
  intro a ha
  obtain ⟨m, hm, rfl⟩ := List.mem_map.mp ha
  obtain ⟨e, s2, b1, b2, -, -, -, -, -, -, b9⟩ := start_spec os (reachable_good h)
  rw [hs] at b1
  cases b1
  obtain ⟨-, -, -, t1, t2, i1, i2, -, -, -, f4, -⟩ := b9 rfl
  obtain ⟨-, hc, -⟩ := f4 m hm
  cases hx : m.conn with
  | none => exact absurd hx hc
  | some x => exact ⟨m, hm, rfl, x, (b2.ms m hm x hx).1, hx⟩

/-- **C127**: after `Stop` and after a start that failed, no address is listed. -/
theorem C127_none (os : Os) (s : Transport) (h : Reachable os s) :
    (∃ e s', s.stop os = .ok (e, s') ∧ s'.addresses = []) ∧
    ∀ e s', s.start os = .ok (some e, s') → s'.addresses = [] := by
  constructor
  · obtain ⟨e, s', k1, -, -, k4, -⟩ := stop_spec os (reachable_good h)
    exact ⟨e, s', k1, by unfold Transport.addresses; rw [k4]; rfl⟩
  · intro e s' hs
    obtain ⟨e, s2, b1, -, -, -, -, -, b7, -⟩ := start_spec os (reachable_good h)
    rw [hs] at b1
    cases b1
    unfold Transport.addresses
    rw [b7 (by simp)]
    rfl

theorem bindAddrs_from {os : Os} (ifi : IfPtr) (p : Nat) (Q : Option IfPtr → Str → Prop) (as : List Str)
    (hq : ∀ a ∈ as, Q (some ifi) a) (le : Option Err) {s : Transport} (h : Good s) (hs : ∀ u ∈ s.uservers, Q u.ifi u.addr) :
    Good (bindAddrs os ifi p as le s).2 ∧ ∀ u ∈ (bindAddrs os ifi p as le s).2.uservers, Q u.ifi u.addr := by
  induction as generalizing le s with
  | nil => exact ⟨h, hs⟩
  | cons a as ih =>
    unfold bindAddrs
    rcases hu : s.startUnicastAt os ifi a p with ⟨_ | e, s1⟩
    · obtain ⟨g, -, -, -, -, a6, -, -⟩ := startUnicastAt_spec os h ifi a p hu
      obtain ⟨u, b1, b2, b3, -⟩ := a6 rfl
      refine ih (fun b hb => hq b (List.mem_cons_of_mem _ hb)) none g (fun v hv => ?_)
      rw [b1] at hv
      rcases List.mem_append.mp hv with hv | hv
      · exact hs v hv
      · rw [List.mem_singleton.mp hv, b2, b3]; exact hq a (List.mem_cons_self ..)
    · obtain ⟨g, -, -, -, -, -, a7, -⟩ := startUnicastAt_spec os h ifi a p hu
      exact ⟨g, fun u hu => hs u (by rw [← a7 (by simp)]; exact hu)⟩

theorem bindIfs_from {os : Os} (hst : Stable os) (p : Nat) (Q : Option IfPtr → Str → Prop) (is : List IfPtr)
    (hq : ∀ i ∈ is, ∀ a ∈ addressesOf os i, Q (some i) a) (le : Option Err) {s : Transport} (h : Good s)
    (hs : ∀ u ∈ s.uservers, Q u.ifi u.addr) :
    Good (bindIfs os p is le s).2 ∧ ∀ u ∈ (bindIfs os p is le s).2.uservers, Q u.ifi u.addr := by
  induction is generalizing le s with
  | nil => exact ⟨h, hs⟩
  | cons i is ih =>
    have ih := fun le s => ih (fun j hj => hq j (List.mem_cons_of_mem _ hj)) le (s := s)
    have ht : Good { s with world := s.world.tick } := (world_mstep os h (w := s.world.tick) (tick_ext h.wwf 1) rfl).good
    unfold bindIfs
    cases hg : getInterfaceAddresses (os.addrs s.world.clock i.nif) with
    | ok as =>
      have hi := hq i (List.mem_cons_self ..)
      rw [addressesOf_ok hst hg] at hi
      obtain ⟨g1, g2⟩ := bindAddrs_from i p Q as hi le ht hs
      exact ih _ _ g1 g2
    | err e => exact ih _ _ ht hs
    | panic => exact ih _ _ ht hs

theorem bindRetry_from {os : Os} (hst : Stable os) (p : Nat) (Q : Option IfPtr → Str → Prop) (is : List IfPtr)
    (hq : ∀ i ∈ is, ∀ a ∈ addressesOf os i, Q (some i) a) (n : Nat) (le : Option Err) {s : Transport} (h : Good s)
    (hs : ∀ u ∈ s.uservers, Q u.ifi u.addr) :
    Good (bindRetry os p is n le s).2 ∧ ∀ u ∈ (bindRetry os p is n le s).2.uservers, Q u.ifi u.addr := by
  induction n generalizing le s with
  | zero => exact bindIfs_from hst p Q is hq le h hs
  | succ n ih =>
    have h1 := bindIfs_from hst p Q is hq le h hs
    unfold bindRetry
    revert h1
    rcases bindIfs os p is le s with ⟨_ | e, s1⟩ <;> intro h1
    · exact h1
    · exact ih (some e) h1.1 h1.2

theorem bindPorts_from {os : Os} (hst : Stable os) (Q : Option IfPtr → Str → Prop) (is : List IfPtr)
    (hq : ∀ i ∈ is, ∀ a ∈ addressesOf os i, Q (some i) a) (r n p : Nat) (le : Option Err) {s : Transport} (h : Good s)
    (hs : ∀ u ∈ s.uservers, Q u.ifi u.addr) :
    ∀ u ∈ (bindPorts os is r n p le s).2.uservers, Q u.ifi u.addr := by
  induction n generalizing p le s with
  | zero =>
    have h1 := bindRetry_from hst p Q is hq r le h hs
    unfold bindPorts
    revert h1
    rcases bindRetry os p is r le s with ⟨_ | e, s1⟩ <;> intro h1
    · exact h1.2
    · exact h1.2
  | succ n ih =>
    have h1 := bindRetry_from hst p Q is hq r le h hs
    unfold bindPorts
    revert h1
    rcases bindRetry os p is r le s with ⟨_ | e, s1⟩ <;> intro h1
    · exact h1.2
    · exact ih (p + 1) (some e) h1.1 h1.2

/-- **C127**: every address a unicast socket of the node is bound to is listed, if the interfaces and their addresses
do not change during the start. -/
theorem C127_covers (os : Os) (hst : Stable os) (hif : ∀ t t', os.interfaces t = os.interfaces t') (s s' : Transport)
    (h : Reachable os s) (hs : s.start os = .ok (none, s')) :
    ∀ u ∈ s'.uservers, u.addr ∈ s'.addresses := by
  have hg := reachable_good h
  obtain ⟨t, ifis, h1, h2⟩ := start_addresses hst hg hs
  obtain ⟨s0, s1, g0, -, -, -, -, hu, e1, -⟩ := (start_unicast os hg hs).1 rfl
  obtain ⟨e, sx, hst', e0, sy, hs0, hc⟩ := startUnicast_cases os g0
  rw [hu] at hst'
  cases hst'
  obtain ⟨e1', s1', k1, k2, k3, -⟩ := stopUnicast_spec os g0
  rw [k1] at hs0
  cases hs0
  have hnif : ∀ t t' is js, getAvailableInterfaces os.toIfOs t = .ok is → getAvailableInterfaces os.toIfOs t' = .ok js →
      is.map (·.nif) = js.map (·.nif) := by
    intro t t' is js hi hj
    unfold getAvailableInterfaces at hi hj
    have e : os.toIfOs.interfaces t = os.toIfOs.interfaces t' := hif t t'
    rw [e] at hi
    have key : ∀ (l : List NetIf) (a b a' b' c c' : Nat),
        (availableFrom os.toIfOs c a b l).map (·.nif) = (availableFrom os.toIfOs c' a' b' l).map (·.nif) := by
      intro l
      induction l with
      | nil => intros; rfl
      | cons x l ih =>
        intro a b a' b' c c'
        unfold availableFrom
        have hx : useInterface os.toIfOs a x = useInterface os.toIfOs a' x := by
          unfold useInterface
          rw [show os.toIfOs.addrs a x = os.toIfOs.addrs a' x from hst a a' x]
        rw [hx]
        split
        · rw [List.map_cons, List.map_cons, ih (a + 1) (b + 1) (a' + 1) (b' + 1) c c']
        · exact ih _ _ _ _ _ _
    split at hi
    · cases hi
    · next l hl =>
      rw [hl] at hj
      dsimp only at hi hj
      split at hi
      · cases hi
      · split at hj
        · cases hj
        · cases hi
          cases hj
          exact key _ _ _ _ _ _ _
  rcases hc with ⟨h0, he, -⟩ | ⟨-, -, he, -⟩ | ⟨-, js, r, hgj, -, hb⟩
  · exact absurd he.symm h0
  · exact absurd rfl he
  · have ha := afterInterfaces_ext os k2.wwf
    have key := bindPorts_from hst (fun o a => ∃ i ∈ js, o = some i ∧ a ∈ addressesOf os i) js
      (fun i hi a ha => ⟨i, hi, rfl, ha⟩) r (if s0.config.autoPortBindingEnabled then udpPortRange else 0) s0.port none
      (k2.ext ha.1) (fun u hu => by
        have : u ∈ sy.uservers := hu
        rw [k3] at this
        exact absurd this List.not_mem_nil)
    rw [← hb] at key
    intro u hu
    rw [e1] at hu
    obtain ⟨i, hi, -, ha⟩ := key u hu
    rw [h2, List.mem_flatMap]
    have hm : i.nif ∈ ifis.map (·.nif) := by
      rw [hnif _ _ _ _ h1 hgj]
      exact List.mem_map.mpr ⟨i, hi, rfl⟩
    obtain ⟨j, hj, e⟩ := List.mem_map.mp hm
    refine ⟨j, hj, ?_⟩
    unfold addressesOf at ha ⊢
    rw [e]
    exact ha

/-- C127 is false: with an address that can not be bound, the address is listed although no unicast socket is bound
to it. -/
theorem C127_refuted :
    ∃ s', (Transport.new 0).start (twoIfs (fun _ a _ => if a = addr0 then .refused else .ok) (fun _ _ _ => .ok))
        = .ok (none, s') ∧
      s'.addresses = [addr0, addr1] ∧ s'.uservers.map (·.addr) = [addr1] := by
  exact ⟨_, rfl, by decide +kernel, by decide +kernel⟩

/-- C127 is false, in general: an address stays listed when the socket that receives the messages for it has been
closed. -/
theorem C127_refuted_ended (os : Os) (s : Transport) (i : Nat) :
    (s.mcastEnds os i).addresses = s.addresses ∧ ∀ m, (s.mcastEnds os i).mservers[i]? = some m → m.conn = none := by
  unfold Transport.mcastEnds Transport.addresses
  cases hm : s.mservers[i]? with
  | none =>
    dsimp only
    exact ⟨rfl, fun m h => by rw [hm] at h; cases h⟩
  | some m =>
    have hc : (udpClose os s.world m.conn).2.1 = none := by
      unfold udpClose
      split <;> rfl
    rcases hu : udpClose os s.world m.conn with ⟨e, c, w⟩
    rw [hu] at hc
    have hc : c = none := hc
    subst hc
    simp only [hu]
    have hlt := (List.getElem?_eq_some_iff.mp hm).1
    constructor
    · rw [List.map_set]
      apply List.ext_getElem?
      intro j
      rw [List.getElem?_set]
      split
      · next e =>
        subst e
        rw [List.length_map, if_pos hlt, List.getElem?_map, hm]
        rfl
      · rfl
    · intro m' h
      rw [List.getElem?_set_self hlt] at h
      cases h
      rfl

example : ∃ s', (Transport.new 0).start (twoIfs (fun _ _ _ => .ok) (fun _ _ _ => .ok)) = .ok (none, s') ∧
    s'.addresses = [addr0, addr1] ∧ Stable (twoIfs (fun _ _ _ => .ok) (fun _ _ _ => .ok)) ∧
    ∃ m, (s'.mcastEnds (twoIfs (fun _ _ _ => .ok) (fun _ _ _ => .ok)) 0).mservers[0]? = some m := by
  exact ⟨_, rfl, by decide +kernel, fun _ _ _ => rfl, _, rfl⟩

/-- **C64**: the socket for an IPv4 address of an interface joins the IPv4 group of ECHONET Lite, the one for an IPv6
address the IPv6 group; without an address no socket is opened. -/
theorem C64_group (os : Os) (w : World) (ifi : IfPtr) (a : Str) (x : Sock)
    (hx : (mcastBind os w ifi a).2.1 = some x) :
    a ≠ [] ∧ x.port = 3610 ∧ x.addr = if ':' ∈ a then "ff02::1".toList else "224.0.23.0".toList := by
  obtain ⟨f4, f6, -, -⟩ := C64_families a
  unfold mcastBind at hx
  split at hx
  · next h =>
    have hne : a ≠ [] := by
      rw [Bool.or_eq_true, f4, f6] at h
      rcases h with h | h
      · exact h.1
      · intro e; rw [e] at h; exact absurd h List.not_mem_nil
    have hm : (if isIPv4Address a = true then multicastIPv4Address else multicastIPv6Address)
        = if ':' ∈ a then "ff02::1".toList else "224.0.23.0".toList := by
      by_cases h2 : ':' ∈ a
      · rw [if_neg (fun h => (f4.mp h).2 h2), if_pos h2]; rfl
      · rw [if_pos (f4.mpr ⟨hne, h2⟩), if_neg h2]; rfl
    rw [hm] at hx
    refine ⟨hne, ?_⟩
    generalize (if ':' ∈ a then "ff02::1".toList else "224.0.23.0".toList) = g at hx ⊢
    dsimp only at hx
    cases hb : os.mcast w.clock ifi.nif <;> rw [hb] at hx <;> first | (cases hx; exact ⟨rfl, rfl⟩) | cases hx
  · cases hx

example : ∃ x, (mcastBind (twoIfs (fun _ _ _ => .ok) (fun _ _ _ => .ok)) ⟨0, []⟩ ⟨0, 0, eth0⟩ addr0).2.1 = some x :=
  ⟨_, rfl⟩

end Verif.Props
