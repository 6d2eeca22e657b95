import Verif.Props.Transport

/-! # C58 to C61, C72: what a start binds -/

namespace Verif.Props
open Verif Model Transport Lemmas

/-- The unicast part of a start. -/
theorem start_unicast (os : Os) {s s' : Transport} {e : Option Err} (h : Good s) (hs : s.start os = .ok (e, s')) :
    (e = none → ∃ s0 s1, Good s0 ∧ s0.config = s.config ∧ s0.port = s.port ∧ s0.uservers = [] ∧ s0.mservers = [] ∧
      s0.startUnicast os = .ok (none, s1) ∧ s'.uservers = s1.uservers ∧ s'.port = s1.port) ∧
    (e ≠ none → s'.uservers = [] ∧ s'.mservers = [] ∨ ∃ s0, Good s0 ∧ s0.config = s.config ∧ s0.port = s.port ∧ s0.uservers = [] ∧
      s0.startUnicast os = .ok (e, s')) := by
  obtain ⟨e0, s0, k1, k2, k3, k4, k5, k6, k7, k8⟩ := stop_spec os h
  unfold Transport.start at hs
  rw [k1] at hs
  simp only [Res.ok_bind] at hs
  cases e0 with
  | some e0 =>
    cases hs
    exact ⟨fun h => (by cases h), fun _ => .inl ⟨k3, k4⟩⟩
  | none =>
    obtain ⟨e1, s1, a1, a2, -⟩ := startUnicast_spec os k2
    dsimp only at hs
    rw [a1] at hs
    simp only [Res.ok_bind] at hs
    cases e1 with
    | some e1 =>
      cases hs
      exact ⟨fun h => (by cases h), fun _ => .inr ⟨s0, k2, k5, k6, k3, a1⟩⟩
    | none =>
      dsimp only at hs
      rcases hm : s1.startMulticast os with ⟨_ | e2, s2⟩
      · rw [hm] at hs
        obtain ⟨b1, -⟩ := startMulticast_spec os a2 hm
        dsimp only at hs
        rcases hu : s2.setUnicastManager os with ⟨_ | e3, s3⟩
        · rw [hu] at hs
          obtain ⟨c1, -⟩ := setUnicastManager_spec os b1.good hu
          cases hs
          exact ⟨fun _ => ⟨s0, s1, k2, k5, k6, k3, k4, a1, c1.us.trans b1.us, c1.port.trans b1.port⟩, fun h => absurd rfl h⟩
        · rw [hu] at hs
          obtain ⟨c1, -⟩ := setUnicastManager_spec os b1.good hu
          obtain ⟨e4, s4, z1, z2, z3, z4, -⟩ := stop_spec os c1.good
          dsimp only at hs
          rw [z1] at hs
          cases hs
          exact ⟨fun h => (by cases h), fun _ => .inl ⟨z3, z4⟩⟩
      · rw [hm] at hs
        obtain ⟨b1, -⟩ := startMulticast_spec os a2 hm
        obtain ⟨e4, s4, z1, z2, z3, z4, -⟩ := stop_spec os b1.good
        dsimp only at hs
        rw [z1] at hs
        cases hs
        exact ⟨fun h => (by cases h), fun _ => .inl ⟨z3, z4⟩⟩

theorem bindIfs_append (os : Os) (p : Nat) (is js : List IfPtr) (le : Option Err) (s : Transport) :
    bindIfs os p (is ++ js) le s = bindIfs os p js (bindIfs os p is le s).1 (bindIfs os p is le s).2 := by
  induction is generalizing le s with
  | nil => rfl
  | cons i is ih =>
    rw [List.cons_append]
    simp only [bindIfs]
    cases getInterfaceAddresses (os.addrs s.world.clock i.nif) with
    | ok as => exact ih _ _
    | err e => exact ih _ _
    | panic => exact ih _ _

theorem available_ne {os : IfOs} {t : Nat} {ifis : List IfPtr} (h : getAvailableInterfaces os t = .ok ifis) :
    ifis ≠ [] := by
  unfold getAvailableInterfaces at h
  split at h
  · cases h
  · dsimp only at h
    split at h
    · cases h
    · next hx =>
      rw [Res.ok.injEq] at h
      rw [h] at hx
      exact fun h0 => hx (by rw [h0]; rfl)

theorem usable_addresses (os : Os) (hst : Stable os) {t : Nat} {ifis : List IfPtr}
    (hg : getAvailableInterfaces os.toIfOs t = .ok ifis) {i : IfPtr} (hi : i ∈ ifis) (t' : Nat) :
    ∃ as, getInterfaceAddresses (os.addrs t' i.nif) = .ok as ∧ as ≠ [] := by
  obtain ⟨is, -, hm, -, -⟩ := (C64_selected os.toIfOs t).1 ifis hg
  obtain ⟨-, -, -, -, -, as, a, ip, h1, h2, h3⟩ := (hm i.index i.nif).mp ⟨i, hi, rfl, rfl⟩
  have h1 : os.addrs t' i.nif = some as := (hst _ _ _).trans h1
  obtain ⟨hA, hB⟩ := C64_addresses (os.addrs t' i.nif)
  cases hr : getInterfaceAddresses (os.addrs t' i.nif) with
  | ok as => exact ⟨as, rfl, addresses_ne hr⟩
  | err e =>
    exact absurd h3 (hB.mp ⟨e, hr⟩ as h1 a h2 ip)
  | panic =>
    rw [h1, addresses_eq] at hr
    split at hr <;> cases hr

/-- A successful start of the unicast manager binds the last interface. -/
theorem startUnicast_last (os : Os) (hst : Stable os) {s s' : Transport} (h : Good s)
    (hs : s.startUnicast os = .ok (none, s')) :
    ∃ t pre i as before new, getAvailableInterfaces os.toIfOs t = .ok (pre ++ [i]) ∧
      (∀ t, getInterfaceAddresses (os.addrs t i.nif) = .ok as) ∧ as ≠ [] ∧
      s'.uservers = before ++ new ∧ new.map (·.addr) = as ∧ ∀ u ∈ new, u.ifi = some i ∧ u.port = s'.port := by
  obtain ⟨e, s1, hst', e0, s0, hs0, hc⟩ := startUnicast_cases os h
  rw [hs] at hst'
  cases hst'
  obtain ⟨e1, s1, k1, k2, -⟩ := stopUnicast_spec os h
  rw [k1] at hs0
  cases hs0
  rcases hc with ⟨h0, rfl, rfl⟩ | ⟨h0, hno, he, rfl⟩ | ⟨h0, ifis, r, hg, -, hb⟩
  · exact absurd rfl h0
  · exact absurd rfl he
  · have ha := afterInterfaces_ext os k2.wwf
    obtain ⟨le0, s3, s2, q, q1, q2, g0, b0, rfl, -⟩ := bindPorts_none _ _ _ (k2.ext ha.1) hb.symm
    obtain ⟨is, -, -, -⟩ := (C64_selected os.toIfOs _).1 ifis hg
    have hne : ifis ≠ [] := available_ne hg
    obtain ⟨pre, i, rfl⟩ : ∃ pre i, ifis = pre ++ [i] :=
      ⟨ifis.dropLast, ifis.getLast hne, (List.dropLast_concat_getLast hne).symm⟩
    rw [bindIfs_append] at b0
    have gp := bindIfs_loop (step_loops os pre (fun _ => True)) trivial pre (fun _ h => h) le0 s3 (p := q) g0
    generalize bindIfs os q pre le0 s3 = r1 at b0 gp
    obtain ⟨le1, s4⟩ := r1
    obtain ⟨as, has, hasne⟩ := usable_addresses os hst hg (List.mem_append_right pre (List.mem_singleton.mpr rfl)) s4.world.clock
    simp only [bindIfs] at b0
    rw [has] at b0
    dsimp only at b0
    have ht := (step_loops os [i] (fun _ => True)).tick s4 gp.good
    obtain ⟨new, c1, c2, c3, -⟩ := bindAddrs_success as ht.good b0
    exact ⟨_, pre, i, as, s4.uservers, new, hg, fun t => by rw [hst t s4.world.clock]; exact has, hasne, c1, c2, c3⟩

/-! ## C58 -/

/-- C58. After a successful `Start` the transport is running, provided the addresses of the
interfaces do not change during it: there is a unicast server whose socket is open, and on every
address of every available interface a multicast server whose socket is open. -/
theorem C58_running (os : Os) (hst : Stable os) (s s' : Transport) (h : Reachable os s)
    (hs : s.start os = .ok (none, s')) :
    s'.isRunning = true ∧
    (∃ u ∈ s'.uservers, ∃ x ∈ s'.world.opened, u.udp = some x) ∧
    ∃ t ifis, getAvailableInterfaces os.toIfOs t = .ok ifis ∧ ifis ≠ [] ∧
      ∀ i ∈ ifis, ∀ t as, getInterfaceAddresses (os.addrs t i.nif) = .ok as → ∀ a ∈ as,
        ∃ m ∈ s'.mservers, m.addr = a ∧ m.ifi = i ∧ ∃ x ∈ s'.world.opened, m.conn = some x := by
  have hg := reachable_good h
  obtain ⟨s0, s1, g0, -, -, -, -, hu, e1, e2⟩ := (start_unicast os hg hs).1 rfl
  obtain ⟨t, pre, i, as, before, new, a1, a2, a3, a4, a5, a6⟩ := startUnicast_last os hst g0 hu
  obtain ⟨e, s2, b1, b2, b3, b4, b5, b6, b7, b8, b9⟩ := start_spec os hg
  rw [hs] at b1
  cases b1
  obtain ⟨-, -, -, t1, t2, ifis1, ifis2, f1, f2, f3, f4, f5⟩ := b9 rfl
  have hne : new ≠ [] := by
    rintro rfl
    exact a3 a5.symm
  obtain ⟨u, hu⟩ := List.exists_mem_of_ne_nil new hne
  have hu : u ∈ s'.uservers := by rw [e1, a4]; exact List.mem_append_right _ hu
  have hi2 : ifis2 ≠ [] := available_ne f2
  have hm : ∀ i ∈ ifis2, ∀ t as, getInterfaceAddresses (os.addrs t i.nif) = .ok as → ∀ a ∈ as,
        ∃ m ∈ s'.mservers, m.addr = a ∧ m.ifi = i ∧ ∃ x ∈ s'.world.opened, m.conn = some x := by
    intro i hi t as has a ha
    obtain ⟨m, hm, x1, x2, x3⟩ := f5 hst i hi t as has a ha
    cases hc : m.conn with
    | none => exact absurd hc x3
    | some x => exact ⟨m, hm, x1, x2, x, (b2.ms m hm x hc).1, hc⟩
  refine ⟨?_, ?_, t2, ifis2, f2, hi2, hm⟩
  · obtain ⟨j, hj⟩ := List.exists_mem_of_ne_nil ifis2 hi2
    obtain ⟨as, has, hane⟩ := usable_addresses os hst f2 hj 0
    obtain ⟨a, ha⟩ := List.exists_mem_of_ne_nil as hane
    obtain ⟨m, hm, -⟩ := hm j hj 0 as has a ha
    unfold Transport.isRunning
    rw [if_neg (Nat.ne_of_gt (List.length_pos_of_mem hu)), if_neg (Nat.ne_of_gt (List.length_pos_of_mem hm))]
  · obtain ⟨x, hx, hx', -⟩ := (b2.us u hu).udp
    exact ⟨u, hu, x, hx', hx⟩

/-! ## C59 -/

/-- There is a unicast server for this interface and address, on the given port, and its socket is
open. -/
def BoundOn (s : Transport) (i : IfPtr) (a : Str) (port : Nat) : Prop :=
  ∃ u ∈ s.uservers, u.ifi = some i ∧ ∃ x ∈ s.world.opened, u.udp = some x ∧
    x.proto = .udp ∧ x.addr = a ∧ x.port = port

/-- C59, the part that holds: a successful start binds every address of the last available
interface, so all addresses if there is only one interface. Missing: the other interfaces. -/
theorem C59_last_partial (os : Os) (hst : Stable os) (s s' : Transport) (h : Reachable os s)
    (hs : s.startUnicast os = .ok (none, s')) :
    ∃ t pre i, getAvailableInterfaces os.toIfOs t = .ok (pre ++ [i]) ∧
      ∀ t as, getInterfaceAddresses (os.addrs t i.nif) = .ok as → ∀ a ∈ as, BoundOn s' i a s'.port := by
  have hg := reachable_good h
  obtain ⟨t, pre, i, as, before, new, a1, a2, a3, a4, a5, a6⟩ := startUnicast_last os hst hg hs
  refine ⟨t, pre, i, a1, fun t bs hb a ha => ?_⟩
  rw [a2 t] at hb
  cases hb
  rw [← a5] at ha
  obtain ⟨u, hu, rfl⟩ := List.mem_map.mp ha
  have hm : u ∈ s'.uservers := by rw [a4]; exact List.mem_append_right _ hu
  obtain ⟨e, s2, b1, b2, -⟩ := startUnicast_spec os hg
  rw [hs] at b1
  cases b1
  obtain ⟨x, y1, y2, y3, y4, y5⟩ := (b2.us u hm).udp
  exact ⟨u, hm, (a6 u hu).1, x, y2, y1, y3, y4, y5.trans (a6 u hu).2⟩

/-- A host with two interfaces. -/
def eth0 : NetIf := ⟨['e', 't', 'h', '0'], false, true, true⟩
def eth1 : NetIf := ⟨['e', 't', 'h', '1'], false, true, true⟩
def addr0 : Str := ['1', '0', '.', '0', '.', '0', '.', '2']
def addr1 : Str := ['1', '0', '.', '1', '.', '0', '.', '2']

def twoIfs (udp tcp : Nat → Str → Nat → BindOutcome) : Os where
  interfaces _ := some [eth0, eth1]
  addrs _ i := if i = eth0 then some [addr0 ++ ['/', '8']] else some [addr1 ++ ['/', '8']]
  udp := udp
  tcp := tcp
  mcast _ _ := .ok
  closeErr _ := false

theorem twoIfs_stable (udp tcp : Nat → Str → Nat → BindOutcome) : Stable (twoIfs udp tcp) := fun _ _ _ => rfl

/-- The error of a start, and the addresses, ports and protocols open after it. -/
def summary (r : Res (Option Err × Transport)) : Option (Option Err × List (Proto × Str × Nat)) :=
  match r with
  | .ok (e, s) => some (e, s.world.opened.map (fun x => (x.proto, x.addr, x.port)))
  | _ => none

/-- C59 is false: when the port is taken on the first of two interfaces, `Start` returns no error
and the first interface is not bound. -/
theorem C59_refuted : summary ((Transport.new 0).startUnicast
      (twoIfs (fun _ a _ => if a = addr0 then .refused else .ok) (fun _ _ _ => .ok)))
    = some (none, [(.udp, addr1, 3610)]) := by decide +kernel

example : summary ((Transport.new 0).startUnicast (twoIfs (fun _ _ _ => .ok) (fun _ _ _ => .ok)))
    = some (none, [(.udp, addr1, 3610), (.udp, addr0, 3610)]) := by decide +kernel

/-! ## C60 -/

/-- C60 is false: with the port taken on the second interface `Start` returns an error and the
sockets of the first one stay open, one for each of the six attempts (the system lets the address be
used again here). -/
theorem C60_refuted_kept : summary ((Transport.new 0).start
      (twoIfs (fun _ a _ => if a = addr1 then .refused else .ok) (fun _ _ _ => .ok)))
    = some (some .other, List.replicate 6 (.udp, addr0, 3610)) := by decide +kernel

/-- C60 is false: also when the first socket cannot be bound again, it stays open. -/
theorem C60_refuted_first : summary ((Transport.new 0).start
      (twoIfs (fun t a _ => if a = addr1 ∨ 6 ≤ t then .refused else .ok) (fun _ _ _ => .ok)))
    = some (some .other, [(.udp, addr0, 3610)]) := by decide +kernel

/-- C60 is false: with TCP enabled, a UDP socket whose TCP socket cannot be bound stays open, and
`Stop` does not close it, however often it is called. -/
theorem C60_refuted_leaked :
    let os := twoIfs (fun _ _ _ => .ok) (fun _ _ _ => .refused)
    let cfg : TransportConfig := { TransportConfig.default with
      unicast := UnicastConfig.default.setTCPEnabled true, autoPortBindingEnabled := false }
    ∀ n : Nat, ∃ s, run os (Transport.new 0) ([.setConfig cfg, .start] ++ List.replicate n .stop) = .ok s ∧
      s.uservers = [] ∧ s.mservers = [] ∧ s.world.opened.length = 12 := by
  intro os cfg n
  have h0 : ∃ s, run os (Transport.new 0) [.setConfig cfg, .start] = .ok s ∧ s.uservers = [] ∧ s.mservers = [] ∧
      s.world.opened.length = 12 := by
    have : (match run os (Transport.new 0) [.setConfig cfg, .start] with
        | .ok s => decide (s.uservers = [] ∧ s.mservers = [] ∧ s.world.opened.length = 12)
        | _ => false) = true := by decide +kernel
    split at this
    · next s hs => exact ⟨s, hs, of_decide_eq_true this⟩
    · cases this
  obtain ⟨s, h1, h2, h3, h4⟩ := h0
  have hstop : ∀ n, run os s (List.replicate n .stop) = .ok s := by
    intro n
    induction n with
    | zero => rfl
    | succ n ih =>
      have : s.stop os = .ok (none, s) := by
        obtain ⟨cfg, port, us, ms, w⟩ := s
        simp only at h2 h3
        subst h2 h3
        rfl
      show (s.step os .stop >>= _) = _
      rw [show s.step os .stop = .ok s by show (s.stop os >>= _) = _; rw [this]; rfl]
      exact ih
  have happ : ∀ (a b : List Op) (s0 s1 : Transport), run os s0 a = .ok s1 → run os s0 (a ++ b) = run os s1 b := by
    intro a
    induction a with
    | nil => intro b s0 s1 h; cases h; rfl
    | cons op a ih =>
      intro b s0 s1 h
      obtain ⟨s2, x1, x2⟩ := Res.bind_eq_ok.mp h
      show (s0.step os op >>= _) = _
      rw [x1]
      exact ih b s2 s1 x2
  exact ⟨s, (happ _ _ _ _ h1).trans (hstop n), h2, h3, h4⟩

/-- C60, the part that holds: as long as TCP is not enabled or its sockets can be bound, and the
options of multicast sockets can be set, everything open belongs to a server, after failed starts
too, so `Stop` closes it: nothing is open after it. -/
theorem C60_stop_partial (os : Os) (t : Nat) (ops : List Op) (hl : Leakless os ops) :
    ∃ s s' e, run os (Transport.new t) ops = .ok s ∧ (∀ x ∈ s.world.opened, Held s x) ∧
      s.stop os = .ok (e, s') ∧ s'.world.opened = [] := by
  obtain ⟨s, a1, a2, a3⟩ := run_good os ops (new_good t)
  obtain ⟨ht, -⟩ := a3 hl (fun h => (by cases h)) (fun x hx => (by cases hx))
  obtain ⟨e, s', k1, k2, k3, k4, k5, k6, k7, k8⟩ := stop_spec os a2
  refine ⟨s, s', e, a1, ht, k1, List.eq_nil_iff_forall_not_mem.mpr fun x hx => ?_⟩
  obtain ⟨a, b, c⟩ := (k8 x).mp hx
  rcases ht x a with ⟨u, hu, hx⟩ | ⟨m, hm, hx⟩
  · exact absurd hx (by rw [not_or]; exact b u hu)
  · exact absurd hx (c m hm)

theorem bindIfs_single (os : Os) {p : Nat} {i : IfPtr} (h1 : ∀ t as, getInterfaceAddresses (os.addrs t i.nif) = .ok as → as.length ≤ 1)
    {le : Option Err} {s s' : Transport} {e : Err} (h : Good s) (hb : bindIfs os p [i] le s = (some e, s')) :
    s'.uservers = s.uservers := by
  simp only [bindIfs] at hb
  have ht := (step_loops os [i] (fun _ => True)).tick s h
  cases hg : getInterfaceAddresses (os.addrs s.world.clock i.nif) with
  | ok as =>
    rw [hg] at hb
    dsimp only at hb
    have hlen := h1 _ as hg
    match as, hlen with
    | [], _ => cases hb; rfl
    | [a], _ =>
      unfold bindAddrs at hb
      rcases hs : startUnicastAt os { s with world := s.world.tick } i a p with ⟨_ | e1, s1⟩
      · rw [hs] at hb
        cases hb
      · rw [hs] at hb
        cases hb
        exact (startUnicastAt_spec os ht.good i a p hs).2.2.2.2.2.2.1 (by simp)
    | _ :: _ :: _, hl => simp only [List.length_cons] at hl; omega
  | err e1 => rw [hg] at hb; cases hb; rfl
  | panic => rw [hg] at hb; cases hb; rfl

theorem bindPorts_single (os : Os) {i : IfPtr} (h1 : ∀ t as, getInterfaceAddresses (os.addrs t i.nif) = .ok as → as.length ≤ 1)
    (r n p : Nat) {le : Option Err} {s s' : Transport} {e : Err} (h : Good s)
    (hb : bindPorts os [i] r n p le s = (some e, s')) : s'.uservers = s.uservers := by
  have hR : ∀ (r p : Nat) (le : Option Err) (s s' : Transport) (e : Err), Good s →
      bindRetry os p [i] r le s = (some e, s') → s'.uservers = s.uservers := by
    intro r p
    induction r with
    | zero => exact fun le s s' e h hb => bindIfs_single os h1 h hb
    | succ r ih =>
      intro le s s' e h hb
      unfold bindRetry at hb
      have gp := bindIfs_loop (step_loops os [i] (fun _ => True)) trivial [i] (fun _ h => h) le s (p := p) h
      rcases hi : bindIfs os p [i] le s with ⟨_ | e1, s1⟩
      · rw [hi] at hb
        cases hb
      · rw [hi] at hb gp
        exact (ih _ _ _ _ gp.good hb).trans (bindIfs_single os h1 h hi)
  induction n generalizing p le s with
  | zero =>
    unfold bindPorts at hb
    rcases hi : bindRetry os p [i] r le s with ⟨_ | e1, s1⟩
    · rw [hi] at hb
      cases hb
    · rw [hi] at hb
      cases hb
      exact hR _ _ _ _ _ _ h hi
  | succ n ih =>
    unfold bindPorts at hb
    have gp := bindRetry_loop (step_loops os [i] (fun _ => True)) trivial r le s (p := p) h
    rcases hi : bindRetry os p [i] r le s with ⟨_ | e1, s1⟩
    · rw [hi] at hb
      cases hb
    · rw [hi] at hb gp
      exact (ih (p + 1) gp.good hb).trans (hR _ _ _ _ _ _ h hi)

/-- C60, the part that holds: on a host with one available interface that has one address, a failed
start leaves nothing open, under the same conditions. -/
theorem C60_single_partial (os : Os) (t : Nat) (ops : List Op) (hl : Leakless os ops)
    (h1 : ∀ t ifis, getAvailableInterfaces os.toIfOs t = .ok ifis → ifis.length = 1)
    (h2 : ∀ t i as, getInterfaceAddresses (os.addrs t i) = .ok as → as.length ≤ 1)
    (s s' : Transport) (e : Err) (hr : run os (Transport.new t) ops = .ok s) (hs : s.start os = .ok (some e, s')) :
    s'.world.opened = [] ∧ s'.uservers = [] ∧ s'.mservers = [] := by
  obtain ⟨s1, a1, a2, a3⟩ := run_good os ops (new_good t)
  rw [hr] at a1
  cases a1
  obtain ⟨ht, hc⟩ := a3 hl (fun h => (by cases h)) (fun x hx => (by cases hx))
  obtain ⟨e1, s2, b1, b2, b3, b4, b5, b6, b7, -⟩ := start_spec os a2
  rw [hs] at b1
  cases b1
  have ht' := b6 hl.1 hc ht
  have hm := b7 (by simp)
  have hu : s'.uservers = [] := by
    rcases (start_unicast os a2 hs).2 (by simp) with h | ⟨s0, g0, -, -, h0, hu⟩
    · exact h.1
    · obtain ⟨e2, s3, hst', e0, s4, hs0, hc⟩ := startUnicast_cases os g0
      rw [hu] at hst'
      cases hst'
      obtain ⟨e3, s5, k1, k2, k3, -⟩ := stopUnicast_spec os g0
      rw [k1] at hs0
      cases hs0
      rcases hc with ⟨-, -, rfl⟩ | ⟨-, -, -, rfl⟩ | ⟨-, ifis, r, hg, -, hb⟩
      · exact k3
      · exact k3
      · have ha := afterInterfaces_ext os k2.wwf
        match ifis, h1 _ _ hg with
        | [i], _ =>
          exact (bindPorts_single os (fun t as => h2 t i.nif as) _ _ _ (k2.ext ha.1) hb.symm).trans k3
  refine ⟨List.eq_nil_iff_forall_not_mem.mpr fun x hx => ?_, hu, hm⟩
  rcases ht' x hx with ⟨u, hu', -⟩ | ⟨m, hm', -⟩
  · rw [hu] at hu'; cases hu'
  · rw [hm] at hm'; cases hm'

/-- The hypotheses of `C58_running` and `C59_last_partial`: a host with two interfaces on which every socket can be
bound. -/
example : Stable (twoIfs (fun _ _ _ => .ok) (fun _ _ _ => .ok)) ∧
    Reachable (twoIfs (fun _ _ _ => .ok) (fun _ _ _ => .ok)) (Transport.new 0) ∧
    (∃ s', (Transport.new 0).start (twoIfs (fun _ _ _ => .ok) (fun _ _ _ => .ok)) = .ok (none, s')) ∧
    ∃ s', (Transport.new 0).startUnicast (twoIfs (fun _ _ _ => .ok) (fun _ _ _ => .ok)) = .ok (none, s') :=
  ⟨fun _ _ _ => rfl, ⟨0, [], rfl⟩, ⟨_, rfl⟩, ⟨_, rfl⟩⟩

/-- The hypothesis of `C60_stop_partial` holds for a host that refuses sockets now and then, with TCP disabled. -/
example : Leakless (twoIfs (fun t _ _ => if t % 2 = 0 then .refused else .ok) (fun _ _ _ => .refused))
    [.start, .stop, .start] :=
  ⟨fun _ _ h => (by cases h), .inl (fun c h => by simp at h)⟩

/-- A host with one interface and one address that refuses every socket. -/
def refusing : Os where
  interfaces _ := some [eth0]
  addrs _ _ := some [addr0 ++ ['/', '8']]
  udp _ _ _ := .refused
  tcp _ _ _ := .refused
  mcast _ _ := .ok
  closeErr _ := false

/-- The hypotheses of `C60_single_partial`. -/
example : Leakless refusing [.start, .stop] ∧
    (∀ t ifis, getAvailableInterfaces refusing.toIfOs t = .ok ifis → ifis.length = 1) ∧
    (∀ t i as, getInterfaceAddresses (refusing.addrs t i) = .ok as → as.length ≤ 1) ∧
    ∃ s, run refusing (Transport.new 0) [.start, .stop] = .ok s ∧ ∃ e s', s.start refusing = .ok (some e, s') := by
  refine ⟨⟨fun _ _ h => (by cases h), .inl (fun c h => by simp at h)⟩, ?_, ?_, ⟨_, rfl, _, _, rfl⟩⟩
  · intro t ifis h
    have h' : getAvailableInterfaces refusing.toIfOs t = .ok [⟨t, 0, eth0⟩] := rfl
    rw [h'] at h
    cases h
    rfl
  · intro t i as h
    have h' : getInterfaceAddresses (refusing.addrs t i) = .ok [addr0] := rfl
    rw [h'] at h
    cases h
    decide

end Verif.Props
