import Verif.Props.BoundExactly

/-! # C60: sockets nobody closes any more -/

namespace Verif.Props
open Verif Model Transport Lemmas

/-- An open UDP socket that belongs to no server. -/
def Leaked (s : Transport) (x : Sock) : Prop := x ∈ s.world.opened ∧ x.proto = .udp ∧ ¬ Held s x

/-- A UDP socket that is open, and to be kept so, and that no server of the list has. -/
theorem leaked_step {os : Os} {ifis : List IfPtr} {P : Nat → Prop} {s s' : Transport} (h : Good s)
    (hs : Step os ifis P s s') {x : Sock} (hx : Leaked s x) : Leaked s' x := by
  refine ⟨hs.ext.keep x hx.1, hx.2.1, fun hh => hx.2.2 ?_⟩
  rcases hh with ⟨u, hu, hux⟩ | ⟨m, hm, hmx⟩
  · obtain ⟨new, e1, e2⟩ := hs.us
    rw [e1] at hu
    rcases List.mem_append.mp hu with hu | hu
    · exact .inl ⟨u, hu, hux⟩
    · have h1 := (e2 u hu).2.2.2 x (mem_socks.mpr hux)
      have h2 := h.wwf.old x hx.1
      omega
  · rw [hs.ms] at hm
    exact .inr ⟨m, hm, hmx⟩

theorem leaked_stop {os : Os} {s s' : Transport} {e : Option Err} (h : Good s) (hs : s.stop os = .ok (e, s')) {x : Sock}
    (hx : Leaked s x) : Leaked s' x := by
  obtain ⟨e1, s1, k1, -, k3, k4, -, -, -, k8⟩ := stop_spec os h
  rw [hs] at k1
  cases k1
  refine ⟨(k8 x).mpr ⟨hx.1, fun u hu => ⟨fun he => hx.2.2 (.inl ⟨u, hu, .inl he⟩), fun he => hx.2.2 (.inl ⟨u, hu, .inr he⟩)⟩,
    fun m hm he => hx.2.2 (.inr ⟨m, hm, he⟩)⟩, hx.2.1, ?_⟩
  rintro (⟨u, hu, -⟩ | ⟨m, hm, -⟩)
  · rw [k3] at hu; cases hu
  · rw [k4] at hm; cases hm

theorem leaked_startUnicast {os : Os} {s s' : Transport} {e : Option Err} (h : Good s)
    (hs : s.startUnicast os = .ok (e, s')) {x : Sock} (hx : Leaked s x) : Leaked s' x := by
  obtain ⟨e2, s2, hst', e0, s0, hs0, hc⟩ := startUnicast_cases os h
  rw [hs] at hst'
  cases hst'
  obtain ⟨e1, s1, k1, k2, k3, k4, k5, k6, k7, k8⟩ := stopUnicast_spec os h
  rw [k1] at hs0
  obtain ⟨rfl, rfl⟩ : e1 = e0 ∧ s1 = s0 := by cases hs0; exact ⟨rfl, rfl⟩
  have h1 : Leaked s1 x := by
    refine ⟨(k8 x).mpr ⟨hx.1, fun u hu => ⟨fun he => hx.2.2 (.inl ⟨u, hu, .inl he⟩), fun he => hx.2.2 (.inl ⟨u, hu, .inr he⟩)⟩⟩, hx.2.1, ?_⟩
    rintro (⟨u, hu, -⟩ | ⟨m, hm, he⟩)
    · rw [k3] at hu; cases hu
    · rw [k4] at hm; exact hx.2.2 (.inr ⟨m, hm, he⟩)
  have ha := afterInterfaces_ext os k2.wwf
  have h2 : Leaked { s1 with world := afterInterfaces os s1.world } x := ⟨ha.1.keep x h1.1, h1.2.1, h1.2.2⟩
  rcases hc with ⟨-, -, rfl⟩ | ⟨-, -, -, rfl⟩ | ⟨-, ifis, r, -, -, hb⟩
  · exact h1
  · exact h2
  · have hstep := bindPorts_loop (step_loops os ifis (fun _ => True)) r
      (if s.config.autoPortBindingEnabled then udpPortRange else 0) s.port (fun _ _ _ => trivial) none
      { s1 with world := afterInterfaces os s1.world } (k2.ext ha.1)
    rw [← hb] at hstep
    exact leaked_step (k2.ext ha.1) hstep h2

/-- The multicast part does not touch UDP sockets. -/
theorem leaked_multicast {s s' : Transport} (hg : Good s') (hu : s'.uservers = s.uservers) {x : Sock}
    (hk : x ∈ s'.world.opened) (hx : Leaked s x) : Leaked s' x := by
  refine ⟨hk, hx.2.1, ?_⟩
  rintro (⟨u, hu', he⟩ | ⟨m, hm, he⟩)
  · rw [hu] at hu'; exact hx.2.2 (.inl ⟨u, hu', he⟩)
  · have := (hg.ms m hm x he).2
    rw [hx.2.1] at this
    cases this

theorem stopMulticast_keep {os : Os} {s : Transport} (h : Good s) {x : Sock} (hp : x.proto = .udp)
    (hx : x ∈ s.world.opened) : x ∈ (s.stopMulticast os).2.world.opened := by
  obtain ⟨-, -, -, -, -, -, m7⟩ := stopMulticast_spec os h
  refine (m7 x).mpr ⟨hx, fun m hm he => ?_⟩
  have := (h.ms m hm x he).2
  rw [hp] at this
  cases this

theorem startMulticastAt_keep {os : Os} {s s' : Transport} {e : Option Err} {i : IfPtr} {a : Str} (h : Good s)
    (hs : s.startMulticastAt os i a = (e, s')) {x : Sock} (hx : x ∈ s.world.opened) : x ∈ s'.world.opened := by
  unfold Transport.startMulticastAt at hs
  obtain ⟨a1, -⟩ := mcastBind_spec os h.wwf i a
  rcases hu : mcastBind os s.world i a with ⟨_ | e1, c, w⟩
  · rw [hu] at hs a1
    cases hs
    exact a1.keep x hx
  · rw [hu] at hs a1
    cases hs
    exact a1.keep x hx

theorem joinAddrs_keep {os : Os} {i : IfPtr} (as : List Str) {s s' : Transport} {e : Option Err} (h : Good s)
    (hs : joinAddrs os i as s = (e, s')) {x : Sock} (hp : x.proto = .udp) (hx : x ∈ s.world.opened) : x ∈ s'.world.opened := by
  induction as generalizing s with
  | nil => cases hs; exact hx
  | cons a as ih =>
    unfold joinAddrs at hs
    rcases hm : s.startMulticastAt os i a with ⟨_ | e1, s1⟩
    · rw [hm] at hs
      exact ih (startMulticastAt_spec os h i a hm).1.good hs (startMulticastAt_keep h hm hx)
    · rw [hm] at hs
      cases hs
      exact stopMulticast_keep (startMulticastAt_spec os h i a hm).1.good hp (startMulticastAt_keep h hm hx)

theorem joinIfs_keep {os : Os} (is : List IfPtr) {s s' : Transport} {e : Option Err} (h : Good s)
    (hs : joinIfs os is s = (e, s')) {x : Sock} (hp : x.proto = .udp) (hx : x ∈ s.world.opened) : x ∈ s'.world.opened := by
  induction is generalizing s with
  | nil => cases hs; exact hx
  | cons i is ih =>
    unfold joinIfs at hs
    cases hg : getInterfaceAddresses (os.addrs s.world.clock i.nif) with
    | ok as =>
      rw [hg] at hs
      dsimp only at hs
      rcases hm : joinAddrs os i as { s with world := s.world.tick } with ⟨_ | e1, s1⟩
      · rw [hm] at hs
        exact ih (joinAddrs_spec os i as (tick_good h) hm).1.good hs (joinAddrs_keep as (tick_good h) hm hp hx)
      · rw [hm] at hs
        cases hs
        exact joinAddrs_keep as (tick_good h) hm hp hx
    | err e1 => rw [hg] at hs; exact ih (s := { s with world := s.world.tick }) (tick_good h) hs hx
    | panic => rw [hg] at hs; exact ih (s := { s with world := s.world.tick }) (tick_good h) hs hx

theorem startMulticast_keep {os : Os} {s s' : Transport} {e : Option Err} (h : Good s)
    (hs : s.startMulticast os = (e, s')) {x : Sock} (hp : x.proto = .udp) (hx : x ∈ s.world.opened) : x ∈ s'.world.opened := by
  have h0 := (stopMulticast_spec os h).1
  have hk := stopMulticast_keep (os := os) h hp hx
  unfold Transport.startMulticast at hs
  rcases hst : s.stopMulticast os with ⟨_ | e0, s0⟩
  · rw [hst] at hs h0 hk
    have ha := afterInterfaces_ext os h0.wwf
    dsimp only at hs
    cases hg : getAvailableInterfaces os.toIfOs s0.world.clock with
    | ok ifis =>
      rw [hg] at hs
      exact joinIfs_keep ifis (s := { s0 with world := afterInterfaces os s0.world }) (h0.ext ha.1) hs hp (ha.1.keep x hk)
    | err e1 => rw [hg] at hs; cases hs; exact ha.1.keep x hk
    | panic => exact absurd hg (C64_selected os.toIfOs _).2.2
  · rw [hst] at hs hk
    cases hs
    exact hk

theorem setUnicastManager_keep {os : Os} {s s' : Transport} {e : Option Err} (h : Good s)
    (hs : s.setUnicastManager os = (e, s')) {x : Sock} (hp : x.proto = .udp) (hx : x ∈ s.world.opened) : x ∈ s'.world.opened := by
  unfold Transport.setUnicastManager at hs
  split at hs
  · cases hs; exact hx
  · cases hs; exact stopMulticast_keep h hp hx
  · cases hs; exact hx

theorem leaked_start {os : Os} {s s' : Transport} {e : Option Err} (h : Good s) (hs : s.start os = .ok (e, s')) {x : Sock}
    (hx : Leaked s x) : Leaked s' x := by
  obtain ⟨e0, s0, k1, k2, -⟩ := stop_spec os h
  have h0 := leaked_stop h k1 hx
  unfold Transport.start at hs
  rw [k1] at hs
  simp only [Res.ok_bind] at hs
  cases e0 with
  | some e0 => cases hs; exact h0
  | none =>
    obtain ⟨e1, s1, a1, a2, -⟩ := startUnicast_spec os k2
    have h1 := leaked_startUnicast k2 a1 h0
    dsimp only at hs
    rw [a1] at hs
    simp only [Res.ok_bind] at hs
    cases e1 with
    | some e1 => cases hs; exact h1
    | none =>
      dsimp only at hs
      rcases hm : s1.startMulticast os with ⟨e2, s2⟩
      obtain ⟨b1, -⟩ := startMulticast_spec os a2 hm
      have h2 := leaked_multicast b1.good b1.us (startMulticast_keep a2 hm h1.2.1 h1.1) h1
      rw [hm] at hs
      cases e2 with
      | some e2 =>
        obtain ⟨⟨e3, s3⟩, z1, z2⟩ := Res.bind_eq_ok.mp hs
        cases z2
        exact leaked_stop b1.good z1 h2
      | none =>
        dsimp only at hs
        rcases hu : s2.setUnicastManager os with ⟨e3, s3⟩
        obtain ⟨c1, -⟩ := setUnicastManager_spec os b1.good hu
        have h3 := leaked_multicast c1.good c1.us (setUnicastManager_keep b1.good hu h2.2.1 h2.1) h2
        rw [hu] at hs
        cases e3 with
        | some e3 =>
          obtain ⟨⟨e4, s4⟩, z1, z2⟩ := Res.bind_eq_ok.mp hs
          cases z2
          exact leaked_stop c1.good z1 h3
        | none => cases hs; exact h3

theorem mcastEnds_uservers (os : Os) (s : Transport) (i : Nat) : (s.mcastEnds os i).uservers = s.uservers := by
  unfold Transport.mcastEnds
  split
  · rfl
  · rfl

theorem leaked_ends {os : Os} {s : Transport} {i : Nat} (h : Good s) (hg : Good (s.mcastEnds os i)) {x : Sock} (hx : Leaked s x) :
    Leaked (s.mcastEnds os i) x := by
  refine leaked_multicast hg (mcastEnds_uservers os s i) ?_ hx
  unfold Transport.mcastEnds
  split
  · exact hx.1
  · next m hm =>
    obtain ⟨a1, -⟩ := udpClose_spec os s.world m.conn
    refine (a1 x).mpr ⟨hx.1, fun y hy he => ?_⟩
    have hmem := List.mem_of_getElem? hm
    have h1 := h.ms m hmem y hy
    have := h.wwf.uniq x hx.1 y h1.1 he
    subst this
    rw [hx.2.1] at h1
    cases h1.2

/-- C60, a socket that belongs to no server is open for ever: no start, stop or other call closes
it. -/
theorem C60_refuted_forever (os : Os) (s s' : Transport) (h : Reachable os s) (ops : List Op)
    (hr : run os s ops = .ok s') (x : Sock) (hx : Leaked s x) : Leaked s' x := by
  have hg := reachable_good h
  clear h
  induction ops generalizing s with
  | nil => cases hr; exact hx
  | cons op ops ih =>
    obtain ⟨s1, x1, x2⟩ := Res.bind_eq_ok.mp hr
    obtain ⟨s2, y1, y2, -⟩ := run_good os [op] hg
    have e : s2 = s1 := by
      have : run os s [op] = .ok s1 := by
        show (s.step os op >>= _) = _
        rw [x1]
        rfl
      rw [y1] at this
      cases this
      rfl
    subst e
    refine ih s2 x2 ?_ y2
    cases op with
    | start =>
      obtain ⟨⟨e, s3⟩, z1, z2⟩ := Res.bind_eq_ok.mp x1
      cases z2
      exact leaked_start hg z1 hx
    | stop =>
      obtain ⟨⟨e, s3⟩, z1, z2⟩ := Res.bind_eq_ok.mp x1
      cases z2
      exact leaked_stop hg z1 hx
    | setPort p => cases x1; exact hx
    | setConfig c => cases x1; exact hx
    | mcastEnds i => cases x1; exact leaked_ends hg y2 hx

/-! ## Leaking -/

/-- There is a leaked socket with this address and port. -/
def LeakedOn (s : Transport) (a : Str) (p : Nat) : Prop := ∃ x, Leaked s x ∧ x.addr = a ∧ x.port = p

theorem leakedOn_step {os : Os} {ifis : List IfPtr} {P : Nat → Prop} {s s' : Transport} {a : Str} {p : Nat} (h : Good s)
    (hs : Step os ifis P s s') (hx : LeakedOn s a p) : LeakedOn s' a p := by
  obtain ⟨x, h1, h2⟩ := hx
  exact ⟨x, leaked_step h hs h1, h2⟩

/-- An attempt whose UDP socket can be bound and whose TCP socket can not leaks the UDP socket. -/
theorem at_leaks {os : Os} {s : Transport} (h : Good s) (ht : s.config.unicast.tcpEnabled = true) (i : IfPtr) (a : Str)
    (p : Nat) (hu : ∀ t, os.udp t a p = .ok) (hc : ∀ t, os.tcp t a p ≠ .ok) :
    LeakedOn (s.startUnicastAt os i a p).2 a p ∧ (s.startUnicastAt os i a p).1 ≠ none := by
  let x : Sock := ⟨s.world.clock, .udp, a, p⟩
  have hnot : ¬ Held s x := by
    have hold : ∀ y ∈ s.world.opened, y ≠ x := fun y hy he => by
      have := h.wwf.old y hy
      rw [he] at this
      exact Nat.lt_irrefl _ this
    rintro (⟨u, hu', he⟩ | ⟨m, hm, he⟩)
    · rcases he with he | he
      · obtain ⟨y, y1, y2, -⟩ := (h.us u hu').udp
        rw [he] at y1
        cases y1
        exact hold _ y2 rfl
      · cases hb : u.tcpEnabled with
        | false => rw [(h.us u hu').noTcp hb] at he; cases he
        | true =>
          obtain ⟨-, y, y1, y2, -⟩ := (h.us u hu').tcp hb
          rw [he] at y1
          cases y1
          exact hold _ y2 rfl
    · exact hold _ (h.ms m hm x he).1 rfl
  have key : ∃ e u w, (UServer.new true).start os s.world i a p = (some e, u, w) ∧ x ∈ w.opened := by
    unfold UServer.start udpBind
    rw [hu]
    dsimp only [UServer.new]
    rw [if_pos rfl]
    unfold tcpBind
    have hne := hc (s.world.opening .udp a p).2.clock
    cases hk : os.tcp (s.world.opening .udp a p).2.clock a p with
    | ok => exact absurd hk hne
    | refused => exact ⟨_, _, _, rfl, List.mem_cons_self ..⟩
    | noRaw => exact ⟨_, _, _, rfl, List.mem_cons_of_mem _ (List.mem_cons_self ..)⟩
    | badOption => exact ⟨_, _, _, rfl, List.mem_cons_of_mem _ (List.mem_cons_self ..)⟩
  obtain ⟨e, u, w, k1, k2⟩ := key
  unfold Transport.startUnicastAt
  rw [ht, k1]
  exact ⟨⟨x, ⟨k2, rfl, hnot⟩, rfl, rfl⟩, by simp⟩

theorem ifs_leaks {os : Os} {s : Transport} (h : Good s) (ht : s.config.unicast.tcpEnabled = true) (i : IfPtr) (is : List IfPtr)
    (hi : i ∈ is) (a : Str) (p : Nat) (hu : ∀ t, os.udp t a p = .ok) (hc : ∀ t, os.tcp t a p ≠ .ok)
    (hd : ∀ t, ∃ as, getInterfaceAddresses (os.addrs t i.nif) = .ok (a :: as)) (le : Option Err) :
    LeakedOn (bindIfs os p is le s).2 a p := by
  obtain ⟨pre, post, rfl⟩ := List.append_of_mem hi
  rw [bindIfs_append]
  have h1 := bindIfs_loop (step_loops os pre (fun _ => True)) trivial pre (fun _ h => h) le s (p := p) h
  generalize bindIfs os p pre le s = r at h1
  obtain ⟨le1, s1⟩ := r
  have h1 : Step os pre (fun _ => True) s s1 := h1
  show LeakedOn (bindIfs os p (i :: post) le1 s1).2 a p
  obtain ⟨as, has⟩ := hd s1.world.clock
  unfold bindIfs
  rw [has]
  dsimp only
  obtain ⟨b1, b2⟩ := at_leaks (s := { s1 with world := s1.world.tick }) (tick_good h1.good) (by show s1.config.unicast.tcpEnabled = true; rw [h1.config]; exact ht) i a p hu hc
  have hst := (step_loops os [i] (fun _ => True)).at_ { s1 with world := s1.world.tick } i a p (List.mem_singleton.mpr rfl) trivial (tick_good h1.good)
  unfold bindAddrs
  generalize startUnicastAt os { s1 with world := s1.world.tick } i a p = r at b1 b2 hst ⊢
  obtain ⟨e, s2⟩ := r
  cases e with
  | none => exact absurd rfl b2
  | some e =>
    have hst : Step os [i] (fun _ => True) { s1 with world := s1.world.tick } s2 := hst
    have h2 := bindIfs_loop (step_loops os post (fun _ => True)) trivial post (fun _ h => h) (some e) s2 (p := p) hst.good
    exact leakedOn_step hst.good h2 b1

theorem retry_leaks {os : Os} {s : Transport} (h : Good s) (ht : s.config.unicast.tcpEnabled = true) (i : IfPtr) (is : List IfPtr)
    (hi : i ∈ is) (a : Str) (p : Nat) (hu : ∀ t, os.udp t a p = .ok) (hc : ∀ t, os.tcp t a p ≠ .ok)
    (hd : ∀ t, ∃ as, getInterfaceAddresses (os.addrs t i.nif) = .ok (a :: as)) (n : Nat) (le : Option Err) :
    LeakedOn (bindRetry os p is n le s).2 a p := by
  have h1 := ifs_leaks h ht i is hi a p hu hc hd le
  cases n with
  | zero => exact h1
  | succ n =>
    have h2 := bindIfs_loop (step_loops os is (fun _ => True)) trivial is (fun _ h => h) le s (p := p) h
    unfold bindRetry
    generalize bindIfs os p is le s = r at h1 h2 ⊢
    obtain ⟨e, s1⟩ := r
    cases e with
    | none => exact h1
    | some e =>
      have h2 : Step os is (fun _ => True) s s1 := h2
      exact leakedOn_step h2.good (bindRetry_loop (step_loops os is (fun _ => True)) trivial n (some e) s1 h2.good) h1

theorem ports_leaks {os : Os} {s : Transport} (h : Good s) (ht : s.config.unicast.tcpEnabled = true) (i : IfPtr) (is : List IfPtr)
    (hi : i ∈ is) (a : Str) (p : Nat) (hu : ∀ t, os.udp t a p = .ok) (hc : ∀ t, os.tcp t a p ≠ .ok)
    (hd : ∀ t, ∃ as, getInterfaceAddresses (os.addrs t i.nif) = .ok (a :: as)) (r n : Nat) (le : Option Err) :
    LeakedOn (bindPorts os is r n p le s).2 a p := by
  have h1 := retry_leaks h ht i is hi a p hu hc hd r le
  have h2 := bindRetry_loop (step_loops os is (fun _ => True)) trivial r le s (p := p) h
  cases n with
  | zero =>
    unfold bindPorts
    generalize bindRetry os p is r le s = q at h1 h2 ⊢
    obtain ⟨e, s1⟩ := q
    cases e with
    | none => exact h1
    | some e => exact h1
  | succ n =>
    unfold bindPorts
    generalize bindRetry os p is r le s = q at h1 h2 ⊢
    obtain ⟨e, s1⟩ := q
    cases e with
    | none => exact h1
    | some e =>
      have h2 : Step os is (fun _ => True) s s1 := h2
      exact leakedOn_step h2.good (bindPorts_loop (step_loops os is (fun _ => True)) r n (p + 1) (fun _ _ _ => trivial) (some e) s1 h2.good) h1

/-- C60 is false for every host with TCP on which, for the first address of some interface, the
configured port can be bound for UDP but not for TCP: whether the start succeeds or not, a UDP
socket on that address is open after it, and after every history of further calls. -/
theorem C60_refuted_leak_any (os : Os) (s : Transport) (h : Reachable os s) (hclose : ∀ t, os.closeErr t = false)
    (ht : s.config.unicast.tcpEnabled = true) (n : NetIf) (a : Str)
    (hi : ∀ t, ∃ is, getAvailableInterfaces os.toIfOs t = .ok is ∧ n ∈ is.map (·.nif))
    (hd : ∀ t, ∃ as, getInterfaceAddresses (os.addrs t n) = .ok (a :: as))
    (hu : ∀ t, os.udp t a s.port = .ok) (hc : ∀ t, os.tcp t a s.port ≠ .ok) (ops : List Op) (s' : Transport)
    (hr : run os s (.start :: ops) = .ok s') :
    ∃ x ∈ s'.world.opened, x.proto = .udp ∧ x.addr = a ∧ x.port = s.port ∧ ¬ Held s' x := by
  have hg := reachable_good h
  obtain ⟨s2, r1, r2⟩ := Res.bind_eq_ok.mp hr
  obtain ⟨⟨e, s3⟩, z1, z2⟩ := Res.bind_eq_ok.mp r1
  cases z2
  have hl : LeakedOn s2 a s.port := by
    obtain ⟨e0, s0, k1, k2, -, -, k5, k6, -⟩ := stop_spec os hg
    obtain rfl := stop_quiet hclose k1
    obtain ⟨e1, s1, a1, a2, -⟩ := startUnicast_spec os k2
    have h1 : LeakedOn s1 a s.port := by
      obtain ⟨e2, s4, hst', e5, s5, hs0, hcs⟩ := startUnicast_cases os k2
      rw [a1] at hst'
      cases hst'
      obtain ⟨e6, s6, l1, l2, -, -, l5, l6, -⟩ := stopUnicast_spec os k2
      rw [l1] at hs0
      obtain ⟨rfl, rfl⟩ : e6 = e5 ∧ s6 = s5 := by cases hs0; exact ⟨rfl, rfl⟩
      have hq := stopUnicast_quiet hclose l1
      obtain ⟨is, i1, i2⟩ := hi s6.world.clock
      rcases hcs with ⟨h0, -, -⟩ | ⟨-, hno, -, -⟩ | ⟨-, ifis, r, hgi, -, hb⟩
      · exact absurd hq h0
      · exact absurd i1 (hno is)
      · rw [i1] at hgi
        cases hgi
        obtain ⟨i, hi', rfl⟩ := List.mem_map.mp i2
        have ha := afterInterfaces_ext os l2.wwf
        have := ports_leaks (s := { s6 with world := afterInterfaces os s6.world }) (l2.ext ha.1)
          (by show s6.config.unicast.tcpEnabled = true; rw [l5, k5]; exact ht) i is hi' a s.port hu hc hd r
          (if s0.config.autoPortBindingEnabled then udpPortRange else 0) none
        rw [← k6] at this ⊢
        rw [← hb] at this
        exact this
    obtain ⟨x, x1, x2⟩ := h1
    refine ⟨x, ?_, x2⟩
    have hs := z1
    unfold Transport.start at hs
    rw [k1] at hs
    simp only [Res.ok_bind] at hs
    rw [a1] at hs
    simp only [Res.ok_bind] at hs
    cases e1 with
    | some e1 => cases hs; exact x1
    | none =>
      dsimp only at hs
      rcases hm : s1.startMulticast os with ⟨e2, s5⟩
      obtain ⟨b1, -⟩ := startMulticast_spec os a2 hm
      have h2 := leaked_multicast b1.good b1.us (startMulticast_keep a2 hm x1.2.1 x1.1) x1
      rw [hm] at hs
      cases e2 with
      | some e2 =>
        obtain ⟨⟨e3, s3⟩, y1, y2⟩ := Res.bind_eq_ok.mp hs
        cases y2
        exact leaked_stop b1.good y1 h2
      | none =>
        dsimp only at hs
        rcases hun : s5.setUnicastManager os with ⟨e3, s6⟩
        obtain ⟨c1, -⟩ := setUnicastManager_spec os b1.good hun
        have h3 := leaked_multicast c1.good c1.us (setUnicastManager_keep b1.good hun h2.2.1 h2.1) h2
        rw [hun] at hs
        cases e3 with
        | some e3 =>
          obtain ⟨⟨e4, s4⟩, y1, y2⟩ := Res.bind_eq_ok.mp hs
          cases y2
          exact leaked_stop c1.good y1 h3
        | none => cases hs; exact h3
  obtain ⟨x, x1, x2, x3⟩ := hl
  have hreach : Reachable os s2 := by
    obtain ⟨t, ops0, h0⟩ := h
    refine ⟨t, ops0 ++ [.start], ?_⟩
    have happ : ∀ (a b : List Op) (s0 s1 : Transport), run os s0 a = .ok s1 → run os s0 (a ++ b) = run os s1 b := by
      intro a
      induction a with
      | nil => intro b s0 s1 h; cases h; rfl
      | cons op a ih =>
        intro b s0 s1 h
        obtain ⟨s2, y1, y2⟩ := Res.bind_eq_ok.mp h
        show (s0.step os op >>= _) = _
        rw [y1]
        exact ih b s2 s1 y2
    rw [happ _ _ _ _ h0]
    show (s.step os .start >>= _) = _
    rw [r1]
    rfl
  have := C60_refuted_forever os s2 s' hreach ops r2 x x1
  exact ⟨x, this.1, this.2.1, x2, x3, this.2.2⟩

/-- A host that meets the hypotheses: UDP can be bound, TCP can not. Ten restarts later the first
socket is still open. -/
example : let os := twoIfs (fun _ _ _ => .ok) (fun _ _ _ => .refused)
    let cfg : TransportConfig := { TransportConfig.default with unicast := UnicastConfig.default.setTCPEnabled true }
    ∀ s', run os ((Transport.new 0).setConfig cfg) (.start :: List.replicate 10 .stop) = .ok s' →
      ∃ x ∈ s'.world.opened, x.proto = .udp ∧ x.addr = addr0 ∧ x.port = 3610 ∧ ¬ Held s' x := by
  intro os cfg s' hs
  exact C60_refuted_leak_any os ((Transport.new 0).setConfig cfg) ⟨0, [.setConfig cfg], rfl⟩ (fun _ => rfl) rfl eth0 addr0
    (fun t => ⟨[⟨t, 0, eth0⟩, ⟨t, 1, eth1⟩], rfl, List.mem_cons_self ..⟩) (fun _ => ⟨[], rfl⟩) (fun _ => rfl) (fun _ h => by cases h)
    (List.replicate 10 .stop) s' hs

/-- Every run ends in a state: the hypothesis `hr` can be met. -/
example : ∃ s', run (twoIfs (fun _ _ _ => .ok) (fun _ _ _ => .refused)) (Transport.new 0) [.start, .stop, .stop] = .ok s' := by
  have : (match run (twoIfs (fun _ _ _ => .ok) (fun _ _ _ => .refused)) (Transport.new 0) [.start, .stop, .stop] with
      | .ok _ => true | _ => false) = true := by decide +kernel
  split at this
  · next s hs => exact ⟨s, hs⟩
  · cases this

end Verif.Props
