import Verif.Props.Ports

/-! # C149: exactly which addresses and ports a node listens on, and what follows for C59 to C61 -/

namespace Verif.Props
open Verif Model Transport Lemmas

/-! ## Specification -/

/-- A host that does not change: its available interfaces, the addresses of each, and whether a
server can be started on an address and port. -/
structure HostSpec where
  nifs : List NetIf
  addrs : NetIf → List Str
  free : Str → Nat → Bool

/-- The system answers as the host says, for servers with or without TCP, and closing sockets does
not fail. -/
structure HostSpec.Of (H : HostSpec) (os : Os) (tcp : Bool) : Prop where
  ifs : ∀ t, ∃ ifis, getAvailableInterfaces os.toIfOs t = .ok ifis ∧ ifis.map (·.nif) = H.nifs
  addrs : ∀ t, ∀ n ∈ H.nifs, getInterfaceAddresses (os.addrs t n) = .ok (H.addrs n)
  free : ∀ a p, H.free a p = true → ∀ t, os.udp t a p = .ok ∧ (tcp = true → os.tcp t a p = .ok)
  taken : ∀ a p, H.free a p = false →
    (∀ t, os.udp t a p ≠ .ok) ∨ tcp = true ∧ ∀ t, os.tcp t a p ≠ .ok
  close : ∀ t, os.closeErr t = false

/-- What one attempt with a port binds: of each interface the addresses before the first that is
not free. -/
def HostSpec.attempt (H : HostSpec) (p : Nat) : List (Option NetIf × Str × Nat) :=
  H.nifs.flatMap fun n => ((H.addrs n).takeWhile (H.free · p)).map fun a => (some n, a, p)

/-- The port is free on all addresses of the last interface. -/
def HostSpec.Suits (H : HostSpec) (p : Nat) : Prop :=
  ∀ n, H.nifs.getLast? = some n → ∀ a ∈ H.addrs n, H.free a p = true

/-- Interface, address and port of each server. -/
def listening (s : Transport) : List (Option NetIf × Str × Nat) :=
  s.uservers.map fun u => (u.ifi.map (·.nif), u.addr, u.port)

/-- Every server has an open socket with its address and port. -/
def EachOpen (s : Transport) : Prop :=
  ∀ u ∈ s.uservers, ∃ x ∈ s.world.opened, u.udp = some x ∧ x.proto = .udp ∧ x.addr = u.addr ∧ x.port = u.port

/-! ## The loops -/

theorem server_free {H : HostSpec} {os : Os} {tcp : Bool} (hh : H.Of os tcp) (w : World) (i : IfPtr) (a : Str) (p : Nat) :
    ((UServer.new tcp).start os w i a p).1 = none ↔ H.free a p = true := by
  unfold UServer.start udpBind
  cases hf : H.free a p with
  | true =>
    obtain ⟨h1, -⟩ := hh.free a p hf w.clock
    rw [h1]
    cases tcp with
    | false => exact ⟨fun _ => rfl, fun _ => rfl⟩
    | true =>
      refine ⟨fun _ => rfl, fun _ => ?_⟩
      dsimp only [UServer.new]
      rw [if_pos rfl]
      unfold tcpBind
      rw [(hh.free a p hf _).2 rfl]
  | false =>
    refine ⟨fun hx => ?_, fun h => (by cases h)⟩
    exfalso
    rcases hh.taken a p hf with h1 | ⟨rfl, h1⟩
    · have := h1 w.clock
      cases hu : os.udp w.clock a p with
      | ok => exact this hu
      | refused => rw [hu] at hx; cases hx
      | noRaw => rw [hu] at hx; cases hx
      | badOption => rw [hu] at hx; cases hx
    · cases hu : os.udp w.clock a p with
      | ok =>
        rw [hu] at hx
        dsimp only [UServer.new] at hx
        rw [if_pos rfl] at hx
        unfold tcpBind at hx
        have := h1 (w.opening .udp a p).2.clock
        cases ht : os.tcp (w.opening .udp a p).2.clock a p with
        | ok => exact this ht
        | refused => rw [ht] at hx; cases hx
        | noRaw => rw [ht] at hx; cases hx
        | badOption => rw [ht] at hx; cases hx
      | refused => rw [hu] at hx; cases hx
      | noRaw => rw [hu] at hx; cases hx
      | badOption => rw [hu] at hx; cases hx

/-- What an attempt keeps. -/
structure Kept (s s' : Transport) : Prop where
  good : Good s'
  config : s'.config = s.config
  port : s'.port = s.port

theorem at_exact {H : HostSpec} {os : Os} {s : Transport} (h : Good s) (hh : H.Of os s.config.unicast.tcpEnabled)
    (i : IfPtr) (a : Str) (p : Nat) {e : Option Err} {s' : Transport} (hs : s.startUnicastAt os i a p = (e, s')) :
    Kept s s' ∧ (e = none ↔ H.free a p = true) ∧
      listening s' = listening s ++ (if H.free a p then [(some i.nif, a, p)] else []) := by
  obtain ⟨a1, -, -, a4, a5, a6, a7, -⟩ := startUnicastAt_spec os h i a p hs
  have he : e = none ↔ H.free a p = true := by
    rw [← server_free hh s.world i a p]
    unfold Transport.startUnicastAt at hs
    rcases hu : (UServer.new s.config.unicast.tcpEnabled).start os s.world i a p with ⟨_ | e1, u, w⟩
    · rw [hu] at hs; cases hs; exact ⟨fun _ => rfl, fun _ => rfl⟩
    · rw [hu] at hs; cases hs; exact ⟨fun h => (by cases h), fun h => (by cases h)⟩
  refine ⟨⟨a1, a4, a5⟩, he, ?_⟩
  cases e with
  | none =>
    obtain ⟨u, b1, b2, b3, b4, -⟩ := a6 rfl
    rw [if_pos (he.mp rfl)]
    unfold listening
    rw [b1, List.map_append]
    simp [b2, b3, b4]
  | some e =>
    rw [if_neg (fun hf => (by cases he.mpr hf))]
    unfold listening
    rw [a7 (by simp), List.append_nil]

theorem addrs_exact {H : HostSpec} {os : Os} {tcp : Bool} (hh : H.Of os tcp)
    (i : IfPtr) (p : Nat) (as : List Str) (le : Option Err) {s : Transport} (h : Good s)
    (ht : s.config.unicast.tcpEnabled = tcp) {e : Option Err} {s' : Transport}
    (hs : bindAddrs os i p as le s = (e, s')) :
    Kept s s' ∧ (as ≠ [] → (e = none ↔ ∀ a ∈ as, H.free a p = true)) ∧
      listening s' = listening s ++ (as.takeWhile (H.free · p)).map fun a => (some i.nif, a, p) := by
  induction as generalizing le s with
  | nil => cases hs; exact ⟨⟨h, rfl, rfl⟩, fun h => absurd rfl h, by simp⟩
  | cons a as ih =>
    unfold bindAddrs at hs
    rcases ha : s.startUnicastAt os i a p with ⟨e1, s1⟩
    obtain ⟨k1, k2, k3⟩ := at_exact h (ht ▸ hh) i a p ha
    rw [ha] at hs
    cases e1 with
    | none =>
      have hf := k2.mp rfl
      obtain ⟨c1, c2, c3⟩ := ih none k1.good (by rw [k1.config, ht]) hs
      refine ⟨⟨c1.good, c1.config.trans k1.config, c1.port.trans k1.port⟩, fun _ => ?_, ?_⟩
      · rw [List.forall_mem_cons]
        cases as with
        | nil => cases hs; exact ⟨fun _ => ⟨hf, fun _ h => (by cases h)⟩, fun _ => rfl⟩
        | cons b as => rw [c2 (by simp)]; exact ⟨fun h => ⟨hf, h⟩, fun h => h.2⟩
      · rw [c3, k3, if_pos hf, List.takeWhile_cons_of_pos (p := (H.free · p)) hf, List.map_cons, List.append_assoc]
        rfl
    | some e1 =>
      have hf : ¬ H.free a p = true := fun hf => (by cases k2.mpr hf)
      cases hs
      refine ⟨k1, fun _ => ⟨fun h => (by cases h), fun h => absurd (h a (List.mem_cons_self ..)) hf⟩, ?_⟩
      rw [k3, if_neg hf, List.takeWhile_cons_of_neg (p := (H.free · p)) hf]
      rfl

theorem tick_good {s : Transport} (h : Good s) : Good { s with world := s.world.tick } := h.ext (tick_ext h.wwf 1)

theorem ifs_exact {H : HostSpec} {os : Os} {tcp : Bool} (hh : H.Of os tcp)
    (p : Nat) (is : List IfPtr) (hi : ∀ i ∈ is, i.nif ∈ H.nifs) (le : Option Err) {s : Transport} (h : Good s)
    (ht : s.config.unicast.tcpEnabled = tcp) {e : Option Err} {s' : Transport}
    (hs : bindIfs os p is le s = (e, s')) :
    Kept s s' ∧ (is ≠ [] → (e = none ↔ ∀ n, (is.map (·.nif)).getLast? = some n → ∀ a ∈ H.addrs n, H.free a p = true)) ∧
      listening s' = listening s ++ (is.map (·.nif)).flatMap fun n =>
        ((H.addrs n).takeWhile (H.free · p)).map fun a => (some n, a, p) := by
  induction is generalizing le s with
  | nil => cases hs; exact ⟨⟨h, rfl, rfl⟩, fun h => absurd rfl h, by simp⟩
  | cons i is ih =>
    have hg := hh.addrs s.world.clock i.nif (hi i (List.mem_cons_self ..))
    unfold bindIfs at hs
    rw [hg] at hs
    dsimp only at hs
    rcases hb : bindAddrs os i p (H.addrs i.nif) le { s with world := s.world.tick } with ⟨e1, s1⟩
    rw [hb] at hs
    dsimp only at hs
    obtain ⟨k1, k2, k3⟩ := addrs_exact hh i p _ le (tick_good h) ht hb
    obtain ⟨c1, c2, c3⟩ := ih (fun j hj => hi j (List.mem_cons_of_mem _ hj)) e1 k1.good (by rw [k1.config]; exact ht) hs
    refine ⟨⟨c1.good, c1.config.trans k1.config, c1.port.trans k1.port⟩, fun _ => ?_, ?_⟩
    · cases is with
      | nil =>
        cases hs
        rw [k2 (addresses_ne hg)]
        constructor
        · intro h n hn
          cases hn
          exact h
        · exact fun h => h _ rfl
      | cons j is =>
        rw [c2 (by simp)]
        have : (List.map (fun x : IfPtr => x.nif) (i :: j :: is)).getLast? = (List.map (fun x : IfPtr => x.nif) (j :: is)).getLast? := by
          rw [List.map_cons, List.map_cons, List.getLast?_cons_cons]
        rw [this]
    · rw [c3, k3, List.map_cons, List.flatMap_cons, List.append_assoc]
      rfl

theorem attempt_exact {H : HostSpec} {os : Os} {tcp : Bool} (hh : H.Of os tcp)
    (p : Nat) {is : List IfPtr} (hi : is.map (·.nif) = H.nifs) (hne : is ≠ []) (le : Option Err) {s : Transport} (h : Good s)
    (ht : s.config.unicast.tcpEnabled = tcp) {e : Option Err} {s' : Transport}
    (hs : bindIfs os p is le s = (e, s')) :
    Kept s s' ∧ (e = none ↔ H.Suits p) ∧ listening s' = listening s ++ H.attempt p := by
  obtain ⟨a1, a2, a3⟩ := ifs_exact hh p is (fun i hi' => hi ▸ List.mem_map.mpr ⟨i, hi', rfl⟩) le h ht hs
  rw [hi] at a2 a3
  exact ⟨a1, a2 hne, a3⟩

theorem retry_exact {H : HostSpec} {os : Os} {tcp : Bool} (hh : H.Of os tcp)
    (p : Nat) {is : List IfPtr} (hi : is.map (·.nif) = H.nifs) (hne : is ≠ []) (n : Nat) (le : Option Err) {s : Transport} (h : Good s)
    (ht : s.config.unicast.tcpEnabled = tcp) {e : Option Err} {s' : Transport}
    (hs : bindRetry os p is n le s = (e, s')) :
    Kept s s' ∧ (e = none ↔ H.Suits p) ∧
      (H.Suits p → listening s' = listening s ++ H.attempt p) ∧
      (¬ H.Suits p → listening s' = listening s ++ (List.replicate (n + 1) (H.attempt p)).flatten) := by
  induction n generalizing le s with
  | zero =>
    obtain ⟨a1, a2, a3⟩ := attempt_exact hh p hi hne le h ht hs
    exact ⟨a1, a2, fun _ => a3, fun _ => by rw [a3]; simp⟩
  | succ n ih =>
    unfold bindRetry at hs
    rcases hb : bindIfs os p is le s with ⟨_ | e1, s1⟩
    · obtain ⟨a1, a2, a3⟩ := attempt_exact hh p hi hne le h ht hb
      rw [hb] at hs
      cases hs
      exact ⟨a1, a2, fun _ => a3, fun hn => absurd (a2.mp rfl) hn⟩
    · obtain ⟨a1, a2, a3⟩ := attempt_exact hh p hi hne le h ht hb
      rw [hb] at hs
      have hn : ¬ H.Suits p := fun h => (by cases a2.mpr h)
      obtain ⟨c1, c2, c3, c4⟩ := ih (some e1) a1.good (by rw [a1.config, ht]) hs
      refine ⟨⟨c1.good, c1.config.trans a1.config, c1.port.trans a1.port⟩, c2, fun h => absurd h hn, fun _ => ?_⟩
      rw [c4 hn, a3, List.append_assoc]
      rfl

theorem ports_exact {H : HostSpec} {os : Os} {tcp : Bool} (hh : H.Of os tcp)
    {is : List IfPtr} (hi : is.map (·.nif) = H.nifs) (hne : is ≠ []) (n p : Nat) (le : Option Err) {s : Transport} (h : Good s)
    (ht : s.config.unicast.tcpEnabled = tcp) {e : Option Err} {s' : Transport}
    (hs : bindPorts os is 0 n p le s = (e, s')) :
    (∀ q, p ≤ q → q ≤ p + n → H.Suits q → (∀ r, p ≤ r → r < q → ¬ H.Suits r) →
      e = none ∧ s'.port = q ∧ listening s' = listening s ++ (List.range' p (q - p + 1)).flatMap H.attempt) ∧
    ((∀ r, p ≤ r → r ≤ p + n → ¬ H.Suits r) →
      e ≠ none ∧ s'.port = s.port ∧ listening s' = listening s ++ (List.range' p (n + 1)).flatMap H.attempt) := by
  induction n generalizing p le s with
  | zero =>
    unfold bindPorts at hs
    rcases hb : bindRetry os p is 0 le s with ⟨e1, s1⟩
    obtain ⟨a1, a2, a3, a4⟩ := retry_exact hh p hi hne 0 le h ht hb
    rw [hb] at hs
    constructor
    · intro q h1 h2 hq _
      obtain rfl : q = p := by omega
      obtain rfl := a2.mpr hq
      cases hs
      refine ⟨rfl, rfl, ?_⟩
      rw [Nat.sub_self]
      show listening s1 = _
      rw [a3 hq]
      simp
    · intro hr
      have hn := hr p (Nat.le_refl _) (Nat.le_refl _)
      cases e1 with
      | none => exact absurd (a2.mp rfl) hn
      | some e1 =>
        cases hs
        exact ⟨by simp, a1.port, by rw [a4 hn]; simp⟩
  | succ n ih =>
    unfold bindPorts at hs
    rcases hb : bindRetry os p is 0 le s with ⟨e1, s1⟩
    obtain ⟨a1, a2, a3, a4⟩ := retry_exact hh p hi hne 0 le h ht hb
    rw [hb] at hs
    cases e1 with
    | none =>
      have hp := a2.mp rfl
      cases hs
      constructor
      · intro q h1 h2 hq hr
        have : q = p := by
          rcases Nat.lt_or_ge p q with hlt | hge
          · exact absurd hp (hr p (Nat.le_refl _) hlt)
          · omega
        subst this
        refine ⟨rfl, rfl, ?_⟩
        rw [Nat.sub_self]
        show listening s1 = _
        rw [a3 hq]
        simp
      · intro hr
        exact absurd hp (hr p (Nat.le_refl _) (Nat.le_add_right _ _))
    | some e1 =>
      have hn : ¬ H.Suits p := fun h => (by cases a2.mpr h)
      obtain ⟨c1, c2⟩ := ih (p + 1) (some e1) a1.good (by rw [a1.config, ht]) hs
      have a4 : listening s1 = listening s ++ H.attempt p := by rw [a4 hn]; simp
      constructor
      · intro q h1 h2 hq hr
        have hlt : p < q := by
          rcases Nat.lt_or_ge p q with hlt | hge
          · exact hlt
          · obtain rfl : q = p := by omega
            exact absurd hq hn
        obtain ⟨d1, d2, d3⟩ := c1 q hlt (by omega) hq (fun r h1 h2 => hr r (by omega) h2)
        refine ⟨d1, d2, ?_⟩
        rw [d3, a4, show q - p + 1 = (q - (p + 1) + 1) + 1 by omega,
          show List.range' p (q - (p + 1) + 1 + 1) = p :: List.range' (p + 1) (q - (p + 1) + 1) from rfl,
          List.flatMap_cons, List.append_assoc]
      · intro hr
        obtain ⟨d1, d2, d3⟩ := c2 (fun r h1 h2 => hr r (by omega) (by omega))
        refine ⟨d1, d2.trans a1.port, ?_⟩
        rw [d3, a4, show List.range' p (n + 1 + 1) = p :: List.range' (p + 1) (n + 1) from rfl,
          List.flatMap_cons, List.append_assoc]

/-! ## Stopping without errors -/

theorem udpClose_quiet {os : Os} (hc : ∀ t, os.closeErr t = false) (w : World) (c : Option Sock) : (udpClose os w c).1 = none := by
  cases c with
  | none => rfl
  | some x => unfold udpClose World.close; rw [hc]; rfl

theorem tcpClose_quiet {os : Os} (hc : ∀ t, os.closeErr t = false) (w : World) (c : Option Sock) : (tcpClose os w c).1 = none := by
  cases c with
  | none => rfl
  | some x => unfold tcpClose World.close; rw [hc]; rfl

theorem userverStop_quiet {os : Os} (hc : ∀ t, os.closeErr t = false) {w : World} {u u' : UServer} {e : Option Err} {w' : World}
    (h : u.stop os w = .ok (e, u', w')) : e = none := by
  unfold UServer.stop at h
  obtain ⟨uc, -, h⟩ := Res.bind_eq_ok.mp h
  have h1 := udpClose_quiet hc w u.udp
  rcases hu : udpClose os w u.udp with ⟨e1, c, w1⟩
  rw [hu] at h h1
  dsimp only at h h1
  split at h
  · obtain ⟨tc, -, h⟩ := Res.bind_eq_ok.mp h
    have h2 := tcpClose_quiet hc w1 u.tcp
    rcases ht : tcpClose os w1 u.tcp with ⟨e2, l, w2⟩
    rw [ht] at h h2
    dsimp only at h h2
    subst h1 h2
    cases h
    rfl
  · cases h
    exact h1

theorem stopUServers_quiet {os : Os} (hc : ∀ t, os.closeErr t = false) (us : List UServer) {w w' : World} {e : Option Err}
    (h : stopUServers os us none w = .ok (e, w')) : e = none := by
  induction us generalizing w with
  | nil => cases h; rfl
  | cons u us ih =>
    unfold stopUServers at h
    obtain ⟨⟨e1, u1, w1⟩, h1, h⟩ := Res.bind_eq_ok.mp h
    have := userverStop_quiet hc h1
    subst this
    exact ih h

theorem stopUnicast_quiet {os : Os} (hc : ∀ t, os.closeErr t = false) {s s' : Transport} {e : Option Err}
    (h : s.stopUnicast os = .ok (e, s')) : e = none := by
  unfold Transport.stopUnicast at h
  obtain ⟨⟨e1, w1⟩, h1, h⟩ := Res.bind_eq_ok.mp h
  have := stopUServers_quiet hc _ h1
  cases h
  exact this

theorem stopMServers_quiet {os : Os} (hc : ∀ t, os.closeErr t = false) (ms : List MServer) (w : World) :
    (stopMServers os ms none w).1 = none := by
  induction ms generalizing w with
  | nil => rfl
  | cons m ms ih =>
    have h1 := udpClose_quiet hc w m.conn
    unfold stopMServers
    rcases hu : udpClose os w m.conn with ⟨e1, c, w1⟩
    rw [hu] at h1
    dsimp only at h1 ⊢
    subst h1
    exact ih w1

theorem stopMulticast_quiet {os : Os} (hc : ∀ t, os.closeErr t = false) (s : Transport) : (s.stopMulticast os).1 = none :=
  stopMServers_quiet hc _ _

theorem stop_quiet {os : Os} (hc : ∀ t, os.closeErr t = false) {s s' : Transport} {e : Option Err}
    (h : s.stop os = .ok (e, s')) : e = none := by
  unfold Transport.stop at h
  have h0 := stopMulticast_quiet hc s
  rcases hm : s.stopMulticast os with ⟨e1, s1⟩
  rw [hm] at h h0
  dsimp only at h h0
  obtain ⟨⟨e2, s2⟩, h1, h⟩ := Res.bind_eq_ok.mp h
  have := stopUnicast_quiet hc h1
  subst this h0
  cases h
  rfl

/-! ## C149 -/

theorem good_open {s : Transport} (h : Good s) : EachOpen s := fun u hu => by
  obtain ⟨x, h1, h2, h3, h4, h5⟩ := (h.us u hu).udp
  exact ⟨x, h2, h1, h3, h4, h5⟩

/-- The start of the unicast manager, as attempts. -/
theorem startUnicast_host {H : HostSpec} {os : Os} {s : Transport} (h : Good s) (hh : H.Of os s.config.unicast.tcpEnabled) :
    ∃ e s' is s1, s.startUnicast os = .ok (e, s') ∧ Good s' ∧ is.map (·.nif) = H.nifs ∧ is ≠ [] ∧
      Good s1 ∧ s1.config = s.config ∧ s1.port = s.port ∧ listening s1 = [] ∧
      (e, s') = bindPorts os is (if s.config.autoPortBindingEnabled then 0 else s.config.unicast.bindRetryCount.toNat)
        (if s.config.autoPortBindingEnabled then udpPortRange else 0) s.port none s1 := by
  obtain ⟨e, s', hst, e0, s0, hs0, hc⟩ := startUnicast_cases os h
  obtain ⟨e1, s1, k1, k2, k3, k4, k5, k6, -⟩ := stopUnicast_spec os h
  obtain ⟨e2, s2, l1, l2, -⟩ := startUnicast_spec os h
  rw [hst] at l1
  cases l1
  rw [k1] at hs0
  obtain ⟨rfl, rfl⟩ : e1 = e0 ∧ s1 = s0 := by cases hs0; exact ⟨rfl, rfl⟩
  have hq := stopUnicast_quiet hh.close k1
  obtain ⟨is, i1, i2⟩ := hh.ifs s1.world.clock
  rcases hc with ⟨h0, -, -⟩ | ⟨-, hno, -, -⟩ | ⟨-, ifis, r, hg, hr, hb⟩
  · exact absurd hq h0
  · exact absurd i1 (hno is)
  · rw [i1] at hg
    cases hg
    have ha := afterInterfaces_ext os k2.wwf
    refine ⟨e, s', is, { s1 with world := afterInterfaces os s1.world }, hst, l2, i2, available_ne i1,
      k2.ext ha.1, k5, k6, ?_, ?_⟩
    · show s1.uservers.map _ = []
      rw [k3]
      rfl
    · rw [hb, hr, k5]

/-- Without automatic port binding. -/
theorem fixed_aux {H : HostSpec} {os : Os} {s : Transport} (h : Good s)
    (hh : H.Of os s.config.unicast.tcpEnabled) (ha : s.config.autoPortBindingEnabled = false) :
    ∃ e s', s.startUnicast os = .ok (e, s') ∧ s'.port = s.port ∧ (e = none ↔ H.Suits s.port) ∧
      (H.Suits s.port → listening s' = H.attempt s.port) ∧
      (¬ H.Suits s.port → listening s'
        = (List.replicate (s.config.unicast.bindRetryCount.toNat + 1) (H.attempt s.port)).flatten) := by
  obtain ⟨e, s', is, s1, a1, a2, a3, a4, a5, a6, a7, a8, a9⟩ := startUnicast_host h hh
  rw [ha] at a9
  simp only [Bool.false_eq_true, if_false] at a9
  unfold bindPorts at a9
  rcases hb : bindRetry os s.port is s.config.unicast.bindRetryCount.toNat none s1 with ⟨e1, s2⟩
  obtain ⟨c1, c2, c3, c4⟩ := retry_exact hh s.port a3 a4 _ none a5 (by rw [a6]) hb
  rw [hb] at a9
  rw [a8, List.nil_append] at c3 c4
  cases e1 with
  | none =>
    cases a9
    exact ⟨none, _, a1, rfl, ⟨fun _ => c2.mp rfl, fun _ => rfl⟩, c3, c4⟩
  | some e1 =>
    cases a9
    exact ⟨some e1, s', a1, c1.port.trans a7, c2, c3, c4⟩

/-- With automatic port binding; the numbers are variables to keep the terms small. -/
theorem automatic_aux {H : HostSpec} {os : Os} {s : Transport} (h : Good s)
    (hh : H.Of os s.config.unicast.tcpEnabled) (ha : s.config.autoPortBindingEnabled = true)
    (N M : Nat) (hN : udpPortRange = N) (hM : N + 1 = M) :
    ∃ e s', s.startUnicast os = .ok (e, s') ∧
      (∀ q, s.port ≤ q → q ≤ s.port + N → H.Suits q → (∀ r, s.port ≤ r → r < q → ¬ H.Suits r) →
        e = none ∧ s'.port = q ∧ listening s' = (List.range' s.port (q - s.port + 1)).flatMap H.attempt) ∧
      ((∀ r, s.port ≤ r → r ≤ s.port + N → ¬ H.Suits r) →
        e ≠ none ∧ s'.port = s.port ∧ listening s' = (List.range' s.port M).flatMap H.attempt) := by
  subst hM
  obtain ⟨e, s', is, s1, a1, a2, a3, a4, a5, a6, a7, a8, a9⟩ := startUnicast_host h hh
  rw [ha, hN] at a9
  simp only [if_true] at a9
  obtain ⟨c1, c2⟩ := ports_exact hh a3 a4 _ _ none a5 (by rw [a6]) a9.symm
  rw [a8] at c1 c2
  simp only [List.nil_append] at c1 c2
  rw [a7] at c2
  exact ⟨e, s', a1, c1, c2⟩

/-! ## The whole start -/

theorem joinAddrs_ok {os : Os} (hm : ∀ t i, os.mcast t i = .ok) (i : IfPtr) (as : List Str) (has : [] ∉ as) (s : Transport) :
    (joinAddrs os i as s).1 = none := by
  induction as generalizing s with
  | nil => rfl
  | cons a as ih =>
    rw [List.mem_cons, not_or] at has
    have hv : (isIPv4Address a || isIPv6Address a) = true := by
      unfold isIPv4Address
      rw [if_neg (fun h => has.1 (List.length_eq_zero_iff.mp h).symm)]
      cases isIPv6Address a <;> rfl
    unfold joinAddrs startMulticastAt mcastBind
    rw [if_pos hv, hm]
    exact ih has.2 _

theorem joinIfs_ok {H : HostSpec} {os : Os} {tcp : Bool} (hh : H.Of os tcp) (hm : ∀ t i, os.mcast t i = .ok)
    (hne : ∀ n ∈ H.nifs, [] ∉ H.addrs n) (is : List IfPtr) (hi : ∀ i ∈ is, i.nif ∈ H.nifs) (s : Transport) :
    (joinIfs os is s).1 = none := by
  induction is generalizing s with
  | nil => rfl
  | cons i is ih =>
    have h0 := hi i (List.mem_cons_self ..)
    unfold joinIfs
    rw [hh.addrs _ _ h0]
    dsimp only
    have h1 := joinAddrs_ok hm i (H.addrs i.nif) (hne _ h0) { s with world := s.world.tick }
    generalize joinAddrs os i (H.addrs i.nif) { s with world := s.world.tick } = r at h1 ⊢
    obtain ⟨e, s1⟩ := r
    have h1 : e = none := h1
    subst h1
    exact ih (fun j hj => hi j (List.mem_cons_of_mem _ hj)) _

theorem startMulticast_ok {H : HostSpec} {os : Os} {tcp : Bool} (hh : H.Of os tcp) (hm : ∀ t i, os.mcast t i = .ok)
    (hne : ∀ n ∈ H.nifs, [] ∉ H.addrs n) (s : Transport) : (s.startMulticast os).1 = none := by
  have h0 := stopMulticast_quiet hh.close s
  unfold Transport.startMulticast
  generalize s.stopMulticast os = r at h0 ⊢
  obtain ⟨e, s1⟩ := r
  have h0 : e = none := h0
  subst h0
  dsimp only
  obtain ⟨is, i1, i2⟩ := hh.ifs s1.world.clock
  rw [i1]
  exact joinIfs_ok hh hm hne is (fun i hi => i2 ▸ List.mem_map.mpr ⟨i, hi, rfl⟩) _

/-- The host that is described has an interface, and its interfaces have addresses. -/
theorem host_last {H : HostSpec} {os : Os} {tcp : Bool} (hh : H.Of os tcp) :
    ∃ n, H.nifs.getLast? = some n ∧ n ∈ H.nifs ∧ H.addrs n ≠ [] := by
  obtain ⟨is, i1, i2⟩ := hh.ifs 0
  have hne : H.nifs ≠ [] := by
    intro h
    rw [h, List.map_eq_nil_iff] at i2
    exact available_ne i1 i2
  have hl := List.getLast?_eq_some_getLast hne
  exact ⟨_, hl, List.mem_of_getLast? hl, addresses_ne (hh.addrs 0 _ (List.mem_of_getLast? hl))⟩

theorem suits_attempt {H : HostSpec} {os : Os} {tcp : Bool} (hh : H.Of os tcp) {p : Nat} (hp : H.Suits p) : H.attempt p ≠ [] := by
  obtain ⟨n, h1, h2, h3⟩ := host_last hh
  obtain ⟨a, ha⟩ := List.exists_mem_of_ne_nil _ h3
  intro h0
  have : (some n, a, p) ∈ H.attempt p := by
    refine List.mem_flatMap.mpr ⟨n, h2, List.mem_map.mpr ⟨a, ?_, rfl⟩⟩
    have hall : (H.addrs n).takeWhile (H.free · p) = H.addrs n := by
      have := hp n h1
      generalize H.addrs n = l at this
      induction l with
      | nil => rfl
      | cons b l ih =>
        rw [List.takeWhile_cons_of_pos (p := (H.free · p)) (this b (List.mem_cons_self ..)),
          ih (fun c hc => this c (List.mem_cons_of_mem _ hc))]
    rw [hall]
    exact ha
  rw [h0] at this
  cases this

/-- A start is the start of its unicast part. -/
theorem start_host {H : HostSpec} {os : Os} {s : Transport} (h : Good s) (hh : H.Of os s.config.unicast.tcpEnabled) :
    ∃ s0, Good s0 ∧ s0.config = s.config ∧ s0.port = s.port ∧ ∀ e s1, s0.startUnicast os = .ok (e, s1) →
      (e ≠ none → s.start os = .ok (e, s1)) ∧
      ((∀ t i, os.mcast t i = .ok) → (∀ n ∈ H.nifs, [] ∉ H.addrs n) → listening s1 ≠ [] →
        ∃ s', s.start os = .ok (e, s') ∧ s'.port = s1.port ∧ listening s' = listening s1) := by
  obtain ⟨e0, s0, k1, k2, k3, k4, k5, k6, -⟩ := stop_spec os h
  obtain rfl := stop_quiet hh.close k1
  refine ⟨s0, k2, k5, k6, fun e s1 hs1 => ?_⟩
  obtain ⟨e', s1', l1, l2, -⟩ := startUnicast_spec os k2
  rw [hs1] at l1
  cases l1
  have hfail : e ≠ none → s.start os = .ok (e, s1) := by
    intro he
    unfold Transport.start
    rw [k1]
    simp only [Res.ok_bind]
    rw [hs1]
    cases e with
    | none => exact absurd rfl he
    | some e => rfl
  refine ⟨hfail, fun hm hne hl => ?_⟩
  cases e with
  | some e => exact ⟨s1, hfail (by simp), rfl, rfl⟩
  | none =>
    have hk := startMulticast_ok hh hm hne s1
    rcases hb : s1.startMulticast os with ⟨e2, s2⟩
    rw [hb] at hk
    dsimp only at hk
    subst hk
    obtain ⟨b1, -⟩ := startMulticast_spec os l2 hb
    rcases hu : s2.setUnicastManager os with ⟨e3, s3⟩
    obtain ⟨c1, -, c3, -⟩ := setUnicastManager_spec os b1.good hu
    have he3 : e3 = none := by
      cases e3 with
      | none => rfl
      | some e3 =>
        have : s2.uservers = [] := c3 (by simp)
        rw [b1.us] at this
        exact absurd (by unfold listening; rw [this]; rfl) hl
    subst he3
    refine ⟨{ s3 with port := s3.port }, ?_, (c1.port.trans b1.port), ?_⟩
    · unfold Transport.start
      rw [k1]
      simp only [Res.ok_bind]
      rw [hs1]
      simp only [Res.ok_bind]
      rw [hb]
      dsimp only
      rw [hu]
    · unfold listening
      rw [show ({ s3 with port := s3.port } : Transport).uservers = s1.uservers from c1.us.trans b1.us]

theorem start_good {os : Os} {s s' : Transport} {e : Option Err} (h : Good s) (hs : s.start os = .ok (e, s')) : Good s' := by
  obtain ⟨e1, s1, a1, a2, -⟩ := start_spec os h
  rw [hs] at a1
  cases a1
  exact a2

/-- C149. Starting without automatic port binding, on a host that does not change and on which the
multicast group can be joined: when the configured port is free on all addresses of the last
interface the start succeeds, and the node listens on the addresses of each interface before the
first that is not free. Otherwise it fails, and the servers of all attempts stay. -/
theorem C149_fixed_port (H : HostSpec) (os : Os) (s : Transport) (h : Reachable os s)
    (hh : H.Of os s.config.unicast.tcpEnabled) (hm : ∀ t i, os.mcast t i = .ok) (hne : ∀ n ∈ H.nifs, [] ∉ H.addrs n)
    (ha : s.config.autoPortBindingEnabled = false) :
    ∃ e s', s.start os = .ok (e, s') ∧ EachOpen s' ∧ s'.port = s.port ∧ (e = none ↔ H.Suits s.port) ∧
      (H.Suits s.port → listening s' = H.attempt s.port) ∧
      (¬ H.Suits s.port → listening s'
        = (List.replicate (s.config.unicast.bindRetryCount.toNat + 1) (H.attempt s.port)).flatten) := by
  have hg := reachable_good h
  obtain ⟨s0, g0, c0, p0, hst⟩ := start_host hg hh
  obtain ⟨e, s1, a1, a3, a4, a5, a6⟩ := fixed_aux g0 (by rw [c0]; exact hh) (by rw [c0]; exact ha)
  rw [p0] at a3 a4 a5 a6
  rw [c0] at a6
  obtain ⟨b1, b2⟩ := hst e s1 a1
  by_cases hp : H.Suits s.port
  · have hl : listening s1 ≠ [] := by rw [a5 hp]; exact suits_attempt hh hp
    obtain ⟨s', d1, d2, d3⟩ := b2 hm hne hl
    exact ⟨e, s', d1, good_open (start_good hg d1), d2.trans a3, a4, fun hp => d3.trans (a5 hp), fun hn => absurd hp hn⟩
  · have d1 := b1 (fun he => hp (a4.mp he))
    exact ⟨e, s1, d1, good_open (start_good hg d1), a3, a4, a5, a6⟩

theorem automatic_start {H : HostSpec} {os : Os} {s : Transport} (hg : Good s)
    (hh : H.Of os s.config.unicast.tcpEnabled) (hm : ∀ t i, os.mcast t i = .ok) (hne : ∀ n ∈ H.nifs, [] ∉ H.addrs n)
    (ha : s.config.autoPortBindingEnabled = true)
    (N M : Nat) (hN : udpPortRange = N) (hM : N + 1 = M) :
    (∀ q, s.port ≤ q → q ≤ s.port + N → H.Suits q → (∀ r, s.port ≤ r → r < q → ¬ H.Suits r) →
      ∃ s', s.start os = .ok (none, s') ∧ EachOpen s' ∧ s'.port = q ∧
        listening s' = (List.range' s.port (q - s.port + 1)).flatMap H.attempt) ∧
    ((∀ r, s.port ≤ r → r ≤ s.port + N → ¬ H.Suits r) →
      ∃ e s', s.start os = .ok (some e, s') ∧ EachOpen s' ∧ s'.port = s.port ∧
        listening s' = (List.range' s.port M).flatMap H.attempt) := by
  obtain ⟨s0, g0, c0, p0, hst⟩ := start_host hg hh
  obtain ⟨e, s1, a1, a3, a4⟩ := automatic_aux g0 (by rw [c0]; exact hh) (by rw [c0]; exact ha) N M hN hM
  rw [p0] at a3 a4
  obtain ⟨b1, b2⟩ := hst e s1 a1
  constructor
  · intro q h1 h2 hq hr
    obtain ⟨rfl, e2, e3⟩ := a3 q h1 h2 hq hr
    have hl : listening s1 ≠ [] := by
      rw [e3]
      intro h0
      rw [List.flatMap_eq_nil_iff] at h0
      exact suits_attempt hh hq (h0 q (List.mem_range'_1.mpr ⟨h1, by omega⟩))
    obtain ⟨s', d1, d2, d3⟩ := b2 hm hne hl
    exact ⟨s', d1, good_open (start_good hg d1), d2.trans e2, d3.trans e3⟩
  · intro hr
    obtain ⟨e1, e2, e3⟩ := a4 hr
    have d1 := b1 e1
    cases e with
    | none => exact absurd rfl e1
    | some e => exact ⟨e, s1, d1, good_open (start_good hg d1), e2, e3⟩

/-- C149. Starting with automatic port binding, on such a host: the ports are tried from the port
set to 100 above, the first that is free on all addresses of the last interface is taken, and it is
what `Port` says; the servers of the ports tried before stay. If there is no such port the start
fails, and all servers stay. -/
theorem C149_automatic_port (H : HostSpec) (os : Os) (s : Transport) (h : Reachable os s)
    (hh : H.Of os s.config.unicast.tcpEnabled) (hm : ∀ t i, os.mcast t i = .ok) (hne : ∀ n ∈ H.nifs, [] ∉ H.addrs n)
    (ha : s.config.autoPortBindingEnabled = true) :
    (∀ q, s.port ≤ q → q ≤ s.port + 100 → H.Suits q → (∀ r, s.port ≤ r → r < q → ¬ H.Suits r) →
      ∃ s', s.start os = .ok (none, s') ∧ EachOpen s' ∧ s'.port = q ∧
        listening s' = (List.range' s.port (q - s.port + 1)).flatMap H.attempt) ∧
    ((∀ r, s.port ≤ r → r ≤ s.port + 100 → ¬ H.Suits r) →
      ∃ e s', s.start os = .ok (some e, s') ∧ EachOpen s' ∧ s'.port = s.port ∧
        listening s' = (List.range' s.port 101).flatMap H.attempt) :=
  automatic_start (reachable_good h) hh hm hne ha 100 101 rfl rfl

/-! ## What follows for C59 to C61 -/

theorem takeWhile_mem {α : Type} {q : α → Bool} {l : List α} {x : α} (h : x ∈ l.takeWhile q) : q x = true := by
  induction l with
  | nil => cases h
  | cons y l ih =>
    cases hy : q y with
    | true =>
      rw [List.takeWhile_cons_of_pos hy] at h
      rcases List.mem_cons.mp h with rfl | h
      · exact hy
      · exact ih h
    | false =>
      rw [List.takeWhile_cons_of_neg (by rw [hy]; decide)] at h
      cases h

/-- C59 is false for every such host on which the port is free on all addresses of the last
interface but not on some address of another: the start succeeds and nothing listens on that
address, whatever the configuration. -/
theorem C59_refuted_any (H : HostSpec) (os : Os) (s : Transport) (h : Reachable os s)
    (hh : H.Of os s.config.unicast.tcpEnabled) (hm : ∀ t i, os.mcast t i = .ok) (hne : ∀ n ∈ H.nifs, [] ∉ H.addrs n)
    (hp : H.Suits s.port) (n : NetIf) (a : Str) (_hn : n ∈ H.nifs) (_hm : a ∈ H.addrs n) (hf : H.free a s.port = false) :
    ∃ s', s.start os = .ok (none, s') ∧ ∀ u ∈ s'.uservers, u.addr ≠ a := by
  have key : ∀ s', listening s' = H.attempt s.port → ∀ u ∈ s'.uservers, u.addr ≠ a := by
    intro s' hl u hu he
    have : (u.ifi.map (·.nif), u.addr, u.port) ∈ listening s' := List.mem_map.mpr ⟨u, hu, rfl⟩
    rw [hl] at this
    obtain ⟨m, -, hm2⟩ := List.mem_flatMap.mp this
    obtain ⟨b, hb, hb2⟩ := List.mem_map.mp hm2
    have hfb := takeWhile_mem hb
    rw [Prod.mk.injEq, Prod.mk.injEq] at hb2
    rw [hb2.2.1, he, hf] at hfb
    cases hfb
  cases ha : s.config.autoPortBindingEnabled with
  | false =>
    obtain ⟨e, s', a1, -, -, a4, a5, -⟩ := C149_fixed_port H os s h hh hm hne ha
    obtain rfl := a4.mpr hp
    exact ⟨s', a1, key s' (a5 hp)⟩
  | true =>
    obtain ⟨s', a1, -, -, a4⟩ := (C149_automatic_port H os s h hh hm hne ha).1 s.port (Nat.le_refl _)
      (Nat.le_add_right _ _) hp (fun r h1 h2 => absurd h1 (by omega))
    refine ⟨s', a1, key s' ?_⟩
    rw [a4, Nat.sub_self]
    simp

/-- C60 is false for every such host on which the configured port is free on the first address of
some interface but not on all addresses of the last one: without automatic port binding the start
fails and a socket stays open on that address. -/
theorem C60_refuted_any (H : HostSpec) (os : Os) (s : Transport) (h : Reachable os s)
    (hh : H.Of os s.config.unicast.tcpEnabled) (hm : ∀ t i, os.mcast t i = .ok) (hne : ∀ n ∈ H.nifs, [] ∉ H.addrs n)
    (ha : s.config.autoPortBindingEnabled = false) (hp : ¬ H.Suits s.port)
    (n : NetIf) (a : Str) (hn : n ∈ H.nifs) (hd : (H.addrs n).head? = some a) (hf : H.free a s.port = true) :
    ∃ e s', s.start os = .ok (some e, s') ∧
      ∃ x ∈ s'.world.opened, x.proto = .udp ∧ x.addr = a ∧ x.port = s.port := by
  obtain ⟨e, s', a1, a2, -, a4, -, a6⟩ := C149_fixed_port H os s h hh hm hne ha
  cases e with
  | none => exact absurd (a4.mp rfl) hp
  | some e =>
    have hmem : (some n, a, s.port) ∈ listening s' := by
      rw [a6 hp]
      refine List.mem_flatten.mpr ⟨H.attempt s.port, List.mem_replicate.mpr ⟨by omega, rfl⟩, ?_⟩
      refine List.mem_flatMap.mpr ⟨n, hn, List.mem_map.mpr ⟨a, ?_, rfl⟩⟩
      obtain ⟨l, hl⟩ := List.head?_eq_some_iff.mp hd
      rw [hl, List.takeWhile_cons_of_pos (p := (H.free · s.port)) hf]
      exact List.mem_cons_self ..
    obtain ⟨u, hu, hx⟩ := List.mem_map.mp hmem
    rw [Prod.mk.injEq, Prod.mk.injEq] at hx
    obtain ⟨x, x1, -, x3, x4, x5⟩ := a2 u hu
    exact ⟨e, s', a1, x, x1, x3, x4.trans hx.2.1, x5.trans hx.2.2⟩

/-- C61 is false for every such host on which the configured port is free on the first address of
some interface but not on all addresses of the last one, while a later port in the range is: with
automatic port binding the start succeeds, and the node listens on the configured port too although
`Port` is another. -/
theorem C61_refuted_any (H : HostSpec) (os : Os) (s : Transport) (h : Reachable os s)
    (hh : H.Of os s.config.unicast.tcpEnabled) (hm : ∀ t i, os.mcast t i = .ok) (hne : ∀ n ∈ H.nifs, [] ∉ H.addrs n)
    (ha : s.config.autoPortBindingEnabled = true) (hp : ¬ H.Suits s.port)
    (q : Nat) (hq1 : s.port ≤ q) (hq2 : q ≤ s.port + 100) (hq : H.Suits q) (hr : ∀ r, s.port ≤ r → r < q → ¬ H.Suits r)
    (n : NetIf) (a : Str) (hn : n ∈ H.nifs) (hd : (H.addrs n).head? = some a) (hf : H.free a s.port = true) :
    ∃ s', s.start os = .ok (none, s') ∧ s'.port = q ∧ q ≠ s.port ∧
      (∃ x ∈ s'.world.opened, x.proto = .udp ∧ x.port = q) ∧
      ∃ x ∈ s'.world.opened, x.proto = .udp ∧ x.addr = a ∧ x.port = s.port := by
  obtain ⟨s', a1, a2, a3, a4⟩ := (C149_automatic_port H os s h hh hm hne ha).1 q hq1 hq2 hq hr
  have hmem : (some n, a, s.port) ∈ listening s' := by
    rw [a4]
    refine List.mem_flatMap.mpr ⟨s.port, List.mem_range'_1.mpr ⟨Nat.le_refl _, by omega⟩, ?_⟩
    refine List.mem_flatMap.mpr ⟨n, hn, List.mem_map.mpr ⟨a, ?_, rfl⟩⟩
    obtain ⟨l, hl⟩ := List.head?_eq_some_iff.mp hd
    rw [hl, List.takeWhile_cons_of_pos (p := (H.free · s.port)) hf]
    exact List.mem_cons_self ..
  obtain ⟨⟨m, b, r⟩, hb⟩ := List.exists_mem_of_ne_nil _ (suits_attempt hh hq)
  have hr' : r = q := by
    obtain ⟨m', -, h2⟩ := List.mem_flatMap.mp hb
    obtain ⟨c, -, hc⟩ := List.mem_map.mp h2
    cases hc
    rfl
  subst hr'
  have hmem2 : (m, b, r) ∈ listening s' := by
    rw [a4]
    exact List.mem_flatMap.mpr ⟨r, List.mem_range'_1.mpr ⟨hq1, by omega⟩, hb⟩
  obtain ⟨u, hu, hx⟩ := List.mem_map.mp hmem
  rw [Prod.mk.injEq, Prod.mk.injEq] at hx
  obtain ⟨x, x1, -, x3, x4, x5⟩ := a2 u hu
  obtain ⟨v, hv, hy⟩ := List.mem_map.mp hmem2
  rw [Prod.mk.injEq, Prod.mk.injEq] at hy
  obtain ⟨y, y1, -, y3, -, y5⟩ := a2 v hv
  exact ⟨s', a1, a3, fun he => hp (he ▸ hq), ⟨y, y1, y3, y5.trans hy.2.2⟩, x, x1, x3, x4.trans hx.2.1, x5.trans hx.2.2⟩

/-! ## Hosts that meet the hypotheses -/

/-- A host with two interfaces of one address each. -/
def twoHost (free : Str → Nat → Bool) : HostSpec := ⟨[eth0, eth1], fun n => if n = eth0 then [addr0] else [addr1], free⟩

/-- The system of such a host. -/
def twoHostOs (free : Str → Nat → Bool) : Os :=
  twoIfs (fun _ a p => if free a p then .ok else .refused) (fun _ _ _ => .ok)

theorem twoHost_of (free : Str → Nat → Bool) (tcp : Bool) : (twoHost free).Of (twoHostOs free) tcp where
  ifs t := ⟨[⟨t, 0, eth0⟩, ⟨t, 1, eth1⟩], rfl, rfl⟩
  addrs t n hn := by
    simp only [twoHost, List.mem_cons, List.not_mem_nil, or_false] at hn
    rcases hn with rfl | rfl
    · rfl
    · rfl
  free a p h t := ⟨if_pos h, fun _ => rfl⟩
  taken a p h := Or.inl fun t => by
    show (if free a p = true then BindOutcome.ok else .refused) ≠ .ok
    rw [show free a p = false from h]
    decide
  close _ := rfl

theorem twoHost_suits (free : Str → Nat → Bool) (p : Nat) : (twoHost free).Suits p ↔ free addr1 p = true := by
  constructor
  · intro h
    exact h eth1 rfl addr1 (List.mem_singleton.mpr rfl)
  · intro h n hn a ha
    cases hn
    cases List.mem_singleton.mp ha
    exact h

/-- The first interface refuses the port: the hypotheses of `C149_fixed_port` and `C59_refuted_any`. -/
example : ∃ s', (Transport.new 0).start (twoHostOs (fun a _ => decide (a ≠ addr0))) = .ok (none, s') ∧
    ∀ u ∈ s'.uservers, u.addr ≠ addr0 :=
  C59_refuted_any (twoHost _) _ _ ⟨0, [], rfl⟩ (twoHost_of _ _) (fun _ _ => rfl) (by decide +kernel)
    ((twoHost_suits _ _).mpr (by decide)) eth0 addr0 (by decide) (by decide) (by decide)

example : (twoHost (fun a _ => decide (a ≠ addr0))).attempt 3610 = [(some eth1, addr1, 3610)] := by decide +kernel

/-- The last interface refuses the port: the hypotheses of `C60_refuted_any`. -/
example : ∃ e s', (Transport.new 0).start (twoHostOs (fun a _ => decide (a ≠ addr1))) = .ok (some e, s') ∧
    ∃ x ∈ s'.world.opened, x.proto = .udp ∧ x.addr = addr0 ∧ x.port = 3610 :=
  C60_refuted_any (twoHost _) _ _ ⟨0, [], rfl⟩ (twoHost_of _ _) (fun _ _ => rfl) (by decide +kernel) rfl
    (fun h => absurd ((twoHost_suits _ _).mp h) (by decide)) eth0 addr0 (by decide) rfl (by decide)

/-- With automatic ports, the last interface refuses port 3610 only: `C61_refuted_any`. -/
example : ∃ s s', run (twoHostOs (fun a p => decide (¬ (a = addr1 ∧ p = 3610)))) (Transport.new 0) [.setConfig autoConfig] = .ok s ∧
    s.start (twoHostOs (fun a p => decide (¬ (a = addr1 ∧ p = 3610)))) = .ok (none, s') ∧ s'.port = 3611 ∧
    ∃ x ∈ s'.world.opened, x.proto = .udp ∧ x.addr = addr0 ∧ x.port = 3610 := by
  refine ⟨(Transport.new 0).setConfig autoConfig, ?_⟩
  obtain ⟨s', h1, h2, -, -, h3⟩ := C61_refuted_any (twoHost (fun a p => decide (¬ (a = addr1 ∧ p = 3610)))) _
    ((Transport.new 0).setConfig autoConfig) ⟨0, [.setConfig autoConfig], rfl⟩ (twoHost_of _ _) (fun _ _ => rfl) (by decide +kernel)
    rfl (fun h => absurd ((twoHost_suits _ _).mp h) (by decide)) 3611 (by decide) (by decide)
    ((twoHost_suits _ _).mpr (by decide))
    (fun r h1 h2 h => by
      have h1 : 3610 ≤ r := h1
      obtain rfl : r = 3610 := by omega
      exact absurd ((twoHost_suits _ _).mp h) (by decide)) eth0 addr0 (by decide) rfl (by decide)
  exact ⟨s', rfl, h1, h2, h3⟩

end Verif.Props
