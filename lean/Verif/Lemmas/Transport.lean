import Verif.Model.Transport

/-! # Lemmas about the transport model -/

namespace Verif.Lemmas
open Verif Model Transport

/-! ## Sockets -/

/-- The names of open sockets are old and unique. -/
structure WWF (w : World) : Prop where
  old : ∀ x ∈ w.opened, x.id < w.clock
  uniq : ∀ x ∈ w.opened, ∀ y ∈ w.opened, x.id = y.id → x = y

/-- Nothing open before is closed, and what is new has a new name. -/
structure Ext (w w' : World) : Prop where
  clock : w.clock ≤ w'.clock
  keep : ∀ x ∈ w.opened, x ∈ w'.opened
  new : ∀ x ∈ w'.opened, x ∈ w.opened ∨ w.clock ≤ x.id
  wwf : WWF w'

theorem Ext.refl {w : World} (h : WWF w) : Ext w w := ⟨Nat.le_refl _, fun _ h => h, fun _ h => .inl h, h⟩

theorem Ext.trans {a b c : World} (h1 : Ext a b) (h2 : Ext b c) : Ext a c :=
  ⟨Nat.le_trans h1.clock h2.clock, fun x hx => h2.keep x (h1.keep x hx), fun x hx =>
    (h2.new x hx).elim (fun h => h1.new x h) (fun h => .inr (Nat.le_trans h1.clock h)), h2.wwf⟩

theorem tick_ext {w : World} (h : WWF w) (n : Nat) : Ext w { w with clock := w.clock + n } :=
  ⟨Nat.le_add_right _ _, fun _ h => h, fun _ h => .inl h,
    ⟨fun x hx => Nat.lt_of_lt_of_le (h.old x hx) (Nat.le_add_right _ _), h.uniq⟩⟩

theorem opening_ext {w : World} (h : WWF w) (p : Proto) (a : Str) (n : Nat) : Ext w (w.opening p a n).2 := by
  refine ⟨Nat.le_succ _, fun x hx => List.mem_cons_of_mem _ hx, fun x hx => ?_, ⟨fun x hx => ?_, fun x hx y hy e => ?_⟩⟩
  · rcases List.mem_cons.mp hx with rfl | hx
    · exact .inr (Nat.le_refl _)
    · exact .inl hx
  · rcases List.mem_cons.mp hx with rfl | hx
    · exact Nat.lt_succ_self _
    · exact Nat.lt_succ_of_lt (h.old x hx)
  · rcases List.mem_cons.mp hx with rfl | hx <;> rcases List.mem_cons.mp hy with rfl | hy
    · rfl
    · exact absurd e.symm (Nat.ne_of_lt (h.old y hy))
    · exact absurd e (Nat.ne_of_lt (h.old x hx))
    · exact h.uniq x hx y hy e

theorem close_opening {w : World} (h : WWF w) (os : Os) (p : Proto) (a : Str) (n : Nat) :
    (World.close os (w.opening p a n).2 (w.opening p a n).1).2 = { w with clock := w.clock + 2 } := by
  show World.mk _ _ = World.mk _ _
  refine congrArg (World.mk _) ?_
  show (List.filter (fun x => x.id ≠ w.clock) (⟨w.clock, p, a, n⟩ :: w.opened)) = w.opened
  rw [List.filter_cons_of_neg (by simp)]
  exact List.filter_eq_self.mpr fun x hx => by simpa using Nat.ne_of_lt (h.old x hx)

theorem close_mem {os : Os} {w : World} {s x : Sock} :
    x ∈ (World.close os w s).2.opened ↔ x ∈ w.opened ∧ x.id ≠ s.id := by
  show x ∈ List.filter _ _ ↔ _
  rw [List.mem_filter]
  simp

theorem close_wwf {os : Os} {w : World} (h : WWF w) (s : Sock) : WWF (World.close os w s).2 :=
  ⟨fun x hx => Nat.lt_succ_of_lt (h.old x (close_mem.mp hx).1),
    fun x hx y hy e => h.uniq x (close_mem.mp hx).1 y (close_mem.mp hy).1 e⟩

/-! ## Binding -/

theorem udpBind_spec (os : Os) {w : World} (h : WWF w) (a : Str) (n : Nat) :
    Ext w (udpBind os w a n).2.2 ∧
    ((udpBind os w a n).1 = none →
      (udpBind os w a n).2.1 = some ⟨w.clock, .udp, a, n⟩ ∧
      (udpBind os w a n).2.2 = (w.opening .udp a n).2) ∧
    ((udpBind os w a n).1 ≠ none → (udpBind os w a n).2.2.opened = w.opened) := by
  unfold udpBind
  cases os.udp w.clock a n with
  | ok => exact ⟨opening_ext h .udp a n, fun _ => ⟨rfl, rfl⟩, fun h => absurd rfl h⟩
  | refused => exact ⟨tick_ext h 1, fun h => (by cases h), fun _ => rfl⟩
  | noRaw =>
    have := close_opening h os .udp a n
    refine ⟨?_, fun h => (by cases h), fun _ => ?_⟩
    · show Ext w (World.close os (w.opening .udp a n).2 (w.opening .udp a n).1).2
      rw [this]; exact tick_ext h 2
    · show (World.close os (w.opening .udp a n).2 (w.opening .udp a n).1).2.opened = _
      rw [this]
  | badOption =>
    have := close_opening h os .udp a n
    refine ⟨?_, fun h => (by cases h), fun _ => ?_⟩
    · show Ext w (World.close os (w.opening .udp a n).2 (w.opening .udp a n).1).2
      rw [this]; exact tick_ext h 2
    · show (World.close os (w.opening .udp a n).2 (w.opening .udp a n).1).2.opened = _
      rw [this]

theorem tcpBind_spec (os : Os) {w : World} (h : WWF w) (a : Str) (n : Nat) :
    Ext w (tcpBind os w a n).2.2 ∧
    ((tcpBind os w a n).1 = none →
      (tcpBind os w a n).2.1 = some ⟨w.clock, .tcp, a, n⟩ ∧
      (tcpBind os w a n).2.2 = (w.opening .tcp a n).2) := by
  unfold tcpBind
  cases os.tcp w.clock a n with
  | ok => exact ⟨opening_ext h .tcp a n, fun _ => ⟨rfl, rfl⟩⟩
  | refused => exact ⟨tick_ext h 1, fun h => (by cases h)⟩
  | noRaw => exact ⟨opening_ext h .tcp a n, fun h => (by cases h)⟩
  | badOption => exact ⟨opening_ext h .tcp a n, fun h => (by cases h)⟩

theorem mcastBind_spec (os : Os) {w : World} (h : WWF w) (i : IfPtr) (a : Str) :
    Ext w (mcastBind os w i a).2.2 ∧
    ((mcastBind os w i a).1 = none → ∃ m,
      (mcastBind os w i a).2.1 = some ⟨w.clock, .mcast, m, echonetPort⟩ ∧
      (mcastBind os w i a).2.2 = (w.opening .mcast m echonetPort).2) ∧
    ((mcastBind os w i a).1 ≠ none → os.mcast w.clock i.nif ≠ .badOption →
      (mcastBind os w i a).2.2.opened = w.opened) := by
  unfold mcastBind
  split
  · generalize (if isIPv4Address a = true then multicastIPv4Address else multicastIPv6Address) = m
    dsimp only
    cases os.mcast w.clock i.nif with
    | ok => exact ⟨opening_ext h .mcast m _, fun _ => ⟨m, rfl, rfl⟩, fun h => absurd rfl h⟩
    | refused => exact ⟨tick_ext h 1, fun h => (by cases h), fun _ _ => rfl⟩
    | noRaw =>
      have := close_opening h os .mcast m echonetPort
      refine ⟨?_, fun h => (by cases h), fun _ _ => ?_⟩
      · show Ext w (World.close os (w.opening .mcast m _).2 (w.opening .mcast m _).1).2
        rw [this]; exact tick_ext h 2
      · show (World.close os (w.opening .mcast m _).2 (w.opening .mcast m _).1).2.opened = _
        rw [this]
    | badOption => exact ⟨opening_ext h .mcast m _, fun h => (by cases h), fun _ h => absurd rfl h⟩
  · exact ⟨Ext.refl h, fun h => (by cases h), fun _ _ => rfl⟩

/-! ## Servers -/

/-- A unicast server that has been started, with its sockets open. -/
structure Serving (w : World) (u : UServer) : Prop where
  udpChan : u.udpChan = .open
  udp : ∃ h, u.udp = some h ∧ h ∈ w.opened ∧ h.proto = .udp ∧ h.addr = u.addr ∧ h.port = u.port
  tcp : u.tcpEnabled = true → u.tcpChan = .open ∧
    ∃ h, u.tcp = some h ∧ h ∈ w.opened ∧ h.proto = .tcp ∧ h.addr = u.addr ∧ h.port = u.port
  noTcp : u.tcpEnabled = false → u.tcp = none

theorem Serving.mono {w w' : World} {u : UServer} (h : Serving w u)
    (hk : ∀ x ∈ w.opened, x.proto ≠ .mcast → x ∈ w'.opened) : Serving w' u := by
  obtain ⟨h1, ⟨x, e, m, p, r⟩, h3, h4⟩ := h
  refine ⟨h1, ⟨x, e, hk x m (by rw [p]; decide), p, r⟩, fun ht => ?_, h4⟩
  obtain ⟨h5, y, e', m', p', r'⟩ := h3 ht
  exact ⟨h5, y, e', hk y m' (by rw [p']; decide), p', r'⟩

/-- What `UnicastServer.Start` does for a new server. -/
theorem userver_start (os : Os) {w : World} (h : WWF w) (tcp : Bool) (ifi : IfPtr) (a : Str) (p : Nat)
    {e : Option Err} {u : UServer} {w' : World}
    (hs : (UServer.new tcp).start os w ifi a p = (e, u, w')) :
    Ext w w' ∧
    (e = none → Serving w' u ∧ u.ifi = some ifi ∧ u.addr = a ∧ u.port = p ∧ u.tcpEnabled = tcp ∧
      (∀ x, u.udp = some x ∨ u.tcp = some x → w.clock ≤ x.id) ∧
      (∀ x ∈ w'.opened, x ∈ w.opened ∨ u.udp = some x ∨ u.tcp = some x)) ∧
    (e ≠ none → (tcp = true → ∀ t a p, os.tcp t a p = .ok) → w'.opened = w.opened) := by
  obtain ⟨b1, b2, b3⟩ := udpBind_spec os h a p
  unfold UServer.start at hs
  rcases hb : udpBind os w a p with ⟨eb, c, w1⟩
  rw [hb] at hs b1 b2 b3
  cases eb with
  | some eb =>
    have : (e, u, w') = (some eb, { UServer.new tcp with udp := c, tcp := none }, w1) := hs.symm
    cases this
    exact ⟨b1, fun h => (by cases h), fun _ _ => b3 (by simp)⟩
  | none =>
    obtain ⟨rfl, rfl⟩ : c = some ⟨w.clock, .udp, a, p⟩ ∧ w1 = (w.opening .udp a p).2 := b2 rfl
    cases tcp with
    | false =>
      have : (e, u, w') = ((none : Option Err), ({ UServer.new false with udp := some ⟨w.clock, .udp, a, p⟩, ifi := some ifi, addr := a, port := p, udpChan := .open } : UServer), (w.opening .udp a p).2) := hs.symm
      cases this
      refine ⟨b1, fun _ => ⟨⟨rfl, ⟨_, rfl, List.mem_cons_self .., rfl, rfl, rfl⟩, fun h => (by cases h), fun _ => rfl⟩,
        rfl, rfl, rfl, rfl, ?_, ?_⟩, fun h => absurd rfl h⟩
      · rintro x (hx | hx)
        · cases hx; exact Nat.le_refl _
        · cases hx
      · intro x hx
        rcases List.mem_cons.mp hx with rfl | hx
        · exact .inr (.inl rfl)
        · exact .inl hx
    | true =>
      obtain ⟨t1, t2⟩ := tcpBind_spec os b1.wwf a p
      rcases ht : tcpBind os (w.opening .udp a p).2 a p with ⟨et, l, w2⟩
      dsimp only [UServer.new] at hs
      rw [if_pos rfl, ht] at hs
      rw [ht] at t1 t2
      cases et with
      | some et =>
        cases hs
        refine ⟨b1.trans t1, fun h => (by cases h), fun _ hok => ?_⟩
        have hx := hok rfl (w.opening .udp a p).2.clock a p
        rw [tcpBind, hx] at ht
        cases ht
      | none =>
        cases hs
        obtain ⟨rfl, rfl⟩ := t2 rfl
        refine ⟨b1.trans t1, fun _ => ⟨⟨rfl, ⟨_, rfl, t1.keep _ (List.mem_cons_self ..), rfl, rfl, rfl⟩,
          fun _ => ⟨rfl, _, rfl, List.mem_cons_self .., rfl, rfl, rfl⟩, fun h => (by cases h)⟩,
          rfl, rfl, rfl, rfl, ?_, ?_⟩, fun h => absurd rfl h⟩
        · rintro x (hx | hx)
          · cases hx; exact Nat.le_refl _
          · cases hx; exact Nat.le_succ _
        · intro x hx
          rcases List.mem_cons.mp hx with rfl | hx
          · exact .inr (.inr rfl)
          · rcases List.mem_cons.mp hx with rfl | hx
            · exact .inr (.inl rfl)
            · exact .inl hx

/-- The sockets of a server. -/
def socks (u : UServer) : List Sock := u.udp.toList ++ u.tcp.toList

theorem mem_socks {u : UServer} {x : Sock} : x ∈ socks u ↔ u.udp = some x ∨ u.tcp = some x := by
  unfold socks
  rw [List.mem_append, Option.mem_toList, Option.mem_toList]

theorem udpClose_spec (os : Os) (w : World) (c : Option Sock) :
    (∀ x, x ∈ (udpClose os w c).2.2.opened ↔ x ∈ w.opened ∧ ∀ y, c = some y → x.id ≠ y.id) ∧
    w.clock ≤ (udpClose os w c).2.2.clock ∧ (udpClose os w c).2.1 = none ∧
    (WWF w → WWF (udpClose os w c).2.2) := by
  cases c with
  | none => exact ⟨fun x => ⟨fun h => ⟨h, fun y hy => (by cases hy)⟩, fun h => h.1⟩, Nat.le_refl _, rfl, fun h => h⟩
  | some s =>
    refine ⟨fun x => ?_, Nat.le_succ _, rfl, fun h => close_wwf (os := os) h s⟩
    show x ∈ (World.close os w s).2.opened ↔ _
    rw [close_mem]
    exact ⟨fun ⟨h1, h2⟩ => ⟨h1, fun y hy => (by cases hy; exact h2)⟩, fun ⟨h1, h2⟩ => ⟨h1, h2 s rfl⟩⟩

theorem tcpClose_spec (os : Os) (w : World) (c : Option Sock) :
    (∀ x, x ∈ (tcpClose os w c).2.2.opened ↔ x ∈ w.opened ∧ ∀ y, c = some y → x.id ≠ y.id) ∧
    w.clock ≤ (tcpClose os w c).2.2.clock ∧ (WWF w → WWF (tcpClose os w c).2.2) := by
  cases c with
  | none => exact ⟨fun x => ⟨fun h => ⟨h, fun y hy => (by cases hy)⟩, fun h => h.1⟩, Nat.le_refl _, fun h => h⟩
  | some s =>
    have e : (tcpClose os w (some s)).2.2 = (World.close os w s).2 := by
      unfold tcpClose
      dsimp only
      rcases World.close os w s with ⟨_ | _, _⟩ <;> rfl
    rw [e]
    refine ⟨fun x => ?_, Nat.le_succ _, fun h => close_wwf h s⟩
    rw [close_mem]
    exact ⟨fun ⟨h1, h2⟩ => ⟨h1, fun y hy => (by cases hy; exact h2)⟩, fun ⟨h1, h2⟩ => ⟨h1, h2 s rfl⟩⟩

/-- Stopping a started server does not panic and closes its sockets and no others. -/
theorem userver_stop (os : Os) (w : World) {u : UServer} (hc : u.udpChan = .open)
    (ht : u.tcpEnabled = true → u.tcpChan = .open) (hn : u.tcpEnabled = false → u.tcp = none) :
    ∃ e u' w', u.stop os w = .ok (e, u', w') ∧ w.clock ≤ w'.clock ∧ (WWF w → WWF w') ∧
      (∀ x, x ∈ w'.opened ↔ x ∈ w.opened ∧ ∀ y ∈ socks u, x.id ≠ y.id) := by
  obtain ⟨a1, a2, -, a4⟩ := udpClose_spec os w u.udp
  unfold UServer.stop
  rw [hc]
  show ∃ e u' w', (if u.tcpEnabled = true then _ else _) = _ ∧ _
  cases hb : u.tcpEnabled with
  | false =>
    rw [if_neg (by decide)]
    refine ⟨_, _, _, rfl, a2, a4, fun x => (a1 x).trans ?_⟩
    refine and_congr_right fun _ => ⟨fun h y hy => ?_, fun h y hy => h y (mem_socks.mpr (.inl hy))⟩
    rcases mem_socks.mp hy with hy | hy
    · exact h y hy
    · rw [hn hb] at hy; cases hy
  | true =>
    obtain ⟨b1, b2, b3⟩ := tcpClose_spec os (udpClose os w u.udp).2.2 u.tcp
    rw [if_pos rfl]
    dsimp only
    rw [ht hb]
    refine ⟨_, _, _, rfl, Nat.le_trans a2 b2, fun h => b3 (a4 h), fun x => (b1 x).trans ?_⟩
    rw [a1]
    constructor
    · rintro ⟨⟨h1, h2⟩, h3⟩
      refine ⟨h1, fun y hy => ?_⟩
      rcases mem_socks.mp hy with hy | hy
      · exact h2 y hy
      · exact h3 y hy
    · rintro ⟨h1, h2⟩
      exact ⟨⟨h1, fun y hy => h2 y (mem_socks.mpr (.inl hy))⟩, fun y hy => h2 y (mem_socks.mpr (.inr hy))⟩

theorem stopUServers_spec (os : Os) (us : List UServer) (hus : ∀ u ∈ us, u.udpChan = .open ∧
      (u.tcpEnabled = true → u.tcpChan = .open) ∧ (u.tcpEnabled = false → u.tcp = none)) (le : Option Err) (w : World) :
    ∃ e w', stopUServers os us le w = .ok (e, w') ∧ w.clock ≤ w'.clock ∧ (WWF w → WWF w') ∧
      (∀ x, x ∈ w'.opened ↔ x ∈ w.opened ∧ ∀ u ∈ us, ∀ y ∈ socks u, x.id ≠ y.id) := by
  induction us generalizing le w with
  | nil => exact ⟨le, w, rfl, Nat.le_refl _, fun h => h, fun x => ⟨fun h => ⟨h, fun u hu => (by cases hu)⟩, fun h => h.1⟩⟩
  | cons u us ih =>
    obtain ⟨hc, ht, hn⟩ := hus u (List.mem_cons_self ..)
    obtain ⟨e1, u1, w1, h1, h2, h3, h4⟩ := userver_stop os w hc ht hn
    obtain ⟨e2, w2, g1, g2, g3, g4⟩ := ih (fun u hu => hus u (List.mem_cons_of_mem _ hu)) (if e1.isSome then e1 else le) w1
    refine ⟨e2, w2, ?_, Nat.le_trans h2 g2, fun h => g3 (h3 h), fun x => ?_⟩
    · show (u.stop os w >>= _) = _
      rw [h1]
      exact g1
    · rw [g4, h4]
      constructor
      · rintro ⟨⟨a, b⟩, c⟩
        refine ⟨a, fun v hv => ?_⟩
        rcases List.mem_cons.mp hv with rfl | hv
        · exact b
        · exact c v hv
      · rintro ⟨a, b⟩
        exact ⟨⟨a, b u (List.mem_cons_self ..)⟩, fun v hv => b v (List.mem_cons_of_mem _ hv)⟩

theorem stopMServers_spec (os : Os) (ms : List MServer) (le : Option Err) (w : World) :
    w.clock ≤ (stopMServers os ms le w).2.clock ∧ (WWF w → WWF (stopMServers os ms le w).2) ∧
      (∀ x, x ∈ (stopMServers os ms le w).2.opened ↔ x ∈ w.opened ∧ ∀ m ∈ ms, ∀ y, m.conn = some y → x.id ≠ y.id) := by
  induction ms generalizing le w with
  | nil => exact ⟨Nat.le_refl _, fun h => h, fun x => ⟨fun h => ⟨h, fun u hu => (by cases hu)⟩, fun h => h.1⟩⟩
  | cons m ms ih =>
    obtain ⟨a1, a2, -, a4⟩ := udpClose_spec os w m.conn
    obtain ⟨b1, b2, b3⟩ := ih (if (udpClose os w m.conn).1.isSome then (udpClose os w m.conn).1 else le) (udpClose os w m.conn).2.2
    refine ⟨Nat.le_trans a2 b1, fun h => b2 (a4 h), fun x => (b3 x).trans ?_⟩
    rw [a1]
    constructor
    · rintro ⟨⟨a, b⟩, c⟩
      refine ⟨a, fun v hv => ?_⟩
      rcases List.mem_cons.mp hv with rfl | hv
      · exact b
      · exact c v hv
    · rintro ⟨a, b⟩
      exact ⟨⟨a, b m (List.mem_cons_self ..)⟩, fun v hv => b v (List.mem_cons_of_mem _ hv)⟩

/-! ## The invariant -/

/-- What holds of every reachable transport. -/
structure Good (s : Transport) : Prop where
  wwf : WWF s.world
  us : ∀ u ∈ s.uservers, Serving s.world u
  ms : ∀ m ∈ s.mservers, ∀ c, m.conn = some c → c ∈ s.world.opened ∧ c.proto = .mcast
  sep : s.mservers.Pairwise (fun a b => ∀ x, a.conn = some x → b.conn ≠ some x)

theorem new_good (t : Nat) : Good (Transport.new t) :=
  ⟨⟨fun _ h => (by cases h), fun _ h => (by cases h)⟩, fun _ h => (by cases h), fun _ h => (by cases h), .nil⟩

/-- Nothing is open but the sockets of the servers. -/
def Tight (s : Transport) : Prop :=
  ∀ x ∈ s.world.opened, (∃ u ∈ s.uservers, u.udp = some x ∨ u.tcp = some x) ∨ ∃ m ∈ s.mservers, m.conn = some x

theorem Good.ext {s : Transport} (h : Good s) {w : World} (hw : Ext s.world w) : Good { s with world := w } :=
  ⟨hw.wwf, fun u hu => (h.us u hu).mono fun x hx _ => hw.keep x hx, fun m hm c hc =>
    ⟨hw.keep c (h.ms m hm c hc).1, (h.ms m hm c hc).2⟩, h.sep⟩

theorem stopMulticast_spec (os : Os) {s : Transport} (h : Good s) :
    Good (s.stopMulticast os).2 ∧ (s.stopMulticast os).2.mservers = [] ∧
    (s.stopMulticast os).2.uservers = s.uservers ∧ (s.stopMulticast os).2.config = s.config ∧
    (s.stopMulticast os).2.port = s.port ∧
    s.world.clock ≤ (s.stopMulticast os).2.world.clock ∧
    (∀ x, x ∈ (s.stopMulticast os).2.world.opened ↔
      x ∈ s.world.opened ∧ ∀ m ∈ s.mservers, m.conn ≠ some x) := by
  obtain ⟨a1, a2, a3⟩ := stopMServers_spec os s.mservers none s.world
  have a3' : ∀ x, x ∈ (s.stopMulticast os).2.world.opened ↔
      x ∈ s.world.opened ∧ ∀ m ∈ s.mservers, m.conn ≠ some x := by
    intro x
    show x ∈ (stopMServers os s.mservers none s.world).2.opened ↔ _
    rw [a3]
    refine and_congr_right fun hx => ⟨fun hh m hm e => hh m hm x e rfl, fun hh m hm y hy e => ?_⟩
    have := h.wwf.uniq x hx y (h.ms m hm y hy).1 e
    exact hh m hm (by rw [this]; exact hy)
  refine ⟨⟨a2 h.wwf, fun u hu => ?_, fun m hm => (by cases hm), .nil⟩, rfl, rfl, rfl, rfl, a1, a3'⟩
  refine (h.us u hu).mono fun x hx hp => (a3' x).mpr ⟨hx, fun m hm e => ?_⟩
  exact hp (h.ms m hm x e).2

theorem stopUnicast_spec (os : Os) {s : Transport} (h : Good s) :
    ∃ e s', s.stopUnicast os = .ok (e, s') ∧ Good s' ∧ s'.uservers = [] ∧ s'.mservers = s.mservers ∧
      s'.config = s.config ∧ s'.port = s.port ∧ s.world.clock ≤ s'.world.clock ∧
      (∀ x, x ∈ s'.world.opened ↔ x ∈ s.world.opened ∧ ∀ u ∈ s.uservers, u.udp ≠ some x ∧ u.tcp ≠ some x) := by
  obtain ⟨e, w', a1, a2, a3, a4⟩ := stopUServers_spec os s.uservers
    (fun u hu => ⟨(h.us u hu).udpChan, fun ht => ((h.us u hu).tcp ht).1, (h.us u hu).noTcp⟩) none s.world
  have hopen : ∀ u ∈ s.uservers, ∀ y ∈ socks u, y ∈ s.world.opened ∧ y.proto ≠ .mcast := by
    intro u hu y hy
    rcases mem_socks.mp hy with hy | hy
    · obtain ⟨x, e, m, p, -⟩ := (h.us u hu).udp
      rw [e] at hy; cases hy
      exact ⟨m, by rw [p]; decide⟩
    · cases hb : u.tcpEnabled with
      | false => rw [(h.us u hu).noTcp hb] at hy; cases hy
      | true =>
        obtain ⟨-, x, e, m, p, -⟩ := (h.us u hu).tcp hb
        rw [e] at hy; cases hy
        exact ⟨m, by rw [p]; decide⟩
  have a4' : ∀ x, x ∈ w'.opened ↔ x ∈ s.world.opened ∧ ∀ u ∈ s.uservers, u.udp ≠ some x ∧ u.tcp ≠ some x := by
    intro x
    rw [a4]
    refine and_congr_right fun hx => ⟨fun hh u hu => ⟨fun e => hh u hu x (mem_socks.mpr (.inl e)) rfl,
      fun e => hh u hu x (mem_socks.mpr (.inr e)) rfl⟩, fun hh u hu y hy e => ?_⟩
    have := h.wwf.uniq x hx y (hopen u hu y hy).1 e
    subst this
    rcases mem_socks.mp hy with hy | hy
    · exact (hh u hu).1 hy
    · exact (hh u hu).2 hy
  refine ⟨e, { s with uservers := [], world := w' }, ?_, ⟨a3 h.wwf, fun u hu => (by cases hu), fun m hm c hc => ?_, h.sep⟩, rfl, rfl, rfl, rfl, a2, a4'⟩
  · unfold Transport.stopUnicast
    rw [a1]
    rfl
  · refine ⟨(a4' c).mpr ⟨(h.ms m hm c hc).1, fun u hu => ⟨fun e => ?_, fun e => ?_⟩⟩, (h.ms m hm c hc).2⟩
    · exact (hopen u hu c (mem_socks.mpr (.inl e))).2 (h.ms m hm c hc).2
    · exact (hopen u hu c (mem_socks.mpr (.inr e))).2 (h.ms m hm c hc).2

theorem stop_spec (os : Os) {s : Transport} (h : Good s) :
    ∃ e s', s.stop os = .ok (e, s') ∧ Good s' ∧ s'.uservers = [] ∧ s'.mservers = [] ∧
      s'.config = s.config ∧ s'.port = s.port ∧ s.world.clock ≤ s'.world.clock ∧
      (∀ x, x ∈ s'.world.opened ↔ x ∈ s.world.opened ∧
        (∀ u ∈ s.uservers, u.udp ≠ some x ∧ u.tcp ≠ some x) ∧ ∀ m ∈ s.mservers, m.conn ≠ some x) := by
  obtain ⟨m1, m2, m3, m4, m5, m6, m7⟩ := stopMulticast_spec os h
  obtain ⟨e, s', u1, u2, u3, u4, u5, u6, u7, u8⟩ := stopUnicast_spec os m1
  refine ⟨if e.isSome then e else (s.stopMulticast os).1, s', ?_, u2, u3, by rw [u4, m2], by rw [u5, m4], by rw [u6, m5], Nat.le_trans m6 u7, fun x => ?_⟩
  · show (Transport.stopUnicast os (s.stopMulticast os).2 >>= _) = _
    rw [u1]
    rfl
  · rw [u8, m7, m3]
    exact ⟨fun ⟨⟨a, b⟩, c⟩ => ⟨a, c, b⟩, fun ⟨a, c, b⟩ => ⟨⟨a, b⟩, c⟩⟩

/-! ## Starting the unicast servers -/

theorem startUnicastAt_spec (os : Os) {s : Transport} (h : Good s) (ifi : IfPtr) (a : Str) (p : Nat)
    {e : Option Err} {s' : Transport} (hs : s.startUnicastAt os ifi a p = (e, s')) :
    Good s' ∧ Ext s.world s'.world ∧ s'.mservers = s.mservers ∧ s'.config = s.config ∧ s'.port = s.port ∧
    (e = none → ∃ u, s'.uservers = s.uservers ++ [u] ∧ u.ifi = some ifi ∧ u.addr = a ∧ u.port = p ∧
      u.tcpEnabled = s.config.unicast.tcpEnabled ∧ ∀ x ∈ socks u, s.world.clock ≤ x.id) ∧
    (e ≠ none → s'.uservers = s.uservers) ∧
    ((s.config.unicast.tcpEnabled = true → ∀ t a p, os.tcp t a p = .ok) → Tight s → Tight s') := by
  unfold Transport.startUnicastAt at hs
  rcases hu : (UServer.new s.config.unicast.tcpEnabled).start os s.world ifi a p with ⟨e1, u, w⟩
  rw [hu] at hs
  obtain ⟨a1, a2, a3⟩ := userver_start os h.wwf _ ifi a p hu
  have hg := h.ext a1
  cases e1 with
  | some e1 =>
    cases hs
    refine ⟨hg, a1, rfl, rfl, rfl, fun h => (by cases h), fun _ => rfl, fun hok ht x hx => ?_⟩
    rw [show ({ s with world := w } : Transport).world.opened = s.world.opened from a3 (by simp) hok] at hx
    exact ht x hx
  | none =>
    cases hs
    obtain ⟨b1, b2, b3, b4, b5, b6, b7⟩ := a2 rfl
    refine ⟨⟨a1.wwf, fun v hv => ?_, hg.ms, hg.sep⟩, a1, rfl, rfl, rfl,
      fun _ => ⟨u, rfl, b2, b3, b4, b5, fun x hx => b6 x (mem_socks.mp hx)⟩, fun h => absurd rfl h, fun _ ht x hx => ?_⟩
    · rcases List.mem_append.mp hv with hv | hv
      · exact hg.us v hv
      · rw [List.mem_singleton.mp hv]; exact b1
    · rcases b7 x hx with hx | hx
      · rcases ht x hx with ⟨v, hv, hx⟩ | hx
        · exact .inl ⟨v, List.mem_append_left _ hv, hx⟩
        · exact .inr hx
      · exact .inl ⟨u, List.mem_append_right _ (List.mem_singleton.mpr rfl), hx⟩

/-- What follows for the loops of `UnicastManager.Start` from what holds of every single attempt. -/
structure Loops (os : Os) (ifis : List IfPtr) (P : Nat → Prop) (R : Transport → Transport → Prop) : Prop where
  refl : ∀ s, R s s
  trans : ∀ a b c, R a b → R b c → R a c
  tick : ∀ s, R s { s with world := s.world.tick }
  at_ : ∀ s ifi a p, ifi ∈ ifis → P p → R s (s.startUnicastAt os ifi a p).2
  port : ∀ s p, P p → R s { s with port := p }

variable {os : Os} {ifis : List IfPtr} {P : Nat → Prop} {R : Transport → Transport → Prop}

theorem bindAddrs_loop (L : Loops os ifis P R) {ifi : IfPtr} (hi : ifi ∈ ifis) {p : Nat} (hp : P p)
    (as : List Str) (le : Option Err) (s : Transport) : R s (bindAddrs os ifi p as le s).2 := by
  induction as generalizing le s with
  | nil => exact L.refl s
  | cons a as ih =>
    have h1 := L.at_ s ifi a p hi hp
    unfold bindAddrs
    revert h1
    rcases s.startUnicastAt os ifi a p with ⟨_ | e, s1⟩ <;> intro h1
    · exact L.trans _ _ _ h1 (ih none s1)
    · exact h1

theorem bindIfs_loop (L : Loops os ifis P R) {p : Nat} (hp : P p) (is : List IfPtr) (hi : ∀ i ∈ is, i ∈ ifis)
    (le : Option Err) (s : Transport) : R s (bindIfs os p is le s).2 := by
  induction is generalizing le s with
  | nil => exact L.refl s
  | cons i is ih =>
    have ih := ih (fun j hj => hi j (List.mem_cons_of_mem _ hj))
    have ht := L.tick s
    unfold bindIfs
    cases getInterfaceAddresses (os.addrs s.world.clock i.nif) with
    | ok as =>
      exact L.trans _ _ _ ht (L.trans _ _ _ (bindAddrs_loop L (hi i (List.mem_cons_self ..)) hp as le _) (ih _ _))
    | err e => exact L.trans _ _ _ ht (ih _ _)
    | panic => exact L.trans _ _ _ ht (ih _ _)

theorem bindRetry_loop (L : Loops os ifis P R) {p : Nat} (hp : P p) (n : Nat)
    (le : Option Err) (s : Transport) : R s (bindRetry os p ifis n le s).2 := by
  induction n generalizing le s with
  | zero => exact bindIfs_loop L hp ifis (fun _ h => h) le s
  | succ n ih =>
    have h1 := bindIfs_loop L hp ifis (fun _ h => h) le s
    unfold bindRetry
    revert h1
    rcases bindIfs os p ifis le s with ⟨_ | e, s1⟩ <;> intro h1
    · exact h1
    · exact L.trans _ _ _ h1 (ih (some e) s1)

theorem bindPorts_loop (L : Loops os ifis P R) (r n p : Nat) (hp : ∀ q, p ≤ q → q ≤ p + n → P q)
    (le : Option Err) (s : Transport) : R s (bindPorts os ifis r n p le s).2 := by
  induction n generalizing p le s with
  | zero =>
    have hp0 := hp p (Nat.le_refl _) (Nat.le_refl _)
    have h1 := bindRetry_loop L hp0 r le s
    unfold bindPorts
    revert h1
    rcases bindRetry os p ifis r le s with ⟨_ | e, s1⟩ <;> intro h1
    · exact L.trans _ _ _ h1 (L.port s1 p hp0)
    · exact h1
  | succ n ih =>
    have hp0 := hp p (Nat.le_refl _) (Nat.le_add_right _ _)
    have h1 := bindRetry_loop L hp0 r le s
    unfold bindPorts
    revert h1
    rcases bindRetry os p ifis r le s with ⟨_ | e, s1⟩ <;> intro h1
    · exact L.trans _ _ _ h1 (L.port s1 p hp0)
    · exact L.trans _ _ _ h1 (ih (p + 1) (fun q h1 h2 => hp q (by omega) (by omega)) (some e) s1)

/-- What one attempt, and so the whole loop, does. `c` is the configuration. -/
structure Step (os : Os) (ifis : List IfPtr) (P : Nat → Prop) (s s' : Transport) : Prop where
  good : Good s'
  ext : Ext s.world s'.world
  ms : s'.mservers = s.mservers
  config : s'.config = s.config
  us : ∃ new, s'.uservers = s.uservers ++ new ∧ ∀ u ∈ new, P u.port ∧
    u.tcpEnabled = s.config.unicast.tcpEnabled ∧ (∃ i ∈ ifis, u.ifi = some i) ∧ ∀ x ∈ socks u, s.world.clock ≤ x.id
  tight : (s.config.unicast.tcpEnabled = true → ∀ t a p, os.tcp t a p = .ok) → Tight s → Tight s'

theorem tight_world {s : Transport} {w : World} (h : Tight s) (hw : w.opened = s.world.opened) :
    Tight { s with world := w } := by
  intro x hx
  rw [show ({ s with world := w } : Transport).world.opened = s.world.opened from hw] at hx
  exact h x hx

theorem step_loops (os : Os) (ifis : List IfPtr) (P : Nat → Prop) :
    Loops os ifis P (fun s s' => Good s → Step os ifis P s s') where
  refl s h := ⟨h, Ext.refl h.wwf, rfl, rfl, ⟨[], by simp, fun u hu => (by cases hu)⟩, fun _ h => h⟩
  trans a b c hab hbc ha := by
    have h1 := hab ha
    have h2 := hbc h1.good
    obtain ⟨n1, e1, p1⟩ := h1.us
    obtain ⟨n2, e2, p2⟩ := h2.us
    refine ⟨h2.good, h1.ext.trans h2.ext, h2.ms.trans h1.ms, h2.config.trans h1.config,
      ⟨n1 ++ n2, by rw [e2, e1, List.append_assoc], fun u hu => ?_⟩, fun hok ht => h2.tight (by rw [h1.config]; exact hok) (h1.tight hok ht)⟩
    rcases List.mem_append.mp hu with hu | hu
    · exact p1 u hu
    · obtain ⟨a1, a2, a3, a4⟩ := p2 u hu
      exact ⟨a1, by rw [a2, h1.config], a3, fun x hx => Nat.le_trans h1.ext.clock (a4 x hx)⟩
  tick s h := by
    have hw := tick_ext h.wwf 1
    exact ⟨h.ext hw, hw, rfl, rfl, ⟨[], by simp, fun u hu => (by cases hu)⟩, fun _ ht => tight_world ht rfl⟩
  at_ s ifi a p hi hp h := by
    rcases hs : s.startUnicastAt os ifi a p with ⟨e, s'⟩
    obtain ⟨a1, a2, a3, a4, -, a6, a7, a8⟩ := startUnicastAt_spec os h ifi a p hs
    refine ⟨a1, a2, a3, a4, ?_, a8⟩
    cases e with
    | none =>
      obtain ⟨u, b1, b2, -, b4, b5, b6⟩ := a6 rfl
      refine ⟨[u], b1, fun v hv => ?_⟩
      rw [List.mem_singleton.mp hv]
      exact ⟨by rw [b4]; exact hp, b5, ⟨ifi, hi, b2⟩, b6⟩
    | some e => exact ⟨[], by rw [a7 (by simp)]; simp, fun u hu => (by cases hu)⟩
  port s p hp h := ⟨⟨h.wwf, h.us, h.ms, h.sep⟩, Ext.refl h.wwf, rfl, rfl, ⟨[], by simp, fun u hu => (by cases hu)⟩, fun _ h => h⟩

theorem afterInterfaces_ext (os : Os) {w : World} (h : WWF w) : Ext w (afterInterfaces os w) ∧
    w.clock < (afterInterfaces os w).clock ∧ (afterInterfaces os w).opened = w.opened := by
  unfold afterInterfaces
  cases os.interfaces w.clock with
  | none => exact ⟨tick_ext h 1, Nat.lt_succ_self _, rfl⟩
  | some is =>
    refine ⟨?_, (by show _ < _ + 1 + _; omega), rfl⟩
    show Ext w { w with clock := w.clock + 1 + is.length }
    rw [Nat.add_assoc]
    exact tick_ext h _

/-- The last port tried. -/
def endPort (s : Transport) : Nat := s.port + (if s.config.autoPortBindingEnabled then udpPortRange else 0)

/-- `UnicastManager.Start`, as what it stands for. -/
theorem startUnicast_cases (os : Os) {s : Transport} (h : Good s) :
    ∃ e s', s.startUnicast os = .ok (e, s') ∧ ∃ e0 s0, s.stopUnicast os = .ok (e0, s0) ∧
      ((e0 ≠ none ∧ e = e0 ∧ s' = s0) ∨
       (e0 = none ∧ (∀ ifis, getAvailableInterfaces os.toIfOs s0.world.clock ≠ .ok ifis) ∧ e ≠ none ∧
         s' = { s0 with world := afterInterfaces os s0.world }) ∨
       (e0 = none ∧ ∃ ifis r, getAvailableInterfaces os.toIfOs s0.world.clock = .ok ifis ∧
         r = (if s0.config.autoPortBindingEnabled then 0 else s0.config.unicast.bindRetryCount.toNat) ∧
         (e, s') = bindPorts os ifis r (if s.config.autoPortBindingEnabled then udpPortRange else 0) s.port none
           { s0 with world := afterInterfaces os s0.world })) := by
  obtain ⟨e0, s0, h0, -, -, -, hc, hp, -⟩ := stopUnicast_spec os h
  unfold Transport.startUnicast
  rw [h0]
  cases e0 with
  | some e0 => exact ⟨some e0, s0, rfl, some e0, s0, rfl, .inl ⟨by simp, rfl, rfl⟩⟩
  | none =>
    simp only [Res.ok_bind]
    cases hg : getAvailableInterfaces os.toIfOs s0.world.clock with
    | ok ifis =>
      refine ⟨_, _, rfl, none, s0, rfl, .inr (.inr ⟨rfl, ifis, _, hg, rfl, ?_⟩)⟩
      rw [hc, hp]
    | err e => exact ⟨some e, _, rfl, none, s0, rfl, .inr (.inl ⟨rfl, fun _ h => (by rw [hg] at h; cases h), by simp, rfl⟩)⟩
    | panic =>
      exfalso
      unfold getAvailableInterfaces at hg
      split at hg
      · cases hg
      · dsimp only at hg
        split at hg <;> cases hg

/-! ### Success -/

theorem bindAddrs_success {os : Os} {ifi : IfPtr} {p : Nat} (as : List Str) {le : Option Err} {s s' : Transport}
    (h : Good s) (hb : bindAddrs os ifi p as le s = (none, s')) :
    ∃ new, s'.uservers = s.uservers ++ new ∧ new.map (·.addr) = as ∧
      (∀ u ∈ new, u.ifi = some ifi ∧ u.port = p) ∧ (as = [] → le = none) := by
  induction as generalizing le s with
  | nil =>
    cases hb
    exact ⟨[], by simp, rfl, fun u hu => (by cases hu), fun _ => rfl⟩
  | cons a as ih =>
    unfold bindAddrs at hb
    rcases hs : s.startUnicastAt os ifi a p with ⟨_ | e, s1⟩
    · rw [hs] at hb
      obtain ⟨g, -, -, -, -, a6, -, -⟩ := startUnicastAt_spec os h ifi a p hs
      obtain ⟨u, b1, b2, b3, b4, -, -⟩ := a6 rfl
      obtain ⟨new, c1, c2, c3, -⟩ := ih g hb
      refine ⟨u :: new, by rw [c1, b1]; simp, by rw [List.map_cons, c2, b3], fun v hv => ?_, fun h => (by cases h)⟩
      rcases List.mem_cons.mp hv with rfl | hv
      · exact ⟨b2, b4⟩
      · exact c3 v hv
    · rw [hs] at hb
      cases hb

theorem addresses_ne {o : Option (List Str)} {as : List Str} (h : getInterfaceAddresses o = .ok as) : as ≠ [] := by
  unfold getInterfaceAddresses at h
  cases o with
  | none => cases h
  | some l =>
    dsimp only at h
    split at h
    · cases h
    · next hn =>
      cases h
      intro h0
      exact hn (by rw [h0]; rfl)

/-- Without an error, either nothing was tried or the last server tried has been started. -/
theorem bindIfs_none {os : Os} {p : Nat} (is : List IfPtr) {le : Option Err} {s s' : Transport} (h : Good s)
    (hb : bindIfs os p is le s = (none, s')) :
    (le = none ∧ s'.uservers = s.uservers) ∨ ∃ u, s'.uservers.getLast? = some u ∧ u.port = p := by
  induction is generalizing le s with
  | nil => cases hb; exact .inl ⟨rfl, rfl⟩
  | cons i is ih =>
    have ht := (step_loops os (i :: is) (fun _ => True)).tick s h
    unfold bindIfs at hb
    cases hg : getInterfaceAddresses (os.addrs s.world.clock i.nif) with
    | ok as =>
      rw [hg] at hb
      dsimp only at hb
      have hne := addresses_ne hg
      rcases ha : bindAddrs os i p as le { s with world := s.world.tick } with ⟨le1, s1⟩
      rw [ha] at hb
      have hg1 := bindAddrs_loop (step_loops os (i :: is) (fun _ => True)) (List.mem_cons_self ..) trivial as le
        { s with world := s.world.tick } (p := p) ht.good
      rw [ha] at hg1
      rcases ih hg1.good hb with ⟨rfl, e⟩ | hr
      · obtain ⟨new, c1, c2, c3, -⟩ := bindAddrs_success as ht.good ha
        have hn : new ≠ [] := by
          rintro rfl
          exact hne c2.symm
        right
        refine ⟨new.getLast hn, ?_, (c3 _ (List.getLast_mem hn)).2⟩
        rw [e, c1, List.getLast?_append, List.getLast?_eq_some_getLast hn]
        rfl
      · exact .inr hr
    | err e => rw [hg] at hb; exact ih (s := { s with world := s.world.tick }) ht.good hb
    | panic => rw [hg] at hb; exact ih (s := { s with world := s.world.tick }) ht.good hb

theorem bindRetry_none {os : Os} {p : Nat} {is : List IfPtr} (n : Nat) {le : Option Err} {s s' : Transport} (h : Good s)
    (hb : bindRetry os p is n le s = (none, s')) :
    ∃ le0 s0, Good s0 ∧ bindIfs os p is le0 s0 = (none, s') ∧ (le0 = none → le = none ∧ s0 = s) := by
  induction n generalizing le s with
  | zero => exact ⟨le, s, h, hb, fun h => ⟨h, rfl⟩⟩
  | succ n ih =>
    unfold bindRetry at hb
    rcases hi : bindIfs os p is le s with ⟨_ | e, s1⟩
    · rw [hi] at hb
      cases hb
      exact ⟨le, s, h, hi, fun h => ⟨h, rfl⟩⟩
    · rw [hi] at hb
      have hg := bindIfs_loop (step_loops os is (fun _ => True)) trivial is (fun _ h => h) le s (p := p) h
      rw [hi] at hg
      obtain ⟨le0, s0, a1, a2, a3⟩ := ih hg.good hb
      exact ⟨le0, s0, a1, a2, fun h0 => (by cases (a3 h0).1)⟩

theorem bindPorts_none {os : Os} {is : List IfPtr} (r n p : Nat) {le : Option Err} {s s' : Transport} (h : Good s)
    (hb : bindPorts os is r n p le s = (none, s')) :
    ∃ le0 s0 s1 q, p ≤ q ∧ q ≤ p + n ∧ Good s0 ∧ bindIfs os q is le0 s0 = (none, s1) ∧ s' = { s1 with port := q } ∧
      (le0 = none → le = none ∧ s0 = s) := by
  induction n generalizing p le s with
  | zero =>
    unfold bindPorts at hb
    rcases hi : bindRetry os p is r le s with ⟨_ | e, s1⟩
    · rw [hi] at hb
      cases hb
      obtain ⟨le0, s0, a1, a2, a3⟩ := bindRetry_none r h hi
      exact ⟨le0, s0, s1, p, Nat.le_refl _, Nat.le_refl _, a1, a2, rfl, a3⟩
    · rw [hi] at hb
      cases hb
  | succ n ih =>
    unfold bindPorts at hb
    rcases hi : bindRetry os p is r le s with ⟨_ | e, s1⟩
    · rw [hi] at hb
      cases hb
      obtain ⟨le0, s0, a1, a2, a3⟩ := bindRetry_none r h hi
      exact ⟨le0, s0, s1, p, Nat.le_refl _, Nat.le_add_right _ _, a1, a2, rfl, a3⟩
    · rw [hi] at hb
      have hg := bindRetry_loop (step_loops os is (fun _ => True)) trivial r le s (p := p) h
      rw [hi] at hg
      obtain ⟨le0, s0, s2, q, h1, h2, a1, a2, a3, a4⟩ := ih (p + 1) hg.good hb
      exact ⟨le0, s0, s2, q, by omega, by omega, a1, a2, a3, fun h0 => (by cases (a4 h0).1)⟩

theorem bindPorts_fails {os : Os} {is : List IfPtr} (r n p : Nat) {le : Option Err} {e : Err} {s s' : Transport}
    (hb : bindPorts os is r n p le s = (some e, s')) : s'.port = s.port := by
  have hR : ∀ (le : Option Err) (s : Transport) (p : Nat), (bindRetry os p is r le s).2.port = s.port := by
    intro le s p
    clear hb
    have h1 : ∀ (i : IfPtr) (as : List Str) (le : Option Err) (s : Transport), (bindAddrs os i p as le s).2.port = s.port := by
      intro i as
      induction as with
      | nil => exact fun _ _ => rfl
      | cons a as ih =>
        intro le s
        have h0 : (s.startUnicastAt os i a p).2.port = s.port := by
          unfold Transport.startUnicastAt
          rcases (UServer.new s.config.unicast.tcpEnabled).start os s.world i a p with ⟨_ | _, _, _⟩ <;> rfl
        unfold bindAddrs
        revert h0
        rcases s.startUnicastAt os i a p with ⟨_ | _, s1⟩ <;> intro h0
        · exact (ih none s1).trans h0
        · exact h0
    have h2 : ∀ (is : List IfPtr) (le : Option Err) (s : Transport), (bindIfs os p is le s).2.port = s.port := by
      intro is
      induction is with
      | nil => exact fun _ _ => rfl
      | cons i is ih =>
        intro le s
        unfold bindIfs
        cases getInterfaceAddresses (os.addrs s.world.clock i.nif) with
        | ok as => exact (ih _ _).trans (h1 i as le _)
        | err e => exact ih _ _
        | panic => exact ih _ _
    induction r generalizing le s with
    | zero => exact h2 is le s
    | succ n ih =>
      have h0 := h2 is le s
      unfold bindRetry
      revert h0
      rcases bindIfs os p is le s with ⟨_ | e, s1⟩ <;> intro h0
      · exact h0
      · exact (ih (some e) s1).trans h0
  induction n generalizing p le s with
  | zero =>
    have h0 := hR le s p
    unfold bindPorts at hb
    rcases hi : bindRetry os p is r le s with ⟨_ | e, s1⟩ <;> rw [hi] at hb h0 <;> cases hb
    exact h0
  | succ n ih =>
    have h0 := hR le s p
    unfold bindPorts at hb
    rcases hi : bindRetry os p is r le s with ⟨_ | e, s1⟩ <;> rw [hi] at hb h0
    · cases hb
    · exact (ih (p + 1) hb).trans h0

end Verif.Lemmas
