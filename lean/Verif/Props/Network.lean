import Verif.Props.Discovery

/-! # C98: a search finds every node of the network -/

namespace Verif.Props
open Verif Model Spec Lemmas

/-- The address and port under which a controller lists a node that sends from `a`. -/
def listedAt (c : Ctrl) (a : Addr) : String × Nat := (a.ip, if c.autoPort then a.port else 3610)

/-- A node of the network of the controller `c`, which sends from `ac`: made by the library and used
in the ordinary way, with at most 84 devices, all of classes in the database, its instance list may
be read, and messages between it and the controller are not taken for messages of their own. The
pair is the node and the address it sends from. -/
structure OnNetwork (c : Ctrl) (ac : Addr) (p : Node × Addr) : Prop where
  lawful : Lawful p.1
  known : KnownDevices p.1
  few : p.1.devices.length ≤ 84
  readable : ∀ o x, p.1.get (.profile 0) = some o → o.props.lookup 0xD6 = some x → x.getAttr ≠ 0
  other : p.1.selfMsg = true ∨ ac ≠ p.1.addr
  heard : Hears c p.2

/-- `m` is the message received when `p` answers the message `q` sent from `ac`: the bytes of `q`
arrive and are decoded at the node, the node handles the message, and the bytes of its reply are
decoded, with its address as source. -/
def Replies (env : Env) (q : Message) (ac : Addr) (p : Node × Addr) (m : Message) : Prop :=
  ∃ dq out res dr, Message.newWithBytes q.bytes = .ok dq ∧
    p.1.received env stdDB { dq with src := ac } = .ok out ∧ out.reply = some res ∧
    Message.newWithBytes res.bytes = .ok dr ∧ m = { dr with src := p.2 }

/-- A message that is no instance list of one of the nodes: it lists nothing or comes from
elsewhere. -/
def Foreign (c : Ctrl) (peers : List (Node × Addr)) (m : Message) : Prop :=
  (¬ ∃ cs, InstanceList m cs) ∨ ∀ p ∈ peers, listedAt c m.src ≠ listedAt c p.2

/-- A node announced by a message is listed at the address of the message. -/
theorem announced_at {db : StdDB} {c : Ctrl} {m : Message} {r : RemoteNode}
    (h : Announces db c.autoPort m r) :
    (∃ cs, InstanceList m cs) ∧ (r.address, r.port) = listedAt c m.src := by
  obtain ⟨-, -, h⟩ := h
  rcases Classical.em (∃ cs, InstanceList m cs ∧ Known db cs) with ⟨cs, hi, hk⟩ | hn
  · obtain ⟨n, e, d⟩ := C47_decoded db c.autoPort m cs hi hk
    rw [e] at h
    injection h with h
    subst h
    exact ⟨⟨cs, hi⟩, by rw [d.address, d.port]; rfl⟩
  · obtain ⟨e, he⟩ := C47_refused db c.autoPort m hn
    rw [he] at h; cases h

/-- While nothing but the list changes: what holds of the list after some messages. -/
structure Listing (c0 : Ctrl) (peers : List (Node × Addr)) (c : Ctrl) : Prop where
  node : c.node = c0.node
  autoPort : c.autoPort = c0.autoPort
  servers : c.servers = c0.servers
  distinct : Distinct c.found
  right : ∀ p ∈ peers, ∀ r ∈ c.found, (r.address, r.port) = listedAt c0 p.2 →
    r.devices.map (·.codes) = p.1.devices.map (·.codes)

theorem received_found (e : Env) (he : ∀ n cs x, (e.behave n cs x).1 = []) (c : Ctrl) (m : Message) :
    ((CtrlOp.received e m).run stdDB c).1.node = c.node ∧
    ((CtrlOp.received e m).run stdDB c).1.autoPort = c.autoPort ∧
    ((CtrlOp.received e m).run stdDB c).1.servers = c.servers ∧
    (((CtrlOp.received e m).run stdDB c).1.found = c.found ∨
      ∃ r, ((CtrlOp.received e m).run stdDB c).1.found = c.found ++ [r] ∧ Fresh c r ∧
        Announces stdDB c.autoPort m r) := by
  obtain ⟨out, hr, h1, h2, h3⟩ := received_cases stdDB e c m
  obtain ⟨out', hr', hn, -⟩ := C39_unchanged (Ctrl.env e) stdDB c.node m
    (.inr (by intro n cs x; cases x <;> exact he n cs _))
  rw [hr] at hr'
  injection hr' with hr'
  subst hr'
  simp only [CtrlOp.run]
  by_cases hh : Handles c m
  · by_cases hx : ∃ n, Announces stdDB c.autoPort m n ∧ Fresh c n
    · obtain ⟨n, ha, hf⟩ := hx
      rw [h3 hh n ha hf]
      exact ⟨hn, rfl, rfl, .inr ⟨n, rfl, hf, ha⟩⟩
    · rw [h2 hh hx]
      exact ⟨hn, rfl, rfl, .inl rfl⟩
  · rw [h1 hh]
    exact ⟨hn, rfl, rfl, .inl rfl⟩

/-- What an answer to a search carries. -/
theorem replies_list {c : Ctrl} (hc : c.node.running = true) {q : Message}
    (hq : c.searchAllObjects.2 = ([q], none)) {env : Env} (henv : Silent env) {ac : Addr}
    {p : Node × Addr} (hp : OnNetwork c ac p) {m : Message} (h : Replies env q ac p m) :
    m.src = p.2 ∧ m.esv = 0x72 ∧ m.getDEOJ = 0x0EF001 ∧ m.opc = 1 ∧
      m.ep = [some ⟨0xD6, Obj.instanceListData p.1.devices⟩] := by
  obtain ⟨q', dq, out, res, dr, h1, h2, h3, h4, -, h5, k⟩ :=
    search_answered c hc p.1 hp.lawful hp.known hp.few hp.readable env henv ac hp.other
  obtain ⟨dq', out', res', dr', g2, g3, g4, g5, rfl⟩ := h
  rw [hq] at h1
  have hqq : q = q' := by
    have := congrArg Prod.fst h1
    simpa using this
  subst hqq
  rw [h2] at g2; injection g2 with g2; subst g2
  rw [h3] at g3; injection g3 with g3; subst g3
  rw [h4] at g4; injection g4 with g4; subst g4
  rw [h5] at g5; injection g5 with g5; subst g5
  exact ⟨rfl, k⟩

/-- One more message. -/
theorem listing_step {c0 : Ctrl} {peers : List (Node × Addr)} {c : Ctrl} (hI : Listing c0 peers c)
    (e : Env) (he : ∀ n cs x, (e.behave n cs x).1 = []) (m : Message)
    (hm : Foreign c0 peers m ∨ ∃ p ∈ peers, Hears c0 p.2 ∧ Lawful p.1 ∧ KnownDevices p.1 ∧
      p.1.devices.length ≤ 84 ∧ m.src = p.2 ∧ m.esv = 0x72 ∧ m.getDEOJ = 0x0EF001 ∧ m.opc = 1 ∧
      m.ep = [some ⟨0xD6, Obj.instanceListData p.1.devices⟩])
    (hd : ∀ p ∈ peers, ∀ p' ∈ peers, listedAt c0 p.2 = listedAt c0 p'.2 →
      p.1.devices.map (·.codes) = p'.1.devices.map (·.codes)) :
    Listing c0 peers ((CtrlOp.received e m).run stdDB c).1 ∧
    (∀ r ∈ c.found, r ∈ ((CtrlOp.received e m).run stdDB c).1.found) ∧
    (∀ r ∈ ((CtrlOp.received e m).run stdDB c).1.found, r ∈ c.found ∨
      (r.address, r.port) = listedAt c0 m.src) ∧
    ((¬ Foreign c0 peers m) →
      ∃ r ∈ ((CtrlOp.received e m).run stdDB c).1.found, (r.address, r.port) = listedAt c0 m.src) := by
  obtain ⟨k1, k2, k3, k4⟩ := received_found e he c m
  have hat : ∀ a, listedAt c a = listedAt c0 a := by
    intro a; unfold listedAt; rw [hI.autoPort]
  rcases hm with hm | ⟨p, hp, hh, hlaw, hkn, hfew, hsrc, hesv, hdeoj, hopc, hep⟩
  · rcases k4 with k4 | ⟨r, k4, hf, ha⟩
    · rw [k4]
      exact ⟨⟨k1.trans hI.node, k2.trans hI.autoPort, k3.trans hI.servers, by rw [k4]; exact hI.distinct,
        by rw [k4]; exact hI.right⟩, fun _ h => h, fun _ h => .inl h, fun h => absurd hm h⟩
    · obtain ⟨hx, hk⟩ := announced_at ha
      rw [hat] at hk
      refine ⟨⟨k1.trans hI.node, k2.trans hI.autoPort, k3.trans hI.servers,
        by rw [k4]; exact distinct_append hI.distinct hf, ?_⟩, ?_, ?_, fun h => absurd hm h⟩
      · rw [k4]
        intro p hp x hxm hxk
        rcases List.mem_append.mp hxm with h | h
        · exact hI.right p hp x h hxk
        · rw [List.mem_singleton] at h
          subst h
          rcases hm with h | h
          · exact absurd hx h
          · exact absurd (hk.symm.trans hxk) (h p hp)
      · rw [k4]; exact fun x h => List.mem_append_left _ h
      · rw [k4]
        intro x h
        rcases List.mem_append.mp h with h | h
        · exact .inl h
        · rw [List.mem_singleton] at h
          subst h
          exact .inr hk
  · by_cases hin : ∃ y ∈ c.found, (y.address, y.port) = listedAt c0 m.src
    · have hsame : ((CtrlOp.received e m).run stdDB c).1.found = c.found := by
        rcases k4 with k4 | ⟨r, k4, hf, ha⟩
        · exact k4
        · obtain ⟨-, hk⟩ := announced_at ha
          rw [hat] at hk
          obtain ⟨y, hy, hyk⟩ := hin
          have := hyk.trans hk.symm
          rw [Prod.mk.injEq] at this
          exact absurd this (hf y hy)
      rw [hsame]
      exact ⟨⟨k1.trans hI.node, k2.trans hI.autoPort, k3.trans hI.servers, by rw [hsame]; exact hI.distinct,
        by rw [hsame]; exact hI.right⟩, fun _ h => h, fun _ h => .inl h, fun _ => hin⟩
    · have hhc : Hears c m.src := by
        rw [hsrc]
        exact ⟨by rw [hI.node]; exact hh.profile, by rw [hI.node, hI.servers]; exact hh.foreign⟩
      have hnone : ∀ y ∈ c.found, ¬ (y.address = m.src.ip ∧
          y.port = if c.autoPort then m.src.port else 3610) := by
        intro y hy h
        refine hin ⟨y, hy, ?_⟩
        rw [h.1, h.2, ← hat]; rfl
      obtain ⟨r, hr, h1, h2, h3⟩ := finds p.1 hlaw.base.1 (by omega) hkn e c m hhc (.inr hesv) hdeoj hopc
        0xD6 (.inr rfl) hep hnone
      have hrk : (r.address, r.port) = listedAt c0 m.src := by rw [h1, h2, ← hat]; rfl
      refine ⟨⟨k1.trans hI.node, k2.trans hI.autoPort, k3.trans hI.servers, ?_, ?_⟩, ?_, ?_, fun _ => ?_⟩
      · rw [hr]
        refine distinct_append hI.distinct ?_
        intro y hy h
        exact hnone y hy ⟨h.1.trans h1, h.2.trans h2⟩
      · rw [hr]
        intro p' hp' x hxm hxk
        rcases List.mem_append.mp hxm with h | h
        · exact hI.right p' hp' x h hxk
        · rw [List.mem_singleton] at h
          subst h
          rw [h3]
          refine hd p hp p' hp' ?_
          rw [← hxk, hrk, hsrc]
      · rw [hr]; exact fun x h => List.mem_append_left _ h
      · rw [hr]
        intro x h
        rcases List.mem_append.mp h with h | h
        · exact .inl h
        · rw [List.mem_singleton] at h
          subst h
          exact .inr hrk
      · rw [hr]
        exact ⟨r, List.mem_append_right _ (List.mem_singleton.mpr rfl), hrk⟩

/-- C98, the part that holds: nodes with up to 84 devices. A controller that is running and knows no
node searches, multicasting `q`. In the network there are the nodes `peers`, any number of them, at
different addresses. Then any messages arrive at the controller, in any order and any number of
times: answers of the nodes to the search, or messages that are no instance lists of theirs. If each
node has answered at least once, then the controller lists each node exactly once, with exactly its
device codes, in order; and if no other instance list has arrived, it lists no other node.
Missing: nodes with more devices (`C48_refuted`). -/
theorem C98_network_partial (c : Ctrl) (hc : c.node.running = true) (hnone : c.found = [])
    (q : Message) (hq : c.searchAllObjects.2 = ([q], none)) (ac : Addr)
    (peers : List (Node × Addr)) (hon : ∀ p ∈ peers, OnNetwork c ac p)
    (hat : peers.Pairwise (fun p p' => listedAt c p.2 ≠ listedAt c p'.2))
    (env : Env) (henv : Silent env)
    (arrived : List (Env × Message)) (hpas : ∀ x ∈ arrived, ∀ n cs y, (x.1.behave n cs y).1 = [])
    (hall : ∀ x ∈ arrived, Foreign c peers x.2 ∨ ∃ p ∈ peers, Replies env q ac p x.2)
    (hans : ∀ p ∈ peers, ∃ x ∈ arrived, Replies env q ac p x.2) :
    ∃ c', c' = (CtrlOp.runAll stdDB c.searchAllObjects.1
        (arrived.map (fun x => .received x.1 x.2))).1 ∧
      (∀ p ∈ peers, ∃ r ∈ c'.found, (r.address, r.port) = listedAt c p.2 ∧
        r.devices.map (·.codes) = p.1.devices.map (·.codes) ∧
        ∀ r' ∈ c'.found, (r'.address, r'.port) = listedAt c p.2 → r' = r) ∧
      ((∀ x ∈ arrived, ∃ p ∈ peers, Replies env q ac p x.2) →
        (∀ r ∈ c'.found, ∃ p ∈ peers, (r.address, r.port) = listedAt c p.2) ∧
        c'.found.length = peers.length) := by
  refine ⟨_, rfl, ?_⟩
  have hd : ∀ p ∈ peers, ∀ p' ∈ peers, listedAt c p.2 = listedAt c p'.2 →
      p.1.devices.map (·.codes) = p'.1.devices.map (·.codes) := by
    intro p hp p' hp' h
    have : p = p' := by
      clear hall hans hon
      induction hat with
      | nil => cases hp
      | cons hx _ ih =>
        rcases List.mem_cons.mp hp with rfl | hp1
        · rcases List.mem_cons.mp hp' with rfl | hp2
          · rfl
          · exact absurd h (hx _ hp2)
        · rcases List.mem_cons.mp hp' with rfl | hp2
          · exact absurd h.symm (hx _ hp1)
          · exact ih hp1 hp2
    rw [this]
  obtain ⟨t, ht⟩ := search_same c
  have hears : ∀ p ∈ peers, Hears c.searchAllObjects.1 p.2 := by
    intro p hp
    have ha := (hon p hp).heard
    rw [ht]
    refine ⟨?_, ha.foreign⟩
    obtain ⟨r, x, hx⟩ := ha.profile
    refine ⟨r, x, ?_⟩
    cases r <;> exact hx
  have hlat : ∀ a, listedAt c.searchAllObjects.1 a = listedAt c a := by
    intro a; unfold listedAt; rw [ht]
  have hfor : ∀ m, Foreign c.searchAllObjects.1 peers m ↔ Foreign c peers m := by
    intro m; unfold Foreign; simp only [hlat]
  have hfound : c.searchAllObjects.1.found = [] := by rw [ht]; exact hnone
  generalize hs0 : c.searchAllObjects.1 = s0 at hears hlat hfor hfound
  have notForeign : ∀ p ∈ peers, ∀ m, Replies env q ac p m → ¬ Foreign c peers m := by
    intro p hp m h hf
    obtain ⟨a1, -, -, a4, a5⟩ := replies_list hc hq henv (hon p hp) h
    rcases hf with hf | hf
    · apply hf
      have hb := (hon p hp).lawful.base.1
      have hfew := (hon p hp).few
      exact ⟨p.1.devices.map (·.codes), by rw [a4]; decide, ⟨0xD6, Obj.instanceListData p.1.devices⟩,
        by rw [a5]; rfl, .inr rfl, lists_devices hb (by omega)⟩
    · exact hf p hp (by rw [a1])
  have main : ∀ (arrived : List (Env × Message)) (s : Ctrl),
      (∀ x ∈ arrived, ∀ n cs y, (x.1.behave n cs y).1 = []) →
      (∀ x ∈ arrived, Foreign c peers x.2 ∨ ∃ p ∈ peers, Replies env q ac p x.2) →
      Listing s0 peers s →
      Listing s0 peers (CtrlOp.runAll stdDB s (arrived.map (fun x => .received x.1 x.2))).1 ∧
      (∀ r ∈ s.found, r ∈ (CtrlOp.runAll stdDB s (arrived.map (fun x => .received x.1 x.2))).1.found) ∧
      (∀ r ∈ (CtrlOp.runAll stdDB s (arrived.map (fun x => .received x.1 x.2))).1.found,
        r ∈ s.found ∨ ∃ x ∈ arrived, (r.address, r.port) = listedAt c x.2.src) ∧
      (∀ x ∈ arrived, ¬ Foreign c peers x.2 →
        ∃ r ∈ (CtrlOp.runAll stdDB s (arrived.map (fun x => .received x.1 x.2))).1.found,
          (r.address, r.port) = listedAt c x.2.src) := by
    intro arrived
    induction arrived with
    | nil => intro s _ _ hs; exact ⟨hs, fun _ h => h, fun _ h => .inl h, fun _ h => by cases h⟩
    | cons x xs ih =>
      intro s hp hal hs
      have hx := hal x (List.mem_cons_self ..)
      have hx' : Foreign s0 peers x.2 ∨ ∃ p ∈ peers, Hears s0 p.2 ∧ Lawful p.1 ∧ KnownDevices p.1 ∧
          p.1.devices.length ≤ 84 ∧ x.2.src = p.2 ∧ x.2.esv = 0x72 ∧ x.2.getDEOJ = 0x0EF001 ∧
          x.2.opc = 1 ∧ x.2.ep = [some ⟨0xD6, Obj.instanceListData p.1.devices⟩] := by
        rcases hx with hx | ⟨p, hp, h⟩
        · exact .inl ((hfor _).mpr hx)
        · exact .inr ⟨p, hp, hears p hp, (hon p hp).lawful, (hon p hp).known, (hon p hp).few,
            replies_list hc hq henv (hon p hp) h⟩
      obtain ⟨a1, a2, a3, a4⟩ := listing_step hs x.1 (hp x (List.mem_cons_self ..)) x.2 hx'
        (by simp only [hlat]; exact hd)
      rw [hlat] at a4
      simp only [hlat] at a3
      obtain ⟨b1, b2, b3, b4⟩ := ih _ (fun y hy => hp y (List.mem_cons_of_mem _ hy))
        (fun y hy => hal y (List.mem_cons_of_mem _ hy)) a1
      simp only [List.map_cons, CtrlOp.runAll]
      refine ⟨b1, fun r hr => b2 r (a2 r hr), fun r hr => ?_, fun y hy hf => ?_⟩
      · rcases b3 r hr with h | ⟨y, hy, h⟩
        · rcases a3 r h with h | h
          · exact .inl h
          · exact .inr ⟨x, List.mem_cons_self .., h⟩
        · exact .inr ⟨y, List.mem_cons_of_mem _ hy, h⟩
      · rcases List.mem_cons.mp hy with rfl | hy
        · obtain ⟨r, hr, h⟩ := a4 (fun h => hf ((hfor _).mp h))
          exact ⟨r, b2 r hr, h⟩
        · exact b4 y hy hf
  have h0 : Listing s0 peers s0 := ⟨rfl, rfl, rfl, by rw [hfound]; exact List.Pairwise.nil, by
    rw [hfound]; intro _ _ r hr; cases hr⟩
  obtain ⟨m1, -, m3, m4⟩ := main arrived s0 hpas hall h0
  generalize (CtrlOp.runAll stdDB s0 (arrived.map (fun x => .received x.1 x.2))).1 = s' at m1 m3 m4
  have uniq : ∀ r ∈ s'.found, ∀ r' ∈ s'.found, (r.address, r.port) = (r'.address, r'.port) → r' = r := by
    have hdis := m1.distinct
    generalize s'.found = l at hdis
    induction hdis with
    | nil => intro r hr; cases hr
    | cons hx _ ih =>
      intro r hr r' hr' h
      rcases List.mem_cons.mp hr with rfl | hr1
      · rcases List.mem_cons.mp hr' with rfl | hr2
        · rfl
        · rw [Prod.mk.injEq] at h
          exact absurd h (hx _ hr2)
      · rcases List.mem_cons.mp hr' with rfl | hr2
        · rw [Prod.mk.injEq] at h
          exact absurd ⟨h.1.symm, h.2.symm⟩ (hx _ hr1)
        · exact ih r hr1 r' hr2 h
  have each : ∀ p ∈ peers, ∃ r ∈ s'.found, (r.address, r.port) = listedAt c p.2 := by
    intro p hp
    obtain ⟨x, hx, h⟩ := hans p hp
    obtain ⟨r, hr, hk⟩ := m4 x hx (notForeign p hp x.2 h)
    rw [(replies_list hc hq henv (hon p hp) h).1] at hk
    exact ⟨r, hr, hk⟩
  refine ⟨fun p hp => ?_, fun hno => ?_⟩
  · obtain ⟨r, hr, hk⟩ := each p hp
    exact ⟨r, hr, hk, m1.right p hp r hr (by rw [hlat]; exact hk),
      fun r' hr' hk' => uniq r hr r' hr' (hk.trans hk'.symm)⟩
  · have back : ∀ r ∈ s'.found, ∃ p ∈ peers, (r.address, r.port) = listedAt c p.2 := by
      intro r hr
      rcases m3 r hr with h | ⟨x, hx, h⟩
      · rw [hfound] at h; cases h
      · obtain ⟨p, hp, hpx⟩ := hno x hx
        rw [(replies_list hc hq henv (hon p hp) hpx).1] at h
        exact ⟨p, hp, h⟩
    refine ⟨back, ?_⟩
    have n1 : (s'.found.map (fun r => (r.address, r.port))).Nodup := by
      rw [List.nodup_iff_pairwise_ne, List.pairwise_map]
      refine m1.distinct.imp ?_
      intro a b h h'
      rw [Prod.mk.injEq] at h'
      exact h h'
    have n2 : (peers.map (fun p => listedAt c p.2)).Nodup := by
      rw [List.nodup_iff_pairwise_ne, List.pairwise_map]
      exact hat
    have hperm : (s'.found.map (fun r => (r.address, r.port))).Perm
        (peers.map (fun p => listedAt c p.2)) := by
      rw [List.perm_ext_iff_of_nodup n1 n2]
      intro k
      constructor
      · intro h
        obtain ⟨r, hr, rfl⟩ := List.mem_map.mp h
        obtain ⟨p, hp, h⟩ := back r hr
        exact List.mem_map.mpr ⟨p, hp, h.symm⟩
      · intro h
        obtain ⟨p, hp, rfl⟩ := List.mem_map.mp h
        obtain ⟨r, hr, h⟩ := each p hp
        exact List.mem_map.mpr ⟨r, hr, h⟩
    have := hperm.length_eq
    simpa using this

/-- C98 is false for nodes with 85 devices or more: their answers to a search arrive as messages,
but no controller takes anything from them. -/
theorem C98_refuted (c : Ctrl) (hc : c.node.running = true) (q : Message)
    (hq : c.searchAllObjects.2 = ([q], none)) (ac : Addr) (p : Node × Addr) (hlaw : Lawful p.1)
    (hk : KnownDevices p.1) (hmany : 85 ≤ p.1.devices.length)
    (hread : ∀ o x, p.1.get (.profile 0) = some o → o.props.lookup 0xD6 = some x → x.getAttr ≠ 0)
    (hother : p.1.selfMsg = true ∨ ac ≠ p.1.addr) (env : Env) (henv : Silent env) :
    (∃ m, Replies env q ac p m) ∧ ∀ m, Replies env q ac p m → ∀ (c' : Ctrl) (e : Env),
      ((CtrlOp.received e m).run stdDB c').1.found = c'.found := by
  obtain ⟨q', dq, out, res, h1, h2, h3, h4, -, t1, t2, t3, -, -, hopc, hep⟩ :=
    search_reply c hc p.1 hlaw hk hread env henv ac hother
  rw [hq] at h1
  have hqq : q = q' := by
    have := congrArg Prod.fst h1
    simpa using this
  subst hqq
  obtain ⟨d, hd, -, -, -, hdp⟩ := truncated res t1 t2 t3 hopc _ _ hep
  refine ⟨⟨_, dq, out, res, d, h2, h3, h4, hd, rfl⟩, ?_⟩
  rintro m ⟨dq', out', res', dr', g2, g3, g4, g5, rfl⟩ c' e
  rw [h2] at g2; injection g2 with g2; subst g2
  rw [h3] at g3; injection g3 with g3; subst g3
  rw [h4] at g4; injection g4 with g4; subst g4
  rw [hd] at g5; injection g5 with g5; subst g5
  exact cut_list p.1 hlaw.base.1 hmany d _ hdp _ c' e

/-- Every node of a network answers a search. -/
theorem replies_some {c : Ctrl} (hc : c.node.running = true) {q : Message}
    (hq : c.searchAllObjects.2 = ([q], none)) {env : Env} (henv : Silent env) {ac : Addr}
    {p : Node × Addr} (hp : OnNetwork c ac p) : ∃ m, Replies env q ac p m := by
  obtain ⟨q', dq, out, res, dr, h1, h2, h3, h4, -, h5, -⟩ :=
    search_answered c hc p.1 hp.lawful hp.known hp.few hp.readable env henv ac hp.other
  rw [hq] at h1
  have hqq : q = q' := by
    have := congrArg Prod.fst h1
    simpa using this
  subst hqq
  exact ⟨_, dq, out, res, dr, h2, h3, h4, h5, rfl⟩

/-- A started controller. -/
def searcherOf (db : StdDB) : Ctrl :=
  ((CtrlOp.start (some (true, ⟨"10.0.0.9", 3610⟩)) false []).run db (Ctrl.new db)).1

def searcher : Ctrl := searcherOf stdDB

theorem searcherOf_node (db : StdDB) : (searcherOf db).node
    = ((NodeOp.start (some (true, ⟨"10.0.0.9", 3610⟩)) false).run db (Node.new db)).1 := rfl

theorem searcher_hears (a : Addr) : Hears searcher a := by
  refine ⟨?_, .inl (by decide +kernel)⟩
  have h := (ordinary_step stdDB new_std.1 new_std.2
    (.start (some (true, ⟨"10.0.0.9", 3610⟩)) false) trivial).1
  rw [← searcherOf_node] at h
  obtain ⟨o, ho, hc, -⟩ := h.prof
  refine ⟨.profile 0, o, ?_, ho, hc, by omega⟩
  have : searcher.node.devices = [] := by decide +kernel
  rw [this]; simp

theorem many_readable (k : Nat) (hk : k = 1 ∨ k = 2) : ∀ o p, (many k).get (.profile 0) = some o →
    o.props.lookup 0xD6 = some p → p.getAttr ≠ 0 := by
  have h : ∀ o ∈ (many k).get (.profile 0), ∀ p ∈ o.props.lookup 0xD6, p.getAttr ≠ 0 := by
    rcases hk with rfl | rfl <;> decide +kernel
  intro o p ho hp
  exact h o ho p hp

theorem many_addr (k : Nat) (hk : k = 1 ∨ k = 2) : (⟨"10.0.0.9", 3610⟩ : Addr) ≠ (many k).addr := by
  rcases hk with rfl | rfl <;> decide +kernel

theorem searcher_network (k : Nat) (hk : k = 1 ∨ k = 2) (a : Addr) :
    OnNetwork searcher ⟨"10.0.0.9", 3610⟩ (many k, a) := by
  obtain ⟨h1, -, h3, h4⟩ := many_lawful k
  have h5 := many_readable k hk
  have h6 := many_addr k hk
  have h7 := searcher_hears a
  generalize searcher = c at h7
  generalize many k = n at h1 h3 h4 h5 h6
  exact ⟨h1, h4, by dsimp only; omega, h5, .inr h6, h7⟩

/-- Two nodes with one and with two devices, at different addresses, are a network as described;
both answer a search, one of them twice. -/
example : ∃ (q : Message) (peers : List (Node × Addr)) (arrived : List (Env × Message)),
    searcher.node.running = true ∧ searcher.found = [] ∧
    searcher.searchAllObjects.2 = ([q], none) ∧ peers.length = 2 ∧
    (∀ p ∈ peers, OnNetwork searcher ⟨"10.0.0.9", 3610⟩ p) ∧
    peers.Pairwise (fun p p' => listedAt searcher p.2 ≠ listedAt searcher p'.2) ∧ Silent noEnv ∧
    (∀ x ∈ arrived, ∀ n cs y, (x.1.behave n cs y).1 = []) ∧
    (∀ x ∈ arrived, ∃ p ∈ peers, Replies noEnv q ⟨"10.0.0.9", 3610⟩ p x.2) ∧
    (∀ p ∈ peers, ∃ x ∈ arrived, Replies noEnv q ⟨"10.0.0.9", 3610⟩ p x.2) := by
  have hc : searcher.node.running = true := by decide +kernel
  have henv : Silent noEnv := ⟨rfl, fun _ => rfl, fun _ => rfl⟩
  obtain ⟨q, hq, -⟩ := search_message searcher hc
  have on1 := searcher_network 1 (.inl rfl) ⟨"10.0.0.2", 3610⟩
  have on2 := searcher_network 2 (.inr rfl) ⟨"10.0.0.3", 3610⟩
  have hf : searcher.found = [] := by decide +kernel
  have hauto : searcher.autoPort = false := by decide +kernel
  generalize searcher = c at hc hq on1 on2 hf hauto
  generalize many 1 = n1 at on1
  generalize many 2 = n2 at on2
  obtain ⟨m1, r1⟩ := replies_some hc hq henv on1
  obtain ⟨m2, r2⟩ := replies_some hc hq henv on2
  refine ⟨q, [(n1, ⟨"10.0.0.2", 3610⟩), (n2, ⟨"10.0.0.3", 3610⟩)],
    [(noEnv, m2), (noEnv, m1), (noEnv, m2)], hc, hf, hq, rfl, ?_, ?_, henv, ?_, ?_, ?_⟩
  · intro p hp
    simp only [List.mem_cons, List.not_mem_nil, or_false] at hp
    rcases hp with rfl | rfl
    · exact on1
    · exact on2
  · rw [List.pairwise_pair]
    simp [listedAt, hauto]
  · intro x hx n cs y
    simp only [List.mem_cons, List.not_mem_nil, or_false] at hx
    rcases hx with rfl | rfl | rfl <;> rfl
  · intro x hx
    simp only [List.mem_cons, List.not_mem_nil, or_false] at hx
    rcases hx with rfl | rfl | rfl
    · exact ⟨_, by simp, r2⟩
    · exact ⟨_, by simp, r1⟩
    · exact ⟨_, by simp, r2⟩
  · intro p hp
    simp only [List.mem_cons, List.not_mem_nil, or_false] at hp
    rcases hp with rfl | rfl
    · exact ⟨(noEnv, m1), by simp, r1⟩
    · exact ⟨(noEnv, m2), by simp, r2⟩

end Verif.Props
