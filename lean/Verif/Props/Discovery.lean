import Verif.Props.Controller

/-! # C48, C49: what discovery finds -/

namespace Verif.Props
open Verif Model Spec Lemmas

/-- A node made by the library and used in the ordinary way (see `Ordinary`). -/
def Lawful (n : Node) : Prop :=
  ∃ ops, (∀ op ∈ ops, Ordinary stdDB op) ∧ n = (NodeOp.runAll stdDB (Node.new stdDB) ops).1

theorem Lawful.base {n : Node} (h : Lawful n) : Base n ∧ Listed n := by
  obtain ⟨ops, hops, rfl⟩ := h
  exact ordinary_all stdDB new_std.1 new_std.2 ops hops

/-- The controller gets messages from `a` and has a node profile. -/
structure Hears (c : Ctrl) (a : Addr) : Prop where
  profile : ∃ r o, Addressed c.node 0x0EF001 r o
  foreign : c.node.selfMsg = true ∨ (a ≠ c.node.addr ∧ a ∉ c.servers)

/-- The devices are of classes in the database, and none is a profile. -/
def KnownDevices (n : Node) : Prop :=
  ∀ o ∈ n.devices, o.codes.head? ≠ some 0x0E ∧ (stdDB.lookupObject o.code).isSome

theorem Base.device_codes {n : Node} (h : Base n) : ∀ c ∈ n.devices.map (·.codes), c.length = 3 := by
  intro c hc
  obtain ⟨o, ho, rfl⟩ := List.mem_map.mp hc
  obtain ⟨i, hi⟩ := List.getElem?_of_mem ho
  exact (h.wf (.device i) o hi).codes

theorem lists_devices {n : Node} (h : Base n) (hl : n.devices.length ≤ 254) :
    Lists (Obj.instanceListData n.devices) (n.devices.map (·.codes)) := by
  refine ⟨h.device_codes, BitVec.ofNat 8 n.devices.length, [], ?_, ?_⟩
  · rw [instanceListData_eq, List.append_nil, Nat.min_eq_right (by omega)]
  · rw [List.length_map, BitVec.toNat_ofNat]; omega

theorem known_devices {n : Node} (hk : KnownDevices n) :
    Known stdDB (n.devices.map (·.codes)) ∧
    (n.devices.map (·.codes)).filter (fun c => !ofProfile c) = n.devices.map (·.codes) := by
  constructor
  · intro c hc _
    obtain ⟨o, ho, rfl⟩ := List.mem_map.mp hc
    rw [codeNumber_eq]
    exact (hk o ho).2
  · rw [List.filter_eq_self]
    intro c hc
    obtain ⟨o, ho, rfl⟩ := List.mem_map.mp hc
    have := (hk o ho).1
    simpa [ofProfile] using this

theorem handles_of {c : Ctrl} {m : Message} (h : Hears c m.src)
    (he : m.esv = 0x73 ∨ m.esv = 0x72) (hd : m.getDEOJ = 0x0EF001) : Handles c m := by
  obtain ⟨r, o, ho⟩ := h.profile
  refine ⟨?_, ⟨r, o, by rw [hd]; exact ho, ?_, ?_⟩, ?_⟩
  · rintro ⟨a, b⟩
    rcases h.foreign with h | h
    · rw [a] at h; cases h
    · exact h.1 b
  · rcases he with h | h <;> rw [h] <;> decide
  · rcases he with h | h <;> rw [h] <;> intro h' <;> simp at h'
  · rintro ⟨a, b⟩
    rcases h.foreign with h | h
    · rw [a] at h; cases h
    · exact h.2 b

/-- The effect on the controller of a message with the instance list of `n`. -/
theorem finds (n : Node) (hb : Base n) (hl : n.devices.length ≤ 254) (hk : KnownDevices n)
    (e : Env) (c : Ctrl) (m : Message) (h : Hears c m.src) (he : m.esv = 0x73 ∨ m.esv = 0x72)
    (hd : m.getDEOJ = 0x0EF001) (ho : m.opc = 1) (x : Byte) (hx : x = 0xD5 ∨ x = 0xD6)
    (hp : m.ep = [some ⟨x, Obj.instanceListData n.devices⟩])
    (hf : ∀ y ∈ c.found, ¬ (y.address = m.src.ip ∧ y.port = if c.autoPort then m.src.port else 3610)) :
    ∃ r, ((CtrlOp.received e m).run stdDB c).1.found = c.found ++ [r] ∧ r.address = m.src.ip ∧
      r.port = (if c.autoPort then m.src.port else 3610) ∧
      r.devices.map (·.codes) = n.devices.map (·.codes) := by
  obtain ⟨k1, k2⟩ := known_devices hk
  have hi : InstanceList m (n.devices.map (·.codes)) :=
    ⟨by rw [ho]; decide, ⟨x, Obj.instanceListData n.devices⟩, by rw [hp]; rfl, hx, lists_devices hb hl⟩
  obtain ⟨r, hr, d⟩ := C47_decoded stdDB c.autoPort m _ hi k1
  have ha : Announces stdDB c.autoPort m r := ⟨by
    rcases he with h | h
    · exact .inl h
    · exact .inr (.inr (.inl h)), .inl hd, hr⟩
  have hfr : Fresh c r := by
    intro y hy
    rw [d.address, d.port]
    exact hf y hy
  obtain ⟨out, -, -, -, h3⟩ := received_cases stdDB e c m
  refine ⟨r, ?_, d.address, d.port, by rw [d.devices, k2]⟩
  simp only [CtrlOp.run]
  rw [h3 (handles_of h he hd) r ha hfr]

/-- What a running node announces. -/
theorem announces (n : Node) (hb : Base n) (hl : Listed n) (hr : n.running = true) :
    ∃ m, n.announce.2 = ([m], none) ∧ Built m ∧ m.ehd1 = 0x10 ∧ m.ehd2 = 0x81 ∧ m.esv = 0x73 ∧
      m.deoj = [0x0E, 0xF0, 1] ∧ m.opc = 1 ∧ m.ep = [some ⟨0xD5, Obj.instanceListData n.devices⟩] := by
  obtain ⟨o, ho, hc, -⟩ := hb.prof
  obtain ⟨-, -, ⟨p, hp, hd⟩, -⟩ := hl o ho
  have hq : p.toProtocol = ⟨0xD5, Obj.instanceListData n.devices⟩ := by
    rw [← hd, ← lookup_code hp]; rfl
  have e : n.announce = n.announceProperty ⟨o.code, p.toProtocol⟩ := by
    unfold Node.announce
    rw [hb.nodeProfile]
    simp only [ho, hp]
  rw [e, hq]
  unfold Node.announceProperty Node.announceMessage
  rw [hr]
  refine ⟨_, rfl, ?_, rfl, rfl, rfl, ?_, rfl, rfl⟩
  · exact .setDEOJ _ (.setTID _ (.addProperty _ (.setSEOJ _ (.setESV _ .new))))
  · show integerToByte nodeProfileObjectCode (List.replicate 3 0) = _
    decide

theorem listData_length (n : Node) (hb : Base n) :
    (Obj.instanceListData n.devices).length = n.devices.length * 3 + 1 := by
  rw [instanceListData_eq, List.length_cons]
  have := hb.device_codes
  generalize hcs : n.devices.map (·.codes) = cs at this
  have hlen : cs.length = n.devices.length := by rw [← hcs, List.length_map]
  rw [← hlen]
  congr 1
  clear hcs hlen
  induction cs with
  | nil => rfl
  | cons c cs ih =>
    rw [List.flatten_cons, List.length_append, this c (List.mem_cons_self ..),
      ih (fun x hx => this x (List.mem_cons_of_mem _ hx)), List.length_cons]
    omega

/-- C48, announcements, the part that holds: up to 84 devices. A running node announces itself
with one message; when this message arrives, sent from `a`, at a controller that does not yet know
a node with the address, the controller lists the node with exactly its device codes, in order.
Missing: nodes with more devices (`C48_refuted`). -/
theorem C48_announced_partial (n : Node) (hn : Lawful n) (hr : n.running = true)
    (hk : KnownDevices n) (hl : n.devices.length ≤ 84) :
    ∃ m d, n.announce.2 = ([m], none) ∧ Message.newWithBytes m.bytes = .ok d ∧
      ∀ (a : Addr) (c : Ctrl) (e : Env), Hears c a →
        (∀ y ∈ c.found, ¬ (y.address = a.ip ∧ y.port = if c.autoPort then a.port else 3610)) →
        ∃ r, ((CtrlOp.received e { d with src := a }).run stdDB c).1.found = c.found ++ [r] ∧
          r.address = a.ip ∧ r.port = (if c.autoPort then a.port else 3610) ∧
          r.devices.map (·.codes) = n.devices.map (·.codes) := by
  obtain ⟨hb, hli⟩ := hn.base
  obtain ⟨m, h1, h2, e1, e2, h3, h4, h5, h6⟩ := announces n hb hli hr
  have hf : Fits m := ⟨e1, e2, by rw [h6]; simp, by
    rw [h6]
    intro o ho
    rw [List.mem_singleton] at ho
    refine ⟨_, ho, ?_⟩
    rw [listData_length n hb]; omega⟩
  have := C02_roundtrip m h2 hf []
  rw [List.append_nil] at this
  refine ⟨m, _, h1, this, fun a c e hh hfr => ?_⟩
  exact finds n hb (by omega) hk e c _ hh (.inl h3)
    (by unfold Message.getDEOJ; dsimp only; rw [h4]; decide) h5 0xD5 (.inl rfl) h6 hfr

/-- The bytes of a message with one property with too much data still are a message, with one
property whose data is a beginning of the data. -/
theorem truncated (m : Message) (hb : Built m) (h1 : m.ehd1 = 0x10) (h2 : m.ehd2 = 0x81)
    (ho : m.opc = 1) (x : Byte) (dat : Bytes) (hp : m.ep = [some ⟨x, dat⟩]) :
    ∃ d, Message.newWithBytes m.bytes = .ok d ∧ d.opc = 1 ∧ d.deoj = m.deoj ∧ d.esv = m.esv ∧
      d.ep = [some ⟨x, dat.take (dat.length % 256)⟩] := by
  obtain ⟨d, hd, -, -, hdeoj, hesv, hopc⟩ := arrives (Built.wf hb) h1 h2
  refine ⟨d, hd, hopc.trans ho, hdeoj, hesv, ?_⟩
  have hlen := C06_lenient _ _ hd
  have hby : m.bytes = [m.ehd1, m.ehd2] ++ beBytes 2 m.getTID.toNat ++ beBytes 3 m.getSEOJ.toNat ++
      beBytes 3 m.getDEOJ.toNat ++ [m.esv, BitVec.ofNat 8 m.getOPC] ++
      (x :: BitVec.ofNat 8 dat.length :: dat) := by
    rw [Message.bytes, (C03_layout m hb).1]
    dsimp only
    have hg : m.getOPC = 1 := by unfold Message.getOPC; rw [ho]; rfl
    rw [hp, hg]
    simp
  have hdrop : m.bytes.drop 12 = x :: BitVec.ofNat 8 dat.length :: dat := by
    rw [hby]; rfl
  have hg : d.getOPC = 1 := by unfold Message.getOPC; rw [hopc, ho]; rfl
  rw [hdrop, hg] at hlen
  unfold lenientProps at hlen
  have hm : (BitVec.ofNat 8 dat.length).toNat = dat.length % 256 := by simp
  rw [hm, if_neg (by have := Nat.mod_le dat.length 256; omega)] at hlen
  rw [hlen]
  rfl

/-- An instance list of 85 devices or more whose data is cut changes nothing in any controller. -/
theorem cut_list (n : Node) (hb : Base n) (hl : 85 ≤ n.devices.length) (d : Message) (x : Byte)
    (k2 : d.ep = [some ⟨x, (Obj.instanceListData n.devices).take
      ((Obj.instanceListData n.devices).length % 256)⟩]) (a : Addr) (c : Ctrl) (e : Env) :
    ((CtrlOp.received e { d with src := a }).run stdDB c).1.found = c.found := by
  have hno : ¬ ∃ r, Announces stdDB c.autoPort { d with src := a } r := by
    rintro ⟨r, -, -, hx⟩
    have : ¬ ∃ cs, InstanceList { d with src := a } cs ∧ Known stdDB cs := by
      rintro ⟨cs, ⟨-, p, hp, -, hL⟩, -⟩
      dsimp only at hp
      rw [k2] at hp
      injection hp with hp
      injection hp with hp
      obtain ⟨k, t, e1, e2⟩ := (lists_iff p.data).mp ⟨cs, hL⟩
      rw [← hp] at e1 e2
      dsimp only at e1 e2
      have hlen := listData_length n hb
      rw [List.length_take] at e2
      have hk : k = BitVec.ofNat 8 (min 255 n.devices.length) := by
        rw [instanceListData_eq] at e1
        generalize (BitVec.ofNat 8 (min 255 n.devices.length) ::
          (n.devices.map (·.codes)).flatten).length % 256 = w at e1
        cases w with
        | zero => cases e1
        | succ w =>
          rw [List.take_succ_cons] at e1
          injection e1 with e1 _
          exact e1.symm
      rw [hk, BitVec.toNat_ofNat] at e2
      have : min 255 n.devices.length % 2 ^ 8 = min 255 n.devices.length := by omega
      rw [this] at e2
      omega
    obtain ⟨e', he'⟩ := C47_refused stdDB c.autoPort _ this
    rw [hx] at he'; cases he'
  obtain ⟨out, -, q1, q2, -⟩ := received_cases stdDB e c { d with src := a }
  simp only [CtrlOp.run]
  by_cases hh : Handles c { d with src := a }
  · rw [q2 hh (fun ⟨r, ha, _⟩ => hno ⟨r, ha⟩)]
  · rw [q1 hh]

/-- C48 is false as stated: the announcement of a node with 85 devices or more changes nothing in
any controller (its list does not fit the property, whose length is cut to one byte). -/
theorem C48_refuted (n : Node) (hn : Lawful n) (hr : n.running = true) (hl : 85 ≤ n.devices.length) :
    ∃ m d, n.announce.2 = ([m], none) ∧ Message.newWithBytes m.bytes = .ok d ∧
      ∀ (a : Addr) (c : Ctrl) (e : Env),
        ((CtrlOp.received e { d with src := a }).run stdDB c).1.found = c.found := by
  obtain ⟨hb, hli⟩ := hn.base
  obtain ⟨m, h1, h2, e1, e2, h3, h4, h5, h6⟩ := announces n hb hli hr
  obtain ⟨d, hd, k1, -, -, k2⟩ := truncated m h2 e1 e2 h5 _ _ h6
  exact ⟨m, d, h1, hd, fun a c e => cut_list n hb hl d _ k2 a c e⟩
theorem addDevice_devices (db : StdDB) (n : Node) (o : Obj) (hb : Base n) (ho : Reached db o) :
    ((NodeOp.addDevice o).run db n).1.devices
      = n.devices ++ [(o.setManufacturerCode n.manufacturer).1] ∧
    ((NodeOp.addDevice o).run db n).1.running = n.running := by
  have hb' := base_append_device hb (setMan_owf ho.owf n.manufacturer)
  generalize hx : { n with devices := n.devices ++ [(o.setManufacturerCode n.manufacturer).1] } = x at hb'
  have e : ((NodeOp.addDevice o).run db n).1 = x.updateNodeProfile.1 := by
    rw [← hx]; rfl
  rw [e]
  constructor
  · rw [devices_eq_of_get (n := x) (n' := x.updateNodeProfile.1) (by
      intro i
      rw [updateNodeProfile_get, hb'.nodeProfile, if_neg (by simp)]), ← hx]
  · rw [(updateNodeProfile_frame x).running, ← hx]

/-- An air conditioner. -/
def airconOf (db : StdDB) : Obj := ObjOp.runAll db (Obj.newSuper db) [.setCode 0x013001]

theorem airconOf_codes (db : StdDB) : (airconOf db).codes = [0x01, 0x30, 0x01] := by
  show ((Obj.newSuper db).superSetCode db 0x013001).1.codes = _
  rw [superSetCode_codes, newSuper_codes]; decide

def aircon : Obj := airconOf stdDB

theorem aircon_reached : Reached stdDB aircon := ⟨[.setCode 0x013001], by rw [aircon, airconOf]⟩

/-- Starting a node and adding `k` air conditioners. -/
def manyOps (k : Nat) : List NodeOp :=
  .start (some (true, ⟨"10.0.0.2", 3610⟩)) false :: List.replicate k (.addDevice aircon)

theorem started (db : StdDB) (n : Node) (a : Addr) : SameBut { n with running := true, addr := a }
    ((NodeOp.start (some (true, a)) false).run db n).1 := announce_same _

def many (k : Nat) : Node := (NodeOp.runAll stdDB (Node.new stdDB) (manyOps k)).1

theorem manyOps_ordinary (k : Nat) : ∀ op ∈ manyOps k, Ordinary stdDB op := by
  intro op hop
  rcases List.mem_cons.mp hop with rfl | hop
  · trivial
  · rw [(List.mem_replicate.mp hop).2]
    exact aircon_reached

theorem addMany (db : StdDB) (dev : Obj) (cs : Bytes) (hre : Reached db dev) (hcode : dev.codes = cs)
    (k : Nat) : ∀ n : Node, Base n → Listed n → n.running = true → (∀ o ∈ n.devices, o.codes = cs) →
      (NodeOp.runAll db n (List.replicate k (.addDevice dev))).1.running = true ∧
      (NodeOp.runAll db n (List.replicate k (.addDevice dev))).1.devices.length
        = n.devices.length + k ∧
      ∀ o ∈ (NodeOp.runAll db n (List.replicate k (.addDevice dev))).1.devices, o.codes = cs := by
  induction k with
  | zero => intro n _ _ hr hk; exact ⟨hr, rfl, hk⟩
  | succ k ih =>
    intro n hb hl hr hk
    obtain ⟨d1, d2⟩ := addDevice_devices db n dev hb hre
    obtain ⟨b, l⟩ := ordinary_step db hb hl (.addDevice dev) hre
    obtain ⟨r1, r2, r3⟩ := ih ((NodeOp.addDevice dev).run db n).1 b l (by rw [d2]; exact hr) (by
      intro o ho
      rw [d1, List.mem_append] at ho
      rcases ho with ho | ho
      · exact hk o ho
      · rw [List.mem_singleton] at ho
        rw [ho, setMan_fst]; exact hcode)
    rw [List.replicate_succ]
    refine ⟨r1, ?_, r3⟩
    show (NodeOp.runAll db ((NodeOp.addDevice dev).run db n).1 _).1.devices.length = _
    rw [r2, d1, List.length_append, List.length_singleton]
    omega

/-- For every number of devices there is a node as required by the theorems. -/
theorem many_lawful (k : Nat) : Lawful (many k) ∧ (many k).running = true ∧
    (many k).devices.length = k ∧ KnownDevices (many k) := by
  refine ⟨⟨manyOps k, manyOps_ordinary k, rfl⟩, ?_⟩
  have hknown : (stdDB.lookupObject 0x013001).isSome := by decide +kernel
  have hstart := ordinary_step stdDB new_std.1 new_std.2
    (.start (some (true, ⟨"10.0.0.2", 3610⟩)) false) trivial
  generalize hs : ((NodeOp.start (some (true, ⟨"10.0.0.2", 3610⟩)) false).run stdDB (Node.new stdDB)).1
    = s at hstart
  have hsame : SameBut { Node.new stdDB with running := true, addr := ⟨"10.0.0.2", 3610⟩ } s := by
    rw [← hs]
    exact started stdDB (Node.new stdDB) _
  have hdev : s.devices = [] := by
    have : s.devices = (Node.new stdDB).devices := by rw [hsame]
    rw [this]; decide +kernel
  obtain ⟨h1, h2, h3⟩ := addMany stdDB aircon [0x01, 0x30, 0x01] aircon_reached (airconOf_codes stdDB)
    k s hstart.1 hstart.2 (by rw [hsame]) (by
      intro o ho
      rw [hdev] at ho; cases ho)
  have e : many k = (NodeOp.runAll stdDB s (List.replicate k (.addDevice aircon))).1 := by
    rw [← hs]
    simp only [many, manyOps, NodeOp.runAll]
  rw [← e] at h1 h2 h3
  rw [hdev] at h2
  refine ⟨h1, by rw [h2]; simp, fun o ho => ?_⟩
  have hc := h3 o ho
  refine ⟨by rw [hc]; decide, ?_⟩
  unfold Obj.code
  rw [hc]; exact hknown

/-- The hypotheses of the two theorems are met: nodes with 84 and with 85 devices, and a new
controller. -/
example : (Lawful (many 84) ∧ (many 84).running = true ∧ KnownDevices (many 84) ∧
    (many 84).devices.length ≤ 84) ∧ (Lawful (many 85) ∧ (many 85).running = true ∧
    85 ≤ (many 85).devices.length) ∧ Hears (Ctrl.new stdDB) ⟨"10.0.0.2", 3610⟩ := by
  obtain ⟨a, b, c, d⟩ := many_lawful 84
  obtain ⟨a', b', c', d'⟩ := many_lawful 85
  refine ⟨⟨a, b, d, by omega⟩, ⟨a', b', by omega⟩, ?_, .inl ?_⟩
  · obtain ⟨o, ho, hc, -⟩ := new_std.1.prof
    refine ⟨.profile 0, o, ?_, ho, hc, by omega⟩
    have : (Ctrl.new stdDB).node.devices = [] := by decide +kernel
    rw [this]; simp
  · decide +kernel

/-- The request a search multicasts. -/
theorem search_message (c : Ctrl) (hr : c.node.running = true) :
    ∃ q, c.searchAllObjects.2 = ([q], none) ∧ Built q ∧ q.ehd1 = 0x10 ∧ q.ehd2 = 0x81 ∧
      q.esv = 0x62 ∧ q.seoj = [0x0E, 0xF0, 1] ∧ q.deoj = [0x0E, 0xF0, 1] ∧ q.opc = 1 ∧
      q.ep = [some ⟨0xD6, []⟩] := by
  unfold Ctrl.searchAllObjects Node.announceMessage
  rw [hr]
  refine ⟨_, rfl, ?_, rfl, rfl, rfl, ?_, ?_, rfl, rfl⟩
  · exact .setDEOJ _ (.setTID _ (.setESV _ (.addProperty _ (.setDEOJ _ (.setSEOJ _ (.setESV _ .new))))))
  · show integerToByte nodeProfileObjectCode (List.replicate 3 0) = _
    decide
  · show integerToByte nodeProfileObjectCode (integerToByte nodeProfileObjectCode (List.replicate 3 0)) = _
    decide

theorem search_same (c : Ctrl) : ∃ t, c.searchAllObjects.1 = { c with node := { c.node with lastTID := t } } := by
  unfold Ctrl.searchAllObjects Node.announceMessage
  cases c.node.running with
  | false => exact ⟨c.node.lastTID, rfl⟩
  | true =>
    refine ⟨(c.node.nextTID).lastTID, ?_⟩
    show { c with node := c.node.nextTID } = _
    rw [nextTID_eq]

/-- A program that sets no callbacks. -/
def Silent (env : Env) : Prop :=
  env.listener = false ∧ (∀ r, env.objListener r = false) ∧ ∀ r, env.reqHandler r = false

/-- How a node answers a search. -/
theorem search_reply (c : Ctrl) (hc : c.node.running = true) (n : Node) (hn : Lawful n)
    (hk : KnownDevices n)
    (hread : ∀ o p, n.get (.profile 0) = some o → o.props.lookup 0xD6 = some p → p.getAttr ≠ 0)
    (env : Env) (he : Silent env) (ac : Addr) (hac : n.selfMsg = true ∨ ac ≠ n.addr) :
    ∃ q dq out res, c.searchAllObjects.2 = ([q], none) ∧ Message.newWithBytes q.bytes = .ok dq ∧
      n.received env stdDB { dq with src := ac } = .ok out ∧ out.reply = some res ∧ out.node = n ∧
      Built res ∧ res.ehd1 = 0x10 ∧ res.ehd2 = 0x81 ∧ res.esv = 0x72 ∧ res.getDEOJ = 0x0EF001 ∧
      res.opc = 1 ∧ res.ep = [some ⟨0xD6, Obj.instanceListData n.devices⟩] := by
  obtain ⟨hb, hli⟩ := hn.base
  obtain ⟨q, h1, h2, e1, e2, h3, h4, h5, h6, h7⟩ := search_message c hc
  have hfq : Fits q := ⟨e1, e2, by rw [h7]; simp, by
    rw [h7]
    intro o ho
    rw [List.mem_singleton] at ho
    exact ⟨_, ho, by simp⟩⟩
  have hdq := C02_roundtrip q h2 hfq []
  rw [List.append_nil] at hdq
  generalize hM : { { q with src := Message.new.src, pktType := unknownPacket, ifc := none } with
    src := ac } = M
  have hMd : M.getDEOJ = 0x0EF001 := by rw [← hM]; unfold Message.getDEOJ; dsimp only; rw [h5]; decide
  have hMs : M.getSEOJ = 0x0EF001 := by rw [← hM]; unfold Message.getSEOJ; dsimp only; rw [h4]; decide
  have hMe : M.esv = 0x62 := by rw [← hM]; exact h3
  have hMb : Built M := by rw [← hM]; exact .setFrom _ (.decoded hdq)
  have hMp : properties M = [⟨0xD6, []⟩] := by
    rw [← hM]; unfold properties; dsimp only; rw [h6, h7]; rfl
  have hMsrc : M.src = ac := by rw [← hM]
  obtain ⟨o, ho, hcode, -⟩ := hb.prof
  obtain ⟨-, -, -, ⟨p, hp, hd⟩, -⟩ := hli o ho
  have hno : ∀ x ∈ n.devices, x.code ≠ 0x0EF001 := by
    intro x hx hxc
    have h3 := hb.device_codes x.codes (List.mem_map_of_mem hx)
    have : x.codes = [0x0E, 0xF0, 0x01] := by
      have := C01_read_write 64 x.codes (List.replicate 3 0) (by rw [h3]; rfl) (by rw [h3]; decide)
      unfold Obj.code at hxc
      rw [hxc] at this
      rw [← this]; decide
    exact (hk x hx).1 (by rw [this]; rfl)
  have haddr : Addressed n M.getDEOJ (.profile 0) o := by
    rw [hMd]
    exact ⟨hno, ho, hcode, fun j hj => absurd hj (by omega)⟩
  have hi : ¬ Ignored n M := by
    rintro ⟨x, y⟩
    rcases hac with h | h
    · rw [x] at h; cases h
    · rw [hMsrc] at y; exact h y
  have hacc : Accepts n M := by
    refine ⟨_, o, haddr, by rw [hMe]; decide, fun _ x hx => ?_⟩
    rw [hMp, List.mem_singleton] at hx
    subst hx
    refine ⟨p, hp, ?_, fun _ => hread o p ho hp⟩
    rw [hMe]
    intro h; simp at h
  obtain ⟨out, rs, r1, r2, r3, -, -, -, -⟩ := received_accepted env stdDB n M hi hacc _ o haddr
  have hcalls : out.calls = [] := by
    rw [r2]
    unfold expectedCalls
    rw [he.1]
    simp [he.2.1, he.2.2]
  rw [hcalls] at r3
  have hnode : out.node = n ∧ rs = [] := by
    generalize out.node = x at r3
    generalize out.sent = y at r3
    cases r3
    exact ⟨rfl, rfl⟩
  have hres : Results env stdDB n out rs := by
    unfold Results
    rw [hcalls]; exact r3
  obtain ⟨res, s1, -, -, -, s2, s3, s4, s5⟩ := C35_response env stdDB n M hMb hi hacc out r1 rs hres
    (by rw [hnode.2]; simp) ⟨0x62, .request, false, true, some 0x72, some 0x52⟩ (by decide) hMe.symm
    0x72 rfl (.profile 0) o (by rw [hnode.1]; exact haddr)
  obtain ⟨t1, t2, t3, -, -⟩ := reply_shape env stdDB n M hMb out r1 res s1
  have hrp : replyProps o (properties M) = [⟨0xD6, Obj.instanceListData n.devices⟩] := by
    rw [hMp]
    unfold replyProps
    rw [List.filterMap_cons]
    simp only
    rw [hp]
    simp [hd]
  rw [hrp] at s4 s5
  have hopc : res.opc = 1 := BitVec.eq_of_toNat_eq s4
  refine ⟨q, _, out, res, h1, hdq, ?_, s1, hnode.1, t1, t2, t3, s3, s2.trans hMs, hopc, s5⟩
  rw [hM]; exact r1

/-- How a node answers a search, and what arrives. -/
theorem search_answered (c : Ctrl) (hc : c.node.running = true) (n : Node) (hn : Lawful n)
    (hk : KnownDevices n) (hl : n.devices.length ≤ 84)
    (hread : ∀ o p, n.get (.profile 0) = some o → o.props.lookup 0xD6 = some p → p.getAttr ≠ 0)
    (env : Env) (he : Silent env) (ac : Addr) (hac : n.selfMsg = true ∨ ac ≠ n.addr) :
    ∃ q dq out res dr, c.searchAllObjects.2 = ([q], none) ∧ Message.newWithBytes q.bytes = .ok dq ∧
      n.received env stdDB { dq with src := ac } = .ok out ∧ out.reply = some res ∧ out.node = n ∧
      Message.newWithBytes res.bytes = .ok dr ∧
      dr.esv = 0x72 ∧ dr.getDEOJ = 0x0EF001 ∧ dr.opc = 1 ∧
      dr.ep = [some ⟨0xD6, Obj.instanceListData n.devices⟩] := by
  obtain ⟨hb, -⟩ := hn.base
  obtain ⟨q, dq, out, res, h1, hdq, r1, s1, hnode, t1, t2, t3, s3, s2, hopc, s5⟩ :=
    search_reply c hc n hn hk hread env he ac hac
  have hfr : Fits res := ⟨t2, t3, by rw [s5]; simp, by
    rw [s5]
    intro x hx
    simp only [List.mem_singleton] at hx
    refine ⟨_, hx, ?_⟩
    rw [listData_length n hb]; omega⟩
  have hdr := C02_roundtrip res t1 hfr []
  rw [List.append_nil] at hdr
  exact ⟨q, dq, out, res, _, h1, hdq, r1, s1, hnode, hdr, s3, s2, hopc, s5⟩

/-- C48, searches, the part that holds: up to 84 devices. A search of a running controller
multicasts one request; a node (without callbacks) that receives it, and whose instance list may be
read, answers with one message; when this arrives at the controller, which does not yet know the
node, it lists the node with exactly its device codes, in order. Missing: nodes with more devices. -/
theorem C48_search_partial (c : Ctrl) (hc : c.node.running = true) (n : Node) (hn : Lawful n)
    (hk : KnownDevices n) (hl : n.devices.length ≤ 84)
    (hread : ∀ o p, n.get (.profile 0) = some o → o.props.lookup 0xD6 = some p → p.getAttr ≠ 0)
    (env : Env) (he : Silent env) (ac a : Addr) (hac : n.selfMsg = true ∨ ac ≠ n.addr)
    (ha : Hears c a) (e : Env)
    (hf : ∀ y ∈ c.found, ¬ (y.address = a.ip ∧ y.port = if c.autoPort then a.port else 3610)) :
    ∃ q dq out res dr, c.searchAllObjects.2 = ([q], none) ∧ Message.newWithBytes q.bytes = .ok dq ∧
      n.received env stdDB { dq with src := ac } = .ok out ∧ out.reply = some res ∧ out.node = n ∧
      Message.newWithBytes res.bytes = .ok dr ∧
      ∃ r, ((CtrlOp.received e { dr with src := a }).run stdDB c.searchAllObjects.1).1.found
          = c.found ++ [r] ∧
        r.address = a.ip ∧ r.port = (if c.autoPort then a.port else 3610) ∧
        r.devices.map (·.codes) = n.devices.map (·.codes) := by
  obtain ⟨hb, hli⟩ := hn.base
  obtain ⟨q, dq, out, res, dr, h1, hdq, r1, s1, hnode, hdr, s3, s2, hopc, s5⟩ :=
    search_answered c hc n hn hk hl hread env he ac hac
  refine ⟨q, dq, out, res, dr, h1, hdq, r1, s1, hnode, hdr, ?_⟩
  obtain ⟨t, ht⟩ := search_same c
  have hears : Hears c.searchAllObjects.1 a := by
    rw [ht]
    refine ⟨?_, ha.foreign⟩
    obtain ⟨r, x, hx⟩ := ha.profile
    refine ⟨r, x, ?_⟩
    cases r <;> exact hx
  have hfound : c.searchAllObjects.1.found = c.found := by rw [ht]
  have hauto : c.searchAllObjects.1.autoPort = c.autoPort := by rw [ht]
  have := finds n hb (by omega) hk e c.searchAllObjects.1 { dr with src := a }
    hears (.inr s3) s2 hopc 0xD6 (.inr rfl) s5
    (by rw [hfound, hauto]; exact hf)
  rw [hfound, hauto] at this
  exact this
/-! ## C49 -/

/-- C49. No event but `Start` and `Clear` changes an entry of the node list: it can only grow. -/
theorem C49_refuted_never_changes (db : StdDB) (c : Ctrl) (op : CtrlOp) (hk : Keeps op) :
    c.found <+: (op.run db c).1.found := by
  rcases step_found db c op hk with ⟨e, -⟩ | ⟨n, e, -⟩
  · rw [e]; exact List.prefix_rfl
  · rw [e]; exact List.prefix_append _ _

/-- C49 is false: a node announces one air conditioner, then another instead; the controller shows
the first. -/
theorem C49_refuted :
    let a : Addr := ⟨"10.0.0.2", 3610⟩
    let m1 := listMessage a [1, 0x01, 0x30, 0x01]
    let m2 := listMessage a [1, 0x01, 0x30, 0x02]
    InstanceList m1 [[0x01, 0x30, 0x01]] ∧ InstanceList m2 [[0x01, 0x30, 0x02]] ∧
    (CtrlOp.runAll stdDB (Ctrl.new stdDB) [.received noEnv m1, .received noEnv m2]).1.found.map
      (fun r => (r.address, r.devices.map (·.codes))) = [("10.0.0.2", [[0x01, 0x30, 0x01]])] := by
  refine ⟨⟨by decide, ⟨0xD5, _⟩, rfl, .inl rfl, by decide, 1, [], rfl, rfl⟩,
    ⟨by decide, ⟨0xD5, _⟩, rfl, .inl rfl, by decide, 1, [], rfl, rfl⟩, ?_⟩
  decide +kernel

/-- C49 is false for every node that is listed: whatever message it sends from its address and port, the list of
nodes, with their devices, stays as it is. -/
theorem C49_refuted_any (db : StdDB) (c : Ctrl) (e : Env) (m : Message) (y : RemoteNode) (hy : y ∈ c.found)
    (ha : y.address = m.src.ip) (hp : y.port = if c.autoPort then m.src.port else 3610) :
    ((CtrlOp.received e m).run db c).1.found = c.found := by
  have hno : ∀ n, Announces db c.autoPort m n → ¬ Fresh c n := by
    intro n hn hf
    by_cases hk : ∃ cs, InstanceList m cs ∧ Known db cs
    · obtain ⟨cs, hi, hk⟩ := hk
      obtain ⟨n', e', d⟩ := C47_decoded db c.autoPort m cs hi hk
      rw [hn.2.2] at e'
      cases e'
      exact hf y hy ⟨ha.trans d.address.symm, hp.trans d.port.symm⟩
    · obtain ⟨_, e'⟩ := C47_refused db c.autoPort m hk
      rw [hn.2.2] at e'
      cases e'
  obtain ⟨out, -, h1, h2, -⟩ := received_cases db e c m
  simp only [CtrlOp.run]
  by_cases hh : Handles c m
  · rw [h2 hh (fun ⟨n, hn, hf⟩ => hno n hn hf)]
  · rw [h1 hh]

/-- The node of `C49_refuted` is listed after its first message, with the address and port it sends from. -/
example : ∃ y ∈ ((CtrlOp.received noEnv (listMessage ⟨"10.0.0.2", 3610⟩ [1, 0x01, 0x30, 0x01])).run stdDB
      (Ctrl.new stdDB)).1.found, y.address = "10.0.0.2" ∧ y.port = 3610 := by
  decide +kernel

/-- C49, the part that holds: after `Start` or `Clear`, the next announcement of a node is shown. -/
theorem C49_after_clear_partial (db : StdDB) (c : Ctrl) (op : CtrlOp) (hop : ¬ Keeps op) (e : Env)
    (m : Message) (cs : List Bytes) (hi : InstanceList m cs) (hk : Known db cs)
    (hs : m.esv = 0x73 ∨ m.esv = 0x74 ∨ m.esv = 0x72 ∨ m.esv = 0x7E)
    (hd : m.getDEOJ = 0x0EF001 ∨ m.getDEOJ = 0x0EF002) (hh : Handles (op.run db c).1 m) :
    ∃ r, (CtrlOp.runAll db c [op, .received e m]).1.found = [r] ∧
      Described db (op.run db c).1.autoPort m.src cs r := by
  obtain ⟨r, hr, d⟩ := C47_decoded db (op.run db c).1.autoPort m cs hi hk
  have hf : (op.run db c).1.found = [] := by
    cases op with
    | start => rfl
    | clear => rfl
    | _ => exact absurd trivial hop
  refine ⟨r, ?_, d⟩
  show ((CtrlOp.received e m).run db (op.run db c).1).1.found = [r]
  generalize (op.run db c).1 = c' at *
  obtain ⟨out, -, -, -, h3⟩ := received_cases db e c' m
  simp only [CtrlOp.run]
  rw [h3 hh r ⟨hs, hd, hr⟩ (by intro y hy; rw [hf] at hy; cases hy), hf]
  rfl

/-! ## Concrete cases for C44, C46, C48 and C49 -/

theorem new_hears (a : Addr) : Hears (Ctrl.new stdDB) a := by
  refine ⟨?_, .inl ?_⟩
  · obtain ⟨o, ho, hc, -⟩ := new_std.1.prof
    refine ⟨.profile 0, o, ?_, ho, hc, by omega⟩
    have : (Ctrl.new stdDB).node.devices = [] := by decide +kernel
    rw [this]; simp
  · decide +kernel

/-- The instance list of a node with two devices may be read. -/
example : ∀ o p, (many 2).get (.profile 0) = some o → o.props.lookup 0xD6 = some p → p.getAttr ≠ 0 := by
  have h : ∀ o ∈ (many 2).get (.profile 0), ∀ p ∈ o.props.lookup 0xD6, p.getAttr ≠ 0 := by
    decide +kernel
  intro o p ho hp
  exact h o ho p hp

/-- A started controller and a program without callbacks. -/
example : ((CtrlOp.start (some (true, ⟨"10.0.0.9", 3610⟩)) false []).run stdDB
      (Ctrl.new stdDB)).1.node.running = true ∧
    ((CtrlOp.start (some (true, ⟨"10.0.0.9", 3610⟩)) false []).run stdDB (Ctrl.new stdDB)).1.found = [] ∧
    Silent ⟨false, fun _ => false, fun _ => false, fun _ _ _ => ([], none)⟩ := by
  refine ⟨?_, rfl, rfl, fun _ => rfl, fun _ => rfl⟩
  decide +kernel

/-- The events of the example below: a start, two announcements of one node, one of another, and
a message with no instance list. -/
def exampleOps : List CtrlOp :=
  [.setListener true, .start (some (true, ⟨"10.0.0.9", 3610⟩)) false [],
   .received noEnv (listMessage ⟨"10.0.0.2", 3610⟩ [1, 0x01, 0x30, 0x01]),
   .received noEnv (listMessage ⟨"10.0.0.2", 3610⟩ [1, 0x01, 0x30, 0x02]),
   .received noEnv (listMessage ⟨"10.0.0.3", 3610⟩ [2, 0x01, 0x30, 0x01, 0x01, 0x30, 0x02]),
   .received noEnv (listMessage ⟨"10.0.0.4", 3610⟩ [2, 0x01, 0x30, 0x01])]

/-- Two nodes are found and reported, and four messages passed on. -/
example : (CtrlOp.runAll stdDB (Ctrl.new stdDB) exampleOps).1.found.map (·.address)
      = ["10.0.0.2", "10.0.0.3"] ∧
    (reported (CtrlOp.runAll stdDB (Ctrl.new stdDB) exampleOps).2).map (·.address)
      = ["10.0.0.2", "10.0.0.3"] ∧
    (passed (CtrlOp.runAll stdDB (Ctrl.new stdDB) exampleOps).2).length = 4 := by
  decide +kernel

example : ¬ Keeps .clear ∧ ¬ Keeps (.start (some (true, ⟨"10.0.0.9", 3610⟩)) false []) ∧
    (∀ op ∈ exampleOps.drop 2, Keeps op ∧ KeepsListener op) := by
  refine ⟨id, id, ?_⟩
  simp [exampleOps, Keeps, KeepsListener]

/-- A message handled after `Clear`. -/
example : Handles (CtrlOp.clear.run stdDB (Ctrl.new stdDB)).1
    (listMessage ⟨"10.0.0.2", 3610⟩ [1, 0x01, 0x30, 0x02]) := by
  have h := new_hears ⟨"10.0.0.2", 3610⟩
  generalize Ctrl.new stdDB = c at h
  exact handles_of (c := c.clear) ⟨h.profile, h.foreign⟩ (.inl rfl) (by decide)

end Verif.Props
