import Verif.Props.Arrival
import Verif.Props.Node
import Verif.Props.NodeOptions

/-! # C116, C117: the codes of the objects of a node -/

namespace Verif.Props
open Verif Model Spec Lemmas

/-! ## C116 -/

/-- Lists of three bytes each are determined by what they make together. -/
theorem flatten_three {a b : List Bytes} (ha : ∀ x ∈ a, x.length = 3) (hb : ∀ x ∈ b, x.length = 3)
    (hl : a.length = b.length) (h : a.flatten = b.flatten) : a = b := by
  induction a generalizing b with
  | nil => cases b with
    | nil => rfl
    | cons => cases hl
  | cons x a ih =>
    cases b with
    | nil => cases hl
    | cons y b =>
      rw [List.flatten_cons, List.flatten_cons] at h
      have := List.append_inj h (by rw [ha x List.mem_cons_self, hb y List.mem_cons_self])
      rw [this.1, ih (fun z hz => ha z (List.mem_cons_of_mem _ hz)) (fun z hz => hb z (List.mem_cons_of_mem _ hz))
        (by simpa using hl) this.2]

/-- Well-formed objects stay so when a device changes, and the first profile stays. -/
theorem base_device {n : Node} (h : Base n) (db : StdDB) (i : Nat) (op : ObjOp) :
    Base ((NodeOp.obj (.device i) op).run db n).1 := by
  have hget : ∀ r, ((NodeOp.obj (.device i) op).run db n).1.get r
      = if r = .device i then (n.get (.device i)).map (fun o => (op.run db o).1) else n.get r :=
    fun r => onObj_get n _ r _
  refine ⟨fun r o ho => ?_, ?_⟩
  · rw [hget] at ho
    split at ho
    · obtain ⟨x, hx, rfl⟩ := Option.map_eq_some_iff.mp ho
      exact owf_run (h.wf _ _ hx) db op
    · exact h.wf _ _ ho
  · obtain ⟨o, ho, hr⟩ := h.prof
    exact ⟨o, by rw [hget, if_neg (by intro e; cases e)]; exact ho, hr⟩

/-- The order in which the objects of a node are looked at: the devices, then the profiles. -/
def Before : ObjRef → ObjRef → Prop
  | .device i, .device j => i < j
  | .device _, .profile _ => True
  | .profile _, .device _ => False
  | .profile i, .profile j => i < j

theorem addressed_iff (n : Node) (c : ObjectCode) (r : ObjRef) (o : Obj) :
    Addressed n c r o ↔ n.get r = some o ∧ o.code = c ∧ ∀ r', Before r' r → ∀ x, n.get r' = some x → x.code ≠ c := by
  cases r with
  | device i =>
    constructor
    · rintro ⟨h1, h2, h3⟩
      refine ⟨h1, h2, fun r' hb x hx => ?_⟩
      cases r' with
      | device j => exact h3 j hb x hx
      | profile j => exact absurd hb id
    · rintro ⟨h1, h2, h3⟩
      exact ⟨h1, h2, fun j hj x hx => h3 (.device j) hj x hx⟩
  | profile i =>
    constructor
    · rintro ⟨h0, h1, h2, h3⟩
      refine ⟨h1, h2, fun r' hb x hx => ?_⟩
      cases r' with
      | device j => exact h0 x (List.mem_of_getElem? hx)
      | profile j => exact h3 j hb x hx
    · rintro ⟨h1, h2, h3⟩
      refine ⟨fun x hx => ?_, h1, h2, fun j hj x hx => h3 (.profile j) hj x hx⟩
      obtain ⟨j, hj⟩ := List.getElem?_of_mem hx
      exact h3 (.device j) trivial x hj

/-- **C116 refuted**: take any node reached by ordinary calls, for which C30 says that its node profile describes
it. When the code of one of its devices is changed, by any call of a method of this device, the node profile does
not describe the node any more: it still lists the old code. -/
theorem C116_refuted (ops : List NodeOp) (hops : ∀ op ∈ ops, Ordinary stdDB op) (n : Node)
    (hn : n = (NodeOp.runAll stdDB (Node.new stdDB) ops).1) (i : Nat) (o : Obj) (ho : n.get (.device i) = some o)
    (op : ObjOp) (hc : (op.run stdDB o).1.codes ≠ o.codes) :
    ¬ DescribesNode ((NodeOp.obj (.device i) op).run stdDB n).1 := by
  obtain ⟨hb, hl⟩ := ordinary_all stdDB new_std.1 new_std.2 ops hops
  rw [← hn] at hb hl
  have hb' := base_device hb stdDB i op
  have hget : ∀ r, ((NodeOp.obj (.device i) op).run stdDB n).1.get r
      = if r = .device i then (n.get (.device i)).map (fun o => (op.run stdDB o).1) else n.get r :=
    fun r => onObj_get n _ r _
  generalize hn' : ((NodeOp.obj (.device i) op).run stdDB n).1 = n' at hb' hget
  have hlen : n'.devices.length = n.devices.length := by
    have h1 : ∀ (j : Nat), (n'.devices[j]?).isSome = (n.devices[j]?).isSome := by
      intro j
      have := hget (.device j)
      simp only [Node.get] at this
      rw [this]
      split
      · rename_i e; cases e; cases n.devices[i]? <;> rfl
      · rfl
    have h2 := h1 n.devices.length
    have h3 := h1 n'.devices.length
    simp only [List.getElem?_eq_none (Nat.le_refl _), Option.isSome_none] at h2 h3
    simp at h2 h3
    omega
  rintro ⟨r, p, cs, hr, hp, -, -, -, -, -, h5, -⟩
  rw [hb'.nodeProfile] at hr
  cases hr
  rw [hget, if_neg (by intro e; cases e)] at hp
  obtain ⟨q, hq, hd⟩ := h5
  obtain ⟨q', hq', hd'⟩ := (hl p hp).2.2.1
  rw [hq] at hq'
  cases hq'
  rw [hd, instanceListData_eq, hlen] at hd'
  have e := flatten_three
    (fun x hx => by
      obtain ⟨y, hy, rfl⟩ := List.mem_map.mp hx
      obtain ⟨j, hj⟩ := List.getElem?_of_mem hy
      exact (hb'.wf (.device j) y hj).codes)
    (fun x hx => by
      obtain ⟨y, hy, rfl⟩ := List.mem_map.mp hx
      obtain ⟨j, hj⟩ := List.getElem?_of_mem hy
      exact (hb.wf (.device j) y hj).codes)
    (by rw [List.length_map, List.length_map, hlen]) (List.tail_eq_of_cons_eq hd')
  have e' := congrArg (fun l => l[i]?) e
  have hi := hget (.device i)
  rw [if_pos rfl, ho] at hi
  simp only [Node.get] at hi ho
  simp only [List.getElem?_map, hi, ho, Option.map_some, Option.some.injEq] at e'
  exact hc e'

/-- Calls on a node that do not write the five lists of a profile, but may change the codes of devices. -/
def Renumbering (db : StdDB) : NodeOp → Prop
  | .obj (.device _) _ => True
  | op => Ordinary db op

theorem renumbering_base (db : StdDB) {n : Node} (h : Base n) (ops : List NodeOp)
    (hops : ∀ op ∈ ops, Renumbering db op) : Base (NodeOp.runAll db n ops).1 := by
  induction ops generalizing n with
  | nil => exact h
  | cons op ops ih =>
    refine ih ?_ (fun o ho => hops o (List.mem_cons_of_mem _ ho))
    have hop := hops op List.mem_cons_self
    by_cases hd : ∃ i o, op = .obj (.device i) o
    · obtain ⟨i, o, rfl⟩ := hd
      exact base_device h db i o
    · have hord : Ordinary db op := by
        cases op with
        | obj r o =>
          cases r with
          | device i => exact absurd ⟨i, o, rfl⟩ hd
          | profile i => exact hop
        | _ => exact hop
      exact (ordinary_keeps db h op hord).1

/-- **C116**, what holds: whatever was done to the devices, once a device or profile is added the node profile
describes the node again, with the codes of that time, and it does so until a code is changed again. -/
theorem C116_partial (before after : List NodeOp) (hb : ∀ op ∈ before, Renumbering stdDB op) (add : NodeOp)
    (hadd : ∃ o, Reached stdDB o ∧ (add = .addDevice o ∨ add = .addProfile o))
    (ha : ∀ op ∈ after, Ordinary stdDB op) (n : Node)
    (hn : n = (NodeOp.runAll stdDB (Node.new stdDB) (before ++ add :: after)).1)
    (hlen : n.devices.length + n.profiles.length < 2 ^ 63) : DescribesNode n := by
  have h0 := renumbering_base stdDB new_std.1 before hb
  have h1 : Base (add.run stdDB (NodeOp.runAll stdDB (Node.new stdDB) before).1).1 ∧
      Listed (add.run stdDB (NodeOp.runAll stdDB (Node.new stdDB) before).1).1 := by
    obtain ⟨o, ho, rfl | rfl⟩ := hadd
    · exact update_establishes (base_append_device h0 (setMan_owf (Reached.owf ho) _))
    · exact update_establishes (base_append_profile h0 (setMan_owf (Reached.owf ho) _))
  have h2 := ordinary_all stdDB h1.1 h1.2 after ha
  rw [runAll_append] at hn
  change n = (NodeOp.runAll stdDB (add.run stdDB (NodeOp.runAll stdDB (Node.new stdDB) before).1).1 after).1 at hn
  rw [← hn] at h2
  exact listed_describes h2.1 h2.2 (length_bound hlen)


/-- **C116**, requests: they follow a new code at once. After a call on device `i` gave it a code which no device
before it has, this code addresses the device; and if no other object has its old code, that code addresses
nothing, so that a message for it is not accepted. -/
theorem C116_requests_partial (db : StdDB) (n : Node) (i : Nat) (o o' : Obj) (op : ObjOp) (n' : Node)
    (ho : n.get (.device i) = some o) (he : o' = (op.run db o).1) (hn : n' = ((NodeOp.obj (.device i) op).run db n).1) :
    ((∀ j < i, ∀ x, n.get (.device j) = some x → x.code ≠ o'.code) → Addressed n' o'.code (.device i) o') ∧
    (o'.code ≠ o.code → (∀ r x, r ≠ .device i → n.get r = some x → x.code ≠ o.code) →
      ∀ m : Message, m.getDEOJ = o.code → ¬ Accepts n' m) := by
  have hget : ∀ r, n'.get r = if r = .device i then some o' else n.get r := by
    intro r
    rw [hn, he]
    show (n.onObj _ _).1.get r = _
    rw [onObj_get, ho]
    rfl
  constructor
  · intro hj
    refine (addressed_iff _ _ _ _).mpr ⟨by rw [hget, if_pos rfl], rfl, fun r hb x hx => ?_⟩
    cases r with
    | device j =>
      rw [hget, if_neg (by intro e; cases e; exact Nat.lt_irrefl _ hb)] at hx
      exact hj j hb x hx
    | profile j => exact absurd hb id
  · rintro hne hother m hm ⟨r, x, ha, -⟩
    rw [hm] at ha
    obtain ⟨h1, h2, -⟩ := (addressed_iff _ _ _ _).mp ha
    rw [hget] at h1
    split at h1
    · cases h1; exact hne h2
    · rename_i hr
      exact hother r x hr h1 h2

/-! ## C117 -/

/-- An object before this one has the same code. -/
def Overshadowed (n : Node) (r : ObjRef) : Prop :=
  ∃ r' x y, Before r' r ∧ n.get r' = some x ∧ n.get r = some y ∧ x.code = y.code

theorem hidden_unaddressed {n : Node} {r : ObjRef} (h : Overshadowed n r) (c : ObjectCode) (o : Obj) :
    ¬ Addressed n c r o := by
  obtain ⟨r', x, y, hb, hx, hy, e⟩ := h
  intro ha
  obtain ⟨h1, h2, h3⟩ := (addressed_iff n c r o).mp ha
  rw [hy] at h1
  cases h1
  exact h3 r' hb x hx (by rw [e, h2])

/-- **C117 refuted**: when an object before it has the same code, no message ever reaches the callbacks of an
object. -/
theorem C117_refuted (env : Env) (db : StdDB) (n : Node) (r : ObjRef) (h : Overshadowed n r) (m : Message) (out : Outcome)
    (hout : n.received env db m = .ok out) (e : ESV) (p : PProp) :
    .request r e p ∉ out.calls ∧ .handler r e p ∉ out.calls := by
  rcases received_calls env db n m out hout with hc | ⟨r', o, ha, hc⟩
  · rw [hc]; exact ⟨List.not_mem_nil, List.not_mem_nil⟩
  · have hne : r' ≠ r := fun e => hidden_unaddressed h _ o (e ▸ ha)
    rw [hc, expectedCalls]
    constructor
    · intro hx
      rcases List.mem_append.mp hx with hx | hx
      · split at hx
        · cases List.mem_singleton.mp hx
        · exact absurd hx List.not_mem_nil
      · obtain ⟨p, -, hp⟩ := List.mem_flatMap.mp hx
        rcases List.mem_append.mp hp with hp | hp
        · split at hp
          · cases List.mem_singleton.mp hp; exact hne rfl
          · exact absurd hp List.not_mem_nil
        · split at hp
          · cases List.mem_singleton.mp hp
          · exact absurd hp List.not_mem_nil
    · intro hx
      rcases List.mem_append.mp hx with hx | hx
      · split at hx
        · cases List.mem_singleton.mp hx
        · exact absurd hx List.not_mem_nil
      · obtain ⟨p, -, hp⟩ := List.mem_flatMap.mp hx
        rcases List.mem_append.mp hp with hp | hp
        · split at hp
          · cases List.mem_singleton.mp hp
          · exact absurd hp List.not_mem_nil
        · split at hp
          · cases List.mem_singleton.mp hp; exact hne rfl
          · exact absurd hp List.not_mem_nil

/-- Replacing a hidden object by another with the same code changes nothing about which objects are addressed. -/
theorem hidden_set {n : Node} {r : ObjRef} (h : Overshadowed n r) (y z : Obj) (hy : n.get r = some y) (hz : z.code = y.code) :
    Overshadowed (n.set r z) r ∧ ∀ c r' o, Addressed (n.set r z) c r' o ↔ Addressed n c r' o := by
  have hget : ∀ r', (n.set r z).get r' = if r' = r then some z else n.get r' :=
    fun r' => get_set n r r' z (by rw [hy]; rfl)
  have irr : ∀ r', Before r' r → r' ≠ r := by
    intro r' hb e
    subst e
    cases r' <;> exact absurd hb (Nat.lt_irrefl _)
  have hh : Overshadowed (n.set r z) r := by
    obtain ⟨r', x, y', hb, hx, hy', e⟩ := h
    rw [hy] at hy'
    cases hy'
    exact ⟨r', x, z, hb, by rw [hget, if_neg (irr r' hb)]; exact hx, by rw [hget, if_pos rfl], by rw [e, hz]⟩
  refine ⟨hh, fun c r' o => ?_⟩
  by_cases e : r' = r
  · subst e
    exact ⟨fun ha => absurd ha (hidden_unaddressed hh c o), fun ha => absurd ha (hidden_unaddressed h c o)⟩
  · rw [addressed_iff, addressed_iff, hget, if_neg e]
    refine and_congr_right fun _ => and_congr_right fun _ => forall_congr' fun r'' => ?_
    refine imp_congr_right fun _ => ?_
    by_cases e' : r'' = r
    · subst e'
      rw [hget, if_pos rfl, hy]
      constructor
      · intro H x hx; cases hx; rw [← hz]; exact H z rfl
      · intro H x hx; cases hx; rw [hz]; exact H y rfl
    · rw [hget, if_neg e']

/-- **C117 refuted**, for a node without callbacks: the answers do not depend on what the hidden object holds. -/
theorem C117_refuted_reply (env : Env) (db : StdDB) (n : Node) (r : ObjRef) (h : Overshadowed n r) (y z : Obj)
    (hy : n.get r = some y) (hz : z.code = y.code)
    (henv : env.listener = false ∧ ∀ r, env.objListener r = false ∧ env.reqHandler r = false) (m : Message) :
    ∃ out out', n.received env db m = .ok out ∧ (n.set r z).received env db m = .ok out' ∧
      out'.reply = out.reply ∧ out'.error = out.error := by
  obtain ⟨-, hadr⟩ := hidden_set h y z hy hz
  have hfr : (n.set r z).selfMsg = n.selfMsg ∧ (n.set r z).addr = n.addr := by cases r <;> exact ⟨rfl, rfl⟩
  have hig : Ignored (n.set r z) m ↔ Ignored n m := by unfold Ignored; rw [hfr.1, hfr.2]
  have hac : Accepts (n.set r z) m ↔ Accepts n m := by
    unfold Accepts; simp only [hadr]
  by_cases hi : Ignored n m
  · refine ⟨_, _, C42_own_messages env db n m hi.1 hi.2,
      C42_own_messages env db (n.set r z) m (hig.mpr hi).1 (hig.mpr hi).2, rfl, rfl⟩
  · by_cases ha : Accepts n m
    · obtain ⟨r', o, ho, -⟩ := id ha
      have ho' := (hadr _ _ _).mpr ho
      obtain ⟨out, rs, h1, h2, h3, -, h4, h5, h6⟩ := received_accepted env db n m hi ha r' o ho
      obtain ⟨out', rs', k1, k2, k3, -, k4, k5, k6⟩ :=
        received_accepted env db (n.set r z) m (fun x => hi (hig.mp x)) (hac.mpr ha) r' o ho'
      have hcalls : expectedCalls env r' m = [] := by
        simp [expectedCalls, henv.1, (henv.2 r').1, (henv.2 r').2]
      rw [hcalls] at h2 k2
      rw [h2] at h3
      rw [k2] at k3
      have hno : NoErr rs ∧ out.node = n := by
        generalize out.node = a, out.sent = b at h3
        cases h3
        exact ⟨by intro e he; exact absurd he List.not_mem_nil, rfl⟩
      have kno : NoErr rs' ∧ out'.node = n.set r z := by
        generalize out'.node = a, out'.sent = b at k3
        cases k3
        exact ⟨by intro e he; exact absurd he List.not_mem_nil, rfl⟩
      refine ⟨out, out', h1, k1, ?_⟩
      cases hr : ESV.isResponseRequired m.esv with
      | false =>
        rw [(h5 hno.1 hr).1, (h5 hno.1 hr).2, (k5 kno.1 hr).1, (k5 kno.1 hr).2]
        exact ⟨rfl, rfl⟩
      | true =>
        have hcr : (n.set r z).createResponse m = n.createResponse m := by
          unfold Node.createResponse
          rw [(addressed_lookup ho).1, (addressed_lookup ho').1]
          dsimp only
          rw [(addressed_lookup ho).2, (addressed_lookup ho').2]
        rw [(h6 hno.1 hr).1, (h6 hno.1 hr).2, (k6 kno.1 hr).1, (k6 kno.1 hr).2, hno.2, kno.2, hcr]
        exact ⟨rfl, rfl⟩
    · obtain ⟨q, hq, h1⟩ := received_rejected env db n m hi ha
      obtain ⟨q', hq', k1⟩ := received_rejected env db (n.set r z) m (fun x => hi (hig.mp x)) (fun x => ha (hac.mp x))
      rw [hq] at hq'
      cases hq'
      exact ⟨_, _, h1, k1, rfl, rfl⟩

/-- Such nodes are easily made: a device with the code of a device of the node can be added, and from then on is
hidden by that one. -/
theorem C117_refuted_reached (db : StdDB) (n : Node) (a b : Obj) (ha : a ∈ n.devices) (h : a.code = b.code) :
    Overshadowed ((NodeOp.addDevice b).run db n).1 (.device n.devices.length) := by
  obtain ⟨i, hi⟩ := List.getElem?_of_mem ha
  have hlt := (List.getElem?_eq_some_iff.mp hi).1
  have hd := (addDevice_keeps n b).1
  refine ⟨.device i, a, withManufacturer n.manufacturer b, hlt, ?_, ?_, ?_⟩
  · show (n.addDevice b).1.devices[i]? = _
    rw [hd, List.getElem?_append_left hlt, hi]
  · show (n.addDevice b).1.devices[n.devices.length]? = _
    rw [hd, List.getElem?_append_right (Nat.le_refl _), Nat.sub_self]
    rfl
  · rw [h]; rfl

/-- **C117**, what holds: when the objects of the node have different codes, each of them is the one its code
addresses, and a message for it which the node accepts reaches all its callbacks and those of no other object. -/
theorem C117_partial (env : Env) (db : StdDB) (n : Node)
    (hd : ∀ r r' x x', n.get r = some x → n.get r' = some x' → x.code = x'.code → r = r')
    (r : ObjRef) (o : Obj) (ho : n.get r = some o) :
    Addressed n o.code r o ∧
    ∀ m, m.getDEOJ = o.code → ¬ Ignored n m → Accepts n m →
      ∃ out, n.received env db m = .ok out ∧ out.calls = expectedCalls env r m := by
  have ha : Addressed n o.code r o := by
    refine (addressed_iff _ _ _ _).mpr ⟨ho, rfl, fun r' hb x hx e => ?_⟩
    have := hd r' r x o hx ho e
    subst this
    cases r' <;> exact absurd hb (Nat.lt_irrefl _)
  exact ⟨ha, fun m hm hi hac => C34_handlers env db n m hi hac r o (hm ▸ ha)⟩

/-! Concrete cases -/

/-- A node with two air conditioners. -/
def twoAircons : List NodeOp := [.addDevice (sampleDevice 0x013001), .addDevice (sampleDevice 0x013001)]

theorem twoAircons_ordinary : ∀ op ∈ twoAircons, Ordinary stdDB op := by
  intro op hop
  simp only [twoAircons, List.mem_cons, List.not_mem_nil, or_false] at hop
  rcases hop with rfl | rfl <;> exact ⟨_, rfl⟩

/-- After the second was given its own instance code the node profile still lists the first code twice. -/
example : ∃ n o, n = (NodeOp.runAll stdDB (Node.new stdDB) twoAircons).1 ∧ n.get (.device 1) = some o ∧
    ¬ DescribesNode ((NodeOp.obj (.device 1) (.setInstance 2)).run stdDB n).1 := by
  have h : (((NodeOp.runAll stdDB (Node.new stdDB) twoAircons).1.get (.device 1)).map
      (fun o => decide ((ObjOp.run stdDB o (.setInstance 2)).1.codes ≠ o.codes))) = some true := by decide +kernel
  obtain ⟨o, ho, hc⟩ := Option.map_eq_some_iff.mp h
  exact ⟨_, o, rfl, ho, C116_refuted twoAircons twoAircons_ordinary _ rfl 1 o ho (.setInstance 2) (of_decide_eq_true hc)⟩

/-- Adding another device puts this right. -/
example : ∃ n, n = (NodeOp.runAll stdDB (Node.new stdDB)
      (twoAircons ++ [.obj (.device 1) (.setInstance 2)] ++ .addDevice (sampleDevice 0x029101) :: [])).1 ∧
    DescribesNode n := by
  obtain ⟨n, hn⟩ : ∃ n, n = (NodeOp.runAll stdDB (Node.new stdDB)
      (twoAircons ++ [.obj (.device 1) (.setInstance 2)] ++ .addDevice (sampleDevice 0x029101) :: [])).1 := ⟨_, rfl⟩
  have hb : ∀ op ∈ twoAircons ++ [.obj (.device 1) (.setInstance 2)], Renumbering stdDB op := by
    intro op hop
    rcases List.mem_append.mp hop with hop | hop
    · simp only [twoAircons, List.mem_cons, List.not_mem_nil, or_false] at hop
      rcases hop with rfl | rfl <;> exact ⟨_, rfl⟩
    · rw [List.mem_singleton.mp hop]; trivial
  refine ⟨n, hn, C116_partial _ _ hb _ ⟨sampleDevice 0x029101, ⟨_, rfl⟩, .inl rfl⟩
    (fun op hop => absurd hop List.not_mem_nil) n hn ?_⟩
  rw [hn]
  decide +kernel

/-- The second of the two is hidden until it has its own code, and is addressed by it then. -/
example : Overshadowed (NodeOp.runAll stdDB (Node.new stdDB) twoAircons).1 (.device 1) ∧
    (NodeOp.runAll stdDB (Node.new stdDB) (twoAircons ++ [.obj (.device 1) (.setInstance 2)])).1.lookupObject 0x013002
      = some (.device 1) := by
  refine ⟨?_, by decide +kernel⟩
  have h : ∀ n : Node, ((n.get (.device 0)).bind fun x => (n.get (.device 1)).map fun y => decide (x.code = y.code))
      = some true → Overshadowed n (.device 1) := by
    intro n h
    obtain ⟨x, hx, h⟩ := Option.bind_eq_some_iff.mp h
    obtain ⟨y, hy, h⟩ := Option.map_eq_some_iff.mp h
    exact ⟨.device 0, x, y, Nat.zero_lt_one, hx, hy, of_decide_eq_true h⟩
  exact h _ (by decide +kernel)

/-- The codes of the objects of a small node are different. -/
example : (∀ r r' x x', smallNode.get r = some x → smallNode.get r' = some x' → x.code = x'.code → r = r') ∧
    Accepts smallNode (request 0x62 [⟨0x80, []⟩]) := by
  refine ⟨?_, (validate_iff _ _).mp (by decide +kernel)⟩
  have hr : ∀ r x, smallNode.get r = some x → r = .device 0 := by
    intro r x h
    cases r with
    | device i =>
      cases i with
      | zero => rfl
      | succ i => simp [smallNode, Node.get] at h
    | profile i => simp [smallNode, Node.get, Node.initial] at h
  intro r r' x x' h h' _
  rw [hr r x h, hr r' x' h']

end Verif.Props
