import Verif.Lemmas.Pointers
import Verif.Props.Object

/-!
# C105, C106: objects and properties held by pointers

A program that gives each property to one object only sees objects that share nothing with one another nor with the
standard database. A property given to two objects is shared, and a property changed after it was added leaves the
object with stale maps or a wrong key.
-/

namespace Verif.Props
open Verif Model Spec Lemmas

theorem onProp_free {m : Mem} (hm : Owned m) (r o : Nat) (f : PCell → PCell) (hp : (m.prop r).parent = none) :
    Beside m o (m.onProp r f) := by
  have hc : ∀ x e, e ∈ (m.obj x).map → (m.onProp r f).prop e.2 = m.prop e.2 := by
    intro x e he
    have hb := hm.back x e he
    unfold Mem.onProp
    dsimp only
    rw [if_neg]
    intro h
    rw [h, hp] at hb
    cases hb
  refine ⟨⟨fun x e he => ?_, fun x e he => ?_, hm.old, hm.nodup, hm.db, hm.three⟩, fun _ _ => rfl,
    fun y x _ hy _ => ?_, rfl, rfl, Nat.le_refl _⟩
  · rw [hc x e he]; exact hm.key x e he
  · rw [hc x e he]; exact hm.back x e he
  · unfold Mem.onProp
    dsimp only
    rw [if_neg]
    intro h
    rw [h, hp] at hy
    cases hy

theorem onProp_unlisted (m : Mem) (r x : Nat) (f : PCell → PCell) (h : ∀ e ∈ (m.obj x).map, e.2 ≠ r) :
    shows (m.onProp r f) x = shows m x := by
  unfold Spec.shows
  congr 1
  apply List.map_congr_left
  intro e he
  unfold Mem.onProp
  dsimp only
  rw [if_neg (h e he)]

theorem own_beside {m : Mem} (hm : Owned m) (r : Nat) (f : PCell → PCell)
    (hp : ∀ x, (m.prop r).parent = some x → Mine m x) (hcode : (f (m.prop r)).prop.code = (m.prop r).prop.code)
    (hpar : (f (m.prop r)).parent = (m.prop r).parent) :
    ∃ o, (∀ e ∈ m.db, e.2 ≠ o) ∧ Beside m o (m.onProp r f) := by
  cases h : (m.prop r).parent with
  | none =>
    refine ⟨m.nobjs, fun e he => Nat.ne_of_lt (hm.db e he), onProp_beside hm r _ f (fun x hx => ?_) hcode hpar⟩
    rw [h] at hx
    cases hx
  | some o =>
    refine ⟨o, (hp o h).2, onProp_beside hm r o f (fun x hx => ?_) hcode hpar⟩
    rw [h] at hx
    exact (Option.some.inj hx).symm

/-- `SetObject` to the object a property has changes nothing. -/
theorem setObject_same {m : Mem} {r o : Nat} (h : (m.prop r).parent = some o) :
    ((MemOp.setObject r o).run m).1 = m := by
  show m.onProp r (fun x => { x with parent := some o }) = m
  unfold Mem.onProp
  have : (fun x => if x = r then { m.prop x with parent := some o } else m.prop x) = m.prop := by
    funext x
    split
    · next hx => subst hx; rw [← h]
    · rfl
  rw [this]

/-- A tidy call other than the making of an object changes at most one object, which is not of the database. -/
theorem tidy_beside {m : Mem} (hm : Owned m) (op : MemOp) (h : Tidy m op) (hn : op ≠ .newSuper) :
    ∃ o, (∀ e ∈ m.db, e.2 ≠ o) ∧ Beside m o (op.run m).1 := by
  cases op with
  | newSuper => exact absurd rfl hn
  | newProperty p => exact ⟨m.nobjs, fun e he => Nat.ne_of_lt (hm.db e he), alloc_beside hm _ p⟩
  | call o op => exact ⟨o, h.2, (call_sim hm o h.2 op).1⟩
  | add o r => exact ⟨o, h.1.2, (superAdd_sim hm o r h.2.1 h.2.2).1⟩
  | setData r d => exact own_beside hm r (fun x => { x with prop := x.prop.setData d }) h rfl rfl
  | clear r => exact own_beside hm r (fun x => { x with prop := x.prop.clear }) h rfl rfl
  | announce r => exact ⟨m.nobjs, fun e he => Nat.ne_of_lt (hm.db e he), Beside.refl hm _⟩
  | bareAdd o r => exact ⟨o, h.1.2, (add_sim hm o r h.2.1 h.2.2).1⟩
  | setObject r o =>
    refine ⟨m.nobjs, fun e he => Nat.ne_of_lt (hm.db e he), ?_⟩
    rw [setObject_same h]
    exact Beside.refl hm _
  | setCode r c =>
    exact ⟨m.nobjs, fun e he => Nat.ne_of_lt (hm.db e he), onProp_free hm r _ (fun x => { x with prop := { x.prop with code := c } }) h⟩
  | setName r s => exact own_beside hm r (fun x => { x with prop := { x.prop with name := s } }) h rfl rfl
  | setAttrs r g s a =>
    exact own_beside hm r (fun x => { x with prop := { x.prop with getAttr := g, setAttr := s, annoAttr := a } }) h rfl rfl

theorem tidy_step {m : Mem} (hm : Owned m) (op : MemOp) (h : Tidy m op) :
    Owned (op.run m).1 ∧ (op.run m).1.db = m.db ∧ m.nobjs ≤ (op.run m).1.nobjs ∧
    showsDB (op.run m).1 = showsDB m := by
  by_cases hn : op = .newSuper
  · subst hn
    obtain ⟨a, -, b, c, d, -⟩ := newSuper_sim hm
    exact ⟨a, c, by show m.nobjs ≤ m.newSuper.1.nobjs; omega, d⟩
  · obtain ⟨o, ho, b⟩ := tidy_beside hm op h hn
    exact ⟨b.owned, b.db, Nat.le_of_eq b.nobjs.symm, b.showsDB hm ho⟩

theorem careful_tidy {m : Mem} {op : MemOp} (h : Careful m op) : Tidy m op := by
  cases op with
  | setName r s =>
    intro x hx
    rw [show (m.prop r).parent = none from h] at hx
    cases hx
  | setAttrs r g s a =>
    intro x hx
    rw [show (m.prop r).parent = none from h] at hx
    cases hx
  | _ => exact h

theorem tidy_after (ops : List MemOp) : ∀ {m : Mem}, Owned m → Always Tidy m ops →
    Owned (after m ops) ∧ (after m ops).db = m.db ∧ m.nobjs ≤ (after m ops).nobjs ∧
    showsDB (after m ops) = showsDB m := by
  induction ops with
  | nil => exact fun hm _ => ⟨hm, rfl, Nat.le_refl _, rfl⟩
  | cons op ops ih =>
    intro m hm h
    obtain ⟨a, b, c, d⟩ := tidy_step hm op h.1
    obtain ⟨a', b', c', d'⟩ := ih a h.2
    exact ⟨a', b'.trans b, Nat.le_trans c c', d'.trans d⟩

theorem holder_some {m : Mem} {r o : Nat} (h : holder m r = some o) :
    (m.prop r).parent = some o ∧ m.look o (m.prop r).prop.code = some r := by
  unfold holder at h
  split at h
  · cases h
  · next x hx =>
    split at h
    · next hl => cases h; exact ⟨hx, hl⟩
    · cases h

theorem unheld {m : Mem} (hm : Owned m) {r : Nat} (h : holder m r = none) (x : Nat) :
    ∀ e ∈ (m.obj x).map, e.2 ≠ r := by
  intro e he hr
  have hb := hm.back x e he
  have hk := hm.key x e he
  have hl := look_of_mem hm he
  rw [hr] at hb hk hl
  unfold holder at h
  rw [hb] at h
  dsimp only at h
  rw [hk, hl, if_pos rfl] at h
  cases h

/-- A careful call changes an object of the program exactly as the method it stands for, if it is meant for the
object, and not at all otherwise; and it announces what the method announces. -/
theorem careful_step {m : Mem} (hm : Owned m) (op : MemOp) (h : Careful m op) :
    (∀ x, Mine m x → shows (op.run m).1 x = match aim m op with
      | some (o, q) => if o = x then (q.run (showsDB m) (shows m x)).1 else shows m x
      | none => shows m x) ∧
    (∀ o q, aim m op = some (o, q) → Mine m o ∧ (op.run m).2 = (q.run (showsDB m) (shows m o)).2.1) := by
  have call : ∀ (o : Nat) (q : ObjOp) (m' : Mem) (as : List Ann), Mine m o → Beside m o m' →
      (∃ e, (shows m' o, as, e) = q.run (showsDB m) (shows m o)) →
      (∀ x, shows m' x = if o = x then (q.run (showsDB m) (shows m x)).1 else shows m x) ∧
      as = (q.run (showsDB m) (shows m o)).2.1 := by
    intro o q m' as ho b ⟨e, he⟩
    refine ⟨fun x => ?_, by rw [← he]⟩
    split
    · next hx => subst hx; rw [← he]
    · next hx => exact b.shows hm (fun h => hx h.symm)
  have meant : ∀ (o : Nat) (q : ObjOp), aim m op = some (o, q) → Mine m o → Beside m o (op.run m).1 →
      (∃ e, (shows (op.run m).1 o, (op.run m).2, e) = q.run (showsDB m) (shows m o)) →
      (∀ x, Mine m x → shows (op.run m).1 x = match aim m op with
        | some (o, q) => if o = x then (q.run (showsDB m) (shows m x)).1 else shows m x
        | none => shows m x) ∧
      (∀ o q, aim m op = some (o, q) → Mine m o ∧ (op.run m).2 = (q.run (showsDB m) (shows m o)).2.1) := by
    intro o q ha ho b he
    obtain ⟨h1, h2⟩ := call o q _ _ ho b he
    rw [ha]
    refine ⟨fun x _ => h1 x, fun o' q' e => ?_⟩
    cases e
    exact ⟨ho, h2⟩
  have unmeant : aim m op = none → (∀ x, Mine m x → shows (op.run m).1 x = shows m x) →
      (∀ x, Mine m x → shows (op.run m).1 x = match aim m op with
        | some (o, q) => if o = x then (q.run (showsDB m) (shows m x)).1 else shows m x
        | none => shows m x) ∧
      (∀ o q, aim m op = some (o, q) → Mine m o ∧ (op.run m).2 = (q.run (showsDB m) (shows m o)).2.1) := by
    intro ha hs
    rw [ha]
    exact ⟨hs, fun o q e => by cases e⟩
  cases op with
  | newSuper =>
    refine unmeant rfl (fun x hx => ?_)
    obtain ⟨-, -, -, -, -, b, -⟩ := newSuper_sim hm
    exact b x (Nat.ne_of_lt hx.1)
  | newProperty p => exact unmeant rfl (fun x _ => alloc_shows hm p x)
  | call o q =>
    obtain ⟨b, e⟩ := call_sim hm o h.2 q
    exact meant o q rfl h b ⟨(m.call o q).2.2, e⟩
  | add o r =>
    obtain ⟨b, e⟩ := superAdd_sim hm o r h.2.1 h.2.2
    refine meant o (.add (m.prop r).prop) rfl h.1 b ⟨none, ?_⟩
    show (shows (m.superAdd o r).1 o, (m.superAdd o r).2, none) = _
    unfold ObjOp.run
    dsimp only
    rw [← e]
  | setData r d =>
    cases hh : holder m r with
    | none =>
      refine unmeant (by unfold aim; dsimp only; rw [hh]; rfl) (fun x _ => ?_)
      exact onProp_unlisted m r x (fun x => { x with prop := x.prop.setData d }) (unheld hm hh x)
    | some o =>
      obtain ⟨hp, hl⟩ := holder_some hh
      obtain ⟨b, e⟩ := write_sim hm o (m.prop r).prop.code d
      have hs : m.setPropertyData o (m.prop r).prop.code d = ((m.setData r d).1, (m.setData r d).2, none) := by
        unfold Mem.setPropertyData
        rw [hl]
      rw [hs] at b e
      exact meant o (.write (m.prop r).prop.code d) (by unfold aim; dsimp only; rw [hh]; rfl) (h o hp) b ⟨none, e⟩
  | clear r =>
    cases hh : holder m r with
    | none =>
      refine unmeant (by unfold aim; dsimp only; rw [hh]; rfl) (fun x _ => ?_)
      exact onProp_unlisted m r x (fun x => { x with prop := x.prop.clear }) (unheld hm hh x)
    | some o =>
      obtain ⟨hp, hl⟩ := holder_some hh
      obtain ⟨b, e⟩ := call_sim hm o (h o hp).2 (.clear (m.prop r).prop.code)
      have hs : m.call o (.clear (m.prop r).prop.code)
          = (m.onProp r (fun x => { x with prop := x.prop.clear }), [], none) := by
        unfold Mem.call
        dsimp only
        rw [hl]
      rw [hs] at b e
      exact meant o (.clear (m.prop r).prop.code) (by unfold aim; dsimp only; rw [hh]; rfl) (h o hp) b ⟨none, e⟩
  | announce r =>
    cases hh : holder m r with
    | none => exact unmeant (by unfold aim; dsimp only; rw [hh]; rfl) (fun x _ => rfl)
    | some o =>
      obtain ⟨hp, hl⟩ := holder_some hh
      obtain ⟨b, e⟩ := call_sim hm o (h o hp).2 (.announce (m.prop r).prop.code)
      have hs : m.call o (.announce (m.prop r).prop.code) = (m, m.announce r, none) := by
        unfold Mem.call
        dsimp only
        rw [hl]
      rw [hs] at b e
      exact meant o (.announce (m.prop r).prop.code) (by unfold aim; dsimp only; rw [hh]; rfl) (h o hp) b ⟨none, e⟩
  | bareAdd o r =>
    obtain ⟨b, e⟩ := add_sim hm o r h.2.1 h.2.2
    refine meant o (.bareAdd (m.prop r).prop) rfl h.1 b ⟨none, ?_⟩
    show (shows (m.addProperty o r) o, [], none) = _
    unfold ObjOp.run
    dsimp only
    rw [← e]
  | setObject r o => exact unmeant rfl (fun x _ => by rw [setObject_same h])
  | setCode r c =>
    refine unmeant rfl (fun x _ => ?_)
    exact (onProp_free hm r (x + 1) (fun x => { x with prop := { x.prop with code := c } }) h).shows hm (by omega)
  | setName r s =>
    refine unmeant rfl (fun x _ => ?_)
    exact (onProp_free hm r (x + 1) (fun x => { x with prop := { x.prop with name := s } }) h).shows hm (by omega)
  | setAttrs r g s a =>
    refine unmeant rfl (fun x _ => ?_)
    exact (onProp_free hm r (x + 1) (fun x => { x with prop := { x.prop with getAttr := g, setAttr := s, annoAttr := a } }) h).shows hm (by omega)

theorem runAll_cons' (db : StdDB) (o : Obj) (q : ObjOp) (qs : List ObjOp) :
    ObjOp.runAll db o (q :: qs) = ObjOp.runAll db (q.run db o).1 qs := rfl

theorem aimedAt_cons (o : Nat) (m : Mem) (op : MemOp) (ops : List MemOp) : aimedAt o m (op :: ops) =
    match aim m op with
    | some (x, q) => if x = o then q :: aimedAt o (op.run m).1 ops else aimedAt o (op.run m).1 ops
    | none => aimedAt o (op.run m).1 ops := rfl

theorem mine_step {m : Mem} (hm : Owned m) (op : MemOp) (h : Tidy m op) {o : Nat} (ho : Mine m o) :
    Mine (op.run m).1 o := by
  obtain ⟨-, b, c, -⟩ := tidy_step hm op h
  exact ⟨Nat.lt_of_lt_of_le ho.1 c, by rw [b]; exact ho.2⟩

theorem careful_after (o : Nat) (ops : List MemOp) : ∀ {m : Mem}, Owned m → Always Careful m ops → Mine m o →
    shows (after m ops) o = ObjOp.runAll (showsDB m) (shows m o) (aimedAt o m ops) := by
  induction ops with
  | nil => exact fun _ _ _ => rfl
  | cons op ops ih =>
    intro m hm h ho
    obtain ⟨a, -, -, d⟩ := tidy_step hm op (careful_tidy h.1)
    have e := ih a h.2 (mine_step hm op (careful_tidy h.1) ho)
    obtain ⟨h1, -⟩ := careful_step hm op h.1
    have h1 := h1 o ho
    show shows (after (op.run m).1 ops) o = _
    rw [e, d, h1, aimedAt_cons]
    cases ha : aim m op with
    | none => rfl
    | some v =>
      obtain ⟨x, q⟩ := v
      dsimp only
      by_cases hx : x = o
      · rw [if_pos hx, if_pos hx, runAll_cons']
      · rw [if_neg hx, if_neg hx]

theorem careful_made (o : Nat) (ops : List MemOp) : ∀ {m : Mem}, Owned m → Always Careful m ops → m.nobjs ≤ o →
    Mine (after m ops) o →
    shows (after m ops) o = ObjOp.runAll (showsDB m) (Obj.newSuper (showsDB m)) (aimedAt o m ops) := by
  induction ops with
  | nil => exact fun _ _ h ho => absurd ho.1 (Nat.not_lt.mpr h)
  | cons op ops ih =>
    intro m hm h hn ho
    obtain ⟨a, b, -, d⟩ := tidy_step hm op (careful_tidy h.1)
    have hno : aimedAt o m (op :: ops) = aimedAt o (op.run m).1 ops := by
      rw [aimedAt_cons]
      cases ha : aim m op with
      | none => rfl
      | some v =>
        obtain ⟨x, q⟩ := v
        have hx := ((careful_step hm op h.1).2 x q ha).1.1
        dsimp only
        rw [if_neg (by omega)]
    rw [hno]
    by_cases hs : op = .newSuper
    · subst hs
      obtain ⟨-, -, n, db, -, -, sh⟩ := newSuper_sim hm
      by_cases ho' : o = m.nobjs
      · subst ho'
        have hmine : Mine (MemOp.newSuper.run m).1 m.nobjs := by
          refine ⟨by show m.nobjs < m.newSuper.1.nobjs; omega, fun e he => ?_⟩
          exact Nat.ne_of_lt (hm.db e (by rw [← db]; exact he))
        have e := careful_after m.nobjs ops a h.2 hmine
        show shows (after (MemOp.newSuper.run m).1 ops) m.nobjs = _
        rw [e, d]
        congr 1
      · have e := ih a h.2 (by show m.newSuper.1.nobjs ≤ o; omega) ho
        rw [d] at e
        exact e
    · obtain ⟨x, -, bb⟩ := tidy_beside hm op (careful_tidy h.1) hs
      have e := ih a h.2 (by rw [bb.nobjs]; exact hn) ho
      rw [d] at e
      exact e

theorem always_tidy (ops : List MemOp) : ∀ m, Always Careful m ops → Always Tidy m ops := by
  induction ops with
  | nil => exact fun _ _ => trivial
  | cons op ops ih => exact fun m h => ⟨careful_tidy h.1, ih _ h.2⟩

/-! ## C105 -/

/-- C105. Whatever a program does with its objects and properties, also when it changes properties after it added
them, the standard database stays as it was loaded. -/
theorem C105_database (t : List RawObj) (ops : List MemOp) (h : Always Tidy (Mem.load t) ops) :
    showsDB (after (Mem.load t) ops) = StdDB.init t := by
  rw [(tidy_after ops (load_sim t).1 h).2.2.2, (load_sim t).2]

/-- C105. After every history of careful calls, an object the program made shows what its own calls, in their order,
make of a new object: the calls meant for other objects have no effect on it. -/
theorem C105_apart_partial (t : List RawObj) (ops : List MemOp) (h : Always Careful (Mem.load t) ops) (o : Nat)
    (hold : (Mem.load t).nobjs ≤ o) (ho : o < (after (Mem.load t) ops).nobjs) :
    shows (after (Mem.load t) ops) o
      = ObjOp.runAll (StdDB.init t) (Obj.newSuper (StdDB.init t)) (aimedAt o (Mem.load t) ops) := by
  obtain ⟨hm, hd⟩ := load_sim t
  rw [← hd]
  refine careful_made o ops hm h hold ⟨ho, fun e he => ?_⟩
  rw [(tidy_after ops hm (always_tidy ops _ h)).2.1] at he
  exact Nat.ne_of_lt (Nat.lt_of_lt_of_le (hm.db e he) hold)

/-- C105. What a careful call announces is what the method of the object it is meant for announces, about this
object. -/
theorem C105_announced_partial (t : List RawObj) (ops : List MemOp) (h : Always Careful (Mem.load t) ops) (op : MemOp)
    (hop : Careful (after (Mem.load t) ops) op) (o : Nat) (q : ObjOp)
    (ha : aim (after (Mem.load t) ops) op = some (o, q)) :
    (op.run (after (Mem.load t) ops)).2
      = (q.run (StdDB.init t) (shows (after (Mem.load t) ops) o)).2.1 := by
  obtain ⟨hm, hd⟩ := load_sim t
  obtain ⟨hm', -, -, hd'⟩ := tidy_after ops hm (always_tidy ops _ h)
  have := ((careful_step hm' op hop).2 o q ha).2
  rw [hd', hd] at this
  exact this

/-! ### A property given to two objects -/

/-- Only data of properties changed. -/
structure OnlyData (m m' : Mem) : Prop where
  obj : m'.obj = m.obj
  cell : ∀ r, ∃ d, m'.prop r = { m.prop r with prop := { (m.prop r).prop with data := d } }

theorem OnlyData.refl (m : Mem) : OnlyData m m := ⟨rfl, fun _ => ⟨_, rfl⟩⟩

theorem OnlyData.trans {m m' m'' : Mem} (h : OnlyData m m') (h' : OnlyData m' m'') : OnlyData m m'' := by
  refine ⟨h'.obj.trans h.obj, fun r => ?_⟩
  obtain ⟨d, e⟩ := h.cell r
  obtain ⟨d', e'⟩ := h'.cell r
  exact ⟨d', by rw [e', e]⟩

theorem onlyData_store (m : Mem) (r : Nat) (d : Bytes) : OnlyData m (m.setData r d).1 := by
  refine ⟨rfl, fun x => ?_⟩
  rw [setData_mem]
  unfold Mem.onProp
  dsimp only
  split
  · exact ⟨d, rfl⟩
  · exact ⟨_, rfl⟩

theorem onlyData_write (m : Mem) (o : Nat) (c : Byte) (d : Bytes) : OnlyData m (m.setPropertyData o c d).1 := by
  unfold Mem.setPropertyData
  split
  · exact OnlyData.refl m
  · exact onlyData_store m _ d

theorem onlyData_map (m : Mem) (o : Nat) (c : Byte) (cs : List Byte) :
    OnlyData m (m.setPropertyMapProperty o c cs).1 := by
  unfold Mem.setPropertyMapProperty
  split
  · exact OnlyData.refl m
  · exact onlyData_write m o c _

theorem onlyData_update (m : Mem) (o : Nat) : OnlyData m (m.updatePropertyMap o).1 :=
  ((onlyData_map m o _ _).trans (onlyData_map _ o _ _)).trans (onlyData_map _ o _ _)

theorem OnlyData.look {m m' : Mem} (h : OnlyData m m') (o : Nat) (c : Byte) : m'.look o c = m.look o c := by
  unfold Mem.look
  rw [h.obj]

theorem OnlyData.code {m m' : Mem} (h : OnlyData m m') (o : Nat) : m'.code o = m.code o := by
  unfold Mem.code
  rw [h.obj]

theorem assign_find (l : List (Byte × Nat)) (c : Byte) (r : Nat) :
    ((Mem.assign l c r).find? (fun e => e.1 == c)).map (·.2) = some r := by
  unfold Mem.assign
  split
  · next h =>
    induction l with
    | nil => simp at h
    | cons e l ih =>
      rw [List.map_cons, List.find?_cons]
      by_cases he : e.1 = c
      · simp [he]
      · have hb : (e.1 == c) = false := by simp [he]
        rw [if_neg he, hb]
        dsimp only
        apply ih
        rw [List.any_cons, hb] at h
        simpa using h
  · next h =>
    rw [List.find?_append]
    have : l.find? (fun e => e.1 == c) = none := by
      rw [List.find?_eq_none]
      intro e he hc
      exact h (List.any_eq_true.mpr ⟨e, he, hc⟩)
    rw [this]
    simp

theorem add_obj (m : Mem) (o r x : Nat) (hx : x ≠ o) : (m.addProperty o r).obj x = m.obj x := by
  unfold Mem.addProperty Mem.onProp Mem.onObj
  dsimp only
  rw [if_neg hx]

theorem add_look (m : Mem) (o r : Nat) : (m.addProperty o r).look o (m.prop r).prop.code = some r := by
  unfold Mem.look
  have : ((m.addProperty o r).obj o).map = Mem.assign (m.obj o).map (m.prop r).prop.code r := by
    unfold Mem.addProperty Mem.onProp Mem.onObj
    simp
  rw [this]
  exact assign_find _ _ _

theorem add_cell (m : Mem) (o r : Nat) : (m.addProperty o r).prop r = { m.prop r with parent := some o } := by
  unfold Mem.addProperty Mem.onProp Mem.onObj
  simp

theorem superAdd_look (m : Mem) (o r : Nat) : (m.superAdd o r).1.look o (m.prop r).prop.code = some r :=
  ((onlyData_update _ o).look o _).trans (add_look m o r)

theorem superAdd_other (m : Mem) (o r x : Nat) (hx : x ≠ o) (c : Byte) :
    (m.superAdd o r).1.look x c = m.look x c := by
  refine ((onlyData_update _ o).look x c).trans ?_
  unfold Mem.look
  rw [add_obj m o r x hx]

theorem superAdd_cell (m : Mem) (o r : Nat) : ∃ d, (m.superAdd o r).1.prop r
    = ⟨{ (m.prop r).prop with data := d }, some o⟩ := by
  obtain ⟨d, e⟩ := (onlyData_update (m.addProperty o r) o).cell r
  refine ⟨d, ?_⟩
  unfold Mem.superAdd
  rw [e, add_cell]

theorem write_finds {m : Mem} {o o' r : Nat} {c : Byte} (h : m.look o c = some r) (h' : m.look o' c = some r)
    (d : Bytes) : finds (m.setPropertyData o c d).1 o' c = some { (m.prop r).prop with data := d } := by
  unfold finds
  rw [(onlyData_write m o c d).look, h']
  unfold Mem.setPropertyData
  rw [h]
  dsimp only [Option.map]
  rw [setData_mem]
  unfold Mem.onProp
  simp

/-- C105, refuted for properties that are given to two objects. After `AddProperty` of the same property to two
objects, whatever the memory, a write to the second is seen in the first; and a write to the first, of a property that
is announced, is announced for the second. -/
theorem C105_refuted (m : Mem) (o o' r : Nat) (hne : o ≠ o') (c : Byte) (hc : (m.prop r).prop.code = c) (d : Bytes) :
    let m' := after m [.add o r, .add o' r]
    (finds ((MemOp.call o' (.write c d)).run m').1 o c).map (·.data) = some d ∧
    ((m.prop r).prop.annoAttr ≠ 0 →
      ((MemOp.call o (.write c d)).run m').2 = [⟨m'.code o', ⟨c, d⟩⟩]) := by
  intro m'
  obtain ⟨d1, e1⟩ := superAdd_cell m o r
  obtain ⟨d2, e2⟩ := superAdd_cell (m.superAdd o r).1 o' r
  have hm' : m' = ((m.superAdd o r).1.superAdd o' r).1 := rfl
  have hcode : ((m.superAdd o r).1.prop r).prop.code = c := by rw [e1]; exact hc
  have l1 : m'.look o c = some r := by
    rw [hm', superAdd_other _ _ _ _ hne, ← hc]
    exact superAdd_look m o r
  have l2 : m'.look o' c = some r := by
    rw [hm', ← hcode]
    exact superAdd_look _ o' r
  have hp : m'.prop r = ⟨{ (m.prop r).prop with data := d2 }, some o'⟩ := by
    rw [hm', e2, e1]
  clear_value m'
  refine ⟨?_, fun ha => ?_⟩
  · show (finds (m'.setPropertyData o' c d).1 o c).map (·.data) = some d
    rw [write_finds l2 l1]
    rfl
  · show (m'.setPropertyData o c d).2.1 = _
    unfold Mem.setPropertyData
    rw [l1]
    dsimp only
    unfold Mem.setData
    dsimp only
    have han : (m'.prop r).prop.isAnnounceable = true := by
      rw [hp]
      simpa [EProp.isAnnounceable, Attr.isProhibited, Attr.prohibited] using ha
    rw [if_pos han, hp]
    dsimp only
    unfold Mem.onProp
    simp only [if_true]
    rw [hp]
    unfold EProp.setData EProp.toProtocol
    dsimp only
    rw [hc]
    rfl

/-! ## C106 -/

/-- C106, refuted for codes. After `SetCode` of a property that was added, the object still finds it under the old
code, with the new code, and finds nothing under the new code if it had no such property. -/
theorem C106_refuted_code (m : Mem) (o r : Nat) (c' : Byte) (hc : c' ≠ (m.prop r).prop.code)
    (hno : m.look o c' = none) :
    let m' := after m [.add o r, .setCode r c']
    (finds m' o (m.prop r).prop.code).map (·.code) = some c' ∧ finds m' o c' = none := by
  intro m'
  have hl : ∀ x, m'.look o x = (m.superAdd o r).1.look o x := fun _ => rfl
  constructor
  · unfold finds
    rw [hl, superAdd_look]
    show some (m'.prop r).prop.code = some c'
    have : m' = (m.superAdd o r).1.onProp r (fun x => { x with prop := { x.prop with code := c' } }) := rfl
    rw [this]
    unfold Mem.onProp
    simp
  · unfold finds
    rw [hl]
    have : (m.superAdd o r).1.look o c' = none := by
      refine ((onlyData_update _ o).look o _).trans ?_
      unfold Mem.look at hno ⊢
      have hmap : ((m.addProperty o r).obj o).map = Mem.assign (m.obj o).map (m.prop r).prop.code r := by
        unfold Mem.addProperty Mem.onProp Mem.onObj
        simp
      rw [hmap]
      rw [Option.map_eq_none_iff, List.find?_eq_none] at hno ⊢
      intro e he
      rcases mem_assign he with rfl | ⟨h1, h2⟩
      · simpa using fun h => hc h.symm
      · exact hno e h1
    rw [this]
    rfl

/-- C106, refuted for properties that were replaced. After another property of the same code was added, the property
added first still announces for the object, with data the object does not hold. -/
theorem C106_refuted_replaced (m : Mem) (o r r' : Nat) (hne : r ≠ r')
    (hc : (m.prop r).prop.code = (m.prop r').prop.code) (hne' : (m.prop r).prop.annoAttr ≠ 0) (d : Bytes) :
    let m' := after m [.add o r, .add o r']
    ((MemOp.setData r d).run m').2 = [⟨m'.code o, ⟨(m.prop r).prop.code, d⟩⟩] ∧
    finds ((MemOp.setData r d).run m').1 o (m.prop r).prop.code = finds m' o (m.prop r).prop.code := by
  intro m'
  obtain ⟨d1, e1⟩ := superAdd_cell m o r
  have hm' : m' = ((m.superAdd o r).1.superAdd o r').1 := rfl
  obtain ⟨d2, e2⟩ := (onlyData_update ((m.superAdd o r).1.addProperty o r') o).cell r
  have hr' : ((m.superAdd o r).1.prop r').prop.code = (m.prop r').prop.code := by
    obtain ⟨d3, e3⟩ := (onlyData_update (m.addProperty o r) o).cell r'
    show (((m.addProperty o r).updatePropertyMap o).1.prop r').prop.code = _
    rw [e3]
    unfold Mem.addProperty Mem.onProp Mem.onObj
    dsimp only
    rw [if_neg (fun h => hne h.symm)]
  have hp : m'.prop r = ⟨{ (m.prop r).prop with data := d2 }, some o⟩ := by
    show (((m.superAdd o r).1.addProperty o r').updatePropertyMap o).1.prop r = _
    rw [e2]
    have : ((m.superAdd o r).1.addProperty o r').prop r = (m.superAdd o r).1.prop r := by
      unfold Mem.addProperty Mem.onProp Mem.onObj
      dsimp only
      rw [if_neg hne]
    rw [this, e1]
  have hl : m'.look o (m.prop r).prop.code = some r' := by
    rw [hm', hc, ← hr']
    exact superAdd_look _ o r'
  clear_value m'
  constructor
  · show (m'.setData r d).2 = _
    unfold Mem.setData
    dsimp only
    have han : (m'.prop r).prop.isAnnounceable = true := by
      rw [hp]
      simpa [EProp.isAnnounceable, Attr.isProhibited, Attr.prohibited] using hne'
    rw [if_pos han, hp]
    dsimp only
    unfold Mem.onProp
    simp only [if_true]
    rw [hp]
    rfl
  · have hl' : ((MemOp.setData r d).run m').1.look o (m.prop r).prop.code = some r' := hl
    unfold finds
    rw [hl', hl]
    have : ((MemOp.setData r d).run m').1.prop r' = m'.prop r' := by
      show (m'.setData r d).1.prop r' = _
      rw [setData_mem]
      unfold Mem.onProp
      dsimp only
      rw [if_neg (fun h => hne h.symm)]
    simp only [Option.map, this]

/-- C106, refuted for the object of a property. After `SetObject` names another object, data set through a pointer to
the property change the object it was added to and no other, but are announced for the other one. -/
theorem C106_refuted_object (m : Mem) (o o' r : Nat) (hne' : (m.prop r).prop.annoAttr ≠ 0) (d : Bytes) :
    let m' := after m [.add o r, .setObject r o']
    ((MemOp.setData r d).run m').2 = [⟨m'.code o', ⟨(m.prop r).prop.code, d⟩⟩] ∧
    (finds ((MemOp.setData r d).run m').1 o (m.prop r).prop.code).map (·.data) = some d ∧
    (m'.look o' (m.prop r).prop.code ≠ some r →
      finds ((MemOp.setData r d).run m').1 o' (m.prop r).prop.code = finds m' o' (m.prop r).prop.code) := by
  intro m'
  obtain ⟨d1, e1⟩ := superAdd_cell m o r
  have hm' : m' = (m.superAdd o r).1.onProp r (fun x => { x with parent := some o' }) := rfl
  have hp : m'.prop r = ⟨{ (m.prop r).prop with data := d1 }, some o'⟩ := by
    rw [hm']
    unfold Mem.onProp
    simp only [if_true]
    rw [e1]
  have hl : m'.look o (m.prop r).prop.code = some r := superAdd_look m o r
  have hcell : ((MemOp.setData r d).run m').1.prop r
      = ⟨{ (m.prop r).prop with data := d }, some o'⟩ := by
    show (m'.onProp r (fun x => { x with prop := x.prop.setData d })).prop r = _
    unfold Mem.onProp
    simp only [if_true]
    rw [hp]
    rfl
  have hlook : ∀ x c, ((MemOp.setData r d).run m').1.look x c = m'.look x c := fun _ _ => rfl
  have hother : ∀ x, x ≠ r → ((MemOp.setData r d).run m').1.prop x = m'.prop x := by
    intro x hx
    show (m'.onProp r (fun x => { x with prop := x.prop.setData d })).prop x = _
    unfold Mem.onProp
    simp only
    rw [if_neg hx]
  refine ⟨?_, ?_, fun h => ?_⟩
  · show (m'.setData r d).2 = _
    unfold Mem.setData
    dsimp only
    have han : (m'.prop r).prop.isAnnounceable = true := by
      rw [hp]
      simpa [EProp.isAnnounceable, Attr.isProhibited, Attr.prohibited] using hne'
    rw [if_pos han, hp]
    dsimp only
    unfold Mem.onProp
    simp only [if_true]
    rw [hp]
    rfl
  · unfold finds
    rw [hlook, hl]
    simp only [Option.map_some]
    rw [hcell]
  · unfold finds
    rw [hlook]
    cases hx : m'.look o' (m.prop r).prop.code with
    | none => rfl
    | some x =>
      simp only [Option.map_some]
      rw [hother x (fun e => h (by rw [hx, e]))]

/-- The property maps an object has describe the codes of its readable, writable and announced properties. -/
def MapsDescribe (o : Obj) : Prop :=
  (∀ p, o.props.lookup 0x9F = some p → ∃ cs, IsCodeList o (fun q => q.getAttr ≠ 0) cs ∧ Describes p.data cs) ∧
  (∀ p, o.props.lookup 0x9E = some p → ∃ cs, IsCodeList o (fun q => q.setAttr ≠ 0) cs ∧ Describes p.data cs) ∧
  (∀ p, o.props.lookup 0x9D = some p → ∃ cs, IsCodeList o (fun q => q.annoAttr ≠ 0) cs ∧ Describes p.data cs)

theorem mapsCurrent_describe {o : Obj} (hw : OWF o) (hm : MapsCurrent o) : MapsDescribe o := by
  have tr : ∀ (sel : EProp → Bool) (P : EProp → Prop) (p : EProp), (∀ q, sel q = true ↔ P q) →
      p.data = mapData (selCodes sel o.props) → ∃ cs, IsCodeList o P cs ∧ Describes p.data cs := by
    intro sel P p hsel hd
    refine ⟨selCodes sel o.props, ⟨selCodes_sorted sel hw.uniq, fun c => ?_⟩, ?_⟩
    · rw [mem_selCodes]
      constructor
      · rintro ⟨q, h1, h2⟩; exact ⟨q, h1, (hsel q).mp h2⟩
      · rintro ⟨q, h1, h2⟩; exact ⟨q, h1, (hsel q).mpr h2⟩
    · unfold Describes; rw [hd, propertyMapBytes_eq]
  refine ⟨fun p hp => tr _ _ p ?_ (hm.get p hp), fun p hp => tr _ _ p ?_ (hm.set p hp),
    fun p hp => tr _ _ p ?_ (hm.anno p hp)⟩
  · intro q; simp [EProp.isReadable, Attr.isProhibited, Attr.prohibited]
  · intro q; simp [EProp.isWritable, Attr.isProhibited, Attr.prohibited]
  · intro q; simp [EProp.isAnnounceable, Attr.isProhibited, Attr.prohibited]

theorem shows_owf {m : Mem} (hm : Owned m) (o : Nat) : OWF (shows m o) := ⟨hm.three o, shows_uniq hm o⟩

/-- C106. Whatever attributes were changed before, through pointers to properties that were already added, after the
next `AddProperty` the property maps of the object describe the attributes its properties now have. -/
theorem C106_maps_partial (t : List RawObj) (ops : List MemOp) (o r : Nat)
    (h : Always Tidy (Mem.load t) ops) (hr : Tidy (after (Mem.load t) ops) (.add o r)) :
    MapsDescribe (shows (after (Mem.load t) (ops ++ [.add o r])) o) := by
  obtain ⟨hm, -⟩ := tidy_after ops (load_sim t).1 h
  unfold after at hm ⊢
  rw [List.foldl_append]
  unfold after at hr
  generalize List.foldl (fun m op => (MemOp.run m op).1) (Mem.load t) ops = m at *
  obtain ⟨b, e⟩ := superAdd_sim hm o r hr.2.1 hr.2.2
  have e1 : shows (m.superAdd o r).1 o = ((shows m o).superAddProperty (m.prop r).prop).1 := by rw [← e]
  refine mapsCurrent_describe (shows_owf b.owned o) ?_
  show MapsCurrent (shows (m.superAdd o r).1 o)
  rw [e1]
  exact MapsCurrent.superAddProperty (shows_owf hm o) _

/-- C106. Attributes set through a pointer to a property an object has are those `LookupProperty` of the object gives,
at once; the other properties of the object, other objects and the standard database are not changed, and the data
is not changed. -/
theorem C106_seen (t : List RawObj) (ops : List MemOp) (h : Always Tidy (Mem.load t) ops) (o r : Nat) (c : Byte)
    (hl : (after (Mem.load t) ops).look o c = some r) (g s a : Attr) :
    let m := after (Mem.load t) ops
    let m' := ((MemOp.setAttrs r g s a).run m).1
    finds m' o c = some { (m.prop r).prop with getAttr := g, setAttr := s, annoAttr := a } ∧
    (∀ x c', ¬ (x = o ∧ c' = c) → finds m' x c' = finds m x c') := by
  intro m m'
  obtain ⟨hm, -⟩ := tidy_after ops (load_sim t).1 h
  have hm : Owned m := hm
  have hl : m.look o c = some r := hl
  clear_value m
  have hl' : ∀ x y, m'.look x y = m.look x y := fun _ _ => rfl
  have hp : m'.prop = (m.onProp r (fun x =>
      { x with prop := { x.prop with getAttr := g, setAttr := s, annoAttr := a } })).prop := rfl
  constructor
  · unfold finds
    rw [hl', hl, hp]
    unfold Mem.onProp
    simp
  · intro x c' hx
    unfold finds
    rw [hl', hp]
    cases hq : m.look x c' with
    | none => rfl
    | some q =>
      have hqr : q ≠ r := by
        intro e
        subst e
        have b1 := hm.back o _ (look_mem hl)
        have b2 := hm.back x _ (look_mem hq)
        have k1 := hm.key o _ (look_mem hl)
        have k2 := hm.key x _ (look_mem hq)
        dsimp only at b1 b2 k1 k2
        rw [b1] at b2
        exact hx ⟨(Option.some.inj b2).symm, by rw [← k2, k1]⟩
      unfold Mem.onProp
      simp only [Option.map, if_neg hqr]

/-- C106, refuted for attributes. A readable property is added to an object that has a map of readable properties,
and then made unreadable through its pointer: the map still lists its code. -/
theorem C106_refuted_attrs (t : List RawObj) (ops : List MemOp) (o r : Nat) (h : Always Tidy (Mem.load t) ops)
    (hr : Tidy (after (Mem.load t) ops) (.add o r)) (p : EProp)
    (hp : finds (after (Mem.load t) (ops ++ [.add o r])) o 0x9F = some p)
    (hg : ((after (Mem.load t) ops).prop r).prop.getAttr ≠ 0) :
    let c := ((after (Mem.load t) ops).prop r).prop.code
    let m' := after (Mem.load t) (ops ++ [.add o r, .setAttrs r 0 0 0])
    (finds m' o c).map (·.getAttr) = some 0 ∧
    ∃ p' cs, finds m' o 0x9F = some p' ∧ Describes p'.data cs ∧ c ∈ cs := by
  intro c m'
  have hmaps := (C106_maps_partial t ops o r h hr).1
  obtain ⟨hm, -⟩ := tidy_after ops (load_sim t).1 h
  have hm' : m' = ((MemOp.setAttrs r 0 0 0).run (after (Mem.load t) (ops ++ [.add o r]))).1 := by
    show after _ _ = _
    unfold after
    rw [List.foldl_append, List.foldl_append]
    rfl
  have hadd : after (Mem.load t) (ops ++ [.add o r]) = ((after (Mem.load t) ops).superAdd o r).1 := by
    unfold after
    rw [List.foldl_append]
    rfl
  have hc : c = ((after (Mem.load t) ops).prop r).prop.code := rfl
  rw [hadd] at hmaps hp hm'
  clear_value m' c
  generalize after (Mem.load t) ops = m at *
  obtain ⟨b, e⟩ := superAdd_sim hm o r hr.2.1 hr.2.2
  have hl : (m.superAdd o r).1.look o c = some r := hc ▸ superAdd_look m o r
  obtain ⟨d, hcell⟩ := superAdd_cell m o r
  generalize (m.superAdd o r).1 = n at *
  have hcell' : m'.prop r = ⟨{ (m.prop r).prop with data := d, getAttr := 0, setAttr := 0, annoAttr := 0 }, some o⟩ := by
    rw [hm']
    unfold MemOp.run Mem.onProp
    simp only [if_true]
    rw [hcell]
  have hlook : ∀ y, m'.look o y = n.look o y := by
    intro y
    rw [hm']
    rfl
  refine ⟨?_, ?_⟩
  · unfold finds
    rw [hlook, hl]
    simp only [Option.map]
    rw [hcell']
  · have hlk := look_shows b.owned o 0x9F
    unfold finds at hp
    rw [hp] at hlk
    obtain ⟨cs, h1, h2⟩ := hmaps p hlk.symm
    have hin : c ∈ cs := by
      rw [h1.2]
      have hx := look_shows b.owned o c
      rw [hl] at hx
      exact ⟨_, hx.symm, by dsimp only; rw [hcell]; exact hg⟩
    cases hq : n.look o 0x9F with
    | none => rw [hq] at hp; cases hp
    | some q =>
      rw [hq] at hp
      have hp : (n.prop q).prop = p := Option.some.inj hp
      refine ⟨(m'.prop q).prop, cs, by unfold finds; rw [hlook, hq]; rfl, ?_, hin⟩
      have : (m'.prop q).prop.data = p.data := by
        rw [← hp, hm']
        unfold MemOp.run Mem.onProp
        dsimp only
        split <;> rfl
      rw [this]
      exact h2

/-! ## Cases that meet the hypotheses -/

/-- Two objects; a property is made, given to the first and written through its pointer; the second gets a name. -/
def apartOps : List MemOp :=
  [.newSuper, .newSuper, .newProperty { EProp.new with code := 0x80, getAttr := 1, annoAttr := 1 }, .add 0 0,
    .setData 0 [5], .call 1 (.setName "x")]

theorem apart_mine (ops : List MemOp) (o : Nat) (h : (after (Mem.load []) ops).db = [])
    (ho : o < (after (Mem.load []) ops).nobjs) : Mine (after (Mem.load []) ops) o :=
  ⟨ho, fun e he => by rw [h] at he; cases he⟩

example : Always Careful (Mem.load []) apartOps ∧ aimedAt 0 (Mem.load []) apartOps
      = [.add { EProp.new with code := 0x80, getAttr := 1, annoAttr := 1 }, .write 0x80 [5]] ∧
    finds (after (Mem.load []) apartOps) 0 0x80
      = some { EProp.new with code := 0x80, getAttr := 1, annoAttr := 1, data := [5] } :=
  ⟨⟨trivial, trivial, trivial, ⟨apart_mine (apartOps.take 3) 0 rfl (by decide +kernel), by decide +kernel, rfl⟩,
      fun x hx => by
        have : some 0 = some x := hx
        cases this
        exact apart_mine (apartOps.take 4) 0 rfl (by decide +kernel),
      apart_mine (apartOps.take 5) 1 rfl (by decide +kernel), trivial⟩, rfl, rfl⟩

/-- An object with a map of readable properties, and a readable property to add. -/
def attrOps : List MemOp :=
  [.newSuper, .newProperty { EProp.new with code := 0x9F, getAttr := 1 }, .add 0 0,
    .newProperty { EProp.new with code := 0x80, getAttr := 1 }]

example : Always Tidy (Mem.load []) attrOps ∧ Tidy (after (Mem.load []) attrOps) (.add 0 1) ∧
    finds (after (Mem.load []) (attrOps ++ [.add 0 1])) 0 0x9F
      = some { EProp.new with code := 0x9F, getAttr := 1, data := [2, 0x80, 0x9F] } ∧
    ((after (Mem.load []) attrOps).prop 1).prop.getAttr ≠ 0 :=
  ⟨⟨trivial, trivial, ⟨apart_mine (attrOps.take 2) 0 rfl (by decide +kernel), by decide +kernel, rfl⟩, trivial,
      trivial⟩,
    ⟨apart_mine attrOps 0 rfl (by decide +kernel), by decide +kernel, rfl⟩, rfl, by decide +kernel⟩

/-- One property added to two objects, then written through the second: the first shows the new value. -/
example : let m := after (Mem.load []) [.newSuper, .newSuper,
      .newProperty { EProp.new with code := 0x80, getAttr := 1, annoAttr := 1 },
      .newProperty { EProp.new with code := 0x80, getAttr := 1, annoAttr := 1 }]
    (finds ((MemOp.call 1 (.write 0x80 [7])).run (after m [.add 0 0, .add 1 0])).1 0 0x80).map (·.data) = some [7] ∧
    (m.prop 0).prop.annoAttr ≠ 0 ∧ m.look 0 0x81 = none ∧ (m.prop 0).prop.code = (m.prop 1).prop.code := by
  intro m
  exact ⟨(C105_refuted m 0 1 0 (by decide) 0x80 (by decide +kernel) [7]).1, by decide +kernel, by decide +kernel,
    by decide +kernel⟩

/-- The hypotheses of `C106_refuted_object`: a property of the first object that says it belongs to the second, which
has no such property. -/
example : let m := after (Mem.load []) [.newSuper, .newSuper,
      .newProperty { EProp.new with code := 0x80, getAttr := 1, annoAttr := 1 }]
    (m.prop 0).prop.annoAttr ≠ 0 ∧ (after m [.add 0 0, .setObject 0 1]).look 1 0x80 ≠ some 0 ∧
    (finds ((MemOp.setData 0 [7]).run (after m [.add 0 0, .setObject 0 1])).1 0 0x80).map (·.data) = some [7] := by
  intro m
  exact ⟨by decide +kernel, by decide +kernel, (C106_refuted_object m 0 1 0 (by decide +kernel) [7]).2.1⟩

end Verif.Props
