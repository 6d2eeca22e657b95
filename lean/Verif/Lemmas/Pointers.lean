import Verif.Spec.Pointers
import Verif.Lemmas.Object
import Verif.Props.Object

/-! # Objects by pointers behave like objects by value -/

namespace Verif.Lemmas
open Verif Model Spec Props

/-- Every property in a map is held under its code, points back to the object, and is held there once. -/
structure Owned (m : Mem) : Prop where
  key : ∀ o e, e ∈ (m.obj o).map → (m.prop e.2).prop.code = e.1
  back : ∀ o e, e ∈ (m.obj o).map → (m.prop e.2).parent = some o
  old : ∀ o e, e ∈ (m.obj o).map → e.2 < m.nprops
  nodup : ∀ o, ((m.obj o).map.map (·.1)).Nodup
  db : ∀ e ∈ m.db, e.2 < m.nobjs
  three : ∀ o, (m.obj o).codes.length = 3

/-- Only the object at `o` and free properties have changed. -/
structure Beside (m : Mem) (o : Nat) (m' : Mem) : Prop where
  owned : Owned m'
  obj : ∀ x, x ≠ o → m'.obj x = m.obj x
  prop : ∀ r x, r < m.nprops → (m.prop r).parent = some x → x ≠ o → m'.prop r = m.prop r
  db : m'.db = m.db
  nobjs : m'.nobjs = m.nobjs
  nprops : m.nprops ≤ m'.nprops

theorem Beside.shows {m m' : Mem} {o : Nat} (hm : Owned m) (h : Beside m o m') {x : Nat} (hx : x ≠ o) :
    shows m' x = shows m x := by
  unfold Spec.shows
  rw [h.obj x hx]
  congr 1
  apply List.map_congr_left
  intro e he
  rw [h.prop e.2 x (hm.old x e he) (hm.back x e he) hx]

theorem Beside.trans {m m' m'' : Mem} {o : Nat} (h : Beside m o m') (h' : Beside m' o m'') : Beside m o m'' := by
  refine ⟨h'.owned, fun x hx => (h'.obj x hx).trans (h.obj x hx), fun r x hr hp hx => ?_, h'.db.trans h.db,
    h'.nobjs.trans h.nobjs, Nat.le_trans h.nprops h'.nprops⟩
  have e := h.prop r x hr hp hx
  rw [h'.prop r x (Nat.lt_of_lt_of_le hr h.nprops) (by rw [e]; exact hp) hx, e]

theorem Beside.refl {m : Mem} (hm : Owned m) (o : Nat) : Beside m o m :=
  ⟨hm, fun _ _ => rfl, fun _ _ _ _ _ => rfl, rfl, rfl, Nat.le_refl _⟩

theorem Beside.showsDB {m m' : Mem} {o : Nat} (hm : Owned m) (h : Beside m o m') (ho : ∀ e ∈ m.db, e.2 ≠ o) :
    showsDB m' = showsDB m := by
  unfold Spec.showsDB
  rw [h.db]
  congr 1
  apply List.map_congr_left
  intro e he
  rw [h.shows hm (ho e he)]

/-! ## Single changes -/

/-- A change of the data of a property that belongs to `o` or to nothing. -/
theorem onProp_beside {m : Mem} (hm : Owned m) (r o : Nat) (f : PCell → PCell)
    (hp : ∀ x, (m.prop r).parent = some x → x = o) (hcode : (f (m.prop r)).prop.code = (m.prop r).prop.code)
    (hpar : (f (m.prop r)).parent = (m.prop r).parent) : Beside m o (m.onProp r f) := by
  have hc : ∀ y, ((m.onProp r f).prop y).prop.code = (m.prop y).prop.code ∧
      ((m.onProp r f).prop y).parent = (m.prop y).parent := by
    intro y
    unfold Mem.onProp
    dsimp only
    by_cases h : y = r
    · subst h
      rw [if_pos rfl]
      exact ⟨hcode, hpar⟩
    · rw [if_neg h]
      exact ⟨rfl, rfl⟩
  refine ⟨⟨fun x e he => (hc e.2).1.trans (hm.key x e he), fun x e he => (hc e.2).2.trans (hm.back x e he),
    hm.old, hm.nodup, hm.db, hm.three⟩, fun _ _ => rfl, fun y x _ hy hx => ?_, rfl, rfl, Nat.le_refl _⟩
  unfold Mem.onProp
  dsimp only
  rw [if_neg]
  intro h
  subst h
  exact hx (hp x hy)

theorem onObj_beside {m : Mem} (hm : Owned m) (o : Nat) (f : OCell → OCell)
    (hmap : (f (m.obj o)).map = (m.obj o).map) (hlen : (f (m.obj o)).codes.length = (m.obj o).codes.length) :
    Beside m o (m.onObj o f) := by
  have hc : ∀ y, ((m.onObj o f).obj y).map = (m.obj y).map := by
    intro y
    unfold Mem.onObj
    dsimp only
    by_cases h : y = o
    · subst h
      rw [if_pos rfl]
      exact hmap
    · rw [if_neg h]
  refine ⟨⟨fun x e he => hm.key x e (hc x ▸ he), fun x e he => hm.back x e (hc x ▸ he),
    fun x e he => hm.old x e (hc x ▸ he), fun x => ?_, hm.db, fun x => ?_⟩, fun x hx => ?_, fun _ _ _ _ _ => rfl,
    rfl, rfl, Nat.le_refl _⟩
  · rw [hc x]; exact hm.nodup x
  · unfold Mem.onObj
    dsimp only
    split
    · next h => rw [h, hlen]; exact hm.three o
    · exact hm.three x
  · unfold Mem.onObj
    dsimp only
    rw [if_neg hx]

theorem alloc_beside {m : Mem} (hm : Owned m) (o : Nat) (p : EProp) : Beside m o (m.alloc p).1 := by
  have hc : ∀ y, y < m.nprops → (m.alloc p).1.prop y = m.prop y := by
    intro y hy
    unfold Mem.alloc
    dsimp only
    rw [if_neg (Nat.ne_of_lt hy)]
  refine ⟨⟨fun x e he => ?_, fun x e he => ?_, fun x e he => Nat.lt_succ_of_lt (hm.old x e he), hm.nodup, hm.db,
      hm.three⟩,
    fun _ _ => rfl, fun r x hr _ _ => hc r hr, rfl, rfl, Nat.le_succ _⟩
  · rw [hc e.2 (hm.old x e he)]; exact hm.key x e he
  · rw [hc e.2 (hm.old x e he)]; exact hm.back x e he

theorem alloc_shows {m : Mem} (hm : Owned m) (p : EProp) (x : Nat) : shows (m.alloc p).1 x = shows m x :=
  (alloc_beside hm (x + 1) p).shows hm (by omega)

theorem alloc_cell (m : Mem) (p : EProp) : (m.alloc p).1.prop (m.alloc p).2 = ⟨p, none⟩ := by
  unfold Mem.alloc
  simp

theorem keys_eq {m : Mem} (hm : Owned m) (o : Nat) :
    (m.obj o).map.map (·.1) = (shows m o).props.map (·.code) := by
  unfold Spec.shows
  rw [List.map_map]
  apply List.map_congr_left
  intro e he
  exact (hm.key o e he).symm

theorem shows_uniq {m : Mem} (hm : Owned m) (o : Nat) : Uniq (shows m o).props := by
  unfold Uniq
  rw [← keys_eq hm]
  exact hm.nodup o

theorem look_shows {m : Mem} (hm : Owned m) (o : Nat) (c : Byte) :
    (m.look o c).map (fun r => (m.prop r).prop) = (shows m o).props.lookup c := by
  unfold Mem.look PMap.lookup Spec.shows
  dsimp only
  have hk : ∀ e ∈ (m.obj o).map, (m.prop e.2).prop.code = e.1 := hm.key o
  generalize (m.obj o).map = l at hk
  induction l with
  | nil => rfl
  | cons e l ih =>
    have he := hk e List.mem_cons_self
    rw [List.map_cons, List.find?_cons, List.find?_cons, he]
    cases e.1 == c with
    | true => rfl
    | false => exact ih (fun x hx => hk x (List.mem_cons_of_mem _ hx))

theorem look_mem {m : Mem} {o : Nat} {c : Byte} {r : Nat} (h : m.look o c = some r) : (c, r) ∈ (m.obj o).map := by
  unfold Mem.look at h
  rw [Option.map_eq_some_iff] at h
  obtain ⟨e, he, rfl⟩ := h
  have h1 := List.mem_of_find?_eq_some he
  have h2 := List.find?_some he
  have : e.1 = c := by simpa using h2
  rw [← this]
  exact h1

theorem look_of_mem {m : Mem} (hm : Owned m) {o : Nat} {c : Byte} {r : Nat} (h : (c, r) ∈ (m.obj o).map) :
    m.look o c = some r := by
  unfold Mem.look
  have hn := hm.nodup o
  generalize (m.obj o).map = l at h hn
  induction l with
  | nil => cases h
  | cons e l ih =>
    rw [List.map_cons, List.nodup_cons] at hn
    rw [List.find?_cons]
    by_cases hc : e.1 = c
    · have : e = (c, r) := by
        rcases List.mem_cons.mp h with h' | h'
        · exact h'.symm
        · exact absurd (List.mem_map.mpr ⟨_, h', hc.symm⟩) hn.1
      rw [this]
      simp
    · rw [beq_eq_false_iff_ne.mpr hc]
      rcases List.mem_cons.mp h with h' | h'
      · exact absurd (by rw [← h']) hc
      · exact ih h' hn.2

/-- Storing data in the property under a code, seen from the object. -/
theorem store_shows {m : Mem} (hm : Owned m) {o r : Nat} {c : Byte} (hl : m.look o c = some r) (d : Bytes) :
    shows (m.onProp r (fun x => { x with prop := { x.prop with data := d } })) o
      = { shows m o with props := (shows m o).props.update c d } := by
  have hr := look_mem hl
  unfold Spec.shows PMap.update
  dsimp only
  congr 1
  rw [List.map_map]
  apply List.map_congr_left
  intro e he
  simp only [Function.comp]
  have hk := hm.key o e he
  unfold Mem.onProp
  dsimp only
  by_cases h : e.2 = r
  · have : e.1 = c := by rw [← hk, h]; exact hm.key o _ hr
    rw [if_pos h, if_pos (hk.trans this)]
    rfl
  · rw [if_neg h, if_neg]
    intro hc
    have e1 : (c, e.2) ∈ (m.obj o).map := by rw [← hc, hk]; exact he
    have := (look_of_mem hm e1).symm.trans hl
    exact h (Option.some.inj this)

/-! ## Writing -/

theorem setData_mem {m : Mem} (r : Nat) (d : Bytes) :
    (m.setData r d).1 = m.onProp r (fun x => { x with prop := { x.prop with data := d } }) := rfl

theorem setData_ann {m : Mem} (hm : Owned m) {o r : Nat} {c : Byte} (hl : m.look o c = some r) (d : Bytes) :
    (m.setData r d).2 = ((shows m o).setPropData (m.prop r).prop d).2 := by
  unfold Mem.setData Obj.setPropData
  dsimp only
  have hb := hm.back o _ (look_mem hl)
  dsimp only at hb
  rw [hb]
  have : ((m.onProp r (fun x => { x with prop := x.prop.setData d })).prop r).prop = (m.prop r).prop.setData d := by
    unfold Mem.onProp
    simp
  rw [this]
  rfl

theorem write_sim {m : Mem} (hm : Owned m) (o : Nat) (c : Byte) (d : Bytes) :
    Beside m o (m.setPropertyData o c d).1 ∧
    (shows (m.setPropertyData o c d).1 o, (m.setPropertyData o c d).2) = (shows m o).setPropertyData c d := by
  unfold Mem.setPropertyData Obj.setPropertyData
  have hs := look_shows hm o c
  cases hl : m.look o c with
  | none =>
    rw [hl] at hs
    rw [← hs]
    exact ⟨Beside.refl hm o, rfl⟩
  | some r =>
    rw [hl] at hs
    rw [← hs]
    dsimp only [Option.map_some]
    have hr := look_mem hl
    constructor
    · rw [setData_mem]
      refine onProp_beside hm r o _ ?_ rfl rfl
      intro x hx
      have := hm.back o _ hr
      dsimp only at this
      rw [this] at hx
      exact (Option.some.inj hx).symm
    · rw [setData_ann hm hl, setData_mem, store_shows hm hl]
      have hc : (m.prop r).prop.code = c := hm.key o _ hr
      unfold Obj.setPropData
      rw [hc]

theorem properties_shows {m : Mem} (hm : Owned m) (o : Nat) :
    (m.properties o).map (fun r => (m.prop r).prop) = (shows m o).props.properties := by
  unfold Mem.properties PMap.properties
  rw [keys_eq hm, List.map_filterMap]
  congr 1
  funext c
  exact look_shows hm o c

theorem codesWith_shows {m : Mem} (hm : Owned m) (o : Nat) (f : EProp → Bool) :
    m.codesWith o f = ((shows m o).props.properties.filter f).map (·.code) := by
  unfold Mem.codesWith
  rw [← properties_shows hm, List.filter_map, List.map_map]
  rfl

theorem mapProperty_sim {m : Mem} (hm : Owned m) (o : Nat) (c : Byte) (cs : List Byte) :
    Beside m o (m.setPropertyMapProperty o c cs).1 ∧
    (shows (m.setPropertyMapProperty o c cs).1 o, (m.setPropertyMapProperty o c cs).2)
      = (shows m o).setPropertyMapProperty c cs := by
  have hh : (m.look o c).isSome = (shows m o).props.has c := by
    unfold PMap.has
    rw [← look_shows hm]
    cases m.look o c <;> rfl
  unfold Mem.setPropertyMapProperty Obj.setPropertyMapProperty
  rw [hh]
  cases (shows m o).props.has c with
  | true => exact write_sim hm o c _
  | false => exact ⟨Beside.refl hm o, rfl⟩

theorem updateMap_sim {m : Mem} (hm : Owned m) (o : Nat) :
    Beside m o (m.updatePropertyMap o).1 ∧
    (shows (m.updatePropertyMap o).1 o, (m.updatePropertyMap o).2) = (shows m o).updatePropertyMap := by
  unfold Mem.updatePropertyMap Obj.updatePropertyMap Obj.readableCodes Obj.writableCodes Obj.announceableCodes
  rw [codesWith_shows hm, codesWith_shows hm, codesWith_shows hm]
  generalize (List.filter (fun x => x.isReadable) (shows m o).props.properties).map (·.code) = g
  generalize (List.filter (fun x => x.isWritable) (shows m o).props.properties).map (·.code) = s
  generalize (List.filter (fun x => x.isAnnounceable) (shows m o).props.properties).map (·.code) = a
  obtain ⟨b1, e1⟩ := mapProperty_sim hm o objectGetPropertyMap g
  obtain ⟨b2, e2⟩ := mapProperty_sim b1.owned o objectSetPropertyMap s
  obtain ⟨b3, e3⟩ := mapProperty_sim b2.owned o objectAnnoPropertyMap a
  refine ⟨(b1.trans b2).trans b3, ?_⟩
  dsimp only
  rw [← e1]
  dsimp only
  rw [← e2]
  dsimp only
  rw [← e3]

/-! ## Adding -/

theorem assign_keys (l : List (Byte × Nat)) (c : Byte) (r : Nat) (h : (l.map (·.1)).Nodup) :
    ((Mem.assign l c r).map (·.1)).Nodup := by
  unfold Mem.assign
  split
  · have : (l.map (fun e => if e.1 = c then (c, r) else e)).map (·.1) = l.map (·.1) := by
      rw [List.map_map]
      apply List.map_congr_left
      intro e _
      simp only [Function.comp]
      split
      · next h => exact h.symm
      · rfl
    rw [this]
    exact h
  · next hn =>
    rw [List.map_append, List.nodup_append]
    refine ⟨h, by simp, ?_⟩
    intro x hx y hy
    simp only [List.map_cons, List.map_nil, List.mem_singleton] at hy
    subst hy
    intro he
    subst he
    obtain ⟨e, h1, h2⟩ := List.mem_map.mp hx
    exact hn (List.any_eq_true.mpr ⟨e, h1, by simp [h2]⟩)

theorem mem_assign {l : List (Byte × Nat)} {c : Byte} {r : Nat} {e : Byte × Nat} (h : e ∈ Mem.assign l c r) :
    e = (c, r) ∨ (e ∈ l ∧ e.1 ≠ c) := by
  unfold Mem.assign at h
  split at h
  · obtain ⟨x, hx, he⟩ := List.mem_map.mp h
    split at he
    · exact .inl he.symm
    · next hne => rw [← he]; exact .inr ⟨hx, hne⟩
  · next hn =>
    rcases List.mem_append.mp h with h' | h'
    · refine .inr ⟨h', fun hc => hn (List.any_eq_true.mpr ⟨e, h', by simp [hc]⟩)⟩
    · exact .inl (List.mem_singleton.mp h')

theorem add_sim {m : Mem} (hm : Owned m) (o r : Nat) (hr : r < m.nprops) (hf : (m.prop r).parent = none) :
    Beside m o (m.addProperty o r) ∧ shows (m.addProperty o r) o = (shows m o).addProperty (m.prop r).prop := by
  have hprop : ∀ y, ((m.addProperty o r).prop y).prop = (m.prop y).prop := by
    intro y
    unfold Mem.addProperty Mem.onProp Mem.onObj
    dsimp only
    split <;> rfl
  have hpar : ∀ y, y ≠ r → ((m.addProperty o r).prop y) = (m.prop y) := by
    intro y hy
    unfold Mem.addProperty Mem.onProp Mem.onObj
    dsimp only
    rw [if_neg hy]
  have hpr : ((m.addProperty o r).prop r).parent = some o := by
    unfold Mem.addProperty Mem.onProp Mem.onObj
    simp
  have hobj : ∀ x, x ≠ o → (m.addProperty o r).obj x = m.obj x := by
    intro x hx
    unfold Mem.addProperty Mem.onProp Mem.onObj
    dsimp only
    rw [if_neg hx]
  have hmap : (m.addProperty o r).obj o
      = { m.obj o with map := Mem.assign (m.obj o).map (m.prop r).prop.code r } := by
    unfold Mem.addProperty Mem.onProp Mem.onObj
    simp
  have hne : ∀ x e, e ∈ (m.obj x).map → e.2 ≠ r := by
    intro x e he h
    have := hm.back x e he
    rw [h, hf] at this
    cases this
  refine ⟨⟨⟨fun x e he => ?_, fun x e he => ?_, fun x e he => ?_, fun x => ?_, hm.db, fun x => ?_⟩, hobj,
    fun y x _ hy _ => ?_, rfl, rfl, Nat.le_refl _⟩, ?_⟩
  · rw [hprop]
    by_cases hx : x = o
    · subst hx
      rw [hmap] at he
      rcases mem_assign he with rfl | ⟨h, -⟩
      · rfl
      · exact hm.key x e h
    · rw [hobj x hx] at he
      exact hm.key x e he
  · by_cases hx : x = o
    · subst hx
      rw [hmap] at he
      rcases mem_assign he with rfl | ⟨h, -⟩
      · exact hpr
      · rw [hpar _ (hne x e h)]
        exact hm.back x e h
    · rw [hobj x hx] at he
      rw [hpar _ (hne x e he)]
      exact hm.back x e he
  · by_cases hx : x = o
    · subst hx
      rw [hmap] at he
      rcases mem_assign he with rfl | ⟨h, -⟩
      · exact hr
      · exact hm.old x e h
    · rw [hobj x hx] at he
      exact hm.old x e he
  · by_cases hx : x = o
    · subst hx
      rw [hmap]
      exact assign_keys _ _ _ (hm.nodup x)
    · rw [hobj x hx]
      exact hm.nodup x
  · by_cases hx : x = o
    · subst hx
      rw [hmap]
      exact hm.three x
    · rw [hobj x hx]
      exact hm.three x
  · refine hpar y ?_
    intro h
    subst h
    rw [hf] at hy
    cases hy
  · unfold Spec.shows Obj.addProperty
    rw [hmap]
    dsimp only
    congr 1
    have : (fun e : Byte × Nat => ((m.addProperty o r).prop e.2).prop) = fun e => (m.prop e.2).prop := by
      funext e
      exact hprop e.2
    rw [this]
    unfold Mem.assign PMap.add
    have hany : ((m.obj o).map.map (fun e => (m.prop e.2).prop)).any (fun q => q.code == (m.prop r).prop.code)
        = (m.obj o).map.any (fun e => e.1 == (m.prop r).prop.code) := by
      have hk := hm.key o
      generalize (m.obj o).map = l at hk
      induction l with
      | nil => rfl
      | cons e l ih =>
        rw [List.map_cons, List.any_cons, List.any_cons, hk e List.mem_cons_self,
          ih (fun x hx => hk x (List.mem_cons_of_mem _ hx))]
    rw [hany]
    split
    · rw [List.map_map, List.map_map]
      apply List.map_congr_left
      intro e he
      simp only [Function.comp]
      rw [hm.key o e he]
      split <;> rfl
    · rw [List.map_append]
      rfl

theorem superAdd_sim {m : Mem} (hm : Owned m) (o r : Nat) (hr : r < m.nprops) (hf : (m.prop r).parent = none) :
    Beside m o (m.superAdd o r).1 ∧
    (shows (m.superAdd o r).1 o, (m.superAdd o r).2) = (shows m o).superAddProperty (m.prop r).prop := by
  obtain ⟨b1, e1⟩ := add_sim hm o r hr hf
  obtain ⟨b2, e2⟩ := updateMap_sim b1.owned o
  refine ⟨b1.trans b2, ?_⟩
  unfold Mem.superAdd Obj.superAddProperty
  rw [e2, e1]

/-- A property made for the call. -/
theorem addNew_sim {m : Mem} (hm : Owned m) (o : Nat) (p : EProp) :
    Beside m o ((m.alloc p).1.superAdd o (m.alloc p).2).1 ∧
    (shows ((m.alloc p).1.superAdd o (m.alloc p).2).1 o, ((m.alloc p).1.superAdd o (m.alloc p).2).2)
      = (shows m o).superAddProperty p := by
  have b := alloc_beside hm o p
  have c := alloc_cell m p
  obtain ⟨b', e⟩ := superAdd_sim b.owned o (m.alloc p).2 (Nat.lt_succ_self _) (by rw [c])
  refine ⟨b.trans b', ?_⟩
  rw [e, alloc_shows hm, c]

theorem copies_sim (o s : Nat) (hs : s ≠ o) (rs : List Nat) : ∀ {m : Mem}, Owned m →
    (∀ r ∈ rs, r < m.nprops ∧ (m.prop r).parent = some s) →
    Beside m o (m.superAddCopies o rs).1 ∧
    (shows (m.superAddCopies o rs).1 o, (m.superAddCopies o rs).2)
      = (shows m o).superAddProperties (rs.map (fun r => (m.prop r).prop.copy)) := by
  induction rs with
  | nil => exact fun hm _ => ⟨Beside.refl hm o, rfl⟩
  | cons r rs ih =>
    intro m hm hrs
    obtain ⟨b, e⟩ := addNew_sim hm o (m.prop r).prop.copy
    have keep : ∀ x ∈ rs, ((m.alloc (m.prop r).prop.copy).1.superAdd o (m.alloc (m.prop r).prop.copy).2).1.prop x
        = m.prop x := by
      intro x hx
      obtain ⟨h1, h2⟩ := hrs x (List.mem_cons_of_mem _ hx)
      exact b.prop x s h1 h2 hs
    obtain ⟨b', e'⟩ := ih b.owned (fun x hx => by
      obtain ⟨h1, h2⟩ := hrs x (List.mem_cons_of_mem _ hx)
      exact ⟨Nat.lt_of_lt_of_le h1 b.nprops, by rw [keep x hx]; exact h2⟩)
    refine ⟨b.trans b', ?_⟩
    unfold Mem.superAddCopies
    rw [List.map_cons]
    unfold Obj.superAddProperties
    dsimp only
    rw [← e]
    dsimp only
    have : rs.map (fun x => (m.prop x).prop.copy) = rs.map (fun x =>
        (((m.alloc (m.prop r).prop.copy).1.superAdd o (m.alloc (m.prop r).prop.copy).2).1.prop x).prop.copy) := by
      apply List.map_congr_left
      intro x hx
      rw [keep x hx]
    rw [this, ← e']

/-- Looking up the database. -/
theorem lookupObject_shows (m : Mem) (c : ObjectCode) :
    (showsDB m).lookupObject c = (m.lookupObject c).map (shows m) := by
  unfold StdDB.lookupObject Mem.lookupObject Spec.showsDB
  dsimp only
  generalize m.db = l
  induction l with
  | nil => rfl
  | cons e l ih =>
    rw [List.map_cons, List.find?_cons, List.find?_cons]
    dsimp only
    cases e.1 == (c &&& 0xFFFF00) with
    | true => rfl
    | false => exact ih

theorem mem_pointers {m : Mem} {s r : Nat} (h : r ∈ m.properties s) : ∃ c, (c, r) ∈ (m.obj s).map := by
  unfold Mem.properties at h
  obtain ⟨c, -, hc⟩ := List.mem_filterMap.mp h
  exact ⟨c, look_mem hc⟩

theorem onObj_self (m : Mem) (o : Nat) (f : OCell → OCell) : (m.onObj o f).obj o = f (m.obj o) := by
  unfold Mem.onObj
  simp

theorem standard_sim {m : Mem} (hm : Owned m) (o : Nat) (ho : ∀ e ∈ m.db, e.2 ≠ o) (c : ObjectCode) :
    Beside m o (m.addStandard o c).1 ∧
    (shows (m.addStandard o c).1 o, (m.addStandard o c).2)
      = (shows m o).addStandardPropertiesWithCode (showsDB m) c := by
  unfold Mem.addStandard Obj.addStandardPropertiesWithCode
  rw [lookupObject_shows]
  cases hl : m.lookupObject c with
  | none => exact ⟨Beside.refl hm o, rfl⟩
  | some s =>
    dsimp only [Option.map_some]
    have hs : s ≠ o := by
      unfold Mem.lookupObject at hl
      rw [Option.map_eq_some_iff] at hl
      obtain ⟨e, he, rfl⟩ := hl
      exact ho e (List.mem_of_find?_eq_some he)
    have b := onObj_beside hm o (fun x => { x with clsName := (m.obj s).clsName }) rfl rfl
    have hsh : shows (m.onObj o (fun x => { x with clsName := (m.obj s).clsName })) o
        = (shows m o).setClassName (shows m s).clsName := by
      unfold Spec.shows Obj.setClassName
      rw [onObj_self]
      rfl
    obtain ⟨b', e'⟩ := copies_sim o s hs (m.properties s) b.owned (fun r hr => by
      obtain ⟨k, hk⟩ := mem_pointers hr
      exact ⟨hm.old s _ hk, hm.back s _ hk⟩)
    refine ⟨b.trans b', ?_⟩
    rw [e', hsh, ← properties_shows hm, List.map_map]
    rfl

theorem codes_sim {m : Mem} (hm : Owned m) (o : Nat) (f : Bytes → Bytes) (hf : ∀ x, x.length = 3 → (f x).length = 3) :
    Beside m o (m.onCodes o f) ∧ shows (m.onCodes o f) o = { shows m o with codes := f (shows m o).codes } := by
  refine ⟨onObj_beside hm o _ rfl ((hf _ (hm.three o)).trans (hm.three o).symm), ?_⟩
  unfold Spec.shows Mem.onCodes
  rw [onObj_self]
  rfl

theorem code_shows (m : Mem) (o : Nat) : m.code o = (shows m o).code := rfl

/-- A method of an object changes what the object shows as the method by value, announces the same and reports the
same error; nothing else changes. -/
theorem call_sim {m : Mem} (hm : Owned m) (o : Nat) (ho : ∀ e ∈ m.db, e.2 ≠ o) (op : ObjOp) :
    Beside m o (m.call o op).1 ∧
    (shows (m.call o op).1 o, (m.call o op).2) = op.run (showsDB m) (shows m o) := by
  cases op with
  | add p =>
    obtain ⟨b, e⟩ := addNew_sim hm o p
    refine ⟨b, ?_⟩
    unfold ObjOp.run
    dsimp only
    rw [← e]
    rfl
  | setCode c =>
    obtain ⟨b1, e1⟩ := codes_sim hm o (integerToByte c) (fun x hx => by rw [integerToByte_eq, beBytes_length]; exact hx)
    obtain ⟨b2, e2⟩ := standard_sim b1.owned o (by rw [b1.db]; exact ho) ((m.onCodes o (integerToByte c)).code o)
    refine ⟨b1.trans b2, ?_⟩
    unfold ObjOp.run Obj.superSetCode
    dsimp only
    have hdb := b1.showsDB hm ho
    have hsc : shows (m.onCodes o (integerToByte c)) o = (shows m o).setCode c := e1
    rw [hdb, code_shows, hsc] at e2
    rw [← e2]
    unfold Mem.call
    dsimp only
    rw [code_shows, hsc]
  | setCodes cs =>
    obtain ⟨b1, e1⟩ := codes_sim hm o (fun x => cs.take x.length ++ x.drop cs.length) (fun x hx => by
      rw [List.length_append, List.length_take, List.length_drop]; omega)
    obtain ⟨b2, e2⟩ := standard_sim b1.owned o (by rw [b1.db]; exact ho)
      ((m.onCodes o (fun x => cs.take x.length ++ x.drop cs.length)).code o)
    refine ⟨b1.trans b2, ?_⟩
    unfold ObjOp.run Obj.superSetCodes
    dsimp only
    have hdb := b1.showsDB hm ho
    have hsc : shows (m.onCodes o (fun x => cs.take x.length ++ x.drop cs.length)) o = (shows m o).setCodes cs := e1
    rw [hdb, code_shows, hsc] at e2
    rw [← e2]
    unfold Mem.call
    dsimp only
    rw [code_shows, hsc]
  | write c d => exact write_sim hm o c d
  | writeByte c b => 
    have h := write_sim hm o c [b]
    refine ⟨h.1, h.2.trans ?_⟩
    rfl
  | writeInt c v n =>
    have h := write_sim hm o c (EProp.integerData v n)
    refine ⟨h.1, h.2.trans ?_⟩
    rfl
  | setName s =>
    refine ⟨onObj_beside hm o (fun x => { x with name := s }) rfl rfl, ?_⟩
    unfold Mem.call ObjOp.run Spec.shows Obj.setName
    dsimp only
    rw [onObj_self]
    rfl
  | setClassName s =>
    refine ⟨onObj_beside hm o (fun x => { x with clsName := s }) rfl rfl, ?_⟩
    unfold Mem.call ObjOp.run Spec.shows Obj.setClassName
    dsimp only
    rw [onObj_self]
    rfl
  | setInstance b =>
    obtain ⟨b1, e1⟩ := codes_sim hm o (fun x => x.set 2 b) (fun x hx => by rw [List.length_set]; exact hx)
    refine ⟨b1, ?_⟩
    unfold Mem.call ObjOp.run
    rw [e1]
    rfl
  | setGroup b =>
    obtain ⟨b1, e1⟩ := codes_sim hm o (fun x => x.set 0 b) (fun x hx => by rw [List.length_set]; exact hx)
    refine ⟨b1, ?_⟩
    unfold Mem.call ObjOp.run
    rw [e1]
    rfl
  | setClass b =>
    obtain ⟨b1, e1⟩ := codes_sim hm o (fun x => x.set 1 b) (fun x hx => by rw [List.length_set]; exact hx)
    refine ⟨b1, ?_⟩
    unfold Mem.call ObjOp.run
    rw [e1]
    rfl
  | clear c =>
    unfold ObjOp.run Obj.clearProperty
    cases hl : m.look o c with
    | none =>
      have hc : m.call o (.clear c) = (m, [], none) := by
        unfold Mem.call
        dsimp only
        rw [hl]
      rw [hc]
      refine ⟨Beside.refl hm o, ?_⟩
      dsimp only
      have := look_shows hm o c
      rw [hl] at this
      rw [update_absent this.symm]
    | some r =>
      have hc : m.call o (.clear c) = (m.onProp r (fun x => { x with prop := { x.prop with data := [] } }), [], none) := by
        unfold Mem.call
        dsimp only
        rw [hl]
        rfl
      rw [hc]
      dsimp only
      refine ⟨onProp_beside hm r o _ ?_ rfl rfl, ?_⟩
      · intro x hx
        have := hm.back o _ (look_mem hl)
        dsimp only at this
        rw [this] at hx
        exact (Option.some.inj hx).symm
      · rw [store_shows hm hl []]
  | announce c =>
    unfold ObjOp.run
    dsimp only
    unfold Obj.announceProperty
    rw [← look_shows hm o c]
    cases hl : m.look o c with
    | none =>
      have hc : m.call o (.announce c) = (m, [], none) := by
        unfold Mem.call
        dsimp only
        rw [hl]
      rw [hc]
      exact ⟨Beside.refl hm o, rfl⟩
    | some r =>
      have hc : m.call o (.announce c) = (m, m.announce r, none) := by
        unfold Mem.call
        dsimp only
        rw [hl]
      rw [hc]
      refine ⟨Beside.refl hm o, ?_⟩
      have hp : (m.prop r).parent = some o := hm.back o _ (look_mem hl)
      unfold Mem.announce
      rw [hp]
      rfl
  | bareAdd p =>
    have b := alloc_beside hm o p
    have c := alloc_cell m p
    obtain ⟨b', e⟩ := add_sim b.owned o (m.alloc p).2 (Nat.lt_succ_self _) (by rw [c])
    refine ⟨b.trans b', ?_⟩
    rw [alloc_shows hm, c] at e
    unfold ObjOp.run
    dsimp only
    rw [← e]
    rfl
  | bareSetCode c =>
    obtain ⟨b1, e1⟩ := codes_sim hm o (integerToByte c) (fun x hx => by rw [integerToByte_eq, beBytes_length]; exact hx)
    refine ⟨b1, ?_⟩
    unfold Mem.call ObjOp.run
    rw [e1]
    rfl
  | bareSetCodes cs =>
    obtain ⟨b1, e1⟩ := codes_sim hm o (fun x => cs.take x.length ++ x.drop cs.length) (fun x hx => by
      rw [List.length_append, List.length_take, List.length_drop]; omega)
    refine ⟨b1, ?_⟩
    unfold Mem.call ObjOp.run
    rw [e1]
    rfl

/-! ## New objects -/

theorem newObject_owned {m : Mem} (hm : Owned m) : Owned m.newObject.1 := by
  have hmap : ∀ x e, e ∈ (m.newObject.1.obj x).map → e ∈ (m.obj x).map := by
    intro x e he
    unfold Mem.newObject at he
    dsimp only at he
    split at he
    · cases he
    · exact he
  refine ⟨fun x e he => hm.key x e (hmap x e he), fun x e he => hm.back x e (hmap x e he),
    fun x e he => hm.old x e (hmap x e he), fun x => ?_, fun e he => Nat.lt_succ_of_lt (hm.db e he), fun x => ?_⟩
  · unfold Mem.newObject
    dsimp only
    split
    · simp
    · exact hm.nodup x
  · unfold Mem.newObject
    dsimp only
    split
    · rfl
    · exact hm.three x

theorem newObject_shows (m : Mem) (x : Nat) : shows m.newObject.1 x = if x = m.nobjs then Obj.new else shows m x := by
  unfold Spec.shows Mem.newObject
  dsimp only
  split <;> rfl

theorem newObject_showsDB {m : Mem} (hm : Owned m) : showsDB m.newObject.1 = showsDB m := by
  unfold Spec.showsDB
  congr 1
  apply List.map_congr_left
  intro e he
  rw [newObject_shows, if_neg (Nat.ne_of_lt (hm.db e he))]

/-- A new super object shows what it should, whatever was done before; nothing else changes. -/
theorem newSuper_sim {m : Mem} (hm : Owned m) :
    Owned m.newSuper.1 ∧ m.newSuper.2 = m.nobjs ∧ m.newSuper.1.nobjs = m.nobjs + 1 ∧ m.newSuper.1.db = m.db ∧
    showsDB m.newSuper.1 = showsDB m ∧
    (∀ x, x ≠ m.nobjs → shows m.newSuper.1 x = shows m x) ∧
    shows m.newSuper.1 m.nobjs = Obj.newSuper (showsDB m) := by
  have h0 := newObject_owned hm
  have ho : ∀ e ∈ m.newObject.1.db, e.2 ≠ m.nobjs := fun e he => Nat.ne_of_lt (hm.db e he)
  obtain ⟨b1, e1⟩ := codes_sim h0 m.nobjs (integerToByte superObjectCode)
    (fun x hx => by rw [integerToByte_eq, beBytes_length]; exact hx)
  have d1 := b1.showsDB h0 ho
  obtain ⟨b2, e2⟩ := standard_sim b1.owned m.nobjs (by rw [b1.db]; exact ho) superObjectCode
  have d2 := b2.showsDB b1.owned (by rw [b1.db]; exact ho)
  obtain ⟨b3, e3⟩ := updateMap_sim b2.owned m.nobjs
  have b := (b1.trans b2).trans b3
  have n0 := newObject_showsDB hm
  refine ⟨b.owned, rfl, b.nobjs, b.db, (b.showsDB h0 ho).trans n0, fun x hx => ?_, ?_⟩
  · rw [show shows m.newSuper.1 x = shows m.newObject.1 x from b.shows h0 hx, newObject_shows, if_neg hx]
  · have e3' := congrArg Prod.fst e3
    dsimp only at e3'
    refine Eq.trans e3' ?_
    have e2' := congrArg Prod.fst e2
    dsimp only at e2'
    rw [e2', d1, n0, e1, newObject_shows, if_pos rfl]
    rfl

/-! ## Loading the database -/

theorem empty_owned : Owned Mem.empty :=
  ⟨fun _ _ h => absurd h List.not_mem_nil, fun _ _ h => absurd h List.not_mem_nil,
    fun _ _ h => absurd h List.not_mem_nil, fun _ => List.nodup_nil, fun _ h => absurd h List.not_mem_nil, fun _ => rfl⟩

theorem loadProps_sim (o : Nat) (ps : List RawProp) : ∀ {m : Mem}, Owned m → Beside m o (m.loadProps o ps) ∧
    shows (m.loadProps o ps) o = ps.foldl (fun x p => x.addProperty (newStandardProperty p)) (shows m o) := by
  induction ps with
  | nil => exact fun hm => ⟨Beside.refl hm o, rfl⟩
  | cons p ps ih =>
    intro m hm
    have b := alloc_beside hm o (newStandardProperty p)
    have c := alloc_cell m (newStandardProperty p)
    obtain ⟨b', e⟩ := add_sim b.owned o (m.alloc (newStandardProperty p)).2 (Nat.lt_succ_self _) (by rw [c])
    obtain ⟨b'', e'⟩ := ih b'.owned
    refine ⟨(b.trans b').trans b'', ?_⟩
    rw [List.foldl_cons]
    refine Eq.trans e' ?_
    rw [e, c, alloc_shows hm]

theorem loadObject_sim {m : Mem} (hm : Owned m) (r : RawObj) :
    Owned (m.loadObject r) ∧ showsDB (m.loadObject r) = (showsDB m).addObject r.build := by
  have h0 := newObject_owned hm
  have ho : ∀ e ∈ m.newObject.1.db, e.2 ≠ m.nobjs := fun e he => Nat.ne_of_lt (hm.db e he)
  have b1 := onObj_beside h0 m.nobjs
    (fun x => { x with clsName := r.clsName, codes := (x.codes.set 0 r.grpCode).set 1 r.clsCode }) rfl (by simp)
  obtain ⟨b2, e2⟩ := loadProps_sim m.nobjs r.props b1.owned
  have b := b1.trans b2
  have hd := (b.showsDB h0 ho).trans (newObject_showsDB hm)
  have hs : shows (m.newObject.1.onObj m.nobjs (fun x => { x with clsName := r.clsName, codes := (x.codes.set 0 r.grpCode).set 1 r.clsCode })) m.nobjs
      = newStandardObject r.clsName r.grpCode r.clsCode := by
    unfold Spec.shows
    rw [onObj_self]
    unfold Mem.newObject
    simp only [if_true]
    rfl
  have hnew : shows ((m.newObject.1.onObj m.nobjs (fun x => { x with clsName := r.clsName, codes := (x.codes.set 0 r.grpCode).set 1 r.clsCode })).loadProps m.nobjs r.props) m.nobjs = r.build := by
    rw [e2, hs]
    rfl
  have hn := b.nobjs
  have hdb := b.db
  have h2 : m.newObject.2 = m.nobjs := rfl
  unfold Mem.loadObject
  dsimp only
  rw [h2]
  generalize ((m.newObject.1.onObj m.nobjs (fun x => { x with clsName := r.clsName, codes := (x.codes.set 0 r.grpCode).set 1 r.clsCode })).loadProps m.nobjs r.props) = m' at *
  have hw := b.owned
  refine ⟨⟨hw.key, hw.back, hw.old, hw.nodup, ?_, hw.three⟩, ?_⟩
  · intro e he
    rcases List.mem_cons.mp he with rfl | he
    · show m.nobjs < m'.nobjs
      rw [hn]
      exact Nat.lt_succ_self _
    · exact hw.db e (List.mem_filter.mp he).1
  · have hc : m'.code m.nobjs = r.build.code := by rw [code_shows, hnew]
    have : ∀ x, shows { m' with db := (m'.code m.nobjs, m.nobjs) :: m'.db.filter (fun e => e.1 ≠ m'.code m.nobjs) } x
        = shows m' x := fun _ => rfl
    unfold StdDB.addObject
    rw [← hd]
    unfold Spec.showsDB
    congr 1
    rw [List.map_cons]
    congr 1
    · rw [this, hnew, hc]
    · rw [List.filter_map]
      show _ = (m'.db.filter (fun e => decide (e.1 ≠ r.build.code))).map _
      rw [← hc]
      rfl

theorem load_sim (t : List RawObj) : Owned (Mem.load t) ∧ showsDB (Mem.load t) = StdDB.init t := by
  have key : ∀ (t : List RawObj) {m : Mem} (db : StdDB), Owned m → showsDB m = db →
      Owned (t.foldl Mem.loadObject m) ∧
      showsDB (t.foldl Mem.loadObject m) = t.foldl (fun db r => db.addObject r.build) db := by
    intro t
    induction t with
    | nil => exact fun db hm hd => ⟨hm, hd⟩
    | cons r t ih =>
      intro m db hm hd
      obtain ⟨a, b⟩ := loadObject_sim hm r
      rw [List.foldl_cons, List.foldl_cons]
      exact ih _ a (by rw [b, hd])
  exact key t ⟨[]⟩ empty_owned rfl

end Verif.Lemmas
