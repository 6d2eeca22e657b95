import Verif.Model.MapRace
import Verif.Lemmas.Object

/-!
# C107: objects used by several goroutines
-/

namespace Verif.Props
open Verif Model

/-- Two goroutines are within uses of the map at the same time, and one of them assigns. -/
def MapConflict (gs : List MapRunner) : Prop :=
  ∃ (i j : Nat) (g h : MapRunner) (u : MapUse), i ≠ j ∧ gs[i]? = some g ∧ gs[j]? = some h ∧
    g.now = some .assign ∧ h.now = some u

/-- The call adds properties: `AddProperty`, or `SetCode` of a class of the database that has properties. -/
def AddsProps (db : StdDB) : ObjUse → Prop
  | .add _ => True
  | .setCode c => ∃ o, db.lookupObject (byteToInteger 64 (integerToByte c [0, 0, 0])) = some o ∧ o.props ≠ []
  | _ => False

/-- The call uses the map: every call but `SetCode` of a class without properties. -/
def UsesMap (db : StdDB) : ObjUse → Prop
  | .setCode c => AddsProps db (.setCode c)
  | _ => True

theorem properties_nil (ps : PMap) : ps.properties = [] ↔ ps = [] := by
  constructor
  · intro h
    cases ps with
    | nil => rfl
    | cons p ps =>
      have hl : PMap.lookup (p :: ps) p.code = some p := by
        unfold PMap.lookup
        rw [List.find?_cons]
        simp
      have := (Lemmas.mem_properties (p :: ps) p).mpr hl
      rw [h] at this
      cases this
  · rintro rfl
    rfl

theorem adds_uses (db : StdDB) (u : ObjUse) : MapUse.assign ∈ u.uses db ↔ AddsProps db u := by
  cases u with
  | setCode c =>
    unfold ObjUse.uses AddsProps
    dsimp only
    have : List.replicate objectCodeSize (0 : Byte) = [0, 0, 0] := rfl
    rw [this]
    cases db.lookupObject (byteToInteger 64 (integerToByte c [0, 0, 0])) with
    | none => simp
    | some o =>
      simp only [List.mem_flatMap, Option.some.injEq, exists_eq_left']
      constructor
      · rintro ⟨p, hp, -⟩ e
        rw [(properties_nil _).mpr e] at hp
        cases hp
      · intro h
        obtain ⟨p, hp⟩ := List.exists_mem_of_ne_nil _ (fun e => h ((properties_nil o.props).mp e))
        exact ⟨p, hp, by simp⟩
  | _ => simp [ObjUse.uses, AddsProps]

theorem uses_nil (db : StdDB) (u : ObjUse) : u.uses db ≠ [] ↔ UsesMap db u := by
  cases u with
  | setCode c =>
    constructor
    · intro h
      refine (adds_uses db (.setCode c)).mp ?_
      unfold ObjUse.uses at h ⊢
      dsimp only at h ⊢
      split at h
      · exact absurd rfl h
      · next o ho =>
        rw [List.mem_flatMap]
        obtain ⟨m, hm⟩ := List.exists_mem_of_ne_nil _ h
        obtain ⟨p, hp, -⟩ := List.mem_flatMap.mp hm
        exact ⟨p, hp, by simp⟩
    · intro h e
      have := (adds_uses db (.setCode c)).mpr h
      rw [e] at this
      cases this
  | _ => simp [ObjUse.uses, UsesMap]

/-- What is left to do is the end of what was to do. -/
def LeftOf (gs : List MapRunner) (todo : List (List MapUse)) : Prop :=
  ∀ (i : Nat) (g : MapRunner), gs[i]? = some g → ∃ t, todo[i]? = some t ∧ g.todo <:+ t

theorem leftOf_step {gs : List MapRunner} {todo : List (List MapUse)} (h : LeftOf gs todo) (i : Nat) :
    LeftOf (gs.modify i MapRunner.step) todo := by
  intro j g hg
  rw [List.getElem?_modify] at hg
  obtain ⟨g', hg', e⟩ := Option.map_eq_some_iff.mp hg
  obtain ⟨t, ht, hs⟩ := h j g' hg'
  refine ⟨t, ht, ?_⟩
  rw [← e]
  split
  · unfold MapRunner.step
    split
    · exact (List.tail_suffix _).trans hs
    · split
      · exact hs
      · exact hs
  · exact hs

theorem leftOf_run (is : List Nat) : ∀ {gs : List MapRunner} {todo : List (List MapUse)}, LeftOf gs todo →
    LeftOf (mapRun gs is) todo := by
  induction is with
  | nil => exact fun h => h
  | cons i is ih => exact fun h => ih (leftOf_step h i)

theorem mapRun_append (is js : List Nat) : ∀ gs, mapRun gs (is ++ js) = mapRun (mapRun gs is) js := by
  induction is with
  | nil => exact fun _ => rfl
  | cons i is ih => exact fun gs => ih _

theorem modify_set {gs : List MapRunner} {i : Nat} {g : MapRunner} (h : gs[i]? = some g) :
    gs.modify i MapRunner.step = gs.set i g.step := by
  apply List.ext_getElem?
  intro k
  rw [List.getElem?_modify, List.getElem?_set]
  by_cases hk : i = k
  · subst hk
    rw [h, if_pos rfl, if_pos (List.getElem?_eq_some_iff.mp h).1]
    simp
  · simp [hk]

theorem runners_left (db : StdDB) (calls : List (List ObjUse)) :
    LeftOf (mapRunners db calls) (calls.map (fun us => us.flatMap (ObjUse.uses db))) := by
  intro i g h
  unfold mapRunners at h
  rw [List.getElem?_map] at h ⊢
  obtain ⟨us, hus, rfl⟩ := Option.map_eq_some_iff.mp h
  exact ⟨_, by rw [hus]; rfl, List.suffix_refl _⟩

/-- The use a goroutine is within is one of its calls. -/
theorem now_from (db : StdDB) (calls : List (List ObjUse)) (is : List Nat) (i : Nat) (g : MapRunner) (u : MapUse)
    (h : (mapRun (mapRunners db calls) is)[i]? = some g) (hn : g.now = some u) :
    ∃ us, calls[i]? = some us ∧ ∃ v ∈ us, u ∈ v.uses db := by
  obtain ⟨t, ht, hs⟩ := leftOf_run is (runners_left db calls) i g h
  rw [List.getElem?_map] at ht
  obtain ⟨us, hus, rfl⟩ := Option.map_eq_some_iff.mp ht
  refine ⟨us, hus, ?_⟩
  unfold MapRunner.now at hn
  split at hn
  · have := hs.subset (List.mem_of_mem_head? hn)
    exact List.mem_flatMap.mp this
  · cases hn

/-- A goroutine that runs alone gets to each of its uses. -/
theorem alone_reaches (pre : List MapUse) (u : MapUse) (post : List MapUse) : ∀ (gs : List MapRunner) (i : Nat),
    gs[i]? = some ⟨pre ++ u :: post, false⟩ →
    mapRun gs (List.replicate (2 * pre.length + 1) i) = gs.set i ⟨u :: post, true⟩ := by
  induction pre with
  | nil =>
    intro gs i h
    show gs.modify i MapRunner.step = _
    rw [modify_set h]
    rfl
  | cons v pre ih =>
    intro gs i h
    have e : 2 * (v :: pre).length + 1 = (2 * pre.length + 1) + 1 + 1 := by
      rw [List.length_cons]; omega
    rw [e, List.replicate_succ, List.replicate_succ]
    show mapRun ((gs.modify i MapRunner.step).modify i MapRunner.step) _ = _
    have h1 : gs.modify i MapRunner.step = gs.set i ⟨v :: (pre ++ u :: post), true⟩ := modify_set h
    have hlt := (List.getElem?_eq_some_iff.mp h).1
    have h2 : (gs.set i ⟨v :: (pre ++ u :: post), true⟩).modify i MapRunner.step
        = gs.set i ⟨pre ++ u :: post, false⟩ := by
      rw [modify_set (List.getElem?_set_self hlt), List.set_set]
      rfl
    rw [h1, h2, ih _ i (List.getElem?_set_self hlt), List.set_set]

/-- C107, refuted. If one goroutine adds a property to an object and another uses the object at all, there is a
schedule in which the map of properties is used during the assignment. -/
theorem C107_refuted (db : StdDB) (calls : List (List ObjUse)) (i j : Nat) (us vs : List ObjUse) (u v : ObjUse)
    (hne : i ≠ j) (hi : calls[i]? = some us) (hj : calls[j]? = some vs) (hu : u ∈ us) (hv : v ∈ vs)
    (ha : AddsProps db u) (hv' : UsesMap db v) :
    ∃ is, MapConflict (mapRun (mapRunners db calls) is) := by
  have hin : MapUse.assign ∈ us.flatMap (ObjUse.uses db) := List.mem_flatMap.mpr ⟨u, hu, (adds_uses db u).mpr ha⟩
  obtain ⟨pre, post, he⟩ := List.append_of_mem hin
  obtain ⟨w, hw⟩ := List.exists_mem_of_ne_nil _ ((uses_nil db v).mpr hv')
  have hin' : w ∈ vs.flatMap (ObjUse.uses db) := List.mem_flatMap.mpr ⟨v, hv, hw⟩
  cases hvs : vs.flatMap (ObjUse.uses db) with
  | nil => rw [hvs] at hin'; cases hin'
  | cons x xs =>
    have gi : (mapRunners db calls)[i]? = some ⟨pre ++ .assign :: post, false⟩ := by
      unfold mapRunners
      rw [List.getElem?_map, hi, Option.map_some, he]
    have gj : (mapRunners db calls)[j]? = some ⟨x :: xs, false⟩ := by
      unfold mapRunners
      rw [List.getElem?_map, hj, Option.map_some, hvs]
    have li := (List.getElem?_eq_some_iff.mp gi).1
    refine ⟨List.replicate (2 * pre.length + 1) i ++ [j], i, j, ⟨.assign :: post, true⟩, ⟨x :: xs, true⟩, x, hne,
      ?_, ?_, rfl, rfl⟩
    · rw [mapRun_append, alone_reaches pre _ post _ i gi]
      show (((mapRunners db calls).set i _).modify j MapRunner.step)[i]? = _
      rw [List.getElem?_modify, List.getElem?_set_self li]
      have hji : j ≠ i := fun h => hne h.symm
      simp [hji]
    · rw [mapRun_append, alone_reaches pre _ post _ i gi]
      show (((mapRunners db calls).set i _).modify j MapRunner.step)[j]? = _
      rw [List.getElem?_modify, List.getElem?_set_ne hne, gj]
      simp [MapRunner.step]

/-- C107. If no goroutine adds a property, the map is never used during an assignment, whatever the number of
goroutines, their calls and the schedule. -/
theorem C107_readers_partial (db : StdDB) (calls : List (List ObjUse))
    (h : ∀ us ∈ calls, ∀ u ∈ us, ¬ AddsProps db u) (is : List Nat) :
    ¬ MapConflict (mapRun (mapRunners db calls) is) := by
  rintro ⟨i, j, g, k, u, -, hg, -, hn, -⟩
  obtain ⟨us, hus, v, hv, hu⟩ := now_from db calls is i g _ hg hn
  exact h us (List.mem_of_getElem? hus) v hv ((adds_uses db v).mp hu)

/-- C107. The same if only one goroutine uses the object. -/
theorem C107_single_partial (db : StdDB) (calls : List (List ObjUse)) (i : Nat)
    (h : ∀ (j : Nat) (us : List ObjUse), j ≠ i → calls[j]? = some us → ∀ u ∈ us, ¬ UsesMap db u) (is : List Nat) :
    ¬ MapConflict (mapRun (mapRunners db calls) is) := by
  rintro ⟨j, k, g, g', u, hne, hg, hg', hn, hn'⟩
  obtain ⟨us, hus, v, hv, hu⟩ := now_from db calls is j g _ hg hn
  obtain ⟨us', hus', v', hv', hu'⟩ := now_from db calls is k g' _ hg' hn'
  by_cases hj : j = i
  · exact h k us' (fun e => hne (hj.trans e.symm)) hus' v' hv'
      ((uses_nil db v').mp (fun e => by rw [e] at hu'; cases hu'))
  · exact h j us hj hus v hv ((uses_nil db v).mp (fun e => by rw [e] at hu; cases hu))

/-- A node answers requests for a device while the program adds a property to it. -/
example : ∃ is, MapConflict (mapRun (mapRunners ⟨[]⟩ [[.serve 0], [.add EProp.new]]) is) :=
  C107_refuted ⟨[]⟩ [[.serve 0], [.add EProp.new]] 1 0 _ _ (.add EProp.new) (.serve 0) (by decide) rfl rfl
    (by simp) (by simp) trivial trivial

/-- Several requests at the same time, and the program writes. -/
example : ∀ is, ¬ MapConflict (mapRun (mapRunners ⟨[]⟩ [[.serve 0], [.serve 2], [.lookup 0x80, .list]]) is) :=
  C107_readers_partial ⟨[]⟩ _ (by simp [AddsProps])

end Verif.Props
