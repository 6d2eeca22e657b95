import Verif.Model.Listing
import Verif.Props.Device

/-! # C126: listings of the standard database -/

namespace Verif.Props
open Verif Model Spec Lemmas

/-- Going through the map after some assignments. -/
theorem map_entries (t : List RawObj) :
    ((StdDB.init t).objects.map (·.1)).Nodup ∧ ∀ e ∈ (StdDB.init t).objects, e.1 = e.2.code ∧ ∃ r ∈ t, e.2 = r.build := by
  suffices ∀ (u : List RawObj) (db : StdDB), (∀ r ∈ u, r ∈ t) → (db.objects.map (·.1)).Nodup →
      (∀ e ∈ db.objects, e.1 = e.2.code ∧ ∃ r ∈ t, e.2 = r.build) →
      ((u.foldl (fun db r => db.addObject r.build) db).objects.map (·.1)).Nodup ∧
      ∀ e ∈ (u.foldl (fun db r => db.addObject r.build) db).objects, e.1 = e.2.code ∧ ∃ r ∈ t, e.2 = r.build from
    this t ⟨[]⟩ (fun _ h => h) List.nodup_nil (fun e h => absurd h List.not_mem_nil)
  intro u
  induction u with
  | nil => exact fun db _ h1 h2 => ⟨h1, h2⟩
  | cons r u ih =>
    intro db hu h1 h2
    refine ih (db.addObject r.build) (fun x hx => hu x (List.mem_cons_of_mem _ hx)) ?_ ?_
    · show (List.map (·.1) ((r.build.code, r.build) :: db.objects.filter (fun e => e.1 ≠ r.build.code))).Nodup
      rw [List.map_cons, List.nodup_cons]
      constructor
      · intro hm
        obtain ⟨e, he, hx⟩ := List.mem_map.mp hm
        have := (List.mem_filter.mp he).2
        simp only [decide_eq_true_eq] at this
        exact this hx
      · exact (List.filter_sublist.map _).nodup h1
    · intro e he
      rcases List.mem_cons.mp he with rfl | he
      · exact ⟨rfl, r, hu r (List.mem_cons_self ..), rfl⟩
      · exact h2 e (List.mem_filter.mp he).1

theorem build_mask (r : RawObj) : r.build.code &&& 0xFFFF00 = r.build.code := by
  apply BitVec.eq_of_toNat_eq
  rw [mask_class, build_code]
  have h1 := r.grpCode.isLt
  have h2 := r.clsCode.isLt
  omega

/-- **C126**: whatever the order, the listing of the objects holds each class once, it holds exactly the objects that
are found by their code, and no class of the tables is missing. -/
theorem C126_objects (t : List RawObj) (l : List Obj) (hl : (StdDB.init t).Objects l) :
    (l.map (·.code)).Nodup ∧
    (∀ o, o ∈ l ↔ (StdDB.init t).lookupObject o.code = some o) ∧
    (∀ c o, (StdDB.init t).lookupObject c = some o → o ∈ l) ∧
    ∀ r ∈ t, ∃ o ∈ l, o.code = r.build.code := by
  obtain ⟨h1, h2⟩ := map_entries t
  have hmem : ∀ o, o ∈ l ↔ ∃ e ∈ (StdDB.init t).objects, e.2 = o := fun o => by
    rw [hl.mem_iff, List.mem_map]
  have hfind : ∀ e ∈ (StdDB.init t).objects,
      (StdDB.init t).objects.find? (fun x => x.1 == e.1) = some e := by
    intro e he
    have hs : ((StdDB.init t).objects.find? (fun x => x.1 == e.1)).isSome := by
      rw [List.find?_isSome]; exact ⟨e, he, by simp⟩
    obtain ⟨x, hx⟩ := Option.isSome_iff_exists.mp hs
    rw [hx]
    have hx1 := List.mem_of_find?_eq_some hx
    have hx2 : x.1 = e.1 := by simpa using List.find?_some hx
    obtain ⟨i, hi, rfl⟩ := List.getElem_of_mem he
    obtain ⟨j, hj, rfl⟩ := List.getElem_of_mem hx1
    have : j = i :=
      (List.getElem_inj h1 (i := j) (j := i) (h₀ := by simpa [initManufactures] using hj)
        (h₁ := by simpa [initManufactures] using hi)).mp
        (by simpa [initManufactures] using hx2)
    subst this
    rfl
  have hback : ∀ c o, (StdDB.init t).lookupObject c = some o → o ∈ l := by
    intro c o h
    unfold StdDB.lookupObject at h
    obtain ⟨e, he, rfl⟩ := Option.map_eq_some_iff.mp h
    exact (hmem _).mpr ⟨e, List.mem_of_find?_eq_some he, rfl⟩
  refine ⟨?_, fun o => ⟨fun h => ?_, hback _ o⟩, hback, fun r hr => ?_⟩
  · refine (hl.map _).nodup_iff.mpr ?_
    rw [List.map_map]
    have : (StdDB.init t).objects.map ((·.code) ∘ (·.2)) = (StdDB.init t).objects.map (·.1) :=
      List.map_congr_left (fun e he => (h2 e he).1.symm)
    rw [this]
    exact h1
  · obtain ⟨e, he, rfl⟩ := (hmem o).mp h
    obtain ⟨k1, r, -, k2⟩ := h2 e he
    unfold StdDB.lookupObject
    rw [k2, build_mask, ← k2, ← k1, hfind e he]
    rfl
  · have hg := dbGet_init t r.build.code
    have hs : (t.reverse.find? (fun x => x.build.code == r.build.code)).isSome := by
      rw [List.find?_isSome]; exact ⟨r, List.mem_reverse.mpr hr, by simp⟩
    obtain ⟨x, hx⟩ := Option.isSome_iff_exists.mp hs
    rw [hx] at hg
    refine ⟨x.build, ?_, by simpa using List.find?_some hx⟩
    refine hback r.build.code _ ?_
    rw [lookupObject_eq, build_mask]
    exact hg

/-- **C126**: the listing of the objects of the library has the 57 classes of its tables. -/
theorem C126_classes (l : List Obj) (hl : stdDB.Objects l) :
    l.length = 57 ∧ ∀ o, o ∈ l ↔ ∃ r ∈ Mra.table, o = r.build := by
  have key : ∀ o, o ∈ l ↔ ∃ r ∈ Mra.table, o = r.build := by
    intro o
    rw [(C126_objects Mra.table l hl).2.1 o]
    show stdDB.lookupObject o.code = some o ↔ _
    rw [C26_lookup]
    constructor
    · rintro ⟨r, h1, -, h2⟩; exact ⟨r, h1, h2⟩
    · rintro ⟨r, h1, rfl⟩
      refine ⟨r, h1, ?_, rfl⟩
      unfold classOf
      rw [build_code]
      have a1 := r.grpCode.isLt
      have a2 := r.clsCode.isLt
      rw [Prod.mk.injEq]
      constructor <;> omega
  refine ⟨?_, key⟩
  have hcodes : (Mra.table.map (fun r => r.build.code)).Nodup := by decide +kernel
  have hp : (l.map (·.code)).Perm (Mra.table.map (fun r => r.build.code)) := by
    rw [List.perm_ext_iff_of_nodup (C126_objects Mra.table l hl).1 hcodes]
    intro c
    simp only [List.mem_map]
    constructor
    · rintro ⟨o, ho, rfl⟩
      obtain ⟨r, hr, rfl⟩ := (key o).mp ho
      exact ⟨r, hr, rfl⟩
    · rintro ⟨r, hr, rfl⟩
      exact ⟨r.build, (key _).mpr ⟨r, hr, rfl⟩, rfl⟩
  have := hp.length_eq
  rw [List.length_map, List.length_map, C26_codes.2] at this
  exact this

example : stdDB.Objects (stdDB.objects.map (·.2)) ∧ stdDB.Objects (stdDB.objects.map (·.2)).reverse :=
  ⟨List.Perm.refl _, List.reverse_perm _⟩

/-- **C126**: the same for the manufacturers: every order of the listing holds each code once, and exactly those
manufacturers that are found by their code. -/
theorem C126_manufacturers (t : List Manufacture) (l : List Manufacture) (hl : Manufactures (initManufactures t) l) :
    (l.map (·.code)).Nodup ∧ (∀ m, m ∈ l ↔ lookupManufacture t m.code = some m) ∧
    ∀ m ∈ t, ∃ m' ∈ l, m'.code = m.code := by
  have hget : ∀ (u : List Manufacture) (a : List (Nat × Manufacture)) (c : Nat),
      ((u.foldl addManufacture a).find? (fun e => e.1 == c)).map (·.2)
        = (u.reverse.find? (fun m => m.code == c)).or ((a.find? (fun e => e.1 == c)).map (·.2)) := by
    intro u
    induction u with
    | nil => intro a c; rfl
    | cons m u ih =>
      intro a c
      rw [List.foldl_cons, ih, List.reverse_cons, List.find?_append]
      cases u.reverse.find? (fun x => x.code == c) with
      | some q => rfl
      | none =>
        unfold addManufacture
        rw [List.find?_cons]
        by_cases h : m.code = c
        · simp [h]
        · simp only [beq_eq_false_iff_ne.mpr h, List.find?_filter, List.find?_cons, List.find?_nil, Option.none_or,
            Option.or_none]
          congr 2
          funext e
          by_cases he : e.1 = c
          · have : c ≠ m.code := fun x => h x.symm
            simp [he, this]
          · simp [he]
  have hent : ∀ (u : List Manufacture) (a : List (Nat × Manufacture)), (a.map (·.1)).Nodup → (∀ e ∈ a, e.1 = e.2.code) →
      ((u.foldl addManufacture a).map (·.1)).Nodup ∧ ∀ e ∈ u.foldl addManufacture a, e.1 = e.2.code := by
    intro u
    induction u with
    | nil => exact fun a h1 h2 => ⟨h1, h2⟩
    | cons m u ih =>
      intro a h1 h2
      refine ih (addManufacture a m) ?_ ?_
      · unfold addManufacture
        rw [List.map_cons, List.nodup_cons]
        constructor
        · intro hm
          obtain ⟨e, he, hx⟩ := List.mem_map.mp hm
          have := (List.mem_filter.mp he).2
          simp only [decide_eq_true_eq] at this
          exact this hx
        · exact (List.filter_sublist.map _).nodup h1
      · intro e he
        rcases List.mem_cons.mp he with rfl | he
        · rfl
        · exact h2 e (List.mem_filter.mp he).1
  obtain ⟨h1, h2⟩ := hent t [] List.nodup_nil (fun e h => absurd h List.not_mem_nil)
  have hlook : ∀ c, ((initManufactures t).find? (fun e => e.1 == c)).map (·.2) = lookupManufacture t c := by
    intro c
    have := hget t [] c
    simpa [lookupManufacture, initManufactures] using this
  have hmem : ∀ m, m ∈ l ↔ ∃ e ∈ initManufactures t, e.2 = m := fun o => by
    rw [hl.mem_iff, List.mem_map]
  have hback : ∀ c m, lookupManufacture t c = some m → m ∈ l := by
    intro c m h
    rw [← hlook] at h
    obtain ⟨e, he, rfl⟩ := Option.map_eq_some_iff.mp h
    exact (hmem _).mpr ⟨e, List.mem_of_find?_eq_some he, rfl⟩
  refine ⟨?_, fun m => ⟨fun h => ?_, hback _ m⟩, fun m hm => ?_⟩
  · refine (hl.map _).nodup_iff.mpr ?_
    rw [List.map_map]
    have : (initManufactures t).map ((·.code) ∘ (·.2)) = (initManufactures t).map (·.1) :=
      List.map_congr_left (fun e he => (h2 e he).symm)
    rw [this]
    exact h1
  · obtain ⟨e, he, rfl⟩ := (hmem m).mp h
    rw [← hlook, ← h2 e he]
    have hs : ((initManufactures t).find? (fun x => x.1 == e.1)).isSome := by
      rw [List.find?_isSome]; exact ⟨e, he, by simp⟩
    obtain ⟨x, hx⟩ := Option.isSome_iff_exists.mp hs
    rw [hx]
    have hx1 := List.mem_of_find?_eq_some hx
    have hx2 : x.1 = e.1 := by simpa using List.find?_some hx
    obtain ⟨i, hi, rfl⟩ := List.getElem_of_mem he
    obtain ⟨j, hj, rfl⟩ := List.getElem_of_mem hx1
    have : j = i :=
      (List.getElem_inj h1 (i := j) (j := i) (h₀ := by simpa [initManufactures] using hj)
        (h₁ := by simpa [initManufactures] using hi)).mp
        (by simpa [initManufactures] using hx2)
    subst this
    rfl
  · have hs : (lookupManufacture t m.code).isSome := by
      unfold lookupManufacture
      rw [List.find?_isSome]; exact ⟨m, List.mem_reverse.mpr hm, by simp⟩
    obtain ⟨x, hx⟩ := Option.isSome_iff_exists.mp hs
    exact ⟨x, hback _ x hx, by simpa using List.find?_some hx⟩

example : Manufactures (initManufactures [⟨1, "a"⟩, ⟨2, "b"⟩, ⟨1, "c"⟩]) [⟨2, "b"⟩, ⟨1, "c"⟩] := by
  exact List.Perm.swap _ _ _

end Verif.Props
