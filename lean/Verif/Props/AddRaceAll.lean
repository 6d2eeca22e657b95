import Verif.Props.AddRace

/-!
# C170: what every schedule of goroutines that add devices leaves
-/

namespace Verif.Props
open Verif Model Spec Lemmas

variable {room : Nat → Nat → Nat}

/-! ## Specification -/

/-- The devices the goroutines are going to add. -/
def plannedIn (p : JoinPc) : List Nat :=
  match p with
  | .idle todo => todo
  | .put d _ todo | .store d _ todo | .man d todo | .parent d todo => d :: todo
  | .classes todo | .count _ todo | .setCount _ _ todo | .setClassCount _ todo | .list _ todo | .setD5 _ _ todo
  | .setD6 _ _ todo | .setClasses _ todo => todo

/-- Goroutines that have made no call yet are about to add devices to the node, each device once, none of which it has. -/
structure Starts (s : JoinSt) (plan : List Nat) : Prop where
  start : ∀ p ∈ s.adders, ∃ todo, p = .idle todo
  all : s.adders.flatMap plannedIn = plan
  once : plan.Nodup
  new : ∀ d ∈ plan, d ∉ s.listed
  old : s.listed.Nodup
  inside : Inside s.cells s.field
  noNil : s.cells.shows s.field = s.listed.map some

/-- What the node profile is to report under a code when the node is as in `u` (compare `DescribesNode`). -/
def ReportAt (u : JoinSt) (c : Byte) (x : Bytes) : Prop :=
  ∃ cs : List Bytes, cs.Nodup ∧ (∀ k, k ∈ cs ↔ ∃ o ∈ u.listed.map u.devs ++ [u.prof], k = o.codes.take 2) ∧
    (c = 0xD3 ∧ x = beBytes 3 u.listed.length ∨
     c = 0xD4 ∧ x = beBytes 2 cs.length ∨
     (c = 0xD5 ∨ c = 0xD6) ∧
       x = BitVec.ofNat 8 (min 255 u.listed.length) :: (u.listed.map (fun d => (u.devs d).codes)).flatten ∨
     c = 0xD7 ∧ x = BitVec.ofNat 8 (min 255 cs.length) :: cs.flatten)

/-! ## Lists -/

/-- The devices whose pointer is not yet in an array. -/
def unput (p : JoinPc) : List Nat :=
  match p with
  | .put d _ todo => d :: todo
  | .idle todo | .store _ _ todo | .man _ todo | .parent _ todo | .classes todo | .count _ todo | .setCount _ _ todo
  | .setClassCount _ todo | .list _ todo | .setD5 _ _ todo | .setD6 _ _ todo | .setClasses _ todo => todo

/-- The devices whose manufacturer code is not yet set. -/
def unmade (p : JoinPc) : List Nat :=
  match p with
  | .put d _ todo | .store d _ todo | .man d todo => d :: todo
  | .idle todo | .parent _ todo | .classes todo | .count _ todo | .setCount _ _ todo | .setClassCount _ todo
  | .list _ todo | .setD5 _ _ todo | .setD6 _ _ todo | .setClasses _ todo => todo

/-- The slice a goroutine has in hand. -/
def viewOf (p : JoinPc) : List View :=
  match p with
  | .put _ v _ | .store _ v _ => [v]
  | _ => []

/-- The slices in use. -/
def views (s : JoinSt) : List View := s.field :: s.adders.flatMap viewOf

theorem split_at {l : List JoinPc} {i : Nat} {p : JoinPc} (h : l[i]? = some p) :
    ∃ a b, l = a ++ p :: b ∧ ∀ q, l.set i q = a ++ q :: b := by
  obtain ⟨hlt, hp⟩ := List.getElem?_eq_some_iff.mp h
  refine ⟨l.take i, l.drop (i + 1), ?_, fun q => ?_⟩
  · rw [← hp, List.getElem_cons_drop, List.take_append_drop]
  · exact List.set_eq_take_append_cons_drop.trans (if_pos hlt)

theorem put_same {α : Type} (h : Cells α) (v w : View) (k : Nat) (x : α) (hf : Inside h w)
    (ha : w.arr = v.arr) (ho : w.off = v.off) :
    (h.put v k x).shows w = (h.shows w).set k (some x) := by
  have e : h.put v k x = h.put w k x := by unfold Cells.put; rw [ha, ho]
  rw [e]
  by_cases hk : k < w.len
  · exact put_set h w k x hf hk
  · rw [put_shows h w w k x (fun _ => by omega), List.set_eq_of_length_le]
    have : (h.shows w).length ≤ w.len := by unfold Cells.shows; rw [List.length_take]; omega
    omega

theorem set_fresh {l : List Nat} (h : l.Nodup) {d : Nat} (hd : d ∉ l) (k : Nat) : (l.set k d).Nodup := by
  induction l generalizing k with
  | nil => exact h
  | cons x l ih =>
    obtain ⟨h1, h2⟩ := List.nodup_cons.mp h
    have h3 : d ≠ x := fun e => hd (e ▸ List.mem_cons_self)
    have h4 : d ∉ l := fun h => hd (List.mem_cons_of_mem _ h)
    match k with
    | 0 => exact List.nodup_cons.mpr ⟨h4, h2⟩
    | k + 1 =>
      refine List.nodup_cons.mpr ⟨fun hx => ?_, ih h2 h4 k⟩
      rcases List.mem_or_eq_of_mem_set hx with hx | hx
      · exact h1 hx
      · exact h3 hx.symm

theorem shows_len {α : Type} {h : Cells α} {v : View} (hf : Inside h v) : (h.shows v).length = v.len := by
  unfold Cells.shows
  rw [List.length_take, List.length_drop]
  have h1 := hf.2.1
  have h2 := hf.2.2
  omega

/-- The slices in use. -/
structure Grown (s0 : JoinSt) (plan : List Nat) (s : JoinSt) : Prop where
  more : s0.field.arr < s.cells.length
  fits : ∀ v ∈ views s, Inside s.cells v
  offs : ∀ v ∈ views s, v.off = if v.arr = s0.field.arr then s0.field.off else 0
  shown : ∀ v ∈ views s, ∃ xs, s.cells.shows v = (s0.listed ++ xs).map some ∧ (s0.listed ++ xs).Nodup ∧
    ∀ d ∈ xs, d ∈ plan ∧ d ∉ s.adders.flatMap unput
  once : (s.adders.flatMap unput).Nodup
  coming : ∀ d ∈ s.adders.flatMap unput, d ∈ plan

theorem grown_same {s0 s s' : JoinSt} {plan : List Nat} (g : Grown s0 plan s) (hc : s'.cells = s.cells)
    (hv : ∀ v ∈ views s', v ∈ views s) (hu : s'.adders.flatMap unput = s.adders.flatMap unput) : Grown s0 plan s' := by
  refine ⟨hc ▸ g.more, fun v h => hc ▸ g.fits v (hv v h), fun v h => g.offs v (hv v h), fun v h => ?_, hu ▸ g.once,
    hu ▸ g.coming⟩
  rw [hu, hc]
  exact g.shown v (hv v h)

theorem grown_move {s0 s s' : JoinSt} {plan : List Nat} (g : Grown s0 plan s) {i : Nat} {p q : JoinPc}
    (hp : s.adders[i]? = some p) (hs : s'.adders = s.adders.set i q) (hc : s'.cells = s.cells)
    (hf : s'.field ∈ views s) (hv : ∀ v ∈ viewOf q, v ∈ views s) (hu : unput q = unput p) : Grown s0 plan s' := by
  obtain ⟨a, b, e1, e2⟩ := split_at hp
  refine grown_same g hc (fun v h => ?_) ?_
  · rcases List.mem_cons.mp h with rfl | h
    · exact hf
    · rw [hs, e2, List.flatMap_append, List.flatMap_cons] at h
      rcases List.mem_append.mp h with h | h
      · refine List.mem_cons_of_mem _ ?_
        rw [e1, List.flatMap_append]
        exact List.mem_append_left _ h
      · rcases List.mem_append.mp h with h | h
        · exact hv v h
        · refine List.mem_cons_of_mem _ ?_
          rw [e1, List.flatMap_append, List.flatMap_cons]
          exact List.mem_append_right _ (List.mem_append_right _ h)
  · rw [hs, e2, List.flatMap_append, List.flatMap_cons, hu]
    conv => rhs; rw [e1, List.flatMap_append, List.flatMap_cons]

theorem view_mem {s : JoinSt} {i : Nat} {p : JoinPc} (hp : s.adders[i]? = some p) {v : View} (h : v ∈ viewOf p) :
    v ∈ views s :=
  List.mem_cons_of_mem _ (List.mem_flatMap.mpr ⟨p, List.mem_of_getElem? hp, h⟩)

theorem grown_step {s0 s : JoinSt} {plan : List Nat} (hnew : ∀ d ∈ plan, d ∉ s0.listed) (g : Grown s0 plan s) (i : Nat) :
    Grown s0 plan (s.step room i) := by
  unfold JoinSt.step
  cases hp : s.adders[i]? with
  | none => exact g
  | some p =>
    dsimp only
    have none_ : ∀ v ∈ ([] : List View), v ∈ views s := fun v h => by cases h
    have field_ : s.field ∈ views s := List.mem_cons_self
    cases p with
    | idle todo =>
      cases todo with
      | nil => exact g
      | cons d todo =>
        refine grown_move (q := .put d s.field todo) g hp rfl rfl field_ (fun v h => ?_) rfl
        rw [List.mem_singleton.mp h]; exact field_
    | store d v todo =>
      exact grown_move (q := .man d todo) g hp rfl rfl (view_mem hp List.mem_cons_self) none_ rfl
    | man d todo => exact grown_move (q := .parent d todo) g hp rfl rfl field_ none_ rfl
    | parent d todo => exact grown_move (q := .classes todo) g hp rfl rfl field_ none_ rfl
    | classes todo => exact grown_move (q := .count s.classesNow todo) g hp rfl rfl field_ none_ rfl
    | count cs todo => exact grown_move (q := .setCount cs s.listed.length todo) g hp rfl rfl field_ none_ rfl
    | setCount cs k todo => exact grown_move (q := .setClassCount cs todo) g hp rfl rfl field_ none_ rfl
    | setClassCount cs todo => exact grown_move (q := .list cs todo) g hp rfl rfl field_ none_ rfl
    | list cs todo =>
      exact grown_move (q := .setD5 cs (Obj.instanceListData (s.listed.map s.devs)) todo) g hp rfl rfl field_ none_ rfl
    | setD5 cs l todo =>
      unfold JoinSt.act
      dsimp only
      split
      · exact grown_move (q := .setD6 cs l todo) g hp rfl rfl field_ none_ rfl
      · exact grown_move (q := .setClasses cs todo) g hp rfl rfl field_ none_ rfl
    | setD6 cs l todo => exact grown_move (q := .setClasses cs todo) g hp rfl rfl field_ none_ rfl
    | setClasses cs todo => exact grown_move (q := .idle todo) g hp rfl rfl field_ none_ rfl
    | put d v todo =>
      have hv : v ∈ views s := view_mem hp List.mem_cons_self
      have hin := g.fits v hv
      obtain ⟨a, b, e1, e2⟩ := split_at hp
      have hu0 : s.adders.flatMap unput = a.flatMap unput ++ (d :: todo ++ b.flatMap unput) := by
        rw [e1, List.flatMap_append, List.flatMap_cons]; rfl
      have hu1 : (JoinSt.act room s i (.put d v todo)).adders.flatMap unput = a.flatMap unput ++ (todo ++ b.flatMap unput) := by
        show (s.adders.set i _).flatMap unput = _
        rw [e2, List.flatMap_append, List.flatMap_cons]; rfl
      have hsub : ∀ x ∈ a.flatMap unput ++ (todo ++ b.flatMap unput), x ∈ s.adders.flatMap unput := by
        intro x hx
        rw [hu0]
        simp only [List.mem_append, List.mem_cons, List.cons_append] at hx ⊢
        rcases hx with h | h | h
        · exact .inl h
        · exact .inr (.inr (.inl h))
        · exact .inr (.inr (.inr h))
      have hond := g.once
      rw [hu0] at hond
      have hperm : (d :: (a.flatMap unput ++ (todo ++ b.flatMap unput))).Nodup :=
        (List.perm_middle.nodup_iff).mp hond
      obtain ⟨hdn, hnd⟩ := List.nodup_cons.mp hperm
      have hdu : d ∈ s.adders.flatMap unput := by rw [hu0]; simp
      have hdp : d ∈ plan := g.coming d hdu
      have hvs : ∀ w ∈ views (JoinSt.act room s i (.put d v todo)), w = (s.cells.append room v d).2 ∨ w ∈ views s := by
        intro w hw
        rcases List.mem_cons.mp hw with rfl | hw
        · exact .inr field_
        · change w ∈ (s.adders.set i (.store d (s.cells.append room v d).2 todo)).flatMap viewOf at hw
          rw [e2, List.flatMap_append, List.flatMap_cons] at hw
          rcases List.mem_append.mp hw with h | h
          · right
            refine List.mem_cons_of_mem _ ?_
            rw [e1, List.flatMap_append]
            exact List.mem_append_left _ h
          · rcases List.mem_append.mp h with h | h
            · exact .inl (List.mem_singleton.mp h)
            · right
              refine List.mem_cons_of_mem _ ?_
              rw [e1, List.flatMap_append, List.flatMap_cons]
              exact List.mem_append_right _ (List.mem_append_right _ h)
      have hfresh : ∀ xs : List Nat, (∀ x ∈ xs, x ∈ plan ∧ x ∉ s.adders.flatMap unput) → d ∉ s0.listed ++ xs := by
        intro xs hxs h
        rcases List.mem_append.mp h with h | h
        · exact hnew d hdp h
        · exact (hxs d h).2 hdu
      have hcells : (JoinSt.act room s i (.put d v todo)).cells = (s.cells.append room v d).1 := rfl
      refine ⟨?_, fun w hw => ?_, fun w hw => ?_, fun w hw => ?_, hu1 ▸ hnd, fun x hx => ?_⟩
      · have h0 := g.more
        rw [hcells]
        unfold Cells.append
        split
        · rw [put_length]; exact h0
        · rw [make_length]; omega
      · rw [hcells]
        rcases hvs w hw with rfl | h
        · exact append_fits _ _ _ hin
        · exact append_keeps _ _ _ _ (g.fits w h)
      · rcases hvs w hw with rfl | h
        · have h0 := g.offs v hv
          have h1 := g.more
          unfold Cells.append
          split
          · exact h0
          · show (0 : Nat) = if s.cells.length = s0.field.arr then _ else 0
            rw [if_neg (by omega)]
        · exact g.offs w h
      · rw [hcells, hu1]
        rcases hvs w hw with rfl | h
        · obtain ⟨xs, h1, h2, h3⟩ := g.shown v hv
          refine ⟨xs ++ [d], ?_, ?_, fun x hx => ?_⟩
          · rw [append_shown _ _ _ hin, h1, ← List.append_assoc]; simp
          · rw [← List.append_assoc]
            refine List.nodup_append.mpr ⟨h2, by simp, ?_⟩
            rintro x hx y hy rfl
            rw [List.mem_singleton.mp hy] at hx
            exact hfresh xs h3 hx
          · rcases List.mem_append.mp hx with hx | hx
            · exact ⟨(h3 x hx).1, fun h => (h3 x hx).2 (hsub x h)⟩
            · rw [List.mem_singleton.mp hx]; exact ⟨hdp, hdn⟩
        · obtain ⟨xs, h1, h2, h3⟩ := g.shown w h
          have keep : ∃ xs', s.cells.shows w = (s0.listed ++ xs').map some ∧ (s0.listed ++ xs').Nodup ∧
              ∀ x ∈ xs', x ∈ plan ∧ x ∉ a.flatMap unput ++ (todo ++ b.flatMap unput) :=
            ⟨xs, h1, h2, fun x hx => ⟨(h3 x hx).1, fun h => (h3 x hx).2 (hsub x h)⟩⟩
          unfold Cells.append
          split
          · by_cases ha : w.arr = v.arr
            · have ho : w.off = v.off := by rw [g.offs w h, g.offs v hv, ha]
              obtain ⟨ys, k1, -, -⟩ := g.shown v hv
              have hlen : s0.listed.length ≤ v.len := by
                rw [← shows_len hin, k1, List.length_map, List.length_append]; omega
              refine ⟨xs.set (v.len - s0.listed.length) d, ?_, ?_, fun x hx => ?_⟩
              · rw [put_same _ _ _ _ _ (g.fits w h) ha ho, h1, ← List.map_set, List.set_append_right _ _ hlen]
              · rw [← List.set_append_right _ _ hlen]
                exact set_fresh h2 (hfresh xs h3) _
              · rcases List.mem_or_eq_of_mem_set hx with hx | rfl
                · exact ⟨(h3 x hx).1, fun h => (h3 x hx).2 (hsub x h)⟩
                · exact ⟨hdp, hdn⟩
            · rw [put_shows _ _ _ _ _ (fun e => absurd e ha)]
              exact keep
          · rw [make_shows _ _ _ _ (g.fits w h).1]
            exact keep
      · rw [hu1] at hx
        exact g.coming x (hsub x hx)

theorem grown_run {s0 : JoinSt} {plan : List Nat} (hnew : ∀ d ∈ plan, d ∉ s0.listed) (is : List Nat) (s : JoinSt)
    (g : Grown s0 plan s) : Grown s0 plan (s.run room is) := by
  induction is generalizing s with
  | nil => exact g
  | cons i is ih => exact ih _ (grown_step hnew g i)

theorem idle_lists {s : JoinSt} {plan : List Nat} (h : Starts s plan) :
    s.adders.flatMap unput = plan ∧ s.adders.flatMap unmade = plan ∧ s.adders.flatMap viewOf = [] := by
  rw [← h.all]
  have : ∀ p ∈ s.adders, unput p = plannedIn p ∧ unmade p = plannedIn p ∧ viewOf p = [] := by
    intro p hp
    obtain ⟨todo, rfl⟩ := h.start p hp
    exact ⟨rfl, rfl, rfl⟩
  refine ⟨?_, ?_, ?_⟩
  · rw [List.flatMap_def, List.flatMap_def, List.map_congr_left (fun p hp => (this p hp).1)]
  · rw [List.flatMap_def, List.flatMap_def, List.map_congr_left (fun p hp => (this p hp).2.1)]
  · exact List.flatMap_eq_nil_iff.mpr (fun p hp => (this p hp).2.2)

theorem grown_start {s : JoinSt} {plan : List Nat} (h : Starts s plan) : Grown s plan s := by
  obtain ⟨e1, -, e3⟩ := idle_lists h
  have hv : ∀ v ∈ views s, v = s.field := by
    intro v hv
    unfold views at hv
    rw [e3] at hv
    exact List.mem_singleton.mp hv
  refine ⟨h.inside.1, fun v hm => hv v hm ▸ h.inside, fun v hm => ?_, fun v hm => ⟨[], ?_, ?_, fun d hd => by cases hd⟩, ?_, ?_⟩
  · rw [hv v hm, if_pos rfl]
  · rw [hv v hm, List.append_nil]; exact h.noNil
  · rw [List.append_nil]; exact h.old
  · rw [e1]; exact h.once
  · rw [e1]; exact fun d hd => hd

/-- C170, for every schedule: the node keeps the devices it had, in their order; the others it has are among those the
goroutines add; it has no device twice and no nil. -/
theorem C170_listed_partial {s : JoinSt} {plan : List Nat} (h : Starts s plan) (is : List Nat) :
    let u := s.run room is
    ∃ xs, u.cells.shows u.field = (s.listed ++ xs).map some ∧ u.listed = s.listed ++ xs ∧ (s.listed ++ xs).Nodup ∧
      ∀ d ∈ xs, d ∈ plan := by
  intro u
  obtain ⟨xs, h1, h2, h3⟩ := (grown_run (room := room) h.new is s (grown_start h)).shown _ List.mem_cons_self
  refine ⟨xs, h1, ?_, h2, fun d hd => (h3 d hd).1⟩
  show (u.cells.shows u.field).filterMap id = _
  rw [h1, List.filterMap_map]
  exact List.filterMap_some

/-! ## Devices -/

theorem unmade_sub {p : JoinPc} {x : Nat} (h : x ∈ unmade p) : x ∈ plannedIn p := by
  cases p with
  | parent d todo => exact List.mem_cons_of_mem _ h
  | _ => exact h

/-- Which devices have their manufacturer code and their node. -/
structure Made (s0 : JoinSt) (plan : List Nat) (s : JoinSt) : Prop where
  man : s.man = s0.man
  once : (s.adders.flatMap plannedIn).Nodup
  coming : ∀ d ∈ s.adders.flatMap plannedIn, d ∈ plan
  devs : ∀ x, s.devs x = if x ∈ plan ∧ x ∉ s.adders.flatMap unmade then ((s0.devs x).setManufacturerCode s0.man).1
    else s0.devs x
  joined : ∀ x, s.joined x = if x ∈ plan ∧ x ∉ s.adders.flatMap plannedIn then true else s0.joined x

theorem made_same {s0 s s' : JoinSt} {plan : List Nat} (g : Made s0 plan s) {i : Nat} {p q : JoinPc}
    (hp : s.adders[i]? = some p) (hs : s'.adders = s.adders.set i q) (hm : s'.man = s.man) (hd : s'.devs = s.devs)
    (hj : s'.joined = s.joined) (hu : unmade q = unmade p) (hl : plannedIn q = plannedIn p) : Made s0 plan s' := by
  obtain ⟨a, b, e1, e2⟩ := split_at hp
  have f1 : s'.adders.flatMap unmade = s.adders.flatMap unmade := by
    rw [hs, e2, List.flatMap_append, List.flatMap_cons, hu]
    conv => rhs; rw [e1, List.flatMap_append, List.flatMap_cons]
  have f2 : s'.adders.flatMap plannedIn = s.adders.flatMap plannedIn := by
    rw [hs, e2, List.flatMap_append, List.flatMap_cons, hl]
    conv => rhs; rw [e1, List.flatMap_append, List.flatMap_cons]
  exact ⟨hm.trans g.man, f2 ▸ g.once, f2 ▸ g.coming, fun x => by rw [hd, f1]; exact g.devs x,
    fun x => by rw [hj, f2]; exact g.joined x⟩

theorem joinMade_step {s0 s : JoinSt} {plan : List Nat} (g : Made s0 plan s) (i : Nat) : Made s0 plan (s.step room i) := by
  unfold JoinSt.step
  cases hp : s.adders[i]? with
  | none => exact g
  | some p =>
    dsimp only
    cases p with
    | idle todo =>
      cases todo with
      | nil => exact g
      | cons d todo => exact made_same (q := .put d s.field todo) g hp rfl rfl rfl rfl rfl rfl
    | put d v todo => exact made_same (q := .store d (s.cells.append room v d).2 todo) g hp rfl rfl rfl rfl rfl rfl
    | store d v todo => exact made_same (q := .man d todo) g hp rfl rfl rfl rfl rfl rfl
    | classes todo => exact made_same (q := .count s.classesNow todo) g hp rfl rfl rfl rfl rfl rfl
    | count cs todo => exact made_same (q := .setCount cs s.listed.length todo) g hp rfl rfl rfl rfl rfl rfl
    | setCount cs k todo => exact made_same (q := .setClassCount cs todo) g hp rfl rfl rfl rfl rfl rfl
    | setClassCount cs todo => exact made_same (q := .list cs todo) g hp rfl rfl rfl rfl rfl rfl
    | list cs todo =>
      exact made_same (q := .setD5 cs (Obj.instanceListData (s.listed.map s.devs)) todo) g hp rfl rfl rfl rfl rfl rfl
    | setD5 cs l todo =>
      unfold JoinSt.act
      dsimp only
      split
      · exact made_same (q := .setD6 cs l todo) g hp rfl rfl rfl rfl rfl rfl
      · exact made_same (q := .setClasses cs todo) g hp rfl rfl rfl rfl rfl rfl
    | setD6 cs l todo => exact made_same (q := .setClasses cs todo) g hp rfl rfl rfl rfl rfl rfl
    | setClasses cs todo => exact made_same (q := .idle todo) g hp rfl rfl rfl rfl rfl rfl
    | man d todo =>
      obtain ⟨a, b, e1, e2⟩ := split_at hp
      have hl0 : s.adders.flatMap plannedIn = a.flatMap plannedIn ++ (d :: (todo ++ b.flatMap plannedIn)) := by
        rw [e1, List.flatMap_append, List.flatMap_cons]; rfl
      have hl1 : (JoinSt.act room s i (.man d todo)).adders.flatMap plannedIn = s.adders.flatMap plannedIn := by
        rw [hl0]
        show (s.adders.set i _).flatMap plannedIn = _
        rw [e2, List.flatMap_append, List.flatMap_cons]; rfl
      have hm0 : s.adders.flatMap unmade = a.flatMap unmade ++ (d :: (todo ++ b.flatMap unmade)) := by
        rw [e1, List.flatMap_append, List.flatMap_cons]; rfl
      have hm1 : (JoinSt.act room s i (.man d todo)).adders.flatMap unmade = a.flatMap unmade ++ (todo ++ b.flatMap unmade) := by
        show (s.adders.set i _).flatMap unmade = _
        rw [e2, List.flatMap_append, List.flatMap_cons]; rfl
      have hnd := g.once
      rw [hl0] at hnd
      have hd := (List.nodup_cons.mp ((List.perm_middle.nodup_iff).mp hnd)).1
      have hd' : d ∉ a.flatMap unmade ++ (todo ++ b.flatMap unmade) := by
        intro h
        apply hd
        simp only [List.mem_append, List.mem_flatMap] at h ⊢
        rcases h with ⟨p, h1, h2⟩ | h | ⟨p, h1, h2⟩
        · exact .inl ⟨p, h1, unmade_sub h2⟩
        · exact .inr (.inl h)
        · exact .inr (.inr ⟨p, h1, unmade_sub h2⟩)
      have hdp : d ∈ plan := g.coming d (by rw [hl0]; simp)
      refine ⟨g.man, hl1 ▸ g.once, hl1 ▸ g.coming, fun x => ?_, fun x => by rw [hl1]; exact g.joined x⟩
      rw [hm1]
      show (if x = d then ((s.devs d).setManufacturerCode s.man).1 else s.devs x) = _
      by_cases hx : x = d
      · subst hx
        rw [if_pos rfl, if_pos ⟨hdp, hd'⟩, g.devs x, if_neg (by rw [hm0]; simp), g.man]
      · rw [if_neg hx, g.devs x]
        have : x ∈ s.adders.flatMap unmade ↔ x ∈ a.flatMap unmade ++ (todo ++ b.flatMap unmade) := by
          rw [hm0]; simp only [List.mem_append, List.mem_cons, hx, false_or]
        simp only [this]
    | parent d todo =>
      obtain ⟨a, b, e1, e2⟩ := split_at hp
      have hl0 : s.adders.flatMap plannedIn = a.flatMap plannedIn ++ (d :: (todo ++ b.flatMap plannedIn)) := by
        rw [e1, List.flatMap_append, List.flatMap_cons]; rfl
      have hl1 : (JoinSt.act room s i (.parent d todo)).adders.flatMap plannedIn
          = a.flatMap plannedIn ++ (todo ++ b.flatMap plannedIn) := by
        show (s.adders.set i _).flatMap plannedIn = _
        rw [e2, List.flatMap_append, List.flatMap_cons]; rfl
      have hm1 : (JoinSt.act room s i (.parent d todo)).adders.flatMap unmade = s.adders.flatMap unmade := by
        show (s.adders.set i _).flatMap unmade = _
        rw [e2, List.flatMap_append, List.flatMap_cons]
        conv => rhs; rw [e1, List.flatMap_append, List.flatMap_cons]
        rfl
      have hnd := g.once
      rw [hl0] at hnd
      obtain ⟨hd, hnd'⟩ := List.nodup_cons.mp ((List.perm_middle.nodup_iff).mp hnd)
      have hdp : d ∈ plan := g.coming d (by rw [hl0]; simp)
      refine ⟨g.man, hl1 ▸ hnd', fun x hx => g.coming x ?_, fun x => by rw [hm1]; exact g.devs x, fun x => ?_⟩
      · rw [hl1] at hx
        rw [hl0]
        exact List.perm_middle.mem_iff.mpr (List.mem_cons_of_mem _ hx)
      · rw [hl1]
        show (if x = d then true else s.joined x) = _
        by_cases hx : x = d
        · subst hx
          rw [if_pos rfl, if_pos ⟨hdp, hd⟩]
        · rw [if_neg hx, g.joined x]
          have : x ∈ s.adders.flatMap plannedIn ↔ x ∈ a.flatMap plannedIn ++ (todo ++ b.flatMap plannedIn) := by
            rw [hl0]; simp only [List.mem_append, List.mem_cons, hx, false_or]
          simp only [this]

theorem made_run {s0 : JoinSt} {plan : List Nat} (is : List Nat) (s : JoinSt) (g : Made s0 plan s) :
    Made s0 plan (s.run room is) := by
  induction is generalizing s with
  | nil => exact g
  | cons i is ih => exact ih _ (joinMade_step g i)

theorem made_start {s : JoinSt} {plan : List Nat} (h : Starts s plan) : Made s plan s := by
  obtain ⟨-, e2, -⟩ := idle_lists h
  refine ⟨rfl, h.all ▸ h.once, fun d hd => h.all ▸ hd, fun x => ?_, fun x => ?_⟩
  · rw [e2, if_neg (fun h => h.2 h.1)]
  · rw [h.all, if_neg (fun h => h.2 h.1)]

/-- C170, for every schedule: when all calls have returned, each device that was added has the manufacturer code of the
node and its node, also one that the node does not have; the other devices are as they were. -/
theorem C170_devices_partial {s : JoinSt} {plan : List Nat} (h : Starts s plan) (is : List Nat)
    (hb : AllBack (s.run room is)) (d : Nat) :
    (d ∈ plan → (s.run room is).devs d = ((s.devs d).setManufacturerCode s.man).1 ∧ (s.run room is).joined d = true) ∧
    (d ∉ plan → (s.run room is).devs d = s.devs d ∧ (s.run room is).joined d = s.joined d) := by
  have g := made_run (room := room) is s (made_start h)
  have e1 : (s.run room is).adders.flatMap unmade = [] := List.flatMap_eq_nil_iff.mpr (fun p hp => by rw [hb p hp]; rfl)
  have e2 : (s.run room is).adders.flatMap plannedIn = [] := List.flatMap_eq_nil_iff.mpr (fun p hp => by rw [hb p hp]; rfl)
  have g1 := g.devs d
  have g2 := g.joined d
  rw [e1] at g1
  rw [e2] at g2
  refine ⟨fun hd => ?_, fun hd => ?_⟩
  · rw [if_pos ⟨hd, by simp⟩] at g1 g2
    exact ⟨g1, g2⟩
  · rw [if_neg (fun h => hd h.1)] at g1 g2
    exact ⟨g1, g2⟩

/-! ## The node profile -/

/-- What a goroutine has read is what was to be read in a state seen before. -/
def ReadBefore (Seen : JoinSt → Prop) : JoinPc → Prop
  | .count cs _ | .setClassCount cs _ | .list cs _ | .setClasses cs _ => ∃ u, Seen u ∧ cs = u.classesNow
  | .setCount cs k _ => (∃ u, Seen u ∧ cs = u.classesNow) ∧ ∃ u, Seen u ∧ k = u.listed.length
  | .setD5 cs l _ | .setD6 cs l _ =>
    (∃ u, Seen u ∧ cs = u.classesNow) ∧ ∃ u, Seen u ∧ l = Obj.instanceListData (u.listed.map u.devs)
  | _ => True

/-- What is written under a code when the node is in state `u`. -/
def wouldWrite (u : JoinSt) (c : Byte) : Bytes :=
  if c = 0xD3 then EProp.integerData (BitVec.ofNat 64 u.listed.length) 3
  else if c = 0xD4 then EProp.integerData (BitVec.ofNat 64 u.classesNow.length) 2
  else if c = 0xD7 then Obj.classListData u.classesNow
  else Obj.instanceListData (u.listed.map u.devs)

structure Past (Seen : JoinSt → Prop) (s0 s : JoinSt) : Prop where
  pcs : ∀ p ∈ s.adders, ReadBefore Seen p
  codes : s.prof.codes = s0.prof.codes ∧ ∀ x, (s.devs x).codes = (s0.devs x).codes
  prof : ∀ c x, HasData s.prof c x → HasData s0.prof c x ∨ c ∈ listCodes ∧ ∃ u, Seen u ∧ x = wouldWrite u c

theorem hasData_write {o : Obj} {c c' : Byte} {d x : Bytes} (h : HasData (o.setPropertyData c d).1 c' x) :
    HasData o c' x ∨ c' = c ∧ x = d := by
  obtain ⟨p, hp, rfl⟩ := h
  rw [setPropertyData_fst] at hp
  dsimp only at hp
  rw [lookup_update] at hp
  split at hp
  · next e =>
    obtain ⟨q, hq, rfl⟩ := Option.map_eq_some_iff.mp hp
    exact .inr ⟨e, rfl⟩
  · exact .inl ⟨p, hp, rfl⟩

theorem past_step {Seen : JoinSt → Prop} {s0 s : JoinSt} (hs : Seen s) (g : Past Seen s0 s) (i : Nat) :
    Past Seen s0 (s.step room i) := by
  unfold JoinSt.step
  cases hp : s.adders[i]? with
  | none => exact g
  | some p =>
    dsimp only
    have hm := g.pcs p (List.mem_of_getElem? hp)
    have pcs_ : ∀ q, ReadBefore Seen q → ∀ p ∈ s.adders.set i q, ReadBefore Seen p := by
      intro q hq p hp
      rcases mem_set_cases hp with rfl | hp
      · exact hq
      · exact g.pcs p hp
    have write_ : ∀ c d, c ∈ listCodes → (∃ u, Seen u ∧ d = wouldWrite u c) →
        ∀ c' x, HasData (s.prof.setPropertyData c d).1 c' x →
          HasData s0.prof c' x ∨ c' ∈ listCodes ∧ ∃ u, Seen u ∧ x = wouldWrite u c' := by
      intro c d hc hd c' x hx
      rcases hasData_write hx with h | ⟨rfl, rfl⟩
      · exact g.prof c' x h
      · exact .inr ⟨hc, hd⟩
    have codes_ : ∀ c d, (s.prof.setPropertyData c d).1.codes = s0.prof.codes := by
      intro c d; rw [setPropertyData_fst]; exact g.codes.1
    cases p with
    | idle todo =>
      cases todo with
      | nil => exact g
      | cons d todo => exact ⟨pcs_ _ trivial, g.codes, g.prof⟩
    | put d v todo => exact ⟨pcs_ _ trivial, g.codes, g.prof⟩
    | store d v todo => exact ⟨pcs_ _ trivial, g.codes, g.prof⟩
    | man d todo =>
      refine ⟨pcs_ _ trivial, ⟨g.codes.1, fun x => ?_⟩, g.prof⟩
      show (if x = d then ((s.devs d).setManufacturerCode s.man).1 else s.devs x).codes = _
      split
      · next e => rw [man_codes, e]; exact g.codes.2 d
      · exact g.codes.2 x
    | parent d todo => exact ⟨pcs_ _ trivial, g.codes, g.prof⟩
    | classes todo => exact ⟨pcs_ _ ⟨s, hs, rfl⟩, g.codes, g.prof⟩
    | count cs todo => exact ⟨pcs_ _ ⟨hm, s, hs, rfl⟩, g.codes, g.prof⟩
    | setCount cs k todo =>
      obtain ⟨h1, u, h2, rfl⟩ := hm
      exact ⟨pcs_ _ h1, ⟨codes_ _ _, g.codes.2⟩, write_ 0xD3 _ (by decide) ⟨u, h2, rfl⟩⟩
    | setClassCount cs todo =>
      obtain ⟨u, h2, rfl⟩ := hm
      exact ⟨pcs_ _ ⟨u, h2, rfl⟩, ⟨codes_ _ _, g.codes.2⟩, write_ 0xD4 _ (by decide) ⟨u, h2, rfl⟩⟩
    | list cs todo => exact ⟨pcs_ _ ⟨hm, s, hs, rfl⟩, g.codes, g.prof⟩
    | setD5 cs l todo =>
      obtain ⟨h1, u, h2, rfl⟩ := hm
      unfold JoinSt.act
      dsimp only
      split
      · exact ⟨pcs_ _ ⟨h1, u, h2, rfl⟩, ⟨codes_ _ _, g.codes.2⟩, write_ 0xD5 _ (by decide) ⟨u, h2, rfl⟩⟩
      · exact ⟨pcs_ _ h1, ⟨codes_ _ _, g.codes.2⟩, write_ 0xD5 _ (by decide) ⟨u, h2, rfl⟩⟩
    | setD6 cs l todo =>
      obtain ⟨h1, u, h2, rfl⟩ := hm
      exact ⟨pcs_ _ h1, ⟨codes_ _ _, g.codes.2⟩, write_ 0xD6 _ (by decide) ⟨u, h2, rfl⟩⟩
    | setClasses cs todo =>
      obtain ⟨u, h2, rfl⟩ := hm
      exact ⟨pcs_ _ trivial, ⟨codes_ _ _, g.codes.2⟩, write_ 0xD7 _ (by decide) ⟨u, h2, rfl⟩⟩

theorem past_run {s : JoinSt} (hi : ∀ p ∈ s.adders, ∃ todo, p = .idle todo) (is : List Nat) (t : Nat) (ht : t ≤ is.length) :
    Past (fun u => ∃ t ≤ is.length, u = s.run room (is.take t)) s (s.run room (is.take t)) := by
  induction t with
  | zero =>
    refine ⟨fun p hp => ?_, ⟨rfl, fun _ => rfl⟩, fun c x h => .inl h⟩
    obtain ⟨todo, rfl⟩ := hi p hp
    trivial
  | succ t ih =>
    have hlt : t < is.length := by omega
    rw [List.take_succ_eq_append_getElem hlt, joinRun_append]
    exact past_step ⟨t, by omega, rfl⟩ (ih (by omega)) _

theorem classCount_bytes (k : Nat) : EProp.integerData (BitVec.ofNat 64 k) 2 = beBytes 2 k := by
  unfold EProp.integerData
  rw [integerToByte_eq]
  simp only [BitVec.toNat_ofNat]
  exact beBytes_mod 2 8 k (by decide)

theorem three_cls {o : Obj} (h : o.codes.length = 3) : o.codes.take 2 = o.clsD.bytes := by
  obtain ⟨cn, nm, codes, ps⟩ := o
  match codes, h with
  | [a, b, c], _ => rfl

theorem would_report {u : JoinSt} (h : ∀ x, (u.devs x).codes.length = 3) (hp : u.prof.codes.length = 3) {c : Byte}
    (hc : c ∈ listCodes) : ReportAt u c (wouldWrite u c) := by
  have hspec := classes_spec ((u.listed.map u.devs ++ [u.prof]).map Obj.clsD)
  have hwf : ∀ x ∈ u.listed.map u.devs ++ [u.prof], x.codes.length = 3 := by
    intro x hx
    rcases List.mem_append.mp hx with hx | hx
    · obtain ⟨d, -, rfl⟩ := List.mem_map.mp hx
      exact h d
    · rw [List.mem_singleton.mp hx]; exact hp
  refine ⟨u.classesNow.map (·.bytes), ?_, ?_, ?_⟩
  · apply List.Pairwise.map (R := fun a b => a ≠ b) _ _ hspec.1
    intro x y hxy e
    apply hxy
    cases x; cases y
    simpa [Cls.bytes] using e
  · intro x
    rw [List.mem_map]
    constructor
    · rintro ⟨k, hk, rfl⟩
      have := (hspec.2 k).mp hk
      rw [List.mem_map] at this
      obtain ⟨y, hy, rfl⟩ := this
      exact ⟨y, hy, (three_cls (hwf y hy)).symm⟩
    · rintro ⟨y, hy, rfl⟩
      exact ⟨y.clsD, (hspec.2 _).mpr (List.mem_map.mpr ⟨y, hy, rfl⟩), (three_cls (hwf y hy)).symm⟩
  · have e5 : Obj.instanceListData (u.listed.map u.devs)
        = BitVec.ofNat 8 (min 255 u.listed.length) :: (u.listed.map (fun d => (u.devs d).codes)).flatten := by
      rw [instanceListData_eq, List.length_map, List.map_map]; rfl
    simp only [listCodes, List.mem_cons, List.not_mem_nil, or_false] at hc
    rcases hc with rfl | rfl | rfl | rfl | rfl
    · exact .inl ⟨rfl, count_bytes _⟩
    · refine .inr (.inl ⟨rfl, ?_⟩)
      rw [List.length_map]
      exact classCount_bytes _
    · exact .inr (.inr (.inl ⟨.inl rfl, e5⟩))
    · exact .inr (.inr (.inl ⟨.inr rfl, e5⟩))
    · exact .inr (.inr (.inr ⟨rfl, classListData_eq _⟩))

/-- C170, for every schedule: each property of the node profile holds at all times what it held at the start or what
it has to report for the devices of the node at some moment since; the five may be of different moments. -/
theorem C170_profile_partial {s : JoinSt} {plan : List Nat} (h : Starts s plan) (hd : ∀ x, (s.devs x).codes.length = 3)
    (hp : s.prof.codes.length = 3) (is : List Nat) (c : Byte) (x : Bytes) (hx : HasData (s.run room is).prof c x) :
    HasData s.prof c x ∨ ∃ t ≤ is.length, ReportAt (s.run room (is.take t)) c x := by
  have g := past_run (room := room) h.start is is.length (Nat.le_refl _)
  rw [List.take_length] at g
  rcases g.prof c x hx with h0 | ⟨hc, u, ⟨t, ht, rfl⟩, rfl⟩
  · exact .inl h0
  · have gt := (past_run (room := room) h.start is t ht).codes
    exact .inr ⟨t, ht, would_report (fun x => by rw [gt.2 x]; exact hd x) (by rw [gt.1]; exact hp) hc⟩

theorem joinRunAll_append (db : StdDB) (a b : List NodeOp) (n : Node) :
    (NodeOp.runAll db n (a ++ b)).1 = (NodeOp.runAll db (NodeOp.runAll db n a).1 b).1 := by
  induction a generalizing n with
  | nil => rfl
  | cons op a ih => exact ih _

/-- C170, when no two calls overlap: the node profile describes the node afterwards, when it is the node of a program
that made only ordinary calls so far (C30) and the devices come from the library. -/
theorem C170_described_partial {s s' : JoinSt} {ds : List Nat} (hr : OneByOne room s ds s') (ops : List NodeOp)
    (hops : ∀ op ∈ ops, Ordinary stdDB op) (h : IsNode s (NodeOp.runAll stdDB (Node.new stdDB) ops).1)
    (hnd : ds.Nodup) (hnew : ∀ d ∈ ds, d ∉ s.listed) (hlib : ∀ d ∈ ds, Reached stdDB (s.devs d))
    (hlen : s.listed.length + ds.length < 2 ^ 62) :
    ∃ n, IsNode s' n ∧ n.devices.length = s.listed.length + ds.length ∧ DescribesNode n := by
  obtain ⟨a, b⟩ := C170_apart_partial hr h hnd hnew stdDB
  have hdev : s'.listed.length = s.listed.length + ds.length := by rw [a, List.length_append]
  have hn := b.devices
  have hpr := b.profiles
  rw [← joinRunAll_append] at b hn hpr
  refine ⟨_, b, by rw [hn, List.length_map, hdev], ?_⟩
  refine C30_node_profile (ops ++ ds.map (fun d => .addDevice (s.devs d))) (fun op hop => ?_) _ rfl ?_
  · rcases List.mem_append.mp hop with hop | hop
    · exact hops op hop
    · obtain ⟨d, hd, rfl⟩ := List.mem_map.mp hop
      exact hlib d hd
  · rw [hn, hpr, List.length_map, hdev]
    simp only [List.length_singleton]
    omega

/-! ## A new node and two goroutines -/

/-- A new node without devices and goroutines that are going to add some. -/
def aboutTo (n : Node) (devs : Nat → Obj) (p : Obj) (adders : List JoinPc) : JoinSt :=
  ⟨[[]], ⟨0, 0, 0, 0⟩, devs, fun _ => false, n.manufacturer, n.profiles.getD 0 p, adders⟩

theorem aboutTo_node {n : Node} (hb : Base n) (hd : n.devices = []) (hl : n.profiles.length = 1) (devs : Nat → Obj) (p : Obj)
    (adders : List JoinPc) : IsNode (aboutTo n devs p adders) n := by
  obtain ⟨o, ho, -, hc⟩ := hb.prof
  have h0 : n.profiles[0]? = some o := ho
  have hg : n.profiles.getD 0 p = o := by rw [List.getD_eq_getElem?_getD, h0]; rfl
  refine ⟨⟨Nat.zero_lt_one, Nat.le_refl 0, Nat.le_refl 0⟩, rfl, hd, ?_, rfl, hb.nodeProfile, ?_⟩
  · show n.profiles = [n.profiles.getD 0 p]
    rw [hg]
    exact one_entry hl h0
  · show ∀ c ∈ listCodes, ((n.profiles.getD 0 p).props.lookup c).isSome
    rw [hg]
    exact hc

/-- Two goroutines add an air conditioner and a lamp. -/
def twoAdd : JoinSt :=
  aboutTo (Node.new stdDB) (fun x => if x = 0 then sampleDevice 0x013001 else sampleDevice 0x029101) (sampleDevice 0x013001)
    [.idle [0], .idle [1]]

theorem twoAdd_node : IsNode twoAdd (Node.new stdDB) :=
  aboutTo_node new_std.1 (by decide +kernel) (by decide +kernel) _ _ _

theorem twoAdd_starts : Starts twoAdd [0, 1] :=
  ⟨fun p hp => by
      rcases List.mem_cons.mp hp with rfl | hp
      · exact ⟨_, rfl⟩
      · exact ⟨_, List.mem_singleton.mp hp⟩,
    rfl, by decide, (fun d _ h => by cases h), List.nodup_nil, twoAdd_node.inside, twoAdd_node.noNil⟩

/-- The devices of the node after a schedule, and where the goroutines are. -/
example : (twoAdd.run doubling (List.replicate 13 0 ++ List.replicate 13 1)).adders = [.idle [], .idle []] ∧
    (twoAdd.run doubling (List.replicate 13 0 ++ List.replicate 13 1)).listed = [0, 1] := by decide +kernel

example : (twoAdd.run doubling ([0, 1, 0, 1, 0, 1] ++ (List.replicate 10 0 ++ List.replicate 10 1))).adders
      = [.idle [], .idle []] ∧
    (twoAdd.run doubling ([0, 1, 0, 1, 0, 1] ++ (List.replicate 10 0 ++ List.replicate 10 1))).listed = [1] := by
  decide +kernel

/-- The count of the devices that stays wrong. -/
example : ((twoAdd.run doubling (List.replicate 7 0 ++ (List.replicate 13 1 ++ List.replicate 6 0))).prof.props.lookup 0xD3).map
      (·.data) = some [0, 0, 1] ∧
    (twoAdd.run doubling (List.replicate 7 0 ++ (List.replicate 13 1 ++ List.replicate 6 0))).listed = [0, 1] := by
  decide +kernel

example : OneByOne doubling twoAdd [0, 1] (twoAdd.run doubling (List.replicate 13 0 ++ List.replicate 13 1)) := by
  refine .cons (i := 0) (todo := []) rfl (.cons (i := 1) (todo := []) ?_ ?_)
  · obtain ⟨-, -, -, h, -⟩ := whole_call (room := doubling) twoAdd_node (i := 0) (d := 0) (todo := []) rfl (fun h => by cases h)
    rw [h]; rfl
  · rw [← joinRun_append]; exact .nil _

example : (∀ x, (twoAdd.devs x).codes.length = 3) ∧ twoAdd.prof.codes.length = 3 ∧ DescribesNode (Node.new stdDB) := by
  refine ⟨fun x => ?_, by decide +kernel, ?_⟩
  · show (if x = 0 then sampleDevice 0x013001 else sampleDevice 0x029101).codes.length = 3
    split
    · decide +kernel
    · decide +kernel
  · exact listed_describes new_std.1 new_std.2 (by decide +kernel)

end Verif.Props
