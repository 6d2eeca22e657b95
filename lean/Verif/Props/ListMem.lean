import Verif.Spec.ListMem

/-!
# C153: lists handed out
-/

namespace Verif.Lemmas
open Verif Model Spec

variable {α : Type} {room : Nat → Nat → Nat}

/-- A slice within its array. -/
def Inside (h : Cells α) (v : View) : Prop :=
  v.arr < h.length ∧ v.len ≤ v.cap ∧ v.off + v.cap ≤ (h.getD v.arr []).length

theorem put_length (h : Cells α) (v : View) (k : Nat) (x : α) : (h.put v k x).length = h.length := by
  simp [Cells.put]

theorem put_array (h : Cells α) (v : View) (k : Nat) (x : α) (a : Nat) :
    (h.put v k x).getD a [] = if v.arr = a then (h.getD a []).set (v.off + k) (some x) else h.getD a [] := by
  unfold Cells.put
  rw [List.getD_eq_getElem?_getD, List.getD_eq_getElem?_getD, List.getElem?_modify]
  by_cases e : v.arr = a
  · rw [if_pos e]
    cases h[a]? <;> simp [e]
  · rw [if_neg e]
    cases h[a]? <;> simp [e]

theorem put_shows (h : Cells α) (v w : View) (k : Nat) (x : α) (hk : w.arr = v.arr → w.off + w.len ≤ v.off + k) :
    (h.put v k x).shows w = h.shows w := by
  unfold Cells.shows
  rw [put_array]
  by_cases e : v.arr = w.arr
  · rw [if_pos e]
    apply List.ext_getElem?
    intro n
    rw [List.getElem?_take, List.getElem?_take]
    by_cases hn : n < w.len
    · rw [if_pos hn, if_pos hn, List.getElem?_drop, List.getElem?_drop, List.getElem?_set_ne]
      have := hk e.symm
      omega
    · rw [if_neg hn, if_neg hn]
  · rw [if_neg e]

theorem put_set (h : Cells α) (v : View) (k : Nat) (x : α) (hf : Inside h v) (hk : k < v.len) :
    (h.put v k x).shows v = (h.shows v).set k (some x) := by
  unfold Cells.shows
  rw [put_array, if_pos rfl]
  apply List.ext_getElem?
  intro n
  rw [List.getElem?_take, List.getElem?_set, List.getElem?_take, List.length_take, List.length_drop,
    List.getElem?_drop, List.getElem?_drop, List.getElem?_set]
  have h1 := hf.2.1
  have h2 := hf.2.2
  by_cases hn : n < v.len
  · by_cases e : k = n
    · subst e
      rw [if_pos hn, if_pos rfl, if_pos rfl, if_pos (by omega), if_pos (by omega)]
    · rw [if_pos hn, if_neg (by omega), if_neg e]; simp [hn]
  · rw [if_neg hn, if_neg (by omega)]; simp [hn]

theorem make_old (h : Cells α) (xs : List (Option α)) (r : Nat) (w : View) (hw : w.arr < h.length) :
    (h.make xs r).1.getD w.arr [] = h.getD w.arr [] := by
  unfold Cells.make
  rw [List.getD_eq_getElem?_getD, List.getD_eq_getElem?_getD]
  show ((h ++ _)[w.arr]?).getD [] = _
  rw [List.getElem?_append_left hw]

theorem make_shows (h : Cells α) (xs : List (Option α)) (r : Nat) (w : View) (hw : w.arr < h.length) :
    (h.make xs r).1.shows w = h.shows w := by
  unfold Cells.shows
  rw [make_old h xs r w hw]

theorem make_new (h : Cells α) (xs : List (Option α)) (r : Nat) :
    (h.make xs r).1.getD h.length [] = xs ++ List.replicate r none := by
  unfold Cells.make
  rw [List.getD_eq_getElem?_getD]
  show ((h ++ _)[h.length]?).getD [] = _
  rw [List.getElem?_append_right (Nat.le_refl _)]
  simp

theorem make_length (h : Cells α) (xs : List (Option α)) (r : Nat) : (h.make xs r).1.length = h.length + 1 := by
  simp [Cells.make]

theorem make_shown (h : Cells α) (xs : List (Option α)) (r : Nat) : (h.make xs r).1.shows (h.make xs r).2 = xs := by
  show (((h.make xs r).1.getD h.length []).drop 0).take xs.length = xs
  rw [make_new]
  simp

theorem make_fits (h : Cells α) (xs : List (Option α)) (r : Nat) : Inside (h.make xs r).1 (h.make xs r).2 := by
  refine ⟨?_, ?_, ?_⟩
  · rw [make_length]; show h.length < _; omega
  · show xs.length ≤ xs.length + r; omega
  · show 0 + (xs.length + r) ≤ ((h.make xs r).1.getD h.length []).length
    rw [make_new]; simp

theorem make_keeps (h : Cells α) (xs : List (Option α)) (r : Nat) (w : View) (hw : Inside h w) :
    Inside (h.make xs r).1 w := by
  refine ⟨?_, hw.2.1, ?_⟩
  · rw [make_length]; have := hw.1; omega
  · rw [make_old h xs r w hw.1]; exact hw.2.2

theorem put_keeps (h : Cells α) (v : View) (k : Nat) (x : α) (w : View) (hw : Inside h w) :
    Inside (h.put v k x) w := by
  refine ⟨?_, hw.2.1, ?_⟩
  · rw [put_length]; exact hw.1
  · rw [put_array]
    split
    · rw [List.length_set]; exact hw.2.2
    · exact hw.2.2

theorem append_keeps (h : Cells α) (v : View) (x : α) (w : View) (hw : Inside h w) :
    Inside (h.append room v x).1 w := by
  unfold Cells.append
  split
  · exact put_keeps _ _ _ _ _ hw
  · exact make_keeps _ _ _ _ hw

theorem append_shows (h : Cells α) (v : View) (x : α) (w : View) (hw : Inside h w)
    (hk : w.arr = v.arr → w.off + w.len ≤ v.off + v.len) :
    (h.append room v x).1.shows w = h.shows w := by
  unfold Cells.append
  split
  · exact put_shows _ _ _ _ _ hk
  · exact make_shows _ _ _ _ hw.1

theorem append_shown (h : Cells α) (v : View) (x : α) (hv : Inside h v) :
    (h.append room v x).1.shows (h.append room v x).2 = h.shows v ++ [some x] := by
  unfold Cells.append
  split
  · next hl =>
    show (((h.put v v.len x).getD v.arr []).drop v.off).take (v.len + 1) = _
    have hs : (h.put v v.len x).shows v = h.shows v := put_shows _ _ _ _ _ (fun _ => Nat.le_refl _)
    rw [List.take_add_one]
    rw [show List.take v.len _ = h.shows v from hs]
    congr 1
    rw [List.getElem?_drop, put_array, if_pos rfl, List.getElem?_set_self]
    · rfl
    · have := hv.2.2; omega
  · exact make_shown _ _ _

theorem append_fits (h : Cells α) (v : View) (x : α) (hv : Inside h v) :
    Inside (h.append room v x).1 (h.append room v x).2 := by
  unfold Cells.append
  split
  · next hl =>
    have := put_keeps h v v.len x v hv
    exact ⟨this.1, hl, this.2.2⟩
  · exact make_fits _ _ _

theorem append_arr (h : Cells α) (v : View) (x : α) :
    ((h.append room v x).2.arr = v.arr ∧ (h.append room v x).2.off = v.off ∧ (h.append room v x).2.len = v.len + 1) ∨
    ((h.append room v x).2.arr = h.length ∧ (h.append room v x).2.off = 0) := by
  unfold Cells.append
  split
  · exact .inl ⟨rfl, rfl, rfl⟩
  · exact .inr ⟨rfl, rfl⟩

/-- The lists of the library have arrays of their own; lists handed out end below what will be added. -/
structure Separate (s : ListMem α) : Prop where
  kept : ∀ v ∈ s.kept, Inside s.cells v ∧ v.off = 0
  apart : ∀ (i j : Nat) (v w : View), s.kept[i]? = some v → s.kept[j]? = some w → v.arr = w.arr → i = j
  held : ∀ l ∈ s.held, Inside s.cells l.view
  lent : ∀ l ∈ s.held, l.mine = false → ∀ v ∈ s.kept, l.view.arr = v.arr → l.view.off + l.view.len ≤ v.len
  own : ∀ l ∈ s.held, l.mine = true →
    (∀ v ∈ s.kept, l.view.arr ≠ v.arr) ∧ ∀ l' ∈ s.held, l'.mine = false → l'.view.arr ≠ l.view.arr

theorem separate_init : Separate (ListMem.init : ListMem α) := by
  constructor <;> simp [ListMem.init]

theorem mem_set_cases {β : Type} {l : List β} {i : Nat} {x y : β} (h : y ∈ l.set i x) : y = x ∨ y ∈ l := by
  rcases List.mem_or_eq_of_mem_set h with h | h
  · exact .inr h
  · exact .inl h

/-- A new list takes the place of one of the library, or is one more. -/
theorem separate_kept {s : ListMem α} (g : Separate s) (c : Cells α) (u : View) (ks : List View)
    (hold : ∀ v, Inside s.cells v → Inside c v) (hu : Inside c u) (h0 : u.off = 0) (hnew : s.cells.length ≤ u.arr)
    (hks : ∀ (j : Nat) (w : View), ks[j]? = some w → w = u ∧ (∀ j' : Nat, ks[j']? = some u → j = j') ∨ s.kept[j]? = some w) :
    Separate ⟨c, ks, s.held⟩ := by
  have hk : ∀ w ∈ ks, w = u ∨ w ∈ s.kept := by
    intro w hw
    obtain ⟨j, hj⟩ := List.getElem?_of_mem hw
    rcases hks j w hj with h | h
    · exact .inl h.1
    · exact .inr (List.mem_of_getElem? h)
  constructor
  · intro w hw
    rcases hk w hw with rfl | h
    · exact ⟨hu, h0⟩
    · exact ⟨hold _ (g.kept w h).1, (g.kept w h).2⟩
  · intro i j v w hi hj e
    rcases hks i v hi with h | h <;> rcases hks j w hj with h' | h'
    · exact h.2 j (h'.1 ▸ hj)
    · have := (g.kept w (List.mem_of_getElem? h')).1.1
      rw [h.1] at e; omega
    · have := (g.kept v (List.mem_of_getElem? h)).1.1
      rw [h'.1] at e; omega
    · exact g.apart i j v w h h' e
  · exact fun l hl => hold _ (g.held l hl)
  · intro l hl hm v hv e
    rcases hk v hv with rfl | h
    · have := (g.held l hl).1
      omega
    · exact g.lent l hl hm v h e
  · intro l hl hm
    refine ⟨fun v hv e => ?_, (g.own l hl hm).2⟩
    rcases hk v hv with rfl | h
    · have := (g.held l hl).1
      omega
    · exact (g.own l hl hm).1 v h e

/-- One more list of the program. -/
theorem separate_held {s : ListMem α} (g : Separate s) (c : Cells α) (l : HeldList)
    (hold : ∀ v, Inside s.cells v → Inside c v) (hl : Inside c l.view)
    (hlent : l.mine = false → (∀ v ∈ s.kept, l.view.arr = v.arr → l.view.off + l.view.len ≤ v.len) ∧
      ∀ l' ∈ s.held, l'.mine = true → l.view.arr ≠ l'.view.arr)
    (hown : l.mine = true → (∀ v ∈ s.kept, l.view.arr ≠ v.arr) ∧
      ∀ l' ∈ s.held, l'.mine = false → l'.view.arr ≠ l.view.arr) :
    Separate ⟨c, s.kept, s.held ++ [l]⟩ := by
  constructor
  · exact fun w hw => ⟨hold _ (g.kept w hw).1, (g.kept w hw).2⟩
  · exact g.apart
  · intro x hx
    rcases List.mem_append.mp hx with h | h
    · exact hold _ (g.held x h)
    · rw [List.mem_singleton.mp h]; exact hl
  · intro x hx hm v hv e
    rcases List.mem_append.mp hx with h | h
    · exact g.lent x h hm v hv e
    · rw [List.mem_singleton.mp h] at hm e ⊢; exact (hlent hm).1 v hv e
  · intro x hx hm
    rcases List.mem_append.mp hx with h | h
    · refine ⟨(g.own x h hm).1, fun y hy hm' => ?_⟩
      rcases List.mem_append.mp hy with h' | h'
      · exact (g.own x h hm).2 y h' hm'
      · rw [List.mem_singleton.mp h'] at hm' ⊢; exact (hlent hm').2 x h hm
    · rw [List.mem_singleton.mp h] at hm ⊢
      refine ⟨(hown hm).1, fun y hy hm' => ?_⟩
      rcases List.mem_append.mp hy with h' | h'
      · exact (hown hm).2 y h' hm'
      · rw [List.mem_singleton.mp h'] at hm'; rw [hm] at hm'; cases hm'

theorem separate_step {s : ListMem α} (g : Separate s) (op : ListOp α) (hm : MindsOne s op) :
    Separate (s.step room op) := by
  cases op with
  | new =>
    refine separate_kept g _ _ _ (fun v => make_keeps _ _ _ v) (make_fits _ _ _) rfl (Nat.le_refl _) ?_
    intro j w hj
    by_cases hlt : j < s.kept.length
    · rw [List.getElem?_append_left hlt] at hj; exact .inr hj
    · refine .inl ⟨?_, ?_⟩
      · rw [List.getElem?_append_right (by omega)] at hj
        exact (List.mem_singleton.mp (List.mem_of_getElem? hj))
      · intro j' hj'
        have e1 : j = s.kept.length := by
          have := (List.getElem?_eq_some_iff.mp hj).1
          simp at this; omega
        have e2 : j' = s.kept.length := by
          by_cases hlt' : j' < s.kept.length
          · rw [List.getElem?_append_left hlt'] at hj'
            have := (g.kept _ (List.mem_of_getElem? hj')).1.1
            exact absurd this (Nat.lt_irrefl _)
          · have := (List.getElem?_eq_some_iff.mp hj').1
            simp at this; omega
        omega
  | add i x =>
    simp only [ListMem.step]
    cases hi : s.kept[i]? with
    | none => exact g
    | some v =>
      dsimp only
      have hv := (g.kept v (List.mem_of_getElem? hi)).1
      have h0 := (g.kept v (List.mem_of_getElem? hi)).2
      have hlt := (List.getElem?_eq_some_iff.mp hi).1
      rcases append_arr (room := room) s.cells v x with ⟨ha, ho, hl⟩ | ⟨ha, ho⟩
      · have hk : ∀ w ∈ s.kept.set i (s.cells.append room v x).2, ∃ w' ∈ s.kept, w.arr = w'.arr ∧ w'.len ≤ w.len := by
          intro w hw
          rcases mem_set_cases hw with rfl | h
          · exact ⟨v, List.mem_of_getElem? hi, ha, by omega⟩
          · exact ⟨w, h, rfl, Nat.le_refl _⟩
        have hidx : ∀ (j : Nat) (w : View), (s.kept.set i (s.cells.append room v x).2)[j]? = some w →
            ∃ w', s.kept[j]? = some w' ∧ w.arr = w'.arr := by
          intro j w hj
          rw [List.getElem?_set] at hj
          by_cases e : i = j
          · rw [if_pos e, if_pos hlt] at hj
            exact ⟨v, e ▸ hi, by rw [← Option.some.inj hj]; exact ha⟩
          · rw [if_neg e] at hj; exact ⟨w, hj, rfl⟩
        constructor
        · intro w hw
          rcases mem_set_cases hw with rfl | h
          · exact ⟨append_fits _ _ _ hv, by omega⟩
          · exact ⟨append_keeps _ _ _ _ (g.kept w h).1, (g.kept w h).2⟩
        · intro a b w w' hwa hwb e
          obtain ⟨u, hu, eu⟩ := hidx a w hwa
          obtain ⟨u', hu', eu'⟩ := hidx b w' hwb
          exact g.apart a b u u' hu hu' (by omega)
        · exact fun l hl => append_keeps _ _ _ _ (g.held l hl)
        · intro l hl hmi w hw e
          obtain ⟨w', hw', e', hle⟩ := hk w hw
          have := g.lent l hl hmi w' hw' (by omega)
          omega
        · intro l hl hmi
          refine ⟨fun w hw e => ?_, (g.own l hl hmi).2⟩
          obtain ⟨w', hw', e', hle⟩ := hk w hw
          exact (g.own l hl hmi).1 w' hw' (by omega)
      · refine separate_kept g _ _ _ (fun v => append_keeps _ _ _ v) (append_fits _ _ _ hv) ho (by omega) ?_
        intro j w hj
        rw [List.getElem?_set] at hj
        by_cases e : i = j
        · rw [if_pos e, if_pos hlt] at hj
          refine .inl ⟨(Option.some.inj hj).symm, fun j' hj' => ?_⟩
          rw [List.getElem?_set] at hj'
          by_cases e' : i = j'
          · omega
          · rw [if_neg e'] at hj'
            have := (g.kept _ (List.mem_of_getElem? hj')).1.1
            omega
        · rw [if_neg e] at hj; exact .inr hj
  | clear i =>
    refine separate_kept g _ _ _ (fun v => make_keeps _ _ _ v) (make_fits _ _ _) rfl (Nat.le_refl _) ?_
    intro j w hj
    rw [List.getElem?_set] at hj
    by_cases e : i = j
    · rw [if_pos e] at hj
      by_cases hlt : i < s.kept.length
      · rw [if_pos hlt] at hj
        refine .inl ⟨(Option.some.inj hj).symm, fun j' hj' => ?_⟩
        rw [List.getElem?_set] at hj'
        by_cases e' : i = j'
        · omega
        · rw [if_neg e'] at hj'
          have := (g.kept _ (List.mem_of_getElem? hj')).1.1
          exact absurd this (Nat.lt_irrefl _)
      · rw [if_neg hlt] at hj; cases hj
    · rw [if_neg e] at hj; exact .inr hj
  | lend i =>
    simp only [ListMem.step]
    cases hi : s.kept[i]? with
    | none => exact g
    | some v =>
      have hv := List.mem_of_getElem? hi
      refine separate_held g _ _ (fun _ h => h) (g.kept v hv).1 (fun _ => ⟨fun w hw e => ?_, fun l hl hmi e => ?_⟩)
        (fun h => by cases h)
      · obtain ⟨j, hj⟩ := List.getElem?_of_mem hw
        have := g.apart i j v w hi hj e
        subst this
        rw [hi] at hj
        have h0 := (g.kept v hv).2
        rw [← Option.some.inj hj]
        show v.off + v.len ≤ v.len
        omega
      · exact (g.own l hl hmi).1 v hv e.symm
  | objects i j =>
    simp only [ListMem.step]
    cases hi : s.kept[i]? with
    | none => exact g
    | some v =>
      cases hj : s.kept[j]? with
      | none => exact g
      | some w =>
        refine separate_held g _ _ (fun v => make_keeps _ _ _ v) (make_fits _ _ _) (fun h => by cases h)
          (fun _ => ⟨fun u hu e => ?_, fun l hl hmi e => ?_⟩)
        · have := (g.kept u hu).1.1
          have e' : s.cells.length = u.arr := e
          omega
        · have := (g.held l hl).1
          have e' : l.view.arr = s.cells.length := e
          omega
  | sub v lo hi =>
    simp only [ListMem.step]
    cases hv : s.held[v]? with
    | none => exact g
    | some l =>
      dsimp only
      split
      · next hb =>
        have hl := List.mem_of_getElem? hv
        have hf := g.held l hl
        refine separate_held g _ _ (fun _ h => h) ⟨hf.1, ?_, ?_⟩ (fun hmi => ⟨fun w hw e => ?_, fun l' hl' hm' e => ?_⟩)
          (fun hmi => ⟨fun w hw e => ?_, fun l' hl' hm' e => ?_⟩)
        · have := hf.2.1
          show hi - lo ≤ l.view.cap - lo; omega
        · have := hf.2.1
          have := hf.2.2
          show l.view.off + lo + (l.view.cap - lo) ≤ (List.getD s.cells l.view.arr []).length; omega
        · have := g.lent l hl hmi w hw e
          show l.view.off + lo + (hi - lo) ≤ w.len; omega
        · exact (g.own l' hl' hm').2 l hl hmi e
        · exact (g.own l hl hmi).1 w hw e
        · exact (g.own l hl hmi).2 l' hl' hm' e
      · exact g
  | write v k x =>
    simp only [ListMem.step]
    cases hv : s.held[v]? with
    | none => exact g
    | some l =>
      dsimp only
      split
      · exact ⟨fun w hw => ⟨put_keeps _ _ _ _ _ (g.kept w hw).1, (g.kept w hw).2⟩, g.apart,
          fun l' hl' => put_keeps _ _ _ _ _ (g.held l' hl'), g.lent, g.own⟩
      · exact g
  | push v x =>
    simp only [ListMem.step]
    cases hv : s.held[v]? with
    | none => exact g
    | some l =>
      have hmi := hm l hv
      have hl := List.mem_of_getElem? hv
      dsimp only
      refine separate_held g _ _ (fun v => append_keeps _ _ _ v) (append_fits _ _ _ (g.held l hl))
        (fun h => by rw [hmi] at h; cases h) (fun _ => ?_)
      rcases append_arr (room := room) s.cells l.view x with ⟨ha, _, _⟩ | ⟨ha, _⟩
      · refine ⟨fun w hw e => ?_, fun l' hl' hm' e => ?_⟩
        · exact (g.own l hl hmi).1 w hw (ha ▸ e)
        · exact (g.own l hl hmi).2 l' hl' hm' (ha ▸ e)
      · refine ⟨fun w hw e => ?_, fun l' hl' hm' e => ?_⟩
        · have := (g.kept w hw).1.1
          have e' : (s.cells.append room l.view x).2.arr = w.arr := e
          omega
        · have := (g.held l' hl').1
          have e' : l'.view.arr = (s.cells.append room l.view x).2.arr := e
          omega


/-- The lists of the library show the given values. -/
def ShowsLists (s : ListMem α) (ls : List (List α)) : Prop := s.kept.map s.cells.shows = ls.map (·.map some)

theorem lists_library {s : ListMem α} {ls : List (List α)} (h : ShowsLists s ls) (i : Nat) :
    s.library i = (ls[i]?).map (·.map some) := by
  unfold ListMem.library
  rw [← List.getElem?_map, h, List.getElem?_map]

/-- The cells change, but not those of the lists of the library. -/
theorem lists_cells {s : ListMem α} {ls : List (List α)} (h : ShowsLists s ls) (c : Cells α) (hs : List HeldList)
    (hc : ∀ v ∈ s.kept, c.shows v = s.cells.shows v) : ShowsLists ⟨c, s.kept, hs⟩ ls := by
  unfold ShowsLists at *
  rw [← h]
  exact List.map_congr_left hc

theorem shownLists_step {s : ListMem α} (g : Separate s) (op : ListOp α) (hm : MindsOne s op) {ls : List (List α)}
    (h : ShowsLists s ls) : ShowsLists (s.step room op) (listed ls op) := by
  have hlen : s.kept.length = ls.length := by
    have := congrArg List.length h
    simpa using this
  cases op with
  | new =>
    show (s.kept ++ [_]).map _ = (ls ++ [[]]).map _
    rw [List.map_append, List.map_append, ← h]
    congr 1
    · exact List.map_congr_left fun v hv => make_shows _ _ _ _ (g.kept v hv).1.1
  | add i x =>
    simp only [ListMem.step]
    cases hi : s.kept[i]? with
    | none =>
      dsimp only [listed]
      rw [List.modify_eq_self (by have := List.getElem?_eq_none_iff.mp hi; omega)]
      exact h
    | some v =>
      show (s.kept.set i (s.cells.append room v x).2).map (s.cells.append room v x).1.shows
        = (ls.modify i (· ++ [x])).map _
      have hv := (g.kept v (List.mem_of_getElem? hi)).1
      apply List.ext_getElem?
      intro j
      have hj := congrArg (·[j]?) h
      simp only [List.getElem?_map] at hj
      rw [List.getElem?_map, List.getElem?_map, List.getElem?_set, List.getElem?_modify]
      have hlt := (List.getElem?_eq_some_iff.mp hi).1
      by_cases e : i = j
      · subst e
        rw [hi] at hj
        rw [if_pos rfl, if_pos hlt]
        cases hl : ls[i]? with
        | none => rw [hl] at hj; cases hj
        | some l =>
          rw [hl] at hj
          show some _ = some _
          rw [append_shown s.cells v x hv, Option.some.inj hj]
          simp
      · rw [if_neg e]
        have : (s.kept[j]?).map (s.cells.append room v x).1.shows = (s.kept[j]?).map s.cells.shows := by
          cases hk : s.kept[j]? with
          | none => rfl
          | some w =>
            refine congrArg some (append_shows _ _ _ _ (g.kept w (List.mem_of_getElem? hk)).1 fun ea => ?_)
            exact absurd (g.apart i j v w hi hk ea.symm) e
        rw [this, hj]
        cases ls[j]? <;> simp [e]
  | clear i =>
    show (s.kept.set i (s.cells.make [] 0).2).map (s.cells.make [] 0).1.shows = (ls.modify i (fun _ => [])).map _
    apply List.ext_getElem?
    intro j
    have hj := congrArg (·[j]?) h
    simp only [List.getElem?_map] at hj
    rw [List.getElem?_map, List.getElem?_map, List.getElem?_set, List.getElem?_modify]
    by_cases e : i = j
    · subst e
      rw [if_pos rfl]
      by_cases hlt : i < s.kept.length
      · rw [if_pos hlt, List.getElem?_eq_getElem (by omega)]
        show some _ = some _
        rw [make_shown]
        simp
      · rw [if_neg hlt, List.getElem?_eq_none (by omega)]
        rfl
    · rw [if_neg e]
      have : (s.kept[j]?).map (s.cells.make [] 0).1.shows = (s.kept[j]?).map s.cells.shows := by
        cases hk : s.kept[j]? with
        | none => rfl
        | some w => exact congrArg some (make_shows _ _ _ _ (g.kept w (List.mem_of_getElem? hk)).1.1)
      rw [this, hj]
      cases ls[j]? <;> simp [e]
  | lend i =>
    simp only [ListMem.step]
    cases hi : s.kept[i]? with
    | none => exact h
    | some v => exact lists_cells h _ _ fun _ _ => rfl
  | objects i j =>
    simp only [ListMem.step]
    cases hi : s.kept[i]? with
    | none => exact h
    | some v =>
      cases hj : s.kept[j]? with
      | none => exact h
      | some w => exact lists_cells h _ _ fun u hu => make_shows _ _ _ _ (g.kept u hu).1.1
  | sub v lo hi =>
    simp only [ListMem.step]
    cases hv : s.held[v]? with
    | none => exact h
    | some l =>
      dsimp only
      split
      · exact lists_cells h _ _ fun _ _ => rfl
      · exact h
  | write v k x =>
    simp only [ListMem.step]
    cases hv : s.held[v]? with
    | none => exact h
    | some l =>
      have hl := List.mem_of_getElem? hv
      dsimp only
      split
      · exact lists_cells h _ _ fun u hu => put_shows _ _ _ _ _ fun e =>
          absurd e.symm ((g.own l hl (hm l hv)).1 u hu)
      · exact h
  | push v x =>
    simp only [ListMem.step]
    cases hv : s.held[v]? with
    | none => exact h
    | some l =>
      have hl := List.mem_of_getElem? hv
      exact lists_cells h _ _ fun u hu => append_shows _ _ _ _ (g.kept u hu).1 fun e =>
        absurd e.symm ((g.own l hl (hm l hv)).1 u hu)

/-- Lists are never taken from the program. -/
theorem held_step (s : ListMem α) (op : ListOp α) (v : Nat) (l : HeldList) (h : s.held[v]? = some l) :
    (s.step room op).held[v]? = some l := by
  have hlt := (List.getElem?_eq_some_iff.mp h).1
  cases op <;> simp only [ListMem.step] <;> (try exact h) <;> repeat' split
  all_goals first
    | exact h
    | (show (s.held ++ [_])[v]? = _
       rw [List.getElem?_append_left hlt]; exact h)

/-- A list handed out keeps its elements; one of the program's own does while only the library acts. -/
theorem shows_step {s : ListMem α} (g : Separate s) (op : ListOp α) (hm : MindsOne s op) (l : HeldList)
    (hl : l ∈ s.held) (ho : l.mine = false ∨ OfLibrary op) : (s.step room op).cells.shows l.view = s.cells.shows l.view := by
  have hf := g.held l hl
  cases op with
  | new => exact make_shows _ _ _ _ hf.1
  | add i x =>
    simp only [ListMem.step]
    cases hi : s.kept[i]? with
    | none => rfl
    | some v =>
      have hv := List.mem_of_getElem? hi
      refine append_shows _ _ _ _ hf fun e => ?_
      cases hmi : l.mine with
      | true => exact absurd e ((g.own l hl hmi).1 v hv)
      | false =>
        have := g.lent l hl hmi v hv e
        omega
  | clear i => exact make_shows _ _ _ _ hf.1
  | lend i =>
    simp only [ListMem.step]
    cases hi : s.kept[i]? <;> rfl
  | objects i j =>
    simp only [ListMem.step]
    cases hi : s.kept[i]? with
    | none => rfl
    | some v =>
      cases hj : s.kept[j]? with
      | none => rfl
      | some w => exact make_shows _ _ _ _ hf.1
  | sub v lo hi =>
    simp only [ListMem.step]
    cases hv : s.held[v]? with
    | none => rfl
    | some l =>
      dsimp only
      split <;> rfl
  | write v k x =>
    simp only [ListMem.step]
    cases hv : s.held[v]? with
    | none => rfl
    | some l' =>
      have hl' := List.mem_of_getElem? hv
      have hmi : l.mine = false := ho.resolve_right id
      dsimp only
      split
      · exact put_shows _ _ _ _ _ fun e => absurd e ((g.own l' hl' (hm l' hv)).2 l hl hmi)
      · rfl
  | push v x =>
    simp only [ListMem.step]
    cases hv : s.held[v]? with
    | none => rfl
    | some l' =>
      have hl' := List.mem_of_getElem? hv
      have hmi : l.mine = false := ho.resolve_right id
      exact append_shows _ _ _ _ hf fun e => absurd e ((g.own l' hl' (hm l' hv)).2 l hl hmi)

theorem separate_run (ops : List (ListOp α)) (s : ListMem α) (g : Separate s) (hm : Minds room s ops)
    (ls : List (List α)) (h : ShowsLists s ls) :
    Separate (s.run room ops) ∧ ShowsLists (s.run room ops) (ops.foldl listed ls) := by
  induction ops generalizing s ls with
  | nil => exact ⟨g, h⟩
  | cons op ops ih => exact ih _ (separate_step g op hm.1) hm.2 _ (shownLists_step g op hm.1 h)

theorem minds_append (a b : List (ListOp α)) (s : ListMem α) :
    Minds room s (a ++ b) ↔ Minds room s a ∧ Minds room (s.run room a) b := by
  induction a generalizing s with
  | nil => exact ⟨fun h => ⟨trivial, h⟩, fun h => h.2⟩
  | cons op a ih =>
    show MindsOne s op ∧ Minds room (s.step room op) (a ++ b) ↔ _
    rw [ih]
    exact and_assoc.symm

theorem run_two (a b : List (ListOp α)) (s : ListMem α) : s.run room (a ++ b) = (s.run room a).run room b :=
  List.foldl_append

theorem program_run (ops : List (ListOp α)) (s : ListMem α) (g : Separate s) (hm : Minds room s ops) (v : Nat)
    (l : HeldList) (hl : s.held[v]? = some l) (ho : l.mine = false ∨ ∀ op ∈ ops, OfLibrary op) :
    (s.run room ops).program v = s.program v := by
  induction ops generalizing s with
  | nil => rfl
  | cons op ops ih =>
    have h := held_step (room := room) s op v l hl
    show ((s.step room op).run room ops).program v = _
    rw [ih _ (separate_step g op hm.1) hm.2 h (ho.imp id fun h x hx => h x (List.mem_cons_of_mem _ hx))]
    unfold ListMem.program
    rw [h, hl]
    exact congrArg some (shows_step g op hm.1 l (List.mem_of_getElem? hl) (ho.imp id fun h => h op List.mem_cons_self))

end Verif.Lemmas

namespace Verif.Props
open Verif Model Spec Lemmas

variable {α : Type} (room : Nat → Nat → Nat)

/-- The state after a history. -/
abbrev listsAfter (ops : List (ListOp α)) : ListMem α := ListMem.init.run room ops

/-- The lists the program holds after a history. -/
abbrev heldAfter (ops : List (ListOp α)) : Nat := (listsAfter room ops).held.length

theorem separate_after (ops : List (ListOp α)) (h : Minds room ListMem.init ops) :
    Separate (listsAfter room ops) ∧ ShowsLists (listsAfter room ops) (contents ops) :=
  separate_run ops _ separate_init h [] rfl

/-- C153, as long as the program writes and appends only to lists that were made for it: the lists of the library
hold what was added, in order, whatever the program does with its own lists. -/
theorem C153_contents_partial (ops : List (ListOp α)) (h : Minds room ListMem.init ops) (i : Nat) :
    (listsAfter room ops).library i = ((contents ops)[i]?).map (·.map some) :=
  lists_library (separate_after room ops h).2 i

/-- C153, as long as the program writes and appends only to lists that were made for it: the list `Devices`,
`Profiles`, `Nodes` or `Properties` returned holds for ever what was added until then. -/
theorem C153_snapshot_partial (before after : List (ListOp α)) (i : Nat) (xs : List α)
    (hi : (contents before)[i]? = some xs) (h : Minds room ListMem.init (before ++ .lend i :: after)) :
    (listsAfter room (before ++ .lend i :: after)).program (heldAfter room before) = some (xs.map some) := by
  have hb := ((minds_append _ _ _).mp h).1
  have ha := ((minds_append _ _ _).mp h).2
  obtain ⟨g, hk⟩ := separate_after room before hb
  have hlib := lists_library hk i
  rw [hi] at hlib
  rw [listsAfter, run_two]
  dsimp only [heldAfter, listsAfter] at *
  generalize ListMem.init.run room before = s at *
  unfold ListMem.library at hlib
  cases hv : s.kept[i]? with
  | none => rw [hv] at hlib; cases hlib
  | some v =>
    rw [hv] at hlib
    have e : s.step room (.lend i) = { s with held := s.held ++ [⟨v, false⟩] } := by
      simp only [ListMem.step, hv]
    have hheld : (s.step room (.lend i)).held[s.held.length]? = some ⟨v, false⟩ := by rw [e]; simp
    show ((s.step room (.lend i)).run room after).program s.held.length = _
    rw [program_run after _ (separate_step g (.lend i) trivial) ha.2 _ _ hheld (.inl rfl)]
    unfold ListMem.program
    rw [hheld, e]
    exact hlib

/-- C153, with the same restriction: `Objects` returns a list of the program's own, with the elements of both lists,
which nothing the library does changes. -/
theorem C153_objects_partial (before after : List (ListOp α)) (i j : Nat) (xs ys : List α)
    (hi : (contents before)[i]? = some xs) (hj : (contents before)[j]? = some ys)
    (h : Minds room ListMem.init (before ++ .objects i j :: after)) (hl : ∀ op ∈ after, OfLibrary op) :
    (listsAfter room (before ++ .objects i j :: after)).program (heldAfter room before)
      = some ((xs ++ ys).map some) := by
  have hb := ((minds_append _ _ _).mp h).1
  have ha := ((minds_append _ _ _).mp h).2
  obtain ⟨g, hk⟩ := separate_after room before hb
  have h1 := lists_library hk i
  have h2 := lists_library hk j
  rw [hi] at h1
  rw [hj] at h2
  rw [listsAfter, run_two]
  dsimp only [heldAfter, listsAfter] at *
  generalize ListMem.init.run room before = s at *
  unfold ListMem.library at h1 h2
  cases hv : s.kept[i]? with
  | none => rw [hv] at h1; cases h1
  | some v =>
    cases hw : s.kept[j]? with
    | none => rw [hw] at h2; cases h2
    | some w =>
      rw [hv] at h1
      rw [hw] at h2
      have e : s.step room (.objects i j) = ⟨(s.cells.make (s.cells.shows v ++ s.cells.shows w) 0).1, s.kept,
          s.held ++ [⟨(s.cells.make (s.cells.shows v ++ s.cells.shows w) 0).2, true⟩]⟩ := by
        simp only [ListMem.step, hv, hw]
      have hheld : (s.step room (.objects i j)).held[s.held.length]?
          = some ⟨(s.cells.make (s.cells.shows v ++ s.cells.shows w) 0).2, true⟩ := by rw [e]; simp
      show ((s.step room (.objects i j)).run room after).program s.held.length = _
      rw [program_run after _ (separate_step g (.objects i j) trivial) ha.2 _ _ hheld (.inr hl)]
      unfold ListMem.program
      rw [hheld, e]
      show some _ = some _
      dsimp only
      rw [make_shown, Option.some.inj h1, Option.some.inj h2, List.map_append]

/-- What a step of the program does to the lists of the library once it has asked for list `i`. -/
theorem lent_state (before : List (ListOp α)) (i : Nat) (xs : List α) (hi : (contents before)[i]? = some xs)
    (h : Minds room ListMem.init before) :
    ∃ v, (listsAfter room before).kept[i]? = some v ∧ Inside (listsAfter room before).cells v ∧
      (listsAfter room before).cells.shows v = xs.map some ∧
      listsAfter room (before ++ [.lend i])
        = ⟨(listsAfter room before).cells, (listsAfter room before).kept,
            (listsAfter room before).held ++ [⟨v, false⟩]⟩ := by
  obtain ⟨g, hk⟩ := separate_after room before h
  have hlib := lists_library hk i
  rw [hi] at hlib
  unfold ListMem.library at hlib
  cases hv : (listsAfter room before).kept[i]? with
  | none => rw [hv] at hlib; cases hlib
  | some v =>
    rw [hv] at hlib
    refine ⟨v, rfl, (g.kept v (List.mem_of_getElem? hv)).1, Option.some.inj hlib, ?_⟩
    rw [listsAfter, run_two]
    show (listsAfter room before).step room (.lend i) = _
    simp only [ListMem.step, hv]

/-- C153 is false: a program that writes an element of the list it got replaces the element of the library. -/
theorem C153_refuted_write (before : List (ListOp α)) (i k : Nat) (x : α) (xs : List α)
    (hi : (contents before)[i]? = some xs) (hk : k < xs.length) (h : Minds room ListMem.init before) :
    (listsAfter room (before ++ [.lend i, .write (heldAfter room before) k x])).library i
      = some ((xs.set k x).map some) := by
  obtain ⟨v, hv, hf, hs, e⟩ := lent_state room before i xs hi h
  have hl : v.len = xs.length := by
    have := congrArg List.length hs
    unfold Cells.shows at this
    simp only [List.length_take, List.length_drop, List.length_map] at this
    have := hf.2.1
    have := hf.2.2
    omega
  rw [show before ++ [ListOp.lend i, .write (heldAfter room before) k x]
    = (before ++ [.lend i]) ++ [.write (heldAfter room before) k x] by simp, listsAfter, run_two]
  rw [show ListMem.init.run room (before ++ [ListOp.lend i]) = _ from e]
  dsimp only [heldAfter]
  clear e
  generalize listsAfter room before = s at *
  simp only [ListMem.run, List.foldl]
  simp only [ListMem.step, List.getElem?_concat_length, hl, if_pos hk]
  unfold ListMem.library
  dsimp only
  rw [hv]
  show some _ = some _
  rw [put_set _ _ _ _ hf (by omega), hs, List.map_set]

/-- The array of list `i` of the library has room. -/
def Spare (s : ListMem α) (i : Nat) : Prop := ∃ v, s.kept[i]? = some v ∧ v.len < v.cap

/-- C153 is false: when the array has room, a program that appends to the list it got replaces what the library added
since. -/
theorem C153_refuted_append (before : List (ListOp α)) (i : Nat) (x y : α) (xs : List α)
    (hi : (contents before)[i]? = some xs) (h : Minds room ListMem.init before)
    (hr : Spare (listsAfter room before) i) :
    (listsAfter room (before ++ [.lend i, .add i y, .push (heldAfter room before) x])).library i
      = some ((xs ++ [x]).map some) := by
  obtain ⟨v, hv, hf, hs, e⟩ := lent_state room before i xs hi h
  obtain ⟨v', hv', hr⟩ := hr
  rw [hv] at hv'
  cases Option.some.inj hv'
  rw [show before ++ [ListOp.lend i, .add i y, .push (heldAfter room before) x]
    = (before ++ [.lend i]) ++ [.add i y, .push (heldAfter room before) x] by simp, listsAfter, run_two]
  rw [show ListMem.init.run room (before ++ [ListOp.lend i]) = _ from e]
  dsimp only [heldAfter]
  clear e
  generalize listsAfter room before = s at *
  simp only [ListMem.run, List.foldl]
  have hlt := (List.getElem?_eq_some_iff.mp hv).1
  simp only [ListMem.step, hv, Cells.append, if_pos hr, List.getElem?_concat_length]
  unfold ListMem.library
  dsimp only
  rw [List.getElem?_set_self hlt]
  show some _ = some _
  have hf' := put_keeps s.cells v v.len y v hf
  have h2 := append_shown (room := room) (s.cells.put v v.len y) v x hf'
  simp only [Cells.append, if_pos hr] at h2
  rw [h2, put_shows _ _ _ _ _ (fun _ => Nat.le_refl _), hs]
  simp

/-- C153 is false: when the array has room, what the library adds replaces what the program appended to the list it
got. -/
theorem C153_refuted_added (before : List (ListOp α)) (i : Nat) (x y : α) (xs : List α)
    (hi : (contents before)[i]? = some xs) (h : Minds room ListMem.init before)
    (hr : Spare (listsAfter room before) i) :
    (listsAfter room (before ++ [.lend i, .push (heldAfter room before) x])).program (heldAfter room before + 1)
      = some ((xs ++ [x]).map some) ∧
    (listsAfter room (before ++ [.lend i, .push (heldAfter room before) x, .add i y])).program
      (heldAfter room before + 1) = some ((xs ++ [y]).map some) := by
  obtain ⟨v, hv, hf, hs, e⟩ := lent_state room before i xs hi h
  obtain ⟨v', hv', hr⟩ := hr
  rw [hv] at hv'
  cases Option.some.inj hv'
  have e1 : listsAfter room (before ++ [.lend i, .push (heldAfter room before) x])
      = ⟨(listsAfter room before).cells.put v v.len x, (listsAfter room before).kept,
          (listsAfter room before).held ++ [⟨v, false⟩] ++ [⟨{ v with len := v.len + 1 }, false⟩]⟩ := by
    rw [show before ++ [ListOp.lend i, .push (heldAfter room before) x]
      = (before ++ [.lend i]) ++ [.push (heldAfter room before) x] by simp, listsAfter, run_two]
    rw [show ListMem.init.run room (before ++ [ListOp.lend i]) = _ from e]
    dsimp only [heldAfter]
    clear e
    generalize listsAfter room before = s at *
    simp only [ListMem.run, List.foldl]
    simp only [ListMem.step, Cells.append, if_pos hr, List.getElem?_concat_length]
  have e2 : listsAfter room (before ++ [.lend i, .push (heldAfter room before) x, .add i y])
      = (listsAfter room (before ++ [.lend i, .push (heldAfter room before) x])).step room (.add i y) := by
    rw [show before ++ [ListOp.lend i, .push (heldAfter room before) x, .add i y]
      = (before ++ [.lend i, .push (heldAfter room before) x]) ++ [.add i y] by simp, listsAfter, run_two]
    rfl
  rw [e2, e1]
  dsimp only [heldAfter]
  clear e1 e2 e
  generalize listsAfter room before = s at *
  have hidx : ∀ a b : HeldList, (s.held ++ [a] ++ [b])[s.held.length + 1]? = some b := by
    intro a b
    rw [List.getElem?_append_right (by simp)]
    simp
  have hx := append_shown (room := room) s.cells v x hf
  have hy := append_shown (room := room) (s.cells.put v v.len x) v y (put_keeps _ _ _ _ _ hf)
  simp only [Cells.append, if_pos hr] at hx hy
  constructor
  · unfold ListMem.program
    rw [hidx]
    show some _ = some _
    dsimp only
    rw [hx, hs]
    simp
  · simp only [ListMem.step, hv, Cells.append, if_pos hr]
    unfold ListMem.program
    dsimp only
    rw [hidx]
    show some _ = some _
    dsimp only
    rw [hy, put_shows _ _ _ _ _ (fun _ => Nat.le_refl _), hs]
    simp

/-- As the Go runtime does for short lists: it doubles the capacity. -/
def doubling (cap len : Nat) : Nat := 2 * cap - (len + 1)

/-- A node with three devices: there is room for a fourth. -/
example : Minds doubling (ListMem.init : ListMem Nat) [.new, .add 0 1, .add 0 2, .add 0 3] ∧
    Spare (listsAfter doubling [.new, .add 0 1, .add 0 2, .add 0 3]) 0 ∧
    (contents [.new, .add 0 1, .add 0 2, .add 0 3])[0]? = some [1, 2, 3] :=
  ⟨⟨trivial, trivial, trivial, trivial, trivial⟩, ⟨⟨3, 0, 3, 4⟩, by decide, by decide⟩, by decide⟩

/-- A program that gets the list of a node, gets a list of all objects and writes to that. -/
example : Minds doubling (ListMem.init : ListMem Nat)
      [.new, .new, .add 0 1, .add 1 7, .lend 0, .objects 0 1, .write 1 0 9, .push 1 8, .add 0 2] ∧
    (listsAfter doubling
      [.new, .new, .add 0 1, .add 1 7, .lend 0, .objects 0 1, .write 1 0 9, .push 1 8, .add 0 2]).program 0
      = some [some 1] ∧
    (listsAfter doubling
      [.new, .new, .add 0 1, .add 1 7, .lend 0, .objects 0 1, .write 1 0 9, .push 1 8, .add 0 2]).program 2
      = some [some 9, some 7, some 8] := by
  refine ⟨⟨trivial, trivial, trivial, trivial, trivial, trivial, ?_, ?_, trivial, trivial⟩, by decide, by decide⟩ <;>
  · intro l h
    revert h
    revert l
    simp [ListMem.step, ListMem.init, Cells.make, Cells.append, Cells.shows, Cells.put]
    try decide

end Verif.Props
