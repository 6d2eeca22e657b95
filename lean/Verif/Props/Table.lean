import Verif.Model.Cmd
import Verif.Spec.Cmd

/-! # C66: hiding repetitions in tables -/

namespace Verif.Props
open Verif Model Spec

/-- A row below the row `prev`, with a repeated cell hidden. -/
def hideCell (k : Nat) (prev row : Row) : Row :=
  if row.getD k [] = prev.getD k [] ∧ (k = 0 ∨ row.getD (k - 1) [] = []) then row.set k [] else row

def hideBelow (k : Nat) : Row → List Row → List Row
  | _, [] => []
  | prev, row :: rows => hideCell k prev row :: hideBelow k row rows

def hideColumn (k : Nat) : List Row → List Row
  | [] => []
  | row :: rows => row :: hideBelow k row rows

theorem rd_getD {row : Row} {k : Nat} (h : k < row.length) : rd row k = .ok (row.getD k []) := by
  unfold rd
  rw [List.getElem?_eq_getElem h]
  simp [List.getD_eq_getElem?_getD, List.getElem?_eq_getElem h]

theorem stripRow_eq (k : Nat) (prev row : Row) (h : k < row.length) :
    stripRow k (prev.getD k []) row = .ok (hideCell k prev row, row.getD k []) := by
  have hw : wr row k [] = .ok (row.set k []) := by unfold wr; rw [if_pos h]
  unfold stripRow hideCell
  rw [rd_getD h]
  simp only [Res.ok_bind]
  by_cases he : row.getD k [] = prev.getD k []
  · rw [if_pos he]
    by_cases hk : k = 0
    · rw [if_pos hk, hw, if_pos ⟨he, .inl hk⟩, he]; rfl
    · rw [if_neg hk, rd_getD (show k - 1 < row.length by omega)]
      simp only [Res.ok_bind]
      by_cases hl : row.getD (k - 1) [] = []
      · rw [if_pos hl, hw, if_pos ⟨he, .inr hl⟩, he]; rfl
      · rw [if_neg hl, if_neg (fun h => h.2.elim hk hl), he]
  · rw [if_neg he, if_neg (fun h => he h.1)]

theorem stripRows_eq (k : Nat) (prev : Row) (rows : List Row) (h : ∀ r ∈ rows, k < r.length) :
    stripRows k (prev.getD k []) rows = .ok (hideBelow k prev rows) := by
  induction rows generalizing prev with
  | nil => rfl
  | cons row rows ih =>
    unfold stripRows
    rw [stripRow_eq k prev row (h row (by simp))]
    simp only [Res.ok_bind]
    rw [ih row (fun r hr => h r (by simp [hr]))]
    rfl

theorem strip_eq (k : Nat) (rows : List Row) (h : ∀ r ∈ rows, k < r.length) :
    stripDuplicateRowColumns rows k = .ok (hideColumn k rows) := by
  cases rows with
  | nil => rfl
  | cons row rows =>
    unfold stripDuplicateRowColumns
    simp only
    rw [rd_getD (h row (by simp))]
    simp only [Res.ok_bind]
    rw [stripRows_eq k row rows (fun r hr => h r (by simp [hr]))]
    rfl

theorem hideCell_length (k : Nat) (prev row : Row) : (hideCell k prev row).length = row.length := by
  unfold hideCell; split <;> simp

theorem hideBelow_lengths (k : Nat) (prev : Row) (rows : List Row) :
    (hideBelow k prev rows).map List.length = rows.map List.length := by
  induction rows generalizing prev with
  | nil => rfl
  | cons row rows ih => simp [hideBelow, hideCell_length, ih row]

theorem hideColumn_lengths (k : Nat) (rows : List Row) :
    (hideColumn k rows).map List.length = rows.map List.length := by
  cases rows with
  | nil => rfl
  | cons row rows => simp [hideColumn, hideBelow_lengths]

theorem hideBelow_other (k j : Nat) (hj : j ≠ k) (prev : Row) (rows : List Row) :
    column (hideBelow k prev rows) j = column rows j := by
  induction rows generalizing prev with
  | nil => rfl
  | cons row rows ih =>
    have : (hideCell k prev row).getD j [] = row.getD j [] := by
      unfold hideCell
      split
      · simp only [List.getD_eq_getElem?_getD]
        rw [List.getElem?_set_ne (Ne.symm hj)]
      · rfl
    unfold column at ih ⊢
    simp only [hideBelow, List.map_cons, this, ih row]

theorem hideColumn_other (k j : Nat) (hj : j ≠ k) (rows : List Row) :
    column (hideColumn k rows) j = column rows j := by
  cases rows with
  | nil => rfl
  | cons row rows =>
    have := hideBelow_other k j hj row rows
    unfold column at this ⊢
    simp only [hideColumn, List.map_cons, this]

theorem hideBelow_fill (k : Nat) (prev : Row) (rows : List Row)
    (hn : ∀ r ∈ rows, r.getD k [] ≠ []) :
    fillDown (prev.getD k []) (column (hideBelow k prev rows) k) = column rows k := by
  induction rows generalizing prev with
  | nil => rfl
  | cons row rows ih =>
    have hr := hn row (by simp)
    have ih := ih row (fun r h => hn r (by simp [h]))
    unfold column at ih ⊢
    simp only [hideBelow, List.map_cons, fillDown]
    unfold hideCell
    by_cases hc : row.getD k [] = prev.getD k [] ∧ (k = 0 ∨ row.getD (k - 1) [] = [])
    · rw [if_pos hc]
      have hk : k < row.length := by
        apply Classical.byContradiction
        intro h
        apply hr
        rw [List.getD_eq_getElem?_getD, List.getElem?_eq_none (by omega)]; rfl
      have e : (row.set k []).getD k [] = [] := by
        simp [List.getD_eq_getElem?_getD, List.getElem?_set_self hk]
      rw [e, if_pos rfl, ← hc.1, ih]
    · rw [if_neg hc, if_neg hr, ih]

theorem hideColumn_fill (k : Nat) (rows : List Row) (hn : ∀ r ∈ rows, r.getD k [] ≠ []) :
    fillDown [] (column (hideColumn k rows) k) = column rows k := by
  cases rows with
  | nil => rfl
  | cons row rows =>
    have hr := hn row (by simp)
    have := hideBelow_fill k row rows (fun r h => hn r (by simp [h]))
    unfold column at this ⊢
    simp only [hideColumn, List.map_cons, fillDown]
    rw [if_neg hr, this]

/-- The cell at a place, blank outside of the table. -/
def cellAt (rows : List Row) (i k : Nat) : Str := (rows.getD i []).getD k []

theorem hideBelow_cell (k : Nat) (prev : Row) (rows : List Row) (h : ∀ r ∈ rows, k < r.length) (i : Nat) :
    cellAt (hideBelow k prev rows) i k =
      if i < rows.length ∧ cellAt rows i k = cellAt (prev :: rows) i k ∧
        (k = 0 ∨ cellAt rows i (k - 1) = []) then [] else cellAt rows i k := by
  induction rows generalizing prev i with
  | nil => simp [cellAt, hideBelow]
  | cons row rows ih =>
    cases i with
    | zero =>
      have hk := h row (by simp)
      simp only [cellAt, hideBelow, List.getD_cons_zero, List.length_cons, Nat.zero_lt_succ, true_and]
      unfold hideCell
      split
      · simp [List.getD_eq_getElem?_getD, List.getElem?_set_self hk]
      · rfl
    | succ i =>
      have := ih row (fun r hr => h r (by simp [hr])) i
      simp only [cellAt, hideBelow, List.getD_cons_succ, List.length_cons, Nat.add_lt_add_iff_right] at this ⊢
      exact this

/-- Hiding repetitions in a column: the table keeps its shape and the other columns; a cell becomes
blank exactly if it is not in the first row, repeats the cell above it, and the cell left of it (if there
is one) is blank; every other cell of the column is kept. -/
theorem C66_column (rows : List Row) (k : Nat) (h : ∀ r ∈ rows, k < r.length) :
    ∃ out, stripDuplicateRowColumns rows k = .ok out ∧
      out.map List.length = rows.map List.length ∧
      (∀ j, j ≠ k → column out j = column rows j) ∧
      ∀ i, i < rows.length → cellAt out i k =
        if i ≠ 0 ∧ cellAt rows i k = cellAt rows (i - 1) k ∧ (k = 0 ∨ cellAt rows i (k - 1) = [])
        then [] else cellAt rows i k := by
  refine ⟨_, strip_eq k rows h, hideColumn_lengths k rows, fun j hj => hideColumn_other k j hj rows, ?_⟩
  intro i hi
  cases rows with
  | nil => simp at hi
  | cons row rows =>
    cases i with
    | zero => simp [hideColumn, cellAt]
    | succ i =>
      have := hideBelow_cell k row rows (fun r hr => h r (by simp [hr])) i
      have hi' : i < rows.length := by simpa using hi
      simp only [hi', true_and] at this
      simp only [hideColumn, Nat.add_sub_cancel, Nat.succ_ne_zero, ne_eq, not_false_eq_true, true_and]
      have e : ∀ (l : List Row) j, cellAt (row :: l) (i + 1) j = cellAt l i j := by
        intro l j; simp [cellAt]
      rw [e, e, e]
      exact this

/-- The same table, with some cells of the given columns hidden so that they can be read back. -/
structure Hidden (idxs : List Nat) (rows out : List Row) : Prop where
  shape : out.map List.length = rows.map List.length
  others : ∀ j, j ∉ idxs → column out j = column rows j
  readable : ∀ k ∈ idxs, (∀ r ∈ rows, r.getD k [] ≠ []) → fillDown [] (column out k) = column rows k

theorem mem_shape {rows out : List Row} (h : out.map List.length = rows.map List.length) {k : Nat}
    (hr : ∀ r ∈ rows, k < r.length) : ∀ r ∈ out, k < r.length := by
  intro r hm
  have : r.length ∈ rows.map List.length := h ▸ List.mem_map_of_mem hm
  obtain ⟨r', hm', e⟩ := List.mem_map.mp this
  rw [← e]; exact hr r' hm'

theorem column_nonblank {rows out : List Row} {k : Nat} (h : column out k = column rows k)
    (hn : ∀ r ∈ rows, r.getD k [] ≠ []) : ∀ r ∈ out, r.getD k [] ≠ [] := by
  intro r hm
  have : r.getD k [] ∈ column rows k := h ▸ List.mem_map_of_mem hm
  obtain ⟨r', hm', e⟩ := List.mem_map.mp this
  rw [← e]; exact hn r' hm'

theorem hide_all (idxs done : List Nat) (rows mid : List Row) (hd : (done ++ idxs).Nodup)
    (hr : ∀ k ∈ idxs, ∀ r ∈ rows, k < r.length) (hh : Hidden done rows mid) :
    ∃ out, idxs.foldlM stripDuplicateRowColumns mid = .ok out ∧ Hidden (done ++ idxs) rows out := by
  induction idxs generalizing done mid with
  | nil => exact ⟨mid, rfl, by rwa [List.append_nil]⟩
  | cons k idxs ih =>
    have hk : k ∉ done := by
      intro h
      rw [List.nodup_append] at hd
      exact hd.2.2 k h k (by simp) rfl
    have hl := mem_shape hh.shape (hr k (by simp))
    have hnew : Hidden (done ++ [k]) rows (hideColumn k mid) := by
      refine ⟨(hideColumn_lengths k mid).trans hh.shape, ?_, ?_⟩
      · intro j hj
        rw [List.mem_append, not_or, List.mem_singleton] at hj
        rw [hideColumn_other k j hj.2, hh.others j hj.1]
      · intro j hj hn
        by_cases e : j = k
        · subst e
          rw [hideColumn_fill j mid (column_nonblank (hh.others j hk) hn), hh.others j hk]
        · have : j ∈ done := by
            rcases List.mem_append.mp hj with h | h
            · exact h
            · exact absurd (List.mem_singleton.mp h) e
          rw [hideColumn_other k j e, hh.readable j this hn]
    obtain ⟨out, ho, hf⟩ := ih (done ++ [k]) (hideColumn k mid)
      (by rw [List.append_assoc]; exact hd) (fun j hj => hr j (by simp [hj])) hnew
    refine ⟨out, ?_, by rw [List.append_assoc] at hf; exact hf⟩
    rw [List.foldlM_cons, strip_eq k mid hl]
    exact ho

/-- Hiding repetitions in several columns, then leaving out the blank rows: before rows are left out the
table has the shape it had, the other columns are as they were, and filling the blanks of a hidden column
from above gives back the original column, provided the original column has no blank cell; the rows left out
are exactly those that have only blank cells. Missing for the whole property: columns with blank cells. -/
theorem C66_partial (t : Table) (idxs : List Nat) (hd : idxs.Nodup)
    (hr : ∀ k ∈ idxs, ∀ r ∈ t.rows, k < r.length) :
    ∃ out, t.hideDuplicateColumns idxs =
        .ok { columns := t.columns, rows := out.filter (fun r => ¬ ∀ c ∈ r, c = []) } ∧
      out.map List.length = t.rows.map List.length ∧
      (∀ j, j ∉ idxs → column out j = column t.rows j) ∧
      ∀ k ∈ idxs, (∀ r ∈ t.rows, r.getD k [] ≠ []) → fillDown [] (column out k) = column t.rows k := by
  obtain ⟨out, ho, hf⟩ := hide_all idxs [] t.rows t.rows (by simpa using hd) hr
    ⟨rfl, fun _ _ => rfl, by simp⟩
  rw [List.nil_append] at hf
  refine ⟨out, ?_, hf.shape, hf.others, hf.readable⟩
  unfold Table.hideDuplicateColumns
  rw [ho]
  simp only [Res.ok_bind, Table.filterEmptyRows, Res.ok.injEq, Table.mk.injEq, true_and]
  apply List.filter_congr
  intro r _
  rw [Bool.eq_iff_iff]
  simp

/-- A table as scanning prints it. -/
def scanTable : Table where
  columns := ["node".toList, "object".toList, "property".toList]
  rows := [["n1".toList, "o1".toList, "80".toList], ["n1".toList, "o1".toList, "81".toList],
    ["n1".toList, "o2".toList, "80".toList], ["n2".toList, "o2".toList, "80".toList]]

example : scanTable.hideDuplicateColumns [0, 1] = .ok { scanTable with rows :=
    [["n1".toList, "o1".toList, "80".toList], [[], [], "81".toList],
     [[], "o2".toList, "80".toList], ["n2".toList, "o2".toList, "80".toList]] } := by decide +kernel

example : scanTable.hideDuplicateColumns [0, 1, 2] = .ok { scanTable with rows :=
    [["n1".toList, "o1".toList, "80".toList], [[], [], "81".toList],
     [[], "o2".toList, "80".toList], ["n2".toList, "o2".toList, "80".toList]] } := by decide +kernel

example : [0, 1].Nodup ∧ (∀ k ∈ [0, 1], ∀ r ∈ scanTable.rows, k < r.length) ∧
    ∀ k ∈ [0, 1], ∀ r ∈ scanTable.rows, r.getD k [] ≠ [] := by decide

/-- The claim fails for columns with blank cells: a blank cell that is not below a blank one stays as it is,
and is then read as a repetition. -/
theorem C66_refuted (rows : List Row) (i : Nat) (h : ∀ r ∈ rows, 0 < r.length) (hi : i + 1 < rows.length)
    (hu : cellAt rows i 0 ≠ []) (hb : cellAt rows (i + 1) 0 = []) :
    ∃ out, stripDuplicateRowColumns rows 0 = .ok out ∧ fillDown [] (column out 0) ≠ column rows 0 := by
  refine ⟨_, strip_eq 0 rows h, fun e => ?_⟩
  have key : ∀ (l : List Str) (a : Str) (n : Nat), n + 1 < l.length → (fillDown a l).getD n [] ≠ [] →
      (fillDown a l).getD (n + 1) [] ≠ [] := by
    intro l
    induction l with
    | nil => intro a n hn; simp at hn
    | cons c cs ih =>
      intro a n hn h1
      cases n with
      | zero =>
        cases cs with
        | nil => simp at hn
        | cons d ds =>
          simp only [fillDown, List.getD_cons_zero, List.getD_cons_succ] at h1 ⊢
          split
          · exact h1
          · assumption
      | succ n =>
        simp only [fillDown, List.getD_cons_succ] at h1 ⊢
        exact ih _ n (by simpa using hn) h1
  have hc : ∀ n, n < rows.length → (column rows 0).getD n [] = cellAt rows n 0 := by
    intro n hn
    unfold column cellAt
    simp [List.getD_eq_getElem?_getD, List.getElem?_map, List.getElem?_eq_getElem hn]
  have hlen : (column (hideColumn 0 rows) 0).length = rows.length := by
    have := congrArg List.length (hideColumn_lengths 0 rows)
    simpa [column] using this
  have h1 := key (column (hideColumn 0 rows) 0) [] i (by omega)
    (by rw [e, hc i (by omega)]; exact hu)
  rw [e, hc (i + 1) hi] at h1
  exact h1 hb

example : fillDown [] ["a".toList, []] = ["a".toList, "a".toList] := by decide

theorem fillDown_blank (l : List Str) (a : Str) (i : Nat) (h : i < l.length) (hb : l.getD i [] = []) :
    (fillDown a l).getD i [] = if i = 0 then a else (fillDown a l).getD (i - 1) [] := by
  induction l generalizing a i with
  | nil => simp at h
  | cons c cs ih =>
    cases i with
    | zero =>
      rw [List.getD_cons_zero] at hb
      subst hb
      rfl
    | succ i =>
      rw [List.getD_cons_succ] at hb
      simp only [fillDown, List.getD_cons_succ]
      rw [ih _ i (by simpa using h) hb, if_neg (Nat.succ_ne_zero i)]
      cases i with
      | zero => rfl
      | succ i => rw [if_neg (Nat.succ_ne_zero i)]; rfl

theorem getD_of_some {α : Type} {l : List α} {i : Nat} {x d : α} (h : l[i]? = some x) : l.getD i d = x := by
  rw [List.getD_eq_getElem?_getD, h]; rfl

/-- A row is left out of the output only if it repeats the row above it, when repetitions are hidden in
every column of a table without blank cells. -/
theorem C66_dropped (t : Table) (idxs : List Nat) (hd : idxs.Nodup) (w : Nat) (hw : 0 < w)
    (hr : ∀ r ∈ t.rows, r.length = w) (hi : ∀ k, k ∈ idxs ↔ k < w) (hb : ∀ r ∈ t.rows, ∀ c ∈ r, c ≠ []) :
    ∃ out : List Row, t.hideDuplicateColumns idxs =
        .ok { columns := t.columns, rows := out.filter (fun r => ¬ ∀ c ∈ r, c = []) } ∧
      out.length = t.rows.length ∧
      ∀ (i : Nat) (r : Row), out[i]? = some r → (∀ c ∈ r, c = []) → 0 < i ∧ t.rows[i]? = t.rows[i - 1]? := by
  obtain ⟨out, h1, h2, _, h4⟩ := C66_partial t idxs hd (fun k hk r hrm => by rw [hr r hrm]; exact (hi k).mp hk)
  have hlen : out.length = t.rows.length := by
    have := congrArg List.length h2
    simpa using this
  have hget : ∀ r ∈ t.rows, ∀ k, k < w → r.getD k [] ≠ [] := by
    intro r hrm k hk
    have hk' : k < r.length := by rw [hr r hrm]; exact hk
    rw [List.getD_eq_getElem?_getD, List.getElem?_eq_getElem hk']
    exact hb r hrm _ (List.getElem_mem hk')
  refine ⟨out, h1, hlen, fun i r hir hblank => ?_⟩
  have hio : i < out.length := (List.getElem?_eq_some_iff.mp hir).1
  have hit : i < t.rows.length := by omega
  have cell : ∀ (rows : List Row) (i k : Nat), i < rows.length →
      (column rows k).getD i [] = (rows.getD i []).getD k [] := by
    intro rows i k h
    unfold column
    rw [getD_of_some (x := rows[i].getD k []) (by rw [List.getElem?_map, List.getElem?_eq_getElem h]; rfl),
      getD_of_some (List.getElem?_eq_getElem h)]
  have key : ∀ k, k < w → (column t.rows k).getD i [] =
      if i = 0 then [] else (column t.rows k).getD (i - 1) [] := by
    intro k hk
    have e := h4 k ((hi k).mpr hk) (fun r hrm => hget r hrm k hk)
    rw [← e]
    refine fillDown_blank _ [] i (by simpa [column] using hio) ?_
    rw [cell out i k hio, getD_of_some hir]
    rw [List.getD_eq_getElem?_getD]
    cases hk : r[k]? with
    | none => rfl
    | some c => exact hblank c (List.mem_of_getElem? hk)
  have hpos : 0 < i := by
    apply Nat.pos_of_ne_zero
    rintro rfl
    have := key 0 hw
    rw [if_pos rfl, cell _ _ _ hit, getD_of_some (List.getElem?_eq_getElem hit)] at this
    exact hget _ (List.getElem_mem hit) 0 hw this
  refine ⟨hpos, ?_⟩
  have hit' : i - 1 < t.rows.length := by omega
  rw [List.getElem?_eq_getElem hit, List.getElem?_eq_getElem hit']
  refine congrArg some (List.ext_getElem ?_ ?_)
  · rw [hr _ (List.getElem_mem hit), hr _ (List.getElem_mem hit')]
  · intro k hk1 hk2
    have hk : k < w := by rw [hr _ (List.getElem_mem hit)] at hk1; exact hk1
    have := key k hk
    rwa [if_neg (by omega), cell _ _ _ hit, cell _ _ _ hit', getD_of_some (List.getElem?_eq_getElem hit),
      getD_of_some (List.getElem?_eq_getElem hit'), getD_of_some (List.getElem?_eq_getElem hk1),
      getD_of_some (List.getElem?_eq_getElem hk2)] at this

/-- The third row repeats the second; the fourth repeats only the first. -/
example : (Table.mk ["k".toList, "v".toList] [["a".toList, "x".toList], ["b".toList, "y".toList], ["b".toList, "y".toList],
      ["a".toList, "x".toList]]).hideDuplicateColumns [0, 1] =
    .ok ⟨["k".toList, "v".toList], [["a".toList, "x".toList], ["b".toList, "y".toList], ["a".toList, "x".toList]]⟩ := by
  decide

end Verif.Props
