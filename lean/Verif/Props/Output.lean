import Verif.Model.Scan
import Verif.Model.Cmd
import Verif.Spec.Cmd
import Verif.Props.Hex

/-! # C76, C77: comma separated output and names of formats -/

namespace Verif.Props
open Verif Model Spec

theorem splitOn_ne (d : Char) (s : Str) : splitOn d s ≠ [] := by
  cases s with
  | nil => simp [splitOn]
  | cons c cs =>
    unfold splitOn
    split
    · simp
    · split <;> simp

theorem splitOn_none (d : Char) (s : Str) (h : d ∉ s) : splitOn d s = [s] := by
  induction s with
  | nil => rfl
  | cons c cs ih =>
    rw [List.mem_cons, not_or] at h
    unfold splitOn
    rw [if_neg (Ne.symm h.1), ih h.2]

theorem splitOn_some (d : Char) (a b : Str) (h : d ∉ a) : splitOn d (a ++ d :: b) = a :: splitOn d b := by
  induction a with
  | nil => simp [splitOn]
  | cons c cs ih =>
    rw [List.mem_cons, not_or] at h
    show splitOn d (c :: (cs ++ d :: b)) = _
    rw [splitOn, if_neg (Ne.symm h.1), ih h.2]

theorem splitOn_join (row : Row) (hn : row ≠ []) (h : ∀ c ∈ row, ',' ∉ c) :
    splitOn ',' (joinComma row) = row := by
  induction row with
  | nil => exact absurd rfl hn
  | cons c cs ih =>
    cases cs with
    | nil => exact splitOn_none ',' c (h c (by simp))
    | cons d ds =>
      rw [joinComma, List.append_assoc]
      · show splitOn ',' (c ++ ',' :: joinComma (d :: ds)) = _
        rw [splitOn_some ',' c _ (h c (by simp)), ih (by simp) (fun x hx => h x (by simp [hx]))]
      · simp

theorem join_newline (row : Row) (h : ∀ c ∈ row, '\n' ∉ c) : '\n' ∉ joinComma row := by
  induction row with
  | nil => simp [joinComma]
  | cons c cs ih =>
    cases cs with
    | nil => exact h c (by simp)
    | cons d ds =>
      rw [joinComma]
      · simp only [List.mem_append, List.mem_singleton, not_or]
        exact ⟨⟨h c (by simp), by decide⟩, ih (fun x hx => h x (by simp [hx]))⟩
      · simp

/-- The text of the rows, read back as lines. -/
theorem lines_back (rows : List Row) (hn : ∀ r ∈ rows, r ≠ []) (h : ∀ r ∈ rows, ∀ c ∈ r, '\n' ∉ c) :
    readCsv (rows.flatMap (fun row => if row.length = 0 then [] else joinComma row ++ ['\n'])) =
      rows.map (fun r => splitOn ',' (joinComma r)) := by
  unfold readCsv
  have key : (splitOn '\n' (rows.flatMap (fun row => if row.length = 0 then [] else joinComma row ++ ['\n']))) =
      rows.map joinComma ++ [[]] := by
    induction rows with
    | nil => rfl
    | cons r rows ih =>
      have hr : r.length ≠ 0 := by
        have := hn r (by simp)
        intro e; exact this (List.length_eq_zero_iff.mp e)
      rw [List.flatMap_cons, if_neg hr, List.append_assoc, List.singleton_append]
      rw [splitOn_some '\n' _ _ (join_newline r (h r (by simp))),
        ih (fun x hx => hn x (by simp [hx])) (fun x hx => h x (by simp [hx]))]
      rfl
  rw [key, List.dropLast_concat, List.map_map]
  rfl

/-- A table whose cells contain neither comma nor line feed is read back from its comma separated output: the
line of the columns, then the rows, cell by cell. Missing for the whole property: cells with commas
(`C76_refuted`). -/
theorem C76_partial (t : Table) (hn : ∀ r ∈ t.columns :: t.rows, r ≠ [])
    (h : ∀ r ∈ t.columns :: t.rows, ∀ c ∈ r, ',' ∉ c ∧ '\n' ∉ c) :
    readCsv t.csv = t.columns :: t.rows := by
  unfold Table.csv
  rw [lines_back _ hn (fun r hr c hc => (h r hr c hc).2)]
  conv => rhs; rw [← List.map_id (t.columns :: t.rows)]
  apply List.map_congr_left
  intro r hr
  exact splitOn_join r (hn r hr) (fun c hc => (h r hr c hc).1)

theorem splitOn_length (d : Char) (s : Str) : (splitOn d s).length = s.count d + 1 := by
  induction s with
  | nil => rfl
  | cons c cs ih =>
    unfold splitOn
    by_cases h : c = d
    · rw [if_pos h, List.length_cons, ih, h, List.count_cons_self]
    · rw [if_neg h, List.count_cons_of_ne h, ← ih]
      split
      · next e => exact absurd e (splitOn_ne d cs)
      · next e => rw [e]; rfl

theorem join_count (row : Row) (hn : row ≠ []) :
    (joinComma row).count ',' + 1 = (row.map (List.count ',')).sum + row.length := by
  induction row with
  | nil => exact absurd rfl hn
  | cons c cs ih =>
    cases cs with
    | nil => simp [joinComma]
    | cons d ds =>
      have := ih (by simp)
      rw [joinComma]
      · rw [List.count_append, List.count_append]
        simp only [List.map_cons, List.sum_cons, List.length_cons] at this ⊢
        have e : List.count ',' [','] = 1 := by decide
        omega
      · simp

theorem sum_pos_of_mem (l : List Nat) {n : Nat} (h : n ∈ l) : n ≤ l.sum := by
  induction l with
  | nil => cases h
  | cons a l ih =>
    rw [List.sum_cons]
    rcases List.mem_cons.mp h with rfl | h
    · omega
    · have := ih h; omega

/-- The claim fails for every table that has a cell with a comma: its output is read back as another
table. -/
theorem C76_refuted (t : Table) (hn : ∀ r ∈ t.columns :: t.rows, r ≠ [])
    (h : ∀ r ∈ t.columns :: t.rows, ∀ c ∈ r, '\n' ∉ c)
    (hc : ∃ r ∈ t.columns :: t.rows, ∃ c ∈ r, ',' ∈ c) :
    readCsv t.csv ≠ t.columns :: t.rows := by
  unfold Table.csv
  rw [lines_back _ hn h]
  intro e
  obtain ⟨r, hr, c, hcr, hcc⟩ := hc
  have e' : (t.columns :: t.rows).map (fun r => splitOn ',' (joinComma r)) =
      (t.columns :: t.rows).map id := by rw [List.map_id]; exact e
  have := List.map_inj_left.mp e' r hr
  have hl := congrArg List.length this
  rw [splitOn_length, id] at hl
  have h1 := join_count r (hn r hr)
  have h2 := sum_pos_of_mem (r.map (List.count ',')) (List.mem_map_of_mem hcr)
  have h3 := List.count_pos_iff.mpr hcc
  omega

/-- A table without commas, and the same with one comma in a cell. -/
example :
    let t : Table := ⟨["name".toList, "code".toList], [["a b".toList, []], ["".toList, "80".toList]]⟩
    let t' : Table := ⟨["name".toList, "code".toList], [["Panasonic, Inc.".toList, "0B".toList]]⟩
    readCsv t.csv = t.columns :: t.rows ∧ readCsv t'.csv ≠ t'.columns :: t'.rows :=
  ⟨C76_partial _ (by decide) (by decide),
   C76_refuted _ (by decide) (by decide) ⟨["Panasonic, Inc.".toList, "0B".toList], by decide, _, List.mem_cons_self, by decide⟩⟩

/-! ## Formats -/

/-- The name of a format. -/
def formatName : Format → Str
  | .table => "table".toList
  | .json => "json".toList
  | .csv => "csv".toList

theorem trim_of_word (space : Char → Bool) (pre w post : Str) (h1 : ∀ c ∈ pre, space c = true)
    (h2 : ∀ c ∈ post, space c = true) (hw : w ≠ []) (hs : ∀ c ∈ w, space c = false) :
    trimSpace space (pre ++ w ++ post) = w := by
  have drop : ∀ (p r : Str), (∀ c ∈ p, space c = true) → (∀ c cs, r = c :: cs → space c = false) →
      (p ++ r).dropWhile space = r := by
    intro p r hp hr
    induction p with
    | nil =>
      cases r with
      | nil => rfl
      | cons c cs => rw [List.nil_append, List.dropWhile_cons, hr c cs rfl]; rfl
    | cons c cs ih =>
      rw [List.cons_append, List.dropWhile_cons, hp c (by simp), if_pos rfl]
      exact ih (fun x hx => hp x (by simp [hx]))
  unfold trimSpace
  rw [List.append_assoc, drop pre (w ++ post) h1, List.reverse_append, drop]
  · rw [List.reverse_reverse]
  · intro c hc; exact h2 c (List.mem_reverse.mp hc)
  · intro c cs e
    exact hs c (List.mem_reverse.mp (by rw [e]; simp))
  · intro c cs e
    cases w with
    | nil => exact absurd rfl hw
    | cons x xs =>
      rw [List.cons_append, List.cons.injEq] at e
      rw [← e.1]; exact hs x (by simp)

theorem mem_takeWhile {p : Char → Bool} {s : Str} {c : Char} (h : c ∈ s.takeWhile p) : p c = true := by
  induction s with
  | nil => simp at h
  | cons d s ih =>
    rw [List.takeWhile_cons] at h
    split at h
    · next hd =>
      rcases List.mem_cons.mp h with rfl | h
      · exact hd
      · exact ih h
    · cases h

theorem trim_split (space : Char → Bool) (s : Str) :
    ∃ pre post, s = pre ++ trimSpace space s ++ post ∧ (∀ c ∈ pre, space c = true) ∧
      ∀ c ∈ post, space c = true := by
  refine ⟨s.takeWhile space, ((s.dropWhile space).reverse.takeWhile space).reverse, ?_, ?_, ?_⟩
  · unfold trimSpace
    rw [List.append_assoc, ← List.reverse_append, List.takeWhile_append_dropWhile, List.reverse_reverse,
      List.takeWhile_append_dropWhile]
  · intro c hc; exact mem_takeWhile hc
  · intro c hc; exact mem_takeWhile (List.mem_reverse.mp hc)

set_option maxRecDepth 4000 in
theorem letter_ascii : ∀ n < 128, ∀ d ∈ "abcdefghijlmnopqrstuvwxyz".toList,
    ((if 'A' ≤ Char.ofNat n ∧ Char.ofNat n ≤ 'Z' then Char.ofNat ((Char.ofNat n).toNat + 32)
      else Char.ofNat n) = d ↔ (Char.ofNat n = d ∨ Char.ofNat n = d.toUpper)) := by
  decide +kernel

theorem lower_letter (l : Lowering) (c d : Char) (hd : d ∈ "abcdefghjlmnopqrstuvwxyz".toList) :
    l.toLower c = d ↔ SameLetter c d := by
  have hd' : d.toNat < 128 ∧ d.toUpper.toNat < 128 ∧ d ≠ 'i' ∧ d ≠ 'k' ∧
      d ∈ "abcdefghijlmnopqrstuvwxyz".toList :=
    (by decide : ∀ d ∈ "abcdefghjlmnopqrstuvwxyz".toList, d.toNat < 128 ∧ d.toUpper.toNat < 128 ∧
      d ≠ 'i' ∧ d ≠ 'k' ∧ d ∈ "abcdefghijlmnopqrstuvwxyz".toList) d hd
  by_cases hc : c.toNat < 128
  · rw [toLower_ascii l hc]
    exact forall_ascii (P := fun c => ∀ d ∈ "abcdefghijlmnopqrstuvwxyz".toList, ((if 'A' ≤ c ∧ c ≤ 'Z' then
      Char.ofNat (c.toNat + 32) else c) = d ↔ (c = d ∨ c = d.toUpper))) letter_ascii c hc d hd'.2.2.2.2
  · have e : l.toLower c = l.lower c := by unfold Lowering.toLower; rw [if_neg hc]
    rw [e]
    constructor
    · intro h
      rcases l.ascii c (by omega) with h' | h' | h'
      · rw [h] at h'; omega
      · exact absurd (h.symm.trans h') hd'.2.2.1
      · exact absurd (h.symm.trans h') hd'.2.2.2.1
    · rintro (rfl | rfl)
      · exact absurd hd'.1 hc
      · exact absurd hd'.2.1 hc

theorem lower_word (l : Lowering) (w name : Str) (hn : ∀ d ∈ name, d ∈ "abcdefghjlmnopqrstuvwxyz".toList) :
    w.map l.toLower = name ↔ SameWord w name := by
  unfold SameWord
  induction w generalizing name with
  | nil =>
    cases name with
    | nil => simp
    | cons d ds => simp
  | cons c cs ih =>
    cases name with
    | nil => simp
    | cons d ds =>
      have h1 := lower_letter l c d (hn d (by simp))
      have h2 := ih ds (fun x hx => hn x (by simp [hx]))
      simp only [List.map_cons, List.cons.injEq, h1, h2, List.length_cons, List.zip_cons_cons,
        List.mem_cons, forall_eq_or_imp, Nat.add_right_cancel_iff]
      constructor
      · rintro ⟨a, b, c⟩; exact ⟨b, a, c⟩
      · rintro ⟨b, a, c⟩; exact ⟨a, b, c⟩

theorem formatName_letters (f : Format) : (∀ d ∈ formatName f, d ∈ "abcdefghjlmnopqrstuvwxyz".toList) ∧
    formatName f ≠ [] := by
  cases f <;> decide

theorem find_format (l : Lowering) (space : Char → Bool) (t : Str) (f : Format) :
    newFormatFromString l space t = .ok f ↔ (trimSpace space t).map l.toLower = formatName f := by
  unfold newFormatFromString
  generalize (trimSpace space t).map l.toLower = s
  have h1 : (['t', 'a', 'b', 'l', 'e'] : Str) = formatName .table := by decide
  have h2 : (['j', 's', 'o', 'n'] : Str) = formatName .json := by decide
  have h3 : (['c', 's', 'v'] : Str) = formatName .csv := by decide
  unfold formatMap
  rw [h1, h2, h3]
  by_cases e1 : formatName .table = s
  · subst e1; cases f <;> decide
  · by_cases e2 : formatName .json = s
    · subst e2; cases f <;> decide
    · by_cases e3 : formatName .csv = s
      · subst e3; cases f <;> decide
      · simp only [List.find?_cons, beq_eq_false_iff_ne.mpr e1, beq_eq_false_iff_ne.mpr e2,
          beq_eq_false_iff_ne.mpr e3, List.find?_nil]
        constructor
        · intro h; cases h
        · rintro rfl
          cases f
          · exact absurd rfl e1
          · exact absurd rfl e2
          · exact absurd rfl e3

/-- A format is accepted exactly by its name, `table`, `json` or `csv`, in any mixture of cases and
surrounded by any white space; every other text is rejected. `space` says which characters are white space;
letters are not. -/
theorem C77_accepts (l : Lowering) (space : Char → Bool)
    (hs : ∀ c ∈ "tablejsoncvTABLEJSONCV".toList, space c = false) (s : Str) :
    (∀ f, newFormatFromString l space s = .ok f ↔
      ∃ pre w post, s = pre ++ w ++ post ∧ (∀ c ∈ pre, space c = true) ∧ (∀ c ∈ post, space c = true) ∧
        SameWord w (formatName f)) ∧
    ((¬ ∃ f, newFormatFromString l space s = .ok f) → ∃ e, newFormatFromString l space s = .err e) := by
  refine ⟨fun f => ?_, fun h => ?_⟩
  · rw [find_format, lower_word l _ _ (formatName_letters f).1]
    constructor
    · intro h
      obtain ⟨pre, post, e, h1, h2⟩ := trim_split space s
      exact ⟨pre, _, post, e, h1, h2, h⟩
    · rintro ⟨pre, w, post, rfl, h1, h2, hw⟩
      have hne : w ≠ [] := by
        rintro rfl
        have := hw.1
        exact (formatName_letters f).2 (List.length_eq_zero_iff.mp this.symm)
      have hsp : ∀ c ∈ w, space c = false := by
        intro c hc
        obtain ⟨i, hi, hic⟩ := List.mem_iff_getElem.mp hc
        have hi' : i < (formatName f).length := by rw [← hw.1]; exact hi
        have hz : (w[i], (formatName f)[i]) ∈ w.zip (formatName f) := by
          rw [List.mem_iff_getElem]
          exact ⟨i, by rw [List.length_zip]; omega, List.getElem_zip ..⟩
        have hsl := hw.2 _ hz
        rw [hic] at hsl
        have hm : (formatName f)[i] ∈ formatName f := List.getElem_mem _
        have hall : ∀ d ∈ formatName f, d ∈ "tablejsoncvTABLEJSONCV".toList ∧
            d.toUpper ∈ "tablejsoncvTABLEJSONCV".toList := by cases f <;> decide
        rcases hsl with h | h
        · exact hs c (by simp only at h; rw [h]; exact (hall _ hm).1)
        · exact hs c (by simp only at h; rw [h]; exact (hall _ hm).2)
      rw [trim_of_word space pre w post h1 h2 hne hsp]
      exact hw
  · cases hr : newFormatFromString l space s with
    | ok f => exact absurd ⟨f, hr⟩ h
    | err e => exact ⟨e, rfl⟩
    | panic =>
      unfold newFormatFromString at hr
      simp only at hr
      split at hr <;> cases hr

/-- Printing a format and reading it gives it back. -/
theorem C77_string (l : Lowering) (space : Char → Bool)
    (hs : ∀ c ∈ "tablejsoncvTABLEJSONCV".toList, space c = false) (f : Format) :
    f.string = formatName f ∧ newFormatFromString l space f.string = .ok f := by
  have e : f.string = formatName f := by cases f <;> decide
  refine ⟨e, ?_⟩
  rw [((C77_accepts l space hs f.string).1 f)]
  refine ⟨[], formatName f, [], by rw [e]; simp, by simp, by simp, rfl, ?_⟩
  intro p hp
  obtain ⟨i, hi, hip⟩ := List.mem_iff_getElem.mp hp
  rw [List.getElem_zip] at hip
  rw [← hip]
  exact .inl rfl

example : newFormatFromString asciiLowering (· = ' ') "  Json ".toList = .ok .json := by decide
example : newFormatFromString asciiLowering (· = ' ') "xml".toList = .err .other := by decide

/-- There are such cells: names of manufacturers the scan prints have a comma. -/
theorem C76_refuted_names : ∃ m ∈ Mra.manufacturers, ',' ∈ m.name.toList := by
  have h : Mra.manufacturers.any (fun m => m.name.toList.contains ',') = true := by decide +kernel
  obtain ⟨m, hm, hc⟩ := List.any_eq_true.mp h
  exact ⟨m, hm, by simpa using hc⟩

end Verif.Props
