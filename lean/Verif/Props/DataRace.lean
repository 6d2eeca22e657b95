import Verif.Model.DataRace

/-!
# C91: the data of a property used by several goroutines

A property's data is replaced by the application while requests for it are answered, each in its own
goroutine. The property says that a response carries the data as it was before or after the replacement, and
that after several replacements the property holds one of the values. Both fail: a response can carry zeros
that were never stored, and two replacements can leave a mixture for good. What does hold is proved below for all
schedules.
-/

namespace Verif.Props
open Verif Model

/-- `r` is `d` with some of its bytes blank. -/
def Blanked (d r : Bytes) : Prop :=
  r.length = d.length ∧ ∀ i : Nat, i < r.length → r[i]? = some 0 ∨ r[i]? = d[i]?

/-- Every byte of `r` is blank or comes from one of the values, at the same place, and `r` is as long as one of
the values. -/
def Mixture (values : List Bytes) (r : Bytes) : Prop :=
  (∃ d ∈ values, r.length = d.length) ∧
  ∀ (i : Nat) (b : Byte), r[i]? = some b → b = 0 ∨ ∃ d ∈ values, d[i]? = some b

/-! ## What any number of writers can do -/

/-- A prefix of a mixture, as long as it is so far. -/
def Part (values : List Bytes) (r : Bytes) : Prop :=
  ∀ (i : Nat) (b : Byte), r[i]? = some b → b = 0 ∨ ∃ d ∈ values, d[i]? = some b

def WriterOk (V : List Bytes) : WritePc → Prop
  | .store d rest => d ∈ V ∧ ∀ e ∈ rest, e ∈ V
  | .load d rest => d ∈ V ∧ ∀ e ∈ rest, e ∈ V
  | .copy d _ _ rest => d ∈ V ∧ ∀ e ∈ rest, e ∈ V
  | .finished => True

def ReaderOk (V : List Bytes) (arrays : List Bytes) : ReadPc → Prop
  | .load => True
  | .copy arr k acc => acc.length = k ∧ Part V acc ∧ ∃ a, arrays[arr]? = some a ∧ k ≤ a.length
  | .got r => Mixture V r

structure RaceInv (V : List Bytes) (s : DataSt) : Prop where
  arrays : ∀ a ∈ s.arrays, Mixture V a
  cur : s.cur < s.arrays.length
  writers : ∀ w ∈ s.writers, WriterOk V w
  readers : ∀ r ∈ s.readers, ReaderOk V s.arrays r

theorem writerOk_next {V rest : List Bytes} (h : ∀ e ∈ rest, e ∈ V) : WriterOk V (WritePc.next rest) := by
  cases rest with
  | nil => trivial
  | cons d rest => exact ⟨h d (by simp), fun e he => h e (by simp [he])⟩

theorem mem_set_or {α : Type} {l : List α} {i : Nat} {x y : α} (h : y ∈ l.set i x) : y ∈ l ∨ y = x := by
  rcases List.mem_or_eq_of_mem_set h with h | h
  · exact .inl h
  · exact .inr h

theorem readerOk_grow {V arrays more : List Bytes} {r : ReadPc} (h : ReaderOk V arrays r) :
    ReaderOk V (arrays ++ more) r := by
  cases r with
  | load => trivial
  | got r => exact h
  | copy arr k acc =>
    obtain ⟨h1, h2, a, h3, h4⟩ := h
    refine ⟨h1, h2, a, ?_, h4⟩
    obtain ⟨hlt, _⟩ := List.getElem?_eq_some_iff.mp h3
    rw [List.getElem?_append_left hlt]; exact h3

theorem readerOk_modify {V arrays : List Bytes} {r : ReadPc} {k x : Nat} {b : Byte}
    (h : ReaderOk V arrays r) : ReaderOk V (arrays.modify x (fun a => a.set k b)) r := by
  cases r with
  | load => trivial
  | got r => exact h
  | copy arr j acc =>
    obtain ⟨h1, h2, a, h3, h4⟩ := h
    by_cases e : x = arr
    · refine ⟨h1, h2, a.set k b, ?_, by simpa using h4⟩
      rw [List.getElem?_modify, h3]; simp [e]
    · refine ⟨h1, h2, a, ?_, h4⟩
      rw [List.getElem?_modify, h3]; simp [e]

theorem race_step {V : List Bytes} {s : DataSt} (h : RaceInv V s) (w : DataSt.Who) : RaceInv V (s.step w) := by
  cases w with
  | writer i =>
    simp only [DataSt.step, DataSt.stepWriter]
    cases hw : s.writers[i]? with
    | none => exact h
    | some p =>
      have hp := h.writers p (List.mem_of_getElem? hw)
      cases p with
      | finished => exact h
      | store d rest =>
        refine ⟨?_, by simp, ?_, ?_⟩
        · intro a ha
          rcases List.mem_append.mp ha with ha | ha
          · exact h.arrays a ha
          · rw [List.mem_singleton] at ha
            subst ha
            refine ⟨⟨d, hp.1, by simp⟩, fun i b hb => .inl ?_⟩
            rw [List.getElem?_replicate] at hb
            split at hb
            · exact (Option.some.inj hb).symm
            · cases hb
        · intro w hw
          rcases mem_set_or hw with hw | rfl
          · exact h.writers w hw
          · exact hp
        · exact fun r hr => readerOk_grow (h.readers r hr)
      | load d rest =>
        refine ⟨h.arrays, h.cur, ?_, h.readers⟩
        intro w hw
        rcases mem_set_or hw with hw | rfl
        · exact h.writers w hw
        · exact hp
      | copy d arr k rest =>
        simp only
        have hnext : ∀ w ∈ s.writers.set i (WritePc.next rest), WriterOk V w := by
          intro w hw
          rcases mem_set_or hw with hw | rfl
          · exact h.writers w hw
          · exact writerOk_next hp.2
        split
        · rename_i b _ hd ha
          refine ⟨?_, by simpa using h.cur, ?_, fun r hr => readerOk_modify (h.readers r hr)⟩
          · intro a hm
            obtain ⟨j, hj⟩ := List.getElem?_of_mem hm
            rw [List.getElem?_modify] at hj
            cases hs : s.arrays[j]? with
            | none => rw [hs] at hj; cases hj
            | some a0 =>
              rw [hs] at hj
              have h0 := h.arrays a0 (List.mem_of_getElem? hs)
              by_cases e : arr = j
              · simp [e] at hj
                subst hj
                refine ⟨by simpa using h0.1, fun x y hx => ?_⟩
                rw [List.getElem?_set] at hx
                split at hx
                · rename_i e
                  subst e
                  split at hx
                  · cases hx
                    exact .inr ⟨d, hp.1, hd⟩
                  · cases hx
                · exact h0.2 x y hx
              · simp [e] at hj
                exact hj ▸ h0
          · intro w hw
            rcases mem_set_or hw with hw | rfl
            · exact h.writers w hw
            · exact hp
        · exact ⟨h.arrays, h.cur, hnext, h.readers⟩
  | reader j =>
    simp only [DataSt.step, DataSt.stepReader]
    cases hr : s.readers[j]? with
    | none => exact h
    | some p =>
      have hp := h.readers p (List.mem_of_getElem? hr)
      cases p with
      | got r => exact h
      | load =>
        refine ⟨h.arrays, h.cur, h.writers, ?_⟩
        intro r hr
        rcases mem_set_or hr with hr | rfl
        · exact h.readers r hr
        · exact ⟨rfl, fun i b hb => (by simp at hb), _, List.getElem?_eq_getElem h.cur, Nat.zero_le _⟩
      | copy arr k acc =>
        obtain ⟨h1, h2, a, h3, h4⟩ := hp
        have hm := h.arrays a (List.mem_of_getElem? h3)
        have e : s.arrays.getD arr [] = a := by rw [List.getD_eq_getElem?_getD, h3]; rfl
        simp only [e]
        cases hb : a[k]? with
        | some b =>
          refine ⟨h.arrays, h.cur, h.writers, ?_⟩
          intro r hr
          rcases mem_set_or hr with hr | rfl
          · exact h.readers r hr
          · refine ⟨by simp [h1], ?_, a, h3, ?_⟩
            · intro i y hy
              rcases Nat.lt_trichotomy i k with hi | hi | hi
              · rw [List.getElem?_append_left (by omega)] at hy
                exact h2 i y hy
              · subst hi
                rw [List.getElem?_append_right (by omega)] at hy
                simp [h1] at hy
                exact hm.2 i y (hy ▸ hb)
              · rw [List.getElem?_append_right (by omega)] at hy
                rw [List.getElem?_eq_none (by simp; omega)] at hy
                cases hy
            · obtain ⟨hlt, _⟩ := List.getElem?_eq_some_iff.mp hb
              omega
        | none =>
          refine ⟨h.arrays, h.cur, h.writers, ?_⟩
          intro r hr
          rcases mem_set_or hr with hr | rfl
          · exact h.readers r hr
          · have hl : a.length ≤ k := List.getElem?_eq_none_iff.mp hb
            obtain ⟨d, hd, hld⟩ := hm.1
            exact ⟨⟨d, hd, by omega⟩, h2⟩

theorem race_run {V : List Bytes} {s : DataSt} (h : RaceInv V s) (ws : List DataSt.Who) :
    RaceInv V (s.run ws) := by
  induction ws generalizing s with
  | nil => exact h
  | cons w ws ih => exact ih (race_step h w)

theorem race_init (d : Bytes) (values : List (List Bytes)) (k : Nat) :
    RaceInv (d :: values.flatten) (DataSt.init d values k) := by
  refine ⟨?_, by simp [DataSt.init], ?_, ?_⟩
  · intro a ha
    simp [DataSt.init] at ha
    subst ha
    exact ⟨⟨a, by simp, rfl⟩, fun i b hb => .inr ⟨a, by simp, hb⟩⟩
  · intro w hw
    simp only [DataSt.init, List.mem_map] at hw
    obtain ⟨l, hl, rfl⟩ := hw
    exact writerOk_next (fun e he => List.mem_cons_of_mem _ (List.mem_flatten.mpr ⟨l, hl, he⟩))
  · intro r hr
    simp [DataSt.init] at hr
    rw [hr.2]; trivial

/-- C91, any number of writers: under every schedule, what a reader gets, and what the property holds at any
moment, has the length of one of the values, and each byte is blank or is the byte of one of the values at
that place. -/
theorem C91_mixture_partial (d : Bytes) (values : List (List Bytes)) (k : Nat) (ws : List DataSt.Who) :
    let s := (DataSt.init d values k).run ws
    Mixture (d :: values.flatten) s.data ∧
    ∀ (j : Nat) (r : Bytes), s.readers[j]? = some (.got r) → Mixture (d :: values.flatten) r := by
  have h := race_run (race_init d values k) ws
  refine ⟨?_, fun j r hr => h.readers _ (List.mem_of_getElem? hr)⟩
  apply h.arrays
  unfold DataSt.data
  rw [List.getD_eq_getElem?_getD, List.getElem?_eq_getElem h.cur]
  exact List.getElem_mem h.cur

/-! ## One writer -/

/-- What is left to write. -/
def pending : WritePc → List Bytes
  | .store d rest => d :: rest
  | .load _ rest => rest
  | .copy _ _ _ rest => rest
  | .finished => []

/-- How far the newest array is written, when a write is under way. -/
def underWay : WritePc → Option Nat
  | .load _ _ => some 0
  | .copy _ _ k _ => some k
  | _ => none

def OneReader (V arrays : List Bytes) : ReadPc → Prop
  | .load => True
  | .copy arr k acc => acc.length = k ∧ arr < arrays.length ∧
      ∃ d, V[arr]? = some d ∧ k ≤ d.length ∧ ∀ i : Nat, i < k → acc[i]? = some 0 ∨ acc[i]? = d[i]?
  | .got r => ∃ d ∈ V, Blanked d r

/-- With one writer the arrays are the values, in order; only the newest can be unfinished. -/
structure OneInv (V : List Bytes) (s : DataSt) : Prop where
  nonempty : s.arrays ≠ []
  cur : s.cur = s.arrays.length - 1
  older : ∀ a : Nat, a + 1 < s.arrays.length → s.arrays[a]? = V[a]?
  writer : ∃ p, s.writers = [p] ∧ pending p = V.drop s.arrays.length ∧
    (match p with
     | .load d _ => V[s.cur]? = some d ∧ s.arrays[s.cur]? = some (List.replicate d.length 0)
     | .copy d arr k _ => arr = s.cur ∧ V[s.cur]? = some d ∧ k ≤ d.length ∧
         s.arrays[s.cur]? = some (d.take k ++ List.replicate (d.length - k) 0)
     | _ => s.arrays[s.cur]? = V[s.cur]? ∧ s.cur < V.length)
  readers : ∀ r ∈ s.readers, OneReader V s.arrays r

theorem OneInv.curLt {V : List Bytes} {s : DataSt} (h : OneInv V s) : s.cur < s.arrays.length := by
  have := List.length_pos_iff.mpr h.nonempty
  have := h.cur
  omega

/-- The newest array is a blanked value. -/
theorem OneInv.newest {V : List Bytes} {s : DataSt} (h : OneInv V s) :
    ∃ d a, V[s.cur]? = some d ∧ s.arrays[s.cur]? = some a ∧ a.length = d.length ∧
      ∀ i : Nat, i < a.length → a[i]? = some 0 ∨ a[i]? = d[i]? := by
  obtain ⟨p, hp, _, hm⟩ := h.writer
  cases p with
  | load d rest =>
    refine ⟨d, _, hm.1, hm.2, by simp, fun i hi => .inl ?_⟩
    rw [List.getElem?_replicate]; simp at hi; simp [hi]
  | copy d arr k rest =>
    refine ⟨d, _, hm.2.1, hm.2.2.2, by have := hm.2.2.1; simp; omega, fun i hi => ?_⟩
    have hk := hm.2.2.1
    rcases Nat.lt_or_ge i k with h1 | h1
    · right
      rw [List.getElem?_append_left (by simp; omega), List.getElem?_take]
      simp [h1]
    · left
      rw [List.getElem?_append_right (by simp; omega), List.getElem?_replicate]
      simp at hi ⊢
      omega
  | store d rest =>
    simp only at hm
    refine ⟨V[s.cur], V[s.cur], List.getElem?_eq_getElem hm.2, ?_, rfl, fun i _ => .inr rfl⟩
    rw [hm.1]; exact List.getElem?_eq_getElem hm.2
  | finished =>
    simp only at hm
    refine ⟨V[s.cur], V[s.cur], List.getElem?_eq_getElem hm.2, ?_, rfl, fun i _ => .inr rfl⟩
    rw [hm.1]; exact List.getElem?_eq_getElem hm.2

/-- Every array is a blanked value. -/
theorem OneInv.blanked {V : List Bytes} {s : DataSt} (h : OneInv V s) {x : Nat} (hx : x < s.arrays.length) :
    ∃ d a, V[x]? = some d ∧ s.arrays[x]? = some a ∧ a.length = d.length ∧
      ∀ i : Nat, i < a.length → a[i]? = some 0 ∨ a[i]? = d[i]? := by
  have hc := h.cur
  by_cases e : x = s.cur
  · subst e; exact h.newest
  · have ho := h.older x (by omega)
    have e2 := List.getElem?_eq_getElem hx
    exact ⟨s.arrays[x], s.arrays[x], by rw [← ho]; exact e2, e2, rfl, fun i _ => .inr rfl⟩

theorem one_reader_grow {V arrays : List Bytes} {r : ReadPc} {a : Bytes} (h : OneReader V arrays r) :
    OneReader V (arrays ++ [a]) r := by
  cases r with
  | load => trivial
  | got r => exact h
  | copy arr k acc => exact ⟨h.1, by have := h.2.1; simp; omega, h.2.2⟩

theorem one_reader_modify {V arrays : List Bytes} {r : ReadPc} {x : Nat} {f : Bytes → Bytes}
    (h : OneReader V arrays r) : OneReader V (arrays.modify x f) r := by
  cases r with
  | load => trivial
  | got r => exact h
  | copy arr k acc => exact ⟨h.1, by simpa using h.2.1, h.2.2⟩

theorem take_succ_blank {d : Bytes} {k : Nat} {b : Byte} (h : d[k]? = some b) :
    (d.take k ++ List.replicate (d.length - k) 0).set k b
      = d.take (k + 1) ++ List.replicate (d.length - (k + 1)) 0 := by
  obtain ⟨hk, hb⟩ := List.getElem?_eq_some_iff.mp h
  have e : d.length - k = (d.length - (k + 1)) + 1 := by omega
  rw [e, List.replicate_succ, List.set_append_right _ _ (by simp; omega)]
  have e2 : k - (d.take k).length = 0 := by simp; omega
  rw [e2, List.set_cons_zero, List.take_add_one, h]
  simp

theorem one_step {V : List Bytes} {s : DataSt} (h : OneInv V s) (w : DataSt.Who) : OneInv V (s.step w) := by
  have hcl := h.curLt
  have hc := h.cur
  cases w with
  | writer i =>
    obtain ⟨p, hp, hpend, hm⟩ := h.writer
    cases i with
    | succ i =>
      have : s.step (.writer (i + 1)) = s := by simp [DataSt.step, DataSt.stepWriter, hp]
      rw [this]; exact h
    | zero =>
      cases p with
      | finished =>
        have : s.step (.writer 0) = s := by simp [DataSt.step, DataSt.stepWriter, hp]
        rw [this]; exact h
      | store d rest =>
        simp only at hm
        simp only [DataSt.step, DataSt.stepWriter, hp, List.getElem?_cons_zero, List.set_cons_zero]
        simp only [pending] at hpend
        have hd : V[s.arrays.length]? = some d := by
          rw [← List.head?_drop, ← hpend]; rfl
        refine ⟨by simp, by simp, ?_, ⟨_, rfl, ?_, ?_⟩, fun r hr => one_reader_grow (h.readers r hr)⟩
        · intro a ha
          simp at ha
          rw [List.getElem?_append_left ha]
          by_cases e : a = s.cur
          · rw [e]; exact hm.1
          · exact h.older a (by omega)
        · simp only [pending, List.length_append, List.length_singleton]
          rw [← List.tail_drop, ← hpend]; rfl
        · exact ⟨hd, by simp⟩
      | load d rest =>
        simp only [DataSt.step, DataSt.stepWriter, hp, List.getElem?_cons_zero, List.set_cons_zero]
        refine ⟨h.nonempty, hc, h.older, ⟨_, rfl, hpend, rfl, hm.1, Nat.zero_le _, ?_⟩, h.readers⟩
        simpa using hm.2
      | copy d arr k rest =>
        obtain ⟨rfl, hV, hk, ha⟩ := hm
        simp only [DataSt.step, DataSt.stepWriter, hp, List.getElem?_cons_zero, List.set_cons_zero]
        have e : s.arrays.getD s.cur [] = d.take k ++ List.replicate (d.length - k) 0 := by
          rw [List.getD_eq_getElem?_getD, ha]; rfl
        rw [e]
        split
        · rename_i b x hd hx
          obtain ⟨hk', _⟩ := List.getElem?_eq_some_iff.mp hd
          refine ⟨by simp [h.nonempty], by simpa using hc, ?_, ⟨_, rfl, ?_, rfl, hV, hk', ?_⟩,
            fun r hr => one_reader_modify (h.readers r hr)⟩
          · intro a ha'
            simp at ha'
            rw [List.getElem?_modify]
            have : s.cur ≠ a := by omega
            simp only [this, if_false]
            rw [h.older a ha']
            cases V[a]? <;> rfl
          · simpa [pending] using hpend
          · rw [List.getElem?_modify, ha]
            simp only [if_true, Option.map_eq_map, Option.map_some]
            rw [take_succ_blank hd]
        · rename_i hno
          have hkk : k = d.length := by
            rcases Nat.lt_or_ge k d.length with hlt | hge
            · exact (hno d[k] _ (List.getElem?_eq_getElem hlt)
                (List.getElem?_eq_getElem (by simp; omega))).elim
            · omega
          subst hkk
          refine ⟨h.nonempty, hc, h.older, ⟨_, rfl, ?_, ?_⟩, h.readers⟩
          · simp only [pending] at hpend
            rw [← hpend]; cases rest <;> rfl
          · have hVl := (List.getElem?_eq_some_iff.mp hV).1
            have : s.arrays[s.cur]? = V[s.cur]? := by rw [ha, hV]; simp
            cases rest <;> exact ⟨this, hVl⟩
  | reader j =>
    simp only [DataSt.step, DataSt.stepReader]
    cases hr : s.readers[j]? with
    | none => exact h
    | some p =>
      have hp := h.readers p (List.mem_of_getElem? hr)
      have key : ∀ q, OneReader V s.arrays q → OneInv V { s with readers := s.readers.set j q } := by
        intro q hq
        refine ⟨h.nonempty, hc, h.older, h.writer, ?_⟩
        intro r hr
        rcases mem_set_or hr with hr | rfl
        · exact h.readers r hr
        · exact hq
      cases p with
      | got r => exact h
      | load =>
        obtain ⟨d, a, hd, _, _, _⟩ := h.newest
        exact key _ ⟨rfl, hcl, d, hd, Nat.zero_le _, fun i hi => absurd hi (by omega)⟩
      | copy arr k acc =>
        obtain ⟨h1, h2, d, h3, h4, h5⟩ := hp
        obtain ⟨d', a, hd', ha, hla, hb⟩ := h.blanked h2
        rw [h3] at hd'
        cases hd'
        have e : s.arrays.getD arr [] = a := by rw [List.getD_eq_getElem?_getD, ha]; rfl
        simp only [e]
        cases hx : a[k]? with
        | none =>
          have hl : a.length ≤ k := List.getElem?_eq_none_iff.mp hx
          exact key _ ⟨d, List.mem_of_getElem? h3, by omega, fun i hi => h5 i (by omega)⟩
        | some b =>
          obtain ⟨hlt, _⟩ := List.getElem?_eq_some_iff.mp hx
          refine key _ ⟨by simp [h1], h2, d, h3, by omega, fun i hi => ?_⟩
          rcases Nat.lt_or_ge i k with hi' | hi'
          · rw [List.getElem?_append_left (by omega)]
            exact h5 i hi'
          · have : i = k := by omega
            subst this
            rw [List.getElem?_append_right (by omega)]
            simp only [h1, Nat.sub_self, List.getElem?_cons_zero]
            rw [← hx]
            exact hb i hlt

theorem one_run {V : List Bytes} {s : DataSt} (h : OneInv V s) (ws : List DataSt.Who) :
    OneInv V (s.run ws) := by
  induction ws generalizing s with
  | nil => exact h
  | cons w ws ih => exact ih (one_step h w)

theorem one_init (d : Bytes) (values : List Bytes) (k : Nat) :
    OneInv (d :: values) (DataSt.init d [values] k) := by
  refine ⟨by simp [DataSt.init], by simp [DataSt.init], ?_, ⟨WritePc.next values, by simp [DataSt.init], ?_, ?_⟩, ?_⟩
  · intro a ha
    simp [DataSt.init] at ha
  · cases values <;> simp [DataSt.init, WritePc.next, pending]
  · cases values <;> simp [DataSt.init, WritePc.next]
  · intro r hr
    simp [DataSt.init] at hr
    rw [hr.2]; trivial

/-- C91, one goroutine writing: under every schedule, what a reader gets is one of the values, with some of
its bytes possibly blank. The bytes of two values are not mixed. -/
theorem C91_single_partial (d : Bytes) (values : List Bytes) (k : Nat) (ws : List DataSt.Who)
    (j : Nat) (r : Bytes)
    (hr : ((DataSt.init d [values] k).run ws).readers[j]? = some (.got r)) :
    ∃ e ∈ d :: values, Blanked e r :=
  (one_run (one_init d values k) ws).readers _ (List.mem_of_getElem? hr)

/-- A reader that ends while the writer is between the first and the second byte. -/
example : ((DataSt.init [0x30] [[[0x41, 0x42]]] 1).run [.writer 0, .writer 0, .writer 0, .reader 0, .reader 0, .reader 0,
    .reader 0]).readers[0]? = some (.got [0x41, 0]) := by decide

/-- Array `x` holds `v` for good. -/
def Settled (x : Nat) (v : Bytes) (s : DataSt) : Prop :=
  s.arrays[x]? = some v ∧ ∀ p : WritePc, s.writers = [p] → underWay p ≠ none → x < s.cur

theorem settled_step {V : List Bytes} {s : DataSt} (h : OneInv V s) {x : Nat} {v : Bytes}
    (hx : Settled x v s) (w : DataSt.Who) : Settled x v (s.step w) := by
  have hlt := (List.getElem?_eq_some_iff.mp hx.1).1
  cases w with
  | reader j =>
    simp only [DataSt.step, DataSt.stepReader]
    split
    · exact hx
    · split <;> exact hx
    · exact hx
  | writer i =>
    obtain ⟨p, hp, _, hm⟩ := h.writer
    cases i with
    | succ i =>
      have : s.step (.writer (i + 1)) = s := by simp [DataSt.step, DataSt.stepWriter, hp]
      rw [this]; exact hx
    | zero =>
      cases p with
      | finished =>
        have : s.step (.writer 0) = s := by simp [DataSt.step, DataSt.stepWriter, hp]
        rw [this]; exact hx
      | store d rest =>
        simp only [DataSt.step, DataSt.stepWriter, hp, List.getElem?_cons_zero, List.set_cons_zero]
        exact ⟨by rw [List.getElem?_append_left hlt]; exact hx.1, fun _ _ _ => hlt⟩
      | load d rest =>
        simp only [DataSt.step, DataSt.stepWriter, hp, List.getElem?_cons_zero, List.set_cons_zero]
        exact ⟨hx.1, fun _ _ _ => hx.2 _ hp (by simp [underWay])⟩
      | copy d arr k rest =>
        have hc := hx.2 _ hp (by simp [underWay])
        simp only [DataSt.step, DataSt.stepWriter, hp, List.getElem?_cons_zero, List.set_cons_zero]
        split
        · refine ⟨?_, fun _ _ _ => hc⟩
          rw [List.getElem?_modify, hx.1]
          have : arr ≠ x := by have := hm.1; omega
          simp [this]
        · exact ⟨hx.1, fun _ _ _ => hc⟩

theorem settled_reads {V : List Bytes} {s : DataSt} (h : OneInv V s) {x : Nat} {v : Bytes}
    (hx : Settled x v s) {j k : Nat} (hj : s.readers[j]? = some (.copy x k (v.take k)) ∧ k ≤ v.length ∨
      s.readers[j]? = some (.got v)) (ws : List DataSt.Who) {r : Bytes}
    (hr : (s.run ws).readers[j]? = some (.got r)) : r = v := by
  induction ws generalizing s k with
  | nil =>
    rcases hj with hj | hj
    · rw [DataSt.run, hj.1] at hr; cases hr
    · rw [DataSt.run, hj] at hr; cases hr; rfl
  | cons w ws ih =>
    have h' := one_step h w
    have hx' := settled_step h hx w
    have keep : ∀ i : Nat, (s.stepWriter i).readers = s.readers := by
      intro i
      unfold DataSt.stepWriter
      split
      · rfl
      · rfl
      · split <;> rfl
      · rfl
    have other : ∀ i : Nat, i ≠ j → (s.stepReader i).readers[j]? = s.readers[j]? := by
      intro i hi
      unfold DataSt.stepReader
      split
      · simp [hi]
      · split <;> simp [hi]
      · rfl
    have done : ∀ q, s.readers[j]? = some (.got q) → (s.stepReader j).readers[j]? = some (.got q) := by
      intro q hq
      unfold DataSt.stepReader
      rw [hq]
      exact hq
    cases w with
    | writer i =>
      refine ih h' hx' (k := k) ?_ hr
      simp only [DataSt.step, keep]; exact hj
    | reader i =>
      by_cases e : i = j
      · subst e
        rcases hj with ⟨hj, hk⟩ | hj
        · have hlt := (List.getElem?_eq_some_iff.mp hj).1
          have ea : s.arrays.getD x [] = v := by rw [List.getD_eq_getElem?_getD, hx.1]; rfl
          cases hv : v[k]? with
          | some b =>
            have hkl := (List.getElem?_eq_some_iff.mp hv).1
            refine ih h' hx' (k := k + 1) (.inl ⟨?_, hkl⟩) hr
            simp only [DataSt.step, DataSt.stepReader, hj, ea, hv]
            rw [List.getElem?_set_self hlt, List.take_add_one, hv]
            rfl
          | none =>
            have hkl := List.getElem?_eq_none_iff.mp hv
            refine ih h' hx' (k := k) (.inr ?_) hr
            simp only [DataSt.step, DataSt.stepReader, hj, ea, hv]
            rw [List.getElem?_set_self hlt, List.take_of_length_le hkl]
        · exact ih h' hx' (k := k) (.inr (done v hj)) hr
      · refine ih h' hx' (k := k) ?_ hr
        simp only [DataSt.step]
        rw [other i e]; exact hj

/-- C91, one goroutine writing: a reader that loads the data while no write is under way gets exactly what the
property held then, whatever is written before it has copied the data. -/
theorem C91_between_partial (d : Bytes) (values : List Bytes) (k : Nat) (ws ws' : List DataSt.Who)
    (j : Nat) (p : WritePc) (r : Bytes)
    (hw : ((DataSt.init d [values] k).run ws).writers = [p]) (hp : underWay p = none)
    (hj : ((DataSt.init d [values] k).run ws).readers[j]? = some .load)
    (hr : ((((DataSt.init d [values] k).run ws).step (.reader j)).run ws').readers[j]? = some (.got r)) :
    r = ((DataSt.init d [values] k).run ws).data ∧ r ∈ d :: values := by
  have h := one_run (one_init d values k) ws
  generalize (DataSt.init d [values] k).run ws = s at *
  have hcl := h.curLt
  have hlt := (List.getElem?_eq_some_iff.mp hj).1
  have ed : s.arrays[s.cur]? = some s.data := by
    unfold DataSt.data
    rw [List.getD_eq_getElem?_getD, List.getElem?_eq_getElem hcl]; rfl
  have hset : Settled s.cur s.data s := by
    refine ⟨ed, fun q hq hu => ?_⟩
    rw [hw] at hq
    cases hq
    exact absurd hp hu
  have hmem : s.data ∈ d :: values := by
    obtain ⟨q, hq, _, hm⟩ := h.writer
    rw [hw] at hq
    cases hq
    cases p with
    | load d rest => simp [underWay] at hp
    | copy d arr k rest => simp [underWay] at hp
    | store d rest =>
      simp only at hm
      exact List.mem_of_getElem? (hm.1 ▸ ed)
    | finished =>
      simp only at hm
      exact List.mem_of_getElem? (hm.1 ▸ ed)
  have : r = s.data := by
    refine settled_reads (one_step h (.reader j)) (settled_step h hset (.reader j)) (k := 0)
      (.inl ⟨?_, Nat.zero_le _⟩) ws' hr
    simp only [DataSt.step, DataSt.stepReader, hj]
    rw [List.getElem?_set_self hlt]; rfl
  exact ⟨this, this ▸ hmem⟩

/-! ## What goes wrong -/

theorem data_run_append (s : DataSt) (ws ws' : List DataSt.Who) : s.run (ws ++ ws') = (s.run ws).run ws' := by
  induction ws generalizing s with
  | nil => rfl
  | cons w ws ih => exact ih (s.step w)

/-- A reader left alone copies the rest of its array. -/
theorem reader_alone (s : DataSt) (j x k : Nat) (a : Bytes) (hj : s.readers[j]? = some (.copy x k (a.take k)))
    (ha : s.arrays[x]? = some a) (m : Nat) (hm : a.length = k + m) :
    s.run (List.replicate (m + 1) (.reader j)) = { s with readers := s.readers.set j (.got a) } := by
  have ea : s.arrays.getD x [] = a := by rw [List.getD_eq_getElem?_getD, ha]; rfl
  have hlt := (List.getElem?_eq_some_iff.mp hj).1
  induction m generalizing s k with
  | zero =>
    simp only [Nat.zero_add, List.replicate_one, DataSt.run, DataSt.step, DataSt.stepReader, hj, ea]
    rw [List.getElem?_eq_none (by omega)]
    simp only
    rw [List.take_of_length_le (by omega)]
  | succ m ih =>
    rw [List.replicate_succ, DataSt.run]
    have e : s.step (.reader j) = { s with readers := s.readers.set j (.copy x (k + 1) (a.take (k + 1))) } := by
      simp only [DataSt.step, DataSt.stepReader, hj, ea]
      rw [List.getElem?_eq_getElem (by omega), List.take_add_one, List.getElem?_eq_getElem (by omega)]
      rfl
    rw [e, ih { s with readers := s.readers.set j (.copy x (k + 1) (a.take (k + 1))) } (k + 1)
      (List.getElem?_set_self hlt) ha (by omega) ea (by simpa using hlt)]
    simp

/-- A writer left alone copies the rest of its value over the array it loaded. -/
theorem writer_alone (s : DataSt) (i x k : Nat) (d a : Bytes) (rest : List Bytes)
    (hi : s.writers[i]? = some (.copy d x k rest)) (ha : s.arrays[x]? = some (d.take k ++ a.drop k))
    (m : Nat) (hm : d.length = k + m) (hl : d.length ≤ a.length) :
    s.run (List.replicate (m + 1) (.writer i))
      = { s with
            arrays := s.arrays.set x (d ++ a.drop d.length)
            writers := s.writers.set i (WritePc.next rest) } := by
  have hlt := (List.getElem?_eq_some_iff.mp hi).1
  have hxlt := (List.getElem?_eq_some_iff.mp ha).1
  induction m generalizing s k with
  | zero =>
    simp only [Nat.zero_add, List.replicate_one, DataSt.run, DataSt.step, DataSt.stepWriter, hi]
    rw [List.getElem?_eq_none (by omega)]
    simp only
    have hk : k = d.length := by omega
    subst hk
    rw [List.take_length] at ha
    have : s.arrays.set x (d ++ a.drop d.length) = s.arrays := by
      apply List.ext_getElem?
      intro n
      rw [List.getElem?_set]
      split
      · rename_i e; subst e; simp [hxlt, ← ha]
      · rfl
    rw [this]
  | succ m ih =>
    rw [List.replicate_succ, DataSt.run]
    have ea : s.arrays.getD x [] = d.take k ++ a.drop k := by rw [List.getD_eq_getElem?_getD, ha]; rfl
    have hd : d[k]? = some d[k] := List.getElem?_eq_getElem (by omega)
    have hak : (d.take k ++ a.drop k)[k]? = some a[k] := by
      rw [List.getElem?_append_right (by simp; omega), List.getElem?_drop]
      have : k + (k - (d.take k).length) = k := by simp; omega
      rw [this]
      exact List.getElem?_eq_getElem (by omega)
    have es : (d.take k ++ a.drop k).set k d[k] = d.take (k + 1) ++ a.drop (k + 1) := by
      rw [List.set_append_right _ _ (by simp; omega)]
      have e2 : k - (d.take k).length = 0 := by simp; omega
      rw [e2, List.drop_eq_getElem_cons (by omega : k < a.length), List.set_cons_zero, List.take_add_one, hd,
        Option.toList_some, List.append_assoc]
      rfl
    have e : s.step (.writer i) = { s with
        arrays := s.arrays.set x (d.take (k + 1) ++ a.drop (k + 1))
        writers := s.writers.set i (.copy d x (k + 1) rest) } := by
      simp only [DataSt.step, DataSt.stepWriter, hi, ea, hd, hak]
      congr 1
      apply List.ext_getElem?
      intro n
      rw [List.getElem?_modify, List.getElem?_set]
      by_cases e : x = n
      · subst e
        rw [ha, if_pos rfl, if_pos hxlt, ← es]
        simp only [if_true]
        rfl
      · simp [e]
    rw [e, ih { s with
        arrays := s.arrays.set x (d.take (k + 1) ++ a.drop (k + 1))
        writers := s.writers.set i (.copy d x (k + 1) rest) } (k + 1) (List.getElem?_set_self hlt)
      (List.getElem?_set_self hxlt) (by omega) (by simpa using hlt) (by simpa using hxlt)]
    simp

/-- C91 is false: whatever the property holds and whatever is written to it, a reader can get as many zeros as
the new value has bytes, although nothing of the kind was stored; the write then ends as if nothing had
happened. -/
theorem C91_refuted_zeros (old new : Bytes) :
    ∃ ws, (DataSt.init old [[new]] 1).run ws
      = ⟨[old, new], 1, [.finished], [.got (List.replicate new.length 0)]⟩ := by
  refine ⟨[.writer 0, .reader 0] ++ (List.replicate (new.length + 1) (.reader 0) ++
    ([.writer 0] ++ List.replicate (new.length + 1) (.writer 0))), ?_⟩
  rw [data_run_append, data_run_append, data_run_append]
  have e1 : (DataSt.init old [[new]] 1).run [.writer 0, .reader 0]
      = ⟨[old, List.replicate new.length 0], 1, [.load new []], [.copy 1 0 []]⟩ := by
    simp [DataSt.init, DataSt.run, DataSt.step, DataSt.stepWriter, DataSt.stepReader, WritePc.next]
  rw [e1, reader_alone _ 0 1 0 (List.replicate new.length 0) rfl rfl new.length (by simp)]
  have e2 : (⟨[old, List.replicate new.length 0], 1, [.load new []],
      [ReadPc.copy 1 0 []].set 0 (.got (List.replicate new.length 0))⟩ : DataSt).run [.writer 0]
      = ⟨[old, List.replicate new.length 0], 1, [.copy new 1 0 []], [.got (List.replicate new.length 0)]⟩ := by
    simp [DataSt.run, DataSt.step, DataSt.stepWriter]
  rw [e2, writer_alone _ 0 1 0 new (List.replicate new.length 0) [] rfl rfl new.length (by simp) (by simp)]
  simp [WritePc.next]

/-- C91 is false: two goroutines that write a shorter and a longer value can leave the shorter one followed by
the end of the longer one, for good. -/
theorem C91_refuted_mixed (old short long : Bytes) (h : short.length ≤ long.length) :
    ∃ ws, (DataSt.init old [[short], [long]] 0).run ws
        = ⟨[old, List.replicate short.length 0, short ++ long.drop short.length], 2,
            [.finished, .finished], []⟩ := by
  refine ⟨[.writer 0, .writer 1, .writer 1] ++ (List.replicate (long.length + 1) (.writer 1) ++
    ([.writer 0] ++ List.replicate (short.length + 1) (.writer 0))), ?_⟩
  rw [data_run_append, data_run_append, data_run_append]
  have e1 : (DataSt.init old [[short], [long]] 0).run [.writer 0, .writer 1, .writer 1]
      = ⟨[old, List.replicate short.length 0, List.replicate long.length 0], 2,
          [.load short [], .copy long 2 0 []], []⟩ := by
    simp [DataSt.init, DataSt.run, DataSt.step, DataSt.stepWriter, WritePc.next]
  rw [e1, writer_alone _ 1 2 0 long (List.replicate long.length 0) [] rfl rfl long.length (by simp) (by simp)]
  have e2 : (⟨[old, List.replicate short.length 0, List.replicate long.length 0].set 2
        (long ++ (List.replicate long.length 0).drop long.length), 2,
      [WritePc.load short [], .copy long 2 0 []].set 1 (WritePc.next []), []⟩ : DataSt).run [.writer 0]
      = ⟨[old, List.replicate short.length 0, long], 2, [.copy short 2 0 [], .finished], []⟩ := by
    simp [DataSt.run, DataSt.step, DataSt.stepWriter, WritePc.next]
  rw [e2, writer_alone _ 0 2 0 short long [] rfl (by simp) short.length (by simp) h]
  simp [WritePc.next]

/-- So a property that held `30` and is set to `31 32` can answer `00 00`, and one that two goroutines set to
`31` and to `41 42` can hold `31 42` from then on. -/
example :
    (∃ ws, ((DataSt.init [0x30] [[[0x31, 0x32]]] 1).run ws).readers = [.got [0, 0]]) ∧
    (∃ ws, ((DataSt.init [0x30] [[[0x31]], [[0x41, 0x42]]] 0).run ws).data = [0x31, 0x42] ∧
      ((DataSt.init [0x30] [[[0x31]], [[0x41, 0x42]]] 0).run ws).writers = [.finished, .finished]) := by
  constructor
  · obtain ⟨ws, h⟩ := C91_refuted_zeros [0x30] [0x31, 0x32]
    exact ⟨ws, by rw [h]; rfl⟩
  · obtain ⟨ws, h⟩ := C91_refuted_mixed [0x30] [0x31] [0x41, 0x42] (by decide)
    exact ⟨ws, by rw [h]; rfl, by rw [h]⟩

/-- A schedule in which a reader starts before a write and ends after it, and gets the older data. -/
example :
    let s := (DataSt.init [0x30, 0x31] [[[0x41, 0x42]]] 1)
    underWay (.store [0x41, 0x42] []) = none ∧ s.writers = [.store [0x41, 0x42] []] ∧ s.readers[0]? = some .load ∧
    ((s.step (.reader 0)).run [.writer 0, .reader 0, .writer 0, .writer 0, .writer 0, .writer 0, .reader 0,
      .reader 0]).readers[0]? = some (.got [0x30, 0x31]) ∧
    ((s.step (.reader 0)).run [.writer 0, .reader 0, .writer 0, .writer 0, .writer 0, .writer 0, .reader 0,
      .reader 0]).data = [0x41, 0x42] := by decide

end Verif.Props
