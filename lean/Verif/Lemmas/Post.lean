import Verif.Spec.Post

/-!
# Invariants of posts
-/

namespace Verif.Lemmas
open Verif Model Spec

/-- The fields when post `i` is at `pc`. -/
def Shape (s : PostSt) (i : Nat) : PostPc → Prop
  | .start | .lock => s.mutex ≠ some i ∧ i ∉ s.closed
  | .makeCh => s.mutex = some i ∧ s.ch = none ∧ s.req = none ∧ i ∉ s.closed
  | .setReq => s.mutex = some i ∧ s.ch = some i ∧ s.req = none ∧ i ∉ s.closed
  | .setTID | .setSEOJ | .send | .wait | .close _ =>
    s.mutex = some i ∧ s.ch = some i ∧ s.req = some i ∧ i ∉ s.closed
  | .clearCh _ => s.mutex = some i ∧ s.ch = some i ∧ s.req = some i
  | .clearReq _ => s.mutex = some i ∧ s.ch = none ∧ s.req = some i
  | .unlock _ => s.mutex = some i ∧ s.ch = none ∧ s.req = none
  | .done _ => s.mutex ≠ some i

theorem Shape.mutex {s : PostSt} {i : Nat} {pc : PostPc} (h : Shape s i pc) :
    s.mutex = some i ↔ Pending pc := by
  cases pc <;> simp only [Shape, Pending, iff_true, iff_false] at h ⊢
  · exact h.1
  · exact h.1
  all_goals first | exact h.1 | exact h

structure PInv (s : PostSt) : Prop where
  holder : ∀ j, s.mutex = some j → ∃ p, s.posters[j]? = some p
  shape : ∀ (i : Nat) (p : Poster), s.posters[i]? = some p → Shape s i p.pc
  free : s.mutex = none → s.ch = none ∧ s.req = none
  closed : ∀ c ∈ s.closed, c < s.posters.length

theorem shape_congr {s s' : PostSt} (e1 : s'.mutex = s.mutex) (e2 : s'.ch = s.ch)
    (e3 : s'.req = s.req) (e4 : s'.closed = s.closed) (i : Nat) (pc : PostPc) :
    Shape s' i pc ↔ Shape s i pc := by
  cases pc <;> simp only [Shape, e1, e2, e3, e4]

/-- Only handlers, or the flag, change. -/
theorem PInv.frame {s s' : PostSt} (h : PInv s) (e1 : s'.mutex = s.mutex) (e2 : s'.ch = s.ch)
    (e3 : s'.req = s.req) (e4 : s'.closed = s.closed) (e5 : s'.posters = s.posters) : PInv s' := by
  refine ⟨?_, ?_, ?_, ?_⟩
  · rw [e1, e5]; exact h.holder
  · intro i p hp
    rw [e5] at hp
    exact (shape_congr e1 e2 e3 e4 i p.pc).mpr (h.shape i p hp)
  · rw [e1, e2, e3]; exact h.free
  · rw [e4, e5]; exact h.closed

/-- The holder of the lock, or a post taking it, takes a step. -/
theorem PInv.update {s s' : PostSt} (h : PInv s) {i : Nat} {p p' : Poster}
    (hp : s.posters[i]? = some p) (hm : s.mutex = some i ∨ s.mutex = none)
    (hp' : s'.posters = s.posters.set i p')
    (hm' : s'.mutex = some i ∨ (s'.mutex = none ∧ s'.ch = none ∧ s'.req = none))
    (hc : ∀ c ∈ s'.closed, c = i ∨ c ∈ s.closed) (hs : Shape s' i p'.pc) : PInv s' := by
  have hlt : i < s.posters.length := (List.getElem?_eq_some_iff.mp hp).1
  refine ⟨?_, ?_, ?_, ?_⟩
  · intro j hj
    rcases hm' with e | e
    · rw [hj] at e
      cases e
      rw [hp']
      exact ⟨p', List.getElem?_set_self hlt⟩
    · rw [hj] at e; cases e.1
  · intro j q hq
    rw [hp'] at hq
    by_cases e : i = j
    · subst e
      rw [List.getElem?_set_self hlt] at hq
      cases hq
      exact hs
    · rw [List.getElem?_set_ne e] at hq
      have hj := h.shape j q hq
      have hnj : s.mutex ≠ some j := by
        rcases hm with e' | e' <;> rw [e']
        · intro e''; cases e''; exact e rfl
        · intro e''; cases e''
      have hnj' : s'.mutex ≠ some j := by
        rcases hm' with e' | ⟨e', -⟩ <;> rw [e']
        · intro e''; cases e''; exact e rfl
        · intro e''; cases e''
      have hnc : j ∉ s.closed → j ∉ s'.closed := by
        intro hn hx
        rcases hc j hx with rfl | hx
        · exact e rfl
        · exact hn hx
      have hnp : ¬ Pending q.pc := fun hx => hnj (hj.mutex.mpr hx)
      cases hpc : q.pc <;> rw [hpc] at hj hnp <;> simp only [Pending, not_true] at hnp
      · exact ⟨hnj', hnc hj.2⟩
      · exact ⟨hnj', hnc hj.2⟩
      · exact hnj'
  · intro e
    rcases hm' with e' | e'
    · rw [e] at e'; cases e'
    · exact e'.2
  · intro c hx
    rw [hp', List.length_set]
    rcases hc c hx with rfl | hx
    · exact hlt
    · exact h.closed c hx

/-- A post takes a step that changes no field. -/
theorem PInv.local {s s' : PostSt} (h : PInv s) {i : Nat} {p p' : Poster}
    (hp : s.posters[i]? = some p) (e1 : s'.mutex = s.mutex) (e2 : s'.ch = s.ch)
    (e3 : s'.req = s.req) (e4 : s'.closed = s.closed) (hp' : s'.posters = s.posters.set i p')
    (hs : Shape s i p.pc → Shape s i p'.pc) : PInv s' := by
  have hlt : i < s.posters.length := (List.getElem?_eq_some_iff.mp hp).1
  refine ⟨?_, ?_, ?_, ?_⟩
  · intro j hj
    rw [hp']
    obtain ⟨q, hq⟩ := h.holder j (e1 ▸ hj)
    by_cases e : i = j
    · subst e; exact ⟨p', List.getElem?_set_self hlt⟩
    · exact ⟨q, by rw [List.getElem?_set_ne e]; exact hq⟩
  · intro j q hq
    rw [hp'] at hq
    by_cases e : i = j
    · subst e
      rw [List.getElem?_set_self hlt] at hq
      cases hq
      exact (shape_congr e1 e2 e3 e4 i _).mpr (hs (h.shape i p hp))
    · rw [List.getElem?_set_ne e] at hq
      exact (shape_congr e1 e2 e3 e4 j _).mpr (h.shape j q hq)
  · rw [e1, e2, e3]; exact h.free
  · rw [e4, hp', List.length_set]; exact h.closed

theorem pinv_own {s : PostSt} (h : PInv s) {i : Nat} {p : Poster} (hp : s.posters[i]? = some p) :
    PInv (s.stepOwn i p) := by
  have hsh := h.shape i p hp
  unfold PostSt.stepOwn
  cases hpc : p.pc with
  | start =>
    simp only
    split
    · exact h
    · refine h.local (p' := { p with pc := .lock }) hp rfl rfl rfl rfl rfl ?_
      rw [hpc]; exact id
  | lock =>
    simp only
    split
    · rename_i hm
      obtain ⟨f1, f2⟩ := h.free hm
      rw [hpc] at hsh
      exact h.update (p' := { p with pc := .makeCh }) hp (.inr hm) rfl (.inl rfl) (fun c hc => .inr hc)
        ⟨rfl, f1, f2, hsh.2⟩
    · exact h
  | makeCh =>
    rw [hpc] at hsh
    exact h.update (p' := { p with pc := .setReq }) hp (.inl hsh.1) rfl (.inl hsh.1)
      (fun c hc => .inr hc) ⟨hsh.1, rfl, hsh.2.2.1, hsh.2.2.2⟩
  | setReq =>
    rw [hpc] at hsh
    exact h.update (p' := { p with pc := .setTID }) hp (.inl hsh.1) rfl (.inl hsh.1)
      (fun c hc => .inr hc) ⟨hsh.1, hsh.2.1, rfl, hsh.2.2.2⟩
  | setSEOJ =>
    refine h.local (p' := { p with pc := .send, msg := p.msg.setSEOJ nodeProfileObjectCode }) hp
      rfl rfl rfl rfl rfl ?_
    rw [hpc]; exact id
  | close r =>
    rw [hpc] at hsh
    simp only
    rw [hsh.2.1]
    simp only
    rw [if_neg hsh.2.2.2]
    exact h.update (p' := { p with pc := .clearCh r }) hp (.inl hsh.1) rfl (.inl hsh.1)
      (fun c hc => List.mem_cons.mp hc) ⟨hsh.1, hsh.2.1, hsh.2.2.1⟩
  | clearCh r =>
    rw [hpc] at hsh
    exact h.update (p' := { p with pc := .clearReq r }) hp (.inl hsh.1) rfl (.inl hsh.1)
      (fun c hc => .inr hc) ⟨hsh.1, rfl, hsh.2.2⟩
  | clearReq r =>
    rw [hpc] at hsh
    exact h.update (p' := { p with pc := .unlock r }) hp (.inl hsh.1) rfl (.inl hsh.1)
      (fun c hc => .inr hc) ⟨hsh.1, hsh.2.1, rfl⟩
  | unlock r =>
    rw [hpc] at hsh
    exact h.update (p' := { p with pc := .done r }) hp (.inl hsh.1) rfl (.inr ⟨rfl, hsh.2⟩)
      (fun c hc => .inr hc) (by show (none : Option Nat) ≠ _; intro e; cases e)
  | setTID => exact h
  | send => exact h
  | wait => exact h
  | done r => exact h

theorem pinv_handler {s : PostSt} (h : PInv s) (k : Nat) (x : Handling) : PInv (s.stepHandler k x) := by
  unfold PostSt.stepHandler
  split <;> try exact h.frame rfl rfl rfl rfl rfl
  · split <;> exact h.frame rfl rfl rfl rfl rfl
  · split <;> exact h.frame rfl rfl rfl rfl rfl
  · split
    · exact h.frame rfl rfl rfl rfl rfl
    · exact h

/-- The fields always fit the posts. -/
theorem pinv_step {s : PostSt} (h : PInv s) (a : PostAct) : PInv (s.step a) := by
  unfold PostSt.step
  split
  · exact h
  · cases a with
    | post dst tcp m =>
      refine ⟨?_, ?_, h.free, ?_⟩
      · intro j hj
        obtain ⟨q, hq⟩ := h.holder j hj
        refine ⟨q, ?_⟩
        show (s.posters ++ _)[j]? = some q
        rw [List.getElem?_append_left (List.getElem?_eq_some_iff.mp hq).1]
        exact hq
      · intro j q hq
        replace hq : (s.posters ++ [(⟨dst, tcp, m, false, .start⟩ : Poster)])[j]? = some q := hq
        rcases Nat.lt_or_ge j s.posters.length with hlt | hge
        · rw [List.getElem?_append_left hlt] at hq
          exact (shape_congr rfl rfl rfl rfl j _).mpr (h.shape j q hq)
        · rw [List.getElem?_append_right hge] at hq
          have hj : j = s.posters.length := by
            rcases Nat.lt_or_ge (j - s.posters.length) 1 with h' | h'
            · omega
            · rw [List.getElem?_eq_none (by simpa using h')] at hq; cases hq
          subst hj
          simp only [Nat.sub_self, List.getElem?_cons_zero, Option.some.injEq] at hq
          subst hq
          refine ⟨?_, fun hc => Nat.lt_irrefl _ (h.closed _ hc)⟩
          intro e
          obtain ⟨q, hq⟩ := h.holder _ e
          exact Nat.lt_irrefl _ (List.getElem?_eq_some_iff.mp hq).1
      · intro c hc
        show c < (s.posters ++ [_]).length
        rw [List.length_append]
        have := h.closed c hc
        omega
    | arrive m => exact h.frame rfl rfl rfl rfl rfl
    | cancel i =>
      cases hp : s.posters[i]? with
      | none => simp only [hp]; exact h
      | some p => simp only [hp]; exact h.local (p' := { p with ctxDone := true }) hp rfl rfl rfl rfl rfl id
    | tcp i running tid r =>
      cases hp : s.posters[i]? with
      | none => simp only [hp]; exact h
      | some p =>
        simp only [hp]
        unfold PostSt.stepTCP
        split
        · rename_i hc
          split
          · exact h.local (p' := { p with pc := .lock }) hp rfl rfl rfl rfl rfl (by rw [hc.1]; exact id)
          · cases r with
            | none =>
              refine h.local (p' := ⟨p.dst, p.tcp, _, p.ctxDone, .lock⟩) hp rfl rfl rfl rfl rfl ?_
              rw [hc.1]; exact id
            | some m =>
              refine h.local (p' := ⟨p.dst, p.tcp, _, p.ctxDone, .done (.ok m)⟩) hp rfl rfl rfl rfl rfl ?_
              rw [hc.1]; exact fun x => x.1
        · exact h
    | own i =>
      cases hp : s.posters[i]? with
      | none => simp only [hp]; exact h
      | some p => simp only [hp]; exact pinv_own h hp
    | header i running tid =>
      cases hp : s.posters[i]? with
      | none => simp only [hp]; exact h
      | some p =>
        simp only [hp]
        unfold PostSt.stepHeader
        split
        · rename_i hc
          split
          · exact h.local (p' := { p with pc := .close .failed }) hp rfl rfl rfl rfl rfl
              (by rw [hc]; exact id)
          · exact h.local (p' := { p with pc := .setSEOJ, msg := p.msg.setTID tid }) hp rfl rfl rfl rfl
              rfl (by rw [hc]; exact id)
        · exact h
    | send i ok =>
      cases hp : s.posters[i]? with
      | none => simp only [hp]; exact h
      | some p =>
        simp only [hp]
        unfold PostSt.stepSend
        split
        · rename_i hc
          split
          · exact h.local (p' := { p with pc := .wait }) hp rfl rfl rfl rfl rfl (by rw [hc]; exact id)
          · exact h.local (p' := { p with pc := .close .failed }) hp rfl rfl rfl rfl rfl
              (by rw [hc]; exact id)
        · exact h
    | receive i k =>
      cases hp : s.posters[i]? with
      | none => simp only [hp]; exact h
      | some p =>
        cases hx : s.handlers[k]? with
        | none => simp only [hp, hx]; exact h
        | some x =>
          simp only [hp, hx]
          unfold PostSt.stepReceive
          split
          · rename_i hc
            exact h.local (p' := { p with pc := .close (.ok x.msg) }) hp rfl rfl rfl rfl rfl
              (by rw [hc.1]; exact id)
          · exact h
    | timeout i =>
      cases hp : s.posters[i]? with
      | none => simp only [hp]; exact h
      | some p =>
        simp only [hp]
        split
        · rename_i hc
          exact h.local (p' := { p with pc := .close .timeout }) hp rfl rfl rfl rfl rfl
            (by rw [hc]; exact id)
        · exact h
    | handler k =>
      cases hx : s.handlers[k]? with
      | none => simp only [hx]; exact h
      | some x => simp only [hx]; exact pinv_handler h k x

theorem pinv_init : PInv PostSt.init :=
  ⟨(fun j hj => by cases hj), (fun i p hp => by simp [PostSt.init] at hp), fun _ => ⟨rfl, rfl⟩,
    (fun c hc => by cases hc)⟩

theorem pinv_run {s : PostSt} (h : PInv s) (acts : List PostAct) : PInv (s.run acts) := by
  induction acts generalizing s with
  | nil => exact h
  | cons a as ih => exact ih (pinv_step h a)

end Verif.Lemmas
