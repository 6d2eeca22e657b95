import Verif.Props.Post

/-! # C50: under every schedule, what a post returns was compared with some pending request -/

namespace Verif.Props
open Verif Model Spec Lemmas

/-- The handler has found the identifier of its message to be that of a request, and not ended. -/
def Passed : HandPc → Prop
  | .req3 | .ch3 | .load | .sending _ => True
  | _ => False

/-- Results of posts over UDP have the property `P`. -/
def Origin (P : Message → Prop) (s : PostSt) : Prop :=
  ∀ (i : Nat) (p : Poster) (m : Message), s.posters[i]? = some p → p.tcp = false →
    result p.pc = some (.ok m) → P m

theorem origin_set {P : Message → Prop} {s s' : PostSt} (h : Origin P s) {i : Nat} {p p' : Poster}
    (hp : s.posters[i]? = some p) (hp' : s'.posters = s.posters.set i p') (ht : p'.tcp = p.tcp)
    (hr : p.tcp = false → ∀ m, result p'.pc = some (.ok m) → result p.pc = some (.ok m) ∨
      P m) : Origin P s' := by
  have hlt : i < s.posters.length := (List.getElem?_eq_some_iff.mp hp).1
  intro j q m hq hqt hqr
  rw [hp'] at hq
  by_cases e : i = j
  · subst e
    rw [List.getElem?_set_self hlt] at hq
    cases hq
    rw [ht] at hqt
    rcases hr hqt m hqr with hr | hr
    · exact h i p m hp hqt hr
    · exact hr
  · rw [List.getElem?_set_ne e] at hq
    exact h j q m hq hqt hqr

theorem origin_step {P : Message → Prop} {s : PostSt} (h : Origin P s)
    (hh : ∀ x ∈ s.handlers, Passed x.pc → P x.msg) (a : PostAct) : Origin P (s.step a) := by
  have frame : (s.step a).posters = s.posters → Origin P (s.step a) := by
    intro e i p m hp ht hr
    rw [e] at hp
    exact h i p m hp ht hr
  have set : ∀ (i : Nat) (p p' : Poster), s.posters[i]? = some p →
      (s.step a).posters = s.posters.set i p' → p'.tcp = p.tcp →
      (p.tcp = false → ∀ m, result p'.pc = some (.ok m) → result p.pc = some (.ok m) ∨
        P m) → Origin P (s.step a) :=
    fun i p p' hp e ht hr => origin_set h hp e ht hr
  cases hcr : s.crashed with
  | true =>
    have : s.step a = s := by unfold PostSt.step; rw [hcr]; rfl
    exact frame (by rw [this])
  | false =>
  cases a with
  | post dst tcp q =>
    intro i p m hp ht hr
    have hp' : (s.posters ++ [(⟨dst, tcp, q, false, .start⟩ : Poster)])[i]? = some p := by
      unfold PostSt.step at hp
      rw [hcr] at hp
      exact hp
    rcases Nat.lt_or_ge i s.posters.length with hlt | hge
    · rw [List.getElem?_append_left hlt] at hp'
      exact h i p m hp' ht hr
    · rw [List.getElem?_append_right hge] at hp'
      have : p = ⟨dst, tcp, q, false, .start⟩ := by
        have := List.mem_of_getElem? hp'
        simpa using this
      rw [this] at hr
      cases hr
  | arrive q => exact frame (by unfold PostSt.step; rw [hcr]; rfl)
  | handler k =>
    refine frame ?_
    unfold PostSt.step
    rw [hcr]
    simp only [Bool.false_eq_true, if_false]
    split
    · rfl
    · unfold PostSt.stepHandler
      split <;> try rfl
      · split <;> rfl
      · split <;> rfl
      · split <;> rfl
  | cancel i =>
    cases hp : s.posters[i]? with
    | none => exact frame (by unfold PostSt.step; rw [hcr]; simp only [hp]; rfl)
    | some p =>
      refine set i p { p with ctxDone := true } hp (by unfold PostSt.step; rw [hcr]; simp only [hp]; rfl)
        rfl (fun _ m hm => .inl hm)
  | timeout i =>
    cases hp : s.posters[i]? with
    | none => exact frame (by unfold PostSt.step; rw [hcr]; simp only [hp]; rfl)
    | some p =>
      by_cases hw : p.pc = .wait
      · refine set i p { p with pc := .close .timeout } hp
          (by unfold PostSt.step; rw [hcr]; simp only [hp, hw]; rfl) rfl (fun _ m hm => by cases hm)
      · exact frame (by unfold PostSt.step; rw [hcr]; simp only [hp, hw]; rfl)
  | tcp i running tid r =>
    cases hp : s.posters[i]? with
    | none => exact frame (by unfold PostSt.step; rw [hcr]; simp only [hp]; rfl)
    | some p =>
      by_cases hw : p.pc = .start ∧ p.tcp = true
      · cases running with
        | false =>
          refine set i p { p with pc := .lock } hp
            (by unfold PostSt.step; rw [hcr]; simp only [hp, PostSt.stepTCP, hw]; rfl) rfl
            (fun _ m hm => by cases hm)
        | true =>
          cases r with
          | none =>
            refine set i p ⟨p.dst, p.tcp, (p.msg.setTID tid).setSEOJ nodeProfileObjectCode, p.ctxDone,
              .lock⟩ hp (by unfold PostSt.step; rw [hcr]; simp only [hp, PostSt.stepTCP, hw]; rfl) rfl
              (fun _ m hm => by cases hm)
          | some q =>
            refine set i p ⟨p.dst, p.tcp, (p.msg.setTID tid).setSEOJ nodeProfileObjectCode, p.ctxDone,
              .done (.ok q)⟩ hp (by unfold PostSt.step; rw [hcr]; simp only [hp, PostSt.stepTCP, hw]; rfl)
              rfl (fun ht => by rw [hw.2] at ht; cases ht)
      · refine frame ?_
        unfold PostSt.step; rw [hcr]; simp only [hp, PostSt.stepTCP, if_neg hw]; rfl
  | header i running tid =>
    cases hp : s.posters[i]? with
    | none => exact frame (by unfold PostSt.step; rw [hcr]; simp only [hp]; rfl)
    | some p =>
      by_cases hw : p.pc = .setTID
      · cases running with
        | false =>
          exact set i p { p with pc := .close .failed } hp
            (by unfold PostSt.step; rw [hcr]; simp only [hp, PostSt.stepHeader, hw]; rfl) rfl
            (fun _ m hm => by cases hm)
        | true =>
          exact set i p { p with pc := .setSEOJ, msg := p.msg.setTID tid } hp
            (by unfold PostSt.step; rw [hcr]; simp only [hp, PostSt.stepHeader, hw]; rfl) rfl
            (fun _ m hm => by cases hm)
      · refine frame ?_
        unfold PostSt.step; rw [hcr]; simp only [hp, PostSt.stepHeader, if_neg hw]; rfl
  | send i ok =>
    cases hp : s.posters[i]? with
    | none => exact frame (by unfold PostSt.step; rw [hcr]; simp only [hp]; rfl)
    | some p =>
      by_cases hw : p.pc = .send
      · cases ok with
        | false =>
          exact set i p { p with pc := .close .failed } hp
            (by unfold PostSt.step; rw [hcr]; simp only [hp, PostSt.stepSend, hw]; rfl) rfl
            (fun _ m hm => by cases hm)
        | true =>
          exact set i p { p with pc := .wait } hp
            (by unfold PostSt.step; rw [hcr]; simp only [hp, PostSt.stepSend, hw]; rfl) rfl
            (fun _ m hm => by cases hm)
      · refine frame ?_
        unfold PostSt.step; rw [hcr]; simp only [hp, PostSt.stepSend, if_neg hw]; rfl
  | receive i k =>
    cases hp : s.posters[i]? with
    | none => exact frame (by unfold PostSt.step; rw [hcr]; simp only [hp]; rfl)
    | some p =>
      cases hx : s.handlers[k]? with
      | none => exact frame (by unfold PostSt.step; rw [hcr]; simp only [hp, hx]; rfl)
      | some x =>
        by_cases hw : p.pc = .wait ∧ x.pc = .sending i
        · refine set i p { p with pc := .close (.ok x.msg) } hp
            (by unfold PostSt.step; rw [hcr]; simp only [hp, hx, PostSt.stepReceive, hw]; rfl) rfl
            (fun _ m hm => ?_)
          cases hm
          exact .inr (hh x (List.mem_of_getElem? hx) (by rw [hw.2]; trivial))
        · refine frame ?_
          unfold PostSt.step; rw [hcr]; simp only [hp, hx, PostSt.stepReceive, if_neg hw]; rfl
  | own i =>
    cases hp : s.posters[i]? with
    | none => exact frame (by unfold PostSt.step; rw [hcr]; simp only [hp]; rfl)
    | some p =>
      have e : s.step (.own i) = s.stepOwn i p := by
        unfold PostSt.step; rw [hcr]; simp only [hp]; rfl
      rw [e] at frame set ⊢
      unfold PostSt.stepOwn at *
      cases hpc : p.pc with
      | start =>
        simp only [hpc] at frame set ⊢
        cases ht : p.tcp with
        | true => exact h
        | false =>
          simp only [ht] at frame set ⊢
          exact set i p _ hp rfl ht.symm (fun _ m hm => by cases hm)
      | lock =>
        simp only [hpc] at frame set ⊢
        split at set
        · rename_i hm
          rw [if_pos hm]
          exact set i p _ hp rfl rfl (fun _ m hm => by cases hm)
        · rename_i hm
          rw [if_neg hm]
          exact h
      | makeCh =>
        simp only [hpc] at set ⊢
        exact set i p _ hp rfl rfl (fun _ m hm => by cases hm)
      | setReq =>
        simp only [hpc] at set ⊢
        exact set i p _ hp rfl rfl (fun _ m hm => by cases hm)
      | setSEOJ =>
        simp only [hpc] at set ⊢
        exact set i p _ hp rfl rfl (fun _ m hm => by cases hm)
      | close r =>
        simp only [hpc] at frame set ⊢
        cases hc : s.ch with
        | none =>
          simp only [hc] at set ⊢
          exact set i p _ hp rfl rfl (fun _ m hm => .inl (by rw [hpc]; exact hm))
        | some c =>
          simp only [hc] at frame set ⊢
          split at set
          · rename_i hm
            rw [if_pos hm]
            exact h
          · rename_i hm
            rw [if_neg hm]
            exact set i p _ hp rfl rfl (fun _ m hm => .inl (by rw [hpc]; exact hm))
      | clearCh r =>
        simp only [hpc] at set ⊢
        exact set i p _ hp rfl rfl (fun _ m hm => .inl (by rw [hpc]; exact hm))
      | clearReq r =>
        simp only [hpc] at set ⊢
        exact set i p _ hp rfl rfl (fun _ m hm => .inl (by rw [hpc]; exact hm))
      | unlock r =>
        simp only [hpc] at set ⊢
        exact set i p _ hp rfl rfl (fun _ m hm => .inl (by rw [hpc]; exact hm))
      | setTID => exact h
      | send => exact h
      | wait => exact h
      | done r => exact h

/-- A handler that passes the comparison does so because of the request there is. -/
theorem passed_step {P : Message → Prop} {s : PostSt} (hh : ∀ x ∈ s.handlers, Passed x.pc → P x.msg)
    (hq : ∀ q m, s.reqMsg = some q → m.getTID = q.getTID → P m) (a : PostAct) :
    ∀ x ∈ (s.step a).handlers, Passed x.pc → P x.msg := by
  have set : ∀ (k : Nat) (x x' : Handling), s.handlers[k]? = some x →
      x'.msg = x.msg → (Passed x'.pc → Passed x.pc ∨ P x.msg) →
      ∀ y ∈ s.handlers.set k x', Passed y.pc → P y.msg := by
    intro k x x' hk hm hp y hy hy'
    rcases List.mem_or_eq_of_mem_set hy with h | rfl
    · exact hh y h hy'
    · rw [hm]
      rcases hp hy' with h | h
      · exact hh x (List.mem_of_getElem? hk) h
      · exact h
  unfold PostSt.step
  split
  · exact hh
  cases a with
  | post dst tcp q => exact hh
  | arrive q =>
    intro x hx hp
    rcases List.mem_append.mp hx with h | h
    · exact hh x h hp
    · rw [List.mem_singleton.mp h] at hp
      cases hp
  | cancel i => simp only; split <;> exact hh
  | tcp i running tid r =>
    simp only; split
    · exact hh
    · unfold PostSt.stepTCP
      split
      · split
        · exact hh
        · cases r <;> exact hh
      · exact hh
  | own i =>
    simp only; split
    · exact hh
    · unfold PostSt.stepOwn
      split <;> try exact hh
      all_goals split <;> try exact hh
      split <;> exact hh
  | header i running tid =>
    simp only; split
    · exact hh
    · unfold PostSt.stepHeader
      split
      · split <;> exact hh
      · exact hh
  | send i ok =>
    simp only; split
    · exact hh
    · unfold PostSt.stepSend
      split
      · split <;> exact hh
      · exact hh
  | timeout i =>
    simp only; split
    · exact hh
    · split <;> exact hh
  | receive i k =>
    simp only
    cases hp : s.posters[i]? with
    | none => exact hh
    | some p =>
      cases hx : s.handlers[k]? with
      | none => exact hh
      | some x =>
        simp only [PostSt.stepReceive]
        split
        · exact set k x _ hx rfl (fun h => by cases h)
        · exact hh
  | handler k =>
    simp only
    cases hx : s.handlers[k]? with
    | none => exact hh
    | some x =>
      simp only
      unfold PostSt.stepHandler
      cases hpc : x.pc with
      | req1 => exact set k x _ hx rfl (fun h => by split at h <;> cases h)
      | ch1 => exact set k x _ hx rfl (fun h => by split at h <;> cases h)
      | req2 => exact set k x _ hx rfl (fun h => by split at h <;> cases h)
      | ch2 => exact set k x _ hx rfl (fun h => by split at h <;> cases h)
      | equal => exact set k x _ hx rfl (fun h => by split at h <;> cases h)
      | tid =>
        simp only
        cases hr : s.reqMsg with
        | none => exact hh
        | some q =>
          refine set k x _ hx rfl (fun h => .inr ?_)
          by_cases e : x.msg.getTID = q.getTID
          · exact hq q x.msg hr e
          · rw [if_pos e] at h; cases h
      | req3 => exact set k x _ hx rfl (fun _ => .inl (by rw [hpc]; trivial))
      | ch3 => exact set k x _ hx rfl (fun _ => .inl (by rw [hpc]; trivial))
      | load =>
        simp only
        split
        · exact set k x _ hx rfl (fun h => by cases h)
        · exact set k x _ hx rfl (fun _ => .inl (by rw [hpc]; trivial))
      | sending c => simp only; split <;> exact hh
      | blocked => exact hh
      | past => exact hh

/-- The request the node keeps is that of a post holding the lock. -/
theorem reqMsg_pending {s : PostSt} (hi : PInv s) {q : Message} (h : s.reqMsg = some q) :
    ∃ (k : Nat) (p : Poster), s.posters[k]? = some p ∧ Pending p.pc ∧ p.msg = q := by
  unfold PostSt.reqMsg at h
  cases hr : s.req with
  | none => rw [hr] at h; cases h
  | some k =>
    rw [hr] at h
    obtain ⟨p, hp, hq⟩ := Option.map_eq_some_iff.mp h
    refine ⟨k, p, hp, ?_, hq⟩
    cases hm : s.mutex with
    | none => rw [(hi.free hm).2] at hr; cases hr
    | some j =>
      obtain ⟨p', hp'⟩ := hi.holder j hm
      have hsh := hi.shape j p' hp'
      have hpend := hsh.mutex.mp hm
      have hjk : j = k := by
        cases hpc : p'.pc <;> rw [hpc] at hsh hpend <;> simp only [Shape, Pending] at hsh hpend
        all_goals simp_all
      subst hjk
      rw [hp] at hp'
      cases hp'
      exact hpend

/-- C50, the part that holds under every schedule: a message returned by a post over UDP had, at some moment before,
the transaction identifier of the message of a post that was under way then. Missing: that this was the same post,
and that its message had its final identifier. -/
theorem C50_met_partial (acts : List PostAct) (i : Nat) (p : Poster) (m : Message)
    (hp : (PostSt.init.run acts).posters[i]? = some p) (ht : p.tcp = false) (hd : p.pc = .done (.ok m)) :
    ∃ pre post, acts = pre ++ post ∧ ∃ (k : Nat) (q : Poster),
      (PostSt.init.run pre).posters[k]? = some q ∧ Pending q.pc ∧ m.getTID = q.msg.getTID := by
  let P : List PostAct → Message → Prop := fun acts m => ∃ pre post, acts = pre ++ post ∧ ∃ (k : Nat) (q : Poster),
      (PostSt.init.run pre).posters[k]? = some q ∧ Pending q.pc ∧ m.getTID = q.msg.getTID
  have key : ∀ rest acts : List PostAct, Origin (P acts) (PostSt.init.run acts) →
      (∀ x ∈ (PostSt.init.run acts).handlers, Passed x.pc → P acts x.msg) →
      Origin (P (acts ++ rest)) (PostSt.init.run (acts ++ rest)) := by
    intro rest
    induction rest with
    | nil => intro acts h _; simpa using h
    | cons a rest ih =>
      intro acts h hh
      have mono : ∀ m, P acts m → P (acts ++ [a]) m := by
        rintro m ⟨pre, post, e, hm⟩
        exact ⟨pre, post ++ [a], by rw [e, List.append_assoc], hm⟩
      have hstep : PostSt.init.run (acts ++ [a]) = (PostSt.init.run acts).step a := by
        rw [run_append]; rfl
      have := ih (acts ++ [a]) ?_ ?_
      · simpa using this
      · rw [hstep]
        exact origin_step (fun i p m h1 h2 h3 => mono m (h i p m h1 h2 h3)) (fun x hx hp => mono _ (hh x hx hp)) a
      · rw [hstep]
        refine passed_step (fun x hx hp => mono _ (hh x hx hp)) ?_ a
        intro q m hr he
        obtain ⟨k, p, h1, h2, h3⟩ := reqMsg_pending (pinv_run pinv_init acts) hr
        exact ⟨acts, [a], rfl, k, p, h1, h2, by rw [he, h3]⟩
  have := key acts [] (fun i p m hp => by simp [PostSt.init, PostSt.run] at hp)
    (fun x hx => by simp [PostSt.init, PostSt.run] at hx)
  exact this i p m hp ht (by rw [hd]; rfl)

/-- The run of `goodRun`. -/
example : ∃ p, (PostSt.init.run goodRun).posters[0]? = some p ∧ p.tcp = false ∧
    p.pc = .done (.ok (aResponse 7 "10.0.0.2")) := ⟨_, rfl, by decide +kernel, by decide +kernel⟩

end Verif.Props
