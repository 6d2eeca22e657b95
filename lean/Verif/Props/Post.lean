import Verif.Lemmas.Post

/-!
# C50 to C54 and C69: posts

`PostSt.init.run acts` is the state after any interleaving of any number of posts and arriving
messages.
-/

namespace Verif.Props
open Verif Model Spec Lemmas

theorem run_append (s : PostSt) (as bs : List PostAct) : s.run (as ++ bs) = (s.run as).run bs := by
  induction as generalizing s with
  | nil => rfl
  | cons a as ih => exact ih (s.step a)

/-! ## C53 -/

/-- C53. At most one post holds the lock. -/
theorem C53_exclusive (acts : List PostAct) (i j : Nat) (p q : Poster)
    (hp : (PostSt.init.run acts).posters[i]? = some p) (hq : (PostSt.init.run acts).posters[j]? = some q)
    (hi : Pending p.pc) (hj : Pending q.pc) : i = j := by
  have h := pinv_run pinv_init acts
  have a := (h.shape i p hp).mutex.mpr hi
  have b := (h.shape j q hq).mutex.mpr hj
  rw [a] at b
  exact Option.some.inj b

/-- C53. When no post holds the lock it is free, and no request is pending and no channel is left. -/
theorem C53_released (acts : List PostAct)
    (hn : ∀ p ∈ (PostSt.init.run acts).posters, ¬ Pending p.pc) :
    (PostSt.init.run acts).mutex = none ∧ (PostSt.init.run acts).ch = none ∧
    (PostSt.init.run acts).req = none := by
  have h := pinv_run pinv_init acts
  have hm : (PostSt.init.run acts).mutex = none := by
    cases hm : (PostSt.init.run acts).mutex with
    | none => rfl
    | some j =>
      obtain ⟨p, hp⟩ := h.holder j hm
      exact absurd ((h.shape j p hp).mutex.mp hm) (hn p (List.mem_of_getElem? hp))
  exact ⟨hm, h.free hm⟩

/-- The steps that end a post that waits. -/
def ending (i : Nat) : List PostAct := [.timeout i, .own i, .own i, .own i, .own i]

/-- C53. Whatever happened before, a post that waits ends after its timeout by its own steps alone,
and then leaves the lock free, no request and no channel. -/
theorem C53_ends (acts : List PostAct) (i : Nat) (p : Poster)
    (hc : (PostSt.init.run acts).crashed = false)
    (hp : (PostSt.init.run acts).posters[i]? = some p) (hw : p.pc = .wait) :
    let s := (PostSt.init.run acts).run (ending i)
    s.crashed = false ∧ s.posters[i]? = some { p with pc := .done .timeout } ∧
    s.mutex = none ∧ s.ch = none ∧ s.req = none := by
  have h := pinv_run pinv_init acts
  generalize PostSt.init.run acts = s at *
  have hlt : i < s.posters.length := (List.getElem?_eq_some_iff.mp hp).1
  obtain ⟨h1, h2, h3, h4⟩ : s.mutex = some i ∧ s.ch = some i ∧ s.req = some i ∧ i ∉ s.closed := by
    have := h.shape i p hp
    rw [hw] at this
    exact this
  obtain ⟨mutex, ch, req, closed, posters, handlers, crashed⟩ := s
  simp only at hc hp hlt h1 h2 h3 h4
  subst hc h1 h2 h3
  obtain ⟨_, he⟩ := List.getElem?_eq_some_iff.mp hp
  subst he
  simp [ending, PostSt.run, PostSt.step, hw, PostSt.setPoster, PostSt.stepOwn, hlt, h4]

/-! ## C50 -/

/-- What is known of a handler's message while the request `q` waits. -/
def Checked (q : Message) (x : Handling) : Prop :=
  match x.pc with
  | .tid => x.msg.bytes ≠ q.bytes
  | .req3 | .ch3 | .load | .sending _ => x.msg.bytes ≠ q.bytes ∧ x.msg.getTID = q.getTID
  | _ => True

/-- The post `i` with request `q` waits, or has a fitting result. -/
structure Waiting (i : Nat) (q : Message) (s : PostSt) : Prop where
  post : ∃ p, s.posters[i]? = some p ∧ p.msg = q ∧
    ((p.pc = .wait ∧ ∀ x ∈ s.handlers, Checked q x) ∨
     ∃ r, result p.pc = some r ∧ ∀ m, r = .ok m → m.bytes ≠ q.bytes ∧ m.getTID = q.getTID)

theorem mem_set {α : Type} {l : List α} {k : Nat} {y x : α} (h : x ∈ l.set k y) : x = y ∨ x ∈ l := by
  rcases List.mem_or_eq_of_mem_set h with h | h
  · exact .inr h
  · exact .inl h

/-- A step of another post. -/
theorem Waiting.other {i j : Nat} {q : Message} {s s' : PostSt} (h : Waiting i q s) (hij : j ≠ i)
    (p' : Poster) (hp : s'.posters = s.posters.set j p')
    (hh : ∀ x ∈ s'.handlers, x ∈ s.handlers ∨ x.pc = .past) : Waiting i q s' := by
  obtain ⟨p, h1, h2, h3⟩ := h.post
  refine ⟨p, by rw [hp, List.getElem?_set_ne hij]; exact h1, h2, ?_⟩
  rcases h3 with ⟨h3, h4⟩ | h3
  · refine .inl ⟨h3, fun x hx => ?_⟩
    rcases hh x hx with hx | hx
    · exact h4 x hx
    · unfold Checked; rw [hx]; trivial
  · exact .inr h3

/-- A step of a handler. -/
theorem Waiting.hand {i : Nat} {q : Message} {s s' : PostSt} (h : Waiting i q s)
    (hp : s'.posters = s.posters) (k : Nat) (y : Handling)
    (hh : s'.handlers = s.handlers.set k y)
    (hy : (∃ p, s.posters[i]? = some p ∧ p.msg = q ∧ p.pc = .wait) → (∀ x ∈ s.handlers, Checked q x) →
      Checked q y) : Waiting i q s' := by
  obtain ⟨p, h1, h2, h3⟩ := h.post
  refine ⟨p, by rw [hp]; exact h1, h2, ?_⟩
  rcases h3 with ⟨h3, h4⟩ | h3
  · refine .inl ⟨h3, fun x hx => ?_⟩
    rw [hh] at hx
    rcases mem_set hx with rfl | hx
    · exact hy ⟨p, h1, h2, h3⟩ h4
    · exact h4 x hx
  · exact .inr h3

theorem waiting_frame {i : Nat} {q : Message} {s s' : PostSt} (h : Waiting i q s)
    (hp : s'.posters = s.posters) (hh : s'.handlers = s.handlers) : Waiting i q s' := by
  obtain ⟨p, h1, h2, h3⟩ := h.post
  refine ⟨p, by rw [hp]; exact h1, h2, ?_⟩
  rw [hh]; exact h3

/-- A step of the post itself that leaves its message and its result. -/
theorem Waiting.self {i : Nat} {q : Message} {s s' : PostSt} {p : Poster} (h : Waiting i q s)
    (h0 : s.posters[i]? = some p) (p' : Poster) (hp : s'.posters = s.posters.set i p')
    (hh : s'.handlers = s.handlers) (hm : p.msg = q → p'.msg = q) (hw : p.pc = .wait → p'.pc = .wait)
    (hr : ∀ r, result p.pc = some r → result p'.pc = some r) : Waiting i q s' := by
  have hlt : i < s.posters.length := (List.getElem?_eq_some_iff.mp h0).1
  obtain ⟨p₀, h1, h2, h3⟩ := h.post
  rw [h0] at h1
  cases h1
  refine ⟨p', by rw [hp, List.getElem?_set_self hlt], hm h2, ?_⟩
  rcases h3 with ⟨h3, h4⟩ | ⟨r, h3, h4⟩
  · exact .inl ⟨hw h3, by rw [hh]; exact h4⟩
  · exact .inr ⟨r, hr r h3, h4⟩

theorem waiting_step {i : Nat} {q : Message} {s : PostSt} (hi : PInv s) (h : Waiting i q s)
    (a : PostAct) : Waiting i q (s.step a) := by
  obtain ⟨p₀, g1, g2, g3⟩ := h.post
  have hlt : i < s.posters.length := (List.getElem?_eq_some_iff.mp g1).1
  unfold PostSt.step
  split
  · exact h
  cases a with
  | post dst tcp m =>
    refine ⟨p₀, ?_, g2, g3⟩
    show (s.posters ++ _)[i]? = _
    rw [List.getElem?_append_left hlt]; exact g1
  | arrive m =>
    refine ⟨p₀, g1, g2, ?_⟩
    rcases g3 with ⟨g3, g4⟩ | g3
    · refine .inl ⟨g3, fun x hx => ?_⟩
      rcases List.mem_append.mp hx with hx | hx
      · exact g4 x hx
      · rw [List.mem_singleton] at hx
        subst hx
        trivial
    · exact .inr g3
  | cancel j =>
    cases hp : s.posters[j]? with
    | none => simp only [hp]; exact h
    | some p =>
      simp only [hp]
      by_cases e : j = i
      · subst e
        exact h.self hp { p with ctxDone := true } rfl rfl id id (fun _ => id)
      · exact h.other e _ rfl (fun x hx => .inl hx)
  | tcp j running tid r =>
    cases hp : s.posters[j]? with
    | none => simp only [hp]; exact h
    | some p =>
      simp only [hp]
      by_cases e : j = i
      · subst e
        have : s.stepTCP j p running tid r = s := by
          unfold PostSt.stepTCP
          refine if_neg ?_
          rintro ⟨e1, -⟩
          rw [g1] at hp
          cases hp
          rcases g3 with ⟨g3, -⟩ | ⟨r, g3, -⟩
          · rw [e1] at g3; cases g3
          · rw [e1] at g3; cases g3
        rw [this]; exact h
      · unfold PostSt.stepTCP
        split
        · split
          · exact h.other e _ rfl (fun x hx => .inl hx)
          · cases r with
            | none => exact h.other e ⟨p.dst, p.tcp, _, p.ctxDone, .lock⟩ rfl (fun x hx => .inl hx)
            | some m =>
              exact h.other e ⟨p.dst, p.tcp, _, p.ctxDone, .done (.ok m)⟩ rfl (fun x hx => .inl hx)
        · exact h
  | own j =>
    cases hp : s.posters[j]? with
    | none => simp only [hp]; exact h
    | some p =>
      simp only [hp]
      unfold PostSt.stepOwn
      by_cases e : j = i
      · subst e
        have e0 : p = p₀ := Option.some.inj (hp.symm.trans g1)
        subst e0
        cases hpc : p.pc with
        | close r =>
          have hsh := hi.shape j p hp
          rw [hpc] at hsh
          simp only
          rw [hsh.2.1]
          simp only
          rw [if_neg hsh.2.2.2]
          exact h.self hp { p with pc := .clearCh r } rfl rfl id (by rw [hpc]; intro x; cases x)
            (by rw [hpc]; exact fun _ => id)
        | clearCh r =>
          exact h.self hp { p with pc := .clearReq r } rfl rfl id (by rw [hpc]; intro x; cases x)
            (by rw [hpc]; exact fun _ => id)
        | clearReq r =>
          exact h.self hp { p with pc := .unlock r } rfl rfl id (by rw [hpc]; intro x; cases x)
            (by rw [hpc]; exact fun _ => id)
        | unlock r =>
          exact h.self hp { p with pc := .done r } rfl rfl id (by rw [hpc]; intro x; cases x)
            (by rw [hpc]; exact fun _ => id)
        | wait => exact h
        | done r => exact h
        | _ =>
          rcases g3 with ⟨g3, -⟩ | ⟨r, g3, -⟩
          · rw [hpc] at g3; cases g3
          · rw [hpc] at g3; cases g3
      · cases hpc : p.pc with
        | start =>
          simp only
          split
          · exact h
          · exact h.other e _ rfl (fun x hx => .inl hx)
        | lock =>
          simp only
          split
          · exact h.other e _ rfl (fun x hx => .inl hx)
          · exact h
        | close r =>
          simp only
          split
          · exact h.other e _ rfl (fun x hx => .inl hx)
          · split
            · exact waiting_frame h rfl rfl
            · exact h.other e _ rfl (fun x hx => .inl hx)
        | setTID => exact h
        | send => exact h
        | wait => exact h
        | done r => exact h
        | _ => exact h.other e _ rfl (fun x hx => .inl hx)
  | header j running tid =>
    cases hp : s.posters[j]? with
    | none => simp only [hp]; exact h
    | some p =>
      simp only [hp]
      unfold PostSt.stepHeader
      split
      · rename_i hc
        by_cases e : j = i
        · subst e
          rw [g1] at hp
          cases hp
          rw [hc] at g3
          rcases g3 with ⟨g3, -⟩ | ⟨r, g3, -⟩ <;> cases g3
        · split <;> exact h.other e _ rfl (fun x hx => .inl hx)
      · exact h
  | send j ok =>
    cases hp : s.posters[j]? with
    | none => simp only [hp]; exact h
    | some p =>
      simp only [hp]
      unfold PostSt.stepSend
      split
      · rename_i hc
        by_cases e : j = i
        · subst e
          rw [g1] at hp
          cases hp
          rw [hc] at g3
          rcases g3 with ⟨g3, -⟩ | ⟨r, g3, -⟩ <;> cases g3
        · split <;> exact h.other e _ rfl (fun x hx => .inl hx)
      · exact h
  | receive j k =>
    cases hp : s.posters[j]? with
    | none => simp only [hp]; exact h
    | some p =>
      cases hx : s.handlers[k]? with
      | none => simp only [hp, hx]; exact h
      | some x =>
        simp only [hp, hx]
        unfold PostSt.stepReceive
        split
        · rename_i hc
          by_cases e : j = i
          · subst e
            rw [g1] at hp
            cases hp
            refine ⟨{ p₀ with pc := .close (.ok x.msg) }, ?_, g2, .inr ⟨_, rfl, ?_⟩⟩
            · show (s.posters.set j _)[j]? = _
              rw [List.getElem?_set_self hlt]
            · intro m e
              cases e
              rcases g3 with ⟨-, g4⟩ | ⟨r, g3, -⟩
              · have := g4 x (List.mem_of_getElem? hx)
                unfold Checked at this
                rw [hc.2] at this
                exact this
              · rw [hc.1] at g3; cases g3
          · refine h.other e _ rfl (fun y hy => ?_)
            rcases mem_set hy with rfl | hy
            · exact .inr rfl
            · exact .inl hy
        · exact h
  | timeout j =>
    cases hp : s.posters[j]? with
    | none => simp only [hp]; exact h
    | some p =>
      simp only [hp]
      split
      · by_cases e : j = i
        · subst e
          rw [g1] at hp
          cases hp
          refine ⟨{ p₀ with pc := .close .timeout }, ?_, g2, .inr ⟨_, rfl, ?_⟩⟩
          · show (s.posters.set j _)[j]? = _
            rw [List.getElem?_set_self hlt]
          · intro m e; cases e
        · exact h.other e _ rfl (fun x hx => .inl hx)
      · exact h
  | handler k =>
    cases hx : s.handlers[k]? with
    | none => simp only [hx]; exact h
    | some x =>
      simp only [hx]
      have hmem := List.mem_of_getElem? hx
      -- while the post waits, the pending request is its own
      have hreq : (∃ p, s.posters[i]? = some p ∧ p.msg = q ∧ p.pc = .wait) → s.reqMsg = some q := by
        rintro ⟨p, k1, k2, k3⟩
        have hsh := hi.shape i p k1
        rw [k3] at hsh
        unfold PostSt.reqMsg
        rw [hsh.2.2.1]
        simp only
        rw [k1, ← k2]; rfl
      unfold PostSt.stepHandler
      cases hpc : x.pc with
      | req1 =>
        refine h.hand rfl k _ rfl (fun _ _ => ?_)
        by_cases e : s.req = none <;> simp [Checked, e]
      | ch1 =>
        refine h.hand rfl k _ rfl (fun _ _ => ?_)
        by_cases e : s.ch = none <;> simp [Checked, e]
      | req2 =>
        refine h.hand rfl k _ rfl (fun _ _ => ?_)
        by_cases e : s.req = none <;> simp [Checked, e]
      | ch2 =>
        refine h.hand rfl k _ rfl (fun _ _ => ?_)
        by_cases e : s.ch = none <;> simp [Checked, e]
      | equal =>
        refine h.hand rfl k _ rfl (fun hw _ => ?_)
        rw [hreq hw]
        by_cases he : x.msg.bytes = q.bytes
        · simp [Checked, Message.equals, he]
        · simp [Checked, Message.equals, he]
      | tid =>
        simp only
        split
        · exact waiting_frame h rfl rfl
        · rename_i q' hq'
          refine h.hand rfl k _ rfl (fun hw hc => ?_)
          rw [hreq hw] at hq'
          cases hq'
          have := hc x hmem
          unfold Checked at this
          rw [hpc] at this
          by_cases he : x.msg.getTID = q.getTID
          · simp [Checked, he]; exact this
          · simp [Checked, he]
      | req3 =>
        refine h.hand rfl k _ rfl (fun _ hc => ?_)
        have := hc x hmem
        unfold Checked at this
        rw [hpc] at this
        by_cases e : s.req = none
        · simp [Checked, e]
        · simp [Checked, e]; exact this
      | ch3 =>
        refine h.hand rfl k _ rfl (fun _ hc => ?_)
        have := hc x hmem
        unfold Checked at this
        rw [hpc] at this
        by_cases e : s.ch = none
        · simp [Checked, e]
        · simp [Checked, e]; exact this
      | load =>
        simp only
        split
        · exact h.hand rfl k _ rfl (fun _ _ => trivial)
        · refine h.hand rfl k _ rfl (fun _ hc => ?_)
          have := hc x hmem
          unfold Checked at this
          rw [hpc] at this
          exact this
      | sending c =>
        simp only
        split
        · exact waiting_frame h rfl rfl
        · exact h
      | blocked => exact h
      | past => exact h

/-- C50, the part that holds: if no message is being compared with a request at the moment the post
begins to wait, then whatever happens afterwards, a message it returns has the transaction
identifier of its request and is not the request. Missing: see the three refutations. -/
theorem C50_match_partial (acts acts' : List PostAct) (i : Nat) (p p' : Poster) (m : Message)
    (hp : (PostSt.init.run acts).posters[i]? = some p) (hw : p.pc = .wait)
    (hn : ∀ x ∈ (PostSt.init.run acts).handlers, ¬ Compared x.pc)
    (hp' : ((PostSt.init.run acts).run acts').posters[i]? = some p') (hd : p'.pc = .done (.ok m)) :
    p'.msg = p.msg ∧ m.getTID = p.msg.getTID ∧ m.bytes ≠ p.msg.bytes := by
  have hi := pinv_run pinv_init acts
  have h : Waiting i p.msg (PostSt.init.run acts) := by
    refine ⟨p, hp, rfl, .inl ⟨hw, fun x hx => ?_⟩⟩
    have := hn x hx
    unfold Checked
    cases hpc : x.pc <;> rw [hpc] at this <;> simp only [Compared, not_true] at this
    all_goals trivial
  generalize PostSt.init.run acts = s at hi h hp'
  have key : ∀ (as : List PostAct) (s : PostSt), PInv s → Waiting i p.msg s →
      Waiting i p.msg (s.run as) := by
    intro as
    induction as with
    | nil => intro s _ h; exact h
    | cons a as ih => intro s hi h; exact ih _ (pinv_step hi a) (waiting_step hi h a)
  obtain ⟨p₁, h1, h2, h3⟩ := (key acts' s hi h).post
  rw [hp'] at h1
  cases h1
  rw [hd] at h3
  rcases h3 with ⟨h3, -⟩ | ⟨r, h3, h4⟩
  · cases h3
  · cases h3
    obtain ⟨k1, k2⟩ := h4 m rfl
    exact ⟨h2, k2, k1⟩

/-! ### Examples and refutations -/

/-- A request for the operating status of an air conditioner. -/
def aRequest : Message :=
  ((Message.new.setESV 0x62).setDEOJ 0x013001).addProperty (some ⟨0x80, []⟩)

/-- A response with transaction identifier `tid` from `ip`. -/
def aResponse (tid : GoUint) (ip : String) : Message :=
  { ((((Message.new.setTID tid).setESV 0x72).setSEOJ 0x013001).setDEOJ 0x0EF001).addProperty
      (some ⟨0x80, [0x30]⟩) with src := ⟨ip, 3610⟩ }

/-- A post up to its waiting, with transaction identifier `tid`. -/
def posting (i : Nat) (tid : GoUint) : List PostAct :=
  [.own i, .own i, .own i, .own i, .header i true tid, .own i, .send i true]

/-- All the steps of a handler up to the sending. -/
def handling (h : Nat) : List PostAct := List.replicate 9 (.handler h)

/-- A post and its response. -/
def goodRun : List PostAct :=
  [.post ⟨"10.0.0.2", 3610⟩ false aRequest] ++ posting 0 7 ++ [.arrive (aResponse 7 "10.0.0.2")] ++
  handling 0 ++ [.receive 0 0, .own 0, .own 0, .own 0, .own 0]

/-- The hypotheses of `C50_match_partial` are met: the post waits, then returns the response. -/
example : ((PostSt.init.run (goodRun.take 8)).posters[0]?).map (·.pc) = some .wait ∧
    (PostSt.init.run (goodRun.take 8)).handlers = [] ∧
    ((PostSt.init.run goodRun).posters[0]?).map (·.pc) = some (.done (.ok (aResponse 7 "10.0.0.2"))) ∧
    (PostSt.init.run goodRun).crashed = false := by decide +kernel

/-- C50 is false: a message with identifier 0 that arrives just before the post has set its own
identifier is returned as the response to the request with identifier 7. -/
theorem C50_refuted_early :
    let acts := [.post ⟨"10.0.0.2", 3610⟩ false aRequest, .own 0, .own 0, .own 0, .own 0,
      .arrive (aResponse 0 "10.0.0.9")] ++ handling 0 ++
      [.header 0 true 7, .own 0, .send 0 true, .receive 0 0, .own 0, .own 0, .own 0, .own 0]
    ∃ p, (PostSt.init.run acts).posters = [p] ∧ p.pc = .done (.ok (aResponse 0 "10.0.0.9")) ∧
      p.msg.getTID = 7 ∧ (aResponse 0 "10.0.0.9").getTID = 0 :=
  ⟨⟨⟨"10.0.0.2", 3610⟩, false, (aRequest.setTID 7).setSEOJ 0x0EF001, false,
    .done (.ok (aResponse 0 "10.0.0.9"))⟩, by decide +kernel, rfl, by decide, by decide⟩

/-- C50 is false: the response to a post that timed out, while it is being handled, is returned by
the next post. -/
theorem C50_refuted_late :
    let acts := [.post ⟨"10.0.0.2", 3610⟩ false aRequest] ++ posting 0 7 ++
      [.arrive (aResponse 7 "10.0.0.2")] ++ List.replicate 6 (.handler 0) ++ ending 0 ++
      [.post ⟨"10.0.0.3", 3610⟩ false aRequest] ++ posting 1 8 ++ List.replicate 3 (.handler 0) ++
      [.receive 1 0, .own 1, .own 1, .own 1, .own 1]
    ∃ p q, (PostSt.init.run acts).posters = [p, q] ∧ q.pc = .done (.ok (aResponse 7 "10.0.0.2")) ∧
      q.msg.getTID = 8 :=
  ⟨⟨⟨"10.0.0.2", 3610⟩, false, (aRequest.setTID 7).setSEOJ 0x0EF001, false, .done .timeout⟩,
    ⟨⟨"10.0.0.3", 3610⟩, false, (aRequest.setTID 8).setSEOJ 0x0EF001, false,
      .done (.ok (aResponse 7 "10.0.0.2"))⟩, by decide +kernel, rfl, by decide⟩

/-- C50 is false over TCP: whatever message is read from the connection is returned. -/
theorem C50_refuted_tcp (dst : Addr) (req m : Message) (tid : GoUint) :
    (PostSt.init.run [.post dst true req, .tcp 0 true tid (some m)]).posters.map (·.pc)
      = [.done (.ok m)] := by
  simp [PostSt.run, PostSt.step, PostSt.init, PostSt.stepTCP, PostSt.setPoster]

/-! ## C51 -/

/-- C51 is false: a request of another node that has the identifier is returned as the response. -/
theorem C51_refuted :
    let m : Message := { ((aRequest.setTID 7).setDEOJ 0x0EF001) with src := ⟨"10.0.0.66", 3610⟩ }
    let acts := [.post ⟨"10.0.0.2", 3610⟩ false aRequest] ++ posting 0 7 ++ [.arrive m] ++
      handling 0 ++ [.receive 0 0, .own 0, .own 0, .own 0, .own 0]
    ∃ p, (PostSt.init.run acts).posters = [p] ∧ p.pc = .done (.ok m) ∧ m.src.ip ≠ p.dst.ip ∧
      m.esv = 0x62 := by
  refine ⟨⟨⟨"10.0.0.2", 3610⟩, false, (aRequest.setTID 7).setSEOJ 0x0EF001, false, _⟩, ?_, rfl, ?_, ?_⟩
  all_goals decide +kernel

theorem handlers_grow (s : PostSt) (a : PostAct) (m : Message) (h : m ∈ s.handlers.map (·.msg)) :
    m ∈ (s.step a).handlers.map (·.msg) := by
  have set : ∀ (k : Nat) (x y : Handling), s.handlers[k]? = some x → y.msg = x.msg →
      m ∈ (s.handlers.set k y).map (·.msg) := by
    intro k x y hx hy
    have : (s.handlers.set k y).map (·.msg) = s.handlers.map (·.msg) := by
      rw [List.map_set, hy]
      apply List.ext_getElem?
      intro n
      by_cases e : k = n
      · subst e
        have hlt := (List.getElem?_eq_some_iff.mp hx).1
        rw [List.getElem?_set_self (by simpa using hlt), List.getElem?_map, hx]; rfl
      · rw [List.getElem?_set_ne e]
    rw [this]; exact h
  unfold PostSt.step
  split
  · exact h
  cases a with
  | post dst tcp q => exact h
  | arrive q =>
    show m ∈ (s.handlers ++ _).map _
    rw [List.map_append]
    exact List.mem_append_left _ h
  | cancel i => simp only; split <;> exact h
  | tcp i running tid r =>
    simp only; split
    · exact h
    · unfold PostSt.stepTCP
      split
      · split
        · exact h
        · cases r <;> exact h
      · exact h
  | own i =>
    simp only; split
    · exact h
    · unfold PostSt.stepOwn
      split <;> try exact h
      all_goals split <;> try exact h
      split <;> exact h
  | header i running tid =>
    simp only; split
    · exact h
    · unfold PostSt.stepHeader
      split
      · split <;> exact h
      · exact h
  | send i ok =>
    simp only; split
    · exact h
    · unfold PostSt.stepSend
      split
      · split <;> exact h
      · exact h
  | receive i k =>
    simp only; split
    · rename_i p x hp hx
      unfold PostSt.stepReceive
      split
      · exact set k x _ hx rfl
      · exact h
    · exact h
  | timeout i =>
    simp only; split
    · exact h
    · split <;> exact h
  | handler k =>
    simp only; split
    · exact h
    · rename_i x hx
      unfold PostSt.stepHandler
      split <;> try exact set k x _ hx rfl
      · split
        · exact h
        · exact set k x _ hx rfl
      · split <;> exact set k x _ hx rfl
      · split <;> exact h
      · exact h
      · exact h

/-- Results of posts over UDP are messages that arrived. -/
def Arrived (s : PostSt) : Prop :=
  ∀ (i : Nat) (p : Poster) (m : Message), s.posters[i]? = some p → p.tcp = false →
    result p.pc = some (.ok m) → m ∈ s.handlers.map (·.msg)

theorem arrived_set {s s' : PostSt} (h : Arrived s) {i : Nat} {p p' : Poster}
    (hp : s.posters[i]? = some p) (hp' : s'.posters = s.posters.set i p') (ht : p'.tcp = p.tcp)
    (hg : ∀ m ∈ s.handlers.map (·.msg), m ∈ s'.handlers.map (·.msg))
    (hr : p.tcp = false → ∀ m, result p'.pc = some (.ok m) → result p.pc = some (.ok m) ∨
      m ∈ s.handlers.map (·.msg)) : Arrived s' := by
  have hlt : i < s.posters.length := (List.getElem?_eq_some_iff.mp hp).1
  intro j q m hq hqt hqr
  rw [hp'] at hq
  by_cases e : i = j
  · subst e
    rw [List.getElem?_set_self hlt] at hq
    cases hq
    rw [ht] at hqt
    rcases hr hqt m hqr with hr | hr
    · exact hg m (h i p m hp hqt hr)
    · exact hg m hr
  · rw [List.getElem?_set_ne e] at hq
    exact hg m (h j q m hq hqt hqr)

theorem arrived_step {s : PostSt} (h : Arrived s) (a : PostAct) : Arrived (s.step a) := by
  have grow := handlers_grow s a
  have frame : (s.step a).posters = s.posters → Arrived (s.step a) := by
    intro e i p m hp ht hr
    rw [e] at hp
    exact grow m (h i p m hp ht hr)
  have set : ∀ (i : Nat) (p p' : Poster), s.posters[i]? = some p →
      (s.step a).posters = s.posters.set i p' → p'.tcp = p.tcp →
      (p.tcp = false → ∀ m, result p'.pc = some (.ok m) → result p.pc = some (.ok m) ∨
        m ∈ s.handlers.map (·.msg)) → Arrived (s.step a) :=
    fun i p p' hp e ht hr => arrived_set h hp e ht grow hr
  cases hcr : s.crashed with
  | true =>
    have : s.step a = s := by unfold PostSt.step; rw [hcr]; rfl
    exact frame (by rw [this])
  | false =>
  cases a with
  | post dst tcp q =>
    intro i p m hp ht hr
    have hp' : (s.posters ++ [(⟨dst, tcp, q, false, .start⟩ : Poster)])[i]? = some p := by
      unfold PostSt.step at hp
      rw [hcr] at hp
      exact hp
    refine grow m ?_
    rcases Nat.lt_or_ge i s.posters.length with hlt | hge
    · rw [List.getElem?_append_left hlt] at hp'
      exact h i p m hp' ht hr
    · rw [List.getElem?_append_right hge] at hp'
      have : p = ⟨dst, tcp, q, false, .start⟩ := by
        have := List.mem_of_getElem? hp'
        simpa using this
      rw [this] at hr
      cases hr
  | arrive q => exact frame (by unfold PostSt.step; rw [hcr]; rfl)
  | handler k =>
    refine frame ?_
    unfold PostSt.step
    rw [hcr]
    simp only [Bool.false_eq_true, if_false]
    split
    · rfl
    · unfold PostSt.stepHandler
      split <;> try rfl
      · split <;> rfl
      · split <;> rfl
      · split <;> rfl
  | cancel i =>
    cases hp : s.posters[i]? with
    | none => exact frame (by unfold PostSt.step; rw [hcr]; simp only [hp]; rfl)
    | some p =>
      refine set i p { p with ctxDone := true } hp (by unfold PostSt.step; rw [hcr]; simp only [hp]; rfl)
        rfl (fun _ m hm => .inl hm)
  | timeout i =>
    cases hp : s.posters[i]? with
    | none => exact frame (by unfold PostSt.step; rw [hcr]; simp only [hp]; rfl)
    | some p =>
      by_cases hw : p.pc = .wait
      · refine set i p { p with pc := .close .timeout } hp
          (by unfold PostSt.step; rw [hcr]; simp only [hp, hw]; rfl) rfl (fun _ m hm => by cases hm)
      · exact frame (by unfold PostSt.step; rw [hcr]; simp only [hp, hw]; rfl)
  | tcp i running tid r =>
    cases hp : s.posters[i]? with
    | none => exact frame (by unfold PostSt.step; rw [hcr]; simp only [hp]; rfl)
    | some p =>
      by_cases hw : p.pc = .start ∧ p.tcp = true
      · cases running with
        | false =>
          refine set i p { p with pc := .lock } hp
            (by unfold PostSt.step; rw [hcr]; simp only [hp, PostSt.stepTCP, hw]; rfl) rfl
            (fun _ m hm => by cases hm)
        | true =>
          cases r with
          | none =>
            refine set i p ⟨p.dst, p.tcp, (p.msg.setTID tid).setSEOJ nodeProfileObjectCode, p.ctxDone,
              .lock⟩ hp (by unfold PostSt.step; rw [hcr]; simp only [hp, PostSt.stepTCP, hw]; rfl) rfl
              (fun _ m hm => by cases hm)
          | some q =>
            refine set i p ⟨p.dst, p.tcp, (p.msg.setTID tid).setSEOJ nodeProfileObjectCode, p.ctxDone,
              .done (.ok q)⟩ hp (by unfold PostSt.step; rw [hcr]; simp only [hp, PostSt.stepTCP, hw]; rfl)
              rfl (fun ht => by rw [hw.2] at ht; cases ht)
      · refine frame ?_
        unfold PostSt.step; rw [hcr]; simp only [hp, PostSt.stepTCP, if_neg hw]; rfl
  | header i running tid =>
    cases hp : s.posters[i]? with
    | none => exact frame (by unfold PostSt.step; rw [hcr]; simp only [hp]; rfl)
    | some p =>
      by_cases hw : p.pc = .setTID
      · cases running with
        | false =>
          exact set i p { p with pc := .close .failed } hp
            (by unfold PostSt.step; rw [hcr]; simp only [hp, PostSt.stepHeader, hw]; rfl) rfl
            (fun _ m hm => by cases hm)
        | true =>
          exact set i p { p with pc := .setSEOJ, msg := p.msg.setTID tid } hp
            (by unfold PostSt.step; rw [hcr]; simp only [hp, PostSt.stepHeader, hw]; rfl) rfl
            (fun _ m hm => by cases hm)
      · refine frame ?_
        unfold PostSt.step; rw [hcr]; simp only [hp, PostSt.stepHeader, if_neg hw]; rfl
  | send i ok =>
    cases hp : s.posters[i]? with
    | none => exact frame (by unfold PostSt.step; rw [hcr]; simp only [hp]; rfl)
    | some p =>
      by_cases hw : p.pc = .send
      · cases ok with
        | false =>
          exact set i p { p with pc := .close .failed } hp
            (by unfold PostSt.step; rw [hcr]; simp only [hp, PostSt.stepSend, hw]; rfl) rfl
            (fun _ m hm => by cases hm)
        | true =>
          exact set i p { p with pc := .wait } hp
            (by unfold PostSt.step; rw [hcr]; simp only [hp, PostSt.stepSend, hw]; rfl) rfl
            (fun _ m hm => by cases hm)
      · refine frame ?_
        unfold PostSt.step; rw [hcr]; simp only [hp, PostSt.stepSend, if_neg hw]; rfl
  | receive i k =>
    cases hp : s.posters[i]? with
    | none => exact frame (by unfold PostSt.step; rw [hcr]; simp only [hp]; rfl)
    | some p =>
      cases hx : s.handlers[k]? with
      | none => exact frame (by unfold PostSt.step; rw [hcr]; simp only [hp, hx]; rfl)
      | some x =>
        by_cases hw : p.pc = .wait ∧ x.pc = .sending i
        · refine set i p { p with pc := .close (.ok x.msg) } hp
            (by unfold PostSt.step; rw [hcr]; simp only [hp, hx, PostSt.stepReceive, hw]; rfl) rfl
            (fun _ m hm => ?_)
          cases hm
          exact .inr (List.mem_map_of_mem (List.mem_of_getElem? hx))
        · refine frame ?_
          unfold PostSt.step; rw [hcr]; simp only [hp, hx, PostSt.stepReceive, if_neg hw]; rfl
  | own i =>
    cases hp : s.posters[i]? with
    | none => exact frame (by unfold PostSt.step; rw [hcr]; simp only [hp]; rfl)
    | some p =>
      have e : s.step (.own i) = s.stepOwn i p := by
        unfold PostSt.step; rw [hcr]; simp only [hp]; rfl
      rw [e] at frame set ⊢
      clear grow
      unfold PostSt.stepOwn at *
      cases hpc : p.pc with
      | start =>
        simp only [hpc] at frame set ⊢
        cases ht : p.tcp with
        | true => exact h
        | false =>
          simp only [ht] at frame set ⊢
          exact set i p _ hp rfl ht.symm (fun _ m hm => by cases hm)
      | lock =>
        simp only [hpc] at frame set ⊢
        split at set
        · rename_i hm
          rw [if_pos hm]
          exact set i p _ hp rfl rfl (fun _ m hm => by cases hm)
        · rename_i hm
          rw [if_neg hm]
          exact h
      | makeCh =>
        simp only [hpc] at set ⊢
        exact set i p _ hp rfl rfl (fun _ m hm => by cases hm)
      | setReq =>
        simp only [hpc] at set ⊢
        exact set i p _ hp rfl rfl (fun _ m hm => by cases hm)
      | setSEOJ =>
        simp only [hpc] at set ⊢
        exact set i p _ hp rfl rfl (fun _ m hm => by cases hm)
      | close r =>
        simp only [hpc] at frame set ⊢
        cases hc : s.ch with
        | none =>
          simp only [hc] at set ⊢
          exact set i p _ hp rfl rfl (fun _ m hm => .inl (by rw [hpc]; exact hm))
        | some c =>
          simp only [hc] at frame set ⊢
          split at set
          · rename_i hm
            rw [if_pos hm]
            exact h
          · rename_i hm
            rw [if_neg hm]
            exact set i p _ hp rfl rfl (fun _ m hm => .inl (by rw [hpc]; exact hm))
      | clearCh r =>
        simp only [hpc] at set ⊢
        exact set i p _ hp rfl rfl (fun _ m hm => .inl (by rw [hpc]; exact hm))
      | clearReq r =>
        simp only [hpc] at set ⊢
        exact set i p _ hp rfl rfl (fun _ m hm => .inl (by rw [hpc]; exact hm))
      | unlock r =>
        simp only [hpc] at set ⊢
        exact set i p _ hp rfl rfl (fun _ m hm => .inl (by rw [hpc]; exact hm))
      | setTID => exact h
      | send => exact h
      | wait => exact h
      | done r => exact h

/-- C51, the part that holds, under every schedule: a message returned by a post over UDP is one
that arrived. Missing: that it comes from the node asked and is a response. -/
theorem C51_arrived_partial (acts : List PostAct) (i : Nat) (p : Poster) (m : Message)
    (hp : (PostSt.init.run acts).posters[i]? = some p) (ht : p.tcp = false)
    (hd : p.pc = .done (.ok m)) : m ∈ (PostSt.init.run acts).handlers.map (·.msg) := by
  have key : ∀ (as : List PostAct) (s : PostSt), Arrived s → Arrived (s.run as) := by
    intro as
    induction as with
    | nil => intro s h; exact h
    | cons a as ih => intro s h; exact ih _ (arrived_step h a)
  have h0 : Arrived PostSt.init := fun i p m hp => by simp [PostSt.init] at hp
  exact key acts _ h0 i p m hp ht (by rw [hd]; rfl)

/-! ## C54 -/

/-- C54 is false: the context of a waiting post is done, and still, whatever happens, the post goes
on waiting as long as no message arrives and its timer does not fire. -/
theorem C54_refuted :
    let s := PostSt.init.run ([.post ⟨"10.0.0.2", 3610⟩ false aRequest] ++ posting 0 7 ++ [.cancel 0])
    s.posters.map (fun p => (p.ctxDone, p.pc)) = [(true, .wait)] ∧ s.crashed = false ∧
    ∀ acts, (∀ a ∈ acts, a ≠ .timeout 0 ∧ ∀ m, a ≠ .arrive m) →
      ((s.run acts).posters[0]?).map (·.pc) = some .wait := by
  refine ⟨by decide +kernel, by decide +kernel, ?_⟩
  have h0 : ((PostSt.init.run ([.post ⟨"10.0.0.2", 3610⟩ false aRequest] ++ posting 0 7 ++
      [.cancel 0])).posters[0]?).map (·.pc) = some .wait ∧
    (PostSt.init.run ([.post ⟨"10.0.0.2", 3610⟩ false aRequest] ++ posting 0 7 ++
      [.cancel 0])).handlers = [] := by decide +kernel
  generalize PostSt.init.run ([.post ⟨"10.0.0.2", 3610⟩ false aRequest] ++ posting 0 7 ++ [.cancel 0])
    = s at h0
  intro acts
  have key : ∀ (acts : List PostAct) (s : PostSt), (s.posters[0]?).map (·.pc) = some .wait ∧
      s.handlers = [] → (∀ a ∈ acts, a ≠ .timeout 0 ∧ ∀ m, a ≠ .arrive m) →
      ((s.run acts).posters[0]?).map (·.pc) = some .wait := by
    intro acts
    induction acts with
    | nil => intro s h _; exact h.1
    | cons a as ih =>
      intro s h ha
      refine ih (s.step a) ?_ (fun b hb => ha b (List.mem_cons_of_mem _ hb))
      obtain ⟨a1, a2⟩ := ha a (List.mem_cons_self ..)
      obtain ⟨h1, h2⟩ := h
      obtain ⟨p, hp, hpc⟩ := Option.map_eq_some_iff.mp h1
      have hlt : 0 < s.posters.length := (List.getElem?_eq_some_iff.mp hp).1
      have other : ∀ (j : Nat) (p' : Poster), j ≠ 0 →
          ((s.posters.set j p')[0]?).map (·.pc) = some .wait := by
        intro j p' hj
        rw [List.getElem?_set_ne hj]; exact h1
      unfold PostSt.step
      split
      · exact ⟨h1, h2⟩
      cases a with
      | post dst tcp m =>
        refine ⟨?_, h2⟩
        show ((s.posters ++ _)[0]?).map _ = _
        rw [List.getElem?_append_left hlt]; exact h1
      | arrive m => exact absurd rfl (a2 m)
      | cancel j =>
        cases hq : s.posters[j]? with
        | none => simp only [hq]; exact ⟨h1, h2⟩
        | some q =>
          simp only [hq]
          by_cases e : j = 0
          · subst e
            rw [hp] at hq
            cases hq
            refine ⟨?_, h2⟩
            show ((s.posters.set 0 _)[0]?).map _ = _
            rw [List.getElem?_set_self hlt]
            exact congrArg some hpc
          · exact ⟨other j _ e, h2⟩
      | tcp j running tid r =>
        cases hq : s.posters[j]? with
        | none => simp only [hq]; exact ⟨h1, h2⟩
        | some q =>
          simp only [hq]
          unfold PostSt.stepTCP
          split
          · rename_i hc
            have e : j ≠ 0 := by
              rintro rfl
              rw [hp] at hq; cases hq
              rw [hc.1] at hpc; cases hpc
            split
            · exact ⟨other j _ e, h2⟩
            · cases r <;> exact ⟨other j _ e, h2⟩
          · exact ⟨h1, h2⟩
      | own j =>
        cases hq : s.posters[j]? with
        | none => simp only [hq]; exact ⟨h1, h2⟩
        | some q =>
          simp only [hq]
          by_cases e : j = 0
          · subst e
            rw [hp] at hq
            cases hq
            unfold PostSt.stepOwn
            rw [hpc]
            exact ⟨h1, h2⟩
          · unfold PostSt.stepOwn
            split <;> try exact ⟨other j _ e, h2⟩
            · split
              · exact ⟨h1, h2⟩
              · exact ⟨other j _ e, h2⟩
            · split
              · exact ⟨other j _ e, h2⟩
              · exact ⟨h1, h2⟩
            · split
              · exact ⟨other j _ e, h2⟩
              · split
                · exact ⟨h1, h2⟩
                · exact ⟨other j _ e, h2⟩
            · exact ⟨h1, h2⟩
      | header j running tid =>
        cases hq : s.posters[j]? with
        | none => simp only [hq]; exact ⟨h1, h2⟩
        | some q =>
          simp only [hq]
          unfold PostSt.stepHeader
          split
          · rename_i hc
            have e : j ≠ 0 := by
              rintro rfl
              rw [hp] at hq; cases hq
              rw [hc] at hpc; cases hpc
            split <;> exact ⟨other j _ e, h2⟩
          · exact ⟨h1, h2⟩
      | send j ok =>
        cases hq : s.posters[j]? with
        | none => simp only [hq]; exact ⟨h1, h2⟩
        | some q =>
          simp only [hq]
          unfold PostSt.stepSend
          split
          · rename_i hc
            have e : j ≠ 0 := by
              rintro rfl
              rw [hp] at hq; cases hq
              rw [hc] at hpc; cases hpc
            split <;> exact ⟨other j _ e, h2⟩
          · exact ⟨h1, h2⟩
      | receive j k =>
        have : s.handlers[k]? = none := by rw [h2]; rfl
        cases hq : s.posters[j]? <;> simp only [this, hq] <;> exact ⟨h1, h2⟩
      | timeout j =>
        have e : j ≠ 0 := by rintro rfl; exact a1 rfl
        cases hq : s.posters[j]? with
        | none => simp only [hq]; exact ⟨h1, h2⟩
        | some q =>
          simp only [hq]
          split
          · exact ⟨other j _ e, h2⟩
          · exact ⟨h1, h2⟩
      | handler k =>
        have : s.handlers[k]? = none := by rw [h2]; rfl
        simp only [this]
        exact ⟨h1, h2⟩
  exact key acts s h0

/-- C54, the part that holds: the request timeout ends a waiting post, whatever happened before and
whether its context is done or not. Missing: that the context ends it earlier. -/
theorem C54_timeout_partial (acts : List PostAct) (i : Nat) (p : Poster)
    (hc : (PostSt.init.run acts).crashed = false)
    (hp : (PostSt.init.run acts).posters[i]? = some p) (hw : p.pc = .wait) :
    (((PostSt.init.run acts).run (ending i)).posters[i]?).map (·.pc) = some (.done .timeout) := by
  rw [(C53_ends acts i p hc hp hw).2.1]; rfl

/-! ## C52, C69 -/

/-- C52 is false: two responses to one request (a response repeated by the network) can crash the
process: the second handler sends on a channel that is closed. -/
theorem C52_refuted_duplicate :
    (PostSt.init.run ([.post ⟨"10.0.0.2", 3610⟩ false aRequest] ++ posting 0 7 ++
      [.arrive (aResponse 7 "10.0.0.2"), .arrive (aResponse 7 "10.0.0.2")] ++ handling 0 ++ handling 1 ++
      [.receive 0 0, .own 0, .handler 1])).crashed = true := by decide +kernel

/-- C52 is false: a response arriving when the post times out can crash the process: the handler
reads the identifier of a request that is gone. -/
theorem C52_refuted_timeout :
    (PostSt.init.run ([.post ⟨"10.0.0.2", 3610⟩ false aRequest] ++ posting 0 7 ++
      [.arrive (aResponse 7 "10.0.0.2")] ++ List.replicate 5 (.handler 0) ++
      [.timeout 0, .own 0, .own 0, .own 0, .handler 0])).crashed = true := by decide +kernel

/-- C69 is false: a response arriving when the post times out can block its handler for ever. -/
theorem C69_refuted :
    let s := PostSt.init.run ([.post ⟨"10.0.0.2", 3610⟩ false aRequest] ++ posting 0 7 ++
      [.arrive (aResponse 7 "10.0.0.2")] ++ List.replicate 8 (.handler 0) ++
      [.timeout 0, .own 0, .own 0, .handler 0])
    s.crashed = false ∧ s.handlers.map (·.pc) = [.blocked] := by decide +kernel

/-- What keeps handlers safe. -/
def Safe (s : PostSt) (x : Handling) : Prop :=
  match x.pc with
  | .req1 | .past => True
  | .ch1 => s.req ≠ none
  | .req2 | .ch2 | .equal | .tid | .req3 | .ch3 | .load => s.req ≠ none ∧ s.ch ≠ none
  | .sending c => s.req ≠ none ∧ s.ch = some c
  | .blocked => False

structure CalmInv (s : PostSt) : Prop where
  inv : PInv s
  fine : s.crashed = false
  safe : ∀ x ∈ s.handlers, Safe s x

theorem safe_of_idle {s : PostSt} {x : Handling} (h : ¬ Busy x.pc) : Safe s x := by
  unfold Safe
  cases hpc : x.pc <;> rw [hpc] at h <;> simp only [Busy, not_true] at h
  all_goals trivial

theorem safe_congr {s s' : PostSt} (e1 : s'.req = s.req) (e2 : s'.ch = s.ch) {x : Handling}
    (h : Safe s x) : Safe s' x := by
  unfold Safe at *
  rw [e1, e2]; exact h

/-- A channel that is in use is not closed, except while its post ends. -/
theorem open_channel {s : PostSt} (h : PInv s) (hn : ∀ p ∈ s.posters, ¬ HalfClosed p.pc) {c : Nat}
    (hc : s.ch = some c) : c ∉ s.closed := by
  cases hm : s.mutex with
  | none => rw [(h.free hm).1] at hc; cases hc
  | some i =>
    obtain ⟨p, hp⟩ := h.holder i hm
    have hs := h.shape i p hp
    have hh := hn p (List.mem_of_getElem? hp)
    cases hpc : p.pc <;> rw [hpc] at hs hh <;> simp only [Shape, HalfClosed, not_true] at hs hh
    all_goals first
      | exact absurd hm hs.1
      | exact absurd hm hs
      | (rw [hs.2.1] at hc; cases hc; exact hs.2.2.2)
      | (rw [hs.2.1] at hc; cases hc)

theorem calm_step {s : PostSt} (h : CalmInv s) (a : PostAct) (hc : Calm s a) : CalmInv (s.step a) := by
  obtain ⟨hi, hf, hsafe⟩ := h
  have hi' := pinv_step hi a
  suffices hs : (s.step a).crashed = false ∧ ∀ x ∈ (s.step a).handlers, Safe (s.step a) x from
    ⟨hi', hs.1, hs.2⟩
  clear hi'
  unfold PostSt.step
  rw [if_neg (by rw [hf]; exact Bool.false_ne_true)]
  have same : ∀ s' : PostSt, s'.crashed = false → s'.req = s.req → s'.ch = s.ch →
      s'.handlers = s.handlers → s'.crashed = false ∧ ∀ x ∈ s'.handlers, Safe s' x := by
    intro s' e0 e1 e2 e3
    refine ⟨e0, fun x hx => ?_⟩
    rw [e3] at hx
    exact safe_congr e1 e2 (hsafe x hx)
  have put : ∀ (k : Nat) (y : Handling), Safe s y →
      (s.setHandler k y).crashed = false ∧ ∀ x ∈ (s.setHandler k y).handlers, Safe (s.setHandler k y) x := by
    intro k y hy
    refine ⟨hf, fun x hx => safe_congr (s := s) rfl rfl ?_⟩
    rcases mem_set hx with rfl | hx
    · exact hy
    · exact hsafe x hx
  cases a with
  | post dst tcp m => exact same _ hf rfl rfl rfl
  | arrive m =>
    refine ⟨hf, fun x hx => ?_⟩
    rcases List.mem_append.mp hx with hx | hx
    · exact safe_congr rfl rfl (hsafe x hx)
    · rw [List.mem_singleton] at hx
      subst hx
      trivial
  | cancel i => simp only; split <;> exact same _ hf rfl rfl rfl
  | tcp i running tid r =>
    simp only
    split
    · exact same _ hf rfl rfl rfl
    · unfold PostSt.stepTCP
      split
      · split
        · exact same _ hf rfl rfl rfl
        · cases r <;> exact same _ hf rfl rfl rfl
      · exact same _ hf rfl rfl rfl
  | header i running tid =>
    simp only
    split
    · exact same _ hf rfl rfl rfl
    · unfold PostSt.stepHeader
      split
      · split <;> exact same _ hf rfl rfl rfl
      · exact same _ hf rfl rfl rfl
  | send i ok =>
    simp only
    split
    · exact same _ hf rfl rfl rfl
    · unfold PostSt.stepSend
      split
      · split <;> exact same _ hf rfl rfl rfl
      · exact same _ hf rfl rfl rfl
  | timeout i =>
    simp only
    split
    · exact same _ hf rfl rfl rfl
    · split <;> exact same _ hf rfl rfl rfl
  | receive i k =>
    simp only
    split
    · unfold PostSt.stepReceive
      split
      · refine ⟨hf, fun y hy => safe_congr (s := s) rfl rfl ?_⟩
        rcases mem_set hy with rfl | hy
        · trivial
        · exact hsafe y hy
      · exact same _ hf rfl rfl rfl
    · exact same _ hf rfl rfl rfl
  | own i =>
    cases hp : s.posters[i]? with
    | none => simp only [hp]; exact same _ hf rfl rfl rfl
    | some p =>
      simp only [hp]
      have hsh := hi.shape i p hp
      unfold PostSt.stepOwn
      have idle : Closing p.pc → ∀ s' : PostSt, s'.crashed = false → s'.handlers = s.handlers →
          s'.crashed = false ∧ ∀ x ∈ s'.handlers, Safe s' x := by
        intro hcl s' e0 e1
        refine ⟨e0, fun x hx => ?_⟩
        rw [e1] at hx
        exact safe_of_idle (hc p hp hcl x hx)
      cases hpc : p.pc with
      | start =>
        simp only
        split <;> exact same _ hf rfl rfl rfl
      | lock =>
        simp only
        split <;> exact same _ hf rfl rfl rfl
      | makeCh =>
        rw [hpc] at hsh
        refine ⟨hf, fun x hx => ?_⟩
        have hx' := hsafe x hx
        unfold Safe at hx' ⊢
        cases hxp : x.pc <;> rw [hxp] at hx' <;> simp only [hsh.2.1, hsh.2.2.1, ne_eq, not_true,
          false_and] at hx' ⊢
      | setReq =>
        rw [hpc] at hsh
        refine ⟨hf, fun x hx => ?_⟩
        have hx' := hsafe x hx
        unfold Safe at hx' ⊢
        cases hxp : x.pc <;> rw [hxp] at hx' <;> simp only [hsh.2.1, hsh.2.2.1, ne_eq, not_true,
          false_and] at hx' ⊢
      | setSEOJ => exact same _ hf rfl rfl rfl
      | close r =>
        rw [hpc] at hsh
        simp only
        rw [hsh.2.1]
        simp only
        rw [if_neg hsh.2.2.2]
        exact idle (by rw [hpc]; trivial) _ hf rfl
      | clearCh r => exact idle (by rw [hpc]; trivial) _ hf rfl
      | clearReq r => exact idle (by rw [hpc]; trivial) _ hf rfl
      | unlock r => exact same _ hf rfl rfl rfl
      | setTID => exact same _ hf rfl rfl rfl
      | send => exact same _ hf rfl rfl rfl
      | wait => exact same _ hf rfl rfl rfl
      | done r => exact same _ hf rfl rfl rfl
  | handler k =>
    cases hx : s.handlers[k]? with
    | none => simp only [hx]; exact same _ hf rfl rfl rfl
    | some x =>
      simp only [hx]
      have hxs := hsafe x (List.mem_of_getElem? hx)
      unfold Safe at hxs
      unfold PostSt.stepHandler
      cases hpc : x.pc <;> rw [hpc] at hxs <;> simp only at hxs ⊢
      · refine put k _ ?_
        by_cases e : s.req = none <;> simp [Safe, e]
      · refine put k _ ?_
        by_cases e : s.ch = none <;> simp [Safe, e, hxs]
      · refine put k _ ?_
        rw [if_neg hxs.1]; exact hxs
      · refine put k _ ?_
        rw [if_neg hxs.2]; exact hxs
      · refine put k _ ?_
        by_cases e : Message.equals (some x.msg) s.reqMsg = true <;> simp [Safe, e, hxs]
      · obtain ⟨q, hq⟩ : ∃ q, s.reqMsg = some q := by
          cases hr : s.req with
          | none => exact absurd hr hxs.1
          | some i =>
            cases hm : s.mutex with
            | none => rw [(hi.free hm).2] at hr; cases hr
            | some j =>
              obtain ⟨p, hp⟩ := hi.holder j hm
              have hsh := hi.shape j p hp
              have hij : i = j := by
                cases hpc : p.pc <;> rw [hpc] at hsh <;> simp only [Shape] at hsh
                all_goals first
                  | exact absurd hm hsh.1
                  | exact absurd hm hsh
                  | (have e := hsh.2.2.1; rw [hr] at e; cases e; rfl)
                  | (have e := hsh.2.2; rw [hr] at e; cases e; rfl)
                  | (have e := hsh.2.2.1; rw [hr] at e; cases e)
                  | (have e := hsh.2.2; rw [hr] at e; cases e)
              subst hij
              unfold PostSt.reqMsg
              rw [hr]
              simp only
              rw [hp]
              exact ⟨_, rfl⟩
        rw [hq]
        refine put k _ ?_
        by_cases e : x.msg.getTID = q.getTID <;> simp [Safe, e, hxs]
      · refine put k _ ?_
        rw [if_neg hxs.1]; exact hxs
      · refine put k _ ?_
        rw [if_neg hxs.2]; exact hxs
      · cases hch : s.ch with
        | none => exact absurd hch hxs.2
        | some c => exact put k _ ⟨hxs.1, hch⟩
      · rename_i c
        rw [if_neg (open_channel hi hc hxs.2)]
        exact same _ hf rfl rfl rfl
      · exact same _ hf rfl rfl rfl

theorem calm_run {s : PostSt} (h : CalmInv s) (acts : List PostAct) (hc : CalmRun s acts) :
    CalmInv (s.run acts) := by
  induction acts generalizing s with
  | nil => exact h
  | cons a as ih => exact ih (calm_step h a hc.1) hc.2

theorem calm_init : CalmInv PostSt.init :=
  ⟨pinv_init, rfl, (fun x hx => by cases hx)⟩

/-- C52, the part that holds: as long as no message is in the middle of being handed over while a
post ends, the process does not crash. Missing: see the two refutations. -/
theorem C52_calm_partial (acts : List PostAct) (hc : CalmRun PostSt.init acts) :
    (PostSt.init.run acts).crashed = false := (calm_run calm_init acts hc).fine

/-- C69, the part that holds: then no handler is blocked for ever, and one that still sends does so
on the channel of the pending post, which can receive from it. -/
theorem C69_calm_partial (acts : List PostAct) (hc : CalmRun PostSt.init acts) :
    ∀ x ∈ (PostSt.init.run acts).handlers, x.pc ≠ .blocked ∧
      ∀ c, x.pc = .sending c → (PostSt.init.run acts).mutex = some c ∧
        ∃ p, (PostSt.init.run acts).posters[c]? = some p ∧ Pending p.pc := by
  obtain ⟨hi, -, hs⟩ := calm_run calm_init acts hc
  intro x hx
  have := hs x hx
  unfold Safe at this
  constructor
  · intro e; rw [e] at this; exact this
  · intro c e
    rw [e] at this
    obtain ⟨-, h2⟩ := this
    cases hm : (PostSt.init.run acts).mutex with
    | none => rw [(hi.free hm).1] at h2; cases h2
    | some j =>
      obtain ⟨p, hp⟩ := hi.holder j hm
      have hsh := hi.shape j p hp
      have hcj : c = j := by
        cases hpc : p.pc <;> rw [hpc] at hsh <;> simp only [Shape] at hsh
        all_goals first
          | exact absurd hm hsh.1
          | exact absurd hm hsh
          | (have e := hsh.2.1; rw [h2] at e; cases e; rfl)
          | (have e := hsh.2.1; rw [h2] at e; cases e)
      subst hcj
      exact ⟨rfl, p, hp, hsh.mutex.mp hm⟩

/-- Two posts; the first gets its response, the second times out. -/
example : CalmRun PostSt.init (goodRun ++ [.post ⟨"10.0.0.3", 3610⟩ false aRequest] ++ posting 1 8 ++
    [.arrive (aResponse 7 "10.0.0.3")] ++ handling 1 ++ ending 1) := by decide +kernel

end Verif.Props
