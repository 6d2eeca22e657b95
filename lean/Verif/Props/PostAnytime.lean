import Verif.Props.Post

/-!
# C50 to C52, C54 and C69: in every state in which a post waits

The refutations of `Verif.Props.Post` are single schedules. Here the same things are shown possible
whenever a post is waiting, after anything that happened before, for every request and for every
message with its identifier.
-/

namespace Verif.Props
open Verif Model Spec Lemmas

/-- A message that a waiting post takes for its response: same identifier, other bytes. -/
def Fooling (q m : Message) : Prop := m.getTID = q.getTID ∧ Message.equals (some m) (some q) = false

instance (q m : Message) : Decidable (Fooling q m) := by unfold Fooling; infer_instance

theorem handler_step (s : PostSt) (h : Nat) (x : Handling) (hc : s.crashed = false) (hx : s.handlers[h]? = some x) :
    s.step (.handler h) = s.stepHandler h x := by
  unfold PostSt.step
  rw [if_neg (by rw [hc]; decide)]
  dsimp only
  rw [hx]

/-- Where a handler is after `k` steps, when the post `c` waits for its message. -/
def stageAt (c : Nat) : Nat → HandPc
  | 0 => .req1 | 1 => .ch1 | 2 => .req2 | 3 => .ch2 | 4 => .equal | 5 => .tid | 6 => .req3 | 7 => .ch3 | 8 => .load
  | _ => .sending c

/-- A handler that is not interrupted checks the message and comes to the sending. -/
theorem handler_alone (s : PostSt) (c h : Nat) (p : Poster) (m : Message) (hc : s.crashed = false)
    (hch : s.ch = some c) (hr : s.req = some c) (hp : s.posters[c]? = some p) (hx : s.handlers[h]? = some ⟨m, .req1⟩)
    (hf : Fooling p.msg m) (k : Nat) (hk : k ≤ 9) :
    s.run (List.replicate k (.handler h)) = s.setHandler h ⟨m, stageAt c k⟩ := by
  have hlt := (List.getElem?_eq_some_iff.mp hx).1
  obtain ⟨hf1, hf2⟩ := hf
  have he : s.setHandler h ⟨m, .req1⟩ = s := by
    have : s.handlers.set h ⟨m, .req1⟩ = s.handlers := by
      apply List.ext_getElem?
      intro n
      by_cases e : h = n
      · subst e; rw [List.getElem?_set_self hlt, hx]
      · rw [List.getElem?_set_ne e]
    unfold PostSt.setHandler
    rw [this]
  have one : ∀ pc pc', (s.setHandler h ⟨m, pc⟩).stepHandler h ⟨m, pc⟩ = (s.setHandler h ⟨m, pc⟩).setHandler h ⟨m, pc'⟩ →
      (s.setHandler h ⟨m, pc⟩).step (.handler h) = s.setHandler h ⟨m, pc'⟩ := by
    intro pc pc' e
    rw [handler_step (s.setHandler h ⟨m, pc⟩) h ⟨m, pc⟩ hc (List.getElem?_set_self hlt), e]
    unfold PostSt.setHandler
    dsimp only
    rw [List.set_set]
  have hq : ∀ pc, (s.setHandler h ⟨m, pc⟩).reqMsg = some p.msg := by
    intro pc
    unfold PostSt.reqMsg PostSt.setHandler
    dsimp only
    rw [hr]
    dsimp only
    rw [hp]
    rfl
  have c1 : ∀ pc, (s.setHandler h ⟨m, pc⟩).req = some c := fun _ => hr
  have c2 : ∀ pc, (s.setHandler h ⟨m, pc⟩).ch = some c := fun _ => hch
  have s1 := one .req1 .ch1 (by simp [PostSt.stepHandler, c1])
  have s2 := one .ch1 .req2 (by simp [PostSt.stepHandler, c2])
  have s3 := one .req2 .ch2 (by simp [PostSt.stepHandler, c1])
  have s4 := one .ch2 .equal (by simp [PostSt.stepHandler, c2])
  have s5 := one .equal .tid (by simp [PostSt.stepHandler, hq, hf2])
  have s6 := one .tid .req3 (by simp [PostSt.stepHandler, hq, hf1])
  have s7 := one .req3 .ch3 (by simp [PostSt.stepHandler, c1])
  have s8 := one .ch3 .load (by simp [PostSt.stepHandler, c2])
  have s9 := one .load (.sending c) (by simp [PostSt.stepHandler, c2])
  rw [he] at s1
  rcases (by omega : k = 0 ∨ k = 1 ∨ k = 2 ∨ k = 3 ∨ k = 4 ∨ k = 5 ∨ k = 6 ∨ k = 7 ∨ k = 8 ∨ k = 9) with
    rfl | rfl | rfl | rfl | rfl | rfl | rfl | rfl | rfl | rfl <;>
  simp only [List.replicate, PostSt.run, s1, s2, s3, s4, s5, s6, s7, s8, s9, he, stageAt]

/-- The fields while a post waits. -/
theorem waiting_fields (acts : List PostAct) (i : Nat) (p : Poster)
    (hp : (PostSt.init.run acts).posters[i]? = some p) (hw : p.pc = .wait) :
    (PostSt.init.run acts).mutex = some i ∧ (PostSt.init.run acts).ch = some i ∧ (PostSt.init.run acts).req = some i ∧
    i ∉ (PostSt.init.run acts).closed := by
  have := (pinv_run pinv_init acts).shape i p hp
  rw [hw] at this
  exact this

/-- The handler of the next message to arrive. -/
def nextHandler (s : PostSt) : Nat := s.handlers.length

/-- A message arrives and its handler takes `k` steps. -/
theorem arrived (acts : List PostAct) (i : Nat) (p : Poster) (m : Message) (hc : (PostSt.init.run acts).crashed = false)
    (hp : (PostSt.init.run acts).posters[i]? = some p) (hw : p.pc = .wait) (hf : Fooling p.msg m) (k : Nat) (hk : k ≤ 9) :
    (PostSt.init.run acts).run (.arrive m :: List.replicate k (.handler (PostSt.init.run acts).handlers.length)) =
      { PostSt.init.run acts with handlers := (PostSt.init.run acts).handlers ++ [⟨m, stageAt i k⟩] } := by
  obtain ⟨-, h2, h3, -⟩ := waiting_fields acts i p hp hw
  generalize PostSt.init.run acts = s at *
  have e : s.step (.arrive m) = { s with handlers := s.handlers ++ [⟨m, .req1⟩] } := by
    unfold PostSt.step
    rw [if_neg (by rw [hc]; decide)]
  rw [PostSt.run, e, handler_alone { s with handlers := s.handlers ++ [⟨m, .req1⟩] } i s.handlers.length p m hc h2 h3 hp
    (by simp) hf k hk]
  simp [PostSt.setHandler]

/-- **C51 is refuted** for every post: whatever was asked and of whom, while it waits any message with its identifier and
other bytes is returned as the response, wherever it came from and whatever its service. -/
theorem C51_refuted_any (acts : List PostAct) (i : Nat) (p : Poster) (m : Message)
    (hc : (PostSt.init.run acts).crashed = false) (hp : (PostSt.init.run acts).posters[i]? = some p) (hw : p.pc = .wait)
    (hf : Fooling p.msg m) :
    let h := (PostSt.init.run acts).handlers.length
    let s := PostSt.init.run (acts ++ [.arrive m] ++ handling h ++ [.receive i h, .own i, .own i, .own i, .own i])
    s.posters[i]? = some { p with pc := .done (.ok m) } ∧ s.crashed = false := by
  dsimp only
  obtain ⟨h1, h2, h3, h4⟩ := waiting_fields acts i p hp hw
  have e := arrived acts i p m hc hp hw hf 9 (Nat.le_refl _)
  rw [run_append, List.append_assoc, run_append]
  rw [show [.arrive m] ++ handling (PostSt.init.run acts).handlers.length =
    .arrive m :: List.replicate 9 (.handler (PostSt.init.run acts).handlers.length) from rfl, e]
  generalize PostSt.init.run acts = s at *
  obtain ⟨mutex, ch, req, closed, posters, handlers, crashed⟩ := s
  simp only at hc hp h1 h2 h3 h4
  subst hc h1 h2 h3
  obtain ⟨hlt, hpe⟩ := List.getElem?_eq_some_iff.mp hp
  subst hpe
  simp [stageAt, PostSt.run, PostSt.step, PostSt.stepReceive, PostSt.stepOwn, PostSt.setPoster, PostSt.setHandler, hw, hlt, h4]

/-- **C52 is refuted** for every post: whenever one waits, two copies of a response (or any two messages with its
identifier) can crash the process. -/
theorem C52_refuted_any_duplicate (acts : List PostAct) (i : Nat) (p : Poster) (m m' : Message)
    (hc : (PostSt.init.run acts).crashed = false) (hp : (PostSt.init.run acts).posters[i]? = some p) (hw : p.pc = .wait)
    (hf : Fooling p.msg m) (hf' : Fooling p.msg m') :
    let h := (PostSt.init.run acts).handlers.length
    (PostSt.init.run (acts ++ ([.arrive m] ++ handling h) ++ ([.arrive m'] ++ handling (h + 1)) ++
      [.receive i h, .own i, .handler (h + 1)])).crashed = true := by
  dsimp only
  have e := arrived acts i p m hc hp hw hf 9 (Nat.le_refl _)
  have e' : PostSt.init.run (acts ++ ([.arrive m] ++ handling (PostSt.init.run acts).handlers.length)) =
      { PostSt.init.run acts with handlers := (PostSt.init.run acts).handlers ++ [⟨m, stageAt i 9⟩] } := by
    rw [run_append]; exact e
  have hc' : (PostSt.init.run (acts ++ ([.arrive m] ++ handling (PostSt.init.run acts).handlers.length))).crashed = false := by
    rw [e']; exact hc
  have hp' : (PostSt.init.run (acts ++ ([.arrive m] ++ handling (PostSt.init.run acts).handlers.length))).posters[i]? = some p := by
    rw [e']; exact hp
  have d := arrived _ i p m' hc' hp' hw hf' 9 (Nat.le_refl _)
  have hl : (PostSt.init.run (acts ++ ([.arrive m] ++ handling (PostSt.init.run acts).handlers.length))).handlers.length =
    (PostSt.init.run acts).handlers.length + 1 := by rw [e']; simp
  rw [hl] at d
  rw [run_append, run_append _ (acts ++ _)]
  rw [show [.arrive m'] ++ handling ((PostSt.init.run acts).handlers.length + 1) =
    .arrive m' :: List.replicate 9 (.handler ((PostSt.init.run acts).handlers.length + 1)) from rfl, d, e']
  obtain ⟨h1, h2, h3, h4⟩ := waiting_fields acts i p hp hw
  generalize PostSt.init.run acts = s at *
  obtain ⟨mutex, ch, req, closed, posters, handlers, crashed⟩ := s
  simp only at hc hp h1 h2 h3 h4
  subst hc h1 h2 h3
  obtain ⟨hlt, hpe⟩ := List.getElem?_eq_some_iff.mp hp
  subst hpe
  simp [stageAt, PostSt.run, PostSt.step, PostSt.stepReceive, PostSt.stepOwn, PostSt.stepHandler, PostSt.setPoster, PostSt.setHandler,
    hw, hlt, h4]

/-- **C52 is refuted** for every post: whenever one waits, a single response that is handled while the post times out can
crash the process. -/
theorem C52_refuted_any_timeout (acts : List PostAct) (i : Nat) (p : Poster) (m : Message)
    (hc : (PostSt.init.run acts).crashed = false) (hp : (PostSt.init.run acts).posters[i]? = some p) (hw : p.pc = .wait)
    (hf : Fooling p.msg m) :
    let h := (PostSt.init.run acts).handlers.length
    (PostSt.init.run (acts ++ (.arrive m :: List.replicate 5 (.handler h)) ++
      [.timeout i, .own i, .own i, .own i, .handler h])).crashed = true := by
  dsimp only
  have e := arrived acts i p m hc hp hw hf 5 (by decide)
  rw [run_append, run_append, e]
  obtain ⟨h1, h2, h3, h4⟩ := waiting_fields acts i p hp hw
  generalize PostSt.init.run acts = s at *
  obtain ⟨mutex, ch, req, closed, posters, handlers, crashed⟩ := s
  simp only at hc hp h1 h2 h3 h4
  subst hc h1 h2 h3
  obtain ⟨hlt, hpe⟩ := List.getElem?_eq_some_iff.mp hp
  subst hpe
  simp [stageAt, PostSt.run, PostSt.step, PostSt.stepOwn, PostSt.stepHandler, PostSt.setPoster, PostSt.reqMsg, hw, hlt, h4]

/-- A handler that sends on no channel stays there. -/
theorem blocked_stays (acts : List PostAct) : ∀ (s : PostSt) (h : Nat) (m : Message), s.handlers[h]? = some ⟨m, .blocked⟩ →
    (s.run acts).handlers[h]? = some ⟨m, .blocked⟩ := by
  induction acts with
  | nil => intro s h m hx; exact hx
  | cons a acts ih =>
    intro s h m hx
    refine ih (s.step a) h m ?_
    have hlt := (List.getElem?_eq_some_iff.mp hx).1
    have set : ∀ (k : Nat) (x : Handling) (y : Handling), s.handlers[k]? = some x → x.pc ≠ .blocked →
        (s.handlers.set k y)[h]? = some ⟨m, .blocked⟩ := by
      intro k x y hk hn
      rw [List.getElem?_set_ne]
      · exact hx
      · rintro rfl
        rw [hx] at hk
        cases hk
        exact hn rfl
    unfold PostSt.step
    split
    · exact hx
    cases a with
    | arrive m' =>
      show (s.handlers ++ _)[h]? = _
      rw [List.getElem?_append_left hlt]
      exact hx
    | post dst tcp m' => exact hx
    | cancel i => dsimp only; split <;> exact hx
    | tcp i running tid r =>
      dsimp only
      split
      · exact hx
      · unfold PostSt.stepTCP
        split
        · split
          · exact hx
          · cases r <;> exact hx
        · exact hx
    | own i =>
      dsimp only
      split
      · exact hx
      · unfold PostSt.stepOwn
        split <;> first | exact hx | (split <;> first | exact hx | (split <;> exact hx))
    | header i running tid =>
      dsimp only
      split
      · exact hx
      · unfold PostSt.stepHeader
        split <;> first | exact hx | (split <;> exact hx)
    | send i ok =>
      dsimp only
      split
      · exact hx
      · unfold PostSt.stepSend
        split <;> first | exact hx | (split <;> exact hx)
    | receive i k =>
      dsimp only
      split
      · next p x hp hk =>
        unfold PostSt.stepReceive
        split
        · next hc => exact set k x _ hk (by rw [hc.2]; simp)
        · exact hx
      · exact hx
    | timeout i =>
      dsimp only
      split
      · exact hx
      · split <;> exact hx
    | handler k =>
      dsimp only
      cases hk : s.handlers[k]? with
      | none => exact hx
      | some x =>
        dsimp only
        unfold PostSt.stepHandler
        cases hp : x.pc with
        | tid =>
          dsimp only
          split
          · exact hx
          · exact set k x _ hk (by rw [hp]; simp)
        | load => dsimp only; split <;> exact set k x _ hk (by rw [hp]; simp)
        | sending c => dsimp only; split <;> exact hx
        | blocked => exact hx
        | past => exact hx
        | _ => exact set k x _ hk (by rw [hp]; simp)

/-- **C69 is refuted** for every post: whenever one waits, a response handled while the post times out can stay in its
handler for ever, whatever happens afterwards. -/
theorem C69_refuted_any (acts : List PostAct) (i : Nat) (p : Poster) (m : Message)
    (hc : (PostSt.init.run acts).crashed = false) (hp : (PostSt.init.run acts).posters[i]? = some p) (hw : p.pc = .wait)
    (hf : Fooling p.msg m) :
    let h := (PostSt.init.run acts).handlers.length
    let s := PostSt.init.run (acts ++ (.arrive m :: List.replicate 8 (.handler h)) ++
      [.timeout i, .own i, .own i, .handler h])
    s.crashed = false ∧ ∀ later, (s.run later).handlers[h]? = some ⟨m, .blocked⟩ := by
  dsimp only
  have e := arrived acts i p m hc hp hw hf 8 (by decide)
  rw [run_append, run_append, e]
  obtain ⟨h1, h2, h3, h4⟩ := waiting_fields acts i p hp hw
  generalize PostSt.init.run acts = s at *
  obtain ⟨mutex, ch, req, closed, posters, handlers, crashed⟩ := s
  simp only at hc hp h1 h2 h3 h4
  subst hc h1 h2 h3
  obtain ⟨hlt, hpe⟩ := List.getElem?_eq_some_iff.mp hp
  subst hpe
  refine ⟨?_, fun later => blocked_stays later _ _ m ?_⟩ <;>
  simp [stageAt, PostSt.run, PostSt.step, PostSt.stepOwn, PostSt.stepHandler, PostSt.setPoster, PostSt.setHandler, hw, hlt, h4]

/-- **C50 is refuted** for every post: a message handled after the post has put up its request and before it has set the
identifier is compared with the old one, and is returned as the response whatever the new one is. -/
theorem C50_refuted_any_early (acts : List PostAct) (i : Nat) (p : Poster) (m : Message) (tid : GoUint)
    (hc : (PostSt.init.run acts).crashed = false) (hp : (PostSt.init.run acts).posters[i]? = some p) (hw : p.pc = .setTID)
    (hf : Fooling p.msg m) :
    let h := (PostSt.init.run acts).handlers.length
    let s := PostSt.init.run (acts ++ (.arrive m :: handling h) ++
      [.header i true tid, .own i, .send i true, .receive i h, .own i, .own i, .own i, .own i])
    s.posters[i]? = some { p with msg := (p.msg.setTID tid).setSEOJ nodeProfileObjectCode, pc := .done (.ok m) } := by
  dsimp only
  obtain ⟨h1, h2, h3, h4⟩ : (PostSt.init.run acts).mutex = some i ∧ (PostSt.init.run acts).ch = some i ∧
      (PostSt.init.run acts).req = some i ∧ i ∉ (PostSt.init.run acts).closed := by
    have := (pinv_run pinv_init acts).shape i p hp
    rw [hw] at this
    exact this
  rw [run_append, run_append]
  generalize PostSt.init.run acts = s at *
  have e : s.step (.arrive m) = { s with handlers := s.handlers ++ [⟨m, .req1⟩] } := by
    unfold PostSt.step
    rw [if_neg (by rw [hc]; decide)]
  have e' : s.run (.arrive m :: handling s.handlers.length) =
      ({ s with handlers := s.handlers ++ [⟨m, .req1⟩] } : PostSt).setHandler s.handlers.length ⟨m, stageAt i 9⟩ := by
    rw [PostSt.run, e]
    exact handler_alone { s with handlers := s.handlers ++ [⟨m, .req1⟩] } i s.handlers.length p m hc h2 h3 hp
      (by simp) hf 9 (by decide)
  rw [e']
  obtain ⟨mutex, ch, req, closed, posters, handlers, crashed⟩ := s
  simp only at hc hp h1 h2 h3 h4
  subst hc h1 h2 h3
  obtain ⟨hlt, hpe⟩ := List.getElem?_eq_some_iff.mp hp
  subst hpe
  simp [stageAt, PostSt.run, PostSt.step, PostSt.stepReceive, PostSt.stepOwn, PostSt.stepHeader, PostSt.stepSend,
    PostSt.setPoster, PostSt.setHandler, hw, hlt, h4]

/-- **C50 is refuted** for every post: a response that is being handled when its post times out is returned by the next
post, whatever that one asks and whatever its identifier. -/
theorem C50_refuted_any_late (acts : List PostAct) (i : Nat) (p : Poster) (m : Message) (dst : Addr) (q : Message)
    (tid : GoUint) (hc : (PostSt.init.run acts).crashed = false) (hp : (PostSt.init.run acts).posters[i]? = some p)
    (hw : p.pc = .wait) (hf : Fooling p.msg m) :
    let h := (PostSt.init.run acts).handlers.length
    let j := (PostSt.init.run acts).posters.length
    let s := PostSt.init.run (acts ++ (.arrive m :: List.replicate 6 (.handler h)) ++ (ending i ++ [.post dst false q] ++
      posting j tid ++ List.replicate 3 (.handler h) ++ [.receive j h, .own j, .own j, .own j, .own j]))
    s.posters[i]? = some { p with pc := .done .timeout } ∧
    s.posters[j]? = some ⟨dst, false, (q.setTID tid).setSEOJ nodeProfileObjectCode, false, .done (.ok m)⟩ := by
  dsimp only
  have e := arrived acts i p m hc hp hw hf 6 (by decide)
  rw [run_append PostSt.init (acts ++ _), run_append PostSt.init acts, e]
  obtain ⟨h1, h2, h3, h4⟩ := waiting_fields acts i p hp hw
  have hcl := (pinv_run pinv_init acts).closed
  generalize PostSt.init.run acts = s at *
  obtain ⟨mutex, ch, req, closed, posters, handlers, crashed⟩ := s
  simp only at hc hp h1 h2 h3 h4 hcl
  subst hc h1 h2 h3
  obtain ⟨hlt, hpe⟩ := List.getElem?_eq_some_iff.mp hp
  subst hpe
  have hj : posters.length ∉ closed := fun hm => Nat.lt_irrefl _ (hcl _ hm)
  have hne : posters.length ≠ i := by omega
  simp [stageAt, ending, posting, List.replicate, PostSt.run, PostSt.step, PostSt.stepReceive, PostSt.stepOwn,
    PostSt.stepHeader, PostSt.stepSend, PostSt.stepHandler, PostSt.setPoster, PostSt.setHandler, hw, hlt, h4, hj, hne]
  rw [List.getElem?_append_left (by simpa using hlt), List.getElem?_set_self hlt]

/-- **C54 is refuted** for every post: once it waits, the end of its context changes nothing. Whatever happens, the post
goes on waiting until its timer fires or it receives a message. -/
theorem C54_refuted_any (acts : List PostAct) (i : Nat) (p : Poster) (hc : (PostSt.init.run acts).crashed = false)
    (hp : (PostSt.init.run acts).posters[i]? = some p) (hw : p.pc = .wait) (later : List PostAct)
    (hl : ∀ a ∈ later, a ≠ .timeout i ∧ ∀ h, a ≠ .receive i h) :
    ((PostSt.init.run (acts ++ [.cancel i] ++ later)).posters[i]?) = some { p with ctxDone := true } := by
  have key : ∀ (later : List PostAct) (s : PostSt), s.posters[i]? = some { p with ctxDone := true } →
      (∀ a ∈ later, a ≠ .timeout i ∧ ∀ h, a ≠ .receive i h) → (s.run later).posters[i]? = some { p with ctxDone := true } := by
    intro later
    induction later with
    | nil => intro s h _; exact h
    | cons a later ih =>
      intro s h hl
      refine ih (s.step a) ?_ (fun b hb => hl b (List.mem_cons_of_mem _ hb))
      obtain ⟨a1, a2⟩ := hl a List.mem_cons_self
      have hlt := (List.getElem?_eq_some_iff.mp h).1
      have set : ∀ (j : Nat) (q q' : Poster), s.posters[j]? = some q → (j = i → q' = q) →
          (s.posters.set j q')[i]? = some { p with ctxDone := true } := by
        intro j q q' hq he
        by_cases e : j = i
        · subst e
          rw [List.getElem?_set_self hlt, he rfl, ← hq]
          exact h
        · rw [List.getElem?_set_ne e]
          exact h
      have wait : ∀ (j : Nat) (q : Poster), s.posters[j]? = some q → q.pc ≠ .wait → j ≠ i := by
        rintro j q hq hn rfl
        rw [h] at hq
        cases hq
        exact hn hw
      unfold PostSt.step
      split
      · exact h
      cases a with
      | arrive m => exact h
      | post dst tcp m =>
        show (s.posters ++ _)[i]? = _
        rw [List.getElem?_append_left hlt]
        exact h
      | cancel j =>
        dsimp only
        cases hq : s.posters[j]? with
        | none => exact h
        | some q =>
          refine set j q _ hq ?_
          rintro rfl
          rw [h] at hq
          cases hq
          rfl
      | tcp j running tid r =>
        dsimp only
        cases hq : s.posters[j]? with
        | none => exact h
        | some q =>
          dsimp only
          unfold PostSt.stepTCP
          split
          · next hs =>
            have hn := wait j q hq (by rw [hs.1]; simp)
            split
            · exact set j q _ hq (fun e => absurd e hn)
            · cases r <;> exact set j q _ hq (fun e => absurd e hn)
          · exact h
      | own j =>
        dsimp only
        cases hq : s.posters[j]? with
        | none => exact h
        | some q =>
          dsimp only
          unfold PostSt.stepOwn
          by_cases e : j = i
          · subst e
            rw [h] at hq
            cases hq
            dsimp only
            split <;> first | exact h | (next hs => rw [hw] at hs; cases hs)
          · split <;> first
              | exact h
              | exact set j q _ hq (fun e' => absurd e' e)
              | (split <;> first
                | exact h
                | exact set j q _ hq (fun e' => absurd e' e)
                | (split <;> first | exact h | exact set j q _ hq (fun e' => absurd e' e)))
      | header j running tid =>
        dsimp only
        cases hq : s.posters[j]? with
        | none => exact h
        | some q =>
          dsimp only
          unfold PostSt.stepHeader
          split
          · next hs =>
            have hn := wait j q hq (by rw [hs]; simp)
            split <;> exact set j q _ hq (fun e => absurd e hn)
          · exact h
      | send j ok =>
        dsimp only
        cases hq : s.posters[j]? with
        | none => exact h
        | some q =>
          dsimp only
          unfold PostSt.stepSend
          split
          · next hs =>
            have hn := wait j q hq (by rw [hs]; simp)
            split <;> exact set j q _ hq (fun e => absurd e hn)
          · exact h
      | receive j k =>
        dsimp only
        split
        · next q x hq hk =>
          unfold PostSt.stepReceive
          split
          · exact set j q _ hq (fun e => absurd (by rw [e]) (a2 k))
          · exact h
        · exact h
      | timeout j =>
        dsimp only
        cases hq : s.posters[j]? with
        | none => exact h
        | some q =>
          dsimp only
          split
          · exact set j q _ hq (fun e => absurd (by rw [e]) a1)
          · exact h
      | handler k =>
        dsimp only
        cases hk : s.handlers[k]? with
        | none => exact h
        | some x =>
          dsimp only
          unfold PostSt.stepHandler
          split <;> first | exact h | (split <;> exact h)
  rw [run_append, run_append]
  refine key later _ ?_ hl
  generalize PostSt.init.run acts = s at *
  have hlt := (List.getElem?_eq_some_iff.mp hp).1
  show (PostSt.step s (.cancel i)).posters[i]? = _
  unfold PostSt.step
  rw [if_neg (by rw [hc]; decide)]
  dsimp only
  rw [hp]
  exact List.getElem?_set_self hlt

/-! ### The states spoken of exist -/

/-- A post waits for the response to a request. -/
def oneWaits : List PostAct := [.post ⟨"10.0.0.2", 3610⟩ false aRequest] ++ posting 0 7

example : (PostSt.init.run oneWaits).crashed = false ∧
    ((PostSt.init.run oneWaits).posters[0]?).map (fun p => (p.pc, p.msg)) =
      some (.wait, (aRequest.setTID 7).setSEOJ 0x0EF001) ∧
    Fooling ((aRequest.setTID 7).setSEOJ 0x0EF001) (aResponse 7 "10.0.0.66") ∧
    Fooling ((aRequest.setTID 7).setSEOJ 0x0EF001) ((aRequest.setTID 7).setDEOJ 0x0EF001) := by decide +kernel

/-- A post has put up its request and not yet set the identifier. -/
example :
    let s := PostSt.init.run [.post ⟨"10.0.0.2", 3610⟩ false aRequest, .own 0, .own 0, .own 0, .own 0]
    s.crashed = false ∧ (s.posters[0]?).map (fun p => (p.pc, p.msg)) = some (.setTID, aRequest) ∧
    Fooling aRequest (aResponse 0 "10.0.0.9") := by decide +kernel

end Verif.Props
