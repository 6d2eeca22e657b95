import Verif.Props.PostAgrees
import Verif.Props.Post

/-!
# C148: posts one after the other

The general properties of posts fail because messages are handled while posts begin and end (C50, C52, C69). Here every
message is handled without interruption, and posts are made one after the other; then they work as one expects.
-/

namespace Verif.Props
open Verif Model

/-! ## Specification -/

/-- A post: where to, with which message, the identifier it gets, whether it is sent, and the messages that arrive
after it was sent, until the next post. -/
structure PostStory where
  dst : Addr
  msg : Message
  tid : GoUint
  sent : Bool
  arrivals : List Message

/-- The message as it is sent. -/
def PostStory.request (x : PostStory) : Message := (x.msg.setTID x.tid).setSEOJ nodeProfileObjectCode

/-- A message that has the identifier of the request and is another message. -/
def Matches (req a : Message) : Bool := a.getTID == req.getTID && a.bytes != req.bytes

/-- The answer, or the timeout. -/
def answerOr : Option Message → PostRes
  | some a => .ok a
  | none => .timeout

/-- What the post has to return: the first message that matches. -/
def PostStory.expected (x : PostStory) : PostRes :=
  if !x.sent then .failed else answerOr (x.arrivals.find? (Matches x.request))

/-! ## Schedules -/

/-- Messages that arrive while no post waits, from handler `h` on. -/
def strays : Nat → List Message → List PostAct
  | _, [] => []
  | h, a :: as => .arrive a :: handlerSteps h ++ strays (h + 1) as

/-- Messages that arrive while post `i` waits: each is handled without interruption, the post takes the first one that
is offered and ends; when none is, it ends by its timer. -/
def listen (req : Message) (i : Nat) : Nat → List Message → List PostAct
  | _, [] => .timeout i :: closeSteps i
  | h, a :: as => .arrive a :: handlerSteps h ++
      if Matches req a then (.receive i h :: closeSteps i) ++ strays (h + 1) as else listen req i (h + 1) as

/-- All of one post, number `i`. -/
def PostStory.acts (x : PostStory) (i h : Nat) : List PostAct :=
  .post x.dst false x.msg :: postSteps i true x.tid x.sent ++
    if x.sent then listen x.request i h x.arrivals else closeSteps i ++ strays h x.arrivals

/-- All posts, from number `i` and handler `h` on. -/
def storyActs : Nat → Nat → List PostStory → List PostAct
  | _, _, [] => []
  | i, h, x :: xs => x.acts i h ++ storyActs (i + 1) (h + x.arrivals.length) xs

/-! ## Proofs -/

private theorem acts_append (s : PostSt) (a b : List PostAct) : s.run (a ++ b) = (s.run a).run b := by
  induction a generalizing s with
  | nil => rfl
  | cons x xs ih => exact ih (s.step x)

private theorem acts_cons (s : PostSt) (a : PostAct) (b : List PostAct) : s.run (a :: b) = (s.step a).run b := rfl

/-- A state in which a post can be made: nothing is pending. -/
private structure Ready (s : PostSt) : Prop where
  crashed : s.crashed = false
  mutex : s.mutex = none
  ch : s.ch = none
  req : s.req = none
  closed : ∀ c ∈ s.closed, c < s.posters.length
  past : ∀ x ∈ s.handlers, x.pc = .past

/-- The state with another handler, which is past. -/
private def addPast (s : PostSt) (a : Message) : PostSt := { s with handlers := s.handlers ++ [⟨a, .past⟩] }

private theorem arrive_eq (s : PostSt) (a : Message) (hc : s.crashed = false) :
    s.step (.arrive a) = { s with handlers := s.handlers ++ [⟨a, .req1⟩] } := by
  unfold PostSt.step
  rw [if_neg (by rw [hc]; simp)]

private theorem matches_iff (n : Node) (q a : Message) (hn : n.pending = some q) : n.isResponseMessage a = Matches q a := by
  unfold Node.isResponseMessage Matches
  rw [hn]
  dsimp only
  by_cases h1 : Message.equals (some a) (some q) = true
  · rw [if_pos h1]
    have : a.bytes = q.bytes := by simpa [Message.equals] using h1
    simp [this]
  · rw [if_neg h1]
    have : a.bytes ≠ q.bytes := by simpa [Message.equals] using h1
    by_cases h2 : a.getTID = q.getTID <;> simp [h2, this]

private def offered : Option Message → Message → Bool
  | some q, a => Matches q a
  | none, _ => false

/-- A message handled without interruption. -/
private theorem handled (s : PostSt) (a : Message) (hc : s.crashed = false)
    (hw : ∀ i, s.req = some i → i < s.posters.length) (hch : s.req.isSome → s.ch.isSome) :
    s.run (.arrive a :: handlerSteps s.handlers.length) =
      { s with handlers := s.handlers ++ [⟨a, if offered s.reqMsg a then offering s.ch else .past⟩] } := by
  rw [acts_cons, arrive_eq s a hc]
  have key := handler_agrees { s with handlers := s.handlers ++ [⟨a, .req1⟩] } s.handlers.length a
    { Node.initial with pending := s.reqMsg } hc (by simp) rfl hw hch
  rw [key]
  have : Node.isResponseMessage { Node.initial with pending := s.reqMsg } a =
      offered s.reqMsg a := by
    cases hq : s.reqMsg with
    | none => rfl
    | some q => exact matches_iff _ q a rfl
  rw [this]
  unfold PostSt.setHandler
  simp

private theorem stray_run (as : List Message) : ∀ s : PostSt, Ready s →
    s.run (strays s.handlers.length as) = { s with handlers := s.handlers ++ as.map (⟨·, .past⟩) } := by
  induction as with
  | nil => intro s _; simp [strays, PostSt.run]
  | cons a as ih =>
    intro s h
    show s.run ((.arrive a :: handlerSteps s.handlers.length) ++ strays (s.handlers.length + 1) as) = _
    rw [acts_append, handled s a h.crashed (by rw [h.req]; intro i hi; cases hi) (by rw [h.req]; intro hi; cases hi)]
    have hq : s.reqMsg = none := by unfold PostSt.reqMsg; rw [h.req]
    rw [hq]
    have h' : Ready (addPast s a) := ⟨h.crashed, h.mutex, h.ch, h.req, h.closed, by
      intro x hx
      rcases List.mem_append.mp hx with hx | hx
      · exact h.past x hx
      · rw [List.mem_singleton.mp hx]⟩
    have := ih (addPast s a) h'
    have hl : (addPast s a).handlers.length = s.handlers.length + 1 := by simp [addPast]
    rw [hl] at this
    show (addPast s a).run _ = _
    rw [this]
    simp [addPast]

/-- What is left of a post that has ended. -/
private def ended (s : PostSt) (i : Nat) (p : Poster) (hs : List Handling) : PostSt :=
  { s.setPoster i p with mutex := none, ch := none, req := none, closed := i :: s.closed, handlers := hs }

private theorem listen_run (x : PostStory) (i : Nat) (as : List Message) : ∀ s : PostSt, s.crashed = false →
    s.posters[i]? = some ⟨x.dst, false, x.request, false, .wait⟩ → s.ch = some i → s.req = some i → i ∉ s.closed →
    (∀ c ∈ s.closed, c < s.posters.length) → (∀ y ∈ s.handlers, y.pc = .past) →
    s.run (listen x.request i s.handlers.length as) =
      ended s i ⟨x.dst, false, x.request, false, .done (answerOr (as.find? (Matches x.request)))⟩ (s.handlers ++ as.map (⟨·, .past⟩)) := by
  induction as with
  | nil =>
    intro s hc hp hch hr hcl _ _
    show s.run (.timeout i :: closeSteps i) = _
    rw [(post_returns s i 0 x.dst x.request x.request hc hp hch hcl).2]
    simp [ended, PostSt.setPoster, answerOr]
  | cons a as ih =>
    intro s hc hp hch hr hcl hlt hpast
    obtain ⟨hi, hpi⟩ := List.getElem?_eq_some_iff.mp hp
    have hq : s.reqMsg = some x.request := by
      unfold PostSt.reqMsg
      rw [hr]
      dsimp only
      rw [hp]
      rfl
    show s.run ((.arrive a :: handlerSteps s.handlers.length) ++ _) = _
    rw [acts_append, handled s a hc (by rw [hr]; intro j hj; cases hj; exact hi) (by rw [hch]; intro _; rfl), hq,
      show offering s.ch = .sending i by rw [hch]; rfl]
    by_cases hm : Matches x.request a = true
    rotate_left
    · rw [if_neg hm, if_neg (show ¬ offered (some x.request) a = true from hm)]
      rw [List.find?_cons_of_neg (hm)]
      have := ih (addPast s a) hc hp hch hr hcl hlt (by
        intro y hy
        rcases List.mem_append.mp hy with hy | hy
        · exact hpast y hy
        · rw [List.mem_singleton.mp hy])
      have hl : (addPast s a).handlers.length = s.handlers.length + 1 := by simp [addPast]
      rw [hl] at this
      show (addPast s a).run _ = _
      rw [this]
      simp [ended, addPast, PostSt.setPoster]
    · rw [if_pos hm, if_pos (show offered (some x.request) a = true from hm), List.find?_cons_of_pos hm, acts_append]
      have := (post_returns { s with handlers := s.handlers ++ [⟨a, .sending i⟩] } i s.handlers.length x.dst x.request a
        hc hp hch hcl).1 (by simp)
      rw [this]
      have hrd : Ready (ended s i ⟨x.dst, false, x.request, false, .done (.ok a)⟩ (s.handlers ++ [⟨a, .past⟩])) := by
        refine ⟨hc, rfl, rfl, rfl, ?_, ?_⟩
        · intro c hcc
          rcases List.mem_cons.mp hcc with rfl | hcc
          · simpa [ended, PostSt.setPoster] using hi
          · simpa [ended, PostSt.setPoster] using hlt c hcc
        · intro y hy
          rcases List.mem_append.mp hy with hy | hy
          · exact hpast y hy
          · rw [List.mem_singleton.mp hy]
      have hst := stray_run as _ hrd
      have hl : (ended s i ⟨x.dst, false, x.request, false, .done (.ok a)⟩ (s.handlers ++ [⟨a, .past⟩])).handlers.length =
          s.handlers.length + 1 := by simp [ended]
      rw [hl] at hst
      have e : ({ (({ s with handlers := s.handlers ++ [⟨a, .sending i⟩] } : PostSt).setPoster i
          ⟨x.dst, false, x.request, false, .done (.ok a)⟩).setHandler s.handlers.length ⟨a, .past⟩ with
          mutex := none, ch := none, req := none, closed := i :: s.closed } : PostSt) =
          ended s i ⟨x.dst, false, x.request, false, .done (.ok a)⟩ (s.handlers ++ [⟨a, .past⟩]) := by
        simp [ended, PostSt.setPoster, PostSt.setHandler]
      rw [e, hst]
      simp [ended, PostSt.setPoster, answerOr]

/-- A post under way. -/
private def waiting (s : PostSt) (x : PostStory) (pc : PostPc) : PostSt :=
  { s with posters := s.posters ++ [⟨x.dst, false, x.request, false, pc⟩],
           mutex := some s.posters.length, ch := some s.posters.length, req := some s.posters.length }

/-- Everything a post leaves behind. -/
private theorem story_run (x : PostStory) (s : PostSt) (h : Ready s) :
    s.run (x.acts s.posters.length s.handlers.length) =
      { s with
        posters := s.posters ++ [⟨x.dst, false, x.request, false, .done x.expected⟩],
        handlers := s.handlers ++ x.arrivals.map (⟨·, .past⟩),
        closed := s.posters.length :: s.closed } := by
  have hs1 : s.step (.post x.dst false x.msg) =
      { s with posters := s.posters ++ [⟨x.dst, false, x.msg, false, .start⟩] } := by
    unfold PostSt.step
    rw [if_neg (by rw [h.crashed]; simp)]
  have hi : s.posters.length ∉ s.closed := fun hm => absurd (h.closed _ hm) (Nat.lt_irrefl _)
  unfold PostStory.acts
  rw [List.cons_append, acts_cons, acts_append, hs1]
  have hsend := posted { s with posters := s.posters ++ [⟨x.dst, false, x.msg, false, .start⟩] } s.posters.length x.dst
    x.msg x.tid x.sent h.crashed h.mutex (by simp)
  rw [hsend]
  unfold PostStory.expected
  cases hsent : x.sent with
  | true =>
    simp only [if_true, Bool.not_true, Bool.false_eq_true, if_false]
    have := listen_run x s.posters.length x.arrivals (waiting s x .wait) h.crashed (by simp [waiting]) rfl rfl hi
      (fun c hc => by have := h.closed c hc; simp [waiting]; omega) h.past
    have e : ({ ({ s with posters := s.posters ++ [⟨x.dst, false, x.msg, false, .start⟩] } : PostSt).setPoster
        s.posters.length ⟨x.dst, false, (x.msg.setTID x.tid).setSEOJ nodeProfileObjectCode, false, .wait⟩ with
        mutex := some s.posters.length, ch := some s.posters.length, req := some s.posters.length } : PostSt) =
        waiting s x .wait := by
      simp [waiting, PostSt.setPoster, PostStory.request]
    rw [e]
    refine this.trans ?_
    simp [ended, waiting, PostSt.setPoster, h.mutex, h.ch, h.req]
  | false =>
    simp only [Bool.false_eq_true, if_false, Bool.not_false, if_true]
    have e : ({ ({ s with posters := s.posters ++ [⟨x.dst, false, x.msg, false, .start⟩] } : PostSt).setPoster
        s.posters.length ⟨x.dst, false, (x.msg.setTID x.tid).setSEOJ nodeProfileObjectCode, false, .close .failed⟩ with
        mutex := some s.posters.length, ch := some s.posters.length, req := some s.posters.length } : PostSt) =
        waiting s x (.close .failed) := by
      simp [waiting, PostSt.setPoster, PostStory.request]
    rw [e, acts_append, post_fails (waiting s x (.close .failed)) s.posters.length x.dst x.request h.crashed
      (by simp [waiting]) rfl hi]
    have e2 : ({ (waiting s x (.close .failed)).setPoster s.posters.length
        ⟨x.dst, false, x.request, false, .done .failed⟩ with
        mutex := none, ch := none, req := none, closed := s.posters.length :: (waiting s x (.close .failed)).closed } : PostSt) =
        { s with
          posters := s.posters ++ [⟨x.dst, false, x.request, false, .done .failed⟩],
          closed := s.posters.length :: s.closed } := by
      simp [waiting, PostSt.setPoster, h.mutex, h.ch, h.req]
    rw [e2]
    have hr : Ready { s with
          posters := s.posters ++ [⟨x.dst, false, x.request, false, .done .failed⟩],
          closed := s.posters.length :: s.closed } := by
      refine ⟨h.crashed, h.mutex, h.ch, h.req, ?_, h.past⟩
      intro c hc
      rcases List.mem_cons.mp hc with rfl | hc
      · simp
      · have := h.closed c hc; simp; omega
    exact stray_run x.arrivals _ hr

private theorem stories_run (xs : List PostStory) : ∀ s : PostSt, Ready s →
    Ready (s.run (storyActs s.posters.length s.handlers.length xs)) ∧
    (s.run (storyActs s.posters.length s.handlers.length xs)).posters =
      s.posters ++ xs.map (fun x => ⟨x.dst, false, x.request, false, .done x.expected⟩) ∧
    (s.run (storyActs s.posters.length s.handlers.length xs)).handlers.map (·.msg) =
      s.handlers.map (·.msg) ++ xs.flatMap (·.arrivals) := by
  induction xs with
  | nil => intro s h; exact ⟨h, by simp [storyActs, PostSt.run], by simp [storyActs, PostSt.run]⟩
  | cons x xs ih =>
    intro s h
    show Ready (s.run (x.acts _ _ ++ storyActs (s.posters.length + 1) (s.handlers.length + x.arrivals.length) xs)) ∧
      (s.run (x.acts _ _ ++ storyActs (s.posters.length + 1) (s.handlers.length + x.arrivals.length) xs)).posters = _ ∧
      List.map _ (s.run (x.acts _ _ ++ storyActs (s.posters.length + 1) (s.handlers.length + x.arrivals.length) xs)).handlers = _
    rw [acts_append, story_run x s h]
    have hr : Ready { s with
        posters := s.posters ++ [⟨x.dst, false, x.request, false, .done x.expected⟩],
        handlers := s.handlers ++ x.arrivals.map (⟨·, .past⟩),
        closed := s.posters.length :: s.closed } := by
      refine ⟨h.crashed, h.mutex, h.ch, h.req, ?_, ?_⟩
      · intro c hc
        rcases List.mem_cons.mp hc with rfl | hc
        · simp
        · have := h.closed c hc; simp; omega
      · intro y hy
        rcases List.mem_append.mp hy with hy | hy
        · exact h.past y hy
        · obtain ⟨a, -, rfl⟩ := List.mem_map.mp hy; rfl
    have := ih _ hr
    simp only [List.length_append, List.length_cons, List.length_nil, List.length_map, Nat.zero_add] at this
    obtain ⟨h1, h2, h3⟩ := this
    refine ⟨h1, ?_, ?_⟩
    · rw [h2]; simp
    · rw [h3]; simp [Function.comp_def]

/-! ## C148 -/

/-- C148: for every sequence of posts, each with the messages that arrive after it was sent: every post returns the
first message that arrived with its identifier and is not the request, a timeout if there is none, and an error if it
was not sent. All other messages are passed on, the process does not crash, and in the end nothing is pending. -/
theorem C148_sequence (xs : List PostStory) :
    let s := PostSt.init.run (storyActs 0 0 xs)
    s.posters.map (fun p => (p.dst, p.msg, p.pc)) = xs.map (fun x => (x.dst, x.request, PostPc.done x.expected)) ∧
    s.handlers = (xs.flatMap (·.arrivals)).map (⟨·, .past⟩) ∧
    s.crashed = false ∧ s.mutex = none ∧ s.req = none ∧ s.ch = none := by
  intro s
  have h0 : Ready PostSt.init := ⟨rfl, rfl, rfl, rfl, (fun c hc => by cases hc), (fun x hx => by cases hx)⟩
  obtain ⟨h1, h2, h3⟩ := stories_run xs PostSt.init h0
  refine ⟨?_, ?_, h1.crashed, h1.mutex, h1.req, h1.ch⟩
  · show List.map _ (PostSt.init.run (storyActs 0 0 xs)).posters = _
    have e : (PostSt.init.run (storyActs 0 0 xs)).posters = _ := h2
    rw [e]
    simp [PostSt.init, Function.comp_def]
  · have e : (PostSt.init.run (storyActs 0 0 xs)).handlers.map (·.msg) = xs.flatMap (·.arrivals) := by
      refine h3.trans ?_
      simp [PostSt.init]
    have hp : ∀ y ∈ (PostSt.init.run (storyActs 0 0 xs)).handlers, y.pc = .past := h1.past
    show (PostSt.init.run (storyActs 0 0 xs)).handlers = _
    rw [← e, List.map_map]
    generalize (PostSt.init.run (storyActs 0 0 xs)).handlers = l at hp
    induction l with
    | nil => rfl
    | cons y l ih =>
      rw [List.map_cons, ← ih (fun z hz => hp z (List.mem_cons_of_mem _ hz))]
      have := hp y List.mem_cons_self
      cases y with
      | mk a pc => dsimp only at this; rw [this]; rfl

/-- Three posts: the first one times out; its answer comes when the second one waits, which does not take it; the third
one is not sent. -/
example : ([⟨⟨"10.0.0.2", 3610⟩, aRequest, 7, true, []⟩,
      ⟨⟨"10.0.0.2", 3610⟩, aRequest, 8, true, [aResponse 7 "10.0.0.2", aResponse 8 "10.0.0.2", aResponse 8 "10.0.0.3"]⟩,
      ⟨⟨"10.0.0.2", 3610⟩, aRequest, 9, false, [aResponse 9 "10.0.0.2"]⟩] : List PostStory).map (·.expected) =
    [.timeout, .ok (aResponse 8 "10.0.0.2"), .failed] := by decide +kernel

end Verif.Props
