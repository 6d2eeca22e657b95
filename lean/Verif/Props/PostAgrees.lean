import Verif.Model.Post
import Verif.Model.Handler
import Verif.Props.NodePost

/-!
# The models of posts agree

`Verif.Model.Handler` and `Verif.Model.NodePost` take a handler and a post as one step each; `Verif.Model.Post` takes
them apart. Run without interruption, both give the same.
-/

namespace Verif.Props
open Verif Model Transport

/-- Nine steps of a handler. -/
def handlerSteps (h : Nat) : List PostAct := List.replicate 9 (.handler h)

/-- A handler that has a message to hand over (local_node_msssage.go:142). -/
def offering : Option Nat → HandPc
  | some c => .sending c
  | none => .blocked

private theorem get_set (s : PostSt) (h : Nat) (x y : Handling) (hx : s.handlers[h]? = some x) :
    (s.setHandler h y).handlers[h]? = some y := by
  unfold PostSt.setHandler
  have : h < s.handlers.length := (List.getElem?_eq_some_iff.mp hx).1
  simp [this]

private theorem set_set (s : PostSt) (h : Nat) (x y : Handling) : (s.setHandler h x).setHandler h y = s.setHandler h y := by
  unfold PostSt.setHandler
  simp

private theorem step_at (s : PostSt) (h : Nat) (x : Handling) (hc : s.crashed = false) (hx : s.handlers[h]? = some x) :
    s.step (.handler h) = s.stepHandler h x := by
  unfold PostSt.step
  rw [if_neg (by rw [hc]; simp)]
  dsimp only
  rw [hx]

private theorem past_stays (k h : Nat) (x : Handling) (hp : x.pc = .past) : ∀ s : PostSt, s.crashed = false →
    s.handlers[h]? = some x → s.run (List.replicate k (.handler h)) = s := by
  induction k with
  | zero => intro s _ _; rfl
  | succ k ih =>
    intro s hc hx
    show (s.step (.handler h)).run _ = s
    have : s.step (.handler h) = s := by
      rw [step_at s h x hc hx]
      unfold PostSt.stepHandler
      rw [hp]
    rw [this]
    exact ih s hc hx

/-- A message that arrives while the fields of the node are not changed is handed over exactly when
`Node.isResponseMessage` says so for the request waiting; otherwise the handler goes on, and nothing else happens. -/
theorem handler_agrees (s : PostSt) (h : Nat) (m : Message) (n : Node) (hc : s.crashed = false)
    (hx : s.handlers[h]? = some ⟨m, .req1⟩) (hn : n.pending = s.reqMsg)
    (hw : ∀ i, s.req = some i → i < s.posters.length) (hch : s.req.isSome → s.ch.isSome) :
    s.run (handlerSteps h) = s.setHandler h ⟨m, if n.isResponseMessage m then
      offering s.ch else .past⟩ := by
  have go : ∀ (k : Nat) (pc pc' : HandPc), (s.setHandler h ⟨m, pc⟩).stepHandler h ⟨m, pc⟩ = s.setHandler h ⟨m, pc'⟩ →
      (s.setHandler h ⟨m, pc⟩).run (List.replicate (k + 1) (.handler h)) =
      (s.setHandler h ⟨m, pc'⟩).run (List.replicate k (.handler h)) := by
    intro k pc pc' e
    show ((s.setHandler h ⟨m, pc⟩).step (.handler h)).run _ = _
    rw [step_at (s.setHandler h ⟨m, pc⟩) h ⟨m, pc⟩ hc (get_set s h _ _ hx), e]
  have past : ∀ k, (s.setHandler h ⟨m, .past⟩).run (List.replicate k (.handler h)) = s.setHandler h ⟨m, .past⟩ :=
    fun k => past_stays k h ⟨m, .past⟩ rfl _ hc (get_set s h _ _ hx)
  have self : s = s.setHandler h ⟨m, .req1⟩ := by
    unfold PostSt.setHandler
    have e : s.handlers.set h ⟨m, .req1⟩ = s.handlers := by
      obtain ⟨hlt, he⟩ := List.getElem?_eq_some_iff.mp hx
      rw [← he]
      exact List.set_getElem_self hlt
    rw [e]
  have start : s.run (handlerSteps h) = (s.setHandler h ⟨m, .req1⟩).run (List.replicate 9 (.handler h)) := by
    rw [← self]; rfl
  rw [start]
  cases hr : s.req with
  | none =>
    have hp : n.pending = none := by rw [hn]; unfold PostSt.reqMsg; rw [hr]
    have : n.isResponseMessage m = false := by unfold Node.isResponseMessage; rw [hp]
    rw [this, go 8 .req1 .past, past]
    · rfl
    · show (s.setHandler h _).setHandler h ⟨m, if s.req = none then .past else .ch1⟩ = _
      rw [set_set, hr]; rfl
  | some i =>
    obtain ⟨c, hcc⟩ := Option.isSome_iff_exists.mp (hch (by rw [hr]; rfl))
    have hi := hw i hr
    have hreq : s.reqMsg = some (s.posters[i]).msg := by
      unfold PostSt.reqMsg
      rw [hr]
      simp [hi]
    generalize (s.posters[i]).msg = q at hreq
    have hp : n.pending = some q := hn.trans hreq
    have rm : ∀ x, (s.setHandler h x).reqMsg = some q := fun x => hreq
    rw [go 8 .req1 .ch1, go 7 .ch1 .req2, go 6 .req2 .ch2, go 5 .ch2 .equal]
    · by_cases heq : Message.equals (some m) (some q) = true
      · have : n.isResponseMessage m = false := by
          unfold Node.isResponseMessage; rw [hp]; dsimp only; rw [if_pos heq]
        rw [this, go 4 .equal .past, past]
        · rfl
        · show (s.setHandler h _).setHandler h ⟨m, if Message.equals (some m) (s.setHandler h _).reqMsg then .past else .tid⟩ = _
          rw [set_set, rm, if_pos heq]
      · rw [go 4 .equal .tid]
        · by_cases ht : m.getTID = q.getTID
          · have : n.isResponseMessage m = true := by
              unfold Node.isResponseMessage; rw [hp]; dsimp only; rw [if_neg heq, if_neg (not_not_intro ht)]
            rw [this, go 3 .tid .req3, go 2 .req3 .ch3, go 1 .ch3 .load, go 0 .load (.sending c), hcc]
            · rfl
            · unfold PostSt.stepHandler
              dsimp only
              have : (s.setHandler h ⟨m, .load⟩).ch = some c := hcc
              rw [this]
              dsimp only
              rw [set_set]
            · show (s.setHandler h _).setHandler h ⟨m, if s.ch = none then .past else .load⟩ = _
              rw [set_set, hcc]; rfl
            · show (s.setHandler h _).setHandler h ⟨m, if s.req = none then .past else .ch3⟩ = _
              rw [set_set, hr]; rfl
            · unfold PostSt.stepHandler
              dsimp only
              rw [rm]
              dsimp only
              rw [set_set, if_neg (not_not_intro ht)]
          · have : n.isResponseMessage m = false := by
              unfold Node.isResponseMessage; rw [hp]; dsimp only; rw [if_neg heq, if_pos ht]
            rw [this, go 3 .tid .past, past]
            · rfl
            · unfold PostSt.stepHandler
              dsimp only
              rw [rm]
              dsimp only
              rw [set_set, if_pos ht]
        · show (s.setHandler h _).setHandler h ⟨m, if Message.equals (some m) (s.setHandler h _).reqMsg then .past else .tid⟩ = _
          rw [set_set, rm, if_neg heq]
    · show (s.setHandler h _).setHandler h ⟨m, if s.ch = none then .past else .equal⟩ = _
      rw [set_set, hcc]; rfl
    · show (s.setHandler h _).setHandler h ⟨m, if s.req = none then .past else .ch2⟩ = _
      rw [set_set, hr]; rfl
    · show (s.setHandler h _).setHandler h ⟨m, if s.ch = none then .past else .req2⟩ = _
      rw [set_set, hcc]; rfl
    · show (s.setHandler h _).setHandler h ⟨m, if s.req = none then .past else .ch1⟩ = _
      rw [set_set, hr]; rfl

/-- The steps of a post without TCP that nothing interrupts, up to the select. -/
def postSteps (i : Nat) (running : Bool) (tid : GoUint) (ok : Bool) : List PostAct :=
  [.own i, .own i, .own i, .own i, .header i running tid, .own i, .send i ok]

/-- The last steps of a post. -/
def closeSteps (i : Nat) : List PostAct := [.own i, .own i, .own i, .own i]

private theorem step_own (s : PostSt) (i : Nat) (p : Poster) (hc : s.crashed = false) (hp : s.posters[i]? = some p) :
    s.step (.own i) = s.stepOwn i p := by
  unfold PostSt.step
  rw [if_neg (by rw [hc]; simp)]
  dsimp only
  rw [hp]

private theorem poster_set (s : PostSt) (i : Nat) (p q : Poster) (hp : s.posters[i]? = some p) :
    (s.setPoster i q).posters[i]? = some q := by
  unfold PostSt.setPoster
  have : i < s.posters.length := (List.getElem?_eq_some_iff.mp hp).1
  simp [this]

/-- A post without TCP that nothing interrupts, up to the select. -/
theorem posted (s : PostSt) (i : Nat) (dst : Addr) (m : Message) (tid : GoUint) (ok : Bool) (hc : s.crashed = false)
    (hf : s.mutex = none) (hp : s.posters[i]? = some ⟨dst, false, m, false, .start⟩) :
    s.run (postSteps i true tid ok) =
      { s.setPoster i ⟨dst, false, (m.setTID tid).setSEOJ nodeProfileObjectCode, false,
          if ok then .wait else .close .failed⟩ with
        mutex := some i, ch := some i, req := some i } := by
  obtain ⟨hlt, hp'⟩ := List.getElem?_eq_some_iff.mp hp
  cases ok <;>
    simp [postSteps, PostSt.run, PostSt.step, hc, hp', PostSt.stepOwn, PostSt.setPoster, hf, PostSt.stepHeader,
      PostSt.stepSend, hlt]

/-- For a running node the message sent is the one `Node.sendMessage` makes; the post waits if the transport has sent
it, otherwise it returns the error. -/
theorem post_agrees (s : PostSt) (i : Nat) (dst : Addr) (m : Message) (n : Node) (hb : Base n) (hr : n.running = true)
    (ok : Bool) (hc : s.crashed = false) (hf : s.mutex = none)
    (hp : s.posters[i]? = some ⟨dst, false, m, false, .start⟩) :
    ∃ m', (n.sendMessage m).2 = (some m', none) ∧
      s.run (postSteps i true n.nextTID.lastTID ok) =
        { s.setPoster i ⟨dst, false, m', false, if ok then .wait else .close .failed⟩ with
          mutex := some i, ch := some i, req := some i } :=
  ⟨_, by rw [sendMessage_running hb hr m]; rfl, posted s i dst m _ ok hc hf hp⟩

/-- A post that could not be sent ends. -/
theorem post_fails (s : PostSt) (i : Nat) (dst : Addr) (m : Message) (hc : s.crashed = false)
    (hp : s.posters[i]? = some ⟨dst, false, m, false, .close .failed⟩) (hch : s.ch = some i) (hcl : i ∉ s.closed) :
    s.run (closeSteps i) =
      { s.setPoster i ⟨dst, false, m, false, .done .failed⟩ with
        mutex := none, ch := none, req := none, closed := i :: s.closed } := by
  obtain ⟨hlt, hp'⟩ := List.getElem?_eq_some_iff.mp hp
  simp [closeSteps, PostSt.run, PostSt.step, hc, hp', PostSt.stepOwn, PostSt.setPoster, hch, hcl, hlt]

/-- From the select on: the post returns the message it receives, the timeout, or the error, and leaves the fields of
the node as in the beginning. -/
theorem post_returns (s : PostSt) (i h : Nat) (dst : Addr) (m a : Message) (hc : s.crashed = false)
    (hp : s.posters[i]? = some ⟨dst, false, m, false, .wait⟩) (hch : s.ch = some i) (hcl : i ∉ s.closed) :
    (s.handlers[h]? = some ⟨a, .sending i⟩ →
      s.run (.receive i h :: closeSteps i) =
        { (s.setPoster i ⟨dst, false, m, false, .done (.ok a)⟩).setHandler h ⟨a, .past⟩ with
          mutex := none, ch := none, req := none, closed := i :: s.closed }) ∧
    s.run (.timeout i :: closeSteps i) =
      { s.setPoster i ⟨dst, false, m, false, .done .timeout⟩ with
        mutex := none, ch := none, req := none, closed := i :: s.closed } := by
  obtain ⟨hlt, hp'⟩ := List.getElem?_eq_some_iff.mp hp
  constructor
  · intro hh
    obtain ⟨hlt', hh'⟩ := List.getElem?_eq_some_iff.mp hh
    simp [closeSteps, PostSt.run, PostSt.step, hc, hp', hh', hlt', PostSt.stepOwn, PostSt.setPoster, PostSt.setHandler,
      PostSt.stepReceive, hch, hcl, hlt]
  · simp [closeSteps, PostSt.run, PostSt.step, hc, hp', PostSt.stepOwn, PostSt.setPoster, hch, hcl, hlt]

end Verif.Props
