import Verif.Props.LiveWrite

/-!
# C166, C167: every message is handled to its end, and a request that is delivered is answered

Many messages are handled at the same time and the program makes calls meanwhile. None of this can keep the
handling of a message from coming to its end: it needs a number of steps of its own that depends on the number of
properties of the message and of the calls its callbacks make only. (A message that is handed to a waiting post may
wait for ever, see C69; `Verif.Model.Serve` is about the others.) And a post whose request and whose reply are
delivered while it waits returns the reply.
-/

namespace Verif.Props
open Verif Model Spec Lemmas

/-- A step of goroutine `i`. -/
def isTurn (i : Nat) : ServeAct → Bool
  | .step j => j == i
  | _ => false

/-! ## What is left to do -/

/-- Steps left after a callback; `B` calls are set aside for every further callback, `k` is the number of
properties of the message. -/
def leftAfter (B k : Nat) : AfterCall → Nat
  | .message _ => k * (2 * B + 4) + k + 3
  | .request _ _ ps _ => (B + 2) + ps.length * (2 * B + 4) + k + 3
  | .handler _ _ ps _ => ps.length * (2 * B + 4) + k + 3

/-- Steps left, but for the calls that a callback running still makes. -/
def leftAt (B k : Nat) : ServePc → Nat
  | .start => (B + 2) + k * (2 * B + 4) + k + 3 + k + 2
  | .check _ todo => (B + 2) + k * (2 * B + 4) + k + 3 + todo.length + 1
  | .listeners => (B + 2) + k * (2 * B + 4) + k + 3
  | .inside _ _ a => leftAfter B k a + 1
  | .request _ todo _ => todo.length * (2 * B + 4) + k + 3
  | .handler _ _ _ ps _ => (B + 2) + ps.length * (2 * B + 4) + k + 3
  | .respond => k + 2
  | .answer _ todo _ => todo.length + 1
  | .done _ _ => 0
  | .crashed => 0

/-- The calls that a callback running still makes. -/
def callsLeft : ServePc → Nat
  | .inside ops _ _ => ops.length
  | _ => 0

theorem impossible_done (h : Serving) : ∃ r, h.impossible = ⟨h.msg, h.calls, .done (some r) none⟩ := by
  unfold Serving.impossible
  rw [newImpossible_eq]
  exact ⟨_, rfl⟩

/-- A step either calls a callback, or is a call a callback makes, or leads on. -/
theorem step_left (B : Nat) (env : Env) (db : StdDB) (n : Node) (h : Serving)
    (hd : ∀ x e, h.pc ≠ .done x e) (hc : h.pc ≠ .crashed) :
    (h.step env db n).2.1.msg = h.msg ∧ (h.step env db n).2.1.pc ≠ .crashed ∧
    ((∃ x, callsLeft (h.step env db n).2.1.pc = (env.behave n h.calls x).1.length ∧
        leftAt B h.msg.requested.length (h.step env db n).2.1.pc + B + 1 ≤ leftAt B h.msg.requested.length h.pc) ∨
      (leftAt B h.msg.requested.length (h.step env db n).2.1.pc = leftAt B h.msg.requested.length h.pc ∧
        callsLeft (h.step env db n).2.1.pc + 1 = callsLeft h.pc) ∨
      (callsLeft (h.step env db n).2.1.pc = 0 ∧
        leftAt B h.msg.requested.length (h.step env db n).2.1.pc < leftAt B h.msg.requested.length h.pc)) := by
  obtain ⟨m, cs, pc⟩ := h
  have himp : ∀ p, ∃ r, (⟨m, cs, p⟩ : Serving).impossible = ⟨m, cs, .done (some r) none⟩ :=
    fun p => impossible_done _
  dsimp only at hd hc ⊢
  cases pc with
  | start =>
    simp only [Serving.step]
    obtain ⟨r, hr⟩ := himp .start
    split
    · exact ⟨rfl, (fun h => by cases h), .inr (.inr ⟨rfl, by simp [leftAt]⟩)⟩
    · split
      · rw [hr]; exact ⟨rfl, (fun h => by cases h), .inr (.inr ⟨rfl, by simp [leftAt]⟩)⟩
      · split
        · rw [hr]; exact ⟨rfl, (fun h => by cases h), .inr (.inr ⟨rfl, by simp [leftAt]⟩)⟩
        · split
          · exact ⟨rfl, (fun h => by cases h), .inr (.inr ⟨rfl, by simp [leftAt]⟩)⟩
          · exact ⟨rfl, (fun h => by cases h), .inr (.inr ⟨rfl, by simp only [leftAt]; omega⟩)⟩
  | check r todo =>
    obtain ⟨r', hr⟩ := himp (.check r todo)
    cases todo with
    | nil => exact ⟨rfl, (fun h => by cases h), .inr (.inr ⟨rfl, by simp [Serving.step, leftAt]⟩)⟩
    | cons p ps =>
      simp only [Serving.step]
      split
      · rw [hr]; exact ⟨rfl, (fun h => by cases h), .inr (.inr ⟨rfl, by simp [leftAt]⟩)⟩
      · split
        · exact ⟨rfl, (fun h => by cases h), .inr (.inr ⟨rfl, by simp only [leftAt, List.length_cons]; omega⟩)⟩
        · rw [hr]; exact ⟨rfl, (fun h => by cases h), .inr (.inr ⟨rfl, by simp [leftAt]⟩)⟩
  | listeners =>
    simp only [Serving.step]
    split
    · exact ⟨rfl, (fun h => by cases h), .inr (.inr ⟨rfl, by simp only [leftAt]; omega⟩)⟩
    · split
      · exact ⟨rfl, (fun h => by cases h), .inl ⟨_, rfl, by simp only [Serving.callback, leftAt, leftAfter]; omega⟩⟩
      · exact ⟨rfl, (fun h => by cases h), .inr (.inr ⟨rfl, by simp only [leftAt]; omega⟩)⟩
  | inside ops e a =>
    cases ops with
    | nil =>
      cases a <;> exact ⟨rfl, (fun h => by cases h), .inr (.inr ⟨rfl, by
        simp only [Serving.step, Serving.after, leftAt, leftAfter]; omega⟩)⟩
    | cons op ops => exact ⟨rfl, (fun h => by cases h), .inr (.inl ⟨rfl, rfl⟩)⟩
  | request r todo last =>
    cases todo with
    | nil =>
      cases last <;> exact ⟨rfl, (fun h => by cases h), .inr (.inr ⟨rfl, by
        simp only [Serving.step, leftAt]; omega⟩)⟩
    | cons p ps =>
      have hm : (ps.length + 1) * (2 * B + 4) = ps.length * (2 * B + 4) + (2 * B + 4) := Nat.succ_mul ..
      simp only [Serving.step]
      split
      · exact ⟨rfl, (fun h => by cases h), .inl ⟨_, rfl, by
          simp only [Serving.callback, leftAt, leftAfter, List.length_cons]; omega⟩⟩
      · exact ⟨rfl, (fun h => by cases h), .inr (.inr ⟨rfl, by simp only [leftAt, List.length_cons]; omega⟩)⟩
  | handler r p e1 ps last =>
    simp only [Serving.step]
    split
    · exact ⟨rfl, (fun h => by cases h), .inl ⟨_, rfl, by simp only [Serving.callback, leftAt, leftAfter]; omega⟩⟩
    · exact ⟨rfl, (fun h => by cases h), .inr (.inr ⟨rfl, by simp only [leftAt]; omega⟩)⟩
  | respond =>
    simp only [Serving.step]
    split
    · exact ⟨rfl, (fun h => by cases h), .inr (.inr ⟨rfl, by simp only [leftAt]; omega⟩)⟩
    · split
      · exact ⟨rfl, (fun h => by cases h), .inr (.inr ⟨rfl, by simp only [leftAt]; omega⟩)⟩
      · exact ⟨rfl, (fun h => by cases h), .inr (.inr ⟨rfl, by simp only [leftAt]; omega⟩)⟩
  | answer r todo res =>
    cases todo with
    | nil => exact ⟨rfl, (fun h => by cases h), .inr (.inr ⟨rfl, by simp [Serving.step, leftAt]⟩)⟩
    | cons p ps =>
      simp only [Serving.step]
      split <;> exact ⟨rfl, (fun h => by cases h), .inr (.inr ⟨rfl, by simp [leftAt]⟩)⟩
  | done x e => exact absurd rfl (hd x e)
  | crashed => exact absurd rfl hc

theorem left_done {B k : Nat} {pc : ServePc} (hc : pc ≠ .crashed) (h : leftAt B k pc = 0) :
    ∃ x e, pc = .done x e := by
  cases pc with
  | done x e => exact ⟨x, e, rfl⟩
  | crashed => exact absurd rfl hc
  | _ => simp only [leftAt] at h; omega

theorem done_left {B k : Nat} {pc : ServePc} (h : ∃ x e, pc = .done x e) : leftAt B k pc = 0 ∧ callsLeft pc = 0 := by
  obtain ⟨x, e, rfl⟩ := h
  exact ⟨rfl, rfl⟩

/-- One step of the node, seen from goroutine `i`. -/
theorem turn_cases (env : Env) (db : StdDB) (s : ServeSt) (a : ServeAct) (i : Nat) (h : Serving)
    (hi : s.serving[i]? = some h) :
    (isTurn i a = false ∧ (s.step env db a).serving[i]? = some h) ∨
    (isTurn i a = true ∧ (s.step env db a).serving[i]? = some (h.step env db s.node).2.1) := by
  have hlt : i < s.serving.length := (List.getElem?_eq_some_iff.mp hi).1
  cases a with
  | arrive m =>
    left
    refine ⟨rfl, ?_⟩
    show (s.serving ++ _)[i]? = _
    rw [List.getElem?_append_left hlt]
    exact hi
  | call op => exact .inl ⟨rfl, hi⟩
  | step j =>
    by_cases hj : j = i
    · subst hj
      right
      refine ⟨by simp [isTurn], ?_⟩
      simp only [ServeSt.step]
      rw [hi]
      dsimp only
      rw [List.getElem?_set_self hlt]
    · left
      refine ⟨by simp [isTurn, hj], ?_⟩
      simp only [ServeSt.step]
      cases s.serving[j]? with
      | none => exact hi
      | some g =>
        dsimp only
        rw [List.getElem?_set_ne hj]
        exact hi

/-- A step of its own brings a goroutine nearer to its end. -/
theorem turn_left {B : Nat} {env : Env} (hB : ∀ n cs x, (env.behave n cs x).1.length ≤ B) (db : StdDB) (n : Node)
    (h : Serving) (hc : h.pc ≠ .crashed) :
    (h.step env db n).2.1.msg = h.msg ∧ (h.step env db n).2.1.pc ≠ .crashed ∧
      leftAt B h.msg.requested.length (h.step env db n).2.1.pc + callsLeft (h.step env db n).2.1.pc ≤
        leftAt B h.msg.requested.length h.pc + callsLeft h.pc - 1 := by
  by_cases hd : ∃ x e, h.pc = .done x e
  · obtain ⟨x, e, hd⟩ := hd
    obtain ⟨m, cs, pc⟩ := h
    dsimp only at hd
    subst hd
    exact ⟨rfl, hc, Nat.le_refl _⟩
  · obtain ⟨h1, h2, h3⟩ := step_left B env db n h (fun x e hx => hd ⟨x, e, hx⟩) hc
    refine ⟨h1, h2, ?_⟩
    rcases h3 with ⟨x, h3, h4⟩ | ⟨h3, h4⟩ | ⟨h3, h4⟩
    · have := hB n h.calls x
      omega
    · omega
    · omega

/-- C166. However the steps of the goroutines of a node, the messages that arrive and the calls of the program are
interleaved, the handling of a message `m` is over, without a crash, when its goroutine has made
`B + 7 + p * (2 * B + 6)` steps of its own. `p` is the number of properties of the message, and no callback makes more
than `B` calls of the node. -/
theorem C166_ends (env : Env) (db : StdDB) (B : Nat) (hB : ∀ n cs x, (env.behave n cs x).1.length ≤ B)
    (s : ServeSt) (m : Message) (acts : List ServeAct)
    (h : B + 7 + (properties m).length * (2 * B + 6) ≤ (acts.filter (isTurn s.serving.length)).length) :
    ∃ cs reply e, (s.run env db (.arrive m :: acts)).serving[s.serving.length]? = some ⟨m, cs, .done reply e⟩ := by
  have key : ∀ (acts : List ServeAct) (s : ServeSt) (i : Nat) (h : Serving), s.serving[i]? = some h →
      h.pc ≠ .crashed → ∃ h', (s.run env db acts).serving[i]? = some h' ∧ h'.msg = h.msg ∧ h'.pc ≠ .crashed ∧
        leftAt B h.msg.requested.length h'.pc + callsLeft h'.pc ≤
          leftAt B h.msg.requested.length h.pc + callsLeft h.pc - (acts.filter (isTurn i)).length := by
    intro acts
    induction acts with
    | nil => exact fun s i h hi hc => ⟨h, hi, rfl, hc, by simp⟩
    | cons a acts ih =>
      intro s i h hi hc
      rcases turn_cases env db s a i h hi with ⟨h1, h2⟩ | ⟨h1, h2⟩
      · obtain ⟨h', g1, g2, g3, g4⟩ := ih _ i h h2 hc
        refine ⟨h', g1, g2, g3, ?_⟩
        rw [List.filter_cons, h1]
        exact g4
      · obtain ⟨k1, k2, k3⟩ := turn_left hB db s.node h hc
        obtain ⟨h', g1, g2, g3, g4⟩ := ih _ i _ h2 k2
        refine ⟨h', g1, g2.trans k1, g3, ?_⟩
        rw [k1] at g4
        rw [List.filter_cons, h1, if_pos rfl, List.length_cons]
        omega
  have h0 : (s.step env db (.arrive m)).serving[s.serving.length]? = some ⟨m, [], .start⟩ := by
    show (s.serving ++ _)[_]? = _
    rw [List.getElem?_append_right (Nat.le_refl _), Nat.sub_self]
    rfl
  obtain ⟨⟨m', cs, pc⟩, g1, g2, g3, g4⟩ := key acts _ _ _ h0 (fun h => by cases h)
  dsimp only at g2 g3 g4
  subst g2
  rw [requested_eq] at g4
  have hz : leftAt B (properties m').length pc = 0 := by
    rw [show leftAt B (properties m').length .start = (B + 2) + (properties m').length * (2 * B + 4) +
      (properties m').length + 3 + (properties m').length + 2 from rfl, show callsLeft .start = 0 from rfl] at g4
    have e1 : (properties m').length * (2 * B + 6) = (properties m').length * (2 * B + 4) +
        2 * (properties m').length := by
      rw [show 2 * B + 6 = (2 * B + 4) + 2 from rfl, Nat.mul_add, Nat.mul_comm _ 2]
    omega
  obtain ⟨x, e, rfl⟩ := left_done g3 hz
  exact ⟨cs, x, e, g1⟩

/-- C166, for callbacks that make any number of calls. If a goroutine makes its steps again and again, whatever else
happens in between, then from some moment on the handling of its message is over. -/
theorem C166_fair (env : Env) (db : StdDB) (s : ServeSt) (m : Message) (f : Nat → ServeAct)
    (hf : ∀ u, ∃ v, u ≤ v ∧ f v = .step s.serving.length) :
    ∃ t cs reply e, ∀ u, t ≤ u → (s.run env db (.arrive m :: (List.range u).map f)).serving[s.serving.length]?
      = some ⟨m, cs, .done reply e⟩ := by
  generalize hi : s.serving.length = i at hf
  have first : ∀ u, s.run env db (.arrive m :: (List.range (u + 1)).map f) =
      (s.run env db (.arrive m :: (List.range u).map f)).step env db (f u) := by
    intro u
    unfold ServeSt.run
    rw [List.range_succ, List.map_append, ← List.cons_append, List.foldl_append]
    rfl
  generalize hσ : (fun u => s.run env db (.arrive m :: (List.range u).map f)) = σ at first
  have succ : ∀ u, σ (u + 1) = (σ u).step env db (f u) := by
    intro u; rw [← hσ]; exact first u
  have start : (σ 0).serving[i]? = some ⟨m, [], .start⟩ := by
    rw [← hσ]
    show (s.serving ++ _)[_]? = _
    rw [← hi, List.getElem?_append_right (Nat.le_refl _), Nat.sub_self]
    rfl
  -- it stays where it is until its next step
  have wait : ∀ (d u : Nat) (h : Serving), (σ u).serving[i]? = some h → f (u + d) = .step i →
      ∃ v, (σ v).serving[i]? = some h ∧ f v = .step i := by
    intro d
    induction d with
    | zero => exact fun u h h1 h2 => ⟨u, h1, h2⟩
    | succ d ih =>
      intro u h h1 h2
      rcases turn_cases env db (σ u) (f u) i h h1 with ⟨h3, h4⟩ | ⟨h3, h4⟩
      · rw [← succ] at h4
        exact ih (u + 1) h h4 (by rw [show u + 1 + d = u + (d + 1) by omega]; exact h2)
      · refine ⟨u, h1, ?_⟩
        cases hu : f u with
        | step j => rw [hu] at h3; simp only [isTurn, beq_iff_eq] at h3; rw [h3]
        | arrive m => rw [hu] at h3; cases h3
        | call op => rw [hu] at h3; cases h3
  -- it comes to its end
  have ends : ∀ (a b u : Nat) (h : Serving), (σ u).serving[i]? = some h → h.msg = m → h.pc ≠ .crashed →
      leftAt 0 m.requested.length h.pc ≤ a → callsLeft h.pc ≤ b →
      ∃ v h', (σ v).serving[i]? = some h' ∧ h'.msg = m ∧ ∃ x e, h'.pc = .done x e := by
    intro a
    induction a with
    | zero =>
      intro b u h h1 h2 h3 h4 h5
      exact ⟨u, h, h1, h2, left_done h3 (Nat.le_zero.mp h4)⟩
    | succ a iha =>
      intro b
      induction b with
      | zero =>
        intro u h h1 h2 h3 h4 h5
        by_cases hd : ∃ x e, h.pc = .done x e
        · exact ⟨u, h, h1, h2, hd⟩
        obtain ⟨w, w1, w2⟩ := hf u
        obtain ⟨v, v1, v2⟩ := wait (w - u) u h h1 (by rw [show u + (w - u) = w by omega]; exact w2)
        obtain ⟨k1, k2, k3⟩ := step_left 0 env db (σ v).node h (fun x e hx => hd ⟨x, e, hx⟩) h3
        rcases turn_cases env db (σ v) (f v) i h v1 with ⟨g1, -⟩ | ⟨-, g2⟩
        · rw [v2] at g1; simp [isTurn] at g1
        · rw [← succ] at g2
          rw [h2] at k1 k3
          rcases k3 with ⟨x, k3, k4⟩ | ⟨k3, k4⟩ | ⟨k3, k4⟩
          · exact iha _ (v + 1) _ g2 k1 k2 (by omega) (Nat.le_refl _)
          · omega
          · exact iha _ (v + 1) _ g2 k1 k2 (by omega) (Nat.le_refl _)
      | succ b ihb =>
        intro u h h1 h2 h3 h4 h5
        by_cases hd : ∃ x e, h.pc = .done x e
        · exact ⟨u, h, h1, h2, hd⟩
        obtain ⟨w, w1, w2⟩ := hf u
        obtain ⟨v, v1, v2⟩ := wait (w - u) u h h1 (by rw [show u + (w - u) = w by omega]; exact w2)
        obtain ⟨k1, k2, k3⟩ := step_left 0 env db (σ v).node h (fun x e hx => hd ⟨x, e, hx⟩) h3
        rcases turn_cases env db (σ v) (f v) i h v1 with ⟨g1, -⟩ | ⟨-, g2⟩
        · rw [v2] at g1; simp [isTurn] at g1
        · rw [← succ] at g2
          rw [h2] at k1 k3
          rcases k3 with ⟨x, k3, k4⟩ | ⟨k3, k4⟩ | ⟨k3, k4⟩
          · exact iha _ (v + 1) _ g2 k1 k2 (by omega) (Nat.le_refl _)
          · exact ihb (v + 1) _ g2 k1 k2 (by omega) (by omega)
          · exact iha _ (v + 1) _ g2 k1 k2 (by omega) (Nat.le_refl _)
  obtain ⟨t, ⟨m', cs, pc⟩, t1, t2, x, e, t3⟩ := ends _ _ 0 _ start rfl (fun h => by cases h) (Nat.le_refl _)
    (Nat.le_refl _)
  dsimp only at t2 t3
  subst t2 t3
  refine ⟨t, cs, x, e, fun u hu => ?_⟩
  have : (σ u).serving[i]? = some ⟨m', cs, .done x e⟩ := by
    induction u with
    | zero => rw [← Nat.le_zero.mp hu]; exact t1
    | succ u ih =>
      by_cases he : t = u + 1
      · rw [← he]; exact t1
      · have := ih (by omega)
        rw [succ]
        rcases turn_cases env db (σ u) (f u) i _ this with ⟨-, h4⟩ | ⟨-, h4⟩
        · exact h4
        · exact h4
  rw [← hσ] at this
  exact this

theorem keepingEnv_calls (n : Node) (cs : List Call) (x : Call) :
    (keepingEnv.behave n cs x).1.length ≤ 1 ∧ (keepingEnv.behave n cs x).2 = none := by
  cases x with
  | message m => exact ⟨Nat.zero_le _, rfl⟩
  | handler r e p => exact ⟨Nat.zero_le _, rfl⟩
  | request r e p =>
    show (if e = 0x61 then _ else _ : List NodeOp × Option Err).1.length ≤ 1 ∧
      (if e = 0x61 then _ else _ : List NodeOp × Option Err).2 = none
    split <;> exact ⟨by simp, rfl⟩

/-- The hypotheses of the first theorem are met: a write of two properties is handled while another message is,
interleaved with it and with calls of the program, which write one of the properties. -/
example :
    let w := request 0x61 [⟨0x80, [0x31]⟩, ⟨0xB0, [0x42]⟩]
    let s := (ServeSt.init pairNode).run keepingEnv stdDB [.arrive w, .step 0, .step 0]
    let acts := (List.replicate 24 [.step 1, .call (.obj (.device 0) (.write 0x80 [0x32])), .step 0]).flatten
    1 + 7 + (properties w).length * (2 * 1 + 6) ≤ (acts.filter (isTurn s.serving.length)).length ∧
    ∃ cs reply e, (s.run keepingEnv stdDB (.arrive w :: acts)).serving[s.serving.length]? =
      some ⟨w, cs, .done reply e⟩ :=
  ⟨by decide +kernel, C166_ends keepingEnv stdDB 1 (fun n cs x => (keepingEnv_calls n cs x).1) _ _ _
    (by decide +kernel)⟩

/-- The hypotheses of the second theorem are met: the program writes a property again and again. -/
example : ∃ t cs reply e, ∀ u, t ≤ u → ((ServeSt.init pairNode).run keepingEnv stdDB
    (.arrive (request 0x61 [⟨0x80, [0x31]⟩]) :: (List.range u).map (fun v =>
      if v % 2 = 0 then .call (.obj (.device 0) (.write 0x80 [0x32])) else .step 0))).serving[0]? =
        some ⟨request 0x61 [⟨0x80, [0x31]⟩], cs, .done reply e⟩ :=
  C166_fair keepingEnv stdDB (ServeSt.init pairNode) (request 0x61 [⟨0x80, [0x31]⟩]) _
    (fun u => ⟨2 * u + 1, by omega, by
      show (if (2 * u + 1) % 2 = 0 then _ else _) = _
      rw [if_neg (by omega)]; rfl⟩)

/-! ## A request that is delivered is answered -/

/-- A step of goroutine `g` of the node asked. -/
def isGo (g : Nat) : LiveAct → Bool
  | .step j => j == g
  | _ => false

/-- One step, seen from goroutine `g` for a request of the posting node. -/
theorem live_turn (L : Link) (s : LiveNet) (a : LiveAct) (g : Nat) (h : Serving) (hi : s.serving[g]? = some h)
    (hk : s.asked[g]? = some true) :
    (s.step L a).asked[g]? = some true ∧ (∃ more, (s.step L a).net.replies = s.net.replies ++ more) ∧
    ((isGo g a = false ∧ (s.step L a).serving[g]? = some h) ∨
      (isGo g a = true ∧ (s.step L a).serving[g]? = some (h.step L.env L.db s.net.server).2.1 ∧
        (s.step L a).net.replies = s.net.replies ++ LiveNet.written h (h.step L.env L.db s.net.server).2.1)) := by
  have hlt : g < s.serving.length := (List.getElem?_eq_some_iff.mp hi).1
  have hlt' : g < s.asked.length := (List.getElem?_eq_some_iff.mp hk).1
  refine ⟨?_, ?_, ?_⟩
  · cases a with
    | arrive k =>
      simp only [LiveNet.step]
      split
      · exact hk
      · split
        · exact hk
        · show (s.asked ++ _)[g]? = _
          rw [List.getElem?_append_left hlt']; exact hk
    | message m =>
      show (s.asked ++ _)[g]? = _
      rw [List.getElem?_append_left hlt']; exact hk
    | step j =>
      simp only [LiveNet.step, LiveNet.go]
      cases s.serving[j]? <;> exact hk
    | _ => exact hk
  · rcases (livenet_cases L s a).2.2.2.1 with h | ⟨i, m, cs, r, -, -, -, h⟩
    · exact ⟨[], by rw [h, List.append_nil]⟩
    · exact ⟨_, h⟩
  · have hsv := congrArg ServeSt.serving (live_served L s a)
    have keep : ∀ x, asServed L s a = some x → isTurn g x = false → isGo g a = false →
        isGo g a = false ∧ (s.step L a).serving[g]? = some h := by
      intro x hx h1 h2
      rw [hx] at hsv
      refine ⟨h2, ?_⟩
      rcases turn_cases L.env L.db ⟨s.net.server, s.serving, s.sent⟩ x g h hi with ⟨-, h3⟩ | ⟨h3, -⟩
      · dsimp only at hsv
        rw [hsv]
        exact h3
      · rw [h1] at h3; cases h3
    have same : asServed L s a = none → isGo g a = false → isGo g a = false ∧ (s.step L a).serving[g]? = some h := by
      intro hx h2
      rw [hx] at hsv
      dsimp only at hsv
      exact ⟨h2, by rw [hsv]; exact hi⟩
    cases a with
    | arrive k =>
      left
      cases hx : asServed L s (.arrive k) with
      | none => exact same hx rfl
      | some x =>
        refine keep x hx ?_ rfl
        simp only [asServed, Option.map_eq_some_iff] at hx
        obtain ⟨m, -, rfl⟩ := hx
        rfl
    | message m => exact .inl (keep _ rfl rfl rfl)
    | call op => exact .inl (keep _ rfl rfl rfl)
    | step j =>
      by_cases hj : j = g
      · subst hj
        right
        refine ⟨by simp [isGo], ?_, ?_⟩
        · simp only [LiveNet.step, LiveNet.go]
          rw [hi]
          dsimp only
          rw [List.getElem?_set_self hlt]
        · simp only [LiveNet.step, LiveNet.go]
          rw [hi]
          dsimp only
          rw [if_pos hk]
      · exact .inl (keep _ rfl (by simp [isTurn, hj]) (by simp [isGo, hj]))
    | post o e ps => exact .inl (same rfl rfl)
    | other => exact .inl (same rfl rfl)
    | deliver k => exact .inl (same rfl rfl)
    | timeout => exact .inl (same rfl rfl)

/-- No callback has returned an error, and there is a reply at the end. -/
def Hopeful : ServePc → Prop
  | .inside _ e k => e = none ∧ StillAfter k
  | .request _ _ last => last = none
  | .handler _ _ e1 _ last => e1 = none ∧ last = none
  | .done reply e => (∃ r, reply = some r) ∧ e = none
  | .crashed => False
  | _ => True

/-- The object has not been looked up yet, or need not be any more. -/
def atEnds : ServePc → Prop
  | .start => True
  | .done _ _ => True
  | _ => False

theorem hopeful_step {env : Env} (he : ∀ n cs x, (env.behave n cs x).2 = none) (db : StdDB) (n : Node) (h : Serving)
    (hr : h.msg.esv.isResponseRequired = true) (hself : n.selfMsg = true ∨ n.isSelfMessage h.msg = false)
    (hobj : ¬ atEnds h.pc → (n.lookupObject h.msg.getDEOJ).isSome) (hh : Hopeful h.pc) :
    Hopeful (h.step env db n).2.1.pc ∧
      (atEnds (h.step env db n).2.1.pc ∨ (n.lookupObject h.msg.getDEOJ).isSome) := by
  obtain ⟨m, cs, pc⟩ := h
  have himp : ∀ p, ∃ r, (⟨m, cs, p⟩ : Serving).impossible = ⟨m, cs, .done (some r) none⟩ :=
    fun p => impossible_done _
  dsimp only at hr hself hobj hh ⊢
  cases pc with
  | start =>
    simp only [Serving.step]
    obtain ⟨r, hi⟩ := himp .start
    rw [if_neg (by rcases hself with e | e <;> simp [e])]
    split
    · rw [hi]; exact ⟨⟨⟨_, rfl⟩, rfl⟩, .inl trivial⟩
    · next r' hl =>
      rw [hl]
      split
      · rw [hi]; exact ⟨⟨⟨_, rfl⟩, rfl⟩, .inl trivial⟩
      · split <;> exact ⟨trivial, .inr rfl⟩
  | check r todo =>
    obtain ⟨r', hi⟩ := himp (.check r todo)
    have ho := hobj (fun x => x)
    cases todo with
    | nil => exact ⟨trivial, .inr ho⟩
    | cons p ps =>
      simp only [Serving.step]
      split
      · rw [hi]; exact ⟨⟨⟨_, rfl⟩, rfl⟩, .inl trivial⟩
      · split
        · exact ⟨trivial, .inr ho⟩
        · rw [hi]; exact ⟨⟨⟨_, rfl⟩, rfl⟩, .inl trivial⟩
  | listeners =>
    have ho := hobj (fun x => x)
    refine ⟨?_, .inr ho⟩
    obtain ⟨r, hl⟩ := Option.isSome_iff_exists.mp ho
    simp only [Serving.step]
    rw [hl]
    dsimp only
    split
    · exact ⟨he _ _ _, trivial⟩
    · exact rfl
  | inside ops e a =>
    have ho := hobj (fun x => x)
    refine ⟨?_, .inr ho⟩
    obtain ⟨rfl, ha⟩ := hh
    cases ops with
    | nil =>
      cases a with
      | message r => exact rfl
      | request r p ps last => exact ⟨rfl, ha⟩
      | handler r e1 ps last => obtain ⟨rfl, rfl⟩ := ha; exact rfl
    | cons op ops => exact ⟨rfl, ha⟩
  | request r todo last =>
    have ho := hobj (fun x => x)
    refine ⟨?_, .inr ho⟩
    have hh : last = none := hh
    subst hh
    cases todo with
    | nil => exact trivial
    | cons p ps =>
      simp only [Serving.step]
      split
      · exact ⟨he _ _ _, rfl⟩
      · exact ⟨rfl, rfl⟩
  | handler r p e1 ps last =>
    have ho := hobj (fun x => x)
    refine ⟨?_, .inr ho⟩
    obtain ⟨rfl, rfl⟩ := hh
    simp only [Serving.step]
    split
    · exact ⟨he _ _ _, rfl, rfl⟩
    · exact rfl
  | respond =>
    have ho := hobj (fun x => x)
    refine ⟨?_, .inr ho⟩
    obtain ⟨r, hl⟩ := Option.isSome_iff_exists.mp ho
    simp only [Serving.step]
    rw [hr, hl]
    exact trivial
  | answer r todo res =>
    have ho := hobj (fun x => x)
    refine ⟨?_, .inr ho⟩
    cases todo with
    | nil => exact ⟨⟨_, rfl⟩, rfl⟩
    | cons p ps =>
      simp only [Serving.step]
      split <;> exact trivial
  | done x e => exact ⟨hh, .inl trivial⟩
  | crashed => exact hh.elim

theorem hopeful_crashed {pc : ServePc} (h : Hopeful pc) : pc ≠ .crashed := by
  rintro rfl
  exact h

/-- The service of the request a post sends. -/
theorem issued_esv {s : Net} {objCode : ObjectCode} {esv : ESV} {ps : List EProp} {q : Message}
    (h : Issued s objCode esv ps q) : q.esv = esv := by
  have h2 := h.2
  obtain ⟨-, -, b1, -⟩ := C88_options [.deoj objCode, .esv esv, .props ps]
  unfold Node.sendRequest Node.sendMessage requestOf at h2
  split at h2
  · cases h2
  · dsimp only at h2
    split at h2
    · cases h2
    · split at h2
      · cases h2
      · have e := Option.some.inj h2
        rw [← e]
        exact b1

/-- C167. A post made at step `i`, with a service that requires a response, sent the request `q`. It arrives at step
`a` at the node asked, where goroutine `g` handles it. If the post still waits at step `t`, by when the goroutine
made `B + 7 + p * (2 * B + 6)` steps of its own, whatever else happened meanwhile, then the goroutine has sent a
reply, and whenever this arrives the post returns it. Callbacks make at most `B` calls each and return no error, the
object does not go away, and the node asked does not take the message for one of its own. -/
theorem C167_answered (L : Link) (c n : Node) (acts : List LiveAct) (hc : c.lastTID.toNat ≤ 65535)
    (B : Nat) (hB : ∀ n cs x, (L.env.behave n cs x).1.length ≤ B) (he : ∀ n cs x, (L.env.behave n cs x).2 = none)
    (i a t j : Nat) (objCode : ObjectCode) (esv : ESV) (ps : List EProp) (q m : Message)
    (hq : Issued (liveAt L c n acts i).net objCode esv ps q)
    (hesv : esv = 0x61 ∨ esv = 0x62 ∨ esv = 0x63 ∨ esv = 0x6E ∨ esv = 0x74)
    (ha : acts[a]? = some (.arrive j)) (hj : (liveAt L c n acts a).net.requests[j]? = some q.bytes)
    (hm : arriving L.toIf L.from_ q.bytes = some m)
    (hat : a < t) (hw : (liveAt L c n acts t).net.waiting = some q)
    (hobj : ∀ u v r o, a < u → u ≤ v → v < t → Addressed (liveAt L c n acts u).net.server m.getDEOJ r o →
      ∃ r o, Addressed (liveAt L c n acts v).net.server m.getDEOJ r o)
    (hself : ∀ u, a < u → u < t → (liveAt L c n acts u).net.server.selfMsg = true ∨
      (liveAt L c n acts u).net.server.addr ≠ L.from_)
    (hturn : B + 7 + (properties m).length * (2 * B + 6) ≤
      (((acts.take t).drop (a + 1)).filter (isGo (liveAt L c n acts a).serving.length)).length) :
    ∃ cs r, (liveAt L c n acts t).serving[(liveAt L c n acts a).serving.length]? =
        some ⟨m, cs, .done (some r) none⟩ ∧
      r.bytes ∈ (liveAt L c n acts t).net.replies ∧ r.getTID = q.getTID ∧
      ∀ k res, (liveAt L c n acts t).net.replies[k]? = some r.bytes → arriving L.fromIf L.to_ r.bytes = some res →
        ((liveAt L c n acts t).step L (.deliver k)).net.returned = (liveAt L c n acts t).net.returned ++ [res] ∧
        ((liveAt L c n acts t).step L (.deliver k)).net.waiting = none := by
  generalize hg : (liveAt L c n acts a).serving.length = g at hturn
  obtain ⟨bq, -⟩ := issued_built hq (by have := (live_idCount_spec L c n acts hc i).1; omega)
  obtain ⟨bm, m1, m2, m3⟩ := arriving_header bq hm
  have hresp : m.esv.isResponseRequired = true := by
    rw [m2, issued_esv hq]
    rcases hesv with rfl | rfl | rfl | rfl | rfl <;> rfl
  have hself' : ∀ u, a < u → u < t → (liveAt L c n acts u).net.server.selfMsg = true ∨
      (liveAt L c n acts u).net.server.isSelfMessage m = false := by
    intro u u1 u2
    rcases hself u u1 u2 with h | h
    · exact .inl h
    · right
      unfold Node.isSelfMessage
      rw [m3]
      split
      · rfl
      · next e1 =>
        split
        · rfl
        · next e2 =>
          exfalso
          apply h
          have e1 := Classical.not_not.mp e1
          have e2 := Classical.not_not.mp e2
          cases hx : (liveAt L c n acts u).net.server.addr with
          | mk x y =>
            cases hy : L.from_ with
            | mk x' y' =>
              rw [hx, hy] at e1 e2
              dsimp only at e1 e2
              rw [e1, e2]
  have look : ∀ u, ((liveAt L c n acts u).net.server.lookupObject m.getDEOJ).isSome ↔
      ∃ r o, Addressed (liveAt L c n acts u).net.server m.getDEOJ r o := by
    intro u
    constructor
    · intro h
      obtain ⟨r, h⟩ := Option.isSome_iff_exists.mp h
      obtain ⟨o, h, -⟩ := lookupObject_some h
      exact ⟨r, o, h⟩
    · rintro ⟨r, o, h⟩
      cases hx : (liveAt L c n acts u).net.server.lookupObject m.getDEOJ with
      | none => exact absurd h (lookupObject_none hx r o)
      | some x => rfl
  have total : leftAt B m.requested.length .start = B + 7 + (properties m).length * (2 * B + 6) := by
    rw [requested_eq]
    simp only [leftAt]
    have e1 : (properties m).length * (2 * B + 6) = (properties m).length * (2 * B + 4) +
        2 * (properties m).length := by
      rw [show 2 * B + 6 = (2 * B + 4) + 2 from rfl, Nat.mul_add, Nat.mul_comm _ 2]
    omega
  have inv : ∀ d, a + 1 + d ≤ t → ∃ h, (liveAt L c n acts (a + 1 + d)).serving[g]? = some h ∧ h.msg = m ∧
      Hopeful h.pc ∧
      (¬ atEnds h.pc → ∃ u r o, a < u ∧ u < a + 1 + d ∧ Addressed (liveAt L c n acts u).net.server m.getDEOJ r o) ∧
      (liveAt L c n acts (a + 1 + d)).asked[g]? = some true ∧
      (∀ r, h.pc = .done (some r) none → r.bytes ∈ (liveAt L c n acts (a + 1 + d)).net.replies) ∧
      leftAt B m.requested.length h.pc + callsLeft h.pc ≤ B + 7 + (properties m).length * (2 * B + 6) -
        (((acts.take (a + 1 + d)).drop (a + 1)).filter (isGo g)).length := by
    intro d
    induction d with
    | zero =>
      intro _
      have hs : liveAt L c n acts (a + 1) = (liveAt L c n acts a).start m true := by
        rw [liveAt_succ L c n acts a _ ha]
        simp only [LiveNet.step]
        rw [hj]
        dsimp only
        rw [hm]
      rw [Nat.add_zero, hs]
      refine ⟨⟨m, [], .start⟩, ?_, rfl, trivial, fun h => (h trivial).elim, ?_, fun r h => (by cases h), ?_⟩
      · show ((liveAt L c n acts a).serving ++ _)[g]? = _
        rw [← hg, List.getElem?_append_right (Nat.le_refl _), Nat.sub_self]
        rfl
      · show ((liveAt L c n acts a).asked ++ _)[g]? = _
        rw [← hg, ← (asked_origin L c n acts a).1, List.getElem?_append_right (Nat.le_refl _), Nat.sub_self]
        rfl
      · dsimp only
        rw [total]
        have : (acts.take (a + 1)).drop (a + 1) = [] := by
          apply List.drop_eq_nil_of_le
          rw [List.length_take]; omega
        rw [this]
        simp [callsLeft]
    | succ d ih =>
      intro hd
      obtain ⟨h, g1, g2, g3, g4, g5, g6, g7⟩ := ih (by omega)
      generalize hu : a + 1 + d = u at *
      rw [show a + 1 + (d + 1) = u + 1 by omega]
      cases hx : acts[u]? with
      | none =>
        rw [show liveAt L c n acts (u + 1) = liveAt L c n acts u from liveAt_end L c n acts u hx]
        have : acts.take (u + 1) = acts.take u := by
          rw [List.take_add_one, hx]; simp
        rw [this]
        refine ⟨h, g1, g2, g3, fun x => ?_, g5, g6, g7⟩
        obtain ⟨w, r, o, w1, w2, w3⟩ := g4 x
        exact ⟨w, r, o, w1, by omega, w3⟩
      | some x =>
        obtain ⟨k1, ⟨more, k2⟩, k3⟩ := live_turn L (liveAt L c n acts u) x g h g1 g5
        rw [← liveAt_succ L c n acts u x hx] at k1 k2 k3
        have hcount : (((acts.take (u + 1)).drop (a + 1)).filter (isGo g)).length =
            (((acts.take u).drop (a + 1)).filter (isGo g)).length + ([x].filter (isGo g)).length := by
          have hlen : u < acts.length := (List.getElem?_eq_some_iff.mp hx).1
          rw [List.take_add_one, hx, Option.toList_some, List.drop_append_of_le_length (by
            rw [List.length_take]; omega), List.filter_append, List.length_append]
        rw [hcount]
        rcases k3 with ⟨k3, k4⟩ | ⟨k3, k4, k5⟩
        · refine ⟨h, k4, g2, g3, fun x => ?_, k1, fun r hr => ?_, ?_⟩
          · obtain ⟨w, r, o, w1, w2, w3⟩ := g4 x
            exact ⟨w, r, o, w1, by omega, w3⟩
          · rw [k2]; exact List.mem_append.mpr (.inl (g6 r hr))
          · rw [List.filter_cons, k3]; simpa using g7
        · have hop := hopeful_step he L.db (liveAt L c n acts u).net.server h (by rw [g2]; exact hresp)
            (by rw [g2]; exact hself' u (by omega) (by omega)) (fun x => by
              obtain ⟨w, r, o, w1, w2, w3⟩ := g4 x
              rw [g2]
              exact (look u).mpr (hobj w u r o w1 (by omega) (by omega) w3)) g3
          obtain ⟨l1, l2, l3⟩ := turn_left hB L.db (liveAt L c n acts u).net.server h (hopeful_crashed g3)
          rw [g2] at l1 l3 hop
          refine ⟨_, k4, l1, hop.1, fun x => ?_, k1, fun r hr => ?_, ?_⟩
          · rcases hop.2 with y | y
            · exact absurd y x
            · obtain ⟨r, o, y⟩ := (look u).mp y
              exact ⟨u, r, o, by omega, by omega, y⟩
          · rcases written_new (h := h) hr with y | ⟨z, e, y⟩
            · rw [k5, y]; simp
            · rw [k2]
              refine List.mem_append.mpr (.inl (g6 r ?_))
              obtain ⟨hm', hc', hp'⟩ := h
              dsimp only at y
              subst y
              exact hr
          · rw [List.filter_cons, k3, if_pos rfl]
            simp only [List.filter_nil, List.length_cons, List.length_nil]
            omega
  obtain ⟨⟨m', cs, pc⟩, g1, g2, g3, -, -, g6, g7⟩ := inv (t - (a + 1)) (by omega)
  rw [show a + 1 + (t - (a + 1)) = t by omega] at g1 g6 g7
  dsimp only at g2 g3 g6 g7
  subst g2
  obtain ⟨x, e, rfl⟩ := left_done (B := B) (k := m'.requested.length) (hopeful_crashed g3) (by omega)
  obtain ⟨⟨r, rfl⟩, rfl⟩ := g3
  have hr : Built r ∧ r.getTID = m'.getTID ∧ (r.esv = specRefusal m'.esv ∨ r.esv = specReply m'.esv) := by
    obtain ⟨a', b1, b2, b3, b4⟩ := told_all (servedAt_follows L c n acts) t g _ g1
    dsimp only at b4
    rcases b4 with ⟨y, -⟩ | ⟨r', t0, ts, y⟩
    · obtain ⟨z, z1, z2, -, -, z3, -⟩ := C16_header_partial m' bm
      rw [y] at z1
      cases z1
      exact ⟨.impossible bm y, z2, .inl z3⟩
    · obtain ⟨y1, y2, -, -, y3, -⟩ := y.reply bm
      exact ⟨y1, y2, .inr y3⟩
  refine ⟨cs, r, g1, g6 r rfl, hr.2.1.trans m1, fun k res hk hres => ?_⟩
  obtain ⟨bres, r1, r2, -⟩ := arriving_header hr.1 hres
  have hne : res.esv ≠ q.esv := by
    rw [r2]
    have hq' := issued_esv hq
    rw [m2, hq'] at hr
    rw [hq']
    rcases hr.2.2 with y | y <;> rw [y] <;> rcases hesv with rfl | rfl | rfl | rfl | rfl <;> decide
  have htaken : Node.isResponseMessage { (liveAt L c n acts t).net.client with pending := some q } res = true := by
    unfold Node.isResponseMessage
    dsimp only
    rw [if_neg (by
      intro h
      have hbytes := ((C12_equals res q q).1).mp h
      rw [← hbytes] at hm
      obtain ⟨-, -, y, -⟩ := arriving_header bres hm
      exact hne (y.symm.trans m2)), if_neg (by rw [r1, hr.2.1, m1]; simp)]
  have hdel : (liveAt L c n acts t).net.step L (.deliver k) =
      { (liveAt L c n acts t).net with waiting := none, returned := (liveAt L c n acts t).net.returned ++ [res] } := by
    show Net.deliver L _ k = _
    unfold Net.deliver
    rw [hk]
    dsimp only
    rw [hres]
    dsimp only
    rw [hw, if_pos htaken]
  constructor
  · show ((liveAt L c n acts t).net.step L (.deliver k)).returned = _
    rw [hdel]
  · show ((liveAt L c n acts t).net.step L (.deliver k)).waiting = _
    rw [hdel]

/-- A node whose objects keep what is written. -/
def keepingLink : Link := { aLink with env := keepingEnv }

/-- A write of two properties, handled while another write is and while the program writes. -/
def aSlowWrite : List LiveAct :=
  [.post 0x013001 0x61 [⟨"", 0x80, [0x31], 0, 0, 0⟩, ⟨"", 0xB0, [0x42], 0, 0, 0⟩],
    .message (request 0x61 [⟨0x80, [0x33]⟩]), .arrive 0] ++
    (List.replicate 24 [.step 1, .call (.obj (.device 0) (.write 0x80 [0x32])), .step 0]).flatten

theorem waiting_issued {s : Net} {o : ObjectCode} {e : ESV} {ps : List EProp} (h0 : s.waiting = none) {q : Message}
    (h1 : (s.post o e ps).waiting = some q) : Issued s o e ps q := by
  refine ⟨h0, ?_⟩
  unfold Net.post at h1
  rw [h0] at h1
  dsimp only at h1
  split at h1
  · next hx => rw [hx]; exact h1
  · cases h1

/-- The hypotheses of the theorem are met by it, and the reply arrives. -/
example : ∃ q m cs r res, Issued (liveAt keepingLink aClient pairNode aSlowWrite 0).net 0x013001 0x61
      [⟨"", 0x80, [0x31], 0, 0, 0⟩, ⟨"", 0xB0, [0x42], 0, 0, 0⟩] q ∧
    arriving keepingLink.toIf keepingLink.from_ q.bytes = some m ∧ (properties m).length = 2 ∧
    (liveAt keepingLink aClient pairNode aSlowWrite 75).serving[1]? = some ⟨m, cs, .done (some r) none⟩ ∧
    arriving keepingLink.fromIf keepingLink.to_ r.bytes = some res ∧
    ((liveAt keepingLink aClient pairNode aSlowWrite 75).step keepingLink (.deliver 0)).net.returned = [res] := by
  obtain ⟨q, hw⟩ : ∃ q, (liveAt keepingLink aClient pairNode aSlowWrite 1).net.waiting = some q :=
    Option.isSome_iff_exists.mp (by decide +kernel)
  have hq : Issued (liveAt keepingLink aClient pairNode aSlowWrite 0).net 0x013001 0x61
      [⟨"", 0x80, [0x31], 0, 0, 0⟩, ⟨"", 0xB0, [0x42], 0, 0, 0⟩] q := waiting_issued rfl hw
  have hsame : (liveAt keepingLink aClient pairNode aSlowWrite 75).net.waiting =
      (liveAt keepingLink aClient pairNode aSlowWrite 1).net.waiting := by decide +kernel
  have hreq : (liveAt keepingLink aClient pairNode aSlowWrite 2).net.requests[0]? = some q.bytes := by
    have : (liveAt keepingLink aClient pairNode aSlowWrite 2).net.requests[0]? =
      (liveAt keepingLink aClient pairNode aSlowWrite 1).net.waiting.map (·.bytes) := by decide +kernel
    rw [this, hw]; rfl
  have harr : ((liveAt keepingLink aClient pairNode aSlowWrite 1).net.waiting.bind (fun q =>
      arriving keepingLink.toIf keepingLink.from_ q.bytes)).map (fun m => ((properties m).length, m.getDEOJ)) =
        some (2, 0x013001) := by decide +kernel
  rw [hw, Option.bind_some] at harr
  obtain ⟨m, hm, hm'⟩ := Option.map_eq_some_iff.mp harr
  obtain ⟨hp, hd⟩ := Prod.mk.inj hm'
  have small : ∀ v < 75, ((liveAt keepingLink aClient pairNode aSlowWrite v).net.server.lookupObject 0x013001).isSome ∧
      (liveAt keepingLink aClient pairNode aSlowWrite v).net.server.addr ≠ keepingLink.from_ := by decide +kernel
  obtain ⟨cs, r, h1, h2, h3, h4⟩ := C167_answered keepingLink aClient pairNode aSlowWrite (by decide) 1
    (fun n cs x => (keepingEnv_calls n cs x).1) (fun n cs x => (keepingEnv_calls n cs x).2) 0 2 75 0 0x013001 0x61
    _ q m hq (.inl rfl) rfl hreq hm (by omega) (hsame.trans hw)
    (fun u v r o u1 u2 u3 _ => by
      obtain ⟨r, hr⟩ := Option.isSome_iff_exists.mp (small v u3).1
      obtain ⟨o, ho, -⟩ := lookupObject_some hr
      rw [hd]
      exact ⟨r, o, ho⟩)
    (fun u _ u2 => .inr (small u u2).2)
    (by rw [hp]; decide +kernel)
  have hone : (liveAt keepingLink aClient pairNode aSlowWrite 75).net.replies.length = 1 ∧
      (liveAt keepingLink aClient pairNode aSlowWrite 75).net.returned = [] ∧
      ∀ b ∈ (liveAt keepingLink aClient pairNode aSlowWrite 75).net.replies,
        (arriving keepingLink.fromIf keepingLink.to_ b).isSome := by decide +kernel
  obtain ⟨res, hres⟩ := Option.isSome_iff_exists.mp (hone.2.2 _ h2)
  have h0 : (liveAt keepingLink aClient pairNode aSlowWrite 75).net.replies[0]? = some r.bytes := by
    obtain ⟨k, hk⟩ := List.mem_iff_getElem?.mp h2
    have : k < 1 := by rw [← hone.1]; exact (List.getElem?_eq_some_iff.mp hk).1
    have : k = 0 := by omega
    rw [← this]; exact hk
  have := (h4 0 res h0 hres).1
  rw [hone.2.1, List.nil_append] at this
  refine ⟨q, m, cs, r, res, hq, hm, hp, ?_, hres, this⟩
  have hl : (liveAt keepingLink aClient pairNode aSlowWrite 2).serving.length = 1 := by decide +kernel
  rw [hl] at h1
  exact h1

end Verif.Props
