import Verif.Spec.RestartSend
import Verif.Props.StartRace

/-!
# Sending while a node is started and stopped (C181)

Any number of goroutines make any calls of `Start` and `Stop`, and any number of calls of `SendMessage` are made meanwhile.
An `AnnounceMessage` is one with the multicast address as its destination.
The schedules `acts` are arbitrary: they say when calls are made, when they make their steps, and what the system makes of
their attempts to send.
-/

namespace Verif.Props

open Verif.Model Verif.Spec

section

variable {h : ManHost} {room : Nat → Nat → Nat}

theorem reRun_cons (s : ReSt) (a : ReAct) (acts : List ReAct) (hc : s.man.crashed = false) :
    s.run h room (a :: acts) = (s.step h room a).run h room acts := by
  simp [ReSt.run, hc]

theorem reRun_crashed (s : ReSt) (acts : List ReAct) (hc : s.man.crashed = true) : s.run h room acts = s := by
  cases acts with
  | nil => rfl
  | cons a acts => simp [ReSt.run, hc]

theorem reRun_append (s : ReSt) (as bs : List ReAct) : s.run h room (as ++ bs) = (s.run h room as).run h room bs := by
  induction as generalizing s with
  | nil => rfl
  | cons a as ih =>
    cases hc : s.man.crashed with
    | true => rw [reRun_crashed s _ hc, reRun_crashed s _ hc, reRun_crashed s _ hc]
    | false => rw [List.cons_append, reRun_cons _ _ _ hc, reRun_cons _ _ _ hc, ih]

/-- What a step keeps, a run keeps. -/
theorem reRun_inv {P : ReSt → Prop} (hp : ∀ s a, P s → s.man.crashed = false → P (s.step h room a)) (acts : List ReAct)
    (s : ReSt) (g : P s) : P (s.run h room acts) := by
  induction acts generalizing s with
  | nil => exact g
  | cons a acts ih =>
    cases hc : s.man.crashed with
    | true => rw [reRun_crashed s _ hc]; exact g
    | false => rw [reRun_cons _ _ _ hc]; exact ih _ (hp s a g hc)

/-! ## Lists that a call holds -/

theorem solid_act {s : ManSt} (g : Regular s) {i : Nat} {p : ManPc} (hp : s.callers[i]? = some p) {w : View}
    (hw : Solid s.cells s.made.length w) : Solid (s.act h room i p).cells (s.act h room i p).made.length w := by
  have hip := g.pcs p (List.mem_of_getElem? hp)
  cases p with
  | idle calls =>
    cases calls with
    | nil => exact hw
    | cons c cs => cases c <;> exact hw
  | stopping v k go calls =>
    simp only [ManSt.act]
    split
    · exact hw
    · exact hw
    · unfold ManSt.stopServer
      split
      · split
        · show Solid s.cells (s.made.set _ _).length w
          rw [List.length_set]; exact hw
        · exact hw
      · exact hw
  | reset go calls => exact solid_make hw
  | bind t calls =>
    simp only [ManSt.act]
    split
    · split
      · exact hw
      · split
        · exact hw
        · split <;> exact hw
    · exact hw
    · split
      · exact solid_more (by simp) hw
      · exact hw
  | load z t calls => exact hw
  | put z v t calls => exact solid_append hip.1 hw
  | store v t calls => exact hw

/-- The list a call goes through. -/
def listOf : RePc → Option View
  | .next v _ => some v
  | .check _ v _ => some v
  | .load _ v _ => some v
  | .write _ v _ => some v
  | .dial v _ => some v
  | _ => none

/-- The lists of the manager and of the calls are without nil. -/
structure ReWhole (s : ReSt) : Prop where
  man : Regular s.man
  calls : ∀ x ∈ s.calls, ∀ v, listOf x.pc = some v → Solid s.man.cells s.man.made.length v

theorem whole_goto {s : ReSt} (g : ReWhole s) (c : Nat) (x : ReCall) (p : RePc)
    (hp : ∀ v, listOf p = some v → Solid s.man.cells s.man.made.length v) (out : List Posted) :
    ReWhole ⟨s.man, s.calls.set c ⟨x.to, x.data, p⟩, out⟩ := by
  refine ⟨g.man, fun y hy => ?_⟩
  rcases List.mem_or_eq_of_mem_set hy with e | rfl
  · exact g.calls y e
  · exact hp

/-- A list without nil has no nil. -/
theorem solid_some {c : Cells Nat} {n : Nat} {v : View} (g : Solid c n v) (k : Nat) : (c.shows v)[k]? ≠ some none := by
  intro e
  obtain ⟨x, _, hx⟩ := g.2 _ (List.mem_of_getElem? e)
  cases hx

theorem reWhole_call {s : ReSt} (g : ReWhole s) (c : Nat) (ok : Bool) :
    ReWhole (s.step h room (.go c ok)) ∧ (s.step h room (.go c ok)).man = s.man := by
  simp only [ReSt.step]
  split
  · next x hx =>
    have hg := g.calls x (List.mem_of_getElem? hx)
    obtain ⟨to, data, pc⟩ := x
    unfold ReSt.stepCall
    cases pc with
    | askU => exact ⟨whole_goto g _ _ _ (by split <;> (intro v hv; cases hv)) _, rfl⟩
    | askM => exact ⟨whole_goto g _ _ _ (by split <;> (intro v hv; cases hv)) _, rfl⟩
    | take => exact ⟨whole_goto g _ _ _ (fun v hv => by cases hv; exact g.man.field) _, rfl⟩
    | next v k =>
      dsimp only
      split
      · exact ⟨whole_goto g _ _ _ (fun _ hv => by cases hv) _, rfl⟩
      · next e => exact absurd e (solid_some (hg v rfl) k)
      · exact ⟨whole_goto g _ _ _ (by exact hg) _, rfl⟩
    | check y v k =>
      dsimp only
      split
      · exact ⟨whole_goto g _ _ _ (by exact hg) _, rfl⟩
      · exact ⟨whole_goto g _ _ _ (by exact hg) _, rfl⟩
    | load y v k =>
      dsimp only
      split
      · exact ⟨whole_goto g _ _ _ (by exact hg) _, rfl⟩
      · exact ⟨whole_goto g _ _ _ (by exact hg) _, rfl⟩
    | write y v k =>
      dsimp only
      split
      · exact ⟨whole_goto g _ _ _ (fun _ hv => by cases hv) _, rfl⟩
      · exact ⟨whole_goto g _ _ _ (by exact hg) _, rfl⟩
    | dial v k =>
      dsimp only
      split
      · exact ⟨whole_goto g _ _ _ (fun _ hv => by cases hv) _, rfl⟩
      · exact ⟨whole_goto g _ _ _ (by exact hg) _, rfl⟩
    | returned b => exact ⟨g, rfl⟩
  · exact ⟨g, rfl⟩

theorem whole_step {s : ReSt} (g : ReWhole s) (a : ReAct) : ReWhole (s.step h room a) := by
  cases a with
  | man i =>
    have hr : Regular (s.man.step h room i) := regular_run [i] _ g.man
    refine ⟨hr, fun x hx => ?_⟩
    have hm : ∀ w, Solid s.man.cells s.man.made.length w →
        Solid (s.man.step h room i).cells (s.man.step h room i).made.length w := by
      intro w hw
      unfold ManSt.step
      split
      · exact hw
      · split
        · next p hp => exact solid_act g.man hp hw
        · exact hw
    exact fun v hv => hm v (g.calls x hx v hv)
  | send to data =>
    refine ⟨g.man, fun x hx => ?_⟩
    rcases List.mem_append.mp hx with e | e
    · exact g.calls x e
    · rw [List.mem_singleton] at e; subst e; exact fun _ hv => by cases hv
  | go c ok => exact (reWhole_call g c ok).1

theorem whole_run (port : Nat) (calls : List (List ManCall)) (acts : List ReAct) :
    ReWhole ((ReSt.new port calls).run h room acts) :=
  reRun_inv (P := ReWhole) (fun _ a g _ => whole_step g a) _ _ ⟨regular_new port calls, fun _ hx => by cases hx⟩

/-- **C181**, safety: whatever `Start` and `Stop` do at the same time, a step of `SendMessage` neither panics nor changes
anything in the manager. -/
theorem C181_safe (port : Nat) (calls : List (List ManCall)) (acts : List ReAct) (c : Nat) (ok : Bool) :
    (((ReSt.new port calls).run h room acts).step h room (.go c ok)).man = ((ReSt.new port calls).run h room acts).man :=
  (reWhole_call (whole_run port calls acts) c ok).2

/-- So `Start` and `Stop` do what they do without the calls. -/
theorem reRun_man {s : ReSt} (g : ReWhole s) (acts : List ReAct) :
    (s.run h room acts).man = s.man.run h room (startsIn acts) := by
  have dead : ∀ (is : List Nat) (m : ManSt), m.crashed = true → m.run h room is = m := by
    intro is
    induction is with
    | nil => exact fun _ _ => rfl
    | cons i is ih =>
      intro m hm
      have : m.step h room i = m := by simp [ManSt.step, hm]
      rw [manRun_cons, this]; exact ih m hm
  induction acts generalizing s with
  | nil => rfl
  | cons a acts ih =>
    cases hc : s.man.crashed with
    | true => rw [reRun_crashed _ _ hc, dead _ _ hc]
    | false =>
      rw [reRun_cons _ _ _ hc, ih (whole_step g a)]
      cases a with
      | man i => rfl
      | send to data => rfl
      | go c ok => rw [(reWhole_call g c ok).2]; rfl

/-! ## How often a message is sent -/

structure ReTold (s : ReSt) : Prop where
  own : ∀ p ∈ s.out, p.call < s.calls.length
  one : ∀ (c : Nat) (x : ReCall), s.calls[c]? = some x →
    (x.pc = .returned true → ∃ w, sentByCall s c = [⟨c, w, x.to, x.data⟩]) ∧ (x.pc ≠ .returned true → sentByCall s c = [])

theorem told_goto {s : ReSt} (g : ReTold s) {c : Nat} {x : ReCall} (hx : s.calls[c]? = some x) (hn : x.pc ≠ .returned true)
    (p : RePc) (hp : p ≠ .returned true) : ReTold (s.goto c x p) := by
  have hl := (List.getElem?_eq_some_iff.mp hx).1
  refine ⟨fun q hq => by simpa [ReSt.goto] using g.own q hq, fun d y hy => ?_⟩
  simp only [ReSt.goto] at hy
  by_cases e : c = d
  · subst e
    rw [List.getElem?_set_self hl] at hy
    cases hy
    exact ⟨fun e => absurd e hp, fun _ => (g.one c x hx).2 hn⟩
  · rw [List.getElem?_set_ne e] at hy
    exact g.one d y hy

theorem told_post {s : ReSt} (g : ReTold s) {c : Nat} {x : ReCall} (hx : s.calls[c]? = some x) (hn : x.pc ≠ .returned true)
    (w : SendVia) : ReTold (s.post c x w) := by
  have hl := (List.getElem?_eq_some_iff.mp hx).1
  refine ⟨fun q hq => ?_, fun d y hy => ?_⟩
  · simp only [ReSt.post, List.length_set] at hq ⊢
    rcases List.mem_append.mp hq with e | e
    · exact g.own q e
    · rw [List.mem_singleton] at e; subst e; exact hl
  · simp only [ReSt.post] at hy
    by_cases e : c = d
    · subst e
      rw [List.getElem?_set_self hl] at hy
      cases hy
      refine ⟨fun _ => ⟨w, ?_⟩, fun e => absurd rfl e⟩
      have := (g.one c x hx).2 hn
      simp only [sentByCall, ReSt.post] at this ⊢
      rw [List.filter_append, this]
      simp
    · rw [List.getElem?_set_ne e] at hy
      have hs : sentByCall (s.post c x w) d = sentByCall s d := by
        simp only [sentByCall, ReSt.post, List.filter_append]
        simp [e]
      rw [hs]
      exact g.one d y hy

theorem told_step {s : ReSt} (g : ReTold s) (a : ReAct) : ReTold (s.step h room a) := by
  cases a with
  | man i => exact ⟨g.own, g.one⟩
  | send to data =>
    refine ⟨fun q hq => ?_, fun d y hy => ?_⟩
    · have := g.own q hq
      simp only [ReSt.step, List.length_append, List.length_singleton]; omega
    · simp only [ReSt.step] at hy
      rcases Nat.lt_or_ge d s.calls.length with hd | hd
      · rw [List.getElem?_append_left hd] at hy
        exact g.one d y hy
      · rw [List.getElem?_append_right hd] at hy
        have : d - s.calls.length = 0 := by
          have := (List.getElem?_eq_some_iff.mp hy).1
          simp at this; omega
        rw [this] at hy
        cases hy
        refine ⟨fun e => (by cases e), fun _ => ?_⟩
        refine List.filter_eq_nil_iff.mpr fun q hq => ?_
        have := g.own q hq
        simp; omega
  | go c ok =>
    simp only [ReSt.step]
    split
    · next x hx =>
      have goes : ∀ p, p ≠ .returned true → x.pc ≠ .returned true → ReTold (s.goto c x p) :=
        fun p hp hn => told_goto g hx hn p hp
      have posts : ∀ w, x.pc ≠ .returned true → ReTold (s.post c x w) := fun w hn => told_post g hx hn w
      unfold ReSt.stepCall
      split
      · next e => exact goes _ (by split <;> simp) (by simp [e])
      · next e => exact goes _ (by split <;> simp) (by simp [e])
      · next e => exact goes _ (by simp) (by simp [e])
      · next e =>
        split
        · exact goes _ (by simp) (by simp [e])
        · exact ⟨g.own, g.one⟩
        · exact goes _ (by simp) (by simp [e])
      · next e => exact goes _ (by split <;> simp) (by simp [e])
      · next e => exact goes _ (by split <;> simp) (by simp [e])
      · next e =>
        split
        · exact posts _ (by simp [e])
        · exact goes _ (by simp) (by simp [e])
      · next e =>
        split
        · exact posts _ (by simp [e])
        · exact goes _ (by simp) (by simp [e])
      · exact g
    · exact g

theorem sends_step {s : ReSt} (a : ReAct) : (s.step h room a).calls.map (fun x => (x.to, x.data)) =
    s.calls.map (fun x => (x.to, x.data)) ++ sendsIn [a] := by
  cases a with
  | man i => simp [ReSt.step, sendsIn]
  | send to data => simp [ReSt.step, sendsIn]
  | go c ok =>
    have same : ∀ (x : ReCall) (p : RePc), s.calls[c]? = some x →
        (s.calls.set c ⟨x.to, x.data, p⟩).map (fun x => (x.to, x.data)) = s.calls.map (fun x => (x.to, x.data)) := by
      intro x p hx
      rw [List.map_set]
      apply List.ext_getElem?
      intro n
      by_cases e : c = n
      · subst e
        rw [List.getElem?_set_self (by rw [List.length_map]; exact (List.getElem?_eq_some_iff.mp hx).1), List.getElem?_map,
          hx]
        rfl
      · rw [List.getElem?_set_ne e]
    simp only [ReSt.step, sendsIn, List.filterMap_cons, List.filterMap_nil, List.append_nil]
    split
    · next x hx =>
      unfold ReSt.stepCall
      split <;> (try split) <;> first | exact same x _ hx | rfl
    · rfl

theorem sends_run (s : ReSt) (acts : List ReAct) (hc : (s.run h room acts).man.crashed = false) :
    (s.run h room acts).calls.map (fun x => (x.to, x.data)) = s.calls.map (fun x => (x.to, x.data)) ++ sendsIn acts := by
  induction acts generalizing s with
  | nil => simp [ReSt.run, sendsIn]
  | cons a acts ih =>
    cases e : s.man.crashed with
    | true => rw [reRun_crashed _ _ e] at hc; rw [e] at hc; cases hc
    | false =>
      rw [reRun_cons _ _ _ e] at hc ⊢
      rw [ih _ hc, sends_step, List.append_assoc]
      congr 1
      show sendsIn [a] ++ sendsIn acts = sendsIn ([a] ++ acts)
      exact List.filterMap_append.symm

/-- **C181**, how often: in every schedule of any calls of `Start`, `Stop` and `SendMessage`, a call of `SendMessage` that
has returned without an error has sent its message once, to its destination; one that has returned an error, or has not
returned, has sent nothing; and nothing else is sent. -/
theorem C181_once (port : Nat) (calls : List (List ManCall)) (acts : List ReAct)
    (hc : ((ReSt.new port calls).run h room acts).man.crashed = false) :
    let s := (ReSt.new port calls).run h room acts
    s.calls.length = (sendsIn acts).length ∧ (∀ p ∈ s.out, p.call < (sendsIn acts).length) ∧
    ∀ (c : Nat) (to : Addr) (data : Bytes), (sendsIn acts)[c]? = some (to, data) →
      ∃ pc, s.calls[c]? = some ⟨to, data, pc⟩ ∧
        (pc = .returned true → ∃ w, sentByCall s c = [⟨c, w, to, data⟩]) ∧ (pc ≠ .returned true → sentByCall s c = []) := by
  intro s
  have t : ReTold s := reRun_inv (P := ReTold) (fun _ a g _ => told_step g a) acts _
    ⟨fun p hp => (by cases hp), fun c x hx => by cases hx⟩
  have e : s.calls.map (fun x => (x.to, x.data)) = sendsIn acts := sends_run _ acts hc
  have hlen : s.calls.length = (sendsIn acts).length := by rw [← e, List.length_map]
  refine ⟨hlen, fun p hp => hlen ▸ t.own p hp, fun c to data hh => ?_⟩
  rw [← e, List.getElem?_map] at hh
  cases hx : s.calls[c]? with
  | none => rw [hx] at hh; cases hh
  | some x =>
    rw [hx] at hh
    obtain ⟨to', data', pc⟩ := x
    cases hh
    exact ⟨pc, rfl, t.one c _ hx⟩

/-! ## Every call returns -/

/-- A goroutine has started a server and has not put it into a list yet. -/
def listsOne : ManPc → Bool
  | .load _ _ _ => true
  | .put _ _ _ _ => true
  | _ => false

/-- The lists are no longer than the number of servers put into lists. -/
structure Short (s : ManSt) : Prop where
  field : s.field.len + s.callers.countP listsOne ≤ s.made.length
  pcs : ∀ p ∈ s.callers, match p with
    | .put _ v _ _ => v.len + s.callers.countP listsOne ≤ s.made.length
    | .store v _ _ => v.len + s.callers.countP listsOne ≤ s.made.length
    | _ => True

theorem short_next {s : ManSt} (g : Short s) {i : Nat} {p q : ManPc} (hp : s.callers[i]? = some p) (c : Cells Nat) (v : View)
    (made : List ManServer) (port : Nat) (crashed : Bool)
    (hn : s.made.length + (if listsOne q then 1 else 0) ≤ made.length + (if listsOne p then 1 else 0))
    (hv : v.len + s.callers.countP listsOne + (if listsOne q then 1 else 0) ≤ made.length + (if listsOne p then 1 else 0))
    (hq : ∀ w x t cs, q = .put x w t cs ∨ q = .store w t cs →
      w.len + s.callers.countP listsOne + (if listsOne q then 1 else 0) ≤ made.length + (if listsOne p then 1 else 0)) :
    Short ⟨c, v, made, port, s.callers.set i q, crashed⟩ := by
  obtain ⟨hl, he⟩ := List.getElem?_eq_some_iff.mp hp
  have hcount : (s.callers.set i q).countP listsOne + (if listsOne p then 1 else 0) =
      s.callers.countP listsOne + (if listsOne q then 1 else 0) := by
    rw [List.countP_set hl, he]
    have : listsOne p = true → 0 < s.callers.countP listsOne :=
      fun e => List.countP_pos_iff.mpr ⟨p, List.mem_of_getElem? hp, e⟩
    cases e : listsOne p with
    | false => simp
    | true => have := this e; simp; omega
  refine ⟨by simp only; omega, ?_⟩
  intro r hr
  rcases List.mem_or_eq_of_mem_set hr with e | rfl
  · have := g.pcs r e
    cases r <;> first | trivial | (simp only at this ⊢; omega)
  · cases r with
    | put x w t cs => have := hq w x t cs (.inl rfl); simp only; omega
    | store w t cs => have := hq w 0 t cs (.inr rfl); simp only; omega
    | _ => trivial

theorem short_act {s : ManSt} (g : Short s) {i : Nat} {p : ManPc} (hp : s.callers[i]? = some p) :
    Short (s.act h room i p) := by
  have hip := g.pcs p (List.mem_of_getElem? hp)
  have hf := g.field
  have same : ∀ q, listsOne q = listsOne p → (∀ w x t cs, q ≠ .put x w t cs ∧ q ≠ .store w t cs) → Short (s.goto i q) := by
    intro q e n
    refine short_next g hp _ _ _ _ _ (by rw [e]; exact Nat.le_refl _) (by rw [e]; omega) ?_
    intro w x t cs e
    rcases e with e | e
    · exact absurd e (n w x t cs).1
    · exact absurd e (n w x t cs).2
  cases p with
  | idle calls =>
    cases calls with
    | nil => exact g
    | cons c cs => cases c <;> exact same _ rfl (by simp)
  | stopping v k go calls =>
    simp only [ManSt.act]
    split
    · exact same _ rfl (by simp)
    · exact same _ rfl (by simp)
    · unfold ManSt.stopServer
      split
      · split
        · refine short_next g hp _ _ _ _ _ (by simp [listsOne]) ?_ (by simp)
          simpa [listsOne] using hf
        · exact short_next g hp _ _ _ _ _ (by simp [listsOne]) (by simpa [listsOne] using hf) (by simp)
      · exact same _ rfl (by simp)
  | reset go calls =>
    refine short_next g hp _ _ _ _ _ (by cases go <;> simp [listsOne]) ?_ (by cases go <;> simp)
    cases go <;> simp [listsOne] <;> omega
  | bind t calls =>
    simp only [ManSt.act]
    split
    · split
      · exact short_next g hp _ _ _ _ _ (by simp [listsOne]) (by simpa [listsOne] using hf) (by simp)
      · split
        · exact same _ rfl (by simp)
        · split <;> exact same _ rfl (by simp)
    · exact same _ rfl (by simp)
    · split
      · refine short_next g hp _ _ _ _ _ (by simp [listsOne]) ?_ (by simp)
        simp [listsOne]; omega
      · exact same _ rfl (by simp)
  | load z t calls =>
    refine short_next g hp _ _ _ _ _ (by simp [listsOne]) (by simpa [listsOne] using hf) ?_
    rintro w x t' cs (e | e) <;> cases e
    simpa [listsOne] using hf
  | put z v t calls =>
    simp only at hip
    refine short_next g hp _ _ _ _ _ (by simp [listsOne]) (by simp [listsOne]; omega) ?_
    rintro w x t' cs (e | e) <;> cases e
    have : (s.cells.append room v z).2.len ≤ v.len + 1 := by
      unfold Cells.append
      split
      · exact Nat.le_refl _
      · simp only [Cells.make, List.length_append, List.length_singleton, Cells.shows, List.length_take]; omega
    simp [listsOne]; omega
  | store v t calls =>
    simp only at hip
    exact short_next g hp _ _ _ _ _ (by simp [listsOne]) (by simpa [listsOne] using hip) (by simp)

theorem act_made {s : ManSt} {i : Nat} {p : ManPc} : s.made.length ≤ (s.act h room i p).made.length := by
  cases p with
  | idle calls =>
    cases calls with
    | nil => exact Nat.le_refl _
    | cons c cs => cases c <;> exact Nat.le_refl _
  | stopping v k go calls =>
    simp only [ManSt.act]
    split
    · exact Nat.le_refl _
    · exact Nat.le_refl _
    · unfold ManSt.stopServer
      split
      · split
        · simp [ManSt.goto]
        · exact Nat.le_refl _
      · exact Nat.le_refl _
  | reset go calls => exact Nat.le_refl _
  | bind t calls =>
    simp only [ManSt.act]
    split
    · split
      · exact Nat.le_refl _
      · split
        · exact Nat.le_refl _
        · split <;> exact Nat.le_refl _
    · exact Nat.le_refl _
    · split
      · simp
      · exact Nat.le_refl _
  | load z t calls => exact Nat.le_refl _
  | put z v t calls => exact Nat.le_refl _
  | store v t calls => exact Nat.le_refl _

theorem short_step {s : ReSt} (w : ReWhole s) (g : Short s.man) (a : ReAct) :
    Short (s.step h room a).man ∧ s.man.made.length ≤ (s.step h room a).man.made.length := by
  cases a with
  | man i =>
    simp only [ReSt.step, ManSt.step]
    split
    · exact ⟨g, Nat.le_refl _⟩
    · split
      · next p hp => exact ⟨short_act g hp, act_made⟩
      · exact ⟨g, Nat.le_refl _⟩
  | send to data => exact ⟨g, Nat.le_refl _⟩
  | go c ok => rw [(reWhole_call w c ok).2]; exact ⟨g, Nat.le_refl _⟩

/-- How many steps a call still makes at most, if at most `n` servers are ever started. -/
def stepsOf (n : Nat) : RePc → Nat
  | .askU => 4 * n + 4
  | .askM => 4 * n + 3
  | .take => 4 * n + 2
  | .next v k => 4 * (v.len - k) + 1
  | .check _ v k => 4 * (v.len - k) + 4
  | .load _ v k => 4 * (v.len - k) + 3
  | .write _ v k => 4 * (v.len - k) + 2
  | .dial v k => 4 * (v.len - k) + 2
  | .returned _ => 0

theorem call_step {s : ReSt} (w : ReWhole s) (g : Short s.man) {n c : Nat} (hn : s.man.made.length ≤ n) {x : ReCall}
    (hx : s.calls[c]? = some x) (ok : Bool) : ∃ y, (s.step h room (.go c ok)).calls[c]? = some y ∧
      stepsOf n y.pc ≤ stepsOf n x.pc - 1 := by
  have hl := (List.getElem?_eq_some_iff.mp hx).1
  have hf := g.field
  have hg := w.calls x (List.mem_of_getElem? hx)
  have goes : ∀ p, stepsOf n p ≤ stepsOf n x.pc - 1 → ∃ y, (s.goto c x p).calls[c]? = some y ∧
      stepsOf n y.pc ≤ stepsOf n x.pc - 1 := fun p hp => ⟨_, List.getElem?_set_self hl, hp⟩
  have posts : ∀ v, ∃ y, (s.post c x v).calls[c]? = some y ∧ stepsOf n y.pc ≤ stepsOf n x.pc - 1 :=
    fun v => ⟨_, List.getElem?_set_self hl, Nat.zero_le _⟩
  simp only [ReSt.step, hx]
  unfold ReSt.stepCall
  split
  · next e => exact goes _ (by rw [e]; split <;> simp [stepsOf])
  · next e => exact goes _ (by rw [e]; split <;> simp [stepsOf])
  · next e => exact goes _ (by rw [e]; simp [stepsOf]; omega)
  · next v k e =>
    rw [e] at hg
    split
    · exact goes _ (by rw [e]; simp [stepsOf])
    · next e => exact absurd e (solid_some (hg v rfl) k)
    · next y hy =>
      have : k < v.len := by
        have := (List.getElem?_eq_some_iff.mp hy).1
        simp only [Cells.shows, List.length_take] at this
        omega
      exact goes _ (by rw [e]; simp [stepsOf]; omega)
  · next e => exact goes _ (by rw [e]; split <;> simp [stepsOf])
  · next e => exact goes _ (by rw [e]; split <;> simp [stepsOf])
  · next e =>
    split
    · exact posts _
    · exact goes _ (by rw [e]; simp [stepsOf])
  · next e =>
    split
    · exact posts _
    · exact goes _ (by rw [e]; simp [stepsOf])
  · next e => exact ⟨x, hx, by rw [e]; simp [stepsOf]⟩

theorem other_step {s : ReSt} {c : Nat} {x : ReCall} (hx : s.calls[c]? = some x) (a : ReAct)
    (ha : ∀ ok, a ≠ .go c ok) : (s.step h room a).calls[c]? = some x := by
  cases a with
  | man i => exact hx
  | send to data =>
    simp only [ReSt.step]
    rw [List.getElem?_append_left (List.getElem?_eq_some_iff.mp hx).1]; exact hx
  | go d ok =>
    have hd : d ≠ c := fun e => ha ok (e ▸ rfl)
    have keep : ∀ y, (s.calls.set d y)[c]? = some x := fun y => by rw [List.getElem?_set_ne hd]; exact hx
    simp only [ReSt.step]
    split
    · unfold ReSt.stepCall
      split <;> (try split) <;> first | exact keep _ | exact hx
    · exact hx

theorem reRun_made {s : ReSt} (w : ReWhole s) (g : Short s.man) (acts : List ReAct) :
    s.man.made.length ≤ (s.run h room acts).man.made.length := by
  induction acts generalizing s with
  | nil => exact Nat.le_refl _
  | cons a acts ih =>
    cases e : s.man.crashed with
    | true => rw [reRun_crashed _ _ e]; exact Nat.le_refl _
    | false =>
      rw [reRun_cons _ _ _ e]
      exact Nat.le_trans (short_step w g a).2 (ih (whole_step w a) (short_step w g a).1)

theorem call_run {s : ReSt} (w : ReWhole s) (g : Short s.man) (n c : Nat) (acts : List ReAct)
    (hc : (s.run h room acts).man.crashed = false) (hn : (s.run h room acts).man.made.length ≤ n) {x : ReCall}
    (hx : s.calls[c]? = some x) :
    ∃ y, (s.run h room acts).calls[c]? = some y ∧ stepsOf n y.pc ≤ stepsOf n x.pc - turnsIn c acts := by
  induction acts generalizing s x with
  | nil => exact ⟨x, hx, by simp [turnsIn]⟩
  | cons a acts ih =>
    have hm := reRun_made (h := h) (room := room) w g (a :: acts)
    cases e : s.man.crashed with
    | true => rw [reRun_crashed _ _ e] at hc; rw [e] at hc; cases hc
    | false =>
      rw [reRun_cons _ _ _ e] at hc hn hm ⊢
      have go := fun {x} hx => ih (whole_step w a) (short_step w g a).1 hc hn (x := x) hx
      by_cases ha : ∃ ok, a = .go c ok
      · obtain ⟨ok, rfl⟩ := ha
        obtain ⟨y, hy, h1⟩ := call_step (h := h) (room := room) w g (Nat.le_trans hm hn) hx ok
        obtain ⟨z, hz, h2⟩ := go hy
        refine ⟨z, hz, ?_⟩
        have : turnsIn c (.go c ok :: acts) = turnsIn c acts + 1 := by simp [turnsIn]
        omega
      · obtain ⟨z, hz, h2⟩ := go (other_step hx a (fun ok e => ha ⟨ok, e⟩))
        refine ⟨z, hz, ?_⟩
        have : turnsIn c (a :: acts) = turnsIn c acts := by
          unfold turnsIn
          rw [List.countP_cons_of_neg]
          cases a with
          | go d ok => simp; intro e; exact ha ⟨ok, by rw [e]⟩
          | _ => simp
        omega

theorem short_run (port : Nat) (calls : List (List ManCall)) (acts : List ReAct) :
    Short ((ReSt.new port calls).run h room acts).man := by
  refine (reRun_inv (P := fun s => ReWhole s ∧ Short s.man) (fun _ a g _ => ⟨whole_step g.1 a, (short_step g.1 g.2 a).1⟩) acts
    (ReSt.new port calls) ⟨whole_run (h := h) (room := room) port calls [], ?_, ?_⟩).2
  · show 0 + (calls.map ManPc.idle).countP listsOne ≤ 0
    rw [List.countP_eq_zero.mpr]
    · exact Nat.le_refl _
    · intro p hp
      obtain ⟨cs, -, rfl⟩ := List.mem_map.mp hp
      simp [listsOne]
  · intro p hp
    obtain ⟨cs, -, rfl⟩ := List.mem_map.mp hp
    trivial

/-- No call needs more steps than one that was just made. -/
def Brief (s : ReSt) : Prop :=
  ∀ (c : Nat) (x : ReCall), s.calls[c]? = some x → ∀ n, s.man.made.length ≤ n → stepsOf n x.pc ≤ 4 * n + 4

theorem brief_step {s : ReSt} (w : ReWhole s) (g : Short s.man) (b : Brief s) (a : ReAct) : Brief (s.step h room a) := by
  intro c y hy n hn
  have hm : s.man.made.length ≤ n := Nat.le_trans (short_step w g a).2 hn
  cases hx : s.calls[c]? with
  | none =>
    have hl : s.calls.length ≤ c := List.getElem?_eq_none_iff.mp hx
    cases a with
    | man i => simp only [ReSt.step] at hy; rw [hx] at hy; cases hy
    | send to data =>
      simp only [ReSt.step] at hy
      rw [List.getElem?_append_right hl] at hy
      have := List.mem_singleton.mp (List.mem_of_getElem? hy)
      subst this
      exact Nat.le_refl _
    | go d ok =>
      have := congrArg List.length (sends_step (h := h) (room := room) (s := s) (.go d ok))
      simp [sendsIn] at this
      have := (List.getElem?_eq_some_iff.mp hy).1
      omega
  | some x =>
    by_cases ha : ∃ ok, a = .go c ok
    · obtain ⟨ok, rfl⟩ := ha
      obtain ⟨z, hz, h1⟩ := call_step (h := h) (room := room) w g hm hx ok
      rw [hy] at hz; cases hz
      have := b c x hx n hm
      omega
    · rw [other_step hx a (fun ok e => ha ⟨ok, e⟩)] at hy
      cases hy
      exact b c _ hx n hm

theorem brief_run (port : Nat) (calls : List (List ManCall)) (acts : List ReAct) :
    Brief ((ReSt.new port calls).run h room acts) :=
  (reRun_inv (P := fun s => ReWhole s ∧ Short s.man ∧ Brief s)
    (fun _ a g _ => ⟨whole_step g.1 a, (short_step g.1 g.2.1 a).1, brief_step g.1 g.2.1 g.2.2 a⟩) acts
    (ReSt.new port calls) ⟨whole_run (h := h) (room := room) port calls [], short_run (h := h) (room := room) port calls [],
      fun _ _ hx => by cases hx⟩).2.2

/-! ## From where a message leaves -/

/-- **C181**, sockets: in every schedule, a message that leaves from the socket of a server leaves while this socket is
open. -/
theorem C181_open (port : Nat) (calls : List (List ManCall)) (acts : List ReAct) (a : ReAct) (p : Posted)
    (hp : p ∈ ((ReSt.new port calls).run h room (acts ++ [a])).out)
    (hn : p ∉ ((ReSt.new port calls).run h room acts).out) (x : Nat) (hx : p.via = .bound x) :
    AreOpen ((ReSt.new port calls).run h room acts).man.made x := by
  rw [reRun_append] at hp
  generalize (ReSt.new port calls).run h room acts = s at *
  cases hc : s.man.crashed with
  | true => rw [reRun_crashed _ _ hc] at hp; exact absurd hp hn
  | false =>
    rw [reRun_cons _ _ _ hc] at hp
    simp only [ReSt.run] at hp
    cases a with
    | man i => exact absurd hp hn
    | send to data => exact absurd hp hn
    | go c ok =>
      simp only [ReSt.step] at hp
      split at hp
      · next y hy =>
        unfold ReSt.stepCall at hp
        split at hp
        · exact absurd hp hn
        · exact absurd hp hn
        · exact absurd hp hn
        · split at hp <;> exact absurd hp hn
        · exact absurd hp hn
        · exact absurd hp hn
        · next z v k e =>
          split at hp
          · next ho =>
            rcases List.mem_append.mp hp with hp | hp
            · exact absurd hp hn
            · rw [List.mem_singleton] at hp
              subst hp
              cases hx
              rw [Bool.and_eq_true] at ho
              have := ho.1
              unfold ReSt.hasConn at this
              cases e : s.man.made[x]? with
              | none => rw [e] at this; cases this
              | some m => rw [e] at this; exact ⟨m, e, this⟩
          · exact absurd hp hn
        · split at hp
          · rcases List.mem_append.mp hp with hp | hp
            · exact absurd hp hn
            · rw [List.mem_singleton] at hp; subst hp; cases hx
          · exact absurd hp hn
        · exact absurd hp hn
      · exact absurd hp hn

/-- **C181**, end: however often the node is started and stopped meanwhile, a call of `SendMessage` returns after at most
four steps of its own and four more for each server that was ever started. -/
theorem C181_returns (port : Nat) (calls : List (List ManCall)) (acts later : List ReAct) (c : Nat)
    (hc : ((ReSt.new port calls).run h room (acts ++ later)).man.crashed = false) (hh : c < (sendsIn acts).length)
    (hn : 4 + 4 * ((ReSt.new port calls).run h room (acts ++ later)).man.made.length ≤ turnsIn c later) :
    ∃ to data ok, ((ReSt.new port calls).run h room (acts ++ later)).calls[c]? = some ⟨to, data, .returned ok⟩ := by
  rw [reRun_append] at hc hn ⊢
  have hw := whole_run (h := h) (room := room) port calls acts
  have hs := short_run (h := h) (room := room) port calls acts
  have hbr := brief_run (h := h) (room := room) port calls acts
  have h1 : ((ReSt.new port calls).run h room acts).man.crashed = false := by
    cases e : ((ReSt.new port calls).run h room acts).man.crashed with
    | false => rfl
    | true => rw [reRun_crashed _ _ e, e] at hc; cases hc
  have hlen : ((ReSt.new port calls).run h room acts).calls.length = (sendsIn acts).length := (C181_once port calls acts h1).1
  generalize (ReSt.new port calls).run h room acts = s at *
  have hx : s.calls[c]? = some s.calls[c] := List.getElem?_eq_getElem (by omega)
  obtain ⟨y, hy, h2⟩ := call_run (h := h) (room := room) hw hs _ c later hc (Nat.le_refl _) hx
  have hb : stepsOf _ _ ≤ _ := hbr c _ hx _ (reRun_made (h := h) (room := room) hw hs later)
  have hz : stepsOf ((s.run h room later).man.made.length) y.pc = 0 := by omega
  obtain ⟨to, data, pc⟩ := y
  cases pc with
  | returned ok => exact ⟨to, data, ok, hy⟩
  | _ => simp [stepsOf] at hz

/-- **C181** (a message sent without an error leaves from a port of the node) fails: as soon as a server runs and a
goroutine is going to call `Start` or `Stop`, there is a schedule in which a call of `SendMessage` begins before that call,
returns without an error, and its message has left from another port. -/
theorem C181_refuted {s : ReSt} {i x : Nat} {c : ManCall} {cs : List ManCall} {y : ManServer}
    (hc : s.man.crashed = false) (hi : s.man.callers[i]? = some (.idle (c :: cs)))
    (hx : (s.man.cells.shows s.man.field)[0]? = some (some x)) (hy : s.man.made[x]? = some y) (ho : y.isOpen = true)
    (to : Addr) (data : Bytes) :
    let n := s.calls.length
    let t := s.run h room [.send to data, .go n true, .go n true, .go n true, .man i, .man i, .go n true, .go n true,
      .go n true]
    t.man.crashed = false ∧ t.calls[n]? = some ⟨to, data, .returned true⟩ ∧ t.out = s.out ++ [⟨n, .fresh, to, data⟩] := by
  intro n t
  have hni : i < s.man.callers.length := (List.getElem?_eq_some_iff.mp hi).1
  have hnx : x < s.man.made.length := (List.getElem?_eq_some_iff.mp hy).1
  have hlen : s.man.field.len ≠ 0 := by
    intro e
    unfold Cells.shows at hx
    rw [e] at hx
    simp at hx
  obtain ⟨go, e1⟩ : ∃ go, s.man.step h room i = s.man.goto i (.stopping s.man.field 0 go cs) := by
    rw [manAct_of hc hi]
    cases c
    · exact ⟨true, rfl⟩
    · exact ⟨false, rfl⟩
  have e2 := stop_one (h := h) (room := room) (s := s.man.goto i (.stopping s.man.field 0 go cs))
    (i := i) (k := 0) (x := x) (go := go) (cs := cs) (y := y) hc (List.getElem?_set_self hni) hx hy ho
  have at_ : ∀ z : ReCall, (s.calls ++ [z])[n]? = some z := fun z => by
    rw [List.getElem?_append_right (Nat.le_refl _), Nat.sub_self]; rfl
  have set_ : ∀ z w : ReCall, (s.calls ++ [z]).set n w = s.calls ++ [w] := fun z w => by
    rw [List.set_append_right _ _ (Nat.le_refl _), Nat.sub_self]; rfl
  have hz : (s.man.made.set x ⟨y.addr, y.port, false⟩)[x]? = some ⟨y.addr, y.port, false⟩ := List.getElem?_set_self hnx
  have go1 : ∀ (m : ManSt) (o : List Posted) (p : RePc) (rest : List ReAct), m.crashed = false →
      (ReSt.mk m (s.calls ++ [⟨to, data, p⟩]) o).run h room (.go n true :: rest) =
        ((ReSt.mk m (s.calls ++ [⟨to, data, p⟩]) o).stepCall n ⟨to, data, p⟩ true).run h room rest := by
    intro m o p rest hm
    rw [reRun_cons _ _ _ (by exact hm)]
    simp only [ReSt.step, at_]
  have et : t = ⟨(s.man.goto i (.stopping s.man.field 0 go cs)).step h room i, s.calls ++ [⟨to, data, .returned true⟩],
      s.out ++ [⟨n, .fresh, to, data⟩]⟩ := by
    show s.run h room _ = _
    rw [reRun_cons _ _ _ hc]
    simp only [ReSt.step]
    rw [go1 _ _ _ _ hc]
    simp only [ReSt.stepCall, ReSt.goto, set_, if_pos hlen]
    rw [go1 _ _ _ _ hc]
    simp only [ReSt.stepCall, ReSt.goto, set_, if_true]
    rw [go1 _ _ _ _ hc]
    simp only [ReSt.stepCall, ReSt.goto, set_]
    rw [reRun_cons _ _ _ (by exact hc)]
    simp only [ReSt.step, e1]
    rw [reRun_cons _ _ _ (by exact hc)]
    simp only [ReSt.step]
    rw [e2]
    rw [go1 _ _ _ _ (by exact hc)]
    have hx' : (s.man.cells.shows s.man.field)[0]? = some (some x) := hx
    simp only [ReSt.stepCall, ReSt.goto, set_, ManSt.goto, hx']
    rw [go1 _ _ _ _ (by exact hc)]
    simp only [ReSt.stepCall, ReSt.goto, set_, ReSt.hasConn, hz, Option.map_some, Option.getD_some]
    rw [go1 _ _ _ _ (by exact hc)]
    simp only [ReSt.stepCall, ReSt.post, set_]
    rfl
  rw [et]
  refine ⟨?_, at_ _, rfl⟩
  show ((s.man.goto i (.stopping s.man.field 0 go cs)).step h room i).crashed = false
  rw [e2]
  exact hc

/-- **C181**, delivery: when the first server of the manager is open and the system sends, a call of `SendMessage` that is
not disturbed sends the message from that server's port, and returns without an error. -/
theorem C181_sends {s : ReSt} {x : Nat} {y : ManServer} (hc : s.man.crashed = false)
    (hx : (s.man.cells.shows s.man.field)[0]? = some (some x)) (hy : s.man.made[x]? = some y) (ho : y.isOpen = true)
    (to : Addr) (data : Bytes) :
    s.run h room (.send to data :: List.replicate 7 (.go s.calls.length true)) =
      ⟨s.man, s.calls ++ [⟨to, data, .returned true⟩], s.out ++ [⟨s.calls.length, .bound x, to, data⟩]⟩ := by
  have hlen : s.man.field.len ≠ 0 := by
    intro e
    unfold Cells.shows at hx
    rw [e] at hx
    simp at hx
  have at_ : ∀ z : ReCall, (s.calls ++ [z])[s.calls.length]? = some z := fun z => by
    rw [List.getElem?_append_right (Nat.le_refl _), Nat.sub_self]; rfl
  have set_ : ∀ z w : ReCall, (s.calls ++ [z]).set s.calls.length w = s.calls ++ [w] := fun z w => by
    rw [List.set_append_right _ _ (Nat.le_refl _), Nat.sub_self]; rfl
  have go1 : ∀ (o : List Posted) (p : RePc) (rest : List ReAct),
      (ReSt.mk s.man (s.calls ++ [⟨to, data, p⟩]) o).run h room (.go s.calls.length true :: rest) =
        ((ReSt.mk s.man (s.calls ++ [⟨to, data, p⟩]) o).stepCall s.calls.length ⟨to, data, p⟩ true).run h room rest := by
    intro o p rest
    rw [reRun_cons _ _ _ (by exact hc)]
    simp only [ReSt.step, at_]
  rw [reRun_cons _ _ _ hc]
  simp only [ReSt.step, List.replicate]
  rw [go1]
  simp only [ReSt.stepCall, ReSt.goto, set_, if_pos hlen]
  rw [go1]
  simp only [ReSt.stepCall, ReSt.goto, set_, if_true]
  rw [go1]
  simp only [ReSt.stepCall, ReSt.goto, set_]
  rw [go1]
  simp only [ReSt.stepCall, ReSt.goto, set_, hx]
  rw [go1]
  simp only [ReSt.stepCall, ReSt.goto, set_, ReSt.hasConn, hy, Option.map_some, Option.getD_some, ho, if_true]
  rw [go1]
  simp only [ReSt.stepCall, ReSt.goto, set_, ReSt.hasConn, hy, Option.map_some, Option.getD_some, ho, if_true]
  rw [go1]
  simp only [ReSt.stepCall, ReSt.post, set_, ReSt.hasConn, hy, Option.map_some, Option.getD_some, ho, Bool.and_true, if_true]
  rfl

/-- A call goes through the list of the manager, and is at an open server. -/
def UsesOpen (m : ManSt) : RePc → Prop
  | .next v _ => v = m.field
  | .check y v _ => AreOpen m.made y ∧ v = m.field
  | .load y v _ => AreOpen m.made y ∧ v = m.field
  | .write y v _ => AreOpen m.made y ∧ v = m.field
  | .dial _ _ => False
  | _ => True

/-- The calls from `n` on use open servers of the manager `m`, which does nothing. -/
structure Rests (m : ManSt) (n : Nat) (s : ReSt) : Prop where
  man : s.man = m
  calls : n ≤ s.calls.length
  at_ : ∀ (c : Nat) (x : ReCall), n ≤ c → s.calls[c]? = some x → UsesOpen m x.pc
  out : ∀ p ∈ s.out, n ≤ p.call → ∃ x, p.via = .bound x ∧ AreOpen m.made x

theorem rests_goto {m : ManSt} {n : Nat} {s : ReSt} (g : Rests m n s) {c : Nat} {x : ReCall} (p : RePc)
    (hp : n ≤ c → UsesOpen m p) : Rests m n (s.goto c x p) := by
  refine ⟨g.man, by simpa [ReSt.goto] using g.calls, fun d y hd hy => ?_, g.out⟩
  simp only [ReSt.goto] at hy
  by_cases e : c = d
  · subst e
    have hl : c < s.calls.length := by have := (List.getElem?_eq_some_iff.mp hy).1; simpa using this
    rw [List.getElem?_set_self hl] at hy
    cases hy
    exact hp hd
  · rw [List.getElem?_set_ne e] at hy
    exact g.at_ d y hd hy

theorem rests_post {m : ManSt} {n : Nat} {s : ReSt} (g : Rests m n s) {c : Nat} {x : ReCall} (v : SendVia)
    (hv : n ≤ c → ∃ y, v = .bound y ∧ AreOpen m.made y) : Rests m n (s.post c x v) := by
  refine ⟨g.man, by simpa [ReSt.post] using g.calls, fun d y hd hy => ?_, fun p hp hn => ?_⟩
  · simp only [ReSt.post] at hy
    by_cases e : c = d
    · subst e
      have hl : c < s.calls.length := by have := (List.getElem?_eq_some_iff.mp hy).1; simpa using this
      rw [List.getElem?_set_self hl] at hy
      cases hy
      trivial
    · rw [List.getElem?_set_ne e] at hy
      exact g.at_ d y hd hy
  · simp only [ReSt.post] at hp
    rcases List.mem_append.mp hp with hp | hp
    · exact g.out p hp hn
    · rw [List.mem_singleton] at hp; subst hp; exact hv hn

theorem rests_step {m : ManSt} {n : Nat} {s : ReSt} (hm : Neat m.cells m.field m.made) (wh : ReWhole s) (g : Rests m n s)
    (a : ReAct) (ha : ∀ i, a ≠ .man i) : Rests m n (s.step h room a) := by
  cases a with
  | man i => exact absurd rfl (ha i)
  | send to data =>
    have hl := g.calls
    refine ⟨g.man, by simp only [ReSt.step, List.length_append]; omega, fun d y hd hy => ?_, g.out⟩
    simp only [ReSt.step] at hy
    rcases Nat.lt_or_ge d s.calls.length with hlt | hge
    · rw [List.getElem?_append_left hlt] at hy; exact g.at_ d y hd hy
    · rw [List.getElem?_append_right hge] at hy
      have := List.mem_singleton.mp (List.mem_of_getElem? hy)
      subst this
      trivial
  | go c ok =>
    have conn : ∀ y, AreOpen m.made y → s.hasConn y = true := by
      rintro y ⟨v, hv, hvo⟩
      unfold ReSt.hasConn
      rw [g.man, hv]; exact hvo
    have opened : ∀ y, some y ∈ m.cells.shows m.field → AreOpen m.made y := by
      intro y hy
      obtain ⟨xs, -, e, -, hxs⟩ := hm
      rw [e] at hy
      obtain ⟨z, hz, e⟩ := List.mem_map.mp hy
      cases e
      exact (hxs y).2 hz
    simp only [ReSt.step] 
    cases hx : s.calls[c]? with
    | none => exact g
    | some x =>
      have hg : n ≤ c → _ := fun e => g.at_ c x e hx
      obtain ⟨to, data, pc⟩ := x
      unfold ReSt.stepCall 
      cases pc with
      | askU => dsimp only ; exact rests_goto g _ (fun _ => by split <;> trivial)
      | askM => dsimp only ; exact rests_goto g _ (fun _ => by split <;> trivial)
      | take => exact rests_goto g _ (fun _ => by rw [g.man]; rfl)
      | next v k =>
        dsimp only 
        split
        · next e => exact rests_goto g _ (fun _ => trivial)
        · next e => exact absurd e (solid_some (wh.calls _ (List.mem_of_getElem? hx) v rfl) k)
        · next y e =>
          refine rests_goto g _ (fun hn => ?_)
          have hv : v = m.field := hg hn
          exact ⟨opened y (by rw [← hv, ← g.man]; exact List.mem_of_getElem? e), hv⟩
      | check y v k =>
        dsimp only 
        refine rests_goto g _ (fun hn => ?_)
        have hv : AreOpen m.made y ∧ v = m.field := hg hn
        rw [conn y hv.1]
        exact hv
      | load y v k =>
        dsimp only 
        refine rests_goto g _ (fun hn => ?_)
        have hv : AreOpen m.made y ∧ v = m.field := hg hn
        rw [conn y hv.1]
        exact hv
      | write y v k =>
        dsimp only 
        split
        · next e =>
          exact rests_post g _ (fun hn => ⟨y, rfl, (hg hn : AreOpen m.made y ∧ v = m.field).1⟩)
        · next e =>
          exact rests_goto g _ (fun hn => (hg hn : AreOpen m.made y ∧ v = m.field).2)
      | dial v k =>
        dsimp only 
        split
        · next e => exact rests_post g _ (fun hn => (hg hn : False).elim)
        · next e => exact rests_goto g _ (fun hn => (hg hn : False).elim)
      | returned b => exact g

/-- **C181**, what holds of the ports: if no two calls of `Start` and `Stop` overlap, what is sent by calls of
`SendMessage` that are made when all of them have returned, and before the next one, leaves from the open socket of a
server of the manager. -/
theorem C181_bound_partial (port : Nat) (calls : List (List ManCall)) (acts later : List ReAct)
    (ht : InTurn h room (ManSt.new port calls) (startsIn acts)) (hn : NoCall ((ReSt.new port calls).run h room acts).man)
    (hl : startsIn later = []) (p : Posted) (hp : p ∈ ((ReSt.new port calls).run h room (acts ++ later)).out)
    (hc : (sendsIn acts).length ≤ p.call) :
    ∃ x ∈ ((ReSt.new port calls).run h room (acts ++ later)).man.listed, p.via = .bound x ∧
      AreOpen ((ReSt.new port calls).run h room (acts ++ later)).man.made x := by
  have hw := whole_run (h := h) (room := room) port calls acts
  have hman := reRun_man (h := h) (room := room) (whole_run (h := h) (room := room) port calls []) acts
  have ho := ordered_run (h := h) (room := room) (startsIn acts) _ (ordered_new port calls) ht
  have hman' : ((ReSt.new port calls).run h room acts).man = (ManSt.new port calls).run h room (startsIn acts) := hman
  rw [← hman'] at ho
  have hneat := ordered_neat ho hn
  have hfine := ho.fine
  have hlen : ((ReSt.new port calls).run h room acts).calls.length = (sendsIn acts).length :=
    (C181_once port calls acts hfine).1
  have hown : ∀ p ∈ ((ReSt.new port calls).run h room acts).out, p.call < (sendsIn acts).length :=
    (C181_once port calls acts hfine).2.1
  rw [reRun_append] at hp ⊢
  generalize (ReSt.new port calls).run h room acts = s at *
  have start : Rests s.man (sendsIn acts).length s := by
    refine ⟨rfl, by omega, fun c x h1 h2 => ?_, fun p h1 h2 => ?_⟩
    · have := (List.getElem?_eq_some_iff.mp h2).1; omega
    · have := hown p h1; omega
  have all : ∀ (as : List ReAct) (u : ReSt), startsIn as = [] → ReWhole u → Rests s.man (sendsIn acts).length u →
      Rests s.man (sendsIn acts).length (u.run h room as) := by
    intro as
    induction as with
    | nil => exact fun _ _ _ g => g
    | cons a as ih =>
      intro u hu wu g
      cases e : u.man.crashed with
      | true => rw [reRun_crashed _ _ e]; exact g
      | false =>
        rw [reRun_cons _ _ _ e]
        have ha : ∀ i, a ≠ .man i := by
          rintro i rfl
          simp [startsIn] at hu
        refine ih _ ?_ (whole_step wu a) (rests_step hneat wu g a ha)
        cases a with
        | man i => exact absurd rfl (ha i)
        | send to data => exact hu
        | go c ok => exact hu
  have g := all later s hl hw start
  obtain ⟨x, hx, hopen⟩ := g.out p hp hc
  rw [g.man]
  exact ⟨x, (neat_listed hneat x).1 hopen, hx, hopen⟩

end

/-! ## Examples -/

def sendDst : Addr := ⟨"10.0.0.9", 3610⟩

/-- A goroutine starts the manager, and then a message is sent. -/
def startThenSend : List ReAct := List.replicate 29 (.man 0) ++ [.send sendDst [1, 2]]

def sendSteps : List ReAct := List.replicate 24 (.go 0 true)

example : (((ReSt.new 3610 manCalls).run twoIfaces manRoom (startThenSend ++ sendSteps)).out =
    [⟨0, .bound 0, sendDst, [1, 2]⟩]) := by decide +kernel

example : ∃ w, sentByCall ((ReSt.new 3610 manCalls).run twoIfaces manRoom (startThenSend ++ sendSteps)) 0 =
    [⟨0, w, sendDst, [1, 2]⟩] := by
  obtain ⟨pc, hpc, h1, -⟩ := (C181_once (h := twoIfaces) (room := manRoom) 3610 manCalls (startThenSend ++ sendSteps)
    (by decide +kernel)).2.2 0 sendDst [1, 2] (by decide +kernel)
  have e : ((ReSt.new 3610 manCalls).run twoIfaces manRoom (startThenSend ++ sendSteps)).calls[0]? =
      some ⟨sendDst, [1, 2], .returned true⟩ := by decide +kernel
  rw [hpc] at e
  cases e
  exact h1 rfl

/-- Five servers were started, so that 24 steps are enough. -/
example : ∃ to data ok, ((ReSt.new 3610 manCalls).run twoIfaces manRoom (startThenSend ++ sendSteps)).calls[0]? =
    some ⟨to, data, .returned ok⟩ :=
  C181_returns 3610 manCalls startThenSend sendSteps 0 (by decide +kernel) (by decide +kernel) (by decide +kernel)

example : ∃ x ∈ ((ReSt.new 3610 manCalls).run twoIfaces manRoom (List.replicate 29 (.man 0) ++
      ([.send sendDst [1, 2]] ++ sendSteps))).man.listed, SendVia.bound 0 = .bound x ∧
    AreOpen ((ReSt.new 3610 manCalls).run twoIfaces manRoom (List.replicate 29 (.man 0) ++
      ([.send sendDst [1, 2]] ++ sendSteps))).man.made x :=
  C181_bound_partial 3610 manCalls _ _
    (by rw [show startsIn (List.replicate 29 (.man 0)) = List.replicate 29 0 by decide +kernel]; exact inTurn_start)
    (three_idle (a := [.start]) (b := [.stop, .start]) (c := [.stop]) (by decide +kernel)) (by decide +kernel)
    ⟨0, .bound 0, sendDst, [1, 2]⟩ (by decide +kernel) (by decide +kernel)

example : (((ReSt.new 3610 manCalls).run twoIfaces manRoom (List.replicate 29 (.man 0))).run twoIfaces manRoom
    (.send sendDst [1, 2] :: List.replicate 7 (.go 0 true))).out = [⟨0, .bound 0, sendDst, [1, 2]⟩] :=
  congrArg ReSt.out (C181_sends (s := (ReSt.new 3610 manCalls).run twoIfaces manRoom (List.replicate 29 (.man 0))) (x := 0)
    (y := ⟨"10.0.0.1", 3610, true⟩) (by decide +kernel) (by decide +kernel) (by decide +kernel) rfl sendDst [1, 2])

/-- The message leaves while the socket is open. -/
example : AreOpen ((ReSt.new 3610 manCalls).run twoIfaces manRoom (startThenSend ++ List.replicate 6 (.go 0 true))).man.made
    0 :=
  C181_open 3610 manCalls _ (.go 0 true) ⟨0, .bound 0, sendDst, [1, 2]⟩ (by decide +kernel) (by decide +kernel) 0 rfl

/-- Another goroutine stops the manager meanwhile. -/
example : (((ReSt.new 3610 manCalls).run twoIfaces manRoom (List.replicate 29 (.man 0))).run twoIfaces manRoom
    [.send sendDst [1, 2], .go 0 true, .go 0 true, .go 0 true, .man 1, .man 1, .go 0 true, .go 0 true, .go 0 true]).out =
      [⟨0, .fresh, sendDst, [1, 2]⟩] :=
  (C181_refuted (s := (ReSt.new 3610 manCalls).run twoIfaces manRoom (List.replicate 29 (.man 0))) (i := 1) (x := 0)
    (c := .stop) (cs := [.start]) (y := ⟨"10.0.0.1", 3610, true⟩) (by decide +kernel) (by decide +kernel) (by decide +kernel)
    (by decide +kernel) rfl sendDst [1, 2]).2.2

/-- The manager is stopped while a call goes through its list: the call returns all the same. -/
example : ∃ to data ok, ((ReSt.new 3610 manCalls).run twoIfaces manRoom (startThenSend ++ (List.replicate 3 (.go 0 true) ++
      List.replicate 7 (.man 1) ++ List.replicate 21 (.go 0 false)))).calls[0]? = some ⟨to, data, .returned ok⟩ :=
  C181_returns 3610 manCalls startThenSend _ 0 (by decide +kernel) (by decide +kernel) (by decide +kernel)

end Verif.Props
