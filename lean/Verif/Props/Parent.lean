import Verif.Model.Parent

/-!
# C146: which nodes announce a device
-/

namespace Verif.Props
open Verif Model

/-! ## Specification -/

/-- The node has the device. -/
def HasDevice (w : PWorld) (n d : Nat) : Prop := d ∈ w.devices n

/-- The node of a call that adds device `d`. -/
def addsTo (d : Nat) : POp → Option Nat
  | .addDevice n x => if x = d then some n else none
  | _ => none

/-- A program that adds the device to at most one node, and leaves its parent alone. -/
def OneNode (d : Nat) (ops : List POp) : Prop :=
  (ops.filterMap (addsTo d)).length ≤ 1 ∧ ∀ n, POp.setParentNode d n ∉ ops

/-! ## Proofs -/

private theorem has_iff (d n : Nat) (ops : List POp) : ∀ w : PWorld,
    HasDevice (w.run ops) n d ↔ HasDevice w n d ∨ n ∈ ops.filterMap (addsTo d) := by
  induction ops with
  | nil => intro w; simp [PWorld.run]
  | cons op ops ih =>
    intro w
    show HasDevice ((w.step op).run ops) n d ↔ _
    rw [ih]
    cases op with
    | addDevice m x =>
      by_cases hx : x = d
      · have e : List.filterMap (addsTo d) (.addDevice m x :: ops) = m :: List.filterMap (addsTo d) ops := by
          rw [List.filterMap_cons]; simp [addsTo, hx]
        rw [e, List.mem_cons]
        have : HasDevice (w.step (.addDevice m x)) n d ↔ HasDevice w n d ∨ n = m := by
          unfold HasDevice PWorld.step
          dsimp only
          by_cases hn : n = m
          · simp [hn, hx]
          · simp [hn]
        rw [this, or_assoc]
      · have e : List.filterMap (addsTo d) (.addDevice m x :: ops) = List.filterMap (addsTo d) ops := by
          rw [List.filterMap_cons]; simp [addsTo, hx]
        rw [e]
        have : HasDevice (w.step (.addDevice m x)) n d ↔ HasDevice w n d := by
          unfold HasDevice PWorld.step
          dsimp only
          by_cases hn : n = m
          · simp [hn, Ne.symm hx]
          · simp [hn]
        rw [this]
    | setParentNode x m => rfl
    | start m => rfl
    | stop m => rfl

private theorem parent_eq (d : Nat) (ops : List POp) : ∀ w : PWorld, (∀ n, POp.setParentNode d n ∉ ops) →
    (w.run ops).parent d = ((ops.filterMap (addsTo d)).getLast?).or (w.parent d) := by
  induction ops with
  | nil => intro w _; rfl
  | cons op ops ih =>
    intro w h
    have ht : ∀ n, POp.setParentNode d n ∉ ops := fun n hn => h n (List.mem_cons_of_mem _ hn)
    show ((w.step op).run ops).parent d = _
    rw [ih _ ht]
    cases op with
    | addDevice m x =>
      by_cases hx : x = d
      · have e : List.filterMap (addsTo d) (.addDevice m x :: ops) = m :: List.filterMap (addsTo d) ops := by
          rw [List.filterMap_cons]; simp [addsTo, hx]
        have p : (w.step (.addDevice m x)).parent d = some m := by unfold PWorld.step; simp [hx]
        rw [e, p, List.getLast?_cons]
        cases (List.filterMap (addsTo d) ops).getLast? <;> rfl
      · have e : List.filterMap (addsTo d) (.addDevice m x :: ops) = List.filterMap (addsTo d) ops := by
          rw [List.filterMap_cons]; simp [addsTo, hx]
        have p : (w.step (.addDevice m x)).parent d = w.parent d := by unfold PWorld.step; simp [Ne.symm hx]
        rw [e, p]
    | setParentNode x m =>
      have hx : x ≠ d := fun hx => h m (by rw [← hx]; exact List.mem_cons_self)
      have p : (w.step (.setParentNode x m)).parent d = w.parent d := by unfold PWorld.step; simp [Ne.symm hx]
      rw [p]
      rfl
    | start m => rfl
    | stop m => rfl

private theorem mem_announcers (w : PWorld) (d n : Nat) :
    n ∈ w.announcers d ↔ w.parent d = some n ∧ w.running n = true := by
  unfold PWorld.announcers
  cases hp : w.parent d with
  | none => simp
  | some m =>
    dsimp only
    cases hr : w.running m with
    | false =>
      simp only [Bool.not_false, if_true, List.not_mem_nil, false_iff, Option.some.injEq]
      rintro ⟨rfl, h⟩
      rw [hr] at h
      cases h
    | true =>
      simp only [Bool.not_true, Bool.false_eq_true, if_false, List.mem_singleton, Option.some.injEq]
      constructor
      · rintro rfl; exact ⟨rfl, hr⟩
      · rintro ⟨rfl, -⟩; rfl

/-! ## C146 -/

/-- C146 is false: whatever a program did before, once it adds a device to a node and then to another one, the first
node has the device and never announces its changes, although it runs; when the second one does not run nobody does. -/
theorem C146_refuted (ops : List POp) (d m n : Nat) (hne : m ≠ n)
    (hm : (PWorld.init.run ops).running m = true) :
    let w := PWorld.init.run (ops ++ [.addDevice m d, .addDevice n d])
    HasDevice w m d ∧ w.running m = true ∧ m ∉ w.announcers d ∧ (w.running n = false → w.announcers d = []) := by
  intro w
  have hw : w = ((PWorld.init.run ops).step (.addDevice m d)).step (.addDevice n d) := by
    show PWorld.init.run _ = _
    unfold PWorld.run
    rw [List.foldl_append]
    rfl
  have hp : w.parent d = some n := by rw [hw]; unfold PWorld.step; simp
  refine ⟨?_, ?_, ?_, ?_⟩
  · rw [hw]
    unfold HasDevice PWorld.step
    simp [hne]
  · rw [hw]
    exact hm
  · rw [mem_announcers, hp]
    rintro ⟨h, -⟩
    exact hne (Option.some.inj h).symm
  · intro hr
    unfold PWorld.announcers
    rw [hp]
    simp [hr]

/-- C146, the part that holds: after every history in which a device is added to at most one node, its changes are
announced by exactly the running nodes that have it, once each. Missing: devices added to several nodes. -/
theorem C146_announced_partial (ops : List POp) (d : Nat) (h : OneNode d ops) :
    (∀ n, n ∈ (PWorld.init.run ops).announcers d ↔
      HasDevice (PWorld.init.run ops) n d ∧ (PWorld.init.run ops).running n = true) ∧
    ((PWorld.init.run ops).announcers d).Nodup := by
  constructor
  · intro n
    rw [mem_announcers, parent_eq d ops _ h.2, has_iff]
    have h0 : ¬ HasDevice PWorld.init n d := List.not_mem_nil
    have hl := h.1
    generalize List.filterMap (addsTo d) ops = l at *
    match l, hl with
    | [], _ =>
      constructor
      · rintro ⟨h1, -⟩; cases h1
      · rintro ⟨h1 | h1, -⟩
        · exact absurd h1 h0
        · exact absurd h1 List.not_mem_nil
    | [m], _ =>
      simp only [List.getLast?_singleton, Option.some_or, Option.some.injEq, List.mem_singleton]
      constructor
      · rintro ⟨rfl, hr⟩; exact ⟨Or.inr rfl, hr⟩
      · rintro ⟨h1 | rfl, hr⟩
        · exact absurd h1 h0
        · exact ⟨rfl, hr⟩
  · unfold PWorld.announcers
    cases (PWorld.init.run ops).parent d with
    | none => exact List.nodup_nil
    | some n => dsimp only; split <;> simp

/-- C146, what holds for every history without `SetParentNode`: only the node to which the device was added last
announces its changes, and it does so exactly when it runs. Missing: the other nodes that have the device. -/
theorem C146_last_partial (ops : List POp) (d : Nat) (h : ∀ n, POp.setParentNode d n ∉ ops) :
    (PWorld.init.run ops).announcers d =
      ((ops.filterMap (addsTo d)).getLast?.toList).filter (fun n => (PWorld.init.run ops).running n) := by
  unfold PWorld.announcers
  rw [parent_eq d ops _ h]
  cases (ops.filterMap (addsTo d)).getLast? with
  | none => rfl
  | some n =>
    cases hr : (PWorld.init.run ops).running n <;> simp [hr]

/-- C146. A node runs exactly when it was started and not stopped since. -/
theorem C146_running (ops : List POp) (n : Nat) :
    (PWorld.init.run ops).running n = true ↔ ∃ before later, ops = before ++ .start n :: later ∧ .stop n ∉ later := by
  have key : ∀ (rev : List POp), (PWorld.init.run rev.reverse).running n = true ↔
      ∃ later before, rev = later ++ .start n :: before ∧ .stop n ∉ later := by
    intro rev
    induction rev with
    | nil =>
      constructor
      · intro h; cases h
      · rintro ⟨later, before, h, -⟩
        cases later <;> cases h
    | cons op rev ih =>
      have hr : PWorld.init.run (op :: rev).reverse = (PWorld.init.run rev.reverse).step op := by
        unfold PWorld.run
        rw [List.reverse_cons, List.foldl_append]
        rfl
      have more : (∃ later before, op :: rev = later ++ .start n :: before ∧ .stop n ∉ later) ↔
          op = .start n ∨ (op ≠ .stop n ∧ ∃ later before, rev = later ++ .start n :: before ∧ .stop n ∉ later) := by
        constructor
        · rintro ⟨later, before, h, h'⟩
          cases later with
          | nil => exact Or.inl (List.cons.inj h).1
          | cons x later =>
            have h2 := List.cons.inj h
            simp only [List.mem_cons, not_or] at h'
            exact Or.inr ⟨fun e => h'.1 (by rw [← h2.1, e]), later, before, h2.2, h'.2⟩
        · rintro (rfl | ⟨h1, later, before, h, h'⟩)
          · exact ⟨[], rev, rfl, List.not_mem_nil⟩
          · exact ⟨op :: later, before, by rw [h]; rfl, by simp [h', Ne.symm h1]⟩
      rw [hr, more, ← ih]
      cases op with
      | addDevice m x => simp [PWorld.step]
      | setParentNode x m => simp [PWorld.step]
      | start m =>
        by_cases h : n = m
        · simp [PWorld.step, h]
        · simp [PWorld.step, h, Ne.symm h]
      | stop m =>
        by_cases h : n = m
        · simp [PWorld.step, h]
        · simp [PWorld.step, h, Ne.symm h]
  have := key ops.reverse
  rw [List.reverse_reverse] at this
  rw [this]
  constructor
  · rintro ⟨later, before, h, h'⟩
    refine ⟨before.reverse, later.reverse, ?_, by simpa using h'⟩
    have := congrArg List.reverse h
    simpa using this
  · rintro ⟨before, later, rfl, h'⟩
    exact ⟨later.reverse, before.reverse, by simp, by simpa using h'⟩

/-- A device of two nodes, both of which run. -/
example : (PWorld.init.run [.start 1, .start 2, .addDevice 1 7, .addDevice 2 7]).announcers 7 = [2] ∧
    HasDevice (PWorld.init.run [.start 1, .start 2, .addDevice 1 7, .addDevice 2 7]) 1 7 := by
  unfold HasDevice
  decide

/-- Two nodes, each with a device; the second one is stopped again. -/
example : OneNode 7 [.addDevice 1 7, .addDevice 2 8, .start 1, .start 2, .stop 2] ∧
    (PWorld.init.run [.addDevice 1 7, .addDevice 2 8, .start 1, .start 2, .stop 2]).announcers 7 = [1] ∧
    (PWorld.init.run [.addDevice 1 7, .addDevice 2 8, .start 1, .start 2, .stop 2]).announcers 8 = [] := by
  refine ⟨⟨by decide, ?_⟩, by decide, by decide⟩
  intro n hn
  simp at hn

end Verif.Props
