import Verif.Model.ListRace
import Verif.Props.ListMem
import Verif.Props.Controller

/-!
# C154: lists of nodes read while messages arrive
-/

namespace Verif.Props
open Verif Model Spec Lemmas

variable (room : Nat → Nat → Nat)

/-- The slices in use: the field, those read or made by handlers, those the program got. -/
inductive InUse (s : FindSt) : View → Prop where
  | field : InUse s s.field
  | read {n v} : FindPc.put n v ∈ s.pcs → InUse s v
  | made {v} : FindPc.store v ∈ s.pcs → InUse s v
  | held {v} : v ∈ s.held → InUse s v

/-- The nodes handlers have still to write. -/
inductive Unwritten (s : FindSt) : RemoteNode → Prop where
  | check {n} : FindPc.check n ∈ s.pcs → Unwritten s n
  | load {n} : FindPc.load n ∈ s.pcs → Unwritten s n
  | put {n v} : FindPc.put n v ∈ s.pcs → Unwritten s n

/-- Every slice in use holds nodes that satisfy `P`. -/
structure Filled (P : RemoteNode → Prop) (s : FindSt) : Prop where
  fits : ∀ v, InUse s v → Inside s.cells v
  nodes : ∀ v, InUse s v → ∀ x ∈ s.cells.shows v, ∃ n, P n ∧ x = some n
  coming : ∀ n, Unwritten s n → P n

theorem put_mem (h : Cells RemoteNode) (v w : View) (k : Nat) (n : RemoteNode) (x : Option RemoteNode)
    (hx : x ∈ (h.put v k n).shows w) : x ∈ h.shows w ∨ x = some n := by
  unfold Cells.shows at hx ⊢
  rw [put_array] at hx
  split at hx
  · obtain ⟨i, hi⟩ := List.getElem?_of_mem hx
    rw [List.getElem?_take] at hi
    split at hi
    · rw [List.getElem?_drop, List.getElem?_set] at hi
      split at hi
      · split at hi
        · exact .inr (Option.some.inj hi).symm
        · cases hi
      · refine .inl (List.mem_of_getElem? (i := i) ?_)
        rw [List.getElem?_take, if_pos (by assumption), List.getElem?_drop]
        exact hi
    · cases hi
  · exact .inl hx

theorem append_mem (h : Cells RemoteNode) (v w : View) (n : RemoteNode) (x : Option RemoteNode) (hw : Inside h w)
    (hx : x ∈ (h.append room v n).1.shows w) : x ∈ h.shows w ∨ x = some n := by
  unfold Cells.append at hx
  split at hx
  · exact put_mem _ _ _ _ _ _ hx
  · rw [make_shows _ _ _ _ hw.1] at hx; exact .inl hx

/-- A handler moves on. -/
theorem filled_handler {P : RemoteNode → Prop} {s : FindSt} (g : Filled P s) (i : Nat) : Filled P (s.handle room i) := by
  unfold FindSt.handle
  split
  · next n hi =>
    have hm := List.mem_of_getElem? hi
    split
    · constructor
      · intro v hv
        refine g.fits v ?_
        cases hv with
        | field => exact .field
        | read h => exact .read ((mem_set_cases h).resolve_left (by simp))
        | made h => exact .made ((mem_set_cases h).resolve_left (by simp))
        | held h => exact .held h
      · intro v hv
        refine g.nodes v ?_
        cases hv with
        | field => exact .field
        | read h => exact .read ((mem_set_cases h).resolve_left (by simp))
        | made h => exact .made ((mem_set_cases h).resolve_left (by simp))
        | held h => exact .held h
      · intro m hv
        refine g.coming m ?_
        cases hv with
        | check h => exact .check ((mem_set_cases h).resolve_left (by simp))
        | load h => exact .load ((mem_set_cases h).resolve_left (by simp))
        | put h => exact .put ((mem_set_cases h).resolve_left (by simp))
    · constructor
      · intro v hv
        refine g.fits v ?_
        cases hv with
        | field => exact .field
        | read h => exact .read ((mem_set_cases h).resolve_left (by simp))
        | made h => exact .made ((mem_set_cases h).resolve_left (by simp))
        | held h => exact .held h
      · intro v hv
        refine g.nodes v ?_
        cases hv with
        | field => exact .field
        | read h => exact .read ((mem_set_cases h).resolve_left (by simp))
        | made h => exact .made ((mem_set_cases h).resolve_left (by simp))
        | held h => exact .held h
      · intro m hv
        refine g.coming m ?_
        cases hv with
        | check h => exact .check ((mem_set_cases h).resolve_left (by simp))
        | load h =>
          rcases mem_set_cases h with e | h
          · cases e; exact .check hm
          · exact .load h
        | put h => exact .put ((mem_set_cases h).resolve_left (by simp))
  · next n hi =>
    have hm := List.mem_of_getElem? hi
    have hu : ∀ v, InUse { s with pcs := s.pcs.set i (.put n s.field) } v → InUse s v := by
      intro v hv
      cases hv with
      | field => exact .field
      | read h =>
        rcases mem_set_cases h with e | h
        · cases e; exact .field
        · exact .read h
      | made h => exact .made ((mem_set_cases h).resolve_left (by simp))
      | held h => exact .held h
    refine ⟨fun v hv => g.fits v (hu v hv), fun v hv => g.nodes v (hu v hv), fun m hv => g.coming m ?_⟩
    cases hv with
    | check h => exact .check ((mem_set_cases h).resolve_left (by simp))
    | load h => exact .load ((mem_set_cases h).resolve_left (by simp))
    | put h =>
      rcases mem_set_cases h with e | h
      · cases e; exact .load hm
      · exact .put h
  · next n v hi =>
    have hm := List.mem_of_getElem? hi
    have hv := g.fits v (.read hm)
    have hn := g.coming n (.put hm)
    have hu : ∀ w, InUse ⟨(s.cells.append room v n).1, s.field,
        s.pcs.set i (.store (s.cells.append room v n).2), s.held⟩ w → w = (s.cells.append room v n).2 ∨ InUse s w := by
      intro w hw
      cases hw with
      | field => exact .inr .field
      | read h => exact .inr (.read ((mem_set_cases h).resolve_left (by simp)))
      | made h =>
        rcases mem_set_cases h with e | h
        · cases e; exact .inl rfl
        · exact .inr (.made h)
      | held h => exact .inr (.held h)
    refine ⟨fun w hw => ?_, fun w hw x hx => ?_, fun m hw => g.coming m ?_⟩
    · rcases hu w hw with rfl | h
      · exact append_fits _ _ _ hv
      · exact append_keeps _ _ _ _ (g.fits w h)
    · rcases hu w hw with rfl | h
      · rw [append_shown _ _ _ hv] at hx
        rcases List.mem_append.mp hx with h | h
        · exact g.nodes v (.read hm) x h
        · exact ⟨n, hn, List.mem_singleton.mp h⟩
      · rcases append_mem room _ _ _ _ _ (g.fits w h) hx with h' | h'
        · exact g.nodes w h x h'
        · exact ⟨n, hn, h'⟩
    · cases hw with
      | check h => exact .check ((mem_set_cases h).resolve_left (by simp))
      | load h => exact .load ((mem_set_cases h).resolve_left (by simp))
      | put h => exact .put ((mem_set_cases h).resolve_left (by simp))
  · next v hi =>
    have hm := List.mem_of_getElem? hi
    have hu : ∀ w, InUse { s with field := v, pcs := s.pcs.set i .done } w → InUse s w := by
      intro w hw
      cases hw with
      | field => exact .made hm
      | read h => exact .read ((mem_set_cases h).resolve_left (by simp))
      | made h => exact .made ((mem_set_cases h).resolve_left (by simp))
      | held h => exact .held h
    refine ⟨fun v hv => g.fits v (hu v hv), fun v hv => g.nodes v (hu v hv), fun m hv => g.coming m ?_⟩
    cases hv with
    | check h => exact .check ((mem_set_cases h).resolve_left (by simp))
    | load h => exact .load ((mem_set_cases h).resolve_left (by simp))
    | put h => exact .put ((mem_set_cases h).resolve_left (by simp))
  · exact g

theorem filled_act {P : RemoteNode → Prop} {s : FindSt} (g : Filled P s) (a : FindAct)
    (ha : ∀ n, a = .arrive n → P n) : Filled P (s.step room a) := by
  cases a with
  | arrive n =>
    have hu : ∀ w, InUse { s with pcs := s.pcs ++ [.check n] } w → InUse s w := by
      intro w hw
      cases hw with
      | field => exact .field
      | read h => exact .read ((List.mem_append.mp h).resolve_right (by simp))
      | made h => exact .made ((List.mem_append.mp h).resolve_right (by simp))
      | held h => exact .held h
    refine ⟨fun v hv => g.fits v (hu v hv), fun v hv => g.nodes v (hu v hv), fun m hv => ?_⟩
    cases hv with
    | check h =>
      rcases List.mem_append.mp h with h | h
      · exact g.coming m (.check h)
      · cases List.mem_singleton.mp h; exact ha n rfl
    | load h => exact g.coming m (.load ((List.mem_append.mp h).resolve_right (by simp)))
    | put h => exact g.coming m (.put ((List.mem_append.mp h).resolve_right (by simp)))
  | handler i => exact filled_handler room g i
  | nodes =>
    have hu : ∀ w, InUse { s with held := s.held ++ [s.field] } w → InUse s w := by
      intro w hw
      cases hw with
      | field => exact .field
      | read h => exact .read h
      | made h => exact .made h
      | held h =>
        rcases List.mem_append.mp h with h | h
        · exact .held h
        · rw [List.mem_singleton.mp h]; exact .field
    refine ⟨fun v hv => g.fits v (hu v hv), fun v hv => g.nodes v (hu v hv), fun m hv => g.coming m ?_⟩
    cases hv with
    | check h => exact .check h
    | load h => exact .load h
    | put h => exact .put h
  | clear =>
    have hu : ∀ w, InUse { s with cells := (s.cells.make [] 0).1, field := (s.cells.make [] 0).2 } w →
        w = (s.cells.make [] 0).2 ∨ InUse s w := by
      intro w hw
      cases hw with
      | field => exact .inl rfl
      | read h => exact .inr (.read h)
      | made h => exact .inr (.made h)
      | held h => exact .inr (.held h)
    refine ⟨fun w hw => ?_, fun w hw x hx => ?_, fun m hv => g.coming m ?_⟩
    · rcases hu w hw with rfl | h
      · exact make_fits _ _ _
      · exact make_keeps _ _ _ _ (g.fits w h)
    · rcases hu w hw with rfl | h
      · have hx' : x ∈ (s.cells.make [] 0).1.shows (s.cells.make [] 0).2 := hx
        rw [make_shown] at hx'
        cases hx'
      · have hx' : x ∈ (s.cells.make [] 0).1.shows w := hx
        rw [make_shows _ _ _ _ (g.fits w h).1] at hx'
        exact g.nodes w h x hx'
    · cases hv with
      | check h => exact .check h
      | load h => exact .load h
      | put h => exact .put h

theorem filled_run {P : RemoteNode → Prop} (acts : List FindAct) (s : FindSt) (g : Filled P s)
    (ha : ∀ n, .arrive n ∈ acts → P n) : Filled P (s.run room acts) := by
  induction acts generalizing s with
  | nil => exact g
  | cons a acts ih =>
    exact ih _ (filled_act room g a fun n e => ha n (e ▸ List.mem_cons_self))
      fun n h => ha n (List.mem_cons_of_mem _ h)

theorem filled_init (P : RemoteNode → Prop) : Filled P FindSt.init := by
  have hu : ∀ w, InUse FindSt.init w → w = ⟨0, 0, 0, 0⟩ := by
    intro w hw
    cases hw with
    | field => rfl
    | read h => cases h
    | made h => cases h
    | held h => cases h
  refine ⟨fun w hw => ?_, fun w hw x hx => ?_, fun m hm => ?_⟩
  · rw [hu w hw]; exact ⟨by decide, by decide, by decide⟩
  · rw [hu w hw] at hx; cases hx
  · cases hm with
    | check h => cases h
    | load h => cases h
    | put h => cases h

/-- C154, for every schedule of the handlers and the program: every list `Nodes` returned, and the one it would return
now, holds at all times nodes whose messages arrived, and no nil. -/
theorem C154_filled_partial (acts : List FindAct) :
    (∀ x ∈ (FindSt.init.run room acts).found, ∃ n, .arrive n ∈ acts ∧ x = some n) ∧
    ∀ v l, (FindSt.init.run room acts).got v = some l → ∀ x ∈ l, ∃ n, .arrive n ∈ acts ∧ x = some n := by
  have g := filled_run (P := fun n => .arrive n ∈ acts) room acts _ (filled_init _) fun n h => h
  refine ⟨fun x hx => g.nodes _ .field x hx, fun v l hl x hx => ?_⟩
  unfold FindSt.got at hl
  cases hv : (FindSt.init.run room acts).held[v]? with
  | none => rw [hv] at hl; cases hl
  | some w =>
    rw [hv] at hl
    rw [← Option.some.inj hl] at hx
    exact g.nodes w (.held (List.mem_of_getElem? hv)) x hx

/-- No handler is between reading the field and storing it. -/
def Idle (s : FindSt) : Prop := ∀ p ∈ s.pcs, (∀ n v, p ≠ .put n v) ∧ ∀ v, p ≠ .store v

/-- The slices through which the array of `w` can still be written end above `w`. -/
structure Above (w : View) (s : FindSt) : Prop where
  inside : Inside s.cells w
  field : w.arr = s.field.arr → w.off + w.len ≤ s.field.off + s.field.len
  read : ∀ n v, FindPc.put n v ∈ s.pcs → w.arr = v.arr → w.off + w.len ≤ v.off + v.len
  made : ∀ v, FindPc.store v ∈ s.pcs → w.arr = v.arr → w.off + w.len ≤ v.off + v.len

theorem above_step {w : View} {s : FindSt} (g : Above w s) (a : FindAct) :
    Above w (s.step room a) ∧ (s.step room a).cells.shows w = s.cells.shows w := by
  cases a with
  | arrive n =>
    exact ⟨⟨g.inside, g.field, fun m v h => g.read m v ((List.mem_append.mp h).resolve_right (by simp)),
      fun v h => g.made v ((List.mem_append.mp h).resolve_right (by simp))⟩, rfl⟩
  | nodes => exact ⟨⟨g.inside, g.field, g.read, g.made⟩, rfl⟩
  | clear =>
    refine ⟨⟨make_keeps _ _ _ _ g.inside, fun e => ?_, g.read, g.made⟩, make_shows _ _ _ _ g.inside.1⟩
    have h1 := g.inside.1
    have e' : w.arr = s.cells.length := e
    omega
  | handler i =>
    show Above w (s.handle room i) ∧ (s.handle room i).cells.shows w = _
    unfold FindSt.handle
    split
    · split
      · exact ⟨⟨g.inside, g.field, fun m v h => g.read m v ((mem_set_cases h).resolve_left (by simp)),
          fun v h => g.made v ((mem_set_cases h).resolve_left (by simp))⟩, rfl⟩
      · exact ⟨⟨g.inside, g.field, fun m v h => g.read m v ((mem_set_cases h).resolve_left (by simp)),
          fun v h => g.made v ((mem_set_cases h).resolve_left (by simp))⟩, rfl⟩
    · refine ⟨⟨g.inside, g.field, fun m v h => ?_, fun v h => g.made v ((mem_set_cases h).resolve_left (by simp))⟩, rfl⟩
      rcases mem_set_cases h with e | h
      · cases e; exact g.field
      · exact g.read m v h
    · next n v hi =>
      have hm := g.read n v (List.mem_of_getElem? hi)
      refine ⟨⟨append_keeps _ _ _ _ g.inside, g.field,
        fun m v h => g.read m v ((mem_set_cases h).resolve_left (by simp)), fun u h => ?_⟩,
        append_shows _ _ _ _ g.inside hm⟩
      rcases mem_set_cases h with e | h
      · cases e
        rcases append_arr (room := room) s.cells v n with ⟨h1, h2, h3⟩ | ⟨h1, _⟩
        · intro e
          have := hm (by omega)
          omega
        · intro e
          have := g.inside.1
          omega
      · exact g.made u h
    · next v hi =>
      exact ⟨⟨g.inside, g.made v (List.mem_of_getElem? hi),
        fun m v h => g.read m v ((mem_set_cases h).resolve_left (by simp)),
        fun v h => g.made v ((mem_set_cases h).resolve_left (by simp))⟩, rfl⟩
    · exact ⟨g, rfl⟩

theorem above_run {w : View} (acts : List FindAct) (s : FindSt) (g : Above w s) :
    (s.run room acts).cells.shows w = s.cells.shows w := by
  induction acts generalizing s with
  | nil => rfl
  | cons a acts ih =>
    show ((s.step room a).run room acts).cells.shows w = _
    rw [ih _ (above_step room g a).1, (above_step room g a).2]

theorem find_held_step (s : FindSt) (a : FindAct) (v : Nat) (w : View) (h : s.held[v]? = some w) :
    (s.step room a).held[v]? = some w := by
  cases a with
  | arrive n => exact h
  | nodes =>
    show (s.held ++ [_])[v]? = _
    rw [List.getElem?_append_left (List.getElem?_eq_some_iff.mp h).1]
    exact h
  | clear => exact h
  | handler i =>
    show (s.handle room i).held[v]? = _
    unfold FindSt.handle
    repeat' split
    all_goals exact h

theorem find_held_run (acts : List FindAct) (s : FindSt) (v : Nat) (w : View) (h : s.held[v]? = some w) :
    (s.run room acts).held[v]? = some w := by
  induction acts generalizing s with
  | nil => exact h
  | cons a acts ih => exact ih _ (find_held_step room s a v w h)

/-- C154, for lists that `Nodes` returned while no handler was adding a node: they keep their elements, whatever
messages are handled and whatever the program does afterwards. -/
theorem C154_kept_partial (before after : List FindAct) (h : Idle (FindSt.init.run room before)) :
    let s := FindSt.init.run room before
    (FindSt.init.run room (before ++ .nodes :: after)).got s.held.length = some s.found := by
  intro s
  have g := filled_run (P := fun _ => True) room before _ (filled_init _) fun _ _ => trivial
  have e : FindSt.init.run room (before ++ .nodes :: after) = (s.step room .nodes).run room after := by
    unfold FindSt.run
    rw [List.foldl_append]
    rfl
  have ha : Above s.field (s.step room .nodes) :=
    ⟨g.fits _ .field, fun _ => Nat.le_refl _, fun n v hp => absurd rfl ((h _ hp).1 n v),
      fun v hp => absurd rfl ((h _ hp).2 v)⟩
  have hh : (s.step room .nodes).held[s.held.length]? = some s.field := by
    show (s.held ++ [_])[s.held.length]? = _
    simp
  rw [e]
  unfold FindSt.got
  rw [find_held_run room after _ _ _ hh]
  exact congrArg some (above_run room after _ ha)

/-- The list of `s` with two handlers that have read the field. -/
theorem two_appends (s : FindSt) (i j : Nat) (n n' : RemoteNode) (hij : i ≠ j)
    (hi : s.pcs[i]? = some (.load n)) (hj : s.pcs[j]? = some (.load n')) :
    (s.run room [.handler i, .handler j]).pcs[i]? = some (.put n s.field) ∧
    (s.run room [.handler i, .handler j]).pcs[j]? = some (.put n' s.field) ∧
    (s.run room [.handler i, .handler j]).cells = s.cells ∧ (s.run room [.handler i, .handler j]).field = s.field ∧
    (s.run room [.handler i, .handler j]).held = s.held := by
  have h1 := (List.getElem?_eq_some_iff.mp hi).1
  have h2 := (List.getElem?_eq_some_iff.mp hj).1
  have e1 : s.step room (.handler i) = { s with pcs := s.pcs.set i (.put n s.field) } := by
    show s.handle room i = _
    unfold FindSt.handle
    rw [hi]
  have hj' : (s.pcs.set i (.put n s.field))[j]? = some (.load n') := by rw [List.getElem?_set_ne hij]; exact hj
  have e2 : (s.step room (.handler i)).step room (.handler j)
      = { s with pcs := (s.pcs.set i (.put n s.field)).set j (.put n' s.field) } := by
    rw [e1]
    show FindSt.handle room _ j = _
    unfold FindSt.handle
    dsimp only
    rw [hj']
  show ((s.step room (.handler i)).step room (.handler j)).pcs[i]? = _ ∧ _
  simp only [FindSt.run, List.foldl]
  rw [e2]
  refine ⟨?_, ?_, rfl, rfl, rfl⟩
  · dsimp only
    rw [List.getElem?_set_ne hij.symm, List.getElem?_set_self h1]
  · dsimp only
    rw [List.getElem?_set_self (by simpa using h2)]

/-- A handler that has read the field, in two steps. -/
theorem put_store (s : FindSt) (i : Nat) (n : RemoteNode) (v : View) (hi : s.pcs[i]? = some (.put n v)) :
    s.run room [.handler i] =
      ⟨(s.cells.append room v n).1, s.field, s.pcs.set i (.store (s.cells.append room v n).2), s.held⟩ ∧
    s.run room [.handler i, .handler i] =
      ⟨(s.cells.append room v n).1, (s.cells.append room v n).2, s.pcs.set i .done, s.held⟩ := by
  have h1 := (List.getElem?_eq_some_iff.mp hi).1
  have e1 : s.step room (.handler i)
      = ⟨(s.cells.append room v n).1, s.field, s.pcs.set i (.store (s.cells.append room v n).2), s.held⟩ := by
    show s.handle room i = _
    unfold FindSt.handle
    rw [hi]
  refine ⟨e1, ?_⟩
  simp only [FindSt.run, List.foldl]
  rw [e1]
  show FindSt.handle room _ i = _
  unfold FindSt.handle
  dsimp only
  rw [List.getElem?_set_self h1]
  dsimp only
  rw [List.set_set]

theorem find_run_append (a b : List FindAct) (s : FindSt) : s.run room (a ++ b) = (s.run room a).run room b :=
  List.foldl_append

theorem nodes_then_put (u : FindSt) (j : Nat) (n : RemoteNode) (v : View) (hp : u.pcs[j]? = some (.put n v)) :
    (u.run room [.nodes]).run room [.handler j] =
      ⟨(u.cells.append room v n).1, u.field, u.pcs.set j (.store (u.cells.append room v n).2),
        u.held ++ [u.field]⟩ :=
  (put_store room (u.run room [.nodes]) j n v hp).1

/-- C154 is false: when the array has room and two nodes are added at the same time, the list `Nodes` returned changes
afterwards. The first node was found and is not listed any more. -/
theorem C154_refuted (s : FindSt) (i j : Nat) (n n' : RemoteNode) (hij : i ≠ j)
    (hi : s.pcs[i]? = some (.load n)) (hj : s.pcs[j]? = some (.load n')) (hf : Inside s.cells s.field)
    (hr : s.field.len < s.field.cap) :
    (s.run room [.handler i, .handler j, .handler i, .handler i, .nodes]).got s.held.length
      = some (s.found ++ [some n]) ∧
    (s.run room [.handler i, .handler j, .handler i, .handler i, .nodes, .handler j]).got s.held.length
      = some (s.found ++ [some n']) := by
  obtain ⟨h1, h2, h3, h4, h5⟩ := two_appends room s i j n n' hij hi hj
  rw [show [FindAct.handler i, .handler j, .handler i, .handler i, .nodes]
    = [.handler i, .handler j] ++ [.handler i, .handler i] ++ [.nodes] from rfl,
    show [FindAct.handler i, .handler j, .handler i, .handler i, .nodes, .handler j]
    = [.handler i, .handler j] ++ [.handler i, .handler i] ++ [.nodes] ++ [.handler j] from rfl]
  rw [find_run_append, find_run_append, find_run_append room (_ ++ _ ++ _), find_run_append room (_ ++ _),
    find_run_append]
  have hfound : s.cells.shows s.field = s.found := rfl
  generalize hs : s.run room [.handler i, .handler j] = t at *
  rw [← h3, ← h4] at hf hfound
  rw [← h4] at hr h1 h2
  rw [← h5, ← hfound]
  clear hfound
  rw [(put_store room t i n t.field h1).2]
  have hx := append_shown (room := room) t.cells t.field n hf
  have hy := append_shown (room := room) (t.cells.put t.field t.field.len n) t.field n' (put_keeps _ _ _ _ _ hf)
  simp only [Cells.append, if_pos hr] at hx hy ⊢
  constructor
  · unfold FindSt.got
    show ((t.held ++ [_])[t.held.length]?).map _ = _
    rw [List.getElem?_concat_length]
    exact congrArg some hx
  · have hp : (t.pcs.set i .done)[j]? = some (.put n' t.field) := by rw [List.getElem?_set_ne hij]; exact h2
    rw [nodes_then_put room _ j n' t.field (by exact hp)]
    unfold FindSt.got
    show ((t.held ++ [_])[t.held.length]?).map _ = _
    rw [List.getElem?_concat_length]
    show some ((Cells.append room (t.cells.put t.field t.field.len n) t.field n').1.shows _) = _
    simp only [Cells.append, if_pos hr]
    rw [hy, put_shows _ _ _ _ _ (fun _ => Nat.le_refl _)]

/-- A handler that finds the node missing, or one that has read the list and writes it, alone. -/
theorem find_alone (s : FindSt) (i : Nat) (n : RemoteNode) (hi : s.pcs[i]? = some (.check n))
    (hn : (s.found).any (fun x => x.any n.equals) = false) :
    s.run room [.handler i] = ⟨s.cells, s.field, s.pcs.set i (.load n), s.held⟩ := by
  show s.handle room i = _
  unfold FindSt.handle
  rw [hi]
  exact if_neg (by rw [show (s.cells.shows s.field).any _ = false from hn]; decide)

/-- A handler that is not interrupted adds the node as `addNode` does in the model of the controller: to a list that
holds the known nodes it appends one that is not known. -/
theorem C154_uninterrupted_partial (c : Ctrl) (n : RemoteNode) (s : FindSt) (i : Nat)
    (hi : s.pcs[i]? = some (.check n)) (hf : Inside s.cells s.field) (hc : s.found = c.found.map some) :
    (s.run room (List.replicate 4 (.handler i))).found = (c.addNode n).1.found.map some ∧
    (s.run room (List.replicate 4 (.handler i))).pcs = s.pcs.set i .done := by
  have hlt := (List.getElem?_eq_some_iff.mp hi).1
  have hany : s.found.any (fun x => x.any n.equals) = c.found.any n.equals := by
    rw [hc, List.any_map]
    rfl
  unfold Ctrl.addNode
  cases h : c.found.any n.equals with
  | true =>
    have e1 : s.step room (.handler i) = { s with pcs := s.pcs.set i .done } := by
      show s.handle room i = _
      unfold FindSt.handle
      rw [hi]
      exact if_pos (hany.trans h)
    have e2 : FindSt.step room { s with pcs := s.pcs.set i .done } (.handler i)
        = { s with pcs := s.pcs.set i .done } := by
      show FindSt.handle room _ i = _
      unfold FindSt.handle
      dsimp only
      rw [List.getElem?_set_self hlt]
    simp only [FindSt.run, List.replicate, List.foldl]
    rw [e1, e2, e2, e2]
    exact ⟨hc, rfl⟩
  | false =>
    have e1 := find_alone room s i n hi (hany.trans h)
    have e2 : FindSt.run room ⟨s.cells, s.field, s.pcs.set i (.load n), s.held⟩ [.handler i]
        = ⟨s.cells, s.field, s.pcs.set i (.put n s.field), s.held⟩ := by
      show FindSt.handle room _ i = _
      unfold FindSt.handle
      dsimp only
      rw [List.getElem?_set_self hlt]
      dsimp only
      rw [List.set_set]
    rw [show List.replicate 4 (FindAct.handler i) = [.handler i] ++ [.handler i] ++ [.handler i, .handler i] from rfl,
      find_run_append, find_run_append, e1, e2,
      (put_store room ⟨s.cells, s.field, s.pcs.set i (.put n s.field), s.held⟩ i n s.field
        (List.getElem?_set_self hlt)).2]
    constructor
    · show Cells.shows (s.cells.append room s.field n).1 (s.cells.append room s.field n).2 = _
      rw [append_shown _ _ _ hf, show s.cells.shows s.field = _ from hc]
      simp
    · exact List.set_set _

/-- A controller that knows three nodes, in an array with room for a fourth, and two handlers about to add two more. -/
def roomForOne : FindSt :=
  FindSt.init.run doubling
    ([.arrive ⟨"10.0.0.1", 3610, [], []⟩, .arrive ⟨"10.0.0.2", 3610, [], []⟩, .arrive ⟨"10.0.0.3", 3610, [], []⟩] ++
      List.replicate 4 (.handler 0) ++ List.replicate 4 (.handler 1) ++ List.replicate 4 (.handler 2) ++
      [.arrive ⟨"10.0.0.4", 3610, [], []⟩, .arrive ⟨"10.0.0.5", 3610, [], []⟩, .handler 3, .handler 4])

example : roomForOne.pcs[3]? = some (.load ⟨"10.0.0.4", 3610, [], []⟩) ∧
    roomForOne.pcs[4]? = some (.load ⟨"10.0.0.5", 3610, [], []⟩) ∧
    roomForOne.field.len < roomForOne.field.cap ∧
    roomForOne.found.length = 3 := by decide

example : Inside roomForOne.cells roomForOne.field := ⟨by decide, by decide, by decide⟩

/-- Two entries are not the same node. -/
def Differ (p q : Option RemoteNode) : Prop :=
  ∀ x y, p = some x → q = some y → ¬ (x.address = y.address ∧ x.port = y.port)

theorem differ_symm {p q : Option RemoteNode} (h : Differ p q) : Differ q p :=
  fun x y hx hy e => h y x hy hx ⟨e.1.symm, e.2.symm⟩

theorem differ_set {a : List (Option RemoteNode)} (k : Nat) (p : Option RemoteNode) (h : a.Pairwise Differ)
    (hp : ∀ q ∈ a, Differ p q) : (a.set k p).Pairwise Differ := by
  induction a generalizing k with
  | nil => exact h
  | cons x a ih =>
    obtain ⟨h1, h2⟩ := List.pairwise_cons.mp h
    cases k with
    | zero => exact List.pairwise_cons.mpr ⟨fun q hq => hp q (List.mem_cons_of_mem _ hq), h2⟩
    | succ k =>
      refine List.pairwise_cons.mpr ⟨fun q hq => ?_, ih k h2 fun q hq => hp q (List.mem_cons_of_mem _ hq)⟩
      rcases mem_set_cases hq with rfl | hq
      · exact differ_symm (hp x List.mem_cons_self)
      · exact h1 q hq

/-- The nodes whose messages arrived, in order. -/
def heardOf (acts : List FindAct) : List RemoteNode :=
  acts.filterMap (fun a => match a with | .arrive n => some n | _ => none)

/-- The handler has written its node, or found it known. -/
def Wrote (p : FindPc) : Prop := (∃ v, p = .store v) ∨ p = .done

/-- The node of a handler that has still to write it. -/
def toWrite : FindPc → Option RemoteNode
  | .check n => some n
  | .load n => some n
  | .put n _ => some n
  | _ => none

/-- Handler `i` is that of message `i`; the arrays hold only nodes of handlers that have written them, and none of
them twice. -/
structure Sorted (ns : List RemoteNode) (s : FindSt) : Prop where
  count : s.pcs.length = ns.length
  mine : ∀ (i : Nat) (p : FindPc) (n : RemoteNode), s.pcs[i]? = some p → toWrite p = some n → ns[i]? = some n
  written : ∀ a ∈ s.cells, ∀ x, some x ∈ a → ∃ (k : Nat) (p : FindPc), ns[k]? = some x ∧ s.pcs[k]? = some p ∧ Wrote p
  single : ∀ a ∈ s.cells, a.Pairwise Differ

theorem sorted_pcs {ns : List RemoteNode} {s : FindSt} (g : Sorted ns s) (i : Nat) (p p' : FindPc)
    (hi : s.pcs[i]? = some p) (hw : toWrite p' = none ∨ toWrite p' = toWrite p) (hd : Wrote p → Wrote p')
    (s' : FindSt) (hc : s'.cells = s.cells) (hs : s'.pcs = s.pcs.set i p') : Sorted ns s' := by
  have hlt := (List.getElem?_eq_some_iff.mp hi).1
  constructor
  · rw [hs, List.length_set]; exact g.count
  · intro j q n hj hq
    rw [hs, List.getElem?_set] at hj
    split at hj
    · next e =>
      subst e
      cases Option.some.inj hj
      rcases hw with h | h
      · rw [h] at hq; cases hq
      · exact g.mine i p n hi (h ▸ hq)
    · exact g.mine j q n hj hq
  · intro a ha x hx
    obtain ⟨k, q, h1, h2, h3⟩ := g.written a (hc ▸ ha) x hx
    by_cases e : i = k
    · subst e
      rw [hi] at h2
      cases Option.some.inj h2
      exact ⟨i, p', h1, by rw [hs, List.getElem?_set_self hlt], hd h3⟩
    · exact ⟨k, q, h1, by rw [hs, List.getElem?_set_ne e]; exact h2, h3⟩
  · exact fun a ha => g.single a (hc ▸ ha)

/-- The nodes of different messages differ. -/
theorem distinct_at {ns : List RemoteNode} (hd : Distinct ns) {i k : Nat} {x y : RemoteNode} (hi : ns[i]? = some x)
    (hk : ns[k]? = some y) (hne : i ≠ k) : Differ (some x) (some y) := by
  intro x' y' hx hy
  cases Option.some.inj hx
  cases Option.some.inj hy
  obtain ⟨l1, e1⟩ := List.getElem?_eq_some_iff.mp hi
  obtain ⟨l2, e2⟩ := List.getElem?_eq_some_iff.mp hk
  rcases Nat.lt_or_gt_of_ne hne with h | h
  · have := List.pairwise_iff_getElem.mp hd i k l1 l2 h
    rw [e1, e2] at this; exact this
  · have := List.pairwise_iff_getElem.mp hd k i l2 l1 h
    rw [e1, e2] at this
    exact fun e => this ⟨e.1.symm, e.2.symm⟩

theorem sorted_handler {ns : List RemoteNode} {s : FindSt} (hd : Distinct ns) (g : Sorted ns s) (i : Nat) :
    Sorted ns (s.handle room i) := by
  unfold FindSt.handle
  split
  · next n hi =>
    split
    · exact sorted_pcs g i _ .done hi (.inl rfl) (fun _ => .inr rfl) _ rfl rfl
    · exact sorted_pcs g i _ (.load n) hi (.inr rfl) (fun h => by rcases h with ⟨_, h⟩ | h <;> cases h) _ rfl rfl
  · next n hi =>
    exact sorted_pcs g i _ (.put n s.field) hi (.inr rfl) (fun h => by rcases h with ⟨_, h⟩ | h <;> cases h) _ rfl rfl
  · next n v hi =>
    dsimp only
    have hn := g.mine i _ n hi rfl
    have hlt := (List.getElem?_eq_some_iff.mp hi).1
    have hnew : ∀ a ∈ s.cells, ∀ q ∈ a, Differ (some n) q := by
      intro a ha q hq
      cases q with
      | none => exact fun _ _ _ h => by cases h
      | some x =>
        obtain ⟨k, p, h1, h2, h3⟩ := g.written a ha x hq
        refine distinct_at hd hn h1 fun e => ?_
        subst e
        rw [hi] at h2
        rw [← Option.some.inj h2] at h3
        rcases h3 with ⟨_, h⟩ | h <;> cases h
    have harr : s.cells.getD v.arr [] ∈ s.cells ∨ s.cells.getD v.arr [] = [] := by
      rw [List.getD_eq_getElem?_getD]
      cases h : s.cells[v.arr]? with
      | none => exact .inr rfl
      | some a => exact .inl (List.mem_of_getElem? h)
    have hsub : List.Sublist (s.cells.shows v) (s.cells.getD v.arr []) :=
      (List.take_sublist _ _).trans (List.drop_sublist _ _)
    have hcells : ∀ a ∈ (s.cells.append room v n).1, a.Pairwise Differ ∧
        ∀ x, some x ∈ a → x = n ∨ ∃ a' ∈ s.cells, some x ∈ a' := by
      intro a ha
      unfold Cells.append at ha
      split at ha
      · unfold Cells.put at ha
        obtain ⟨k, hk⟩ := List.getElem?_of_mem ha
        rw [List.getElem?_modify] at hk
        cases h : s.cells[k]? with
        | none => rw [h] at hk; cases hk
        | some b =>
          rw [h] at hk
          have hb := List.mem_of_getElem? h
          have hk' : (if v.arr = k then b.set (v.off + v.len) (some n) else b) = a := Option.some.inj hk
          split at hk'
          · rw [← hk']
            refine ⟨differ_set _ _ (g.single b hb) (hnew b hb), fun x hx => ?_⟩
            rcases mem_set_cases hx with e | h
            · exact .inl (Option.some.inj e)
            · exact .inr ⟨b, hb, h⟩
          · rw [← hk']
            exact ⟨g.single b hb, fun x hx => .inr ⟨b, hb, hx⟩⟩
      · rcases List.mem_append.mp ha with ha | ha
        · exact ⟨g.single a ha, fun x hx => .inr ⟨a, ha, hx⟩⟩
        · rw [List.mem_singleton.mp ha]
          constructor
          · rw [List.pairwise_append, List.pairwise_append]
            refine ⟨⟨?_, List.pairwise_singleton _ _, ?_⟩, ?_, ?_⟩
            · rcases harr with h | h
              · exact (g.single _ h).sublist hsub
              · rw [h] at hsub; rw [List.sublist_nil.mp hsub]; exact List.Pairwise.nil
            · intro p hp q hq
              rw [List.mem_singleton.mp hq]
              rcases harr with h | h
              · exact differ_symm (hnew _ h p (hsub.subset hp))
              · rw [h] at hsub; rw [List.sublist_nil.mp hsub] at hp; cases hp
            · exact List.pairwise_replicate.mpr (.inr fun _ _ h => by cases h)
            · intro p _ q hq
              rw [List.eq_of_mem_replicate hq]
              exact fun _ _ _ h => by cases h
          · intro x hx
            rcases List.mem_append.mp hx with hx | hx
            · rcases List.mem_append.mp hx with hx | hx
              · rcases harr with h | h
                · exact .inr ⟨_, h, hsub.subset hx⟩
                · rw [h] at hsub; rw [List.sublist_nil.mp hsub] at hx; cases hx
              · exact .inl (Option.some.inj (List.mem_singleton.mp hx))
            · cases List.eq_of_mem_replicate hx
    have hset : ∀ (k : Nat) (q : FindPc), s.pcs[k]? = some q → Wrote q →
        ∃ q', (s.pcs.set i (.store (s.cells.append room v n).2))[k]? = some q' ∧ Wrote q' := by
      intro k q hk hw
      by_cases e : i = k
      · subst e
        exact ⟨_, List.getElem?_set_self hlt, .inl ⟨_, rfl⟩⟩
      · exact ⟨q, by rw [List.getElem?_set_ne e]; exact hk, hw⟩
    constructor
    · rw [List.length_set]; exact g.count
    · intro j q m hj hq
      rw [List.getElem?_set] at hj
      split at hj
      · rw [← Option.some.inj hj] at hq
        cases hq
      · exact g.mine j q m hj hq
    · intro a ha x hx
      rcases (hcells a ha).2 x hx with rfl | ⟨a', ha', hx'⟩
      · exact ⟨i, _, hn, List.getElem?_set_self hlt, .inl ⟨_, rfl⟩⟩
      · obtain ⟨k, q, h1, h2, h3⟩ := g.written a' ha' x hx'
        obtain ⟨q', h4, h5⟩ := hset k q h2 h3
        exact ⟨k, q', h1, h4, h5⟩
    · exact fun a ha => (hcells a ha).1
  · next v hi =>
    exact sorted_pcs g i _ .done hi (.inl rfl) (fun _ => .inr rfl) _ rfl rfl
  · exact g

theorem sorted_run (acts : List FindAct) (s : FindSt) (ns : List RemoteNode) (hd : Distinct (ns ++ heardOf acts))
    (g : Sorted ns s) : Sorted (ns ++ heardOf acts) (s.run room acts) := by
  induction acts generalizing s ns with
  | nil =>
    rw [show ns ++ heardOf [] = ns from List.append_nil ns]
    exact g
  | cons a acts ih =>
    cases a with
    | arrive n =>
      have e : ns ++ heardOf (.arrive n :: acts) = (ns ++ [n]) ++ heardOf acts := by simp [heardOf]
      rw [e] at hd ⊢
      refine ih _ _ hd ?_
      constructor
      · show (s.pcs ++ [_]).length = _
        simp [g.count]
      · intro j q m hj hq
        have hj' : (s.pcs ++ [FindPc.check n])[j]? = some q := hj
        by_cases hlt : j < s.pcs.length
        · rw [List.getElem?_append_left hlt] at hj'
          rw [List.getElem?_append_left (by rw [← g.count]; exact hlt)]
          exact g.mine j q m hj' hq
        · have hl := (List.getElem?_eq_some_iff.mp hj').1
          have ej : j = ns.length := by
            have := g.count
            simp at hl
            omega
          rw [List.getElem?_append_right (by omega), g.count, ej] at hj'
          rw [ej]
          simp at hj'
          rw [← hj'] at hq
          rw [List.getElem?_concat_length]
          exact hq
      · intro b hb x hx
        obtain ⟨k, q, h1, h2, h3⟩ := g.written b hb x hx
        refine ⟨k, q, ?_, ?_, h3⟩
        · rw [List.getElem?_append_left (List.getElem?_eq_some_iff.mp h1).1]; exact h1
        · show (s.pcs ++ [_])[k]? = _
          rw [List.getElem?_append_left (List.getElem?_eq_some_iff.mp h2).1]; exact h2
      · exact g.single
    | handler i =>
      refine ih (s.handle room i) ns hd (sorted_handler room (hd := ?_) g i)
      exact (List.pairwise_append.mp hd).1
    | nodes => exact ih _ ns hd ⟨g.count, g.mine, g.written, g.single⟩
    | clear =>
      refine ih _ ns hd ⟨g.count, g.mine, fun b hb x hx => ?_, fun b hb => ?_⟩
      · rcases List.mem_append.mp hb with h | h
        · exact g.written b h x hx
        · rw [List.mem_singleton.mp h] at hx; cases hx
      · rcases List.mem_append.mp hb with h | h
        · exact g.single b h
        · rw [List.mem_singleton.mp h]; exact List.Pairwise.nil

/-- C154, and C45, for messages of different nodes: in every schedule, and at all times, no list that `Nodes` returned
or would return holds a node twice. -/
theorem C154_distinct_partial (acts : List FindAct) (hd : Distinct (heardOf acts)) :
    let s := FindSt.init.run room acts
    Distinct (s.found.filterMap id) ∧ ∀ v l, s.got v = some l → Distinct (l.filterMap id) := by
  intro s
  have g : Sorted (heardOf acts) s := by
    refine sorted_run room acts FindSt.init [] hd ⟨rfl, fun i p n h => ?_, fun a ha x hx => ?_, fun a ha => ?_⟩
    · simp [FindSt.init] at h
    · rw [List.mem_singleton.mp ha] at hx; cases hx
    · rw [List.mem_singleton.mp ha]; exact List.Pairwise.nil
  have hl : ∀ v : View, Distinct ((s.cells.shows v).filterMap id) := by
    intro v
    have hsub : List.Sublist (s.cells.shows v) (s.cells.getD v.arr []) :=
      (List.take_sublist _ _).trans (List.drop_sublist _ _)
    have hp : (s.cells.getD v.arr []).Pairwise Differ := by
      rw [List.getD_eq_getElem?_getD]
      cases h : s.cells[v.arr]? with
      | none => exact List.Pairwise.nil
      | some a => exact g.single a (List.mem_of_getElem? h)
    unfold Distinct
    rw [List.pairwise_filterMap]
    exact (hp.sublist hsub).imp fun h x hx y hy => h x y hx hy
  refine ⟨hl _, fun v l h => ?_⟩
  unfold FindSt.got at h
  cases hv : s.held[v]? with
  | none => rw [hv] at h; cases h
  | some w =>
    rw [hv] at h
    rw [← Option.some.inj h]
    exact hl w

/-- The messages of five nodes. -/
example : Distinct (heardOf [.arrive ⟨"10.0.0.1", 3610, [], []⟩, .handler 0, .arrive ⟨"10.0.0.2", 3610, [], []⟩,
    .handler 1, .handler 0, .handler 1, .nodes, .arrive ⟨"10.0.0.1", 3611, [], []⟩]) := by
  unfold Distinct
  simp [heardOf]

end Verif.Props
