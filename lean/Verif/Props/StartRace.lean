import Verif.Model.StartRace
import Verif.Props.ListMem

/-!
# C172: starting and stopping from several goroutines

`Start` and `Stop` are not protected by a lock (`Verif.Model.StartRace`).
-/

namespace Verif.Props
open Verif Model Spec Lemmas

/-! ## Specification -/

/-- The socket of server `x` is open. -/
def AreOpen (made : List ManServer) (x : Nat) : Prop := ∃ y, made[x]? = some y ∧ y.isOpen = true

/-- No goroutine goes on while another one is in a call. -/
def InTurn (h : ManHost) (room : Nat → Nat → Nat) : ManSt → List Nat → Prop
  | _, [] => True
  | s, i :: is => (∀ (k : Nat) (p : ManPc), k ≠ i → s.callers[k]? = some p → ∃ cs, p = ManPc.idle cs) ∧ InTurn h room (s.step h room i) is

/-- No goroutine is in a call. -/
def NoCall (s : ManSt) : Prop := ∀ (k : Nat) (p : ManPc), s.callers[k]? = some p → ∃ cs, p = ManPc.idle cs

/-! ## Steps -/

variable {h : ManHost} {room : Nat → Nat → Nat}

theorem manAct_of {s : ManSt} {i : Nat} {p : ManPc} (hc : s.crashed = false) (hp : s.callers[i]? = some p) :
    s.step h room i = s.act h room i p := by
  unfold ManSt.step; rw [hc, hp]; rfl

theorem manRun_cons (s : ManSt) (i : Nat) (is : List Nat) : s.run h room (i :: is) = (s.step h room i).run h room is := rfl

theorem manRun_append (s : ManSt) (is js : List Nat) : s.run h room (is ++ js) = (s.run h room is).run h room js :=
  List.foldl_append

/-- What a step does to the goroutines. -/
theorem act_callers (s : ManSt) (i : Nat) (p : ManPc) (hp : s.callers[i]? = some p) :
    ∃ p', (s.act h room i p).callers = s.callers.set i p' := by
  have self : ∃ p', s.callers = s.callers.set i p' := ⟨p, by
    obtain ⟨hl, e⟩ := List.getElem?_eq_some_iff.mp hp
    rw [← e, List.set_getElem_self]⟩
  cases p with
  | idle calls =>
    cases calls with
    | nil => exact self
    | cons c cs => cases c <;> exact ⟨_, rfl⟩
  | stopping v k go calls =>
    simp only [ManSt.act]
    split
    · exact ⟨_, rfl⟩
    · exact ⟨_, rfl⟩
    · next x _ =>
      have : (s.stopServer x).callers = s.callers := by
        unfold ManSt.stopServer
        split
        · split <;> rfl
        · rfl
      exact ⟨_, by show List.set (s.stopServer x).callers _ _ = _; rw [this]⟩
  | reset go calls => exact ⟨_, rfl⟩
  | bind t calls =>
    simp only [ManSt.act]
    split
    · split
      · exact ⟨_, rfl⟩
      · split
        · exact ⟨_, rfl⟩
        · split <;> exact ⟨_, rfl⟩
    · exact ⟨_, rfl⟩
    · split <;> exact ⟨_, rfl⟩
  | load x t calls => exact ⟨_, rfl⟩
  | put x v t calls => exact ⟨_, rfl⟩
  | store v t calls => exact ⟨_, rfl⟩

/-! ## One call after the other -/

/-- The list shows the open servers, each one once. -/
def Neat (c : Cells Nat) (v : View) (made : List ManServer) : Prop :=
  ∃ xs : List Nat, Inside c v ∧ c.shows v = xs.map some ∧ xs.Nodup ∧ ∀ x, AreOpen made x ↔ x ∈ xs

/-- What holds at each point of a call. -/
def PointAt (s : ManSt) : ManPc → Prop
  | .idle _ => Neat s.cells s.field s.made
  | .stopping v k _ _ => v = s.field ∧ ∃ xs : List Nat, s.cells.shows s.field = xs.map some ∧ xs.Nodup ∧
      ∀ x, AreOpen s.made x ↔ x ∈ xs.drop k
  | .reset _ _ => ∀ x, ¬ AreOpen s.made x
  | .bind _ _ => Neat s.cells s.field s.made
  | .load x _ _ => ∃ xs : List Nat, Inside s.cells s.field ∧ s.cells.shows s.field = xs.map some ∧ (xs ++ [x]).Nodup ∧
      ∀ y, AreOpen s.made y ↔ y ∈ xs ++ [x]
  | .put x v _ _ => v = s.field ∧ ∃ xs : List Nat, Inside s.cells s.field ∧ s.cells.shows s.field = xs.map some ∧
      (xs ++ [x]).Nodup ∧ ∀ y, AreOpen s.made y ↔ y ∈ xs ++ [x]
  | .store v _ _ => Neat s.cells v s.made

theorem areOpen_lt {made : List ManServer} {x : Nat} (hx : AreOpen made x) : x < made.length := by
  obtain ⟨y, e, -⟩ := hx
  exact (List.getElem?_eq_some_iff.mp e).1

theorem areOpen_more {made : List ManServer} {a : String} {p : Nat} (x : Nat) :
    AreOpen (made ++ [⟨a, p, true⟩]) x ↔ AreOpen made x ∨ x = made.length := by
  constructor
  · rintro ⟨y, e, ho⟩
    by_cases hx : x < made.length
    · rw [List.getElem?_append_left hx] at e
      exact .inl ⟨y, e, ho⟩
    · have := (List.getElem?_eq_some_iff.mp e).1
      simp at this
      exact .inr (by omega)
  · rintro (⟨y, e, ho⟩ | e)
    · exact ⟨y, by rw [List.getElem?_append_left (List.getElem?_eq_some_iff.mp e).1]; exact e, ho⟩
    · subst e
      exact ⟨⟨a, p, true⟩, by simp, rfl⟩

theorem areOpen_close {made : List ManServer} {x : Nat} {y : ManServer} (e : made[x]? = some y) (z : Nat) :
    AreOpen (made.set x ⟨y.addr, y.port, false⟩) z ↔ AreOpen made z ∧ z ≠ x := by
  have hl := (List.getElem?_eq_some_iff.mp e).1
  constructor
  · rintro ⟨w, ew, ho⟩
    rw [List.getElem?_set] at ew
    by_cases hz : x = z
    · rw [if_pos hz, if_pos hl] at ew
      cases ew; cases ho
    · rw [if_neg hz] at ew
      exact ⟨⟨w, ew, ho⟩, fun g => hz g.symm⟩
  · rintro ⟨⟨w, ew, ho⟩, hz⟩
    exact ⟨w, by rw [List.getElem?_set_ne (fun g => hz g.symm)]; exact ew, ho⟩

theorem pointAt_act {s : ManSt} {i : Nat} {p : ManPc} (hc : s.crashed = false) (hp : s.callers[i]? = some p)
    (hs : PointAt s p) : (s.act h room i p).crashed = false ∧
      ∃ p', (s.act h room i p).callers[i]? = some p' ∧ PointAt (s.act h room i p) p' := by
  have hi : i < s.callers.length := (List.getElem?_eq_some_iff.mp hp).1
  have at_i (q : ManPc) : (s.callers.set i q)[i]? = some q := List.getElem?_set_self hi
  cases p with
  | idle calls =>
    cases calls with
    | nil => exact ⟨hc, _, hp, hs⟩
    | cons c cs =>
      obtain ⟨xs, h1, h2, h3, h4⟩ := hs
      cases c
      · exact ⟨hc, _, at_i _, rfl, xs, h2, h3, h4⟩
      · exact ⟨hc, _, at_i _, rfl, xs, h2, h3, h4⟩
  | stopping v k go calls =>
    obtain ⟨hv, xs, h2, h3, h4⟩ := hs
    subst hv
    simp only [ManSt.act]
    rw [h2, List.getElem?_map]
    cases ek : xs[k]? with
    | none =>
      refine ⟨hc, _, at_i _, ?_⟩
      intro x hx
      have := (h4 x).mp hx
      rw [List.drop_eq_nil_of_le (List.getElem?_eq_none_iff.mp ek)] at this
      cases this
    | some x =>
      obtain ⟨hk, ex⟩ := List.getElem?_eq_some_iff.mp ek
      have hd : xs.drop k = x :: xs.drop (k + 1) := by rw [List.drop_eq_getElem_cons hk, ex]
      have hnd : (x :: xs.drop (k + 1)).Nodup := by rw [← hd]; exact h3.sublist (List.drop_sublist _ _)
      obtain ⟨y, ey, ho⟩ := (h4 x).mpr (by rw [hd]; exact List.mem_cons_self)
      have hst : s.stopServer x =
          ⟨s.cells, s.field, s.made.set x ⟨y.addr, y.port, false⟩, s.port, s.callers, s.crashed⟩ := by
        unfold ManSt.stopServer; rw [ey]; simp only [ho, if_true]
      simp only [Option.map_some]
      rw [hst]
      refine ⟨hc, _, at_i _, rfl, xs, h2, h3, ?_⟩
      intro z
      show AreOpen (s.made.set x ⟨y.addr, y.port, false⟩) z ↔ _
      rw [areOpen_close ey, h4, hd, List.mem_cons]
      constructor
      · rintro ⟨g | g, g'⟩
        · exact absurd g g'
        · exact g
      · intro g
        exact ⟨.inr g, fun e => (List.nodup_cons.mp hnd).1 (e ▸ g)⟩
  | reset go calls =>
    have hn : Neat (s.cells.make [] 0).1 (s.cells.make [] 0).2 s.made :=
      ⟨[], make_fits _ _ _, make_shown _ _ _, List.nodup_nil, fun x => ⟨fun g => absurd g (hs x), fun g => by cases g⟩⟩
    cases go
    · exact ⟨hc, _, at_i _, hn⟩
    · exact ⟨hc, _, at_i _, hn⟩
  | bind t calls =>
    simp only [ManSt.act]
    split
    · split
      · exact ⟨hc, _, at_i _, hs⟩
      · split
        · exact ⟨hc, _, at_i _, hs⟩
        · split
          · exact ⟨hc, _, at_i _, hs⟩
          · exact ⟨hc, _, at_i _, hs⟩
    · exact ⟨hc, _, at_i _, hs⟩
    · split
      · obtain ⟨xs, h1, h2, h3, h4⟩ := hs
        refine ⟨hc, _, at_i _, xs, h1, h2, ?_, ?_⟩
        · rw [List.nodup_append]
          refine ⟨h3, by simp, ?_⟩
          intro a ha b hb
          rw [List.mem_singleton] at hb
          have := areOpen_lt ((h4 a).mpr ha)
          omega
        · intro y
          show AreOpen (s.made ++ [_]) y ↔ _
          rw [areOpen_more, h4, List.mem_append, List.mem_singleton]
      · exact ⟨hc, _, at_i _, hs⟩
  | load x t calls => exact ⟨hc, _, at_i _, rfl, hs⟩
  | put x v t calls =>
    obtain ⟨hv, xs, h1, h2, h3, h4⟩ := hs
    subst hv
    have hsh := append_shown (room := room) s.cells s.field x h1
    rw [h2] at hsh
    exact ⟨hc, _, at_i _, xs ++ [x], append_fits _ _ _ h1, hsh.trans (by simp), h3, h4⟩
  | store v t calls => exact ⟨hc, _, at_i _, hs⟩

/-- At most one goroutine is in a call. -/
structure Ordered (s : ManSt) : Prop where
  fine : s.crashed = false
  one : ∃ i, (∀ (k : Nat) (p : ManPc), k ≠ i → s.callers[k]? = some p → ∃ cs, p = ManPc.idle cs) ∧ PointAt s ((s.callers[i]?).getD (.idle []))

theorem ordered_new (port : Nat) (calls : List (List ManCall)) : Ordered (ManSt.new port calls) := by
  have hid : ∀ (k : Nat) (p : ManPc), (ManSt.new port calls).callers[k]? = some p → ∃ cs, p = ManPc.idle cs := by
    intro k p hp
    change (calls.map ManPc.idle)[k]? = some p at hp
    rw [List.getElem?_map] at hp
    cases e : calls[k]? with
    | none => rw [e] at hp; cases hp
    | some cs => rw [e] at hp; cases hp; exact ⟨cs, rfl⟩
  have hn : Neat (ManSt.new port calls).cells (ManSt.new port calls).field (ManSt.new port calls).made := by
    refine ⟨[], ⟨Nat.zero_lt_one, Nat.le_refl _, Nat.le_refl _⟩, rfl, List.nodup_nil, fun x => ⟨?_, fun g => by cases g⟩⟩
    rintro ⟨y, e, -⟩
    cases e
  refine ⟨rfl, 0, fun k p _ => hid k p, ?_⟩
  cases e : (ManSt.new port calls).callers[0]? with
  | none => exact hn
  | some p =>
    obtain ⟨cs, rfl⟩ := hid 0 p e
    exact hn

theorem ordered_step {s : ManSt} (g : Ordered s) {i : Nat}
    (ht : ∀ (k : Nat) (p : ManPc), k ≠ i → s.callers[k]? = some p → ∃ cs, p = ManPc.idle cs) : Ordered (s.step h room i) := by
  obtain ⟨hc, j, hj, hph⟩ := g
  cases hp : s.callers[i]? with
  | none =>
    have : s.step h room i = s := by unfold ManSt.step; rw [hc, hp]; rfl
    rw [this]
    exact ⟨hc, j, hj, hph⟩
  | some p =>
    have hs : PointAt s p := by
      by_cases e : i = j
      · subst e; rw [hp] at hph; exact hph
      · obtain ⟨cs, rfl⟩ := hj i p e hp
        cases e' : s.callers[j]? with
        | none => rw [e'] at hph; exact hph
        | some q =>
          obtain ⟨cs', rfl⟩ := ht j q (fun e2 => e e2.symm) e'
          rw [e'] at hph; exact hph
    rw [manAct_of hc hp]
    obtain ⟨a1, p', a2, a3⟩ := pointAt_act (h := h) (room := room) hc hp hs
    obtain ⟨q, hq⟩ := act_callers (h := h) (room := room) s i p hp
    refine ⟨a1, i, ?_, by rw [a2]; exact a3⟩
    intro k r hk hr
    rw [hq, List.getElem?_set_ne (fun e => hk e.symm)] at hr
    exact ht k r hk hr

theorem ordered_run (is : List Nat) (s : ManSt) (g : Ordered s) (ht : InTurn h room s is) : Ordered (s.run h room is) := by
  induction is generalizing s with
  | nil => exact g
  | cons i is ih => exact ih _ (ordered_step g ht.1) ht.2

theorem neat_listed {s : ManSt} (hn : Neat s.cells s.field s.made) (x : Nat) : AreOpen s.made x ↔ x ∈ s.listed := by
  obtain ⟨xs, -, h2, -, h4⟩ := hn
  rw [h4]
  unfold ManSt.listed
  rw [h2]
  simp

theorem ordered_neat {s : ManSt} (g : Ordered s) (hn : NoCall s) : Neat s.cells s.field s.made := by
  obtain ⟨-, j, -, hph⟩ := g
  cases e : s.callers[j]? with
  | none => rw [e] at hph; exact hph
  | some p =>
    obtain ⟨cs, rfl⟩ := hn j p e
    rw [e] at hph; exact hph

/-- C172, when no two calls overlap: none of the calls panics, and when all have returned the open sockets are those of
the servers of the manager. -/
theorem C172_apart_partial (port : Nat) (calls : List (List ManCall)) (is : List Nat)
    (ht : InTurn h room (ManSt.new port calls) is) :
    ((ManSt.new port calls).run h room is).crashed = false ∧
    (NoCall ((ManSt.new port calls).run h room is) →
      ∀ x, AreOpen ((ManSt.new port calls).run h room is).made x ↔ x ∈ ((ManSt.new port calls).run h room is).listed) := by
  have g := ordered_run (h := h) (room := room) is _ (ordered_new port calls) ht
  exact ⟨g.fine, fun hn => neat_listed (ordered_neat g hn)⟩

/-! ## A `Stop` on its own -/

theorem stop_one {s : ManSt} {i k x : Nat} {go : Bool} {cs : List ManCall} {y : ManServer} (hc : s.crashed = false)
    (hp : s.callers[i]? = some (.stopping s.field k go cs)) (hk : (s.cells.shows s.field)[k]? = some (some x))
    (ey : s.made[x]? = some y) (ho : y.isOpen = true) :
    s.step h room i = ⟨s.cells, s.field, s.made.set x ⟨y.addr, y.port, false⟩, s.port,
      s.callers.set i (.stopping s.field (k + 1) go cs), s.crashed⟩ := by
  rw [manAct_of hc hp]
  simp only [ManSt.act, hk, ManSt.stopServer, ey, ho, if_true, ManSt.goto]

theorem stop_loop (i : Nat) (go : Bool) (cs : List ManCall) (xs : List Nat) (hnd : xs.Nodup) (m : Nat) :
    ∀ (s : ManSt) (k : Nat), s.crashed = false → s.callers[i]? = some (.stopping s.field k go cs) →
      s.cells.shows s.field = xs.map some → (∀ x, AreOpen s.made x ↔ x ∈ xs.drop k) → xs.length = k + m →
      (s.run h room (List.replicate (m + 1) i)).crashed = false ∧
      (s.run h room (List.replicate (m + 1) i)).callers[i]? = some (.reset go cs) ∧
      (s.run h room (List.replicate (m + 1) i)).port = s.port ∧
      ∀ x, ¬ AreOpen (s.run h room (List.replicate (m + 1) i)).made x := by
  induction m with
  | zero =>
    intro s k hc hp hs ho hl
    have hi : i < s.callers.length := (List.getElem?_eq_some_iff.mp hp).1
    have hk : (s.cells.shows s.field)[k]? = none := by
      rw [hs, List.getElem?_eq_none_iff, List.length_map]; omega
    have e : s.run h room (List.replicate (0 + 1) i) = s.goto i (.reset go cs) := by
      show s.step h room i = _
      rw [manAct_of hc hp]
      simp only [ManSt.act, hk]
    rw [e]
    refine ⟨hc, List.getElem?_set_self hi, rfl, fun x hx => ?_⟩
    have := (ho x).mp hx
    rw [List.drop_eq_nil_of_le (by omega)] at this
    cases this
  | succ m ih =>
    intro s k hc hp hs ho hl
    have hi : i < s.callers.length := (List.getElem?_eq_some_iff.mp hp).1
    have hk : k < xs.length := by omega
    have hd : xs.drop k = xs[k] :: xs.drop (k + 1) := List.drop_eq_getElem_cons hk
    have hn : (xs[k] :: xs.drop (k + 1)).Nodup := by rw [← hd]; exact hnd.sublist (List.drop_sublist _ _)
    obtain ⟨y, ey, hy⟩ := (ho xs[k]).mpr (by rw [hd]; exact List.mem_cons_self)
    rw [List.replicate_succ, manRun_cons,
      stop_one hc hp (by rw [hs, List.getElem?_map, List.getElem?_eq_getElem hk]; rfl) ey hy]
    refine ih _ (k + 1) hc (List.getElem?_set_self hi) hs ?_ (by omega)
    intro z
    show AreOpen (s.made.set xs[k] ⟨y.addr, y.port, false⟩) z ↔ _
    rw [areOpen_close ey, ho, hd, List.mem_cons]
    constructor
    · rintro ⟨g | g, g'⟩
      · exact absurd g g'
      · exact g
    · intro g
      exact ⟨.inr g, fun e => (List.nodup_cons.mp hn).1 (e ▸ g)⟩

/-- C172, when no two calls overlap: a `Stop` that no other call overlaps closes all sockets. -/
theorem C172_stopped_partial (port : Nat) (calls : List (List ManCall)) (is : List Nat)
    (ht : InTurn h room (ManSt.new port calls) is) (hn : NoCall ((ManSt.new port calls).run h room is)) {i : Nat}
    {cs : List ManCall} (hi : ((ManSt.new port calls).run h room is).callers[i]? = some (.idle (.stop :: cs))) :
    ∃ n, let s := (ManSt.new port calls).run h room (is ++ List.replicate n i)
      s.callers[i]? = some (.idle cs) ∧ s.crashed = false ∧ s.listed = [] ∧ ∀ x, ¬ AreOpen s.made x := by
  have g := ordered_run (h := h) (room := room) is _ (ordered_new port calls) ht
  obtain ⟨xs, -, h2, h3, h4⟩ := ordered_neat g hn
  refine ⟨1 + (xs.length + 1) + 1, ?_⟩
  dsimp only
  rw [manRun_append]
  generalize (ManSt.new port calls).run h room is = s at *
  have hl : i < s.callers.length := (List.getElem?_eq_some_iff.mp hi).1
  have e1 : s.step h room i = s.goto i (.stopping s.field 0 false cs) := by rw [manAct_of g.fine hi]; rfl
  obtain ⟨a1, a2, -, a3⟩ := stop_loop (h := h) (room := room) i false cs xs h3 xs.length (s.goto i (.stopping s.field 0 false cs))
    0 g.fine (List.getElem?_set_self hl) h2 h4 (Nat.zero_add _).symm
  rw [← List.replicate_append_replicate, manRun_append, ← List.replicate_append_replicate, manRun_append,
    show s.run h room (List.replicate 1 i) = s.step h room i from rfl, e1]
  generalize ((s.goto i (.stopping s.field 0 false cs)).run h room (List.replicate (xs.length + 1) i)) = s' at *
  have hl' : i < s'.callers.length := (List.getElem?_eq_some_iff.mp a2).1
  rw [show s'.run h room (List.replicate 1 i) = s'.step h room i from rfl, manAct_of a1 a2]
  refine ⟨List.getElem?_set_self hl', a1, ?_, a3⟩
  show ((s'.cells.make [] 0).1.shows (s'.cells.make [] 0).2).filterMap id = []
  rw [make_shown]; rfl

/-! ## A `Start` on its own -/

/-- Goroutine `i` has started servers at the addresses `done`. -/
structure Bound (port : Nat) (i : Nat) (done : List String) (t : Trying) (cs : List ManCall) (s : ManSt) : Prop where
  fine : s.crashed = false
  here : s.callers[i]? = some (.bind t cs)
  same : t.port = port
  good : t.err = false
  servers : ∃ xs : List Nat, Inside s.cells s.field ∧ s.cells.shows s.field = xs.map some ∧
    (∀ x, AreOpen s.made x ↔ x ∈ xs) ∧ xs.map (fun x => s.made[x]?) = done.map (fun a => some ⟨a, port, true⟩)

theorem bind_one {port i : Nat} {done : List String} {t : Trying} {cs : List ManCall} {s : ManSt} {a : String}
    {as : List String} {rest : List (List String)} (g : Bound port i done t cs s) (hr : t.rest = (a :: as) :: rest)
    (ha : a ∉ done) (hf : h.taken a port = false) :
    Bound port i (done ++ [a]) ⟨as :: rest, false, t.more, t.ports, t.port⟩ cs
      (s.run h room (List.replicate 4 i)) := by
  obtain ⟨hc, hp, hport, hgood, xs, h1, h2, h3, h4⟩ := g
  have hi : i < s.callers.length := (List.getElem?_eq_some_iff.mp hp).1
  have hcb : s.canBind h a t.port = true := by
    unfold ManSt.canBind
    rw [hport, hf, Bool.not_false, Bool.true_and, Bool.not_eq_true', List.any_eq_false]
    intro y hy
    obtain ⟨x, hx⟩ := List.mem_iff_getElem?.mp hy
    simp only [Bool.and_eq_true, beq_iff_eq, not_and]
    intro hyo _
    obtain ⟨ho, hya⟩ := hyo
    have hm : x ∈ xs := (h3 x).mp ⟨y, hx, ho⟩
    have : some y ∈ done.map (fun a => some (ManServer.mk a port true)) := by
      rw [← h4]; exact List.mem_map.mpr ⟨x, hm, hx⟩
    obtain ⟨b, hb, e⟩ := List.mem_map.mp this
    injection e with e
    rw [← e] at hya
    exact absurd (show a ∈ done from hya ▸ hb) ha
  let T : Trying := ⟨as :: rest, false, t.more, t.ports, t.port⟩
  let A := s.cells.append room s.field s.made.length
  have e1 : s.step h room i = ⟨s.cells, s.field, s.made ++ [⟨a, t.port, true⟩], s.port,
      s.callers.set i (.load s.made.length T cs), s.crashed⟩ := by
    rw [manAct_of hc hp]
    simp only [ManSt.act, hr, hcb, if_true]
    rfl
  have e2 : (ManSt.mk s.cells s.field (s.made ++ [⟨a, t.port, true⟩]) s.port
      (s.callers.set i (.load s.made.length T cs)) s.crashed).step h room i = ⟨s.cells, s.field,
        s.made ++ [⟨a, t.port, true⟩], s.port, s.callers.set i (.put s.made.length s.field T cs), s.crashed⟩ := by
    refine (manAct_of (by exact hc) (List.getElem?_set_self hi)).trans ?_
    show (⟨_, _, _, _, (s.callers.set i _).set i _, _⟩ : ManSt) = _
    rw [List.set_set]
  have e3 : (ManSt.mk s.cells s.field (s.made ++ [⟨a, t.port, true⟩]) s.port
      (s.callers.set i (.put s.made.length s.field T cs)) s.crashed).step h room i = ⟨A.1, s.field,
        s.made ++ [⟨a, t.port, true⟩], s.port, s.callers.set i (.store A.2 T cs), s.crashed⟩ := by
    refine (manAct_of (by exact hc) (List.getElem?_set_self hi)).trans ?_
    show (⟨_, _, _, _, (s.callers.set i _).set i _, _⟩ : ManSt) = _
    rw [List.set_set]
  have e4 : (ManSt.mk A.1 s.field (s.made ++ [⟨a, t.port, true⟩]) s.port
      (s.callers.set i (.store A.2 T cs)) s.crashed).step h room i = ⟨A.1, A.2,
        s.made ++ [⟨a, t.port, true⟩], s.port, s.callers.set i (.bind T cs), s.crashed⟩ := by
    refine (manAct_of (by exact hc) (List.getElem?_set_self hi)).trans ?_
    show (⟨_, _, _, _, (s.callers.set i _).set i _, _⟩ : ManSt) = _
    rw [List.set_set]
  have e : s.run h room (List.replicate 4 i) = ⟨A.1, A.2,
        s.made ++ [⟨a, t.port, true⟩], s.port, s.callers.set i (.bind T cs), s.crashed⟩ := by
    show s.run h room [i, i, i, i] = _
    rw [manRun_cons, e1, manRun_cons, e2, manRun_cons, e3]
    exact e4
  rw [e]
  refine ⟨hc, List.getElem?_set_self hi, hport, rfl, xs ++ [s.made.length], append_fits _ _ _ h1, ?_, ?_, ?_⟩
  · show (s.cells.append room s.field s.made.length).1.shows (s.cells.append room s.field s.made.length).2 = _
    rw [append_shown _ _ _ h1, h2]; simp
  · intro y
    show AreOpen (s.made ++ [_]) y ↔ _
    rw [areOpen_more, h3, List.mem_append, List.mem_singleton]
  · show (xs ++ [s.made.length]).map (fun x => (s.made ++ [⟨a, t.port, true⟩])[x]?) = _
    rw [List.map_append, List.map_append, ← h4, hport]
    congr 1
    · refine List.map_congr_left (fun x hx => ?_)
      exact List.getElem?_append_left (areOpen_lt ((h3 x).mpr hx))
    · simp

theorem bind_addrs {port i : Nat} {cs : List ManCall} {rest : List (List String)} (as : List String) :
    ∀ {done : List String} {t : Trying} {s : ManSt}, Bound port i done t cs s → t.rest = as :: rest →
      (done ++ as).Nodup → (∀ a ∈ as, h.taken a port = false) →
      ∃ n, Bound port i (done ++ as) ⟨[] :: rest, false, t.more, t.ports, t.port⟩ cs
        (s.run h room (List.replicate n i)) := by
  induction as with
  | nil =>
    intro done t s g hr _ _
    refine ⟨0, ?_⟩
    rw [List.append_nil, ← hr]
    have : (⟨t.rest, false, t.more, t.ports, t.port⟩ : Trying) = t := by rw [← g.good]
    rw [this]
    exact g
  | cons a as ih =>
    intro done t s g hr hn hf
    have hn' : (done ++ [a] ++ as).Nodup := by rw [List.append_assoc]; exact hn
    have ha : a ∉ done := fun e => (List.nodup_append.mp hn).2.2 a e a List.mem_cons_self rfl
    have g1 := bind_one (h := h) (room := room) g hr ha (hf a List.mem_cons_self)
    obtain ⟨n, g2⟩ := ih g1 rfl hn' (fun b hb => hf b (List.mem_cons_of_mem _ hb))
    refine ⟨4 + n, ?_⟩
    rw [← List.replicate_append_replicate, manRun_append]
    rw [List.append_assoc] at g2
    exact g2

theorem bind_all {port i : Nat} {cs : List ManCall} (rest : List (List String)) :
    ∀ {done : List String} {t : Trying} {s : ManSt}, Bound port i done t cs s → t.rest = rest →
      (done ++ rest.flatten).Nodup → (∀ a ∈ rest.flatten, h.taken a port = false) →
      ∃ n, Bound port i (done ++ rest.flatten) ⟨[], false, t.more, t.ports, t.port⟩ cs
        (s.run h room (List.replicate n i)) := by
  induction rest with
  | nil =>
    intro done t s g hr _ _
    refine ⟨0, ?_⟩
    have : (⟨[], false, t.more, t.ports, t.port⟩ : Trying) = t := by rw [← g.good, ← hr]
    rw [this, List.flatten_nil, List.append_nil]
    exact g
  | cons as rest ih =>
    intro done t s g hr hn hf
    rw [List.flatten_cons] at hn hf
    rw [← List.append_assoc] at hn
    obtain ⟨n, g1⟩ := bind_addrs (h := h) (room := room) as g hr (List.nodup_append.mp hn).1
      (fun a ha => hf a (List.mem_append_left _ ha))
    have hi := (List.getElem?_eq_some_iff.mp g1.here).1
    have e : (s.run h room (List.replicate n i)).step h room i = (s.run h room (List.replicate n i)).goto i
        (.bind ⟨rest, false, t.more, t.ports, t.port⟩ cs) := by
      rw [manAct_of g1.fine g1.here]; rfl
    have g2 : Bound port i (done ++ as) ⟨rest, false, t.more, t.ports, t.port⟩ cs
        ((s.run h room (List.replicate n i)).step h room i) := by
      rw [e]
      exact ⟨g1.fine, List.getElem?_set_self hi, g1.same, rfl, g1.servers⟩
    obtain ⟨m, g3⟩ := ih g2 rfl hn (fun a ha => hf a (List.mem_append_right _ ha))
    refine ⟨n + (1 + m), ?_⟩
    rw [← List.replicate_append_replicate, manRun_append, ← List.replicate_append_replicate, manRun_append,
      List.flatten_cons, ← List.append_assoc]
    exact g3

/-- C172, when no two calls overlap: a `Start` that no other call overlaps starts one server for each address, in this
order, when no other program uses one of them, and these are all sockets that are open. -/
theorem C172_started_partial (port : Nat) (calls : List (List ManCall)) (is : List Nat)
    (ht : InTurn h room (ManSt.new port calls) is) (hn : NoCall ((ManSt.new port calls).run h room is)) {i : Nat}
    {cs : List ManCall} (hi : ((ManSt.new port calls).run h room is).callers[i]? = some (.idle (.start :: cs)))
    (hd : h.addrs.flatten.Nodup)
    (hf : ∀ a ∈ h.addrs.flatten, h.taken a ((ManSt.new port calls).run h room is).port = false) :
    ∃ n, let s := (ManSt.new port calls).run h room (is ++ List.replicate n i)
      s.callers[i]? = some (.idle cs) ∧ s.crashed = false ∧ s.port = ((ManSt.new port calls).run h room is).port ∧
      s.listed.map (fun x => s.made[x]?) = h.addrs.flatten.map (fun a => some ⟨a, s.port, true⟩) ∧
      ∀ x, AreOpen s.made x ↔ x ∈ s.listed := by
  have g := ordered_run (h := h) (room := room) is _ (ordered_new port calls) ht
  obtain ⟨xs, -, h2, h3, h4⟩ := ordered_neat g hn
  have hl : i < ((ManSt.new port calls).run h room is).callers.length := (List.getElem?_eq_some_iff.mp hi).1
  have key : ∀ s : ManSt, s.crashed = false → s.callers[i]? = some (.idle (.start :: cs)) →
      s.cells.shows s.field = xs.map some → (∀ x, AreOpen s.made x ↔ x ∈ xs) →
      (∀ a ∈ h.addrs.flatten, h.taken a s.port = false) →
      ∃ n, (s.run h room (List.replicate n i)).callers[i]? = some (.idle cs) ∧
        (s.run h room (List.replicate n i)).crashed = false ∧ (s.run h room (List.replicate n i)).port = s.port ∧
        (s.run h room (List.replicate n i)).listed.map (fun x => (s.run h room (List.replicate n i)).made[x]?) =
          h.addrs.flatten.map (fun a => some ⟨a, s.port, true⟩) ∧
        ∀ x, AreOpen (s.run h room (List.replicate n i)).made x ↔ x ∈ (s.run h room (List.replicate n i)).listed := by
    intro s hc hi h2 h4 hf
    have hl : i < s.callers.length := (List.getElem?_eq_some_iff.mp hi).1
    have e1 : s.run h room (List.replicate 1 i) = s.goto i (.stopping s.field 0 true cs) := manAct_of hc hi
    obtain ⟨a1, a2, a3, a4⟩ := stop_loop (h := h) (room := room) i true cs xs h3 xs.length
      (s.goto i (.stopping s.field 0 true cs)) 0 hc (List.getElem?_set_self hl) h2 h4 (Nat.zero_add _).symm
    replace a3 := a3.trans (show _ = s.port from rfl)
    rw [← e1, ← manRun_append, List.replicate_append_replicate] at a1 a2 a3 a4
    have hl' := (List.getElem?_eq_some_iff.mp a2).1
    have g1 : Bound s.port i [] ⟨h.addrs, false, h.retries, h.ports, s.port⟩ cs
        (s.run h room (List.replicate (1 + (xs.length + 1) + 1) i)) := by
      rw [← List.replicate_append_replicate, manRun_append]
      generalize s.run h room (List.replicate (1 + (xs.length + 1)) i) = u at *
      have e : u.run h room (List.replicate 1 i) = u.act h room i (.reset true cs) := manAct_of a1 a2
      rw [e]
      refine ⟨a1, ?_, rfl, rfl, [], make_fits _ _ _, make_shown _ _ _,
        fun x => ⟨fun e => absurd e (a4 x), fun e => by cases e⟩, rfl⟩
      rw [show s.port = u.port from a3.symm]
      exact List.getElem?_set_self hl'
    obtain ⟨m, g2⟩ := bind_all (h := h) (room := room) h.addrs g1 rfl hd hf
    rw [← manRun_append, List.replicate_append_replicate, List.nil_append] at g2
    generalize hN : 1 + (xs.length + 1) + 1 + m = N at g2
    refine ⟨N + 1, ?_⟩
    rw [← List.replicate_append_replicate, manRun_append]
    generalize s.run h room (List.replicate N i) = u at *
    have e : u.run h room (List.replicate 1 i) = u.act h room i (.bind ⟨[], false, h.retries, h.ports, s.port⟩ cs) :=
      manAct_of g2.fine g2.here
    have hu := (List.getElem?_eq_some_iff.mp g2.here).1
    rw [e]
    obtain ⟨ys, -, b2, b3, b4⟩ := g2.servers
    have hls : u.listed = ys := by unfold ManSt.listed; rw [b2]; simp
    refine ⟨List.getElem?_set_self hu, g2.fine, rfl, ?_, ?_⟩
    · show u.listed.map (fun x => u.made[x]?) = _
      rw [hls]; exact b4
    · show ∀ x, AreOpen u.made x ↔ x ∈ u.listed
      rw [hls]; exact b3
  obtain ⟨n, k1, k2, k3, k4, k5⟩ := key _ g.fine hi h2 h4 hf
  rw [← manRun_append] at k1 k2 k3 k4 k5
  exact ⟨n, k1, k2, k3, by rw [k3]; exact k4, k5⟩

/-! ## Overlapping calls -/

/-- The array of a slice does not hold `x`. -/
def FreeOf (x : Nat) (c : Cells Nat) (v : View) : Prop := some x ∉ c.getD v.arr []

/-- A goroutine that has nothing to do with server `x`. -/
def Ignores (x : Nat) (c : Cells Nat) : ManPc → Prop
  | .idle _ => True
  | .stopping v _ _ _ => FreeOf x c v
  | .reset _ _ => True
  | .bind _ _ => True
  | .load y _ _ => y ≠ x
  | .put y v _ _ => y ≠ x ∧ FreeOf x c v
  | .store v _ _ => FreeOf x c v

/-- Server `x` runs, and neither the manager nor a goroutine knows it. -/
structure Forgotten (x : Nat) (y : ManServer) (s : ManSt) : Prop where
  runs : s.made[x]? = some y
  field : FreeOf x s.cells s.field
  pcs : ∀ p ∈ s.callers, Ignores x s.cells p

theorem freeOf_shows {x : Nat} {c : Cells Nat} {v : View} (g : FreeOf x c v) : some x ∉ c.shows v :=
  fun e => g (List.mem_of_mem_drop (List.mem_of_mem_take e))

theorem make_cases (c : Cells Nat) (xs : List (Option Nat)) (r a : Nat) :
    (c.make xs r).1.getD a [] = c.getD a [] ∨ (c.make xs r).1.getD a [] = xs ++ List.replicate r none := by
  unfold Cells.make
  rw [List.getD_eq_getElem?_getD, List.getD_eq_getElem?_getD]
  show ((c ++ _)[a]?).getD [] = _ ∨ ((c ++ _)[a]?).getD [] = _
  by_cases ha : a < c.length
  · rw [List.getElem?_append_left ha]; exact .inl rfl
  · rw [List.getElem?_append_right (by omega)]
    by_cases e : a = c.length
    · subst e; right; simp
    · left
      rw [List.getElem?_eq_none (by simp; omega), List.getElem?_eq_none (by omega)]

theorem make_free {x : Nat} {c : Cells Nat} {xs : List (Option Nat)} {r : Nat} (hx : some x ∉ xs) {w : View}
    (g : FreeOf x c w) : FreeOf x (c.make xs r).1 w := by
  unfold FreeOf
  rcases make_cases c xs r w.arr with e | e
  · rw [e]; exact g
  · rw [e]; simp [hx]

theorem make_free_new {x : Nat} (c : Cells Nat) {xs : List (Option Nat)} (r : Nat) (hx : some x ∉ xs) :
    FreeOf x (c.make xs r).1 (c.make xs r).2 := by
  show some x ∉ (c.make xs r).1.getD c.length []
  rw [make_new]; simp [hx]

theorem put_free {x y : Nat} {c : Cells Nat} {v : View} {k : Nat} (hy : y ≠ x) {w : View} (g : FreeOf x c w) :
    FreeOf x (c.put v k y) w := by
  unfold FreeOf
  rw [put_array]
  split
  · intro e
    rcases List.mem_or_eq_of_mem_set e with e | e
    · exact g e
    · cases e; exact hy rfl
  · exact g

theorem append_free {x y : Nat} {c : Cells Nat} {v : View} (hy : y ≠ x) (hv : FreeOf x c v) {w : View}
    (g : FreeOf x c w) : FreeOf x (c.append room v y).1 w := by
  unfold Cells.append
  split
  · exact put_free hy g
  · refine make_free ?_ g
    intro e
    rcases List.mem_append.mp e with e | e
    · exact freeOf_shows hv e
    · rw [List.mem_singleton] at e; cases e; exact hy rfl

theorem append_free_new {x y : Nat} {c : Cells Nat} {v : View} (hy : y ≠ x) (hv : FreeOf x c v) :
    FreeOf x (c.append room v y).1 (c.append room v y).2 := by
  unfold Cells.append
  split
  · exact put_free (w := ⟨v.arr, v.off, v.len + 1, v.cap⟩) hy hv
  · refine make_free_new _ _ ?_
    intro e
    rcases List.mem_append.mp e with e | e
    · exact freeOf_shows hv e
    · rw [List.mem_singleton] at e; cases e; exact hy rfl

theorem ignores_more {x : Nat} {c c' : Cells Nat} (hm : ∀ w, FreeOf x c w → FreeOf x c' w) {p : ManPc}
    (g : Ignores x c p) : Ignores x c' p := by
  cases p with
  | idle calls => trivial
  | stopping v k go calls => exact hm _ g
  | reset go calls => trivial
  | bind t calls => trivial
  | load y t calls => exact g
  | put y v t calls => exact ⟨g.1, hm _ g.2⟩
  | store v t calls => exact hm _ g

theorem forgotten_next {x : Nat} {y : ManServer} {s : ManSt} (g : Forgotten x y s) {i : Nat} {q : ManPc} (c : Cells Nat)
    (v : View) (made : List ManServer) (port : Nat) (crashed : Bool) (hm : ∀ w, FreeOf x s.cells w → FreeOf x c w)
    (hv : FreeOf x c v) (hy : made[x]? = some y) (hq : Ignores x c q) :
    Forgotten x y ⟨c, v, made, port, s.callers.set i q, crashed⟩ := by
  refine ⟨hy, hv, ?_⟩
  intro p hp
  rcases List.mem_or_eq_of_mem_set hp with e | e
  · exact ignores_more hm (g.pcs p e)
  · rw [e]; exact hq

theorem forgotten_goto {x : Nat} {y : ManServer} {s : ManSt} (g : Forgotten x y s) {i : Nat} {q : ManPc}
    (hq : Ignores x s.cells q) : Forgotten x y (s.goto i q) :=
  forgotten_next g _ _ _ _ _ (fun _ e => e) g.field g.runs hq

theorem forgotten_act {x : Nat} {y : ManServer} {s : ManSt} (g : Forgotten x y s) {i : Nat} {p : ManPc}
    (hp : s.callers[i]? = some p) : Forgotten x y (s.act h room i p) := by
  have hip := g.pcs p (List.mem_of_getElem? hp)
  cases p with
  | idle calls =>
    cases calls with
    | nil => exact g
    | cons c cs => cases c <;> exact forgotten_goto g g.field
  | stopping v k go calls =>
    simp only [ManSt.act]
    split
    · exact forgotten_goto g trivial
    · exact forgotten_goto g hip
    · next z hz =>
      have hzx : z ≠ x := fun e => freeOf_shows hip (e ▸ List.mem_of_getElem? hz)
      unfold ManSt.stopServer
      split
      · split
        · exact forgotten_next g _ _ _ _ _ (fun _ e => e) g.field (by rw [List.getElem?_set_ne hzx]; exact g.runs) hip
        · exact forgotten_next g _ _ _ _ _ (fun _ e => e) g.field g.runs hip
      · exact forgotten_goto g hip
  | reset go calls =>
    refine forgotten_next g _ _ _ _ _ (fun _ e => make_free (by simp) e) (make_free_new _ _ (by simp)) g.runs ?_
    cases go <;> trivial
  | bind t calls =>
    simp only [ManSt.act]
    split
    · split
      · exact forgotten_next g _ _ _ _ _ (fun _ e => e) g.field g.runs trivial
      · split
        · exact forgotten_goto g trivial
        · split <;> exact forgotten_goto g trivial
    · exact forgotten_goto g trivial
    · split
      · have hx := (List.getElem?_eq_some_iff.mp g.runs).1
        refine forgotten_next g _ _ _ _ _ (fun _ e => e) g.field ?_ (show s.made.length ≠ x by omega)
        rw [List.getElem?_append_left hx]; exact g.runs
      · exact forgotten_goto g trivial
  | load z t calls => exact forgotten_goto g ⟨hip, g.field⟩
  | put z v t calls =>
    exact forgotten_next g _ _ _ _ _ (fun _ e => append_free hip.1 hip.2 e) (append_free hip.1 hip.2 g.field) g.runs
      (append_free_new hip.1 hip.2)
  | store v t calls => exact forgotten_next g _ _ _ _ _ (fun _ e => e) hip g.runs trivial

theorem forgotten_run {x : Nat} {y : ManServer} (is : List Nat) (s : ManSt) (g : Forgotten x y s) :
    Forgotten x y (s.run h room is) := by
  induction is generalizing s with
  | nil => exact g
  | cons i is ih =>
    refine ih _ ?_
    unfold ManSt.step
    split
    · exact g
    · split
      · next p hp => exact forgotten_act g hp
      · exact g

theorem forgotten_listed {x : Nat} {y : ManServer} {s : ManSt} (g : Forgotten x y s) : x ∉ s.listed := by
  intro e
  unfold ManSt.listed at e
  obtain ⟨o, ho, e'⟩ := List.mem_filterMap.mp e
  cases e'
  exact freeOf_shows g.field ho

/-- Goroutine `j` starts the manager while goroutine `i` is between the two parts of `Stop`. -/
def overlap (i j : Nat) : List Nat := [i, i, j, j, j, j, j, j, j, i]

theorem overlap_run {port i j : Nat} {calls : List (List ManCall)} {ci cj : List ManCall} {a : String} {as : List String}
    {rest : List (List String)} (hij : i ≠ j) (hi : calls[i]? = some (.stop :: ci)) (hj : calls[j]? = some (.start :: cj))
    (ha : h.addrs = (a :: as) :: rest) (hfree : h.taken a port = false) :
    ∃ c v, (ManSt.new port calls).run h room (overlap i j) =
      ⟨c, v, [⟨a, port, true⟩], port, (((calls.map ManPc.idle).set i (.reset false ci)).set j
        (.bind ⟨as :: rest, false, h.retries, h.ports, port⟩ cj)).set i (.idle ci), false⟩ ∧ v.len = 0 ∧ FreeOf 0 c v := by
  have mk (c v m L) (k : Nat) (p : ManPc) (hk : L[k]? = some p) :
      (⟨c, v, m, port, L, false⟩ : ManSt).step h room k = (⟨c, v, m, port, L, false⟩ : ManSt).act h room k p :=
    manAct_of rfl hk
  have hLi : (calls.map ManPc.idle)[i]? = some (.idle (.stop :: ci)) := by rw [List.getElem?_map, hi]; rfl
  have hLj : (calls.map ManPc.idle)[j]? = some (.idle (.start :: cj)) := by rw [List.getElem?_map, hj]; rfl
  have hni : i < (calls.map ManPc.idle).length := (List.getElem?_eq_some_iff.mp hLi).1
  have hnj : j < (calls.map ManPc.idle).length := (List.getElem?_eq_some_iff.mp hLj).1
  show ∃ c v, ManSt.run h room ⟨[[]], ⟨0, 0, 0, 0⟩, [], port, calls.map ManPc.idle, false⟩ _ = _ ∧ _
  generalize calls.map ManPc.idle = L at *
  have s1 : ManSt.step h room ⟨[[]], ⟨0, 0, 0, 0⟩, [], port, L, false⟩ i =
      ⟨[[]], ⟨0, 0, 0, 0⟩, [], port, L.set i (.stopping ⟨0, 0, 0, 0⟩ 0 false ci), false⟩ := mk _ _ _ _ _ _ hLi
  have s2 : ManSt.step h room ⟨[[]], ⟨0, 0, 0, 0⟩, [], port, L.set i (.stopping ⟨0, 0, 0, 0⟩ 0 false ci), false⟩ i =
      ⟨[[]], ⟨0, 0, 0, 0⟩, [], port, L.set i (.reset false ci), false⟩ :=
    (mk _ _ _ _ _ _ (List.getElem?_set_self hni)).trans (by
      show (⟨_, _, _, _, (L.set i _).set i _, _⟩ : ManSt) = _
      rw [List.set_set])
  have hK : (L.set i (.reset false ci))[j]? = some (.idle (.start :: cj)) := by
    rw [List.getElem?_set_ne hij]; exact hLj
  have hnk : j < (L.set i (.reset false ci)).length := by rw [List.length_set]; exact hnj
  have hKi : (L.set i (.reset false ci))[i]? = some (.reset false ci) := List.getElem?_set_self hni
  unfold overlap
  rw [manRun_cons, s1, manRun_cons, s2, manRun_cons, mk _ _ _ _ _ _ hK]
  generalize L.set i (.reset false ci) = K at *
  have nxt (c v m) (q p : ManPc) :
      (⟨c, v, m, port, K.set j q, false⟩ : ManSt).step h room j =
        (⟨c, v, m, port, K.set j q, false⟩ : ManSt).act h room j q := mk _ _ _ _ _ _ (List.getElem?_set_self hnk)
  have e3 : ManSt.act h room ⟨[[]], ⟨0, 0, 0, 0⟩, [], port, K, false⟩ j (.idle (.start :: cj)) =
      ⟨[[]], ⟨0, 0, 0, 0⟩, [], port, K.set j (.stopping ⟨0, 0, 0, 0⟩ 0 true cj), false⟩ := rfl
  have e4 : ManSt.act h room ⟨[[]], ⟨0, 0, 0, 0⟩, [], port, K.set j (.stopping ⟨0, 0, 0, 0⟩ 0 true cj), false⟩ j
      (.stopping ⟨0, 0, 0, 0⟩ 0 true cj) = ⟨[[]], ⟨0, 0, 0, 0⟩, [], port, K.set j (.reset true cj), false⟩ := by
    show (⟨_, _, _, _, (K.set j _).set j _, _⟩ : ManSt) = _
    rw [List.set_set]
  have e5 : ManSt.act h room ⟨[[]], ⟨0, 0, 0, 0⟩, [], port, K.set j (.reset true cj), false⟩ j (.reset true cj) =
      ⟨[[], []], ⟨1, 0, 0, 0⟩, [], port, K.set j (.bind ⟨h.addrs, false, h.retries, h.ports, port⟩ cj), false⟩ := by
    show (⟨_, _, _, _, (K.set j _).set j _, _⟩ : ManSt) = _
    rw [List.set_set]; rfl
  have e6 : ManSt.act h room ⟨[[], []], ⟨1, 0, 0, 0⟩, [], port,
        K.set j (.bind ⟨(a :: as) :: rest, false, h.retries, h.ports, port⟩ cj), false⟩ j
        (.bind ⟨(a :: as) :: rest, false, h.retries, h.ports, port⟩ cj) =
      ⟨[[], []], ⟨1, 0, 0, 0⟩, [⟨a, port, true⟩], port,
        K.set j (.load 0 ⟨as :: rest, false, h.retries, h.ports, port⟩ cj), false⟩ := by
    simp only [ManSt.act, ManSt.canBind, hfree, List.any_nil, Bool.not_false, Bool.and_self, if_true, List.set_set]
    rfl
  have e7 : ManSt.act h room ⟨[[], []], ⟨1, 0, 0, 0⟩, [⟨a, port, true⟩], port,
        K.set j (.load 0 ⟨as :: rest, false, h.retries, h.ports, port⟩ cj), false⟩ j
        (.load 0 ⟨as :: rest, false, h.retries, h.ports, port⟩ cj) =
      ⟨[[], []], ⟨1, 0, 0, 0⟩, [⟨a, port, true⟩], port,
        K.set j (.put 0 ⟨1, 0, 0, 0⟩ ⟨as :: rest, false, h.retries, h.ports, port⟩ cj), false⟩ := by
    show (⟨_, _, _, _, (K.set j _).set j _, _⟩ : ManSt) = _
    rw [List.set_set]
  have e8 (c : Cells Nat) : ManSt.act h room ⟨c, ⟨1, 0, 0, 0⟩, [⟨a, port, true⟩], port,
        K.set j (.put 0 ⟨1, 0, 0, 0⟩ ⟨as :: rest, false, h.retries, h.ports, port⟩ cj), false⟩ j
        (.put 0 ⟨1, 0, 0, 0⟩ ⟨as :: rest, false, h.retries, h.ports, port⟩ cj) =
      ⟨(c.append room ⟨1, 0, 0, 0⟩ 0).1, ⟨1, 0, 0, 0⟩, [⟨a, port, true⟩], port,
        K.set j (.store (c.append room ⟨1, 0, 0, 0⟩ 0).2 ⟨as :: rest, false, h.retries, h.ports, port⟩ cj), false⟩ := by
    show (⟨_, _, _, _, (K.set j _).set j _, _⟩ : ManSt) = _
    rw [List.set_set]
  have e9 (c : Cells Nat) (v w : View) : ManSt.act h room ⟨c, v, [⟨a, port, true⟩], port,
        K.set j (.store w ⟨as :: rest, false, h.retries, h.ports, port⟩ cj), false⟩ j
        (.store w ⟨as :: rest, false, h.retries, h.ports, port⟩ cj) =
      ⟨c, w, [⟨a, port, true⟩], port, K.set j (.bind ⟨as :: rest, false, h.retries, h.ports, port⟩ cj), false⟩ := by
    show (⟨_, _, _, _, (K.set j _).set j _, _⟩ : ManSt) = _
    rw [List.set_set]
  rw [e3, manRun_cons, nxt _ _ _ _ (.idle []), e4, manRun_cons, nxt _ _ _ _ (.idle []), e5, ha, manRun_cons,
    nxt _ _ _ _ (.idle []), e6, manRun_cons, nxt _ _ _ _ (.idle []), e7, manRun_cons, nxt _ _ _ _ (.idle []), e8,
    manRun_cons, nxt _ _ _ _ (.idle []), e9, manRun_cons,
    mk _ _ _ _ i (.reset false ci) (by rw [List.getElem?_set_ne (fun e => hij e.symm)]; exact hKi)]
  exact ⟨_, _, rfl, rfl, make_free_new _ _ (by simp)⟩

/-- C172 does not hold: when a `Start` and a `Stop` overlap, both return, and the socket of a server stays open that is
not among the servers of the manager, whatever is called later. -/
theorem C172_refuted {port i j : Nat} {calls : List (List ManCall)} {ci cj : List ManCall} {a : String} {as : List String}
    {rest : List (List String)} (hij : i ≠ j) (hi : calls[i]? = some (.stop :: ci)) (hj : calls[j]? = some (.start :: cj))
    (ha : h.addrs = (a :: as) :: rest) (hfree : h.taken a port = false) :
    ((ManSt.new port calls).run h room (overlap i j)).callers[i]? = some (.idle ci) ∧
    ∀ more, AreOpen ((ManSt.new port calls).run h room (overlap i j ++ more)).made 0 ∧
      0 ∉ ((ManSt.new port calls).run h room (overlap i j ++ more)).listed := by
  obtain ⟨c, v, e, -, hf⟩ := overlap_run (h := h) (room := room) hij hi hj ha hfree
  have hni : i < calls.length := (List.getElem?_eq_some_iff.mp hi).1
  have g : Forgotten 0 ⟨a, port, true⟩ ((ManSt.new port calls).run h room (overlap i j)) := by
    rw [e]
    refine ⟨rfl, hf, ?_⟩
    intro p hp
    rcases List.mem_or_eq_of_mem_set hp with hp | rfl
    · rcases List.mem_or_eq_of_mem_set hp with hp | rfl
      · rcases List.mem_or_eq_of_mem_set hp with hp | rfl
        · obtain ⟨cs, -, rfl⟩ := List.mem_map.mp hp; trivial
        · trivial
      · trivial
    · trivial
  refine ⟨by rw [e]; exact List.getElem?_set_self (by simpa using hni), fun more => ?_⟩
  rw [manRun_append]
  have g' := forgotten_run (h := h) (room := room) more _ g
  exact ⟨⟨_, g'.runs, rfl⟩, forgotten_listed g'⟩

/-- A goroutine that will bind nothing but the given address and port. -/
def Blocked (a : String) (port : Nat) : ManPc → Prop
  | .idle _ => True
  | .stopping v _ _ _ => v.len = 0
  | .reset _ _ => True
  | .bind t _ => t.port = port ∧ t.ports = 0 ∧ ∀ l ∈ t.rest, ∀ b ∈ l, b = a
  | _ => False

/-- The only server that was ever started is not known, and its address is the only one there is. -/
structure Hopeless (a : String) (port : Nat) (s : ManSt) : Prop where
  made : s.made = [⟨a, port, true⟩]
  same : s.port = port
  field : s.field.len = 0
  pcs : ∀ p ∈ s.callers, Blocked a port p

theorem hopeless_goto {a : String} {port : Nat} {s : ManSt} (g : Hopeless a port s) {i : Nat} {q : ManPc}
    (hq : Blocked a port q) : Hopeless a port (s.goto i q) := by
  refine ⟨g.made, g.same, g.field, ?_⟩
  intro p hp
  rcases List.mem_or_eq_of_mem_set hp with e | e
  · exact g.pcs p e
  · rw [e]; exact hq

theorem hopeless_act {a : String} {port : Nat} (ha : h.addrs = [[a]]) (hp0 : h.ports = 0) {s : ManSt}
    (g : Hopeless a port s) {i : Nat} {p : ManPc} (hp : s.callers[i]? = some p) :
    Hopeless a port (s.act h room i p) := by
  have hip := g.pcs p (List.mem_of_getElem? hp)
  have hall : ∀ l ∈ h.addrs, ∀ b ∈ l, b = a := by rw [ha]; simp
  cases p with
  | idle calls =>
    cases calls with
    | nil => exact g
    | cons c cs => cases c <;> exact hopeless_goto g g.field
  | stopping v k go calls =>
    have : s.cells.shows v = [] := by unfold Cells.shows; rw [show v.len = 0 from hip]; simp
    simp only [ManSt.act, this]
    exact hopeless_goto g trivial
  | reset go calls =>
    have := hopeless_goto g (i := i) (q := if go then .bind ⟨h.addrs, false, h.retries, h.ports, s.port⟩ calls
      else .idle calls) (by cases go; exact trivial; exact ⟨g.same, hp0, hall⟩)
    exact ⟨this.made, this.same, rfl, this.pcs⟩
  | bind t calls =>
    obtain ⟨h1, h2, h3⟩ := hip
    simp only [ManSt.act]
    split
    · split
      · have := hopeless_goto g (i := i) (q := .idle calls) trivial
        exact ⟨this.made, h1, this.field, this.pcs⟩
      · split
        · exact hopeless_goto g ⟨h1, h2, hall⟩
        · split
          · next hlt => rw [h2] at hlt; exact absurd hlt (Nat.lt_irrefl 0)
          · exact hopeless_goto g trivial
    · next rest e => exact hopeless_goto g ⟨h1, h2, fun l hl => h3 l (by rw [e]; exact List.mem_cons_of_mem _ hl)⟩
    · next b as rest e =>
      have hb : b = a := h3 (b :: as) (by rw [e]; exact List.mem_cons_self) b List.mem_cons_self
      have hcb : s.canBind h b t.port = false := by
        unfold ManSt.canBind; rw [g.made, hb, h1]; simp
      rw [hcb]
      exact hopeless_goto g ⟨h1, h2, fun l hl => h3 l (by rw [e]; exact List.mem_cons_of_mem _ hl)⟩
  | load z t calls => exact absurd hip id
  | put z v t calls => exact absurd hip id
  | store v t calls => exact absurd hip id

theorem hopeless_run {a : String} {port : Nat} (ha : h.addrs = [[a]]) (hp0 : h.ports = 0) (is : List Nat) (s : ManSt)
    (g : Hopeless a port s) : Hopeless a port (s.run h room is) := by
  induction is generalizing s with
  | nil => exact g
  | cons i is ih =>
    refine ih _ ?_
    unfold ManSt.step
    split
    · exact g
    · split
      · next p hp => exact hopeless_act ha hp0 g hp
      · exact g

/-- C172 does not hold: with one address and a fixed port, after such an overlap no `Start` ever starts a server again,
as the forgotten one keeps the address. -/
theorem C172_refuted_blocked {port i j : Nat} {calls : List (List ManCall)} {ci cj : List ManCall} {a : String}
    (hij : i ≠ j) (hi : calls[i]? = some (.stop :: ci)) (hj : calls[j]? = some (.start :: cj)) (ha : h.addrs = [[a]])
    (hp0 : h.ports = 0) (hfree : h.taken a port = false) (more : List Nat) :
    ((ManSt.new port calls).run h room (overlap i j ++ more)).listed = [] ∧
    ((ManSt.new port calls).run h room (overlap i j ++ more)).made = [⟨a, port, true⟩] := by
  obtain ⟨c, v, e, hv, -⟩ := overlap_run (h := h) (room := room) hij hi hj ha hfree
  have g : Hopeless a port ((ManSt.new port calls).run h room (overlap i j)) := by
    rw [e]
    refine ⟨rfl, rfl, hv, ?_⟩
    intro p hp
    rcases List.mem_or_eq_of_mem_set hp with hp | rfl
    · rcases List.mem_or_eq_of_mem_set hp with hp | rfl
      · rcases List.mem_or_eq_of_mem_set hp with hp | rfl
        · obtain ⟨cs, -, rfl⟩ := List.mem_map.mp hp; trivial
        · trivial
      · exact ⟨rfl, hp0, by simp⟩
    · trivial
  have g' := hopeless_run (room := room) ha hp0 more _ g
  rw [manRun_append]
  refine ⟨?_, g'.made⟩
  unfold ManSt.listed Cells.shows
  rw [g'.field]; simp

/-- C172 does not hold: when a server runs and two goroutines call `Start` or `Stop` at the same time, one of them
panics. -/
theorem C172_refuted_panic {s : ManSt} {i j x : Nat} {c d : ManCall} {ci cj : List ManCall} {y : ManServer}
    (hij : i ≠ j) (hc : s.crashed = false) (hi : s.callers[i]? = some (.idle (c :: ci)))
    (hj : s.callers[j]? = some (.idle (d :: cj))) (hx : (s.cells.shows s.field)[0]? = some (some x))
    (hy : s.made[x]? = some y) (ho : y.isOpen = true) : (s.run h room [i, j, i, j]).crashed = true := by
  have hni : i < s.callers.length := (List.getElem?_eq_some_iff.mp hi).1
  have hnj : j < s.callers.length := (List.getElem?_eq_some_iff.mp hj).1
  have hnx : x < s.made.length := (List.getElem?_eq_some_iff.mp hy).1
  have first (s : ManSt) (k : Nat) (c : ManCall) (cs : List ManCall) (hc : s.crashed = false)
      (hk : s.callers[k]? = some (.idle (c :: cs))) :
      ∃ go, s.step h room k = s.goto k (.stopping s.field 0 go cs) := by
    rw [manAct_of hc hk]
    cases c
    · exact ⟨true, rfl⟩
    · exact ⟨false, rfl⟩
  obtain ⟨g1, e1⟩ := first s i c ci hc hi
  obtain ⟨g2, e2⟩ := first (s.goto i (.stopping s.field 0 g1 ci)) j d cj hc
    (by show (s.callers.set i _)[j]? = _; rw [List.getElem?_set_ne hij]; exact hj)
  have e3 := stop_one (h := h) (room := room) (s := (s.goto i (.stopping s.field 0 g1 ci)).goto j (.stopping s.field 0 g2 cj))
    (i := i) (k := 0) (x := x) (go := g1) (cs := ci) (y := y) hc (by
      show ((s.callers.set i _).set j _)[i]? = _
      rw [List.getElem?_set_ne (fun e => hij e.symm)]
      exact List.getElem?_set_self hni) hx hy ho
  rw [manRun_cons, e1, manRun_cons, e2, manRun_cons]
  have e3' := e3
  rw [show (s.goto i (.stopping s.field 0 g1 ci)).field = s.field from rfl, e3']
  have e4 : ∀ t : ManSt, t.crashed = false → t.callers[j]? = some (.stopping s.field 0 g2 cj) →
      (t.run h room [j]).crashed = (t.act h room j (.stopping s.field 0 g2 cj)).crashed :=
    fun t h1 h2 => congrArg ManSt.crashed (manAct_of h1 h2)
  refine (e4 _ ?_ ?_).trans ?_
  · exact hc
  · show (((s.callers.set i _).set j _).set i _)[j]? = _
    rw [List.getElem?_set_ne hij]
    exact List.getElem?_set_self (by rw [List.length_set]; exact hnj)
  have hx' : (s.cells.shows s.field)[0]? = some (some x) := hx
  have hz : (s.made.set x ⟨y.addr, y.port, false⟩)[x]? = some ⟨y.addr, y.port, false⟩ := List.getElem?_set_self hnx
  simp only [ManSt.act, ManSt.goto, hx', ManSt.stopServer, hz]
  rfl

/-! ## All schedules -/

/-- A list without nil, of servers that were started. -/
def Solid (c : Cells Nat) (n : Nat) (v : View) : Prop := Inside c v ∧ ∀ e ∈ c.shows v, ∃ x, x < n ∧ e = some x

/-- The lists and servers a goroutine holds. -/
def SoundPc (c : Cells Nat) (n : Nat) : ManPc → Prop
  | .idle _ => True
  | .stopping v _ _ _ => Solid c n v
  | .reset _ _ => True
  | .bind _ _ => True
  | .load y _ _ => y < n
  | .put y v _ _ => y < n ∧ Solid c n v
  | .store v _ _ => Solid c n v

/-- No two open sockets have the same address and port. -/
def Sole (made : List ManServer) : Prop :=
  ∀ (x y : Nat) (a b : ManServer), made[x]? = some a → made[y]? = some b → a.isOpen = true → b.isOpen = true →
    a.addr = b.addr → a.port = b.port → x = y

structure Regular (s : ManSt) : Prop where
  field : Solid s.cells s.made.length s.field
  pcs : ∀ p ∈ s.callers, SoundPc s.cells s.made.length p
  sole : Sole s.made

theorem put_elem {c : Cells Nat} {v w : View} {k y : Nat} {e : Option Nat} (he : e ∈ (c.put v k y).shows w) :
    e = some y ∨ e ∈ c.shows w := by
  unfold Cells.shows at he ⊢
  rw [put_array] at he
  split at he
  · obtain ⟨n, hn⟩ := List.mem_iff_getElem?.mp he
    rw [List.getElem?_take] at hn
    split at hn
    · next hlt =>
      rw [List.getElem?_drop, List.getElem?_set] at hn
      split at hn
      · split at hn
        · cases hn; exact .inl rfl
        · cases hn
      · right
        refine List.mem_iff_getElem?.mpr ⟨n, ?_⟩
        rw [List.getElem?_take, if_pos hlt, List.getElem?_drop]; exact hn
    · cases hn
  · exact .inr he

theorem solid_more {c : Cells Nat} {n m : Nat} (hm : n ≤ m) {v : View} (g : Solid c n v) : Solid c m v :=
  ⟨g.1, fun e he => by obtain ⟨x, hx, e⟩ := g.2 e he; exact ⟨x, by omega, e⟩⟩

theorem solid_append {c : Cells Nat} {n y : Nat} {v w : View} (hy : y < n) (g : Solid c n w) :
    Solid (c.append room v y).1 n w := by
  refine ⟨append_keeps _ _ _ _ g.1, ?_⟩
  intro e he
  unfold Cells.append at he
  split at he
  · rcases put_elem he with rfl | he
    · exact ⟨y, hy, rfl⟩
    · exact g.2 e he
  · rw [make_shows _ _ _ _ g.1.1] at he
    exact g.2 e he

theorem solid_make {c : Cells Nat} {n r : Nat} {xs : List (Option Nat)} {w : View} (g : Solid c n w) :
    Solid (c.make xs r).1 n w :=
  ⟨make_keeps _ _ _ _ g.1, by rw [make_shows _ _ _ _ g.1.1]; exact g.2⟩

theorem sound_more {c c' : Cells Nat} {n n' : Nat} (hn : n ≤ n') (hm : ∀ w, Solid c n w → Solid c' n' w) {p : ManPc}
    (g : SoundPc c n p) : SoundPc c' n' p := by
  cases p with
  | idle calls => trivial
  | stopping v k go calls => exact hm _ g
  | reset go calls => trivial
  | bind t calls => trivial
  | load y t calls => exact Nat.lt_of_lt_of_le g hn
  | put y v t calls => exact ⟨Nat.lt_of_lt_of_le g.1 hn, hm _ g.2⟩
  | store v t calls => exact hm _ g

theorem regular_next {s : ManSt} (g : Regular s) {i : Nat} {q : ManPc} (c : Cells Nat) (v : View)
    (made : List ManServer) (port : Nat) (crashed : Bool) (hn : s.made.length ≤ made.length)
    (hm : ∀ w, Solid s.cells s.made.length w → Solid c made.length w) (hv : Solid c made.length v) (hs : Sole made)
    (hq : SoundPc c made.length q) : Regular ⟨c, v, made, port, s.callers.set i q, crashed⟩ := by
  refine ⟨hv, ?_, hs⟩
  intro p hp
  rcases List.mem_or_eq_of_mem_set hp with e | e
  · exact sound_more hn hm (g.pcs p e)
  · rw [e]; exact hq

theorem regular_goto {s : ManSt} (g : Regular s) {i : Nat} {q : ManPc} (hq : SoundPc s.cells s.made.length q) :
    Regular (s.goto i q) :=
  regular_next g _ _ _ _ _ (Nat.le_refl _) (fun _ e => e) g.field g.sole hq

theorem sole_close {made : List ManServer} (g : Sole made) (x : Nat) (y : ManServer) (hy : y.isOpen = false) :
    Sole (made.set x y) := by
  intro u w a b hu hw ha hb h1 h2
  have old (u : Nat) (a : ManServer) (hu : (made.set x y)[u]? = some a) (ha : a.isOpen = true) : made[u]? = some a := by
    rw [List.getElem?_set] at hu
    split at hu
    · split at hu
      · cases hu; rw [hy] at ha; cases ha
      · cases hu
    · exact hu
  exact g u w a b (old u a hu ha) (old w b hw hb) ha hb h1 h2

theorem sole_bind {s : ManSt} (g : Sole s.made) {a : String} {p : Nat} (hb : s.canBind h a p = true) :
    Sole (s.made ++ [⟨a, p, true⟩]) := by
  unfold ManSt.canBind at hb
  simp only [Bool.and_eq_true, Bool.not_eq_true', List.any_eq_false, Bool.and_eq_true, beq_iff_eq, not_and] at hb
  have cases_ (u : Nat) (y : ManServer) (hu : (s.made ++ [⟨a, p, true⟩])[u]? = some y) :
      s.made[u]? = some y ∨ (u = s.made.length ∧ y = ⟨a, p, true⟩) := by
    by_cases hl : u < s.made.length
    · rw [List.getElem?_append_left hl] at hu; exact .inl hu
    · have hlt := (List.getElem?_eq_some_iff.mp hu).1
      simp at hlt
      have : u = s.made.length := by omega
      subst this
      simp at hu
      exact .inr ⟨rfl, hu.symm⟩
  intro u w x y hu hw hx hy h1 h2
  rcases cases_ u x hu with gu | ⟨gu, rfl⟩
  · rcases cases_ w y hw with gw | ⟨gw, rfl⟩
    · exact g u w x y gu gw hx hy h1 h2
    · exact absurd h2 (hb.2 x (List.mem_of_getElem? gu) ⟨hx, h1⟩)
  · rcases cases_ w y hw with gw | ⟨gw, rfl⟩
    · exact absurd h2.symm (hb.2 y (List.mem_of_getElem? gw) ⟨hy, h1.symm⟩)
    · omega

theorem regular_act {s : ManSt} (g : Regular s) {i : Nat} {p : ManPc} (hp : s.callers[i]? = some p) :
    Regular (s.act h room i p) := by
  have hip := g.pcs p (List.mem_of_getElem? hp)
  cases p with
  | idle calls =>
    cases calls with
    | nil => exact g
    | cons c cs => cases c <;> exact regular_goto g g.field
  | stopping v k go calls =>
    simp only [ManSt.act]
    split
    · exact regular_goto g trivial
    · exact regular_goto g hip
    · next z hz =>
      unfold ManSt.stopServer
      split
      · next y ey =>
        have hl (y' : ManServer) : (s.made.set z y').length = s.made.length := List.length_set
        split
        · exact regular_next g _ _ _ _ _ (by rw [hl]; exact Nat.le_refl _) (by rw [hl]; exact fun _ e => e)
            (by rw [hl]; exact g.field) (sole_close g.sole _ _ rfl) (by rw [hl]; exact hip)
        · exact regular_next g _ _ _ _ _ (Nat.le_refl _) (fun _ e => e) g.field g.sole hip
      · exact regular_goto g hip
  | reset go calls =>
    refine regular_next g _ _ _ _ _ (Nat.le_refl _) (fun _ e => solid_make e) ⟨make_fits _ _ _, ?_⟩ g.sole ?_
    · exact fun e he => absurd (make_shown s.cells [] 0 ▸ he : e ∈ ([] : List (Option Nat))) (by simp)
    · cases go <;> trivial
  | bind t calls =>
    simp only [ManSt.act]
    split
    · split
      · exact regular_next g _ _ _ _ _ (Nat.le_refl _) (fun _ e => e) g.field g.sole trivial
      · split
        · exact regular_goto g trivial
        · split <;> exact regular_goto g trivial
    · exact regular_goto g trivial
    · split
      · next hb =>
        have hl (y' : ManServer) : (s.made ++ [y']).length = s.made.length + 1 := by simp
        exact regular_next g _ _ _ _ _ (by rw [hl]; omega) (by rw [hl]; exact fun _ e => solid_more (by omega) e)
          (by rw [hl]; exact solid_more (by omega) g.field) (sole_bind g.sole hb)
          (show s.made.length < _ by rw [hl]; omega)
      · exact regular_goto g trivial
  | load z t calls => exact regular_goto g ⟨hip, g.field⟩
  | put z v t calls =>
    refine regular_next g _ _ _ _ _ (Nat.le_refl _) (fun _ e => solid_append hip.1 e) (solid_append hip.1 g.field) g.sole ?_
    refine ⟨append_fits _ _ _ hip.2.1, ?_⟩
    rw [append_shown _ _ _ hip.2.1]
    intro e he
    rcases List.mem_append.mp he with he | he
    · exact hip.2.2 e he
    · rw [List.mem_singleton] at he; exact ⟨z, hip.1, he⟩
  | store v t calls => exact regular_next g _ _ _ _ _ (Nat.le_refl _) (fun _ e => e) hip g.sole trivial

theorem regular_run (is : List Nat) (s : ManSt) (g : Regular s) : Regular (s.run h room is) := by
  induction is generalizing s with
  | nil => exact g
  | cons i is ih =>
    refine ih _ ?_
    unfold ManSt.step
    split
    · exact g
    · split
      · next p hp => exact regular_act g hp
      · exact g

theorem regular_new (port : Nat) (calls : List (List ManCall)) : Regular (ManSt.new port calls) := by
  refine ⟨⟨⟨Nat.zero_lt_one, Nat.le_refl _, Nat.le_refl _⟩, fun e he => by cases he⟩, ?_, fun x y a b hx => by cases hx⟩
  intro p hp
  obtain ⟨cs, -, rfl⟩ := List.mem_map.mp hp
  trivial

/-- C172, for all schedules: the servers of the manager are servers that were started, without nil among them, and no
two open sockets have the same address and port. -/
theorem C172_listed_partial (port : Nat) (calls : List (List ManCall)) (is : List Nat) :
    (∀ e ∈ ((ManSt.new port calls).run h room is).cells.shows ((ManSt.new port calls).run h room is).field,
      ∃ x y, e = some x ∧ ((ManSt.new port calls).run h room is).made[x]? = some y) ∧
    Sole ((ManSt.new port calls).run h room is).made := by
  have g := regular_run (h := h) (room := room) is _ (regular_new port calls)
  refine ⟨fun e he => ?_, g.sole⟩
  obtain ⟨x, hx, rfl⟩ := g.field.2 e he
  exact ⟨x, _, rfl, List.getElem?_eq_getElem hx⟩

/-! ## Examples -/

theorem inTurn_more {s : ManSt} {i : Nat} (n : Nat)
    (ht : ∀ (k : Nat) (p : ManPc), k ≠ i → s.callers[k]? = some p → ∃ cs, p = ManPc.idle cs) :
    InTurn h room s (List.replicate n i) := by
  induction n generalizing s with
  | zero => trivial
  | succ n ih =>
    refine ⟨ht, ih ?_⟩
    intro k p hk hp
    refine ht k p hk ?_
    unfold ManSt.step at hp
    split at hp
    · exact hp
    · split at hp
      · next q hq =>
        obtain ⟨r, hr⟩ := act_callers (h := h) (room := room) s i q hq
        rw [hr, List.getElem?_set_ne (fun e => hk e.symm)] at hp
        exact hp
      · exact hp

theorem inTurn_append {is js : List Nat} {s : ManSt} (h1 : InTurn h room s is) (h2 : InTurn h room (s.run h room is) js) :
    InTurn h room s (is ++ js) := by
  induction is generalizing s with
  | nil => exact h2
  | cons i is ih => exact ⟨h1.1, ih h1.2 h2⟩

/-- Two interfaces, the second one with two addresses, one of which is in use on the first port. -/
def twoIfaces : ManHost := ⟨[["10.0.0.1"], ["10.0.1.1", "10.0.1.2"]], fun a p => a == "10.0.1.2" && p == 3610, 0, 100⟩

def manCalls : List (List ManCall) := [[.start, .start], [.stop, .start], [.stop]]

def manRoom : Nat → Nat → Nat := fun _ n => n

/-- One goroutine starts the manager: two servers are started on the first port and three on the second one, and all of
them are listed. -/
def afterStart : ManSt := (ManSt.new 3610 manCalls).run twoIfaces manRoom (List.replicate 29 0)

example : afterStart.listed = [0, 1, 2, 3, 4] ∧ afterStart.port = 3611 := by decide +kernel

theorem three_idle {s : ManSt} {a b c : List ManCall} (e : s.callers = [.idle a, .idle b, .idle c]) : NoCall s := by
  intro k p hp
  rw [e] at hp
  match k, hp with
  | 0, hp => cases hp; exact ⟨a, rfl⟩
  | 1, hp => cases hp; exact ⟨b, rfl⟩
  | 2, hp => cases hp; exact ⟨c, rfl⟩

theorem inTurn_start : InTurn twoIfaces manRoom (ManSt.new 3610 manCalls) (List.replicate 29 0) :=
  inTurn_more 29 (fun k p _ hp => three_idle (s := ManSt.new 3610 manCalls) rfl k p hp)

theorem noCall_start : NoCall afterStart :=
  three_idle (a := [.start]) (b := [.stop, .start]) (c := [.stop]) (by decide +kernel)

example : InTurn twoIfaces manRoom (ManSt.new 3610 manCalls) (List.replicate 29 0) ∧ NoCall afterStart ∧
    AreOpen afterStart.made 4 ∧ 4 ∈ afterStart.listed :=
  ⟨inTurn_start, noCall_start,
    ((C172_apart_partial 3610 manCalls _ inTurn_start).2 noCall_start 4).mpr (by decide +kernel), by decide +kernel⟩

/-- Another goroutine stops it. -/
example : ∃ n, ∀ x, ¬ AreOpen ((ManSt.new 3610 manCalls).run twoIfaces manRoom
    (List.replicate 29 0 ++ List.replicate n 1)).made x :=
  (C172_stopped_partial 3610 manCalls _ inTurn_start noCall_start (i := 1) (cs := [.start]) (by decide +kernel)).imp
    (fun _ g => g.2.2.2)

/-- The same host with all addresses free. -/
def freeHost : ManHost := ⟨twoIfaces.addrs, fun _ _ => false, 0, 0⟩

example : ∃ n, ((ManSt.new 3610 manCalls).run freeHost manRoom ([] ++ List.replicate n 0)).callers[0]? =
      some (.idle [.start]) ∧
    ((ManSt.new 3610 manCalls).run freeHost manRoom ([] ++ List.replicate n 0)).port = 3610 ∧
    ((ManSt.new 3610 manCalls).run freeHost manRoom ([] ++ List.replicate n 0)).listed.length = 3 := by
  obtain ⟨n, h1, h2, h3, h4, h5⟩ := C172_started_partial (h := freeHost) (room := manRoom) 3610 manCalls [] trivial
    (three_idle rfl) (i := 0) (cs := [.start]) rfl (by decide) (fun _ _ => rfl)
  have := congrArg List.length h4
  rw [List.length_map, List.length_map] at this
  exact ⟨n, h1, h3, this⟩

/-- A further call cannot come in turn while the first one runs. -/
example : ¬ InTurn twoIfaces manRoom (ManSt.new 3610 manCalls) [0, 1] := by
  rintro ⟨-, g, -⟩
  obtain ⟨cs, e⟩ := g 0 (.stopping ⟨0, 0, 0, 0⟩ 0 true [.start]) (by decide) (by decide +kernel)
  cases e

/-- Goroutine 1 stops the manager while goroutine 0 starts it. -/
example (more : List Nat) : AreOpen ((ManSt.new 3610 manCalls).run twoIfaces manRoom (overlap 1 0 ++ more)).made 0 ∧
    0 ∉ ((ManSt.new 3610 manCalls).run twoIfaces manRoom (overlap 1 0 ++ more)).listed :=
  (C172_refuted (ci := [.start]) (cj := [.start]) (by decide) rfl rfl rfl rfl).2 more

/-- Both calls have returned. -/
example : ((ManSt.new 3610 [[.start], [.stop]]).run ⟨[["10.0.0.1"]], fun _ _ => false, 2, 0⟩ manRoom
    (overlap 1 0 ++ [0, 0, 0])).callers = [.idle [], .idle []] := by decide +kernel

/-- After that, a further `Start` does not start a server. -/
example (more : List Nat) : ((ManSt.new 3610 [[.start, .start], [.stop]]).run ⟨[["10.0.0.1"]], fun _ _ => false, 2, 0⟩
    manRoom (overlap 1 0 ++ more)).listed = [] :=
  (C172_refuted_blocked (ci := []) (cj := [.start]) (by decide) rfl rfl rfl rfl rfl more).1

example : (afterStart.run twoIfaces manRoom [1, 2, 1, 2]).crashed = true :=
  C172_refuted_panic (x := 0) (c := .stop) (d := .stop) (ci := [.start]) (cj := []) (y := ⟨"10.0.0.1", 3610, true⟩)
    (by decide) (by decide +kernel) (by decide +kernel) (by decide +kernel) (by decide +kernel) (by decide +kernel) rfl

end Verif.Props
