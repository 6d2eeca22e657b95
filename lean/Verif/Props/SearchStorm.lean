import Verif.Model.SearchStorm
import Verif.Props.ControllerRace

/-!
# C177: a listener that searches when a node is found
-/

namespace Verif.Props
open Verif Model Spec

/-! ## Specification -/

/-- Every step of a schedule is one of a handler that has not finished. -/
def EachMoves (net : List RemoteNode) : Storm → List Nat → Prop
  | _, [] => True
  | s, i :: is => (∃ p, s.st.pcs[i]? = some p ∧ p ≠ .done) ∧ EachMoves net (s.step net i) is

/-- A handler that has looked the node up and has not stored it yet. -/
def Midway : AddPc → Prop
  | .append _ => True
  | .store _ _ => True
  | _ => False

/-- At most one handler is between looking its node up and storing it. -/
def OneMidway (s : Storm) : Prop :=
  ∀ (i j : Nat) (p q : AddPc), s.st.pcs[i]? = some p → s.st.pcs[j]? = some q → Midway p → Midway q → i = j

/-- This is so all the time. -/
def NoOverlap (net : List RemoteNode) : Storm → List Nat → Prop
  | s, [] => OneMidway s
  | s, i :: is => OneMidway s ∧ NoOverlap net (s.step net i) is

/-! ## How many steps there are -/

/-- The steps a handler has before it. -/
def handlerLeft : AddPc → Nat
  | .check _ => 3
  | .append _ => 2
  | .store _ _ => 1
  | .done => 0

/-- The steps of all handlers. -/
def stormLeft (pcs : List AddPc) : Nat := (pcs.map handlerLeft).sum

theorem stormLeft_set (pcs : List AddPc) (i : Nat) (p q : AddPc) (h : pcs[i]? = some p) :
    stormLeft (pcs.set i q) + handlerLeft p = stormLeft pcs + handlerLeft q := by
  induction pcs generalizing i with
  | nil => cases h
  | cons x l ih =>
    cases i with
    | zero =>
      cases h
      simp only [stormLeft, List.set_cons_zero, List.map_cons, List.sum_cons]
      omega
    | succ i =>
      have := ih i h
      simp only [stormLeft, List.set_cons_succ, List.map_cons, List.sum_cons] at this ⊢
      omega

theorem stormLeft_checks (ns : List RemoteNode) : stormLeft (ns.map .check) = 3 * ns.length := by
  induction ns with
  | nil => rfl
  | cons n l ih =>
    simp only [stormLeft, List.map_cons, List.sum_cons, List.length_cons] at ih ⊢
    rw [ih]
    simp only [handlerLeft]
    omega

theorem stormLeft_append (a b : List AddPc) : stormLeft (a ++ b) = stormLeft a + stormLeft b := by
  simp [stormLeft, List.map_append, List.sum_append]

/-- A step of a handler that has not finished uses up one of its steps; a search adds those of the answers. -/
theorem storm_step_left (net : List RemoteNode) (s : Storm) (i : Nat)
    (h : ∃ p, s.st.pcs[i]? = some p ∧ p ≠ .done) :
    stormLeft (s.step net i).st.pcs + 1 + 3 * net.length * s.searches
      ≤ stormLeft s.st.pcs + 3 * net.length * (s.step net i).searches := by
  obtain ⟨p, hp, hd⟩ := h
  obtain ⟨⟨f, pcs⟩, k⟩ := s
  cases p with
  | done => exact absurd rfl hd
  | check n =>
    have e : (⟨⟨f, pcs⟩, k⟩ : Storm).step net i = ⟨(⟨f, pcs⟩ : AddSt).step i, k⟩ := by
      simp only [Storm.step]; rw [show pcs[i]? = _ from hp]
    rw [e]
    show stormLeft ((⟨f, pcs⟩ : AddSt).step i).pcs + 1 + 3 * net.length * k ≤ stormLeft pcs + 3 * net.length * k
    unfold AddSt.step
    rw [show pcs[i]? = _ from hp]
    have h1 := stormLeft_set pcs i _ .done hp
    have h2 := stormLeft_set pcs i _ (.append n) hp
    simp only [handlerLeft] at h1 h2
    dsimp only
    split <;> (dsimp only; omega)
  | append n =>
    have e : (⟨⟨f, pcs⟩, k⟩ : Storm).step net i = ⟨(⟨f, pcs⟩ : AddSt).step i, k⟩ := by
      simp only [Storm.step]; rw [show pcs[i]? = _ from hp]
    rw [e, (add_steps f pcs i n).2.1 hp]
    have h2 := stormLeft_set pcs i _ (.store n f) hp
    simp only [handlerLeft] at h2
    dsimp only
    omega
  | store n l =>
    have e : (⟨⟨f, pcs⟩, k⟩ : Storm).step net i
        = ⟨⟨((⟨f, pcs⟩ : AddSt).step i).found, ((⟨f, pcs⟩ : AddSt).step i).pcs ++ net.map .check⟩, k + 1⟩ := by
      simp only [Storm.step]; rw [show pcs[i]? = _ from hp]
    rw [e, (add_steps f pcs i n).2.2 l hp]
    have h2 := stormLeft_set pcs i _ .done hp
    simp only [handlerLeft] at h2
    dsimp only
    rw [stormLeft_append, stormLeft_checks, Nat.mul_succ]
    omega

theorem storm_run_left (net : List RemoteNode) (is : List Nat) (s : Storm) (h : EachMoves net s is) :
    stormLeft (s.run net is).st.pcs + is.length + 3 * net.length * s.searches
      ≤ stormLeft s.st.pcs + 3 * net.length * (s.run net is).searches := by
  induction is generalizing s with
  | nil => exact Nat.le_refl _
  | cons i is ih =>
    have h1 := storm_step_left net s i h.1
    have h2 := ih _ h.2
    simp only [Storm.run, List.length_cons]
    omega

/-! ## Handlers that do not overlap -/

/-- What holds while the handlers do not overlap. -/
structure StormInv (found : List RemoteNode) (all : List RemoteNode) (s : Storm) : Prop where
  distinct : Distinct s.st.found
  new : ∃ l, s.st.found = found ++ l ∧ l.length = s.searches ∧ ∀ n ∈ l, n ∈ all
  known : ∀ (i : Nat) (n : RemoteNode), s.st.pcs[i]? = some (.check n) → n ∈ all
  append : ∀ (i : Nat) (n : RemoteNode), s.st.pcs[i]? = some (.append n) → n ∈ all ∧ s.st.found.any n.equals = false
  store : ∀ (i : Nat) (n : RemoteNode) (l : List RemoteNode), s.st.pcs[i]? = some (.store n l) →
    n ∈ all ∧ s.st.found.any n.equals = false ∧ l = s.st.found

theorem equals_false {n a : RemoteNode} (h : n.equals a = false) : ¬ (a.address = n.address ∧ a.port = n.port) := by
  rintro ⟨h1, h2⟩
  simp [RemoteNode.equals, h1, h2] at h

theorem distinct_snoc {f : List RemoteNode} {n : RemoteNode} (h : Distinct f) (hn : f.any n.equals = false) :
    Distinct (f ++ [n]) := by
  unfold Distinct at h ⊢
  rw [List.pairwise_append]
  refine ⟨h, List.pairwise_singleton _ _, fun a ha b hb => ?_⟩
  cases List.mem_singleton.mp hb
  refine equals_false (n := n) ?_
  have := List.any_eq_false.mp hn a ha
  simpa using this

/-- What an entry is after one was set. -/
theorem entry_set {pcs : List AddPc} {i j : Nat} {q r : AddPc} (h : (pcs.set i q)[j]? = some r) :
    (j = i ∧ r = q) ∨ pcs[j]? = some r := by
  by_cases e : i = j
  · subst e
    by_cases hl : i < pcs.length
    · rw [List.getElem?_set_self hl] at h
      exact .inl ⟨rfl, (Option.some.inj h).symm⟩
    · rw [List.getElem?_eq_none (by simpa using hl)] at h
      cases h
  · rw [List.getElem?_set_ne e] at h
    exact .inr h

theorem stormInv_step {found all net : List RemoteNode} (hnet : ∀ n ∈ net, n ∈ all) (s : Storm) (i : Nat)
    (h : StormInv found all s) (h1 : OneMidway s) : StormInv found all (s.step net i) := by
  obtain ⟨⟨f, pcs⟩, k⟩ := s
  cases hp : pcs[i]? with
  | none =>
    have e : (⟨⟨f, pcs⟩, k⟩ : Storm).step net i = ⟨⟨f, pcs⟩, k⟩ := by
      simp only [Storm.step, AddSt.step]; rw [hp]
    rw [e]; exact h
  | some p =>
    cases p with
    | done =>
      have e : (⟨⟨f, pcs⟩, k⟩ : Storm).step net i = ⟨⟨f, pcs⟩, k⟩ := by
        simp only [Storm.step, AddSt.step]; rw [hp]
      rw [e]; exact h
    | check n =>
      cases hf : f.any n.equals with
      | true =>
        have e : (⟨⟨f, pcs⟩, k⟩ : Storm).step net i = ⟨⟨f, pcs.set i .done⟩, k⟩ := by
          simp only [Storm.step, AddSt.step]; rw [hp]; dsimp only; rw [if_pos hf]
        rw [e]
        refine ⟨h.distinct, h.new, fun j m hj => ?_, fun j m hj => ?_, fun j m l hj => ?_⟩
        · rcases entry_set hj with ⟨-, h'⟩ | h'
          · cases h'
          · exact h.known j m h'
        · rcases entry_set hj with ⟨-, h'⟩ | h'
          · cases h'
          · exact h.append j m h'
        · rcases entry_set hj with ⟨-, h'⟩ | h'
          · cases h'
          · exact h.store j m l h'
      | false =>
        have e : (⟨⟨f, pcs⟩, k⟩ : Storm).step net i = ⟨⟨f, pcs.set i (.append n)⟩, k⟩ := by
          simp only [Storm.step]; rw [hp]; dsimp only
          rw [(add_steps f pcs i n).1 hp hf]
        rw [e]
        refine ⟨h.distinct, h.new, fun j m hj => ?_, fun j m hj => ?_, fun j m l hj => ?_⟩
        · rcases entry_set hj with ⟨-, h'⟩ | h'
          · cases h'
          · exact h.known j m h'
        · rcases entry_set hj with ⟨-, h'⟩ | h'
          · cases h'
            exact ⟨h.known i n hp, hf⟩
          · exact h.append j m h'
        · rcases entry_set hj with ⟨-, h'⟩ | h'
          · cases h'
          · exact h.store j m l h'
    | append n =>
      have e : (⟨⟨f, pcs⟩, k⟩ : Storm).step net i = ⟨⟨f, pcs.set i (.store n f)⟩, k⟩ := by
        simp only [Storm.step]; rw [hp]; dsimp only
        rw [(add_steps f pcs i n).2.1 hp]
      rw [e]
      refine ⟨h.distinct, h.new, fun j m hj => ?_, fun j m hj => ?_, fun j m l hj => ?_⟩
      · rcases entry_set hj with ⟨-, h'⟩ | h'
        · cases h'
        · exact h.known j m h'
      · rcases entry_set hj with ⟨-, h'⟩ | h'
        · cases h'
        · exact h.append j m h'
      · rcases entry_set hj with ⟨-, h'⟩ | h'
        · cases h'
          exact ⟨(h.append i n hp).1, (h.append i n hp).2, rfl⟩
        · exact h.store j m l h'
    | store n l =>
      have e : (⟨⟨f, pcs⟩, k⟩ : Storm).step net i = ⟨⟨l ++ [n], pcs.set i .done ++ net.map .check⟩, k + 1⟩ := by
        simp only [Storm.step]; rw [hp]; dsimp only
        rw [(add_steps f pcs i n).2.2 l hp]
      rw [e]
      obtain ⟨ha, hn, hl⟩ := h.store i n l hp
      dsimp only at hn hl
      subst hl
      have old : ∀ (j : Nat) (q : AddPc), (pcs.set i .done ++ net.map .check)[j]? = some q →
          q = .done ∨ (j ≠ i ∧ pcs[j]? = some q) ∨ ∃ m ∈ net, q = .check m := by
        intro j q hj
        rw [List.getElem?_append] at hj
        split at hj
        · by_cases ej : j = i
          · subst ej
            rcases entry_set hj with ⟨-, h'⟩ | h'
            · exact .inl h'
            · rw [List.getElem?_set_self (List.getElem?_eq_some_iff.mp hp).1] at hj
              exact .inl (Option.some.inj hj).symm
          · rcases entry_set hj with ⟨h', -⟩ | h'
            · exact absurd h' ej
            · exact .inr (.inl ⟨ej, h'⟩)
        · obtain ⟨m, hm, e⟩ := List.mem_map.mp (List.mem_of_getElem? hj)
          exact .inr (.inr ⟨m, hm, e.symm⟩)
      refine ⟨distinct_snoc h.distinct hn, ?_, fun j m hj => ?_, fun j m hj => ?_, fun j m l' hj => ?_⟩
      · obtain ⟨l', h2, h3, h4⟩ := h.new
        dsimp only at h2 h3
        refine ⟨l' ++ [n], ?_, ?_, fun m hm => ?_⟩
        · dsimp only
          rw [h2, List.append_assoc]
        · rw [List.length_append, h3]; rfl
        · rcases List.mem_append.mp hm with hm | hm
          · exact h4 m hm
          · cases List.mem_singleton.mp hm; exact ha
      · rcases old j _ hj with h' | ⟨-, h'⟩ | ⟨m', hm', h'⟩
        · cases h'
        · exact h.known j m h'
        · cases h'; exact hnet m hm'
      · rcases old j _ hj with h' | ⟨ej, h'⟩ | ⟨m', hm', h'⟩
        · cases h'
        · exact absurd (h1 j i _ _ h' hp trivial trivial) ej
        · cases h'
      · rcases old j _ hj with h' | ⟨ej, h'⟩ | ⟨m', hm', h'⟩
        · cases h'
        · exact absurd (h1 j i _ _ h' hp trivial trivial) ej
        · cases h'

theorem stormInv_run {found all net : List RemoteNode} (hnet : ∀ n ∈ net, n ∈ all) (is : List Nat) (s : Storm)
    (h : StormInv found all s) (ht : NoOverlap net s is) : StormInv found all (s.run net is) := by
  induction is generalizing s with
  | nil => exact h
  | cons i is ih => exact ih _ (stormInv_step hnet s i h ht.1) ht.2

theorem distinct_length {l : List RemoteNode} (h : Distinct l) (ks : List (String × Nat))
    (hk : ∀ n ∈ l, (n.address, n.port) ∈ ks) : l.length ≤ ks.length := by
  have hn : (l.map (fun n => (n.address, n.port))).Nodup := by
    unfold List.Nodup
    rw [List.pairwise_map]
    refine h.imp ?_
    intro a b hab e
    exact hab ⟨congrArg Prod.fst e, congrArg Prod.snd e⟩
  have hs : l.map (fun n => (n.address, n.port)) ⊆ ks := by
    intro k hkm
    obtain ⟨n, hn, rfl⟩ := List.mem_map.mp hkm
    exact hk n hn
  have := hn.length_le_of_subset hs
  rwa [List.length_map] at this

/-- C177, the part that holds: as long as no two messages are handled at the same time, the listener searches at most
once for every node of the network, whatever is known before and in whatever order the answers come; no node is listed
twice; and everything ends: the handlers take no more than three steps for each message. Missing: messages handled at
the same time. -/
theorem C177_ends_partial (net found ns : List RemoteNode) (hd : Distinct found) (is : List Nat)
    (ht : NoOverlap net (Storm.init found ns) is) (ks : List (String × Nat))
    (hk : ∀ n ∈ ns ++ net, (n.address, n.port) ∈ ks) :
    ((Storm.init found ns).run net is).searches ≤ ks.length ∧
    Distinct ((Storm.init found ns).run net is).st.found ∧
    (∃ new, ((Storm.init found ns).run net is).st.found = found ++ new ∧
      new.length = ((Storm.init found ns).run net is).searches) ∧
    (EachMoves net (Storm.init found ns) is → is.length ≤ 3 * (ns.length + net.length * ks.length)) := by
  have h0 : StormInv found (ns ++ net) (Storm.init found ns) := by
    have hc : ∀ (i : Nat) (p : AddPc), (ns.map AddPc.check)[i]? = some p → ∃ n ∈ ns, p = .check n := by
      intro i p hp
      obtain ⟨n, hn, e⟩ := List.mem_map.mp (List.mem_of_getElem? hp)
      exact ⟨n, hn, e.symm⟩
    refine ⟨hd, ⟨[], by simp [Storm.init, AddSt.init], rfl, (fun p hp => nomatch hp)⟩, fun i n hi => ?_, fun i n hi => ?_,
      fun i n l hi => ?_⟩
    · obtain ⟨m, hm, e⟩ := hc i _ hi
      cases e
      exact List.mem_append_left _ hm
    · obtain ⟨m, hm, e⟩ := hc i _ hi
      cases e
    · obtain ⟨m, hm, e⟩ := hc i _ hi
      cases e
  have h := stormInv_run (fun n hn => List.mem_append_right _ hn) is _ h0 ht
  obtain ⟨l, h1, h2, h3⟩ := h.new
  have hs : ((Storm.init found ns).run net is).searches ≤ ks.length := by
    rw [← h2]
    refine distinct_length ?_ ks (fun n hn => hk n (h3 n hn))
    have := h.distinct
    unfold Distinct at this ⊢
    rw [h1, List.pairwise_append] at this
    exact this.2.1
  refine ⟨hs, h.distinct, ⟨l, h1, h2⟩, fun hm => ?_⟩
  have hl := storm_run_left net is _ hm
  have e0 : stormLeft (Storm.init found ns).st.pcs = 3 * ns.length := stormLeft_checks ns
  have e1 : (Storm.init found ns).searches = 0 := rfl
  rw [e0, e1] at hl
  have := Nat.mul_le_mul_left (3 * net.length) hs
  rw [Nat.mul_add, ← Nat.mul_assoc]
  omega

instance (p : AddPc) : Decidable (Midway p) := by
  cases p <;> (unfold Midway; infer_instance)

/-- The test of `OneMidway` on a list of handlers. -/
theorem oneMidway_of (s : Storm) (i : Nat)
    (h : (List.range s.st.pcs.length).all (fun j => j == i || !(s.st.pcs[j]?.any (fun p => decide (Midway p)))) = true) :
    OneMidway s := by
  have key : ∀ (j : Nat) (p : AddPc), s.st.pcs[j]? = some p → Midway p → j = i := by
    intro j p hj hm
    have := List.all_eq_true.mp h j (List.mem_range.mpr (List.getElem?_eq_some_iff.mp hj).1)
    rw [hj] at this
    simpa [hm] using this
  intro j j' p q hj hj' hp hq
  rw [key j p hj hp, key j' q hj' hq]

/-- Two nodes, of which one is known, in turn: one search. -/
example : NoOverlap [nodeAt "10.0.0.2", nodeAt "10.0.0.3"]
      (Storm.init [nodeAt "10.0.0.2"] [nodeAt "10.0.0.2", nodeAt "10.0.0.3"]) [0, 1, 1, 1, 2, 3] ∧
    EachMoves [nodeAt "10.0.0.2", nodeAt "10.0.0.3"]
      (Storm.init [nodeAt "10.0.0.2"] [nodeAt "10.0.0.2", nodeAt "10.0.0.3"]) [0, 1, 1, 1, 2, 3] ∧
    ((Storm.init [nodeAt "10.0.0.2"] [nodeAt "10.0.0.2", nodeAt "10.0.0.3"]).run
      [nodeAt "10.0.0.2", nodeAt "10.0.0.3"] [0, 1, 1, 1, 2, 3]).st =
      ⟨[nodeAt "10.0.0.2", nodeAt "10.0.0.3"], [.done, .done, .done, .done]⟩ := by
  refine ⟨⟨oneMidway_of _ 1 (by decide), oneMidway_of _ 1 (by decide), oneMidway_of _ 1 (by decide),
    oneMidway_of _ 1 (by decide), oneMidway_of _ 1 (by decide), oneMidway_of _ 1 (by decide),
    oneMidway_of _ 1 (by decide)⟩, ?_, by decide⟩
  exact ⟨⟨_, rfl, by decide⟩, ⟨_, rfl, by decide⟩, ⟨_, rfl, by decide⟩, ⟨_, rfl, by decide⟩, ⟨_, rfl, by decide⟩,
    ⟨_, rfl, by decide⟩, trivial⟩

/-! ## Handlers that overlap -/

/-- A node is not in a list. -/
def Lacks (x : RemoteNode) (l : List RemoteNode) : Prop := ∀ n ∈ l, ¬ (n.address = x.address ∧ n.port = x.port)

/-- The list lacks `y`; one handler is about to store `x` in a list that lacks `y`, and one to store `y` in a list that
lacks `x`; and an answer of `y` has come. -/
structure Seesaw (x y : RemoteNode) (s : Storm) : Prop where
  found : Lacks y s.st.found
  here : ∃ (i : Nat) (l : List RemoteNode), s.st.pcs[i]? = some (.store x l) ∧ Lacks y l
  there : ∃ (i : Nat) (l : List RemoteNode), s.st.pcs[i]? = some (.store y l) ∧ Lacks x l
  answer : ∃ (i : Nat), s.st.pcs[i]? = some (.check y)

theorem storm_check {net : List RemoteNode} {s : Storm} {i : Nat} {n : RemoteNode}
    (h : s.st.pcs[i]? = some (.check n)) (hf : s.st.found.any n.equals = false) :
    s.step net i = ⟨⟨s.st.found, s.st.pcs.set i (.append n)⟩, s.searches⟩ := by
  obtain ⟨⟨f, pcs⟩, k⟩ := s
  simp only [Storm.step]
  rw [show pcs[i]? = _ from h]
  dsimp only
  rw [(add_steps f pcs i n).1 h hf]

theorem storm_append {net : List RemoteNode} {s : Storm} {i : Nat} {n : RemoteNode}
    (h : s.st.pcs[i]? = some (.append n)) :
    s.step net i = ⟨⟨s.st.found, s.st.pcs.set i (.store n s.st.found)⟩, s.searches⟩ := by
  obtain ⟨⟨f, pcs⟩, k⟩ := s
  simp only [Storm.step]
  rw [show pcs[i]? = _ from h]
  dsimp only
  rw [(add_steps f pcs i n).2.1 h]

theorem storm_store {net : List RemoteNode} {s : Storm} {i : Nat} {n : RemoteNode} {l : List RemoteNode}
    (h : s.st.pcs[i]? = some (.store n l)) :
    s.step net i = ⟨⟨l ++ [n], s.st.pcs.set i .done ++ net.map .check⟩, s.searches + 1⟩ := by
  obtain ⟨⟨f, pcs⟩, k⟩ := s
  simp only [Storm.step]
  rw [show pcs[i]? = _ from h]
  dsimp only
  rw [(add_steps f pcs i n).2.2 l h]

theorem lacks_any {y : RemoteNode} {l : List RemoteNode} (h : Lacks y l) : l.any y.equals = false := by
  rw [List.any_eq_false]
  intro n hn he
  refine h n hn ?_
  unfold RemoteNode.equals at he
  by_cases h1 : y.port = n.port <;> by_cases h2 : y.address = n.address <;> simp [h1, h2] at he
  exact ⟨h2.symm, h1.symm⟩

theorem lacks_snoc {x y : RemoteNode} {l : List RemoteNode} (h : Lacks x l)
    (hxy : ¬ (x.address = y.address ∧ x.port = y.port)) : Lacks x (l ++ [y]) := by
  intro n hn
  rcases List.mem_append.mp hn with hn | hn
  · exact h n hn
  · cases List.mem_singleton.mp hn
    exact fun e => hxy ⟨e.1.symm, e.2.symm⟩

/-- An entry that is there before other ones are added. -/
theorem entry_left {a b : List AddPc} {i : Nat} {p : AddPc} (h : a[i]? = some p) : (a ++ b)[i]? = some p := by
  rw [List.getElem?_append_left (List.getElem?_eq_some_iff.mp h).1]
  exact h

theorem entry_checks {a : List AddPc} {net : List RemoteNode} {x : RemoteNode} (hx : x ∈ net) :
    ∃ (i : Nat), (a ++ net.map .check)[i]? = some (.check x) := by
  obtain ⟨i, hi⟩ := List.getElem?_of_mem hx
  refine ⟨a.length + i, ?_⟩
  rw [List.getElem?_append_right (by omega), Nat.add_sub_cancel_left, List.getElem?_map, hi]
  rfl

/-- Three steps later it is the other way round, and the listener has searched once more. -/
theorem seesaw_turns {net : List RemoteNode} {x y : RemoteNode} (hx : x ∈ net) (hxy : ¬ (x.address = y.address ∧ x.port = y.port))
    {s : Storm} (h : Seesaw x y s) :
    ∃ is, EachMoves net s is ∧ Seesaw y x (s.run net is) ∧ (s.run net is).searches = s.searches + 1 := by
  obtain ⟨h0, ⟨a, la, ha, hla⟩, ⟨b, lb, hb, hlb⟩, ⟨c, hc⟩⟩ := h
  have hbc : b ≠ c := by rintro rfl; rw [hb] at hc; cases hc
  have hac : a ≠ c := by rintro rfl; rw [ha] at hc; cases hc
  have hab : a ≠ b := by
    rintro rfl
    rw [ha] at hb
    cases hb
    exact hxy ⟨rfl, rfl⟩
  have lc := (List.getElem?_eq_some_iff.mp hc).1
  have e1 := storm_check (net := net) hc (lacks_any h0)
  have p1 : (s.step net c).st.pcs[b]? = some (.store y lb) := by
    rw [e1]; show (s.st.pcs.set c _)[b]? = _
    rw [List.getElem?_set_ne hbc.symm]; exact hb
  have e2 := storm_store (net := net) p1
  have p2 : ((s.step net c).step net b).st.pcs[c]? = some (.append y) := by
    rw [e2]
    refine entry_left ?_
    rw [List.getElem?_set_ne hbc, e1]
    exact List.getElem?_set_self lc
  have e3 := storm_append (net := net) p2
  refine ⟨[c, b, c], ⟨⟨_, hc, by simp⟩, ⟨_, p1, by simp⟩, ⟨_, p2, by simp⟩, trivial⟩, ?_, ?_⟩
  · show Seesaw y x (((s.step net c).step net b).step net c)
    have hf : ((s.step net c).step net b).st.found = lb ++ [y] := by rw [e2]
    have l2 := (List.getElem?_eq_some_iff.mp p2).1
    rw [e3, hf]
    refine ⟨lacks_snoc hlb hxy, ⟨c, lb ++ [y], List.getElem?_set_self l2, lacks_snoc hlb hxy⟩, ⟨a, la, ?_, hla⟩, ?_⟩
    · show ((((s.step net c).step net b).st.pcs.set c _))[a]? = _
      rw [List.getElem?_set_ne hac.symm, e2]
      refine entry_left ?_
      rw [List.getElem?_set_ne hab.symm, e1]
      show (s.st.pcs.set c _)[a]? = _
      rw [List.getElem?_set_ne hac.symm]
      exact ha
    · have hn : ∃ (d : Nat), ((s.step net c).step net b).st.pcs[d]? = some (.check x) := by
        rw [e2]; exact entry_checks hx
      obtain ⟨d, hd'⟩ := hn
      refine ⟨d, ?_⟩
      have hdc : c ≠ d := by rintro rfl; rw [p2] at hd'; cases hd'
      show ((((s.step net c).step net b).st.pcs.set c _))[d]? = _
      rw [List.getElem?_set_ne hdc]
      exact hd'
  · show (((s.step net c).step net b).step net c).searches = _
    rw [e3, e2, e1]

theorem eachMoves_append {net : List RemoteNode} {is js : List Nat} {s : Storm} (h1 : EachMoves net s is)
    (h2 : EachMoves net (s.run net is) js) : EachMoves net s (is ++ js) := by
  induction is generalizing s with
  | nil => exact h2
  | cons i is ih => exact ⟨h1.1, ih h1.2 h2⟩

theorem storm_run_append {net : List RemoteNode} {is js : List Nat} {s : Storm} :
    s.run net (is ++ js) = (s.run net is).run net js := by
  induction is generalizing s with
  | nil => rfl
  | cons i is ih => exact ih

theorem seesaw_goes_on {net : List RemoteNode} (k : Nat) {x y : RemoteNode} (hx : x ∈ net) (hy : y ∈ net)
    (hxy : ¬ (x.address = y.address ∧ x.port = y.port)) {s : Storm} (h : Seesaw x y s) :
    ∃ is, EachMoves net s is ∧ (s.run net is).searches = s.searches + k ∧
      (Lacks x (s.run net is).st.found ∨ Lacks y (s.run net is).st.found) := by
  induction k generalizing x y s with
  | zero => exact ⟨[], trivial, rfl, .inr h.found⟩
  | succ k ih =>
    obtain ⟨is, h1, h2, h3⟩ := seesaw_turns hx hxy h
    obtain ⟨js, g1, g2, g3⟩ := ih hy hx (fun e => hxy ⟨e.1.symm, e.2.symm⟩) h2
    refine ⟨is ++ js, eachMoves_append h1 g1, ?_, ?_⟩
    · rw [storm_run_append, g2, h3]; omega
    · rw [storm_run_append]; exact g3.symm

/-- The beginning: of three answers, two of `x` and one of `y`, handled at the same time. -/
theorem seesaw_starts {net : List RemoteNode} {x y : RemoteNode} (hy : y ∈ net) (hxy : ¬ (x.address = y.address ∧ x.port = y.port))
    {s : Storm} (hs : s.st.found = []) {a a' b : Nat} (haa : a ≠ a') (ha : s.st.pcs[a]? = some (.check x))
    (ha' : s.st.pcs[a']? = some (.check x)) (hb : s.st.pcs[b]? = some (.check y)) :
    ∃ is, EachMoves net s is ∧ Seesaw x y (s.run net is) ∧ (s.run net is).searches = s.searches + 1 := by
  have hne : x ≠ y := by rintro rfl; exact hxy ⟨rfl, rfl⟩
  have hab : a ≠ b := by rintro rfl; rw [ha] at hb; cases hb; exact hne rfl
  have ha'b : a' ≠ b := by rintro rfl; rw [ha'] at hb; cases hb; exact hne rfl
  obtain ⟨⟨f, pcs⟩, k⟩ := s
  dsimp only at hs ha ha' hb
  subst hs
  have la := (List.getElem?_eq_some_iff.mp ha).1
  have la' := (List.getElem?_eq_some_iff.mp ha').1
  have lb := (List.getElem?_eq_some_iff.mp hb).1
  have e1 := storm_check (net := net) (s := ⟨⟨[], pcs⟩, k⟩) ha rfl
  have q2 : (pcs.set a (.append x))[a']? = some (.check x) := by rw [List.getElem?_set_ne haa]; exact ha'
  have e2 := storm_check (net := net) (s := ⟨⟨[], pcs.set a (.append x)⟩, k⟩) q2 rfl
  have q3 : ((pcs.set a (.append x)).set a' (.append x))[b]? = some (.check y) := by
    rw [List.getElem?_set_ne ha'b, List.getElem?_set_ne hab]; exact hb
  have e3 := storm_check (net := net) (s := ⟨⟨[], (pcs.set a (.append x)).set a' (.append x)⟩, k⟩) q3 rfl
  generalize hP : (((pcs.set a (.append x)).set a' (.append x)).set b (.append y)) = P at e3
  have r1 : P[a]? = some (.append x) := by
    rw [← hP, List.getElem?_set_ne hab.symm, List.getElem?_set_ne haa.symm]
    exact List.getElem?_set_self la
  have r2 : P[a']? = some (.append x) := by
    rw [← hP, List.getElem?_set_ne ha'b.symm]
    exact List.getElem?_set_self (by simpa using la')
  have r3 : P[b]? = some (.append y) := by
    rw [← hP]
    exact List.getElem?_set_self (by simpa using lb)
  have e4 := storm_append (net := net) (s := ⟨⟨[], P⟩, k⟩) r3
  have q5 : (P.set b (.store y []))[a]? = some (.append x) := by rw [List.getElem?_set_ne hab.symm]; exact r1
  have e5 := storm_append (net := net) (s := ⟨⟨[], P.set b (.store y [])⟩, k⟩) q5
  have lPa := (List.getElem?_eq_some_iff.mp r1).1
  have lPa' := (List.getElem?_eq_some_iff.mp r2).1
  have lPb := (List.getElem?_eq_some_iff.mp r3).1
  have q6 : ((P.set b (.store y [])).set a (.store x []))[a]? = some (.store x []) :=
    List.getElem?_set_self (by simpa using lPa)
  have e6 := storm_store (net := net) (s := ⟨⟨[], (P.set b (.store y [])).set a (.store x [])⟩, k⟩) q6
  generalize hQ : ((P.set b (.store y [])).set a (.store x [])).set a .done = Q at e6
  have t1 : Q[a']? = some (.append x) := by
    rw [← hQ, List.getElem?_set_ne haa, List.getElem?_set_ne haa, List.getElem?_set_ne ha'b.symm]; exact r2
  have t2 : Q[b]? = some (.store y []) := by
    rw [← hQ, List.getElem?_set_ne hab, List.getElem?_set_ne hab]
    exact List.getElem?_set_self lPb
  have q7 : (Q ++ net.map AddPc.check)[a']? = some (.append x) := entry_left t1
  have e7 := storm_append (net := net) (s := ⟨⟨[] ++ [x], Q ++ net.map AddPc.check⟩, k + 1⟩) q7
  have hrun : (⟨⟨[], pcs⟩, k⟩ : Storm).run net [a, a', b, b, a, a, a'] =
      ⟨⟨[x], (Q ++ net.map AddPc.check).set a' (.store x [x])⟩, k + 1⟩ := by
    simp only [Storm.run]
    rw [e1]; dsimp only
    rw [e2]; dsimp only
    rw [e3]; dsimp only
    rw [e4]; dsimp only
    rw [e5]; dsimp only
    rw [e6]; dsimp only
    rw [e7]; rfl
  refine ⟨[a, a', b, b, a, a, a'], ?_, ?_, by rw [hrun]⟩
  · refine ⟨⟨_, ha, by simp⟩, ?_⟩
    rw [e1]
    refine ⟨⟨_, q2, by simp⟩, ?_⟩
    dsimp only
    rw [e2]
    refine ⟨⟨_, q3, by simp⟩, ?_⟩
    dsimp only
    rw [e3]
    refine ⟨⟨_, r3, by simp⟩, ?_⟩
    dsimp only
    rw [e4]
    refine ⟨⟨_, q5, by simp⟩, ?_⟩
    dsimp only
    rw [e5]
    refine ⟨⟨_, q6, by simp⟩, ?_⟩
    dsimp only
    rw [e6]
    exact ⟨⟨_, q7, by simp⟩, trivial⟩
  · rw [hrun]
    have lq := (List.getElem?_eq_some_iff.mp q7).1
    have ho : Lacks y [x] := fun n hn => by cases List.mem_singleton.mp hn; exact hxy
    refine ⟨ho, ⟨a', [x], List.getElem?_set_self lq, ho⟩, ⟨b, [], ?_, fun n hn => nomatch hn⟩, ?_⟩
    · show ((Q ++ net.map AddPc.check).set a' _)[b]? = _
      rw [List.getElem?_set_ne ha'b]
      exact entry_left t2
    · obtain ⟨d, hd⟩ := entry_checks (a := Q) hy
      refine ⟨d, ?_⟩
      have : a' ≠ d := by rintro rfl; rw [q7] at hd; cases hd
      show ((Q ++ net.map AddPc.check).set a' _)[d]? = _
      rw [List.getElem?_set_ne this]
      exact hd

/-- Another beginning: one answer of each of three nodes, handled at the same time. -/
theorem seesaw_starts_three {net : List RemoteNode} {x y z : RemoteNode} (hy : y ∈ net)
    (hxy : ¬ (x.address = y.address ∧ x.port = y.port)) (hxz : ¬ (z.address = x.address ∧ z.port = x.port))
    (hyz : ¬ (z.address = y.address ∧ z.port = y.port)) {s : Storm} (hs : s.st.found = []) {a b c : Nat}
    (ha : s.st.pcs[a]? = some (.check x)) (hb : s.st.pcs[b]? = some (.check y)) (hc : s.st.pcs[c]? = some (.check z)) :
    ∃ is, EachMoves net s is ∧ Seesaw x y (s.run net is) ∧ (s.run net is).searches = s.searches + 1 := by
  have hab : a ≠ b := by rintro rfl; rw [ha] at hb; cases hb; exact hxy ⟨rfl, rfl⟩
  have hac : a ≠ c := by rintro rfl; rw [ha] at hc; cases hc; exact hxz ⟨rfl, rfl⟩
  have hbc : b ≠ c := by rintro rfl; rw [hb] at hc; cases hc; exact hyz ⟨rfl, rfl⟩
  obtain ⟨⟨f, pcs⟩, k⟩ := s
  dsimp only at hs ha hb hc
  subst hs
  have la := (List.getElem?_eq_some_iff.mp ha).1
  have lb := (List.getElem?_eq_some_iff.mp hb).1
  have lc := (List.getElem?_eq_some_iff.mp hc).1
  have e1 := storm_check (net := net) (s := ⟨⟨[], pcs⟩, k⟩) ha rfl
  have q2 : (pcs.set a (.append x))[b]? = some (.check y) := by rw [List.getElem?_set_ne hab]; exact hb
  have e2 := storm_check (net := net) (s := ⟨⟨[], pcs.set a (.append x)⟩, k⟩) q2 rfl
  have q3 : ((pcs.set a (.append x)).set b (.append y))[c]? = some (.check z) := by
    rw [List.getElem?_set_ne hbc, List.getElem?_set_ne hac]; exact hc
  have e3 := storm_check (net := net) (s := ⟨⟨[], (pcs.set a (.append x)).set b (.append y)⟩, k⟩) q3 rfl
  generalize hP : (((pcs.set a (.append x)).set b (.append y)).set c (.append z)) = P at e3
  have r1 : P[a]? = some (.append x) := by
    rw [← hP, List.getElem?_set_ne hac.symm, List.getElem?_set_ne hab.symm]
    exact List.getElem?_set_self la
  have r2 : P[b]? = some (.append y) := by
    rw [← hP, List.getElem?_set_ne hbc.symm]
    exact List.getElem?_set_self (by simpa using lb)
  have r3 : P[c]? = some (.append z) := by
    rw [← hP]
    exact List.getElem?_set_self (by simpa using lc)
  have lPc := (List.getElem?_eq_some_iff.mp r3).1
  have e4 := storm_append (net := net) (s := ⟨⟨[], P⟩, k⟩) r3
  have q5 : (P.set c (.store z []))[c]? = some (.store z []) := List.getElem?_set_self lPc
  have e5 := storm_store (net := net) (s := ⟨⟨[], P.set c (.store z [])⟩, k⟩) q5
  generalize hQ : (P.set c (.store z [])).set c .done = Q at e5
  have t1 : (Q ++ net.map AddPc.check)[a]? = some (.append x) := by
    refine entry_left ?_
    rw [← hQ, List.getElem?_set_ne hac.symm, List.getElem?_set_ne hac.symm]; exact r1
  have t2 : (Q ++ net.map AddPc.check)[b]? = some (.append y) := by
    refine entry_left ?_
    rw [← hQ, List.getElem?_set_ne hbc.symm, List.getElem?_set_ne hbc.symm]; exact r2
  obtain ⟨d, hd⟩ := entry_checks (a := Q) hy
  generalize hR : Q ++ net.map AddPc.check = R at e5 t1 t2 hd
  have lRa := (List.getElem?_eq_some_iff.mp t1).1
  have lRb := (List.getElem?_eq_some_iff.mp t2).1
  have had : a ≠ d := by rintro rfl; rw [t1] at hd; cases hd
  have hbd : b ≠ d := by rintro rfl; rw [t2] at hd; cases hd
  have e6 := storm_append (net := net) (s := ⟨⟨[] ++ [z], R⟩, k + 1⟩) t1
  have q7 : (R.set a (.store x ([] ++ [z])))[b]? = some (.append y) := by rw [List.getElem?_set_ne hab]; exact t2
  have e7 := storm_append (net := net) (s := ⟨⟨[] ++ [z], R.set a (.store x ([] ++ [z]))⟩, k + 1⟩) q7
  have hrun : (⟨⟨[], pcs⟩, k⟩ : Storm).run net [a, b, c, c, c, a, b] =
      ⟨⟨[z], (R.set a (.store x [z])).set b (.store y [z])⟩, k + 1⟩ := by
    simp only [Storm.run]
    rw [e1]; dsimp only
    rw [e2]; dsimp only
    rw [e3]; dsimp only
    rw [e4]; dsimp only
    rw [e5]; dsimp only
    rw [e6]; dsimp only
    rw [e7]; rfl
  refine ⟨[a, b, c, c, c, a, b], ?_, ?_, by rw [hrun]⟩
  · refine ⟨⟨_, ha, by simp⟩, ?_⟩
    rw [e1]
    refine ⟨⟨_, q2, by simp⟩, ?_⟩
    dsimp only
    rw [e2]
    refine ⟨⟨_, q3, by simp⟩, ?_⟩
    dsimp only
    rw [e3]
    refine ⟨⟨_, r3, by simp⟩, ?_⟩
    dsimp only
    rw [e4]
    refine ⟨⟨_, q5, by simp⟩, ?_⟩
    dsimp only
    rw [e5]
    refine ⟨⟨_, t1, by simp⟩, ?_⟩
    dsimp only
    rw [e6]
    exact ⟨⟨_, q7, by simp⟩, trivial⟩
  · rw [hrun]
    have hzy : Lacks y [z] := fun n hn => by cases List.mem_singleton.mp hn; exact hyz
    have hzx : Lacks x [z] := fun n hn => by cases List.mem_singleton.mp hn; exact hxz
    refine ⟨hzy, ⟨a, [z], ?_, hzy⟩, ⟨b, [z], ?_, hzx⟩, ⟨d, ?_⟩⟩
    · show ((R.set a _).set b _)[a]? = _
      rw [List.getElem?_set_ne hab.symm]
      exact List.getElem?_set_self lRa
    · show ((R.set a _).set b _)[b]? = _
      exact List.getElem?_set_self (by simpa using lRb)
    · show ((R.set a _).set b _)[d]? = _
      rw [List.getElem?_set_ne hbd, List.getElem?_set_ne had]
      exact hd

/-- C177 is false: in every network with two nodes or more, when the program has searched twice, the listener can
search again and again without end, and one of the two nodes is then missing in the list of nodes. -/
theorem C177_refuted (net : List RemoteNode) (x y : RemoteNode) (hx : x ∈ net) (hy : y ∈ net)
    (hxy : ¬ (x.address = y.address ∧ x.port = y.port)) (k : Nat) :
    ∃ is, EachMoves net (Storm.init [] (net ++ net)) is ∧
      ((Storm.init [] (net ++ net)).run net is).searches = k + 1 ∧
      (Lacks x ((Storm.init [] (net ++ net)).run net is).st.found ∨
        Lacks y ((Storm.init [] (net ++ net)).run net is).st.found) := by
  obtain ⟨a, ha⟩ := List.getElem?_of_mem hx
  obtain ⟨b, hb⟩ := List.getElem?_of_mem hy
  have la := (List.getElem?_eq_some_iff.mp ha).1
  have lb := (List.getElem?_eq_some_iff.mp hb).1
  have ga : (Storm.init [] (net ++ net)).st.pcs[a]? = some (.check x) := by
    show ((net ++ net).map AddPc.check)[a]? = _
    rw [List.getElem?_map, List.getElem?_append_left la, ha]; rfl
  have ga' : (Storm.init [] (net ++ net)).st.pcs[net.length + a]? = some (.check x) := by
    show ((net ++ net).map AddPc.check)[net.length + a]? = _
    rw [List.getElem?_map, List.getElem?_append_right (by omega), Nat.add_sub_cancel_left, ha]; rfl
  have gb : (Storm.init [] (net ++ net)).st.pcs[b]? = some (.check y) := by
    show ((net ++ net).map AddPc.check)[b]? = _
    rw [List.getElem?_map, List.getElem?_append_left lb, hb]; rfl
  obtain ⟨is, h1, h2, h3⟩ := seesaw_starts hy hxy (s := Storm.init [] (net ++ net)) rfl (by omega) ga ga' gb
  obtain ⟨js, g1, g2, g3⟩ := seesaw_goes_on k hx hy hxy h2
  refine ⟨is ++ js, eachMoves_append h1 g1, ?_, ?_⟩
  · rw [storm_run_append, g2, h3]
    show 0 + 1 + k = _
    omega
  · rw [storm_run_append]; exact g3

/-- C177 is false: in a network with three nodes or more a single search of the program is enough for this. -/
theorem C177_refuted_once (net : List RemoteNode) (x y z : RemoteNode) (hx : x ∈ net) (hy : y ∈ net) (hz : z ∈ net)
    (hxy : ¬ (x.address = y.address ∧ x.port = y.port)) (hxz : ¬ (z.address = x.address ∧ z.port = x.port))
    (hyz : ¬ (z.address = y.address ∧ z.port = y.port)) (k : Nat) :
    ∃ is, EachMoves net (Storm.init [] net) is ∧ ((Storm.init [] net).run net is).searches = k + 1 ∧
      (Lacks x ((Storm.init [] net).run net is).st.found ∨ Lacks y ((Storm.init [] net).run net is).st.found) := by
  have get : ∀ w ∈ net, ∃ (i : Nat), (Storm.init [] net).st.pcs[i]? = some (.check w) := by
    intro w hw
    obtain ⟨i, hi⟩ := List.getElem?_of_mem hw
    refine ⟨i, ?_⟩
    show (net.map AddPc.check)[i]? = _
    rw [List.getElem?_map, hi]; rfl
  obtain ⟨a, ga⟩ := get x hx
  obtain ⟨b, gb⟩ := get y hy
  obtain ⟨c, gc⟩ := get z hz
  obtain ⟨is, h1, h2, h3⟩ := seesaw_starts_three hy hxy hxz hyz (s := Storm.init [] net) rfl ga gb gc
  obtain ⟨js, g1, g2, g3⟩ := seesaw_goes_on k hx hy hxy h2
  refine ⟨is ++ js, eachMoves_append h1 g1, ?_, ?_⟩
  · rw [storm_run_append, g2, h3]
    show 0 + 1 + k = _
    omega
  · rw [storm_run_append]; exact g3

/-- Two nodes: after two searches by the program, fifty by the listener. -/
example : ∃ is, ((Storm.init [] ([nodeAt "10.0.0.2", nodeAt "10.0.0.3"] ++ [nodeAt "10.0.0.2", nodeAt "10.0.0.3"])).run
    [nodeAt "10.0.0.2", nodeAt "10.0.0.3"] is).searches = 50 := by
  obtain ⟨is, -, h, -⟩ := C177_refuted [nodeAt "10.0.0.2", nodeAt "10.0.0.3"] (nodeAt "10.0.0.2") (nodeAt "10.0.0.3")
    (by simp) (by simp) (by simp [nodeAt]) 49
  exact ⟨is, h⟩

/-- Three nodes: after one search by the program, fifty by the listener. -/
example : ∃ is, ((Storm.init [] [nodeAt "10.0.0.2", nodeAt "10.0.0.3", nodeAt "10.0.0.4"]).run
    [nodeAt "10.0.0.2", nodeAt "10.0.0.3", nodeAt "10.0.0.4"] is).searches = 50 := by
  obtain ⟨is, -, h, -⟩ := C177_refuted_once [nodeAt "10.0.0.2", nodeAt "10.0.0.3", nodeAt "10.0.0.4"]
    (nodeAt "10.0.0.2") (nodeAt "10.0.0.3") (nodeAt "10.0.0.4") (by simp) (by simp) (by simp) (by simp [nodeAt])
    (by simp [nodeAt]) (by simp [nodeAt]) 49
  exact ⟨is, h⟩

end Verif.Props
