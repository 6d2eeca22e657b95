import Verif.Model.ControllerRace
import Verif.Props.Controller

/-!
# C45: nodes found by concurrent handlers
-/

namespace Verif.Props
open Verif Model Spec

/-- A node at an address. -/
def nodeAt (a : String) : RemoteNode := ⟨a, 3610, [], []⟩

/-- C45 is false: two messages of one node, handled at the same time, make it known twice. -/
theorem C45_refuted_duplicate :
    let s := (AddSt.init [] [nodeAt "10.0.0.2", nodeAt "10.0.0.2"]).run [0, 1, 0, 0, 1, 1]
    s.found = [nodeAt "10.0.0.2", nodeAt "10.0.0.2"] ∧ s.pcs = [.done, .done] ∧ ¬ Distinct s.found := by
  refine ⟨by decide, by decide, ?_⟩
  intro h
  have e : ((AddSt.init [] [nodeAt "10.0.0.2", nodeAt "10.0.0.2"]).run [0, 1, 0, 0, 1, 1]).found
    = [nodeAt "10.0.0.2", nodeAt "10.0.0.2"] := by decide
  rw [e] at h
  simp [Distinct] at h

/-- C45, and C46: messages of two nodes handled at the same time can lose one of them. -/
theorem C45_refuted_lost :
    let s := (AddSt.init [] [nodeAt "10.0.0.2", nodeAt "10.0.0.3"]).run [0, 1, 0, 1, 0, 1]
    s.found = [nodeAt "10.0.0.3"] ∧ s.pcs = [.done, .done] := by decide

/-- One step of a handler that has to look the node up, of one that has to read the list and of one
that has to write it. -/
theorem add_steps (f : List RemoteNode) (pcs : List AddPc) (i : Nat) (n : RemoteNode) :
    (pcs[i]? = some (.check n) → f.any n.equals = false →
      (⟨f, pcs⟩ : AddSt).step i = ⟨f, pcs.set i (.append n)⟩) ∧
    (pcs[i]? = some (.append n) → (⟨f, pcs⟩ : AddSt).step i = ⟨f, pcs.set i (.store n f)⟩) ∧
    (∀ l, pcs[i]? = some (.store n l) → (⟨f, pcs⟩ : AddSt).step i = ⟨l ++ [n], pcs.set i .done⟩) := by
  refine ⟨fun h hn => ?_, fun h => ?_, fun l h => ?_⟩ <;> unfold AddSt.step <;> rw [h]
  exact if_neg (by rw [hn]; decide)

/-- C45 is false whatever nodes are known: two messages of one node that is not known, handled at the
same time as any others, can list it twice. -/
theorem C45_refuted_any_duplicate (s : AddSt) (i j : Nat) (n : RemoteNode) (hij : i ≠ j)
    (hi : s.pcs[i]? = some (.check n)) (hj : s.pcs[j]? = some (.check n)) (hn : s.found.any n.equals = false) :
    (s.run [i, j, i, i, j, j]).found = s.found ++ [n, n] ∧ ¬ Distinct (s.run [i, j, i, i, j, j]).found := by
  have hl := (List.getElem?_eq_some_iff.mp hi).1
  have hl' := (List.getElem?_eq_some_iff.mp hj).1
  obtain ⟨f, pcs⟩ := s
  have e : ((⟨f, pcs⟩ : AddSt).run [i, j, i, i, j, j]).found = f ++ [n, n] := by
    simp only [AddSt.run]
    rw [(add_steps f pcs i n).1 hi hn]
    rw [(add_steps f (pcs.set i (.append n)) j n).1 (by rw [List.getElem?_set_ne hij]; exact hj) hn]
    generalize hp : (pcs.set i (.append n)).set j (.append n) = p
    have p1 : p[i]? = some (.append n) := by
      rw [← hp, List.getElem?_set_ne hij.symm, List.getElem?_set_self hl]
    have p2 : p[j]? = some (.append n) := by rw [← hp, List.getElem?_set_self (by simpa using hl')]
    have l1 := (List.getElem?_eq_some_iff.mp p1).1
    have l2 := (List.getElem?_eq_some_iff.mp p2).1
    rw [(add_steps f p i n).2.1 p1]
    rw [(add_steps f (p.set i (.store n f)) i n).2.2 f (List.getElem?_set_self l1), List.set_set]
    have p3 : (p.set i .done)[j]? = some (.append n) := by rw [List.getElem?_set_ne hij]; exact p2
    rw [(add_steps (f ++ [n]) (p.set i .done) j n).2.1 p3]
    rw [(add_steps (f ++ [n]) ((p.set i .done).set j (.store n (f ++ [n]))) j n).2.2 (f ++ [n])
      (List.getElem?_set_self (by simpa using l2))]
    exact List.append_assoc _ _ _
  refine ⟨e, fun h => ?_⟩
  rw [e] at h
  have h2 := (List.pairwise_append.mp h).2.1
  rw [List.pairwise_cons] at h2
  simpa using h2.1 n List.mem_cons_self

/-- C45, and C46, whatever nodes are known: of two nodes that are not known and whose messages are
handled at the same time, one can be lost, although both handlers are done. -/
theorem C45_refuted_any_lost (s : AddSt) (i j : Nat) (n n' : RemoteNode) (hij : i ≠ j)
    (hi : s.pcs[i]? = some (.check n)) (hj : s.pcs[j]? = some (.check n'))
    (hn : s.found.any n.equals = false) (hn' : s.found.any n'.equals = false) :
    (s.run [i, j, i, j, i, j]).found = s.found ++ [n'] ∧
    (s.run [i, j, i, j, i, j]).pcs[i]? = some .done ∧ (s.run [i, j, i, j, i, j]).pcs[j]? = some .done := by
  have hl := (List.getElem?_eq_some_iff.mp hi).1
  have hl' := (List.getElem?_eq_some_iff.mp hj).1
  obtain ⟨f, pcs⟩ := s
  simp only [AddSt.run]
  rw [(add_steps f pcs i n).1 hi hn]
  rw [(add_steps f (pcs.set i (.append n)) j n').1 (by rw [List.getElem?_set_ne hij]; exact hj) hn']
  generalize hp : (pcs.set i (.append n)).set j (.append n') = p
  have p1 : p[i]? = some (.append n) := by
    rw [← hp, List.getElem?_set_ne hij.symm, List.getElem?_set_self hl]
  have p2 : p[j]? = some (.append n') := by rw [← hp, List.getElem?_set_self (by simpa using hl')]
  have l1 := (List.getElem?_eq_some_iff.mp p1).1
  have l2 := (List.getElem?_eq_some_iff.mp p2).1
  rw [(add_steps f p i n).2.1 p1]
  rw [(add_steps f (p.set i (.store n f)) j n').2.1 (by rw [List.getElem?_set_ne hij]; exact p2)]
  generalize hq : (p.set i (.store n f)).set j (.store n' f) = q
  have q1 : q[i]? = some (.store n f) := by
    rw [← hq, List.getElem?_set_ne hij.symm, List.getElem?_set_self l1]
  have q2 : q[j]? = some (.store n' f) := by rw [← hq, List.getElem?_set_self (by simpa using l2)]
  have k1 := (List.getElem?_eq_some_iff.mp q1).1
  have k2 := (List.getElem?_eq_some_iff.mp q2).1
  rw [(add_steps f q i n).2.2 f q1]
  rw [(add_steps (f ++ [n]) (q.set i .done) j n').2.2 f (by rw [List.getElem?_set_ne hij]; exact q2)]
  refine ⟨rfl, ?_, ?_⟩
  · show ((q.set i _).set j _)[i]? = _
    rw [List.getElem?_set_ne hij.symm, List.getElem?_set_self k1]
  · show ((q.set i _).set j _)[j]? = _
    rw [List.getElem?_set_self (by simpa using k2)]

/-- Two nodes that a controller knowing a third has not heard of. -/
example : (AddSt.init [nodeAt "10.0.0.1"] [nodeAt "10.0.0.2", nodeAt "10.0.0.3"]).found.any
    (nodeAt "10.0.0.2").equals = false := by decide

/-- A handler that is not interrupted adds the node as `addNode` does. -/
theorem C45_uninterrupted_partial (c : Ctrl) (n : RemoteNode) (s : AddSt) (i : Nat)
    (hi : s.pcs[i]? = some (AddPc.check n)) (hf : s.found = c.found) :
    (s.run [i, i, i]).found = (c.addNode n).1.found ∧ (s.run [i, i, i]).pcs = s.pcs.set i .done := by
  have hlt : i < s.pcs.length := by
    rcases Nat.lt_or_ge i s.pcs.length with h | h
    · exact h
    · rw [List.getElem?_eq_none h] at hi; cases hi
  unfold Ctrl.addNode
  simp only [AddSt.run]
  by_cases h : c.found.any n.equals = true
  · have e : s.step i = { s with pcs := s.pcs.set i .done } := by
      unfold AddSt.step
      rw [hi]
      simp only [hf, h, if_true]
    have e2 : (s.step i).step i = s.step i := by
      rw [e]; unfold AddSt.step; simp [List.getElem?_set_self hlt]
    rw [e2, e2, e, if_pos h]
    exact ⟨hf, rfl⟩
  · have e : s.step i = { s with pcs := s.pcs.set i (.append n) } := by
      unfold AddSt.step
      rw [hi]
      simp only [hf, h]
      rfl
    rw [e, if_neg h]
    constructor
    · unfold AddSt.step
      simp [hlt, hf]
    · unfold AddSt.step
      simp [hlt]

/-- One of two goroutines, not interrupted. -/
example (c : Ctrl) (hf : c.found = [nodeAt "10.0.0.1"]) :
    ((AddSt.init c.found [nodeAt "10.0.0.2", nodeAt "10.0.0.1"]).run [1, 1, 1]).found
      = (c.addNode (nodeAt "10.0.0.1")).1.found ∧ (c.addNode (nodeAt "10.0.0.1")).1.found = [nodeAt "10.0.0.1"] := by
  have h := (C45_uninterrupted_partial c (nodeAt "10.0.0.1") (AddSt.init c.found [nodeAt "10.0.0.2", nodeAt "10.0.0.1"]) 1
    rfl rfl).1
  exact ⟨h, by rw [← h, hf]; decide⟩

/-- The nodes of handlers that are done. -/
def Done (ns : List RemoteNode) (pcs : List AddPc) (n : RemoteNode) : Prop :=
  ∃ i : Nat, ns[i]? = some n ∧ pcs[i]? = some AddPc.done

/-- What holds of lists of nodes while handlers of different nodes run. -/
structure Sound (found0 ns : List RemoteNode) (pcs : List AddPc) (l : List RemoteNode) : Prop where
  distinct : Distinct l
  origin : ∀ n ∈ l, n ∈ found0 ∨ Done ns pcs n

structure AddInv (found0 ns : List RemoteNode) (s : AddSt) : Prop where
  length : s.pcs.length = ns.length
  found : Sound found0 ns s.pcs s.found
  node : ∀ (i : Nat) (n : RemoteNode), (s.pcs[i]? = some (AddPc.check n) ∨ s.pcs[i]? = some (AddPc.append n) ∨
    ∃ l, s.pcs[i]? = some (AddPc.store n l)) → ns[i]? = some n
  loaded : ∀ (i : Nat) (n : RemoteNode) (l : List RemoteNode), s.pcs[i]? = some (AddPc.store n l) → Sound found0 ns s.pcs l

theorem Done.mono {ns : List RemoteNode} {pcs : List AddPc} {n : RemoteNode} (i : Nat) (pc : AddPc)
    (hnd : pcs[i]? ≠ some AddPc.done) (h : Done ns pcs n) : Done ns (pcs.set i pc) n := by
  obtain ⟨j, h1, h2⟩ := h
  refine ⟨j, h1, ?_⟩
  rw [List.getElem?_set_ne (fun e => hnd (by rw [e]; exact h2))]
  exact h2

theorem Sound.mono {found0 ns : List RemoteNode} {pcs : List AddPc} {l : List RemoteNode} (i : Nat)
    (pc : AddPc) (hnd : pcs[i]? ≠ some AddPc.done) (h : Sound found0 ns pcs l) :
    Sound found0 ns (pcs.set i pc) l :=
  ⟨h.distinct, fun n hn => (h.origin n hn).imp id (Done.mono i pc hnd)⟩

theorem addInv_step (found0 ns : List RemoteNode) (hd : Distinct (found0 ++ ns)) (s : AddSt) (i : Nat)
    (h : AddInv found0 ns s) : AddInv found0 ns (s.step i) := by
  unfold Distinct at hd
  rw [List.pairwise_append] at hd
  obtain ⟨hd0, hdn, hdc⟩ := hd
  cases hpc : s.pcs[i]? with
  | none =>
    have : s.step i = s := by unfold AddSt.step; rw [hpc]
    rw [this]; exact h
  | some pc =>
    have hlt : i < s.pcs.length := by
      rcases Nat.lt_or_ge i s.pcs.length with h | h
      · exact h
      · rw [List.getElem?_eq_none h] at hpc; cases hpc
    -- a handler keeps its node, or ends
    have nodes : ∀ pc' : AddPc, (∀ n, (pc' = .check n ∨ pc' = .append n ∨ ∃ l, pc' = .store n l) →
        ns[i]? = some n) →
        ∀ (j : Nat) (n : RemoteNode), ((s.pcs.set i pc')[j]? = some (AddPc.check n) ∨ (s.pcs.set i pc')[j]? = some (AddPc.append n) ∨
          ∃ l, (s.pcs.set i pc')[j]? = some (AddPc.store n l)) → ns[j]? = some n := by
      intro pc' hn j n hj
      by_cases e : i = j
      · subst e
        simp only [List.getElem?_set_self hlt, Option.some.injEq] at hj
        exact hn n hj
      · simp only [List.getElem?_set_ne e] at hj
        exact h.node j n hj
    -- lists loaded earlier stay sound
    have loads : ∀ pc' : AddPc, pc ≠ .done →
        (∀ n l, pc' = .store n l → Sound found0 ns (s.pcs.set i pc') l) →
        ∀ (j : Nat) (n : RemoteNode) (l : List RemoteNode), (s.pcs.set i pc')[j]? = some (AddPc.store n l) → Sound found0 ns (s.pcs.set i pc') l := by
      intro pc' hnd hn j n l hj
      by_cases e : i = j
      · subst e
        simp only [List.getElem?_set_self hlt, Option.some.injEq] at hj
        exact hn n l hj
      · simp only [List.getElem?_set_ne e] at hj
        exact (h.loaded j n l hj).mono i pc' (by rw [hpc]; simpa using hnd)
    cases pc with
    | check n =>
      have hnd : s.pcs[i]? ≠ some AddPc.done := by rw [hpc]; simp
      have hn : ns[i]? = some n := h.node i n (.inl hpc)
      by_cases hc : s.found.any n.equals = true
      · have e : s.step i = { s with pcs := s.pcs.set i .done } := by
          unfold AddSt.step; rw [hpc]; simp only [hc, if_true]
        rw [e]
        refine ⟨by simpa using h.length, h.found.mono i _ hnd, nodes .done ?_, loads .done (by simp) ?_⟩
        · rintro m (x | x | ⟨l, x⟩) <;> cases x
        · intro m l x; cases x
      · have e : s.step i = { s with pcs := s.pcs.set i (.append n) } := by
          unfold AddSt.step; rw [hpc]; simp only [hc]; rfl
        rw [e]
        refine ⟨by simpa using h.length, h.found.mono i _ hnd, nodes (.append n) ?_,
          loads (.append n) (by simp) ?_⟩
        · rintro m (x | x | ⟨l, x⟩) <;> cases x
          exact hn
        · intro m l x; cases x
    | append n =>
      have hnd : s.pcs[i]? ≠ some AddPc.done := by rw [hpc]; simp
      have hn : ns[i]? = some n := h.node i n (.inr (.inl hpc))
      have e : s.step i = { s with pcs := s.pcs.set i (.store n s.found) } := by
        unfold AddSt.step; rw [hpc]
      rw [e]
      refine ⟨by simpa using h.length, h.found.mono i _ hnd, nodes (.store n s.found) ?_,
        loads (.store n s.found) (by simp) ?_⟩
      · rintro m (x | x | ⟨l, x⟩) <;> cases x
        exact hn
      · intro m l x
        cases x
        exact h.found.mono i _ hnd
    | store n l =>
      have hnd : s.pcs[i]? ≠ some AddPc.done := by rw [hpc]; simp
      have hn : ns[i]? = some n := h.node i n (.inr (.inr ⟨l, hpc⟩))
      have hl := h.loaded i n l hpc
      have e : s.step i = { found := l ++ [n], pcs := s.pcs.set i .done } := by
        unfold AddSt.step; rw [hpc]
      rw [e]
      refine ⟨by simpa using h.length, ⟨?_, ?_⟩, nodes .done ?_, loads .done (by simp) ?_⟩
      · refine distinct_append hl.distinct (fun x hx => ?_)
        rcases hl.origin x hx with h0 | ⟨j, h1, h2⟩
        · exact hdc x h0 n (List.mem_of_getElem? hn)
        · have hij : i ≠ j := fun e => hnd (by rw [e]; exact h2)
          rw [List.pairwise_iff_getElem] at hdn
          obtain ⟨p, hp⟩ := List.getElem?_eq_some_iff.mp hn
          obtain ⟨q, hq⟩ := List.getElem?_eq_some_iff.mp h1
          rcases Nat.lt_or_ge i j with hlt' | hge
          · have := hdn i j p q hlt'
            rw [hp, hq] at this
            exact fun hxn => this ⟨hxn.1.symm, hxn.2.symm⟩
          · have := hdn j i q p (by omega)
            rw [hp, hq] at this
            exact this
      · intro x hx
        rcases List.mem_append.mp hx with hx | hx
        · exact (hl.mono i .done hnd).origin x hx
        · rw [List.mem_singleton] at hx
          subst hx
          exact .inr ⟨i, hn, List.getElem?_set_self hlt⟩
      · rintro m (x | x | ⟨l, x⟩) <;> cases x
      · intro m l x; cases x
    | done =>
      have : s.step i = s := by unfold AddSt.step; rw [hpc]
      rw [this]; exact h

/-- C45, the part that holds under every schedule: as long as no node is announced in two messages
and none is already known, the nodes stay different. Missing: several messages of one node. -/
theorem C45_distinct_partial (found ns : List RemoteNode) (hd : Distinct (found ++ ns))
    (sched : List Nat) : Distinct ((AddSt.init found ns).run sched).found ∧
    ∀ n ∈ ((AddSt.init found ns).run sched).found, n ∈ found ∨ n ∈ ns := by
  have key : ∀ (sched : List Nat) (s : AddSt), AddInv found ns s → AddInv found ns (s.run sched) := by
    intro sched
    induction sched with
    | nil => intro s h; exact h
    | cons i is ih => intro s h; exact ih _ (addInv_step found ns hd s i h)
  have h0 : AddInv found ns (AddSt.init found ns) := by
    refine ⟨by simp [AddSt.init], ⟨?_, fun n hn => .inl hn⟩, ?_, ?_⟩
    · unfold Distinct at hd ⊢
      rw [List.pairwise_append] at hd
      exact hd.1
    · intro i n hi
      simp only [AddSt.init, List.getElem?_map] at hi
      cases hn : ns[i]? with
      | none => rw [hn] at hi; simp at hi
      | some m => rw [hn] at hi; simpa using hi
    · intro i n l hi
      simp only [AddSt.init, List.getElem?_map] at hi
      cases hn : ns[i]? with
      | none => rw [hn] at hi; simp at hi
      | some m => rw [hn] at hi; simp at hi
  obtain ⟨-, h, -, -⟩ := key sched _ h0
  refine ⟨h.distinct, fun n hn => (h.origin n hn).imp id ?_⟩
  rintro ⟨i, hi, -⟩
  exact List.mem_of_getElem? hi

/-- Three handlers of different nodes, one node already known. -/
example : Distinct ([nodeAt "10.0.0.1"] ++ [nodeAt "10.0.0.2", nodeAt "10.0.0.3", nodeAt "10.0.0.4"]) ∧
    ((AddSt.init [nodeAt "10.0.0.1"] [nodeAt "10.0.0.2", nodeAt "10.0.0.3", nodeAt "10.0.0.4"]).run
      [2, 0, 0, 0, 1, 2, 1, 2, 1]).found = [nodeAt "10.0.0.1", nodeAt "10.0.0.2", nodeAt "10.0.0.3"] := by
  refine ⟨?_, by decide⟩
  simp [Distinct, nodeAt]

end Verif.Props
