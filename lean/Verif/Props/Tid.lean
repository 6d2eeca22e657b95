import Verif.Model.Tid
import Verif.Props.Node

/-!
# C55: identifiers of concurrent senders
-/

namespace Verif.Props
open Verif Model Spec Lemmas

/-- C55 is false: two calls at the same time get the same identifier, in two ways. -/
theorem C55_refuted :
    ((⟨5, [.check, .check]⟩ : TidSt).run [0, 0, 1, 1, 0, 0, 1, 1]).calls = [.done 6, .done 6] ∧
    ((⟨5, [.check, .check]⟩ : TidSt).run [0, 0, 0, 1, 1, 1, 0, 1]).calls = [.done 7, .done 7] := by
  decide

/-- C55: and an identifier can leave the range, so that the message carries an old one. -/
theorem C55_refuted_range :
    let s := (⟨65534, [.check, .check]⟩ : TidSt).run [0, 1, 0, 0, 1, 1, 1, 0]
    s.calls = [.done 65536, .done 65536] ∧ (Message.new.setTID 65536).getTID = 1 := by decide

/-- C55 is false whatever identifier was used last: two calls that are made at the same time and keep
step get the same identifier, among whatever other calls. -/
theorem C55_refuted_any (s : TidSt) (i j : Nat) (hij : i ≠ j) (hi : s.calls[i]? = some .check)
    (hj : s.calls[j]? = some .check) :
    ∃ v, (s.run [i, j, i, j, i, j, i, j]).calls[i]? = some (.done v) ∧
      (s.run [i, j, i, j, i, j, i, j]).calls[j]? = some (.done v) := by
  have hl := (List.getElem?_eq_some_iff.mp hi).1
  have hl' := (List.getElem?_eq_some_iff.mp hj).1
  -- the two of them, each at the same place
  have two : ∀ (x y : GoUint) (cs : List TidPc) (p p' : TidPc), i < cs.length → j < cs.length →
      cs[i]? = some p → cs[j]? = some p →
      (∀ (cs : List TidPc) (k : Nat), cs[k]? = some p → (⟨x, cs⟩ : TidSt).step k = ⟨y, cs.set k p'⟩) →
      (∀ (cs : List TidPc) (k : Nat), cs[k]? = some p → (⟨y, cs⟩ : TidSt).step k = ⟨y, cs.set k p'⟩) →
      ∃ cs' : List TidPc, ((⟨x, cs⟩ : TidSt).step i).step j = ⟨y, cs'⟩ ∧ i < cs'.length ∧ j < cs'.length ∧
        cs'[i]? = some p' ∧ cs'[j]? = some p' := by
    intro x y cs p p' h1 h2 h3 h4 h5 h6
    refine ⟨(cs.set i p').set j p', ?_, by simpa using h1, by simpa using h2, ?_, ?_⟩
    · rw [h5 cs i h3, h6 _ j (by rw [List.getElem?_set_ne hij]; exact h4)]
    · rw [List.getElem?_set_ne hij.symm, List.getElem?_set_self h1]
    · rw [List.getElem?_set_self (by simpa using h2)]
  obtain ⟨last, cs⟩ := s
  simp only [TidSt.run]
  by_cases hm : tidMax ≤ last
  · obtain ⟨c1, e1, a1, b1, p1, q1⟩ := two last last cs .check .reset hl hl' hi hj
      (fun cs k h => by unfold TidSt.step; rw [h]; show TidSt.mk _ (cs.set k (if _ then _ else _)) = _; rw [if_pos hm])
      (fun cs k h => by unfold TidSt.step; rw [h]; show TidSt.mk _ (cs.set k (if _ then _ else _)) = _; rw [if_pos hm])
    obtain ⟨c2, e2, a2, b2, p2, q2⟩ := two last tidMin c1 .reset .load a1 b1 p1 q1
      (fun cs k h => by unfold TidSt.step; rw [h]) (fun cs k h => by unfold TidSt.step; rw [h])
    obtain ⟨c3, e3, a3, b3, p3, q3⟩ := two tidMin tidMin c2 .load (.done tidMin) a2 b2 p2 q2
      (fun cs k h => by unfold TidSt.step; rw [h]) (fun cs k h => by unfold TidSt.step; rw [h])
    have e4 : ∀ k, c3[k]? = some (.done tidMin) → (⟨tidMin, c3⟩ : TidSt).step k = ⟨tidMin, c3⟩ :=
      fun k h => by unfold TidSt.step; rw [h]
    rw [e1, e2, e3, e4 i p3, e4 j q3]
    exact ⟨_, p3, q3⟩
  · obtain ⟨c1, e1, a1, b1, p1, q1⟩ := two last last cs .check .read hl hl' hi hj
      (fun cs k h => by unfold TidSt.step; rw [h]; show TidSt.mk _ (cs.set k (if _ then _ else _)) = _; rw [if_neg hm])
      (fun cs k h => by unfold TidSt.step; rw [h]; show TidSt.mk _ (cs.set k (if _ then _ else _)) = _; rw [if_neg hm])
    obtain ⟨c2, e2, a2, b2, p2, q2⟩ := two last last c1 .read (.write (last + 1)) a1 b1 p1 q1
      (fun cs k h => by unfold TidSt.step; rw [h]) (fun cs k h => by unfold TidSt.step; rw [h])
    obtain ⟨c3, e3, a3, b3, p3, q3⟩ := two last (last + 1) c2 (.write (last + 1)) .load a2 b2 p2 q2
      (fun cs k h => by unfold TidSt.step; rw [h]) (fun cs k h => by unfold TidSt.step; rw [h])
    obtain ⟨c4, e4, _, _, p4, q4⟩ := two (last + 1) (last + 1) c3 .load (.done (last + 1)) a3 b3 p3 q3
      (fun cs k h => by unfold TidSt.step; rw [h]) (fun cs k h => by unfold TidSt.step; rw [h])
    rw [e1, e2, e3, e4]
    exact ⟨_, p4, q4⟩

/-- Two calls among three. -/
example : ((⟨65535, [.check, .done 65535, .check]⟩ : TidSt).run [0, 2, 0, 2, 0, 2, 0, 2]).calls =
    [.done 0, .done 65535, .done 0] := by decide

/-- A call that is not interrupted. -/
theorem call_alone (s : TidSt) (i : Nat) (h : s.calls[i]? = some .check) (n : Node)
    (hn : n.lastTID = s.lastTID) :
    s.run [i, i, i, i] = ⟨n.nextTID.lastTID, s.calls.set i (.done n.nextTID.lastTID)⟩ := by
  have hlt : i < s.calls.length := (List.getElem?_eq_some_iff.mp h).1
  obtain ⟨last, calls⟩ := s
  have hn' : n.lastTID = last := hn
  have h' : calls[i]? = some TidPc.check := h
  have hlt' : i < calls.length := hlt
  have get : ∀ (cs : List TidPc) (p : TidPc), i < cs.length → (cs.set i p)[i]? = some p :=
    fun cs p hc => List.getElem?_set_self hc
  have len : ∀ (p : TidPc), i < (calls.set i p).length := fun p => by rw [List.length_set]; exact hlt'
  unfold Node.nextTID
  rw [hn']
  by_cases hm : tidMax ≤ last
  · have e1 : (⟨last, calls⟩ : TidSt).step i = ⟨last, calls.set i .reset⟩ := by
      rw [TidSt.step, h']; show TidSt.mk _ _ = _; rw [if_pos hm]
    have e2 : (⟨last, calls.set i .reset⟩ : TidSt).step i = ⟨tidMin, calls.set i .load⟩ := by
      rw [TidSt.step, get _ _ hlt']; show TidSt.mk _ _ = _; rw [List.set_set]
    have e3 : (⟨tidMin, calls.set i .load⟩ : TidSt).step i = ⟨tidMin, calls.set i (.done tidMin)⟩ := by
      rw [TidSt.step, get _ _ hlt']; show TidSt.mk _ _ = _; rw [List.set_set]
    have e4 : (⟨tidMin, calls.set i (.done tidMin)⟩ : TidSt).step i
        = ⟨tidMin, calls.set i (.done tidMin)⟩ := by
      rw [TidSt.step, get _ _ hlt']
    rw [if_pos hm]
    show TidSt.step (TidSt.step (TidSt.step (TidSt.step _ i) i) i) i = _
    rw [e1, e2, e3, e4]
  · have e1 : (⟨last, calls⟩ : TidSt).step i = ⟨last, calls.set i .read⟩ := by
      rw [TidSt.step, h']; show TidSt.mk _ _ = _; rw [if_neg hm]
    have e2 : (⟨last, calls.set i .read⟩ : TidSt).step i
        = ⟨last, calls.set i (.write (last + 1))⟩ := by
      rw [TidSt.step, get _ _ hlt']; show TidSt.mk _ _ = _; rw [List.set_set]
    have e3 : (⟨last, calls.set i (.write (last + 1))⟩ : TidSt).step i
        = ⟨last + 1, calls.set i .load⟩ := by
      rw [TidSt.step, get _ _ hlt']; show TidSt.mk _ _ = _; rw [List.set_set]
    have e4 : (⟨last + 1, calls.set i .load⟩ : TidSt).step i
        = ⟨last + 1, calls.set i (.done (last + 1))⟩ := by
      rw [TidSt.step, get _ _ hlt']; show TidSt.mk _ _ = _; rw [List.set_set]
    rw [if_neg hm]
    show TidSt.step (TidSt.step (TidSt.step (TidSt.step _ i) i) i) i = _
    rw [e1, e2, e3, e4]

/-- The identifiers the calls `is` returned. -/
def returned (s : TidSt) (is : List Nat) : List GoUint :=
  is.filterMap (fun i =>
    match s.calls[i]? with
    | some (TidPc.done v) => some v
    | _ => none)

/-- C55, the part that holds: calls that do not overlap, in whatever order they are made, get the
identifiers of the sequential node, and so up to 65536 of them are pairwise distinct. Missing:
calls that overlap. -/
theorem C55_separate_partial (s : TidSt) (is : List Nat) (hd : is.Nodup)
    (hc : ∀ i ∈ is, s.calls[i]? = some .check) (n : Node) (hn : n.lastTID = s.lastTID)
    (hr : n.lastTID.toNat ≤ 65535) :
    (returned (s.run (is.flatMap (fun i => [i, i, i, i]))) is).map (·.toNat) = issued n is.length ∧
    (is.length ≤ 65536 →
      (returned (s.run (is.flatMap (fun i => [i, i, i, i]))) is).Nodup) := by
  have run_append : ∀ (as bs : List Nat) (s : TidSt), s.run (as ++ bs) = (s.run as).run bs := by
    intro as
    induction as with
    | nil => intro bs s; rfl
    | cons a as ih => intro bs s; exact ih bs _
  have stays : ∀ (is : List Nat) (s : TidSt) (j : Nat), j ∉ is → 
      (s.run (is.flatMap (fun i => [i, i, i, i]))).calls[j]? = s.calls[j]? := by
    have one : ∀ (s : TidSt) (i j : Nat), i ≠ j → (s.step i).calls[j]? = s.calls[j]? := by
      intro s i j hij
      unfold TidSt.step
      cases hp : s.calls[i]? with
      | none => rfl
      | some p =>
        cases p with
        | done v => rfl
        | check =>
          show (s.calls.set i _)[j]? = _
          exact List.getElem?_set_ne hij
        | reset =>
          show (s.calls.set i _)[j]? = _
          exact List.getElem?_set_ne hij
        | read =>
          show (s.calls.set i _)[j]? = _
          exact List.getElem?_set_ne hij
        | write v =>
          show (s.calls.set i _)[j]? = _
          exact List.getElem?_set_ne hij
        | load =>
          show (s.calls.set i _)[j]? = _
          exact List.getElem?_set_ne hij
    intro is
    induction is with
    | nil => intro s j _; rfl
    | cons i is ih =>
      intro s j hj
      rw [List.mem_cons, not_or] at hj
      rw [List.flatMap_cons, run_append, ih _ _ hj.2]
      simp only [TidSt.run]
      rw [one _ _ _ (Ne.symm hj.1), one _ _ _ (Ne.symm hj.1), one _ _ _ (Ne.symm hj.1),
        one _ _ _ (Ne.symm hj.1)]
  have main : ∀ (is : List Nat) (s : TidSt) (n : Node), is.Nodup →
      (∀ i ∈ is, s.calls[i]? = some .check) → n.lastTID = s.lastTID →
      (returned (s.run (is.flatMap (fun i => [i, i, i, i]))) is).map (·.toNat) = issued n is.length := by
    intro is
    induction is with
    | nil => intro s n _ _ _; rfl
    | cons i is ih =>
      intro s n hd hc hn
      rw [List.nodup_cons] at hd
      have h0 := hc i (List.mem_cons_self ..)
      have hlt : i < s.calls.length := (List.getElem?_eq_some_iff.mp h0).1
      have e := call_alone s i h0 n hn
      have hs := stays is (s.run [i, i, i, i]) i hd.1
      rw [List.flatMap_cons, run_append]
      have hi : ((s.run [i, i, i, i]).run (is.flatMap (fun i => [i, i, i, i]))).calls[i]?
          = some (.done n.nextTID.lastTID) := by
        rw [hs, e]; exact List.getElem?_set_self hlt
      have ih' := ih (s.run [i, i, i, i]) n.nextTID hd.2 (by
        intro j hj
        have hij : i ≠ j := fun e => hd.1 (e ▸ hj)
        rw [e]
        show (s.calls.set i _)[j]? = _
        rw [List.getElem?_set_ne hij]
        exact hc j (List.mem_cons_of_mem _ hj)) (by rw [e])
      unfold returned at ih' ⊢
      rw [List.filterMap_cons]
      simp only [hi, List.map_cons, List.length_cons, issued]
      rw [ih']
  refine ⟨main is s n hd hc hn, fun hl => ?_⟩
  have := (C29_sequence n hr is.length).2.2 hl
  rw [← main is s n hd hc hn] at this
  exact List.Pairwise.imp (fun h e => h (by rw [e])) (List.pairwise_map.mp this)

/-- Three calls, made in the order 2, 0, 1. -/
example : returned ((⟨65534, [.check, .check, .check]⟩ : TidSt).run
    ([2, 0, 1].flatMap (fun i => [i, i, i, i]))) [2, 0, 1] = [65535, 0, 1] := by decide

end Verif.Props
