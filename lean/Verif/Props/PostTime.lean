import Verif.Model.PostTime
import Verif.Props.Post

/-! # C128: how long a post takes -/

namespace Verif.Props
open Verif Model Spec Lemmas TimedPosts

/-- The post has not begun to wait for its answer. -/
def Early : PostPc → Bool
  | .start | .lock | .makeCh | .setReq | .setTID | .setSEOJ | .send => true
  | _ => false

/-- The post has ended. -/
def Over : PostPc → Bool
  | .done _ => true
  | _ => false

/-- The ways one post moves on in a step. -/
inductive Moves (p p' : Poster) : Prop
  | early (h1 : Early p.pc = true) (h2 : Early p'.pc = true)
  | wait (h1 : p.pc = .send) (h2 : p'.pc = .wait)
  | fails (h1 : Early p.pc = true) (h2 : Early p'.pc = false) (h3 : p'.pc ≠ .wait) (h4 : Over p'.pc = true → p.tcp = true)
  | ends (h1 : p.pc = .wait) (h2 : Early p'.pc = false) (h3 : p'.pc ≠ .wait) (h4 : Over p'.pc = false)
  | late (h1 : Early p.pc = false) (h2 : p.pc ≠ .wait) (h3 : Over p.pc = false) (h4 : Early p'.pc = false)
      (h5 : p'.pc ≠ .wait)

/-- A step moves at most one post. -/
theorem step_moves (s : PostSt) (a : PostAct) (ha : ∀ d t m, a ≠ .post d t m) :
    (s.step a).posters.map (fun p => (p.pc, p.tcp)) = s.posters.map (fun p => (p.pc, p.tcp)) ∨
    ∃ i p p', s.posters[i]? = some p ∧ (s.step a).posters = s.posters.set i p' ∧ p'.tcp = p.tcp ∧ Moves p p' := by
  unfold PostSt.step
  split
  · exact .inl rfl
  · cases a with
    | post d t m => exact absurd rfl (ha d t m)
    | arrive m => exact .inl rfl
    | cancel i =>
      dsimp only
      split
      · exact .inl rfl
      · next p hp =>
        left
        show (s.posters.set i { p with ctxDone := true }).map _ = _
        rw [List.map_set]
        apply List.ext_getElem?
        intro j
        rw [List.getElem?_set]
        split
        · next e =>
          subst e
          rw [List.length_map, if_pos (List.getElem?_eq_some_iff.mp hp).1, List.getElem?_map, hp]
          rfl
        · rfl
    | tcp i running tid r =>
      dsimp only
      split
      · exact .inl rfl
      · next p hp =>
        unfold PostSt.stepTCP
        split
        · next h =>
          have he : Early p.pc = true := by rw [h.1]; rfl
          split
          · exact .inr ⟨i, p, _, hp, rfl, rfl, .early he rfl⟩
          · dsimp only
            split
            · exact .inr ⟨i, p, _, hp, rfl, rfl, .fails he rfl (by simp) (fun _ => h.2)⟩
            · exact .inr ⟨i, p, _, hp, rfl, rfl, .early he rfl⟩
        · exact .inl rfl
    | own i =>
      dsimp only
      split
      · exact .inl rfl
      · next p hp =>
        unfold PostSt.stepOwn
        cases hpc : p.pc with
        | start =>
          dsimp only
          split
          · exact .inl rfl
          · exact .inr ⟨i, p, _, hp, rfl, rfl, .early (by rw [hpc]; rfl) rfl⟩
        | lock =>
          dsimp only
          split
          · exact .inr ⟨i, p, _, hp, rfl, rfl, .early (by rw [hpc]; rfl) rfl⟩
          · exact .inl rfl
        | makeCh => exact .inr ⟨i, p, _, hp, rfl, rfl, .early (by rw [hpc]; rfl) rfl⟩
        | setReq => exact .inr ⟨i, p, _, hp, rfl, rfl, .early (by rw [hpc]; rfl) rfl⟩
        | setTID => exact .inl rfl
        | setSEOJ => exact .inr ⟨i, p, _, hp, rfl, rfl, .early (by rw [hpc]; rfl) rfl⟩
        | send => exact .inl rfl
        | wait => exact .inl rfl
        | close r =>
          dsimp only
          split
          · exact .inr ⟨i, p, _, hp, rfl, rfl, .late (by rw [hpc]; rfl) (by rw [hpc]; simp) (by rw [hpc]; rfl) rfl (by simp)⟩
          · split
            · exact .inl rfl
            · exact .inr ⟨i, p, _, hp, rfl, rfl,
                .late (by rw [hpc]; rfl) (by rw [hpc]; simp) (by rw [hpc]; rfl) rfl (by simp)⟩
        | clearCh r =>
          exact .inr ⟨i, p, _, hp, rfl, rfl, .late (by rw [hpc]; rfl) (by rw [hpc]; simp) (by rw [hpc]; rfl) rfl (by simp)⟩
        | clearReq r =>
          exact .inr ⟨i, p, _, hp, rfl, rfl, .late (by rw [hpc]; rfl) (by rw [hpc]; simp) (by rw [hpc]; rfl) rfl (by simp)⟩
        | unlock r =>
          exact .inr ⟨i, p, _, hp, rfl, rfl, .late (by rw [hpc]; rfl) (by rw [hpc]; simp) (by rw [hpc]; rfl) rfl (by simp)⟩
        | done r => exact .inl rfl
    | header i running tid =>
      dsimp only
      split
      · exact .inl rfl
      · next p hp =>
        unfold PostSt.stepHeader
        split
        · next h =>
          have he : Early p.pc = true := by rw [h]; rfl
          split
          · exact .inr ⟨i, p, _, hp, rfl, rfl, .fails he rfl (by simp) (fun h => by cases h)⟩
          · exact .inr ⟨i, p, _, hp, rfl, rfl, .early he rfl⟩
        · exact .inl rfl
    | send i ok =>
      dsimp only
      split
      · exact .inl rfl
      · next p hp =>
        unfold PostSt.stepSend
        split
        · next h =>
          have he : Early p.pc = true := by rw [h]; rfl
          split
          · exact .inr ⟨i, p, _, hp, rfl, rfl, .wait h rfl⟩
          · exact .inr ⟨i, p, _, hp, rfl, rfl, .fails he rfl (by simp) (fun h => by cases h)⟩
        · exact .inl rfl
    | receive i h =>
      dsimp only
      split
      · next p x hp hx =>
        unfold PostSt.stepReceive
        split
        · next hh => exact .inr ⟨i, p, _, hp, rfl, rfl, .ends hh.1 rfl (by simp) rfl⟩
        · exact .inl rfl
      · exact .inl rfl
    | timeout i =>
      dsimp only
      split
      · exact .inl rfl
      · next p hp =>
        split
        · next h => exact .inr ⟨i, p, _, hp, rfl, rfl, .ends h rfl (by simp) rfl⟩
        · exact .inl rfl
    | handler h =>
      dsimp only
      split
      · exact .inl rfl
      · next x hx =>
        left
        unfold PostSt.stepHandler
        split <;> try rfl
        · split <;> rfl
        · split <;> rfl
        · split <;> rfl

/-- What holds of the clock in every history. -/
structure TInv (T : Nat) (s : TimedPosts) : Prop where
  inv : PInv s.st
  waits : ∀ i, pc s.st i = some .wait → s.since i ≤ s.now ∧ s.now ≤ s.since i + T

theorem settled_iff (T : Nat) (s : TimedPosts) :
    s.settled T = true ↔ ∀ (i : Nat) p, s.st.posters[i]? = some p → s.rests T p i = true := by
  unfold TimedPosts.settled
  rw [List.all_eq_true]
  constructor
  · intro h i p hp
    exact h (p, i) (List.mem_zipIdx_iff_getElem?.mpr hp)
  · intro h e he
    exact h e.2 e.1 (List.mem_zipIdx_iff_getElem?.mp he)

theorem pc_some {s : PostSt} {i : Nat} {x : PostPc} (h : pc s i = some x) : ∃ p, s.posters[i]? = some p ∧ p.pc = x := by
  obtain ⟨p, h1, h2⟩ := Option.map_eq_some_iff.mp h
  exact ⟨p, h1, h2⟩

theorem pc_of {s : PostSt} {i : Nat} {p : Poster} (h : s.posters[i]? = some p) : pc s i = some p.pc := by
  unfold pc; rw [h]; rfl

theorem tinv_advance {T : Nat} {s : TimedPosts} (h : TInv T s) (a : PostAct) : TInv T (s.advance a) := by
  refine ⟨pinv_step h.inv a, fun i hi => ?_⟩
  have hi : pc (s.st.step a) i = some .wait := hi
  show (if pc (s.st.step a) i = some .wait ∧ pc s.st i ≠ some .wait then s.now else s.since i) ≤ s.now ∧
    s.now ≤ (if pc (s.st.step a) i = some .wait ∧ pc s.st i ≠ some .wait then s.now else s.since i) + T
  split
  · exact ⟨Nat.le_refl _, Nat.le_add_right _ _⟩
  · next hn =>
    have : pc s.st i = some .wait := Classical.byContradiction fun h => hn ⟨hi, h⟩
    exact h.waits i this

theorem tinv_step {T : Nat} {s : TimedPosts} (h : TInv T s) (a : TimedAct) : TInv T (s.step T a) := by
  cases a with
  | tick =>
    unfold TimedPosts.step
    dsimp only
    split
    · next hs =>
      refine ⟨h.inv, fun i hi => ?_⟩
      have hi : pc s.st i = some .wait := hi
      obtain ⟨p, hp, hw⟩ := pc_some hi
      have := (settled_iff T s).mp hs.2 i p hp
      unfold TimedPosts.rests at this
      rw [hw] at this
      have this : s.now < s.since i + T := by simpa using this
      have h1 := h.waits i hi
      show s.since i ≤ s.now + 1 ∧ s.now + 1 ≤ s.since i + T
      omega
    · exact h
  | act a =>
    cases a with
    | timeout i =>
      unfold TimedPosts.step
      dsimp only
      split
      · exact tinv_advance h _
      · exact h
    | _ => exact tinv_advance h _

theorem tinv_run {T : Nat} {s : TimedPosts} (h : TInv T s) (acts : List TimedAct) : TInv T (s.run T acts) := by
  induction acts generalizing s with
  | nil => exact h
  | cons a as ih => exact ih (tinv_step h a)

theorem tinv_init (T : Nat) : TInv T TimedPosts.init :=
  ⟨pinv_init, fun i hi => by simp [TimedPosts.init, pc, PostSt.init] at hi⟩

/-- The number of posts that have not begun to wait. -/
def earlies (s : PostSt) : Nat := s.posters.countP (fun p => Early p.pc)

/-- The bound, in every state of a history without further posts. -/
structure Bounded (T B : Nat) (s : TimedPosts) : Prop where
  tinv : TInv T s
  plain : ∀ p ∈ s.st.posters, Over p.pc = false → p.tcp = false
  waits : ∀ i, pc s.st i = some .wait → s.since i + T + T * earlies s.st ≤ B
  others : (∀ i, pc s.st i ≠ some .wait) → (∀ p ∈ s.st.posters, Over p.pc = true) ∨ s.now + T * earlies s.st ≤ B

theorem early_pos {s : PostSt} {i : Nat} {p : Poster} (hp : s.posters[i]? = some p) (he : Early p.pc = true) :
    0 < earlies s := List.countP_pos_iff.mpr ⟨p, List.mem_of_getElem? hp, he⟩

theorem earlies_set {s s' : PostSt} {i : Nat} {p p' : Poster} (hp : s.posters[i]? = some p)
    (hp' : s'.posters = s.posters.set i p') :
    earlies s' + (if Early p.pc then 1 else 0) = earlies s + (if Early p'.pc then 1 else 0) := by
  unfold earlies
  rw [hp']
  have hlt := (List.getElem?_eq_some_iff.mp hp).1
  have hget := (List.getElem?_eq_some_iff.mp hp).2
  rw [List.countP_set hlt, hget]
  by_cases h : Early p.pc = true
  · have := early_pos hp h
    unfold earlies at this
    simp only [h, if_true]
    omega
  · simp only [h]
    simp

/-- Only one post waits. -/
theorem wait_unique {s : PostSt} (h : PInv s) {i j : Nat} {p q : Poster} (hp : s.posters[i]? = some p)
    (hq : s.posters[j]? = some q) (hi : Pending p.pc) (hj : Pending q.pc) : i = j := by
  have a := (h.shape i p hp).mutex.mpr hi
  have b := (h.shape j q hq).mutex.mpr hj
  rw [a] at b
  exact Option.some.inj b

theorem bounded_advance {T B : Nat} {s : TimedPosts} (h : Bounded T B s) (a : PostAct) (ha : ∀ d t m, a ≠ .post d t m) :
    Bounded T B (s.advance a) ∧
    ∀ (i : Nat) p p', s.st.posters[i]? = some p → Over p.pc = false → (s.st.step a).posters[i]? = some p' →
      Over p'.pc = true → s.now ≤ B := by
  have ht' := tinv_advance h.tinv a
  rcases step_moves s.st a ha with e | ⟨i, p, p', hp, hset, htcp, hm⟩
  · have hpc : ∀ i, pc (s.st.step a) i = pc s.st i := by
      intro i
      have := congrArg (fun l => (l[i]?).map (·.1)) e
      simp only [List.getElem?_map, Option.map_map] at this
      exact this
    have hmem : ∀ q ∈ (s.st.step a).posters, ∃ p ∈ s.st.posters, p.pc = q.pc ∧ p.tcp = q.tcp := by
      intro q hq
      have : (q.pc, q.tcp) ∈ s.st.posters.map (fun p => (p.pc, p.tcp)) := by
        rw [← e]; exact List.mem_map.mpr ⟨q, hq, rfl⟩
      obtain ⟨p, hp, hx⟩ := List.mem_map.mp this
      rw [Prod.mk.injEq] at hx
      exact ⟨p, hp, hx⟩
    have hcount : earlies (s.st.step a) = earlies s.st := by
      have h1 : ∀ l : List Poster, l.countP (fun p => Early p.pc) = (l.map (fun p => (p.pc, p.tcp))).countP (fun x => Early x.1) := by
        intro l; rw [List.countP_map]; rfl
      unfold earlies
      rw [h1, e, ← h1]
    have hsince : ∀ i, (s.advance a).since i = s.since i := by
      intro i
      show (if pc (s.st.step a) i = some .wait ∧ pc s.st i ≠ some .wait then s.now else s.since i) = _
      rw [if_neg (by rw [hpc]; exact fun h => h.2 h.1)]
    refine ⟨⟨ht', fun q hq ho => ?_, fun i hi => ?_, fun hn => ?_⟩, fun i p p' h1 h2 h3 h4 => ?_⟩
    · obtain ⟨p, hp, e1, e2⟩ := hmem q hq
      rw [← e2]
      exact h.plain p hp (by rw [e1]; exact ho)
    · rw [hsince]
      show s.since i + T + T * earlies (s.st.step a) ≤ B
      rw [hcount]
      exact h.waits i (by rw [← hpc]; exact hi)
    · rcases h.others (fun i => by rw [← hpc]; exact hn i) with h1 | h1
      · left
        intro q hq
        obtain ⟨p, hp, e1, -⟩ := hmem q hq
        rw [← e1]; exact h1 p hp
      · right
        show s.now + T * earlies (s.st.step a) ≤ B
        rw [hcount]; exact h1
    · have := hpc i
      rw [pc_of h1, pc_of h3] at this
      rw [Option.some.injEq] at this
      rw [this, h2] at h4
      cases h4
  · have hlt := (List.getElem?_eq_some_iff.mp hp).1
    have hget' : (s.st.step a).posters[i]? = some p' := by rw [hset, List.getElem?_set_self hlt]
    have hother : ∀ j, j ≠ i → (s.st.step a).posters[j]? = s.st.posters[j]? := by
      intro j hj
      rw [hset, List.getElem?_set_ne (Ne.symm hj)]
    have hpcj : ∀ j, j ≠ i → pc (s.st.step a) j = pc s.st j := fun j hj => by
      unfold pc; rw [hother j hj]
    have hcount := earlies_set hp hset
    have hpi := pc_of hp
    have hpi' := pc_of hget'
    have hplain : ∀ q ∈ (s.st.step a).posters, Over q.pc = false → Over p.pc = false → q.tcp = false := by
      intro q hq ho hop
      rw [hset] at hq
      rcases List.mem_or_eq_of_mem_set hq with hq | rfl
      · exact h.plain q hq ho
      · rw [htcp]; exact h.plain p (List.mem_of_getElem? hp) hop
    have hsince : ∀ j, pc s.st j = some .wait → (s.advance a).since j = s.since j := by
      intro j hj
      show (if pc (s.st.step a) j = some .wait ∧ pc s.st j ≠ some .wait then s.now else s.since j) = _
      rw [if_neg (fun x => x.2 hj)]
    have hnow : (s.advance a).now = s.now := rfl
    have hst : (s.advance a).st = s.st.step a := rfl
    have hlast : (∀ p', (s.st.step a).posters[i]? = some p' → Over p'.pc = true → s.now ≤ B) →
        ∀ (j : Nat) q q', s.st.posters[j]? = some q → Over q.pc = false → (s.st.step a).posters[j]? = some q' →
          Over q'.pc = true → s.now ≤ B := by
      intro hi j q q' h1 h2 h3 h4
      by_cases e : j = i
      · subst e; exact hi q' h3 h4
      · rw [hother j e, h1] at h3
        cases h3
        rw [h2] at h4; cases h4
    have hend : Over p'.pc = false → ∀ (j : Nat) q q', s.st.posters[j]? = some q → Over q.pc = false →
        (s.st.step a).posters[j]? = some q' → Over q'.pc = true → s.now ≤ B := by
      intro ho
      refine hlast (fun x hx hy => ?_)
      rw [hget'] at hx
      cases hx
      rw [ho] at hy; cases hy
    have hno : Over p.pc = false → ¬ ∀ q ∈ s.st.posters, Over q.pc = true := by
      intro ho hall
      have := hall p (List.mem_of_getElem? hp)
      rw [ho] at this; cases this
    have notover : Early p.pc = true → Over p.pc = false := by
      intro he; cases hx : p.pc <;> rw [hx] at he <;> first | rfl | cases he
    have notwait : Early p.pc = true → p.pc ≠ .wait := by
      intro he hx; rw [hx] at he; cases he
    cases hm with
    | early h1 h2 =>
      simp only [h1, h2, if_true] at hcount
      have hc : earlies (s.st.step a) = earlies s.st := by omega
      have hov' : Over p'.pc = false := by
        cases hx : p'.pc <;> rw [hx] at h2 <;> first | rfl | cases h2
      have hnw' : p'.pc ≠ .wait := fun hx => by rw [hx] at h2; cases h2
      refine ⟨⟨ht', fun q hq ho => hplain q hq ho (notover h1), fun j hj => ?_, fun hn => ?_⟩, hend hov'⟩
      · rw [hst] at hj ⊢
        by_cases e : j = i
        · subst e; rw [hpi', Option.some.injEq] at hj; exact absurd hj hnw'
        · rw [hpcj j e] at hj
          rw [hsince j hj, hc]; exact h.waits j hj
      · rw [hst, hnow, hc]
        have hn' : ∀ j, pc s.st j ≠ some .wait := by
          intro j
          by_cases e : j = i
          · subst e; rw [hpi]; exact fun x => notwait h1 (Option.some.inj x)
          · rw [← hpcj j e]; exact hn j
        rcases h.others hn' with h3 | h3
        · exact absurd h3 (hno (notover h1))
        · exact .inr h3
    | wait h1 h2 =>
      have he : Early p.pc = true := by rw [h1]; rfl
      simp only [he, h2, if_true] at hcount
      have hc : earlies (s.st.step a) + 1 = earlies s.st := by simpa [Early] using hcount
      have hpend : Pending p.pc := by rw [h1]; trivial
      have hnone : ∀ j, pc s.st j ≠ some .wait := by
        intro j hj
        obtain ⟨q, hq, hqw⟩ := pc_some hj
        have := wait_unique h.tinv.inv hp hq hpend (by rw [hqw]; trivial)
        subst this
        rw [hp] at hq
        cases hq
        rw [h1] at hqw; cases hqw
      have hB := (h.others hnone).resolve_left (hno (notover he))
      refine ⟨⟨ht', fun q hq ho => hplain q hq ho (notover he), fun j hj => ?_, fun hn => ?_⟩,
        hend (by rw [h2]; rfl)⟩
      · rw [hst] at hj ⊢
        by_cases e : j = i
        · subst e
          have : (s.advance a).since j = s.now := by
            show (if pc (s.st.step a) j = some .wait ∧ pc s.st j ≠ some .wait then s.now else s.since j) = _
            rw [if_pos ⟨hj, hnone j⟩]
          rw [this]
          rw [← hc, Nat.mul_add, Nat.mul_one] at hB
          omega
        · rw [hpcj j e] at hj; exact absurd hj (hnone j)
      · exact absurd (by rw [hst, hpi', h2]) (hn i)
    | fails h1 h2 h3 h4 =>
      simp only [h1, h2, if_true] at hcount
      have hc : earlies (s.st.step a) + 1 = earlies s.st := by simpa using hcount
      have htc := h.plain p (List.mem_of_getElem? hp) (notover h1)
      have hov' : Over p'.pc = false := by
        cases hx : Over p'.pc with
        | false => rfl
        | true => rw [h4 hx] at htc; cases htc
      have hmul : T * earlies (s.st.step a) ≤ T * earlies s.st := Nat.mul_le_mul_left _ (by omega)
      refine ⟨⟨ht', fun q hq ho => hplain q hq ho (notover h1), fun j hj => ?_, fun hn => ?_⟩, hend hov'⟩
      · rw [hst] at hj ⊢
        by_cases e : j = i
        · subst e; rw [hpi', Option.some.injEq] at hj; exact absurd hj h3
        · rw [hpcj j e] at hj
          rw [hsince j hj]
          have := h.waits j hj
          omega
      · rw [hst, hnow]
        have hn' : ∀ j, pc s.st j ≠ some .wait := by
          intro j
          by_cases e : j = i
          · subst e; rw [hpi]; exact fun x => notwait h1 (Option.some.inj x)
          · rw [← hpcj j e]; exact hn j
        rcases h.others hn' with h5 | h5
        · exact absurd h5 (hno (notover h1))
        · right; omega
    | ends h1 h2 h3 h4 =>
      have he : Early p.pc = false := by rw [h1]; rfl
      simp only [he, h2] at hcount
      have hc : earlies (s.st.step a) = earlies s.st := by simpa using hcount
      have hwi : pc s.st i = some .wait := by rw [hpi, h1]
      have hB := h.waits i hwi
      have hW := (h.tinv.waits i hwi).2
      refine ⟨⟨ht', fun q hq ho => hplain q hq ho (by rw [h1]; rfl), fun j hj => ?_, fun hn => ?_⟩, hend h4⟩
      · rw [hst] at hj
        by_cases e : j = i
        · subst e; rw [hpi', Option.some.injEq] at hj; exact absurd hj h3
        · rw [hpcj j e] at hj
          obtain ⟨q, hq, hqw⟩ := pc_some hj
          have := wait_unique h.tinv.inv hp hq (by rw [h1]; trivial) (by rw [hqw]; trivial)
          exact absurd this.symm e
      · right
        rw [hst, hnow, hc]
        omega
    | late h1 h2 h3 h4 h5 =>
      simp only [h1, h4] at hcount
      have hc : earlies (s.st.step a) = earlies s.st := by simpa using hcount
      have hpend : Pending p.pc := by
        cases hx : p.pc with
        | start => rw [hx] at h1; cases h1
        | lock => rw [hx] at h1; cases h1
        | done r => rw [hx] at h3; cases h3
        | _ => trivial
      have hnone : ∀ j, pc s.st j ≠ some .wait := by
        intro j hj
        obtain ⟨q, hq, hqw⟩ := pc_some hj
        have := wait_unique h.tinv.inv hp hq hpend (by rw [hqw]; trivial)
        subst this
        rw [hp] at hq
        cases hq
        exact h2 hqw
      have hB := (h.others hnone).resolve_left (hno h3)
      refine ⟨⟨ht', fun q hq ho => hplain q hq ho h3, fun j hj => ?_, fun hn => ?_⟩,
        hlast (fun _ _ _ => by omega)⟩
      · rw [hst] at hj
        by_cases e : j = i
        · subst e; rw [hpi', Option.some.injEq] at hj; exact absurd hj h5
        · rw [hpcj j e] at hj; exact absurd hj (hnone j)
      · right
        rw [hst, hnow, hc]
        exact hB

theorem bounded_tick {T B : Nat} {s : TimedPosts} (h : Bounded T B s) : Bounded T B (s.step T .tick) := by
  have ht := tinv_step h.tinv .tick
  unfold TimedPosts.step at ht ⊢
  dsimp only at ht ⊢
  split
  · next hs =>
    rw [if_pos hs] at ht
    have hset := (settled_iff T s).mp hs.2
    refine ⟨ht, h.plain, h.waits, fun hn => .inl ?_⟩
    have hn : ∀ i, pc s.st i ≠ some .wait := hn
    have hfree : s.st.mutex = none := by
      cases hm : s.st.mutex with
      | none => rfl
      | some k =>
        obtain ⟨p, hp⟩ := h.tinv.inv.holder k hm
        have hpend := (h.tinv.inv.shape k p hp).mutex.mp hm
        have hr := hset k p hp
        unfold TimedPosts.rests at hr
        have hnw := hn k
        rw [pc_of hp] at hnw
        cases hx : p.pc with
        | wait => rw [hx] at hnw; exact absurd rfl hnw
        | start => rw [hx] at hpend; exact absurd hpend id
        | lock => rw [hx] at hpend; exact absurd hpend id
        | done r => rw [hx] at hpend; exact absurd hpend id
        | _ => rw [hx] at hr; cases hr
    intro p hp
    obtain ⟨i, hi⟩ := List.getElem?_of_mem hp
    have hr := hset i p hi
    unfold TimedPosts.rests at hr
    have hnw := hn i
    rw [pc_of hi] at hnw
    cases hx : p.pc with
    | wait => rw [hx] at hnw; exact absurd rfl hnw
    | start =>
      rw [hx] at hr
      have := h.plain p hp (by rw [hx]; rfl)
      rw [this] at hr; cases hr
    | lock => rw [hx, hfree] at hr; cases hr
    | done r => rfl
    | _ => rw [hx] at hr; cases hr
  · exact h

/-- No further post is called. -/
def NoPosts (acts : List TimedAct) : Prop := ∀ d t m, TimedAct.act (.post d t m) ∉ acts

theorem bounded_step {T B : Nat} {s : TimedPosts} (h : Bounded T B s) (a : TimedAct)
    (ha : ∀ d t m, a ≠ .act (.post d t m)) :
    Bounded T B (s.step T a) ∧
    ∀ (i : Nat) p p', s.st.posters[i]? = some p → Over p.pc = false → (s.step T a).st.posters[i]? = some p' →
      Over p'.pc = true → (s.step T a).ended i ≤ B := by
  have stays : ∀ s' : TimedPosts, s'.st = s.st → ∀ (i : Nat) p p', s.st.posters[i]? = some p → Over p.pc = false →
      s'.st.posters[i]? = some p' → Over p'.pc = true → s'.ended i ≤ B := by
    intro s' e i p p' h1 h2 h3 h4
    rw [e, h1] at h3
    cases h3
    rw [h2] at h4; cases h4
  have adv : ∀ b : PostAct, (∀ d t m, b ≠ .post d t m) → Bounded T B (s.advance b) ∧
      ∀ (i : Nat) p p', s.st.posters[i]? = some p → Over p.pc = false → (s.advance b).st.posters[i]? = some p' →
        Over p'.pc = true → (s.advance b).ended i ≤ B := by
    intro b hb
    obtain ⟨k1, k2⟩ := bounded_advance h b hb
    refine ⟨k1, fun i p p' h1 h2 h3 h4 => ?_⟩
    have h3 : (s.st.step b).posters[i]? = some p' := h3
    have hB := k2 i p p' h1 h2 h3 h4
    show (match pc (s.st.step b) i, pc s.st i with
        | some (.done _), some (.done _) => s.ended i
        | some (.done _), _ => s.now
        | _, _ => s.ended i) ≤ B
    rw [pc_of h3, pc_of h1]
    cases hx : p'.pc with
    | done r =>
      cases hy : p.pc with
      | done r' => rw [hy] at h2; cases h2
      | _ => exact hB
    | _ => rw [hx] at h4; cases h4
  cases a with
  | tick =>
    refine ⟨bounded_tick h, stays _ ?_⟩
    unfold TimedPosts.step
    dsimp only
    split <;> rfl
  | act b =>
    have hb : ∀ d t m, b ≠ .post d t m := fun d t m e => ha d t m (by rw [e])
    cases b with
    | timeout i =>
      unfold TimedPosts.step
      dsimp only
      split
      · exact adv _ hb
      · exact ⟨h, stays s rfl⟩
    | post d t m => exact absurd rfl (hb d t m)
    | _ => exact adv _ hb

theorem ended_stays {T : Nat} {s : TimedPosts} (a : TimedAct) {i : Nat} {p : Poster} (hp : s.st.posters[i]? = some p)
    (ho : Over p.pc = true) : (∃ p', (s.step T a).st.posters[i]? = some p' ∧ Over p'.pc = true) ∧
      (s.step T a).ended i = s.ended i := by
  have adv : ∀ b, (∃ p', (s.st.step b).posters[i]? = some p' ∧ Over p'.pc = true) ∧ (s.advance b).ended i = s.ended i := by
    intro b
    have hex : ∃ p', (s.st.step b).posters[i]? = some p' ∧ Over p'.pc = true := by
      by_cases hb : ∃ d t m, b = .post d t m
      · obtain ⟨d, t, m, rfl⟩ := hb
        unfold PostSt.step
        split
        · exact ⟨p, hp, ho⟩
        · refine ⟨p, ?_, ho⟩
          show (s.st.posters ++ _)[i]? = some p
          rw [List.getElem?_append_left (List.getElem?_eq_some_iff.mp hp).1]
          exact hp
      · have hb : ∀ d t m, b ≠ .post d t m := fun d t m e => hb ⟨d, t, m, e⟩
        rcases step_moves s.st b hb with e | ⟨j, q, q', hq, hset, -, hm⟩
        · have := congrArg (fun l => (l[i]?).map (·.1)) e
          simp only [List.getElem?_map, Option.map_map, hp] at this
          obtain ⟨p', h1, h2⟩ := Option.map_eq_some_iff.mp this
          refine ⟨p', h1, ?_⟩
          have h2 : p'.pc = p.pc := h2
          rw [h2]; exact ho
        · by_cases e : j = i
          · subst e
            rw [hp] at hq
            cases hq
            exfalso
            cases hx : p.pc with
            | done r =>
              cases hm with
              | early h1 _ => rw [hx] at h1; cases h1
              | wait h1 _ => rw [hx] at h1; cases h1
              | fails h1 _ _ _ => rw [hx] at h1; cases h1
              | ends h1 _ _ _ => rw [hx] at h1; cases h1
              | late _ _ h3 _ _ => rw [hx] at h3; cases h3
            | _ => rw [hx] at ho; cases ho
          · exact ⟨p, by rw [hset, List.getElem?_set_ne e]; exact hp, ho⟩
    refine ⟨hex, ?_⟩
    obtain ⟨p', h1, h2⟩ := hex
    show (match pc (s.st.step b) i, pc s.st i with
        | some (.done _), some (.done _) => s.ended i
        | some (.done _), _ => s.now
        | _, _ => s.ended i) = _
    rw [pc_of h1, pc_of hp]
    cases hx : p.pc with
    | done r =>
      cases hy : p'.pc with
      | done r' => rfl
      | _ => rfl
    | _ => rw [hx] at ho; cases ho
  cases a with
  | tick =>
    unfold TimedPosts.step
    dsimp only
    split <;> exact ⟨⟨p, hp, ho⟩, rfl⟩
  | act b =>
    cases b with
    | timeout j =>
      unfold TimedPosts.step
      dsimp only
      split
      · exact adv _
      · exact ⟨⟨p, hp, ho⟩, rfl⟩
    | _ => exact adv _

theorem bounded_run {T B : Nat} (acts : List TimedAct) (ha : NoPosts acts) : ∀ {s : TimedPosts}, Bounded T B s →
    Bounded T B (s.run T acts) ∧
    ∀ (i : Nat) p p', s.st.posters[i]? = some p → Over p.pc = false → (s.run T acts).st.posters[i]? = some p' →
      Over p'.pc = true → (s.run T acts).ended i ≤ B := by
  have keeps : ∀ (as : List TimedAct) (s : TimedPosts) (i : Nat) (p : Poster), s.st.posters[i]? = some p →
      Over p.pc = true → (s.run T as).ended i = s.ended i := by
    intro as
    induction as with
    | nil => intros; rfl
    | cons a as ih =>
      intro s i p hp ho
      obtain ⟨⟨p', h1, h2⟩, h3⟩ := ended_stays (T := T) a hp ho
      show ((s.step T a).run T as).ended i = _
      rw [ih _ i p' h1 h2, h3]
  induction acts with
  | nil =>
    intro s h
    refine ⟨h, fun i p p' h1 h2 h3 h4 => ?_⟩
    have h3 : s.st.posters[i]? = some p' := h3
    rw [h1] at h3
    cases h3
    rw [h2] at h4; cases h4
  | cons a as ih =>
    intro s h
    have ha1 : ∀ d t m, a ≠ .act (.post d t m) := fun d t m e => ha d t m (by rw [e]; exact List.mem_cons_self ..)
    obtain ⟨k1, k2⟩ := bounded_step h a ha1
    obtain ⟨j1, j2⟩ := ih (fun d t m hm => ha d t m (List.mem_cons_of_mem _ hm)) k1
    refine ⟨j1, fun i p p' h1 h2 h3 h4 => ?_⟩
    have hlen : (s.step T a).st.posters.length = s.st.posters.length := by
      have hb : ∀ b : PostAct, (∀ d t m, b ≠ .post d t m) → (s.st.step b).posters.length = s.st.posters.length := by
        intro b hb
        rcases step_moves s.st b hb with e | ⟨j, q, q', hq, hset, -, hm⟩
        · have := congrArg List.length e
          simpa using this
        · rw [hset, List.length_set]
      cases a with
      | tick => unfold TimedPosts.step; dsimp only; split <;> rfl
      | act b =>
        have hb' : ∀ d t m, b ≠ .post d t m := fun d t m e => ha1 d t m (by rw [e])
        cases b with
        | timeout j =>
          unfold TimedPosts.step
          dsimp only
          split
          · exact hb _ hb'
          · rfl
        | _ => exact hb _ hb'
    have hlt : i < (s.step T a).st.posters.length := by
      rw [hlen]; exact (List.getElem?_eq_some_iff.mp h1).1
    have hq := List.getElem?_eq_getElem hlt
    cases hov : Over ((s.step T a).st.posters[i]).pc with
    | false => exact j2 i _ p' hq hov h3 h4
    | true =>
      show ((s.step T a).run T as).ended i ≤ B
      rw [keeps as _ i _ hq hov]
      exact k2 i p _ h1 h2 hq hov

/-! ## C128 -/

/-- The number of posts that have not returned. -/
def pendingPosts (s : TimedPosts) : Nat := s.st.posters.countP (fun p => !Over p.pc)

theorem bounded_start {T : Nat} {s : TimedPosts} (h : TInv T s)
    (hp : ∀ p ∈ s.st.posters, Over p.pc = false → p.tcp = false) : Bounded T (s.now + T * pendingPosts s) s := by
  have hle : earlies s.st ≤ pendingPosts s := by
    unfold earlies pendingPosts
    apply List.countP_mono_left
    intro p _ he
    cases hx : p.pc <;> rw [hx] at he <;> first | rfl | cases he
  refine ⟨h, hp, fun i hi => ?_, fun _ => .inr (Nat.add_le_add_left (Nat.mul_le_mul_left _ hle) _)⟩
  have hlt : earlies s.st + 1 ≤ pendingPosts s := by
    obtain ⟨p, hpi, hw⟩ := pc_some hi
    have h1 : pendingPosts s = earlies s.st + s.st.posters.countP (fun p => !Over p.pc && !Early p.pc) := by
      unfold pendingPosts earlies
      generalize s.st.posters = l
      induction l with
      | nil => rfl
      | cons q l ih =>
        rw [List.countP_cons, List.countP_cons, List.countP_cons, ih]
        cases q.pc <;> simp only [Over, Early] <;> simp <;> omega
    have h2 : 0 < s.st.posters.countP (fun p => !Over p.pc && !Early p.pc) :=
      List.countP_pos_iff.mpr ⟨p, List.mem_of_getElem? hpi, by rw [hw]; rfl⟩
    omega
  have h1 := (h.waits i hi).1
  have h2 : T * (earlies s.st + 1) ≤ T * pendingPosts s := Nat.mul_le_mul_left _ hlt
  rw [Nat.mul_add, Nat.mul_one] at h2
  omega

/-- **C128**: in every history, a post waits for its answer no longer than the request timeout. -/
theorem C128_waits (T : Nat) (acts : List TimedAct) (i : Nat) (p : Poster)
    (hp : (TimedPosts.init.run T acts).st.posters[i]? = some p) (hw : p.pc = .wait) :
    (TimedPosts.init.run T acts).since i ≤ (TimedPosts.init.run T acts).now ∧
    (TimedPosts.init.run T acts).now ≤ (TimedPosts.init.run T acts).since i + T :=
  (tinv_run (tinv_init T) acts).waits i (by rw [pc_of hp, hw])

/-- **C128**: if `k` posts have not returned, and no further one is called, each of them returns within `k` times the
request timeout, whatever arrives; after that time none is left. -/
theorem C128_queue_partial (T : Nat) (acts more : List TimedAct) (s s' : TimedPosts) (hs : s = TimedPosts.init.run T acts)
    (hp : ∀ p ∈ s.st.posters, Over p.pc = false → p.tcp = false) (hm : NoPosts more) (hs' : s' = s.run T more) :
    (∀ (i : Nat) p p', s.st.posters[i]? = some p → Over p.pc = false → s'.st.posters[i]? = some p' →
      Over p'.pc = true → s'.ended i ≤ s.now + T * pendingPosts s) ∧
    (s.now + T * pendingPosts s < s'.now → ∀ p ∈ s'.st.posters, Over p.pc = true) := by
  subst hs'
  have ht : TInv T s := by rw [hs]; exact tinv_run (tinv_init T) acts
  obtain ⟨k1, k2⟩ := bounded_run more hm (bounded_start ht hp)
  refine ⟨k2, fun hlt => ?_⟩
  by_cases hw : ∃ i, pc (s.run T more).st i = some .wait
  · obtain ⟨i, hi⟩ := hw
    have h1 := k1.waits i hi
    have h2 := (k1.tinv.waits i hi).2
    omega
  · rcases k1.others (fun i hi => hw ⟨i, hi⟩) with h | h
    · exact h
    · omega

/-- **C128**: a post that is the only one returns within the request timeout. -/
theorem C128_alone_partial (T : Nat) (acts more : List TimedAct) (s s' : TimedPosts) (hs : s = TimedPosts.init.run T acts)
    (i : Nat) (p p' : Poster) (hi : s.st.posters[i]? = some p) (hi1 : Over p.pc = false) (ht : p.tcp = false)
    (honly : ∀ (j : Nat) q, s.st.posters[j]? = some q → j ≠ i → Over q.pc = true) (hm : NoPosts more)
    (hs' : s' = s.run T more) (hi' : s'.st.posters[i]? = some p') (ho : Over p'.pc = true) :
    s'.ended i ≤ s.now + T := by
  have hp : ∀ q ∈ s.st.posters, Over q.pc = false → q.tcp = false := by
    intro q hq hov
    obtain ⟨j, hj⟩ := List.getElem?_of_mem hq
    by_cases e : j = i
    · subst e
      rw [hi] at hj
      cases hj
      exact ht
    · rw [honly j q hj e] at hov; cases hov
  have key := (C128_queue_partial T acts more s s' hs hp hm hs').1 i p p' hi hi1 hi' ho
  have hone : pendingPosts s = 1 := by
    unfold pendingPosts
    have hlt := (List.getElem?_eq_some_iff.mp hi).1
    have hset : s.st.posters.countP (fun q => !Over q.pc)
        = (s.st.posters.set i { p with pc := .done .failed }).countP (fun q => !Over q.pc) + 1 := by
      rw [List.countP_set hlt, (List.getElem?_eq_some_iff.mp hi).2]
      have : 0 < s.st.posters.countP (fun q => !Over q.pc) :=
        List.countP_pos_iff.mpr ⟨p, List.mem_of_getElem? hi, by rw [hi1]; rfl⟩
      simp only [hi1, Bool.not_false, if_true]
      have h0 : Over (PostPc.done PostRes.failed) = true := rfl
      rw [h0]
      simp only [Bool.not_true, Bool.false_eq_true, if_false]
      omega
    rw [hset]
    have : (s.st.posters.set i { p with pc := .done .failed }).countP (fun q => !Over q.pc) = 0 := by
      rw [List.countP_eq_zero]
      intro q hq
      obtain ⟨j, hj⟩ := List.getElem?_of_mem hq
      rw [List.getElem?_set] at hj
      split at hj
      · have hj : some ({ p with pc := .done .failed } : Poster) = some q := by
          first | exact hj | (rw [if_pos hlt] at hj; exact hj)
        cases hj
        simp [Over]
      · next e => rw [honly j q hj (Ne.symm e)]; simp
    rw [this]
  rw [hone, Nat.mul_one] at key
  exact key

/-- The steps of post `j` from the lock to its sending. -/
def turnStart (j : Nat) : List PostAct := [.own j, .own j, .own j, .header j true 1, .own j]

/-- One post gets the lock, sends, waits for the whole request timeout and returns. -/
def turn (T j : Nat) : List TimedAct :=
  (turnStart j).map .act ++ .act (.send j true) :: (List.replicate T .tick ++
    ([.act (.timeout j), .act (.own j), .act (.own j), .act (.own j)] ++ [.act (.own j)]))

/-- Posts `j`, `j+1`, … take turns. -/
def turns (T j : Nat) : Nat → List TimedAct
  | 0 => []
  | k + 1 => turn T j ++ turns T (j + 1) k

theorem timed_append (T : Nat) (s : TimedPosts) (a b : List TimedAct) : s.run T (a ++ b) = (s.run T a).run T b := by
  induction a generalizing s with
  | nil => rfl
  | cons x a ih => exact ih _

theorem set_mid (A B : List Poster) (p q : Poster) : (A ++ p :: B).set A.length q = A ++ q :: B := by
  rw [List.set_append_right _ _ (Nat.le_refl _)]; simp

theorem get_mid (A B : List Poster) (p : Poster) : (A ++ p :: B)[A.length]? = some p := by
  rw [List.getElem?_append_right (Nat.le_refl _)]; simp

/-- The state with post `|A|` having its turn. -/
def inTurn (A B : List Poster) (closed : List Nat) (p : Poster) (ch req : Option Nat) : PostSt :=
  ⟨some A.length, ch, req, closed, A ++ p :: B, [], false⟩

theorem run_start (T : Nat) (s : TimedPosts) (A B : List Poster) (closed : List Nat) (d : Addr) (m : Message)
    (hst : s.st = ⟨none, none, none, closed, A ++ ⟨d, false, m, false, .lock⟩ :: B, [], false⟩) :
    (s.run T ((turnStart A.length).map .act)).st =
      inTurn A B closed ⟨d, false, (m.setTID 1).setSEOJ nodeProfileObjectCode, false, .send⟩ (some A.length) (some A.length) ∧
    (s.run T ((turnStart A.length).map .act)).now = s.now := by
  refine ⟨?_, rfl⟩
  show (((((s.st.step (.own A.length)).step (.own A.length)).step (.own A.length)).step (.header A.length true 1)).step
    (.own A.length)) = _
  rw [hst]
  simp only [PostSt.step, PostSt.stepOwn, PostSt.stepHeader, PostSt.setPoster, get_mid, set_mid, inTurn, if_true,
    Bool.false_eq_true, if_false, Bool.not_true]

theorem run_ticks (T : Nat) (A B : List Poster) (closed : List Nat) (p : Poster) (ch req : Option Nat)
    (hA : ∀ q ∈ A, Over q.pc = true) (hB : ∀ q ∈ B, q.pc = .lock) (hp : p.pc = .wait) (k : Nat) :
    ∀ s : TimedPosts, s.st = inTurn A B closed p ch req → s.now + k ≤ s.since A.length + T →
      s.run T (List.replicate k .tick) = { s with now := s.now + k } := by
  induction k with
  | zero => intro s _ _; rfl
  | succ k ih =>
    intro s hst hle
    have hset : s.settled T = true := by
      rw [settled_iff]
      intro i q hq
      rw [hst] at hq
      have hq : (A ++ p :: B)[i]? = some q := hq
      unfold TimedPosts.rests
      by_cases e : i = A.length
      · subst e
        rw [get_mid] at hq
        cases hq
        rw [hp]
        simp only [decide_eq_true_eq]
        omega
      · have hmem : q ∈ A ∨ q ∈ B := by
          rcases Nat.lt_or_ge i A.length with h | h
          · rw [List.getElem?_append_left h] at hq
            exact .inl (List.mem_of_getElem? hq)
          · rw [List.getElem?_append_right h] at hq
            obtain ⟨j, hj⟩ : ∃ j, i - A.length = j + 1 := ⟨i - A.length - 1, by omega⟩
            rw [hj, List.getElem?_cons_succ] at hq
            exact .inr (List.mem_of_getElem? hq)
        rcases hmem with h | h
        · have := hA q h
          cases hx : q.pc with
          | done r => rfl
          | _ => rw [hx] at this; cases this
        · rw [hB q h, hst]; rfl
    have hstep : s.step T .tick = { s with now := s.now + 1 } := by
      unfold TimedPosts.step
      dsimp only
      rw [if_pos ⟨by rw [hst]; rfl, hset⟩]
    rw [List.replicate_succ]
    show (s.step T .tick).run T _ = _
    rw [hstep, ih { s with now := s.now + 1 } hst (by show s.now + 1 + k ≤ s.since A.length + T; omega)]
    show ({ s with now := s.now + 1 + k } : TimedPosts) = _
    rw [Nat.add_assoc, Nat.add_comm 1 k]

theorem run_turn (T : Nat) (s : TimedPosts) (A B : List Poster) (closed : List Nat) (d : Addr) (m : Message)
    (hA : ∀ q ∈ A, Over q.pc = true) (hB : ∀ q ∈ B, q.pc = .lock) (hc : A.length ∉ closed)
    (hst : s.st = ⟨none, none, none, closed, A ++ ⟨d, false, m, false, .lock⟩ :: B, [], false⟩) :
    (s.run T (turn T A.length)).st =
      ⟨none, none, none, A.length :: closed,
        (A ++ [⟨d, false, (m.setTID 1).setSEOJ nodeProfileObjectCode, false, .done .timeout⟩]) ++ B, [], false⟩ ∧
    (s.run T (turn T A.length)).now = s.now + T ∧
    (s.run T (turn T A.length)).ended A.length = s.now + T := by
  unfold turn
  rw [timed_append]
  obtain ⟨h1, h2⟩ := run_start T s A B closed d m hst
  generalize hs1 : s.run T ((turnStart A.length).map .act) = s1 at h1 h2
  rw [show ∀ l, s1.run T (.act (.send A.length true) :: l) = (s1.advance (.send A.length true)).run T l from fun _ => rfl]
  generalize hm' : (m.setTID 1).setSEOJ nodeProfileObjectCode = m' at *
  generalize hs2 : s1.advance (.send A.length true) = s2
  have g1 : s2.st = inTurn A B closed ⟨d, false, m', false, .wait⟩ (some A.length) (some A.length) := by
    rw [← hs2]
    show s1.st.step (.send A.length true) = _
    rw [h1]
    simp only [PostSt.step, PostSt.stepSend, PostSt.setPoster, get_mid, set_mid, inTurn, if_true, Bool.false_eq_true, if_false]
  have g2 : s2.now = s.now := by rw [← hs2]; exact h2
  have g3 : s2.since A.length = s.now := by
    have e1 : pc (s1.st.step (.send A.length true)) A.length = some .wait := by
      have : s1.st.step (.send A.length true) = s2.st := by rw [← hs2]; rfl
      rw [this, g1]
      exact pc_of (p := ⟨d, false, m', false, .wait⟩) (get_mid A B _)
    have e2 : pc s1.st A.length ≠ some .wait := by
      rw [h1, pc_of (p := ⟨d, false, m', false, .send⟩) (get_mid A B _)]
      simp
    rw [← hs2]
    show (if pc (s1.st.step (.send A.length true)) A.length = some .wait ∧ pc s1.st A.length ≠ some .wait then s1.now
      else s1.since A.length) = _
    rw [if_pos ⟨e1, e2⟩, h2]
  rw [timed_append, run_ticks T A B closed _ _ _ hA hB rfl T s2 g1 (by rw [g2, g3]; exact Nat.le_refl _), timed_append]
  generalize hs3 : ({ s2 with now := s2.now + T } : TimedPosts) = s3
  have k1 : s3.st = s2.st := by rw [← hs3]
  have k2 : s3.now = s.now + T := by rw [← hs3, ← g2]
  have k3 : s3.since A.length + T ≤ s3.now := by rw [k2, ← g3, ← hs3]; exact Nat.le_refl _
  have htime : s3.step T (.act (.timeout A.length)) = s3.advance (.timeout A.length) := by
    unfold TimedPosts.step
    dsimp only
    rw [if_pos k3]
  have hrun : s3.run T [.act (.timeout A.length), .act (.own A.length), .act (.own A.length), .act (.own A.length)] =
      (((s3.advance (.timeout A.length)).advance (.own A.length)).advance (.own A.length)).advance (.own A.length) := by
    show ((((s3.step T (.act (.timeout A.length))).advance _).advance _).advance _) = _
    rw [htime]
  rw [hrun]
  generalize hs4 : (((s3.advance (.timeout A.length)).advance (.own A.length)).advance (.own A.length)).advance
    (.own A.length) = s4
  have q1 : s4.st = inTurn A B (A.length :: closed) ⟨d, false, m', false, .unlock .timeout⟩ none none := by
    rw [← hs4]
    show ((((s3.st.step (.timeout A.length)).step (.own A.length)).step (.own A.length)).step (.own A.length)) = _
    rw [k1, g1]
    simp only [PostSt.step, PostSt.stepOwn, PostSt.setPoster, get_mid, set_mid, inTurn, if_true, Bool.false_eq_true,
      if_false, hc]
  have q2 : s4.now = s.now + T := by rw [← hs4]; exact k2
  have q3 : s4.st.step (.own A.length) = ⟨none, none, none, A.length :: closed,
      A ++ ⟨d, false, m', false, .done .timeout⟩ :: B, [], false⟩ := by
    rw [q1]
    simp only [PostSt.step, PostSt.stepOwn, PostSt.setPoster, get_mid, set_mid, inTurn, Bool.false_eq_true, if_false]
  refine ⟨?_, q2, ?_⟩
  · show s4.st.step (.own A.length) = _
    rw [q3, List.append_assoc]
    rfl
  · show (match pc (s4.st.step (.own A.length)) A.length, pc s4.st A.length with
        | some (.done _), some (.done _) => s4.ended A.length
        | some (.done _), _ => s4.now
        | _, _ => s4.ended A.length) = _
    rw [q3, q1, pc_of (p := ⟨d, false, m', false, .done .timeout⟩) (get_mid A B _),
      pc_of (p := ⟨d, false, m', false, .unlock .timeout⟩) (get_mid A B _)]
    exact q2

theorem run_turns (T : Nat) (d : Addr) (m : Message) (k : Nat) :
    ∀ (s : TimedPosts) (A : List Poster) (closed : List Nat), (∀ q ∈ A, Over q.pc = true) →
      (∀ c ∈ closed, c < A.length) →
      s.st = ⟨none, none, none, closed, A ++ List.replicate (k + 1) ⟨d, false, m, false, .lock⟩, [], false⟩ →
      (∃ p, (s.run T (turns T A.length (k + 1))).st.posters[A.length + k]? = some p ∧ p.pc = .done .timeout) ∧
      (s.run T (turns T A.length (k + 1))).ended (A.length + k) = s.now + (k + 1) * T := by
  induction k with
  | zero =>
    intro s A closed hA hc hst
    obtain ⟨h1, h2, h3⟩ := run_turn T s A [] closed d m hA (fun q hq => absurd hq List.not_mem_nil)
      (fun h => absurd (hc _ h) (Nat.lt_irrefl _)) hst
    show (∃ p, (s.run T (turn T A.length ++ [])).st.posters[A.length]? = some p ∧ _) ∧
      (s.run T (turn T A.length ++ [])).ended A.length = _
    rw [List.append_nil]
    refine ⟨⟨⟨d, false, (m.setTID 1).setSEOJ nodeProfileObjectCode, false, .done .timeout⟩, ?_, rfl⟩, by rw [h3]; omega⟩
    rw [h1, List.append_nil]
    exact get_mid A [] _
  | succ k ih =>
    intro s A closed hA hc hst
    obtain ⟨h1, h2, h3⟩ := run_turn T s A (List.replicate (k + 1) ⟨d, false, m, false, .lock⟩) closed d m hA
      (fun q hq => by rw [(List.mem_replicate.mp hq).2]) (fun h => absurd (hc _ h) (Nat.lt_irrefl _)) hst
    generalize hA' : A ++ [(⟨d, false, (m.setTID 1).setSEOJ nodeProfileObjectCode, false, .done .timeout⟩ : Poster)] = A' at h1
    have hlen : A'.length = A.length + 1 := by rw [← hA', List.length_append]; rfl
    have := ih (s.run T (turn T A.length)) A' (A.length :: closed)
      (fun q hq => by
        rw [← hA'] at hq
        rcases List.mem_append.mp hq with h | h
        · exact hA q h
        · rw [List.mem_singleton.mp h]; rfl)
      (fun c hcm => by
        rw [hlen]
        rcases List.mem_cons.mp hcm with rfl | h
        · omega
        · have := hc c h; omega) h1
    rw [hlen, h2, ← timed_append] at this
    have e : A.length + 1 + k = A.length + (k + 1) := by omega
    rw [e] at this
    refine ⟨this.1, this.2.trans ?_⟩
    rw [Nat.add_assoc, Nat.add_mul (k + 1) 1 T, Nat.one_mul, Nat.add_comm T]

/-- Posts called at once, each as far as the lock. -/
def called (d : Addr) (m : Message) : Nat → Nat → List TimedAct
  | _, 0 => []
  | j, k + 1 => .act (.post d false m) :: .act (.own j) :: called d m (j + 1) k

theorem run_called (T : Nat) (d : Addr) (m : Message) (k : Nat) : ∀ (s : TimedPosts) (A : List Poster),
    s.st = ⟨none, none, none, [], A, [], false⟩ →
    (s.run T (called d m A.length k)).st = ⟨none, none, none, [], A ++ List.replicate k ⟨d, false, m, false, .lock⟩, [], false⟩ ∧
    (s.run T (called d m A.length k)).now = s.now := by
  induction k with
  | zero => intro s A hst; exact ⟨by rw [List.replicate_zero, List.append_nil]; exact hst, rfl⟩
  | succ k ih =>
    intro s A hst
    have h1 : ((s.advance (.post d false m)).advance (.own A.length)).st =
        ⟨none, none, none, [], A ++ [⟨d, false, m, false, .lock⟩], [], false⟩ := by
      show (s.st.step (.post d false m)).step (.own A.length) = _
      rw [hst]
      simp only [PostSt.step, PostSt.stepOwn, PostSt.setPoster, get_mid, set_mid, Bool.false_eq_true, if_false]
    have := ih _ _ h1
    rw [List.length_append, List.append_assoc] at this
    exact this

/-- **C128, refuted**: a post may take any number of times the request timeout: if `k` others have been called before
it, and nobody answers, it returns after `k + 1` times the request timeout. All are called at time 0. -/
theorem C128_refuted (T k : Nat) (d : Addr) (m : Message) :
    ∃ s s' : TimedPosts, s = TimedPosts.init.run T (called d m 0 (k + 1)) ∧ s.now = 0 ∧ s.st.posters.length = k + 1 ∧
      s' = s.run T (turns T 0 (k + 1)) ∧ (∃ p, s'.st.posters[k]? = some p ∧ p.pc = .done .timeout) ∧
      s'.ended k = (k + 1) * T := by
  obtain ⟨h1, h2⟩ := run_called T d m (k + 1) TimedPosts.init [] rfl
  rw [List.nil_append] at h1
  obtain ⟨h3, h4⟩ := run_turns T d m k _ [] [] (fun q hq => absurd hq List.not_mem_nil)
    (fun q hq => absurd hq List.not_mem_nil) h1
  simp only [List.length_nil, Nat.zero_add] at h3 h4 h2
  refine ⟨_, _, rfl, h2, ?_, rfl, h3, ?_⟩
  · have := congrArg (fun s => s.posters.length) h1
    exact this.trans (List.length_replicate ..)
  · rw [h4, h2]; exact Nat.zero_add _

/-! Every post can return: time does not stop. -/

/-- Steps of a post that are left. -/
def left : PostPc → Nat
  | .start => 12 | .lock => 11 | .makeCh => 10 | .setReq => 9 | .setTID => 8 | .setSEOJ => 7 | .send => 6 | .wait => 5
  | .close _ => 4 | .clearCh _ => 3 | .clearReq _ => 2 | .unlock _ => 1 | .done _ => 0

/-- Steps of all posts that are left. -/
def stepsLeft (s : PostSt) : Nat := (s.posters.map (fun p => left p.pc)).sum

theorem stepsLeft_set {s s' : PostSt} {i : Nat} {p p' : Poster} (hp : s.posters[i]? = some p)
    (hp' : s'.posters = s.posters.set i p') (hlt : left p'.pc < left p.pc) : stepsLeft s' < stepsLeft s := by
  have key : ∀ (l : List Poster) (i : Nat), l[i]? = some p →
      ((l.set i p').map (fun p => left p.pc)).sum < (l.map (fun p => left p.pc)).sum := by
    intro l
    induction l with
    | nil => intro i h; cases h
    | cons q l ih =>
      intro i h
      cases i with
      | zero =>
        rw [List.getElem?_cons_zero, Option.some.injEq] at h
        subst h
        simp only [List.set_cons_zero, List.map_cons, List.sum_cons]
        omega
      | succ i =>
        rw [List.getElem?_cons_succ] at h
        have := ih i h
        simp only [List.set_cons_succ, List.map_cons, List.sum_cons]
        omega
  unfold stepsLeft
  rw [hp']
  exact key _ i hp

/-- A post that need not wait takes a step. -/
theorem can_step {s : PostSt} (h : PInv s) (hc : s.crashed = false) {i : Nat} {p : Poster} (hp : s.posters[i]? = some p)
    (ho : Over p.pc = false) (hw : p.pc ≠ .wait) (hl : p.pc = .lock → s.mutex = none) :
    ∃ b, (∀ d t m, b ≠ .post d t m) ∧ (∀ j, b ≠ .timeout j) ∧ (s.step b).crashed = false ∧
      stepsLeft (s.step b) < stepsLeft s := by
  have hsh := h.shape i p hp
  have own : ∀ p', (s.step (.own i)).posters = s.posters.set i p' → (s.step (.own i)).crashed = false →
      left p'.pc < left p.pc → ∃ b, (∀ d t m, b ≠ .post d t m) ∧ (∀ j, b ≠ .timeout j) ∧ (s.step b).crashed = false ∧
      stepsLeft (s.step b) < stepsLeft s := fun p' h1 h2 h3 =>
    ⟨.own i, (fun _ _ _ h => by cases h), (fun _ h => by cases h), h2, stepsLeft_set hp h1 h3⟩
  have hown : s.step (.own i) = s.stepOwn i p := by
    unfold PostSt.step
    rw [if_neg (by rw [hc]; simp)]
    dsimp only
    rw [hp]
  cases hx : p.pc with
  | wait => exact absurd hx hw
  | done r => rw [hx] at ho; cases ho
  | start =>
    cases ht : p.tcp with
    | false =>
      have e : s.step (.own i) = s.setPoster i { p with pc := .lock } := by
        rw [hown]; unfold PostSt.stepOwn; rw [hx]; dsimp only; rw [ht]; rfl
      exact own { p with pc := .lock } (by rw [e]; rfl) (by rw [e]; exact hc) (by rw [hx]; exact Nat.lt_succ_self _)
    | true =>
      have e : s.step (.tcp i false 0 none) = s.setPoster i { p with pc := .lock } := by
        unfold PostSt.step
        rw [if_neg (by rw [hc]; simp)]
        dsimp only
        rw [hp]
        dsimp only
        unfold PostSt.stepTCP
        rw [if_pos ⟨hx, ht⟩]
        rfl
      refine ⟨.tcp i false 0 none, (fun _ _ _ h => by cases h), (fun _ h => by cases h), by rw [e]; exact hc,
        stepsLeft_set hp (p' := { p with pc := .lock }) (by rw [e]; rfl) (by rw [hx]; exact Nat.lt_succ_self _)⟩
  | lock =>
    have e : s.step (.own i) = { s.setPoster i { p with pc := .makeCh } with mutex := some i } := by
      rw [hown]; unfold PostSt.stepOwn; rw [hx]; dsimp only; rw [if_pos (hl hx)]
    exact own { p with pc := .makeCh } (by rw [e]; rfl) (by rw [e]; exact hc) (by rw [hx]; exact Nat.lt_succ_self _)
  | makeCh =>
    have e : s.step (.own i) = { s.setPoster i { p with pc := .setReq } with ch := some i } := by
      rw [hown]; unfold PostSt.stepOwn; rw [hx]
    exact own { p with pc := .setReq } (by rw [e]; rfl) (by rw [e]; exact hc) (by rw [hx]; exact Nat.lt_succ_self _)
  | setReq =>
    have e : s.step (.own i) = { s.setPoster i { p with pc := .setTID } with req := some i } := by
      rw [hown]; unfold PostSt.stepOwn; rw [hx]
    exact own { p with pc := .setTID } (by rw [e]; rfl) (by rw [e]; exact hc) (by rw [hx]; exact Nat.lt_succ_self _)
  | setTID =>
    have e : s.step (.header i true 1) = s.setPoster i { p with pc := .setSEOJ, msg := p.msg.setTID 1 } := by
      unfold PostSt.step
      rw [if_neg (by rw [hc]; simp)]
      dsimp only
      rw [hp]
      dsimp only
      unfold PostSt.stepHeader
      rw [if_pos hx]
      rfl
    refine ⟨.header i true 1, (fun _ _ _ h => by cases h), (fun _ h => by cases h), by rw [e]; exact hc,
      stepsLeft_set hp (p' := { p with pc := .setSEOJ, msg := p.msg.setTID 1 }) (by rw [e]; rfl) (by rw [hx]; exact Nat.lt_succ_self _)⟩
  | setSEOJ =>
    have e : s.step (.own i) = s.setPoster i { p with pc := .send, msg := p.msg.setSEOJ nodeProfileObjectCode } := by
      rw [hown]; unfold PostSt.stepOwn; rw [hx]
    exact own { p with pc := .send, msg := p.msg.setSEOJ nodeProfileObjectCode } (by rw [e]; rfl) (by rw [e]; exact hc)
      (by rw [hx]; exact Nat.lt_succ_self _)
  | send =>
    have e : s.step (.send i true) = s.setPoster i { p with pc := .wait } := by
      unfold PostSt.step
      rw [if_neg (by rw [hc]; simp)]
      dsimp only
      rw [hp]
      dsimp only
      unfold PostSt.stepSend
      rw [if_pos hx]
      rfl
    refine ⟨.send i true, (fun _ _ _ h => by cases h), (fun _ h => by cases h), by rw [e]; exact hc,
      stepsLeft_set hp (p' := { p with pc := .wait }) (by rw [e]; rfl) (by rw [hx]; exact Nat.lt_succ_self _)⟩
  | close r =>
    rw [hx] at hsh
    obtain ⟨-, h2, -, h4⟩ := hsh
    have e : s.step (.own i) = { s.setPoster i { p with pc := .clearCh r } with closed := i :: s.closed } := by
      rw [hown]; unfold PostSt.stepOwn; rw [hx]; dsimp only; rw [h2]; dsimp only; rw [if_neg h4]
    exact own { p with pc := .clearCh r } (by rw [e]; rfl) (by rw [e]; exact hc) (by rw [hx]; exact Nat.lt_succ_self 3)
  | clearCh r =>
    have e : s.step (.own i) = { s.setPoster i { p with pc := .clearReq r } with ch := none } := by
      rw [hown]; unfold PostSt.stepOwn; rw [hx]
    exact own { p with pc := .clearReq r } (by rw [e]; rfl) (by rw [e]; exact hc) (by rw [hx]; exact Nat.lt_succ_self 2)
  | clearReq r =>
    have e : s.step (.own i) = { s.setPoster i { p with pc := .unlock r } with req := none } := by
      rw [hown]; unfold PostSt.stepOwn; rw [hx]
    exact own { p with pc := .unlock r } (by rw [e]; rfl) (by rw [e]; exact hc) (by rw [hx]; exact Nat.lt_succ_self 1)
  | unlock r =>
    have e : s.step (.own i) = { s.setPoster i { p with pc := .done r } with mutex := none } := by
      rw [hown]; unfold PostSt.stepOwn; rw [hx]
    exact own { p with pc := .done r } (by rw [e]; rfl) (by rw [e]; exact hc) (by rw [hx]; exact Nat.lt_succ_self 0)

/-- When all posts rest but for the clock, time passes until the timer of the one that waits fires. -/
theorem ticks_pass (T : Nat) {i : Nat} (k : Nat) : ∀ s : TimedPosts, s.st.crashed = false → s.st.mutex.isSome = true →
    (∀ (j : Nat) q, s.st.posters[j]? = some q → j ≠ i → Over q.pc = true ∨ q.pc = .lock) →
    (∀ p, s.st.posters[i]? = some p → p.pc = .wait) → s.now + k ≤ s.since i + T →
      s.run T (List.replicate k .tick) = { s with now := s.now + k } := by
  induction k with
  | zero => intro s _ _ _ _ _; rfl
  | succ k ih =>
    intro s hc hm ho hw hle
    have hset : s.settled T = true := by
      rw [settled_iff]
      intro j q hq
      unfold TimedPosts.rests
      by_cases e : j = i
      · subst e
        rw [hw q hq]
        simp only [decide_eq_true_eq]
        omega
      · rcases ho j q hq e with h | h
        · cases hx : q.pc with
          | done r => rfl
          | _ => rw [hx] at h; cases h
        · rw [h]; exact hm
    have hstep : s.step T .tick = { s with now := s.now + 1 } := by
      unfold TimedPosts.step
      dsimp only
      rw [if_pos ⟨hc, hset⟩]
    rw [List.replicate_succ]
    show (s.step T .tick).run T _ = _
    rw [hstep, ih { s with now := s.now + 1 } hc hm ho hw (by show s.now + 1 + k ≤ s.since i + T; omega)]
    show ({ s with now := s.now + 1 + k } : TimedPosts) = _
    rw [Nat.add_assoc, Nat.add_comm 1 k]

theorem can_return (T : Nat) : ∀ (n : Nat) (s : TimedPosts), stepsLeft s.st ≤ n → TInv T s → s.st.crashed = false →
    ∃ more, NoPosts more ∧ (s.run T more).st.crashed = false ∧ ∀ p ∈ (s.run T more).st.posters, Over p.pc = true := by
  intro n
  induction n with
  | zero =>
    intro s hn _ hc
    refine ⟨[], fun _ _ _ h => absurd h List.not_mem_nil, hc, fun p hp => ?_⟩
    have hz : left p.pc = 0 := by
      have h0 : (s.st.posters.map (fun p => left p.pc)).sum = 0 := Nat.le_zero.mp hn
      exact List.sum_eq_zero_iff_forall_eq_nat.mp h0 _ (List.mem_map.mpr ⟨p, hp, rfl⟩)
    cases hx : p.pc with
    | done r => rfl
    | _ => rw [hx] at hz; cases hz
  | succ n ih =>
    intro s hn hi hc
    by_cases hall : ∀ p ∈ s.st.posters, Over p.pc = true
    · exact ⟨[], fun _ _ _ h => absurd h List.not_mem_nil, hc, hall⟩
    · -- one step that decreases what is left is enough
      have finish : ∀ acts, NoPosts acts → (s.run T acts).st.crashed = false → stepsLeft (s.run T acts).st < stepsLeft s.st →
          ∃ more, NoPosts more ∧ (s.run T more).st.crashed = false ∧
            ∀ p ∈ (s.run T more).st.posters, Over p.pc = true := by
        intro acts h1 h2 h3
        obtain ⟨more, k1, k2⟩ := ih (s.run T acts) (by omega) (tinv_run hi acts) h2
        refine ⟨acts ++ more, fun d t m h => ?_, by rw [timed_append]; exact k2⟩
        rcases List.mem_append.mp h with h | h
        · exact h1 d t m h
        · exact k1 d t m h
      have one : ∀ (i : Nat) p, s.st.posters[i]? = some p → Over p.pc = false → p.pc ≠ .wait →
          (p.pc = .lock → s.st.mutex = none) → ∃ more, NoPosts more ∧ (s.run T more).st.crashed = false ∧
            ∀ p ∈ (s.run T more).st.posters, Over p.pc = true := by
        intro i p hp ho hw hl
        obtain ⟨b, b1, b2, b3, b4⟩ := can_step hi.inv hc hp ho hw hl
        have hst : s.run T [.act b] = s.advance b := by
          show s.step T (.act b) = _
          cases b with
          | timeout j => exact absurd rfl (b2 j)
          | _ => rfl
        refine finish [.act b] (fun d t m h => ?_) (by rw [hst]; exact b3) (by rw [hst]; exact b4)
        have h := List.mem_singleton.mp h
        rw [TimedAct.act.injEq] at h
        exact b1 d t m h.symm
      by_cases hx : ∃ (i : Nat) (p : Poster), s.st.posters[i]? = some p ∧ Over p.pc = false ∧ p.pc ≠ .wait ∧
          (p.pc = .lock → s.st.mutex = none)
      · obtain ⟨i, p, h1, h2, h3, h4⟩ := hx
        exact one i p h1 h2 h3 h4
      · have hrest : ∀ (j : Nat) q, s.st.posters[j]? = some q → Over q.pc = true ∨ q.pc = .wait ∨
            (q.pc = .lock ∧ s.st.mutex ≠ none) := by
          intro j q hq
          cases ho : Over q.pc with
          | true => exact .inl rfl
          | false =>
            by_cases hw : q.pc = .wait
            · exact .inr (.inl hw)
            · right; right
              refine Classical.byContradiction fun hn => hx ⟨j, q, hq, ho, hw, fun hl => ?_⟩
              exact Classical.byContradiction fun hm => hn ⟨hl, hm⟩
        have hwait : ∃ (i : Nat) (p : Poster), s.st.posters[i]? = some p ∧ p.pc = .wait := by
          refine Classical.byContradiction fun hno => hall fun p hp => ?_
          obtain ⟨j, hj⟩ := List.getElem?_of_mem hp
          rcases hrest j p hj with h | h | ⟨h, hm⟩
          · exact h
          · exact absurd ⟨j, p, hj, h⟩ hno
          · exfalso
            cases hmx : s.st.mutex with
            | none => exact hm hmx
            | some k =>
              obtain ⟨q, hq⟩ := hi.inv.holder k hmx
              have hpend := (hi.inv.shape k q hq).mutex.mp hmx
              rcases hrest k q hq with h' | h' | ⟨h', -⟩
              · cases hy : q.pc with
                | done r => rw [hy] at hpend; exact hpend
                | _ => rw [hy] at h'; cases h'
              · exact hno ⟨k, q, hq, h'⟩
              · rw [h'] at hpend; exact hpend
        obtain ⟨i, p, hp, hw⟩ := hwait
        have hmx : s.st.mutex = some i := (hi.inv.shape i p hp).mutex.mpr (by rw [hw]; trivial)
        have hwp : pc s.st i = some .wait := by rw [pc_of hp, hw]
        obtain ⟨t1, t2⟩ := hi.waits i hwp
        have hoth : ∀ (j : Nat) q, s.st.posters[j]? = some q → j ≠ i → Over q.pc = true ∨ q.pc = .lock := by
          intro j q hq hne
          rcases hrest j q hq with h | h | ⟨h, -⟩
          · exact .inl h
          · exact absurd (wait_unique hi.inv hq hp (by rw [h]; trivial) (by rw [hw]; trivial)) hne
          · exact .inr h
        have hticks := ticks_pass T (i := i) (s.since i + T - s.now) s hc (by rw [hmx]; rfl) hoth
          (fun q hq => by rw [hp] at hq; cases hq; exact hw) (by omega)
        have hrun : s.run T (List.replicate (s.since i + T - s.now) .tick ++ [.act (.timeout i)])
            = ({ s with now := s.now + (s.since i + T - s.now) } : TimedPosts).advance (.timeout i) := by
          rw [timed_append, hticks]
          show TimedPosts.step T _ (.act (.timeout i)) = _
          unfold TimedPosts.step
          dsimp only
          rw [if_pos (by omega)]
        have hstep : s.st.step (.timeout i) = s.st.setPoster i { p with pc := .close .timeout } := by
          unfold PostSt.step
          rw [if_neg (by rw [hc]; simp)]
          dsimp only
          rw [hp]
          dsimp only
          rw [if_pos hw]
        refine finish (List.replicate (s.since i + T - s.now) .tick ++ [.act (.timeout i)]) (fun d t m h => ?_) ?_ ?_
        · rcases List.mem_append.mp h with h | h
          · cases (List.mem_replicate.mp h).2
          · cases List.mem_singleton.mp h
        · rw [hrun]
          show (s.st.step (.timeout i)).crashed = false
          rw [hstep]; exact hc
        · rw [hrun]
          show stepsLeft (s.st.step (.timeout i)) < _
          exact stepsLeft_set hp (p' := { p with pc := .close .timeout }) (by rw [hstep]; rfl) (by rw [hw]; exact Nat.lt_succ_self _)

/-- **C128**: whatever has happened, unless the process has crashed, every post can return, also if nothing arrives. -/
theorem C128_returns (T : Nat) (acts : List TimedAct) (hc : (TimedPosts.init.run T acts).st.crashed = false) :
    ∃ more, NoPosts more ∧ ∀ p ∈ ((TimedPosts.init.run T acts).run T more).st.posters, Over p.pc = true := by
  obtain ⟨more, h1, -, h2⟩ := can_return T _ _ (Nat.le_refl _) (tinv_run (tinv_init T) acts) hc
  exact ⟨more, h1, h2⟩

/-! Concrete cases: with a timeout of 2, the first of two posts waits until time 2 (the third tick does not happen while
its timer is due); both have returned at time 4, which is the bound of `C128_queue_partial`; one alone returns at
time 2. -/

def timedTwo : TimedPosts := TimedPosts.init.run 2 (called ⟨"10.0.0.1", 3610⟩ Message.new 0 2)

example : let s := timedTwo.run 2 ((turnStart 0).map .act ++ [.act (.send 0 true), .tick, .tick, .tick])
    pc s.st 0 = some .wait ∧ s.now = 2 ∧ s.since 0 = 0 ∧ pendingPosts s = 2 := by decide

example : (∀ p ∈ timedTwo.st.posters, Over p.pc = false → p.tcp = false) ∧ pendingPosts timedTwo = 2 ∧
    pc (timedTwo.run 2 (turns 2 0 2)).st 1 = some (.done .timeout) ∧ (timedTwo.run 2 (turns 2 0 2)).ended 1 = 4 ∧
    (timedTwo.run 2 (turns 2 0 2)).ended 0 = 2 := by decide

example : NoPosts (turns 2 0 2) := by
  intro d t m h
  simp [turns, turn, turnStart] at h

example : let s := TimedPosts.init.run 2 (called ⟨"10.0.0.1", 3610⟩ Message.new 0 1)
    pendingPosts s = 1 ∧ (s.run 2 (turn 2 0)).ended 0 = 2 ∧ pc (s.run 2 (turn 2 0)).st 0 = some (.done .timeout) := by decide

end Verif.Props
