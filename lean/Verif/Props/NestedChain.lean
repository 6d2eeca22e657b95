import Verif.Props.Nested

/-!
# C176: callbacks that post, over chains of nodes

Requests that come back to a node that waits, over any number of nodes, are not answered; requests that do not are; and
in a network of finitely many nodes whose callbacks make at most one post each, every post is one or the other. Requests
that lead to each other without end keep the network busy for ever, since the posts that wait for them time out.
-/

namespace Verif.Props
open Verif Model Nest

variable {α : Type}

/-! ## Requests that come back over any number of nodes -/

/-- Goroutines that wait for each other: each of the first ones waits for an answer, or for the mutex that another of
them holds, and nothing that could answer one of them is on its way or handled by anyone else. -/
structure Stuck (ws : List (Worker α)) (s : Nest α) : Prop where
  first : ∀ (i : Nat) (w : Worker α), ws[i]? = some w → s.workers[i]? = some w
  fresh : ∀ w ∈ ws, w.asks ≠ [] ∧ w.results = [] ∧ ∃ v ∈ ws, v.node = w.node ∧ v.pending = true
  reqs : ∀ r ∈ s.requests, ws.length ≤ r.1.1
  reps : ∀ m ∈ s.replies, ws.length ≤ m.1
  orig : ∀ (i : Nat) (z : Worker α), ws.length ≤ i → s.workers[i]? = some z → ∀ p, z.origin = some p → ws.length ≤ p.1

theorem stuck_set {ws : List (Worker α)} {s : Nest α} (hs : Stuck ws s) {t : Nat} (ht : ws.length ≤ t) {z y : Worker α}
    (hz : s.workers[t]? = some z) (ho : y.origin = z.origin) (reqs : List ((Nat × Nat) × Ask α))
    (reps : List (Nat × Nat)) (h1 : ∀ r ∈ reqs, ws.length ≤ r.1.1) (h2 : ∀ m ∈ reps, ws.length ≤ m.1) :
    Stuck ws ⟨s.workers.set t y, reqs, reps⟩ := by
  refine ⟨?_, hs.fresh, h1, h2, ?_⟩
  · intro i w hw
    obtain ⟨hlt, -⟩ := List.getElem?_eq_some_iff.mp hw
    rw [List.getElem?_set_ne (by omega)]
    exact hs.first i w hw
  · intro i w hi hw p hp
    rcases set_lookup hz hw with ⟨rfl, rfl⟩ | ⟨-, hw⟩
    · exact hs.orig i z hi hz p (ho ▸ hp)
    · exact hs.orig i w hi hw p hp

theorem stuck_new {ws : List (Worker α)} {s : Nest α} (hs : Stuck ws s) (w : Worker α)
    (ho : ∀ p, w.origin = some p → ws.length ≤ p.1) (reqs : List ((Nat × Nat) × Ask α))
    (h1 : ∀ r ∈ reqs, ws.length ≤ r.1.1) : Stuck ws ⟨s.workers ++ [w], reqs, s.replies⟩ := by
  refine ⟨?_, hs.fresh, h1, hs.reps, ?_⟩
  · intro i z hz
    have h := hs.first i z hz
    obtain ⟨hlt, -⟩ := List.getElem?_eq_some_iff.mp h
    rw [List.getElem?_append_left hlt]
    exact h
  · intro i z hi hz p hp
    rcases Nat.lt_or_ge i s.workers.length with hl | hl
    · rw [List.getElem?_append_left hl] at hz
      exact hs.orig i z hi hz p hp
    · rw [List.getElem?_append_right hl] at hz
      cases List.mem_singleton.mp (List.mem_of_getElem? hz)
      exact ho p hp

/-- A goroutine is one of those, or comes after them. -/
theorem stuck_index {ws : List (Worker α)} {s : Nest α} (hs : Stuck ws s) {t : Nat} {z : Worker α}
    (hz : s.workers[t]? = some z) : ws.length ≤ t ∨ (s.held z.node = true ∧ z.next ≠ none) := by
  rcases Nat.lt_or_ge t ws.length with ht | ht
  · right
    have hw := hs.first t ws[t] (List.getElem?_eq_getElem ht)
    have e : some z = some ws[t] := hz.symm.trans hw
    cases e
    obtain ⟨h1, h2, v, hv, e1, e2⟩ := hs.fresh _ (List.getElem_mem ht)
    constructor
    · obtain ⟨i, hi⟩ := List.mem_iff_getElem?.mp hv
      rw [← e1]
      exact mem_held (hs.first i v hi) e2
    · intro h
      have := next_none h
      rw [h2] at this
      exact h1 (List.length_eq_zero_iff.mp (Nat.le_zero.mp this))
  · exact .inl ht

theorem stuck_step {ws : List (Worker α)} {cb : Posting α} {s : Nest α} (hs : Stuck ws s) (a : NestAct α)
    (ha : ∀ t, t < ws.length → a ≠ .timeout t) : Stuck ws (s.step cb a) := by
  cases a with
  | call n asks => exact stuck_new hs ⟨n, none, asks, [], false, false⟩ (fun p h => nomatch h) _ hs.reqs
  | post t =>
    simp only [Nest.step, Nest.post]
    match hz : s.workers[t]? with
    | none => exact hs
    | some z =>
      dsimp only
      cases z.next with
      | none => exact hs
      | some q =>
        dsimp only
        rcases stuck_index hs hz with ht | ⟨h, -⟩
        · split
          · exact hs
          · refine stuck_set (y := ⟨z.node, z.origin, z.asks, z.results, true, z.ended⟩) hs ht hz rfl _ _ ?_ hs.reps
            intro r hr
            rcases List.mem_append.mp hr with hr | hr
            · exact hs.reqs r hr
            · cases List.mem_singleton.mp hr
              exact ht
        · rw [if_pos h]
          exact hs
  | arrive j =>
    simp only [Nest.step, Nest.arrive]
    match hr : s.requests[j]? with
    | none => exact hs
    | some (p, q) =>
      refine stuck_new hs _ ?_ _ (fun r h => hs.reqs r (List.mem_of_mem_eraseIdx h))
      intro p' e
      cases e
      exact hs.reqs (p, q) (List.mem_of_getElem? hr)
  | finish t =>
    simp only [Nest.step, Nest.finish]
    match hz : s.workers[t]? with
    | none => exact hs
    | some z =>
      dsimp only
      rcases stuck_index hs hz with ht | ⟨-, h⟩
      · split
        · refine stuck_set (y := ⟨z.node, z.origin, z.asks, z.results, z.pending, true⟩) hs ht hz rfl _ _ hs.reqs ?_
          intro m hm
          rcases List.mem_append.mp hm with hm | hm
          · exact hs.reps m hm
          · exact hs.orig t z ht hz m (Option.mem_toList.mp hm)
        · exact hs
      · rw [if_neg (by simp [h])]
        exact hs
  | reply j =>
    simp only [Nest.step, Nest.reply]
    match hr : s.replies[j]? with
    | none => exact hs
    | some (t, k) =>
      have fewer : ∀ m ∈ s.replies.eraseIdx j, ws.length ≤ m.1 := fun m h => hs.reps m (List.mem_of_mem_eraseIdx h)
      dsimp only
      match hz : s.workers[t]? with
      | none => exact ⟨hs.first, hs.fresh, hs.reqs, fewer, hs.orig⟩
      | some z =>
        dsimp only
        split
        · exact stuck_set (y := ⟨z.node, z.origin, z.asks, z.results ++ [true], false, z.ended⟩) hs
            (hs.reps (t, k) (List.mem_of_getElem? hr)) hz rfl _ _ hs.reqs fewer
        · exact ⟨hs.first, hs.fresh, hs.reqs, fewer, hs.orig⟩
  | timeout t =>
    simp only [Nest.step, Nest.timeout]
    match hz : s.workers[t]? with
    | none => exact hs
    | some z =>
      dsimp only
      split
      · refine stuck_set (y := ⟨z.node, z.origin, z.asks, z.results ++ [false], false, z.ended⟩) hs ?_ hz rfl _ _
          hs.reqs hs.reps
        exact Nat.le_of_not_lt (fun h => ha t h rfl)
      · exact hs
  | loseRequest j =>
    exact ⟨hs.first, hs.fresh, fun r h => hs.reqs r (List.mem_of_mem_eraseIdx h), hs.reps, hs.orig⟩
  | loseReply j =>
    exact ⟨hs.first, hs.fresh, hs.reqs, fun r h => hs.reps r (List.mem_of_mem_eraseIdx h), hs.orig⟩
  | repeatRequest j => exact ⟨hs.first, hs.fresh, fun r h => hs.reqs r (mem_repeated h), hs.reps, hs.orig⟩
  | repeatReply j => exact ⟨hs.first, hs.fresh, hs.reqs, fun r h => hs.reps r (mem_repeated h), hs.orig⟩

theorem stuck_run {ws : List (Worker α)} {cb : Posting α} (acts : List (NestAct α)) :
    ∀ s : Nest α, Stuck ws s → (∀ t, t < ws.length → NestAct.timeout t ∉ acts) → Stuck ws (s.run cb acts) := by
  induction acts with
  | nil => intro s hs _; exact hs
  | cons a acts ih =>
    intro s hs h
    exact ih (s.step cb a) (stuck_step hs a (fun t ht e => h t ht (e ▸ List.mem_cons_self)))
      (fun t ht hm => h t ht (List.mem_cons_of_mem _ hm))

/-- One post, and `m` requests that are each posted to answer the one before. -/
def leadsBack (n : Nat) (q : Ask α) (m : Nat) : List (NestAct α) :=
  .call n [q] :: (List.range m).flatMap (fun i => [.post i, .arrive 0])

/-- Goroutine `i` before it posts. -/
def chainWorker (cb : Posting α) (node : Nat → Nat) (what : Nat → α) : Nat → Worker α
  | 0 => ⟨node 0, none, [⟨node 1, what 1⟩], [], false, false⟩
  | i + 1 => ⟨node (i + 1), some (i, 0), cb (node (i + 1)) (what (i + 1)), [], false, false⟩

theorem chainWorker_node (cb : Posting α) (node : Nat → Nat) (what : Nat → α) (i : Nat) :
    (chainWorker cb node what i).node = node i := by cases i <;> rfl

theorem chainWorker_results (cb : Posting α) (node : Nat → Nat) (what : Nat → α) (i : Nat) :
    (chainWorker cb node what i).results = [] ∧ (chainWorker cb node what i).pending = false ∧
    (chainWorker cb node what i).ended = false := by cases i <;> exact ⟨rfl, rfl, rfl⟩

/-- All but the last goroutine wait for their answers. -/
def chainWorkers (cb : Posting α) (node : Nat → Nat) (what : Nat → α) (m : Nat) : List (Worker α) :=
  (List.range m).map (fun i => { chainWorker cb node what i with pending := true }) ++ [chainWorker cb node what m]

theorem chain_run (cb : Posting α) (m : Nat) (node : Nat → Nat) (what : Nat → α) (rest : Nat → List (Ask α))
    (h1 : ∀ i, 1 ≤ i → i < m → cb (node i) (what i) = ⟨node (i + 1), what (i + 1)⟩ :: rest i)
    (hd : ∀ i j, i < j → j < m → node i ≠ node j) (k : Nat) (hk : k ≤ m) :
    Nest.init.run cb (leadsBack (node 0) ⟨node 1, what 1⟩ k) = ⟨chainWorkers cb node what k, [], []⟩ := by
  induction k with
  | zero => rfl
  | succ k ih =>
    have e : leadsBack (node 0) ⟨node 1, what 1⟩ (k + 1) =
        leadsBack (node 0) ⟨node 1, what 1⟩ k ++ [NestAct.post k, NestAct.arrive 0] := by
      simp [leadsBack, List.range_succ]
    have hnext : (chainWorker cb node what k).next = some ⟨node (k + 1), what (k + 1)⟩ := by
      cases k with
      | zero => rfl
      | succ i => simp [chainWorker, Worker.next, h1 (i + 1) (by omega) (by omega)]
    have hget : (chainWorkers cb node what k)[k]? = some (chainWorker cb node what k) := by
      simp [chainWorkers]
    have hfree : (⟨chainWorkers cb node what k, [], []⟩ : Nest α).held (chainWorker cb node what k).node = false := by
      rw [chainWorker_node]
      simp only [Nest.held, chainWorkers, List.any_append, List.any_map, List.any_cons, List.any_nil, Bool.or_false,
        (chainWorker_results cb node what k).2.1, Bool.and_false, List.any_eq_false, List.mem_range]
      intro i hi
      simp only [Function.comp, chainWorker_node, Bool.and_true, decide_eq_true_eq]
      exact hd i k hi (by omega)
    have hset : (chainWorkers cb node what k).set k { chainWorker cb node what k with pending := true } =
        (List.range (k + 1)).map (fun i => { chainWorker cb node what i with pending := true }) := by
      simp [chainWorkers, List.range_succ, List.set_append_right]
    have hpost : (⟨chainWorkers cb node what k, [], []⟩ : Nest α).step cb (.post k) =
        ⟨(List.range (k + 1)).map (fun i => { chainWorker cb node what i with pending := true }),
          [((k, 0), ⟨node (k + 1), what (k + 1)⟩)], []⟩ := by
      simp only [Nest.step, Nest.post, hget, hnext, hfree]
      rw [if_neg (by decide)]
      dsimp only at hset
      rw [hset, (chainWorker_results cb node what k).1]
      rfl
    rw [e]
    have e2 : Nest.init.run cb (leadsBack (node 0) ⟨node 1, what 1⟩ k ++ [NestAct.post k, NestAct.arrive 0]) =
        ((Nest.init.run cb (leadsBack (node 0) ⟨node 1, what 1⟩ k)).step cb (.post k)).step cb (.arrive 0) :=
      List.foldl_append ..
    rw [e2, ih (by omega), hpost]
    rfl

/-- **C176, refuted** for requests that come back over any number of nodes, or to the node itself: a post is answered by
a callback that posts, this by another, and so on over different nodes, until one of the nodes that wait is asked for
something it has to post for. No message is lost, but whatever happens afterwards, whoever else posts, answers or times
out, none of these posts returns before one of them times out. -/
theorem C176_cycle_refuted (cb : Posting α) (m : Nat) (node : Nat → Nat) (what : Nat → α) (rest : Nat → List (Ask α))
    (h1 : ∀ i, 1 ≤ i → i < m → cb (node i) (what i) = ⟨node (i + 1), what (i + 1)⟩ :: rest i)
    (hd : ∀ i j, i < j → j < m → node i ≠ node j) (hb : ∃ i, i < m ∧ node i = node m)
    (hne : cb (node m) (what m) ≠ []) (more : List (NestAct α)) (hm : ∀ t, t ≤ m → NestAct.timeout t ∉ more) :
    let s := Nest.init.run cb (leadsBack (node 0) ⟨node 1, what 1⟩ m ++ more)
    (∀ t, t < m → ∃ x, s.workers[t]? = some x ∧ x.node = node t ∧ x.asks.head? = some ⟨node (t + 1), what (t + 1)⟩ ∧
      x.pending = true ∧ x.results = []) ∧
    (∃ x, s.workers[m]? = some x ∧ x.node = node m ∧ x.asks = cb (node m) (what m) ∧ x.pending = false ∧
      x.results = [] ∧ x.ended = false) ∧
    ∀ a ∈ leadsBack (node 0) ⟨node 1, what 1⟩ m, ¬ Loses a ∧ ¬ TimesOut a := by
  intro s
  have hlen : (chainWorkers cb node what m).length = m + 1 := by simp [chainWorkers]
  have hpend : ∀ i, i < m → (chainWorkers cb node what m)[i]? =
      some { chainWorker cb node what i with pending := true } := by
    intro i hi
    rw [chainWorkers, List.getElem?_append_left (by simpa using hi)]
    simp [hi]
  have hlast : (chainWorkers cb node what m)[m]? = some (chainWorker cb node what m) := by simp [chainWorkers]
  obtain ⟨b, hbm, hbn⟩ := hb
  have stuck : Stuck (chainWorkers cb node what m) s := by
    have e : s = (Nest.init.run cb (leadsBack (node 0) ⟨node 1, what 1⟩ m)).run cb more := List.foldl_append ..
    rw [e, chain_run cb m node what rest h1 hd m (Nat.le_refl m)]
    refine stuck_run more _ ⟨fun i w h => h, ?_, (fun r h => nomatch h), (fun r h => nomatch h), ?_⟩
      (fun t ht => hm t (by omega))
    · intro w hw
      obtain ⟨i, hi⟩ := List.mem_iff_getElem?.mp hw
      obtain ⟨hlt, -⟩ := List.getElem?_eq_some_iff.mp hi
      rcases Nat.lt_or_ge i m with him | him
      · have e : some w = some { chainWorker cb node what i with pending := true } := hi.symm.trans (hpend i him)
        cases e
        refine ⟨?_, (chainWorker_results cb node what i).1, _, List.mem_of_getElem? (hpend i him), rfl, rfl⟩
        cases i with
        | zero => exact fun h => nomatch h
        | succ i =>
          intro h
          have h : cb (node (i + 1)) (what (i + 1)) = [] := h
          rw [h1 (i + 1) (by omega) him] at h
          cases h
      · have e : i = m := by omega
        subst e
        have e : some w = some (chainWorker cb node what i) := hi.symm.trans hlast
        cases e
        refine ⟨?_, (chainWorker_results cb node what i).1, _, List.mem_of_getElem? (hpend b hbm), ?_, rfl⟩
        · cases i with
          | zero => exact absurd hbm (Nat.not_lt_zero b)
          | succ i => exact hne
        · show (chainWorker cb node what b).node = _
          rw [chainWorker_node, chainWorker_node]
          exact hbn
    · intro i z hi hz
      obtain ⟨hlt, -⟩ := List.getElem?_eq_some_iff.mp hz
      exact absurd hlt (Nat.not_lt.mpr hi)
  refine ⟨?_, ?_, ?_⟩
  · intro t ht
    refine ⟨_, stuck.first t _ (hpend t ht), chainWorker_node cb node what t, ?_, rfl,
      (chainWorker_results cb node what t).1⟩
    cases t with
    | zero => rfl
    | succ t => simp [chainWorker, h1 (t + 1) (by omega) ht]
  · refine ⟨_, stuck.first m _ hlast, chainWorker_node cb node what m, ?_, (chainWorker_results cb node what m).2.1,
      (chainWorker_results cb node what m).1, (chainWorker_results cb node what m).2.2⟩
    cases m with
    | zero => exact absurd hbm (Nat.not_lt_zero b)
    | succ m => rfl
  · intro a ha
    rcases List.mem_cons.mp ha with rfl | ha
    · exact ⟨id, id⟩
    · obtain ⟨i, -, hi⟩ := List.mem_flatMap.mp ha
      simp only [List.mem_cons, List.not_mem_nil, or_false] at hi
      rcases hi with rfl | rfl <;> exact ⟨id, id⟩

/-- A node that asks itself for something its callback has to post for, and three nodes in a ring: both meet the
hypotheses. -/
example : (let cb : Posting Unit := fun _ _ => [⟨1, ()⟩]
    (∃ i, i < 1 ∧ (fun _ => 0 : Nat → Nat) i = (fun _ => 0 : Nat → Nat) 1) ∧ cb 0 () ≠ []) ∧
    (let cb : Posting Unit := fun n _ => [⟨(n + 1) % 3, ()⟩]
     let node : Nat → Nat := (· % 3)
     (∀ i, 1 ≤ i → i < 3 → cb (node i) () = ⟨node (i + 1), ()⟩ :: []) ∧
     (∀ i j, i < j → j < 3 → node i ≠ node j) ∧ (∃ i, i < 3 ∧ node i = node 3) ∧ cb (node 3) () ≠ []) := by
  refine ⟨⟨⟨0, by decide, rfl⟩, by decide⟩, ?_, ?_, ⟨0, by decide, rfl⟩, by decide⟩
  · intro i _ _
    simp only [Nat.mod_add_mod]
  · intro i j h1 h2 h
    have h : i % 3 = j % 3 := h
    omega

/-! ## Only the requests that are made count -/

/-- The same as `Layered`, for requests that lead to each other. -/
def LayeredOn (R : Nat → α → Prop) (cb : Posting α) (height : Nat → Nat) : Prop :=
  ∀ n a, R n a → ∀ q ∈ cb n a, R q.to q.what ∧ StandsLower cb height n q

/-- The posts of the program are such requests, and go to lower nodes or are answered without posting. -/
def CallsLowerOn (R : Nat → α → Prop) (cb : Posting α) (height : Nat → Nat) (acts : List (NestAct α)) : Prop :=
  ∀ n asks, NestAct.call n asks ∈ acts → ∀ q ∈ asks, R q.to q.what ∧ StandsLower cb height n q

open Classical in
/-- Callbacks that answer all other requests without posting. -/
noncomputable def onlyOn (R : Nat → α → Prop) (cb : Posting α) : Posting α := fun n a => if R n a then cb n a else []

theorem onlyOn_of {R : Nat → α → Prop} {cb : Posting α} {n : Nat} {a : α} (h : R n a) : onlyOn R cb n a = cb n a := by
  classical
  exact if_pos h

theorem onlyOn_layered {R : Nat → α → Prop} {cb : Posting α} {height : Nat → Nat} (hl : LayeredOn R cb height) :
    Layered (onlyOn R cb) height := by
  intro n a q hq
  by_cases hr : R n a
  · rw [onlyOn_of hr] at hq
    obtain ⟨h1, h2⟩ := hl n a hr q hq
    intro hne
    rw [onlyOn_of h1] at hne
    exact h2 hne
  · have e : onlyOn R cb n a = [] := if_neg hr
    rw [e] at hq
    cases hq

/-- Nothing else is asked. -/
structure Within (R : Nat → α → Prop) (s : Nest α) : Prop where
  asks : ∀ x ∈ s.workers, ∀ q ∈ x.asks, R q.to q.what
  reqs : ∀ r ∈ s.requests, R r.2.to r.2.what

theorem within_same {R : Nat → α → Prop} {cb : Posting α} {s : Nest α} (hs : Within R s) (a : NestAct α) :
    s.step (onlyOn R cb) a = s.step cb a := by
  cases a with
  | arrive j =>
    simp only [Nest.step, Nest.arrive]
    match hr : s.requests[j]? with
    | none => rfl
    | some (p, q) =>
      dsimp only
      rw [onlyOn_of (hs.reqs (p, q) (List.mem_of_getElem? hr))]
  | _ => rfl

theorem within_set {R : Nat → α → Prop} {s : Nest α} (hs : Within R s) {t : Nat} {x y : Worker α}
    (hx : s.workers[t]? = some x) (ha : y.asks = x.asks) (reqs : List ((Nat × Nat) × Ask α)) (reps : List (Nat × Nat))
    (hr : ∀ r ∈ reqs, r ∈ s.requests ∨ r.2 ∈ x.asks) : Within R ⟨s.workers.set t y, reqs, reps⟩ := by
  have hm := List.mem_of_getElem? hx
  refine ⟨?_, ?_⟩
  · intro z hz
    rcases List.mem_or_eq_of_mem_set hz with hz | rfl
    · exact hs.asks z hz
    · rw [ha]
      exact hs.asks x hm
  · intro r h
    rcases hr r h with h | h
    · exact hs.reqs r h
    · exact hs.asks x hm _ h

theorem within_new {R : Nat → α → Prop} {s : Nest α} (hs : Within R s) (w : Worker α) (hw : ∀ q ∈ w.asks, R q.to q.what)
    (reqs : List ((Nat × Nat) × Ask α)) (hr : ∀ r ∈ reqs, r ∈ s.requests) :
    Within R ⟨s.workers ++ [w], reqs, s.replies⟩ := by
  refine ⟨?_, fun r h => hs.reqs r (hr r h)⟩
  intro z hz
  rcases List.mem_append.mp hz with hz | hz
  · exact hs.asks z hz
  · cases List.mem_singleton.mp hz
    exact hw

theorem within_step {R : Nat → α → Prop} {cb : Posting α} {s : Nest α} (hR : ∀ n a, R n a → ∀ q ∈ cb n a, R q.to q.what)
    (hs : Within R s) (a : NestAct α) (ha : ∀ n asks, a = .call n asks → ∀ q ∈ asks, R q.to q.what) :
    Within R (s.step cb a) := by
  cases a with
  | call n asks => exact within_new hs ⟨n, none, asks, [], false, false⟩ (ha n asks rfl) _ (fun r h => h)
  | post t =>
    simp only [Nest.step, Nest.post]
    match hx : s.workers[t]? with
    | none => exact hs
    | some x =>
      dsimp only
      match hq : x.next with
      | none => exact hs
      | some q =>
        dsimp only
        split
        · exact hs
        · refine within_set (y := ⟨x.node, x.origin, x.asks, x.results, true, x.ended⟩) hs hx rfl _ _ ?_
          intro r hr
          rcases List.mem_append.mp hr with hr | hr
          · exact .inl hr
          · cases List.mem_singleton.mp hr
            exact .inr (List.mem_of_getElem? hq)
  | arrive j =>
    simp only [Nest.step, Nest.arrive]
    match hr : s.requests[j]? with
    | none => exact hs
    | some (p, q) =>
      exact within_new hs ⟨q.to, some p, cb q.to q.what, [], false, false⟩
        (hR q.to q.what (hs.reqs (p, q) (List.mem_of_getElem? hr))) _ (fun r h => List.mem_of_mem_eraseIdx h)
  | finish t =>
    simp only [Nest.step, Nest.finish]
    match hx : s.workers[t]? with
    | none => exact hs
    | some x =>
      dsimp only
      split
      · exact within_set (y := ⟨x.node, x.origin, x.asks, x.results, x.pending, true⟩) hs hx rfl _ _ (fun r h => .inl h)
      · exact hs
  | reply j =>
    simp only [Nest.step, Nest.reply]
    match hr : s.replies[j]? with
    | none => exact hs
    | some (t, k) =>
      dsimp only
      match hx : s.workers[t]? with
      | none => exact ⟨hs.asks, hs.reqs⟩
      | some x =>
        dsimp only
        split
        · exact within_set (y := ⟨x.node, x.origin, x.asks, x.results ++ [true], false, x.ended⟩) hs hx rfl _ _
            (fun r h => .inl h)
        · exact ⟨hs.asks, hs.reqs⟩
  | timeout t =>
    simp only [Nest.step, Nest.timeout]
    match hx : s.workers[t]? with
    | none => exact hs
    | some x =>
      dsimp only
      split
      · exact within_set (y := ⟨x.node, x.origin, x.asks, x.results ++ [false], false, x.ended⟩) hs hx rfl _ _
          (fun r h => .inl h)
      · exact hs
  | loseRequest j => exact ⟨hs.asks, fun r h => hs.reqs r (List.mem_of_mem_eraseIdx h)⟩
  | loseReply j => exact ⟨hs.asks, hs.reqs⟩
  | repeatRequest j => exact ⟨hs.asks, fun r h => hs.reqs r (mem_repeated h)⟩
  | repeatReply j => exact ⟨hs.asks, hs.reqs⟩

theorem within_run {R : Nat → α → Prop} {cb : Posting α} (hR : ∀ n a, R n a → ∀ q ∈ cb n a, R q.to q.what)
    (acts : List (NestAct α)) : ∀ s : Nest α, Within R s →
      (∀ n asks, NestAct.call n asks ∈ acts → ∀ q ∈ asks, R q.to q.what) →
      Within R (s.run cb acts) ∧ s.run (onlyOn R cb) acts = s.run cb acts := by
  induction acts with
  | nil => intro s hs _; exact ⟨hs, rfl⟩
  | cons a acts ih =>
    intro s hs h
    have hw := within_step hR hs a (fun n asks e => h n asks (e ▸ List.mem_cons_self))
    obtain ⟨h1, h2⟩ := ih (s.step cb a) hw (fun n asks hm => h n asks (List.mem_cons_of_mem _ hm))
    refine ⟨h1, ?_⟩
    show (s.step (onlyOn R cb) a).run (onlyOn R cb) acts = (s.step cb a).run cb acts
    rw [within_same hs a]
    exact h2

theorem within_moves {R : Nat → α → Prop} {cb : Posting α} (hR : ∀ n a, R n a → ∀ q ∈ cb n a, R q.to q.what)
    (acts : List (NestAct α)) : ∀ s : Nest α, Within R s → (∀ a ∈ acts, ¬ Calls a ∧ ¬ RepeatsMsg a) →
      AllMove cb s acts → AllMove (onlyOn R cb) s acts := by
  induction acts with
  | nil => intro s _ _ _; exact trivial
  | cons a acts ih =>
    intro s hs h hm
    have hw := within_step hR hs a (fun n asks e => absurd (show Calls a by rw [e]; exact trivial) (h a List.mem_cons_self).1)
    refine ⟨?_, ?_⟩
    · rw [within_same hs a]
      exact hm.1
    · rw [within_same hs a]
      exact ih _ hw (fun b hb => h b (List.mem_cons_of_mem _ hb)) hm.2

/-- **C176, the part that holds**, for callbacks of which only some stand lower than those who ask them: it is enough
that the requests of the program, and those made to answer them, do. What callbacks would do for other requests does not
matter. -/
theorem C176_requests_partial (R : Nat → α → Prop) (cb : Posting α) (height : Nat → Nat) (hl : LayeredOn R cb height)
    (acts : List (NestAct α)) (hc : CallsLowerOn R cb height acts) (hn : ∀ a ∈ acts, ¬ Loses a)
    (ht : ∀ a ∈ acts, ¬ TimesOut a) :
    let s := Nest.init.run cb acts
    (∀ n asks, NestAct.call n asks ∈ acts → ∃ x ∈ s.workers, x.node = n ∧ x.asks = asks ∧ x.origin = none) ∧
    ((∃ a, OfItself a ∧ s.step cb a ≠ s) ∨
      ∀ x ∈ s.workers, x.ended = true ∧ x.pending = false ∧ x.results = List.replicate x.asks.length true) ∧
    ∃ N, ∀ more : List (NestAct α), (∀ a ∈ more, ¬ Calls a ∧ ¬ RepeatsMsg a) → AllMove cb s more →
      more.length ≤ N := by
  intro s
  have hR : ∀ n a, R n a → ∀ q ∈ cb n a, R q.to q.what := fun n a h q hq => (hl n a h q hq).1
  obtain ⟨hw, he⟩ := within_run hR acts Nest.init ⟨(fun x h => nomatch h), (fun x h => nomatch h)⟩
    (fun n asks h q hq => (hc n asks h q hq).1)
  have hw : Within R s := hw
  have hc' : CallsLower (onlyOn R cb) height acts := by
    intro n asks h q hq hne
    obtain ⟨h1, h2⟩ := hc n asks h q hq
    rw [onlyOn_of h1] at hne
    exact h2 hne
  have main := C176_answered_partial (onlyOn R cb) height (onlyOn_layered hl) acts hc' hn ht
  dsimp only at main
  rw [he] at main
  obtain ⟨m1, m2, N, m3⟩ := main
  refine ⟨m1, ?_, N, fun more h1 h2 => m3 more h1 (within_moves hR more s hw h1 h2)⟩
  rcases m2 with ⟨a, h1, h2⟩ | h
  · exact .inl ⟨a, h1, by rw [within_same hw a] at h2; exact h2⟩
  · exact .inr h

/-- How many nodes of a chain come after a node. -/
def chainHeight (node : Nat → Nat) (m n : Nat) : Nat := m - ((List.range m).findIdx (fun i => node i == n))

theorem chainHeight_at {node : Nat → Nat} {m : Nat} (hd : ∀ i j, i < j → j < m → node i ≠ node j) {i : Nat} (hi : i < m) :
    chainHeight node m (node i) = m - i := by
  have : (List.range m).findIdx (fun j => node j == node i) = i := by
    rw [List.findIdx_eq (by simpa using hi)]
    refine ⟨by simp, ?_⟩
    intro j hj
    simp only [List.getElem_range, beq_eq_false_iff_ne]
    exact hd j i hj hi
  rw [chainHeight, this]

/-- **C176, the part that holds**, next to `C176_cycle_refuted`: a post is answered by a callback that makes one post,
this by another, and so on over different nodes, until a node, which may be one of those that wait, is asked for
something it answers without posting. Then, however often the program makes this post, all these posts are answered. -/
theorem C176_chain_partial (cb : Posting α) (m : Nat) (node : Nat → Nat) (what : Nat → α) (h0 : 1 ≤ m)
    (h1 : ∀ i, 1 ≤ i → i < m → cb (node i) (what i) = [⟨node (i + 1), what (i + 1)⟩])
    (hd : ∀ i j, i < j → j < m → node i ≠ node j) (hend : cb (node m) (what m) = [])
    (acts : List (NestAct α)) (hc : ∀ n asks, NestAct.call n asks ∈ acts → n = node 0 ∧ asks = [⟨node 1, what 1⟩])
    (hn : ∀ a ∈ acts, ¬ Loses a) (ht : ∀ a ∈ acts, ¬ TimesOut a) :
    let s := Nest.init.run cb acts
    (∀ n asks, NestAct.call n asks ∈ acts → ∃ x ∈ s.workers, x.node = n ∧ x.asks = asks ∧ x.origin = none) ∧
    ((∃ a, OfItself a ∧ s.step cb a ≠ s) ∨
      ∀ x ∈ s.workers, x.ended = true ∧ x.pending = false ∧ x.results = List.replicate x.asks.length true) ∧
    ∃ N, ∀ more : List (NestAct α), (∀ a ∈ more, ¬ Calls a ∧ ¬ RepeatsMsg a) → AllMove cb s more →
      more.length ≤ N := by
  have lower : ∀ i, i < m → StandsLower cb (chainHeight node m) (node i) ⟨node (i + 1), what (i + 1)⟩ := by
    intro i hi hne
    have him : i + 1 < m := by
      rcases Nat.lt_or_ge (i + 1) m with h | h
      · exact h
      · have e : i + 1 = m := by omega
        exact absurd (by rw [e]; exact hend) hne
    show chainHeight node m (node (i + 1)) < chainHeight node m (node i)
    rw [chainHeight_at hd him, chainHeight_at hd hi]
    omega
  refine C176_requests_partial (fun n a => ∃ i, 1 ≤ i ∧ i ≤ m ∧ n = node i ∧ a = what i) cb (chainHeight node m) ?_ acts ?_
    hn ht
  · rintro n a ⟨i, hi1, hi2, rfl, rfl⟩ q hq
    rcases Nat.lt_or_ge i m with him | him
    · rw [h1 i hi1 him] at hq
      cases List.mem_singleton.mp hq
      exact ⟨⟨i + 1, by omega, by omega, rfl, rfl⟩, lower i him⟩
    · have e : i = m := by omega
      rw [e, hend] at hq
      cases hq
  · intro n asks h q hq
    obtain ⟨rfl, rfl⟩ := hc n asks h
    cases List.mem_singleton.mp hq
    exact ⟨⟨1, Nat.le_refl 1, h0, rfl, rfl⟩, lower 0 h0⟩

/-- Node 0 asks 1, which asks 2, which asks 0, which answers at once: the hypotheses are met, although node 0 waits when
it is asked, and although node 0 would ask itself for something else. -/
example : let cb : Posting Bool := fun n a => if n = 0 then (if a then [⟨0, true⟩] else []) else [⟨(n + 1) % 3, false⟩]
    let node : Nat → Nat := (· % 3)
    (∀ i, 1 ≤ i → i < 3 → cb (node i) false = [⟨node (i + 1), false⟩]) ∧ (∀ i j, i < j → j < 3 → node i ≠ node j) ∧
    cb (node 3) false = [] ∧ node 3 = node 0 ∧ ¬ ∃ height, Layered cb height := by
  refine ⟨?_, ?_, rfl, rfl, ?_⟩
  · intro i h1 h2
    have : i = 1 ∨ i = 2 := by omega
    rcases this with rfl | rfl <;> decide
  · intro i j h1 h2 h
    have h : i % 3 = j % 3 := h
    omega
  · rintro ⟨height, h⟩
    have := h 0 true ⟨0, true⟩ (by decide) (by decide)
    exact absurd this (Nat.lt_irrefl _)

/-! ## One or the other -/

/-- Among more numbers than values two are equal. -/
theorem nest_pigeons : ∀ (K : Nat) (f : Nat → Nat), (∀ i, i ≤ K → f i < K) → ∃ i j, i < j ∧ j ≤ K ∧ f i = f j := by
  intro K
  induction K with
  | zero => intro f h; exact absurd (h 0 (Nat.le_refl 0)) (Nat.not_lt_zero _)
  | succ K ih =>
    intro f h
    by_cases hv : ∃ i, i ≤ K ∧ f i = f (K + 1)
    · obtain ⟨i, hi, e⟩ := hv
      exact ⟨i, K + 1, by omega, Nat.le_refl _, e⟩
    · have hne : ∀ i, i ≤ K → f i ≠ f (K + 1) := fun i hi e => hv ⟨i, hi, e⟩
      have hlast := h (K + 1) (Nat.le_refl _)
      obtain ⟨i, j, hij, hj, e⟩ := ih (fun i => if f (K + 1) < f i then f i - 1 else f i) (by
        intro i hi
        have h1 := h i (by omega)
        have h2 := hne i hi
        split <;> omega)
      refine ⟨i, j, hij, by omega, ?_⟩
      have h1 := hne i (by omega)
      have h2 := hne j hj
      split at e <;> split at e <;> omega

theorem first_such (P : Nat → Prop) (b : Nat) :
    (∃ m, 1 ≤ m ∧ m ≤ b ∧ P m ∧ ∀ i, 1 ≤ i → i < m → ¬ P i) ∨ ∀ i, 1 ≤ i → i ≤ b → ¬ P i := by
  induction b with
  | zero => exact .inr (fun i h1 h2 => absurd h1 (by omega))
  | succ b ih =>
    rcases ih with ⟨m, h1, h2, h⟩ | h
    · exact .inl ⟨m, h1, by omega, h⟩
    · by_cases hp : P (b + 1)
      · exact .inl ⟨b + 1, by omega, Nat.le_refl _, hp, fun i h1 h2 => h i h1 (by omega)⟩
      · refine .inr (fun i h1 h2 => ?_)
        rcases Nat.lt_or_ge b i with hi | hi
        · have : i = b + 1 := by omega
          rw [this]
          exact hp
        · exact h i h1 hi

/-- The requests that lead to each other. -/
def chainAsk (cb : Posting α) (q : Ask α) : Nat → Ask α
  | 0 => q
  | i + 1 => ((cb (chainAsk cb q i).to (chainAsk cb q i).what).head?).getD (chainAsk cb q i)

/-- The nodes asked, after the one that begins. -/
def chainNode (cb : Posting α) (n : Nat) (q : Ask α) : Nat → Nat
  | 0 => n
  | i + 1 => (chainAsk cb q i).to

/-- What they are asked. -/
def chainWhat (cb : Posting α) (q : Ask α) : Nat → α
  | 0 => q.what
  | i + 1 => (chainAsk cb q i).what

theorem chainAsk_lt {cb : Posting α} {K : Nat} (hK : ∀ n a, ∀ q ∈ cb n a, q.to < K) {q : Ask α} (hq : q.to < K) (i : Nat) :
    (chainAsk cb q i).to < K := by
  induction i with
  | zero => exact hq
  | succ i ih =>
    rw [chainAsk]
    cases h : cb (chainAsk cb q i).to (chainAsk cb q i).what with
    | nil => exact ih
    | cons r l => exact hK _ _ r (h ▸ List.mem_cons_self)

/-- **C176**, exactly, for a network of finitely many nodes whose callbacks make at most one post each: either a post is
answered, whatever happens, as long as nothing is lost or times out, or it gets stuck: there is a run in which nothing is
lost or times out, and after which it does not return, whatever happens, before one of the posts made to answer it
times out. -/
theorem C176_either_partial (cb : Posting α) (K : Nat) (hone : ∀ n a, (cb n a).length ≤ 1)
    (hK : ∀ n a, ∀ q ∈ cb n a, q.to < K) (n : Nat) (q : Ask α) (hn : n < K) (hq : q.to < K) :
    (∀ acts : List (NestAct α), (∀ n' asks, NestAct.call n' asks ∈ acts → n' = n ∧ asks = [q]) →
      (∀ a ∈ acts, ¬ Loses a) → (∀ a ∈ acts, ¬ TimesOut a) →
      let s := Nest.init.run cb acts
      ((∃ a, OfItself a ∧ s.step cb a ≠ s) ∨
        ∀ x ∈ s.workers, x.ended = true ∧ x.pending = false ∧ x.results = List.replicate x.asks.length true) ∧
      ∃ N, ∀ more : List (NestAct α), (∀ a ∈ more, ¬ Calls a ∧ ¬ RepeatsMsg a) → AllMove cb s more →
        more.length ≤ N) ∨
    (∃ (acts : List (NestAct α)) (m : Nat), (∀ a ∈ acts, OfItself a) ∧
      ∀ more : List (NestAct α), (∀ t, t ≤ m → NestAct.timeout t ∉ more) →
        ∃ x, (Nest.init.run cb (.call n [q] :: acts ++ more)).workers[0]? = some x ∧ x.node = n ∧
          x.asks.head? = some q ∧ x.pending = true ∧ x.results = []) := by
  let node := chainNode cb n q
  let what := chainWhat cb q
  let P : Nat → Prop := fun m => cb (node m) (what m) = [] ∨ ∃ i, i < m ∧ node i = node m
  have hlt : ∀ i, node i < K := by
    intro i
    cases i with
    | zero => exact hn
    | succ i => exact chainAsk_lt hK hq i
  have hfirst : ∃ m, 1 ≤ m ∧ P m ∧ ∀ i, 1 ≤ i → i < m → ¬ P i := by
    rcases first_such P K with ⟨m, h1, -, h⟩ | h
    · exact ⟨m, h1, h⟩
    · obtain ⟨i, j, hij, hj, e⟩ := nest_pigeons K node (fun i _ => hlt i)
      exact absurd (.inr ⟨i, hij, e⟩) (h j (by omega) hj)
  obtain ⟨m, hm1, hP, hmin⟩ := hfirst
  have h1 : ∀ i, 1 ≤ i → i < m → cb (node i) (what i) = [⟨node (i + 1), what (i + 1)⟩] := by
    intro i hi him
    have hne : cb (node i) (what i) ≠ [] := fun h => hmin i hi him (.inl h)
    cases i with
    | zero => omega
    | succ i =>
      have hl := hone (chainAsk cb q i).to (chainAsk cb q i).what
      show cb (chainAsk cb q i).to (chainAsk cb q i).what = [⟨(chainAsk cb q (i + 1)).to, (chainAsk cb q (i + 1)).what⟩]
      have hne : cb (chainAsk cb q i).to (chainAsk cb q i).what ≠ [] := hne
      rw [chainAsk]
      cases h : cb (chainAsk cb q i).to (chainAsk cb q i).what with
      | nil => exact absurd h hne
      | cons r l =>
        rw [h] at hl
        cases l with
        | nil => rfl
        | cons r' l => simp at hl
  have hd : ∀ i j, i < j → j < m → node i ≠ node j := by
    intro i j hij hj e
    exact hmin j (by omega) hj (.inr ⟨i, hij, e⟩)
  by_cases hend : cb (node m) (what m) = []
  · left
    intro acts hc hl ht
    exact (C176_chain_partial cb m node what hm1 h1 hd hend acts hc hl ht).2
  · right
    have hb : ∃ i, i < m ∧ node i = node m := hP.resolve_left hend
    refine ⟨(List.range m).flatMap (fun i => [.post i, .arrive 0]), m, ?_, ?_⟩
    · intro a ha
      obtain ⟨i, -, hi⟩ := List.mem_flatMap.mp ha
      simp only [List.mem_cons, List.not_mem_nil, or_false] at hi
      rcases hi with rfl | rfl <;> exact trivial
    · intro more hmore
      obtain ⟨x, hx, e1, e2, e3, e4⟩ := (C176_cycle_refuted cb m node what (fun _ => []) h1 hd hb hend more hmore).1 0 hm1
      exact ⟨x, hx, e1, e2, e3, e4⟩

/-- Both cases are met, by the same callbacks: node 0 asks node 1, which asks node 0 back, which asks node 1 if it is
asked for `true`, and answers at once if asked for `false`. -/
example : let cb : Posting Bool := fun n a => if n = 0 then (if a then [⟨1, true⟩] else []) else [⟨0, a⟩]
    (∀ n a, (cb n a).length ≤ 1) ∧ (∀ n a, ∀ q ∈ cb n a, q.to < 2) ∧
    (((Nest.init : Nest Bool).run cb [.call 0 [⟨1, false⟩], .post 0, .arrive 0, .post 1, .arrive 0, .finish 2, .reply 0,
      .finish 1, .reply 0, .finish 0]).workers.map (·.results) = [[true], [true], []]) ∧
    (((Nest.init : Nest Bool).run cb [.call 0 [⟨1, true⟩], .post 0, .arrive 0, .post 1, .arrive 0, .post 2, .finish 2,
      .finish 1, .finish 0]).workers.map (fun x => (x.pending, x.ended)) = [(true, false), (true, false), (false, false)]) := by
  refine ⟨?_, ?_, by decide, by decide⟩
  · intro n a
    dsimp only
    split
    · split <;> decide
    · exact Nat.le_refl 1
  · intro n a q hq
    dsimp only at hq
    split at hq
    · split at hq
      · cases List.mem_singleton.mp hq
        decide
      · cases hq
    · cases List.mem_singleton.mp hq
      exact Nat.zero_lt_two

/-! ## Whatever the callbacks do -/

/-- **C176, the part that holds** for all callbacks, whatever is lost, repeated or times out: as long as a goroutine is
not through, something can happen, if only that a post times out. -/
theorem C176_moves_partial (cb : Posting α) (acts : List (NestAct α)) :
    let s := Nest.init.run cb acts
    (∃ x ∈ s.workers, x.ended = false) → ∃ a, (OfItself a ∨ TimesOut a) ∧ s.step cb a ≠ s := by
  rintro s ⟨x, hm, he⟩
  obtain ⟨t, hx⟩ := List.mem_iff_getElem?.mp hm
  obtain ⟨hlt, hxe⟩ := List.getElem?_eq_some_iff.mp hx
  by_cases hp : ∃ z ∈ s.workers, z.pending = true
  · obtain ⟨z, hz, hp⟩ := hp
    obtain ⟨i, hi⟩ := List.mem_iff_getElem?.mp hz
    obtain ⟨hil, hie⟩ := List.getElem?_eq_some_iff.mp hi
    refine ⟨.timeout i, .inr trivial, ?_⟩
    simp only [Nest.step, Nest.timeout, hi, hp, Nest.returns]
    intro g
    have g' := congrArg (fun s : Nest α => (s.workers[i]?).map (·.pending)) g
    simp [hil] at g'
    rw [hie, hp] at g'
    cases g'
  · have free : s.held x.node = false := by
      rw [Nest.held, List.any_eq_false]
      intro z hz h
      exact hp ⟨z, hz, (Bool.and_eq_true _ _ ▸ h).2⟩
    cases hq : x.next with
    | some q =>
      refine ⟨.post t, .inl trivial, ?_⟩
      simp only [Nest.step, Nest.post, hx, hq, free]
      intro g
      have g' := congrArg (fun s : Nest α => s.requests.length) g
      simp at g'
    | none =>
      refine ⟨.finish t, .inl trivial, ?_⟩
      simp only [Nest.step, Nest.finish, hx, hq, he]
      intro g
      have g' := congrArg (fun s : Nest α => (s.workers[t]?).map (·.ended)) g
      simp [hlt] at g'
      rw [hxe, he] at g'
      cases g'

/-- Each request arrives and its post times out before it is answered; `k`: how often this has happened, `N`: how often
it is going to. -/
def endlessActs : Nat → Nat → List (NestAct α)
  | _, 0 => []
  | k, N + 1 => .post k :: .arrive 0 :: .timeout k :: endlessActs (k + 1) N

/-- Goroutine `i` after its post has timed out. -/
def gaveUp (cb : Posting α) (node : Nat → Nat) (what : Nat → α) (i : Nat) : Worker α :=
  ⟨(chainWorker cb node what i).node, (chainWorker cb node what i).origin, (chainWorker cb node what i).asks, [false], false,
    false⟩

theorem endless_moves (cb : Posting α) (node : Nat → Nat) (what : Nat → α) (rest : Nat → List (Ask α))
    (h1 : ∀ i, 1 ≤ i → cb (node i) (what i) = ⟨node (i + 1), what (i + 1)⟩ :: rest i) (N : Nat) :
    ∀ (k : Nat) (gone : List (Worker α)), gone.length = k → (∀ w ∈ gone, w.pending = false) →
      AllMove cb ⟨gone ++ [chainWorker cb node what k], [], []⟩ (endlessActs k N) := by
  induction N with
  | zero => intro k gone _ _; exact trivial
  | succ N ih =>
    intro k gone hk hg
    have hnext : (chainWorker cb node what k).next = some ⟨node (k + 1), what (k + 1)⟩ := by
      cases k with
      | zero => rfl
      | succ i => simp [chainWorker, Worker.next, h1 (i + 1) (by omega)]
    obtain ⟨hr, hp, he⟩ := chainWorker_results cb node what k
    have hget : (gone ++ [chainWorker cb node what k])[k]? = some (chainWorker cb node what k) := by
      subst hk; simp
    have hfree : (⟨gone ++ [chainWorker cb node what k], [], []⟩ : Nest α).held (chainWorker cb node what k).node = false := by
      rw [Nest.held, List.any_eq_false]
      intro z hz h
      have h := (Bool.and_eq_true _ _ ▸ h).2
      rcases List.mem_append.mp hz with hz | hz
      · rw [hg z hz] at h; cases h
      · rw [List.mem_singleton.mp hz, hp] at h; cases h
    let w : Worker α := ⟨(chainWorker cb node what k).node, (chainWorker cb node what k).origin,
      (chainWorker cb node what k).asks, [], true, false⟩
    have hpost : (⟨gone ++ [chainWorker cb node what k], [], []⟩ : Nest α).step cb (.post k) =
        ⟨gone ++ [w], [((k, 0), ⟨node (k + 1), what (k + 1)⟩)], []⟩ := by
      simp only [Nest.step, Nest.post, hget, hnext, hfree, hr, he]
      subst hk
      simp [w]
    have harr : (⟨gone ++ [w], [((k, 0), ⟨node (k + 1), what (k + 1)⟩)], []⟩ : Nest α).step cb (.arrive 0) =
        ⟨gone ++ [w] ++ [chainWorker cb node what (k + 1)], [], []⟩ := rfl
    have hget2 : (gone ++ [w] ++ [chainWorker cb node what (k + 1)])[k]? = some w := by
      subst hk; simp
    have htime : (⟨gone ++ [w] ++ [chainWorker cb node what (k + 1)], [], []⟩ : Nest α).step cb (.timeout k) =
        ⟨gone ++ [gaveUp cb node what k] ++ [chainWorker cb node what (k + 1)], [], []⟩ := by
      simp only [Nest.step, Nest.timeout, hget2]
      subst hk
      simp [w, Nest.returns, gaveUp]
    refine ⟨?_, ?_, ?_, ?_⟩
    · rw [hpost]
      intro g
      cases congrArg (fun s : Nest α => s.requests.length) g
    · rw [hpost, harr]
      intro g
      cases congrArg (fun s : Nest α => s.requests.length) g
    · rw [hpost, harr, htime]
      intro g
      have g' := congrArg (fun s : Nest α => (s.workers[k]?).map (·.pending)) g
      simp only [hget2] at g'
      subst hk
      simp [gaveUp, w] at g'
    · rw [hpost, harr, htime]
      refine ih (k + 1) (gone ++ [gaveUp cb node what k]) (by simp [hk]) ?_
      intro z hz
      rcases List.mem_append.mp hz with hz | hz
      · exact hg z hz
      · rw [List.mem_singleton.mp hz]
        rfl

theorem endlessActs_mem (N : Nat) : ∀ (k : Nat) (a : NestAct α), a ∈ endlessActs k N → OfItself a ∨ TimesOut a := by
  induction N with
  | zero => intro k a h; cases h
  | succ N ih =>
    intro k a h
    simp only [endlessActs, List.mem_cons] at h
    rcases h with rfl | rfl | rfl | h
    · exact .inl trivial
    · exact .inl trivial
    · exact .inr trivial
    · exact ih (k + 1) a h

theorem endlessActs_length (N : Nat) : ∀ k : Nat, (endlessActs k N : List (NestAct α)).length = 3 * N := by
  induction N with
  | zero => intro k; rfl
  | succ N ih =>
    intro k
    simp only [endlessActs, List.length_cons, ih]
    omega

/-- **C176, refuted** with timeouts: requests that lead to each other without end, as when two callbacks ask each other,
keep the network busy for ever after a single post. No message is lost or repeated and the program posts nothing more,
but the number of steps that can follow has no bound. -/
theorem C176_endless_refuted (cb : Posting α) (node : Nat → Nat) (what : Nat → α) (rest : Nat → List (Ask α))
    (h1 : ∀ i, 1 ≤ i → cb (node i) (what i) = ⟨node (i + 1), what (i + 1)⟩ :: rest i) (N : Nat) :
    ∃ more : List (NestAct α), (∀ a ∈ more, OfItself a ∨ TimesOut a) ∧ N ≤ more.length ∧
      AllMove cb (Nest.init.run cb [.call (node 0) [⟨node 1, what 1⟩]]) more :=
  ⟨endlessActs 0 N, endlessActs_mem N 0, by rw [endlessActs_length]; omega,
    endless_moves cb node what rest h1 N 0 [] rfl (fun w h => nomatch h)⟩

/-- Two nodes that ask each other. -/
example : let cb : Posting Unit := fun n _ => if n = 0 then [⟨1, ()⟩] else [⟨0, ()⟩]
    ∀ i, 1 ≤ i → cb (i % 2) () = ⟨(i + 1) % 2, ()⟩ :: [] := by
  intro cb i _
  rcases Nat.mod_two_eq_zero_or_one i with h | h
  · have h' : (i + 1) % 2 = 1 := by omega
    simp only [cb, h, h']
    rfl
  · have h' : (i + 1) % 2 = 0 := by omega
    simp only [cb, h, h']
    rfl

end Verif.Props
