import Verif.Lemmas.ShutdownStart
import Verif.Spec.SendRace

/-! # Lemmas about sending while a node stops -/

namespace Verif.Lemmas.SendRace

open Verif.Model Verif.Spec Verif.Lemmas.Shut

variable {answer : List Message → Message → Option Message}

/-- What happens in the node. -/
def nodeActs (acts : List SendAct) : List RunAct := acts.filterMap fun | .node a => some a | _ => none

theorem srun_nil (s : SendSt) : s.run answer [] = s := rfl

theorem srun_cons (s : SendSt) (a acts) (h : s.node.crashed = false) :
    s.run answer (a :: acts) = (s.step answer a).run answer acts := by
  show (if s.node.crashed then s else _) = _
  simp [h]

theorem srun_crashed (s : SendSt) (acts) (h : s.node.crashed = true) : s.run answer acts = s := by
  cases acts with
  | nil => rfl
  | cons a acts => show (if s.node.crashed then s else _) = _; simp [h]

theorem srun_append (s : SendSt) (as bs) : s.run answer (as ++ bs) = (s.run answer as).run answer bs := by
  induction as generalizing s with
  | nil => rfl
  | cons a as ih =>
    cases h : s.node.crashed with
    | true => rw [srun_crashed _ _ h, srun_crashed _ _ h, srun_crashed _ _ h]
    | false => rw [List.cons_append, srun_cons _ _ _ h, srun_cons _ _ _ h, ih]

theorem srun_inv (I : SendSt → Prop) (hstep : ∀ s a, I s → s.node.crashed = false → I (s.step answer a)) (s : SendSt)
    (acts) (h : I s) : I (s.run answer acts) := by
  induction acts generalizing s with
  | nil => exact h
  | cons a acts ih =>
    cases hc : s.node.crashed with
    | true => rw [srun_crashed _ _ hc]; exact h
    | false => rw [srun_cons _ _ _ hc]; exact ih _ (hstep s a h hc)

theorem stepCall_node (s : SendSt) (h x ok) : (s.stepCall h x ok).node = s.node := by
  unfold SendSt.stepCall
  split <;> first | rfl | (split <;> rfl)

theorem go_node (s : SendSt) (h ok) : (s.step answer (.go h ok)).node = s.node := by
  simp only [SendSt.step]
  split
  · exact stepCall_node _ _ _ _
  · rfl

/-- The calls leave the node as it is. -/
theorem srun_node (s : SendSt) (acts) : (s.run answer acts).node = s.node.run answer (nodeActs acts) := by
  induction acts generalizing s with
  | nil => rfl
  | cons a acts ih =>
    cases hc : s.node.crashed with
    | true => rw [srun_crashed _ _ hc, run_crashed _ _ hc]
    | false =>
      rw [srun_cons _ _ _ hc, ih]
      cases a with
      | node a =>
        show _ = s.node.run answer (a :: nodeActs acts)
        rw [run_cons _ _ _ hc]
        rfl
      | send b t d => rfl
      | go h ok => rw [go_node]; rfl

theorem srun_map (s : SendSt) (acts : List RunAct) : s.run answer (acts.map .node) = ⟨s.node.run answer acts, s.calls, s.out⟩ := by
  induction acts generalizing s with
  | nil => rfl
  | cons a acts ih =>
    cases hc : s.node.crashed with
    | true => rw [srun_crashed _ _ hc, run_crashed _ _ hc]
    | false => rw [List.map_cons, srun_cons _ _ _ hc, run_cons _ _ _ hc, ih]; rfl

theorem mem_nodeActs {a : RunAct} {acts : List SendAct} : a ∈ nodeActs acts ↔ .node a ∈ acts := by
  unfold nodeActs
  rw [List.mem_filterMap]
  constructor
  · rintro ⟨b, hb, e⟩
    cases b with
    | node b => cases e; exact hb
    | send b t d => cases e
    | go h ok => cases e
  · exact fun h => ⟨_, h, rfl⟩

theorem go_of {s : SendSt} {h : Nat} {x : Sending} (hx : s.calls[h]? = some x) (ok : Bool) :
    s.step answer (.go h ok) = s.stepCall h x ok := by
  simp only [SendSt.step, hx]

/-- What a step of a call can do. -/
theorem stepCall_cases (s : SendSt) (h : Nat) (x : Sending) (ok : Bool) :
    (∃ p, p ≠ .returned true ∧ s.stepCall h x ok = s.goto h x p ∧ x.pc ≠ .returned true) ∨
    (∃ w, s.stepCall h x ok = s.post h x w ∧ x.pc ≠ .returned true) ∨
    ∃ b, x.pc = .returned b ∧ s.stepCall h x ok = s := by
  unfold SendSt.stepCall
  split
  all_goals rename_i e
  case h_11 => exact .inr (.inr ⟨_, e, rfl⟩)
  all_goals have hne : x.pc ≠ .returned true := by rw [e]; intro hh; cases hh
  case h_6 =>
    split
    · exact .inr (.inl ⟨_, rfl, hne⟩)
    · exact .inl ⟨_, (fun hh => by cases hh), rfl, hne⟩
  case h_9 =>
    split
    · exact .inr (.inl ⟨_, rfl, hne⟩)
    · exact .inl ⟨_, (fun hh => by cases hh), rfl, hne⟩
  case h_10 =>
    split
    · exact .inr (.inl ⟨_, rfl, hne⟩)
    · exact .inl ⟨_, (fun hh => by cases hh), rfl, hne⟩
  all_goals
    refine .inl ⟨_, ?_, rfl, hne⟩
    first
      | (intro hh; cases hh; done)
      | (split <;> intro hh <;> cases hh)

/-! ## What a call has sent -/

structure Tally (s : SendSt) : Prop where
  own : ∀ p ∈ s.out, p.call < s.calls.length
  one : ∀ (h : Nat) x, s.calls[h]? = some x →
    (x.pc = .returned true → ∃ w, postedBy s h = [⟨h, w, x.to, x.data⟩]) ∧
    (x.pc ≠ .returned true → postedBy s h = [])

theorem Tally.step {s : SendSt} (t : Tally s) (a : SendAct) : Tally (s.step answer a) := by
  cases a with
  | node a => exact ⟨t.own, t.one⟩
  | send b to d =>
    refine ⟨fun p hp => ?_, fun h x hx => ?_⟩
    · have := t.own p hp
      simp only [SendSt.step, List.length_append, List.length_singleton]
      omega
    · simp only [SendSt.step] at hx
      rw [List.getElem?_append] at hx
      split at hx
      · exact t.one h x hx
      · rename_i hge
        have he : x = ⟨b, to, d, .askU⟩ := by
          have := List.mem_of_getElem? hx
          simpa using this
        subst he
        refine ⟨(fun hh => by cases hh), fun _ => ?_⟩
        unfold postedBy
        rw [List.filter_eq_nil_iff]
        intro p hp hh
        have := t.own p hp
        have : p.call = h := by simpa using hh
        omega
  | go h ok =>
    cases hx : s.calls[h]? with
    | none => simp only [SendSt.step, hx]; exact t
    | some x =>
      rw [go_of hx]
      have hlt := (List.getElem?_eq_some_iff.mp hx).1
      rcases stepCall_cases s h x ok with ⟨p, hp, e, hne⟩ | ⟨w, e, hne⟩ | ⟨b, -, e⟩
      · rw [e]
        refine ⟨fun q hq => ?_, fun k y hy => ?_⟩
        · simpa [SendSt.goto] using t.own q hq
        · simp only [SendSt.goto, List.getElem?_set] at hy
          split at hy
          · rename_i ek
            subst ek
            cases hy
            exact ⟨fun hh => absurd hh hp, fun _ => (t.one _ x hx).2 hne⟩
          · exact t.one k y hy
      · rw [e]
        refine ⟨fun q hq => ?_, fun k y hy => ?_⟩
        · simp only [SendSt.post, List.length_set] at hq ⊢
          rcases List.mem_append.mp hq with hq | hq
          · exact t.own q hq
          · rw [List.mem_singleton.mp hq]; exact hlt
        · simp only [SendSt.post, List.getElem?_set] at hy
          have hadd : ∀ k, postedBy (s.post h x w) k = postedBy s k ++ if h = k then [⟨h, w, x.to, x.data⟩] else [] := by
            intro k
            simp only [postedBy, SendSt.post, List.filter_append]
            congr 1
            by_cases hk : h = k <;> simp [hk]
          split at hy
          · rename_i ek
            subst ek
            cases hy
            refine ⟨fun _ => ⟨w, ?_⟩, fun hh => absurd rfl hh⟩
            rw [hadd, (t.one _ x hx).2 hne, if_pos rfl]
            rfl
          · rename_i ek
            rw [hadd, if_neg ek, List.append_nil]
            exact t.one k y hy
      · rw [e]; exact t

theorem tally_starting (tcps : List Bool) (links : List Nat) : Tally (SendSt.starting tcps links) :=
  ⟨fun _ hp => absurd hp List.not_mem_nil, fun h x hx => by simp [SendSt.starting] at hx⟩

theorem asked_step (s : SendSt) (a : SendAct) :
    (s.step answer a).calls.map (fun x => (x.announce, x.to, x.data)) =
      s.calls.map (fun x => (x.announce, x.to, x.data)) ++ asked [a] := by
  cases a with
  | node a => simp [SendSt.step, asked]
  | send b t d => simp [SendSt.step, asked]
  | go h ok =>
    show _ = _ ++ []
    rw [List.append_nil]
    cases hx : s.calls[h]? with
    | none => simp only [SendSt.step, hx]
    | some x =>
      rw [go_of hx]
      have hset : ∀ p, (s.calls.set h ⟨x.announce, x.to, x.data, p⟩).map (fun x => (x.announce, x.to, x.data)) =
          s.calls.map (fun x => (x.announce, x.to, x.data)) := by
        intro p
        rw [List.map_set]
        refine List.ext_getElem? fun k => ?_
        rw [List.getElem?_set]
        split
        · rename_i e
          subst e
          have hlt := (List.getElem?_eq_some_iff.mp hx).1
          rw [if_pos (by simpa using hlt), List.getElem?_map, hx]
          rfl
        · rfl
      rcases stepCall_cases s h x ok with ⟨p, -, e, -⟩ | ⟨w, e, -⟩ | ⟨b, -, e⟩ <;> rw [e]
      · exact hset p
      · exact hset _

theorem asked_run (s : SendSt) (acts) (hc : (s.run answer acts).node.crashed = false) :
    (s.run answer acts).calls.map (fun x => (x.announce, x.to, x.data)) =
      s.calls.map (fun x => (x.announce, x.to, x.data)) ++ asked acts := by
  induction acts generalizing s with
  | nil => show _ = _ ++ []; rw [List.append_nil]; rfl
  | cons a acts ih =>
    cases h : s.node.crashed with
    | true => rw [srun_crashed _ _ h, h] at hc; cases hc
    | false =>
      rw [srun_cons _ _ _ h] at hc ⊢
      rw [ih _ hc, asked_step, List.append_assoc]
      congr 1
      show asked [a] ++ asked acts = asked ([a] ++ acts)
      unfold asked
      rw [List.filterMap_append]

/-! ## Without `Stop` -/

/-- The servers a call will still use. -/
def serversOf : SendPc → List Nat
  | .next rest | .dial rest => rest
  | .tcp j rest | .check j rest | .load j rest | .write j rest => j :: rest
  | _ => []

structure Steady (tcps : List Bool) (links : List Nat) (s : SendSt) : Prop where
  node : ∃ acts, RunAct.stop ∉ acts ∧ s.node = (RunSt.starting tcps links).run answer acts
  calls : ∀ x ∈ s.calls, (∀ rest, x.pc ≠ .dial rest) ∧ ∀ j ∈ serversOf x.pc, j < tcps.length
  out : ∀ p ∈ s.out, p.via = .tcp ∨ ∃ j < tcps.length, p.via = .bound j

theorem mem_set_cases {α} {l : List α} {k : Nat} {x y : α} (h : y ∈ l.set k x) : y ∈ l ∨ y = x := by
  rcases List.mem_or_eq_of_mem_set h with h | h
  · exact .inl h
  · exact .inr h

theorem Steady.step {tcps links s} (hl : ∀ j ∈ links, j < tcps.length) (t : Steady (answer := answer) tcps links s)
    (hc : s.node.crashed = false) (a : SendAct) (ha : a ≠ .node .stop) : Steady (answer := answer) tcps links (s.step answer a) := by
  obtain ⟨acts, hns, hn⟩ := t.node
  cases a with
  | node a =>
    refine ⟨⟨acts ++ [a], ?_, ?_⟩, t.calls, t.out⟩
    · simp only [List.mem_append, List.mem_singleton, not_or]
      exact ⟨hns, fun e => ha (by rw [e])⟩
    · rw [run_append, ← hn, run_cons _ _ _ hc]; rfl
  | send b to d =>
    refine ⟨⟨acts, hns, hn⟩, fun x hx => ?_, t.out⟩
    rcases List.mem_append.mp hx with hx | hx
    · exact t.calls x hx
    · rw [List.mem_singleton.mp hx]
      exact ⟨(fun _ h => by cases h), (fun j h => absurd h List.not_mem_nil)⟩
  | go h ok =>
    cases hx : s.calls[h]? with
    | none => simp only [SendSt.step, hx]; exact t
    | some x =>
      obtain ⟨h1, h2⟩ := t.calls x (List.mem_of_getElem? hx)
      have hu : s.node.ucast = List.range tcps.length := by rw [hn]; exact run_inv_noStop answer tcps links acts hns
      have u : Up tcps.length links (fun _ => False) s.node := by
        rw [hn]; exact run_up (answer := answer) hl (up_starting tcps links) acts hns
      have hconn : ∀ j < tcps.length, s.node.hasConn j = true := by
        intro j hj
        obtain ⟨v, hv, -, hcn, -⟩ := u.uni j hj
        simp only [RunSt.hasConn, hv, Option.map_some, Option.getD_some]
        exact hcn
      have goto : ∀ p, (∀ rest, p ≠ .dial rest) → (∀ j ∈ serversOf p, j < tcps.length) →
          Steady (answer := answer) tcps links (s.goto h x p) := by
        intro p hp hq
        refine ⟨⟨acts, hns, hn⟩, fun y hy => ?_, t.out⟩
        rcases mem_set_cases hy with hy | rfl
        · exact t.calls y hy
        · exact ⟨hp, hq⟩
      have post : ∀ w, (w = .tcp ∨ ∃ j < tcps.length, w = .bound j) →
          Steady (answer := answer) tcps links (s.post h x w) := by
        intro w hw
        refine ⟨⟨acts, hns, hn⟩, fun y hy => ?_, fun p hp => ?_⟩
        · rcases mem_set_cases hy with hy | rfl
          · exact t.calls y hy
          · exact ⟨(fun _ h => by cases h), (fun j h => absurd h List.not_mem_nil)⟩
        · rcases List.mem_append.mp hp with hp | hp
          · exact t.out p hp
          · rw [List.mem_singleton.mp hp]; exact hw
      rw [go_of hx]
      cases hp : x.pc with
      | askU =>
        simp only [SendSt.stepCall, hp]
        split <;> exact goto _ (fun _ h => by cases h) (fun j h => absurd h List.not_mem_nil)
      | askM =>
        simp only [SendSt.stepCall, hp]
        split <;> exact goto _ (fun _ h => by cases h) (fun j h => absurd h List.not_mem_nil)
      | take =>
        simp only [SendSt.stepCall, hp]
        refine goto _ (fun _ h => by cases h) (fun j hj => ?_)
        rw [hu] at hj
        exact List.mem_range.mp hj
      | next rest =>
        rw [hp] at h2
        cases rest with
        | nil =>
          simp only [SendSt.stepCall, hp]
          exact goto _ (fun _ h => by cases h) (fun j h => absurd h List.not_mem_nil)
        | cons j rest =>
          simp only [SendSt.stepCall, hp]
          split <;> exact goto _ (fun _ h => by cases h) h2
      | tcp j rest =>
        rw [hp] at h2
        simp only [SendSt.stepCall, hp]
        split
        · exact post _ (.inl rfl)
        · exact goto _ (fun _ h => by cases h) h2
      | check j rest =>
        rw [hp] at h2
        simp only [SendSt.stepCall, hp, hconn j (h2 j List.mem_cons_self), if_true]
        exact goto _ (fun _ h => by cases h) h2
      | load j rest =>
        rw [hp] at h2
        simp only [SendSt.stepCall, hp, hconn j (h2 j List.mem_cons_self), if_true]
        exact goto _ (fun _ h => by cases h) h2
      | write j rest =>
        rw [hp] at h2
        simp only [SendSt.stepCall, hp]
        split
        · exact post _ (.inr ⟨j, h2 j List.mem_cons_self, rfl⟩)
        · exact goto _ (fun _ h => by cases h) (fun i hi => h2 i (List.mem_cons_of_mem _ hi))
      | dial rest => exact absurd hp (h1 rest)
      | returned b => simp only [SendSt.stepCall, hp]; exact t

theorem steady_run {tcps links} (hl : ∀ j ∈ links, j < tcps.length) (acts) (hs : ¬ StopCalled acts) :
    Steady (answer := answer) tcps links ((SendSt.starting tcps links).run answer acts) := by
  have key : ∀ (s : SendSt) (acts : List SendAct), ¬ StopCalled acts → Steady (answer := answer) tcps links s →
      Steady (answer := answer) tcps links (s.run answer acts) := by
    intro s acts
    induction acts generalizing s with
    | nil => exact fun _ h => h
    | cons a acts ih =>
      intro hs h
      cases hc : s.node.crashed with
      | true => rw [srun_crashed _ _ hc]; exact h
      | false =>
        rw [srun_cons _ _ _ hc]
        exact ih _ (fun hh => hs (List.mem_cons_of_mem _ hh)) (h.step hl hc a fun e => hs (e ▸ List.mem_cons_self))
  exact key _ acts hs ⟨⟨[], List.not_mem_nil, rfl⟩, (fun x hx => absurd hx List.not_mem_nil),
    (fun p hp => absurd hp List.not_mem_nil)⟩

/-! ## After `Stop` -/

structure Over (n : Nat) (s : SendSt) : Prop where
  node : Dead s.node
  len : n ≤ s.calls.length
  calls : ∀ (h : Nat) x, n ≤ h → s.calls[h]? = some x → x.pc = .askU ∨ x.pc = .returned false

theorem Over.step {n s} (t : Over n s) (a : SendAct) : Over n (s.step answer a) := by
  cases a with
  | node a => exact ⟨t.node.step a, t.len, t.calls⟩
  | send b to d =>
    refine ⟨t.node, ?_, fun h x hn hx => ?_⟩
    · have := t.len
      simp only [SendSt.step, List.length_append, List.length_singleton]
      omega
    · simp only [SendSt.step] at hx
      rw [List.getElem?_append] at hx
      split at hx
      · exact t.calls h x hn hx
      · have : x = ⟨b, to, d, .askU⟩ := by simpa using List.mem_of_getElem? hx
        rw [this]; exact .inl rfl
  | go k ok =>
    cases hy : s.calls[k]? with
    | none => simp only [SendSt.step, hy]; exact t
    | some y =>
      have hlt := (List.getElem?_eq_some_iff.mp hy).1
      refine ⟨by rw [go_node]; exact t.node, ?_, fun h x hn hx => ?_⟩
      · have h2 := congrArg List.length (asked_step (answer := answer) s (.go k ok))
        simp [asked] at h2
        rw [h2]; exact t.len
      · rw [go_of hy] at hx
        by_cases hk : k = h
        · subst hk
          rcases t.calls k y hn hy with e | e
          · simp only [SendSt.stepCall, e, t.node.ucast, SendSt.goto] at hx
            rw [List.getElem?_set_self hlt] at hx
            cases hx
            exact .inr rfl
          · simp only [SendSt.stepCall, e] at hx
            rw [hy] at hx; cases hx; exact .inr e
        · refine t.calls h x hn ?_
          rcases stepCall_cases s k y ok with ⟨p, -, e, -⟩ | ⟨w, e, -⟩ | ⟨b, -, e⟩ <;> rw [e] at hx
          · simp only [SendSt.goto] at hx; rwa [List.getElem?_set_ne hk] at hx
          · simp only [SendSt.post] at hx; rwa [List.getElem?_set_ne hk] at hx
          · exact hx

/-! ## The steps of a call -/

/-- How many steps a call still makes at most, with `n` servers. -/
def stepsLeft (n : Nat) : SendPc → Nat
  | .askU => 5 * n + 4
  | .askM => 5 * n + 3
  | .take => 5 * n + 2
  | .next rest => 5 * rest.length + 1
  | .tcp _ rest => 5 * rest.length + 5
  | .check _ rest => 5 * rest.length + 4
  | .load _ rest => 5 * rest.length + 3
  | .write _ rest => 5 * rest.length + 2
  | .dial rest => 5 * rest.length + 2
  | .returned _ => 0

theorem stepCall_left {n} {s : SendSt} (hu : s.node.ucast.length ≤ n) {h : Nat} {x : Sending} (hx : s.calls[h]? = some x)
    (ok : Bool) : ∃ y, (s.stepCall h x ok).calls[h]? = some y ∧ stepsLeft n y.pc ≤ stepsLeft n x.pc - 1 := by
  have hlt := (List.getElem?_eq_some_iff.mp hx).1
  have goto : ∀ p, stepsLeft n p ≤ stepsLeft n x.pc - 1 → s.stepCall h x ok = s.goto h x p →
      ∃ y, (s.stepCall h x ok).calls[h]? = some y ∧ stepsLeft n y.pc ≤ stepsLeft n x.pc - 1 := by
    intro p hp e
    exact ⟨⟨x.announce, x.to, x.data, p⟩, by rw [e]; simp only [SendSt.goto]; rw [List.getElem?_set_self hlt], hp⟩
  have post : ∀ w, s.stepCall h x ok = s.post h x w →
      ∃ y, (s.stepCall h x ok).calls[h]? = some y ∧ stepsLeft n y.pc ≤ stepsLeft n x.pc - 1 := by
    intro w e
    exact ⟨⟨x.announce, x.to, x.data, .returned true⟩, by rw [e]; simp only [SendSt.post]; rw [List.getElem?_set_self hlt],
      Nat.zero_le _⟩
  cases hp : x.pc with
  | askU =>
    refine hp ▸ goto (if s.node.ucast.length ≠ 0 then .askM else .returned false) ?_ (by simp only [SendSt.stepCall, hp])
    rw [hp]; split <;> simp only [stepsLeft] <;> omega
  | askM =>
    refine hp ▸ goto (if s.node.mcast.length ≠ 0 then .take else .returned false) ?_ (by simp only [SendSt.stepCall, hp])
    rw [hp]; split <;> simp only [stepsLeft] <;> omega
  | take =>
    refine hp ▸ goto (.next s.node.ucast) ?_ (by simp only [SendSt.stepCall, hp])
    rw [hp]; simp only [stepsLeft]; omega
  | next rest =>
    cases rest with
    | nil =>
      refine hp ▸ goto (.returned false) ?_ (by simp only [SendSt.stepCall, hp])
      exact Nat.zero_le _
    | cons j rest =>
      refine hp ▸ goto (if !x.announce && s.hasTcp j then .tcp j rest else .check j rest) ?_
        (by simp only [SendSt.stepCall, hp])
      rw [hp]; split <;> simp only [stepsLeft, List.length_cons] <;> omega
  | tcp j rest =>
    cases ok with
    | true => exact hp ▸ post .tcp (by simp only [SendSt.stepCall, hp]; rfl)
    | false =>
      refine hp ▸ goto (.check j rest) ?_ (by simp only [SendSt.stepCall, hp]; rfl)
      rw [hp]; simp only [stepsLeft]; omega
  | check j rest =>
    refine hp ▸ goto (if s.node.hasConn j then .load j rest else .dial rest) ?_ (by simp only [SendSt.stepCall, hp])
    rw [hp]; split <;> simp only [stepsLeft] <;> omega
  | load j rest =>
    refine hp ▸ goto (if s.node.hasConn j then .write j rest else .next rest) ?_ (by simp only [SendSt.stepCall, hp])
    rw [hp]; split <;> simp only [stepsLeft] <;> omega
  | write j rest =>
    cases e : s.node.hasOpen j && ok with
    | true => exact hp ▸ post (.bound j) (by simp only [SendSt.stepCall, hp, e]; rfl)
    | false =>
      refine hp ▸ goto (.next rest) ?_ (by simp only [SendSt.stepCall, hp, e]; rfl)
      rw [hp]; simp only [stepsLeft]; omega
  | dial rest =>
    cases ok with
    | true => exact hp ▸ post .fresh (by simp only [SendSt.stepCall, hp]; rfl)
    | false =>
      refine hp ▸ goto (.next rest) ?_ (by simp only [SendSt.stepCall, hp]; rfl)
      rw [hp]; simp only [stepsLeft]; omega
  | returned b =>
    have e : s.stepCall h x ok = s := by simp only [SendSt.stepCall, hp]
    rw [e]
    exact ⟨x, hx, by rw [hp]; exact Nat.zero_le _⟩

theorem step_other {s : SendSt} {h : Nat} {x : Sending} (hx : s.calls[h]? = some x) (a : SendAct)
    (ha : ∀ ok, a ≠ .go h ok) : (s.step answer a).calls[h]? = some x := by
  have hlt := (List.getElem?_eq_some_iff.mp hx).1
  cases a with
  | node a => exact hx
  | send b t d =>
    simp only [SendSt.step]
    rw [List.getElem?_append_left hlt]; exact hx
  | go k ok =>
    cases hy : s.calls[k]? with
    | none => simp only [SendSt.step, hy]; exact hx
    | some y =>
      have hk : k ≠ h := fun e => ha ok (by rw [e])
      rw [go_of hy]
      rcases stepCall_cases s k y ok with ⟨p, -, e, -⟩ | ⟨w, e, -⟩ | ⟨b, -, e⟩ <;> rw [e]
      · simp only [SendSt.goto]; rwa [List.getElem?_set_ne hk]
      · simp only [SendSt.post]; rwa [List.getElem?_set_ne hk]
      · exact hx

theorem call_left {n} (later : List SendAct) : ∀ (s : SendSt) (h : Nat) (x : Sending), s.node.ucast.length ≤ n →
    s.calls[h]? = some x → (s.run answer later).node.crashed = false →
    ∃ y, (s.run answer later).calls[h]? = some y ∧ stepsLeft n y.pc ≤ stepsLeft n x.pc - turnsOf h later := by
  induction later with
  | nil => exact fun s h x _ hx _ => ⟨x, hx, by simp [turnsOf]⟩
  | cons a later ih =>
    intro s h x hu hx hc
    cases hcr : s.node.crashed with
    | true => rw [srun_crashed _ _ hcr, hcr] at hc; cases hc
    | false =>
      rw [srun_cons _ _ _ hcr] at hc ⊢
      have hu' : (s.step answer a).node.ucast.length ≤ n := by
        cases a with
        | node a => exact Nat.le_trans (lists_step (answer := answer) s.node a).2 hu
        | send b t d => exact hu
        | go k ok => rw [go_node]; exact hu
      by_cases ha : ∃ ok, a = .go h ok
      · obtain ⟨ok, rfl⟩ := ha
        obtain ⟨y, hy, hle⟩ := stepCall_left hu hx ok
        obtain ⟨z, hz, hle'⟩ := ih (s.step answer (.go h ok)) h y hu' (by rw [go_of hx]; exact hy) hc
        refine ⟨z, hz, ?_⟩
        have : turnsOf h (.go h ok :: later) = turnsOf h later + 1 := by
          unfold turnsOf; rw [List.countP_cons]; simp
        rw [this]
        omega
      · obtain ⟨z, hz, hle⟩ := ih (s.step answer a) h x hu' (step_other hx a fun ok e => ha ⟨ok, e⟩) hc
        refine ⟨z, hz, ?_⟩
        have : turnsOf h (a :: later) = turnsOf h later := by
          unfold turnsOf
          rw [List.countP_cons]
          cases a with
          | node a => simp
          | send b t d => simp
          | go k ok => simp only [Nat.add_eq_left, ite_eq_right_iff, beq_iff_eq]; exact fun e => absurd ⟨ok, by rw [e]⟩ ha
        rw [this]; exact hle


/-- Every call is within the bound on its steps. -/
def Good (n : Nat) (s : SendSt) : Prop := ∀ x ∈ s.calls, stepsLeft n x.pc ≤ 4 + 5 * n

theorem good_run {n : Nat} {s : SendSt} (hu : s.node.ucast.length ≤ n) (hg : Good n s) (acts : List SendAct) :
    Good n (s.run answer acts) := by
  have : s.node.ucast.length ≤ n ∧ Good n s → (s.run answer acts).node.ucast.length ≤ n ∧ Good n (s.run answer acts) := by
    refine srun_inv (fun s => s.node.ucast.length ≤ n ∧ Good n s) (fun s a ⟨hu, hg⟩ _ => ?_) s acts
    cases a with
    | node a => exact ⟨Nat.le_trans (lists_step (answer := answer) s.node a).2 hu, hg⟩
    | send b t d =>
      refine ⟨hu, fun x hx => ?_⟩
      rcases List.mem_append.mp hx with hx | hx
      · exact hg x hx
      · rw [List.mem_singleton.mp hx]; simp only [stepsLeft]; omega
    | go k ok =>
      refine ⟨by rw [go_node]; exact hu, fun x hx => ?_⟩
      cases hy : s.calls[k]? with
      | none => simp only [SendSt.step, hy] at hx; exact hg x hx
      | some y =>
        rw [go_of hy] at hx
        obtain ⟨z, hz, hle⟩ := stepCall_left hu hy ok
        obtain ⟨m, hm, e⟩ := List.mem_iff_getElem.mp hx
        by_cases hk : m = k
        · subst hk
          rw [List.getElem?_eq_getElem hm, e] at hz
          cases hz
          have := hg y (List.mem_of_getElem? hy)
          omega
        · have hx' : (s.stepCall k y ok).calls[m]? = some x := by rw [List.getElem?_eq_getElem hm, e]
          refine hg x ?_
          rcases stepCall_cases s k y ok with ⟨p, -, e', -⟩ | ⟨w, e', -⟩ | ⟨b, -, e'⟩ <;> rw [e'] at hx'
          · simp only [SendSt.goto] at hx'
            rw [List.getElem?_set_ne (Ne.symm hk)] at hx'; exact List.mem_of_getElem? hx'
          · simp only [SendSt.post] at hx'
            rw [List.getElem?_set_ne (Ne.symm hk)] at hx'; exact List.mem_of_getElem? hx'
          · exact List.mem_of_getElem? hx'
  exact (this ⟨hu, hg⟩).2

/-- Without `Stop` the list of multicast servers stays. -/
theorem mcast_noStop {tcps links} (acts) (h : RunAct.stop ∉ acts) :
    ((RunSt.starting tcps links).run answer acts).mcast = (RunSt.starting tcps links).mcast := by
  have key : ∀ (s : RunSt) (acts : List RunAct), .stop ∉ acts →
      (∃ p, s.calls = [p] ∧ ∀ x ∈ p, ∃ i j, x = .link i j) → (s.run answer acts).mcast = s.mcast := by
    intro s acts
    induction acts generalizing s with
    | nil => intro _ _; rfl
    | cons a acts ih =>
      intro h hp
      cases hc : s.crashed with
      | true => rw [run_crashed _ _ hc]
      | false =>
        rw [run_cons _ _ _ hc]
        have hrest : RunAct.stop ∉ acts := fun hh => h (List.mem_cons_of_mem _ hh)
        obtain ⟨p, hp, hl⟩ := hp
        rcases env_or a with ha | rfl | ⟨k, rfl⟩
        · obtain ⟨e1, e2, -⟩ := step_env (answer := answer) s ha
          rw [ih _ hrest ⟨p, by rw [e1, hp], hl⟩, e2]
        · exact absurd List.mem_cons_self h
        · rcases step_call (answer := answer) s k with ⟨i, rest, hk, e⟩ | ⟨-, e⟩
          · rw [hp] at hk
            cases k with
            | succ k => simp at hk
            | zero =>
              have hk' : p = i :: rest := by simpa using hk
              subst hk'
              obtain ⟨a, b, rfl⟩ := hl i List.mem_cons_self
              rw [e, ih _ hrest ⟨rest, ?_, fun x hx => hl x (List.mem_cons_of_mem _ hx)⟩]
              · rfl
              · show s.calls.set 0 rest = [rest]
                rw [hp]; rfl
          · rw [e]; exact ih s hrest ⟨p, hp, hl⟩
  refine key _ _ h ⟨_, rfl, fun x hx => ?_⟩
  obtain ⟨k, hk, rfl⟩ := List.mem_mapIdx.mp hx
  exact ⟨_, _, rfl⟩

end Verif.Lemmas.SendRace
