import Verif.Lemmas.Shutdown

/-! # Lemmas about runs of the machine of a running node -/

namespace Verif.Lemmas

open Verif.Model

variable {answer : List Message → Message → Option Message}

namespace Shut

/-- How many steps an instruction can lead to, with at most `M` multicast and `U` unicast servers. -/
def cost (M U : Nat) : Instr → Nat
  | .takeM => 1 + 3 * M
  | .takeU => 1 + 6 * U
  | .close _ => 3
  | .clear _ => 2
  | _ => 1

def weight (M U : Nat) (p : List Instr) : Nat := (p.map (cost M U)).sum

theorem weight_nil (M U) : weight M U [] = 0 := rfl

theorem weight_cons (M U x p) : weight M U (x :: p) = cost M U x + weight M U p := rfl

theorem weight_append (M U p q) : weight M U (p ++ q) = weight M U p + weight M U q := by
  simp [weight]

theorem weight_zero {M U p} (h : weight M U p = 0) : p = [] := by
  cases p with
  | nil => rfl
  | cons x p =>
    rw [weight_cons] at h
    cases x <;> simp only [cost] at h <;> omega

theorem weight_exec (s : RunSt) {M U rest i} (hM : s.mcast.length ≤ M) (hU : s.ucast.length ≤ U) :
    weight M U (s.exec rest i).2 + 1 ≤ weight M U (i :: rest) := by
  rw [weight_cons]
  cases i <;> simp only [RunSt.exec, cost]
  case takeM =>
    rw [weight_append]
    have : ∀ l : List Nat, weight M U (l.map Instr.close) = 3 * l.length := by
      intro l
      induction l with
      | nil => rfl
      | cons a l ih => simp only [List.map_cons, weight_cons, cost, List.length_cons] at *; omega
    have := this s.mcast
    omega
  case takeU =>
    rw [weight_append]
    have : ∀ (l : List Nat) (f : Nat → Bool), weight M U (l.flatMap fun i => [Instr.halt i, .close i] ++
        if f i then [.haltTcp i, .shutTcp i] else []) ≤ 6 * l.length := by
      intro l f
      induction l with
      | nil => exact Nat.le_refl 0
      | cons a l ih =>
        rw [List.flatMap_cons, weight_append]
        have : weight M U ([Instr.halt a, .close a] ++ if f a then [.haltTcp a, .shutTcp a] else []) ≤ 6 := by
          split <;> simp [weight, cost]
        rw [List.length_cons]
        omega
    have := this s.ucast (fun i => ((s.servers[i]?).map (·.tcp)).getD false)
    omega
  case close n =>
    split
    · simp only [weight_cons, cost]; omega
    · omega
  case halt n => split <;> dsimp only <;> omega
  case haltTcp n => split <;> dsimp only <;> omega
  case clear n => simp only [weight_cons, cost]; omega
  all_goals omega

/-- The server lists do not grow. -/
theorem lists_step (s : RunSt) (a) :
    (s.step answer a).mcast.length ≤ s.mcast.length ∧ (s.step answer a).ucast.length ≤ s.ucast.length := by
  rcases env_or a with ha | rfl | ⟨k, rfl⟩
  · obtain ⟨-, e2, e3, -, -, -⟩ := step_env (answer := answer) s ha
    rw [e2, e3]; exact ⟨Nat.le_refl _, Nat.le_refl _⟩
  · exact ⟨Nat.le_refl _, Nat.le_refl _⟩
  · rcases step_call (answer := answer) s k with ⟨i, rest, hk, e⟩ | ⟨-, e⟩
    · rw [e]
      obtain ⟨-, -, -, -, -, -, e2, e3, -⟩ := exec_frame s rest i
      dsimp only
      constructor
      · rcases e2 with e | ⟨-, e⟩ <;> rw [e] <;> simp
      · rcases e3 with e | ⟨-, e⟩ <;> rw [e] <;> simp
    · rw [e]; exact ⟨Nat.le_refl _, Nat.le_refl _⟩

/-- A call makes a bounded number of steps. -/
theorem call_progress {M U k : Nat} (acts) (s : RunSt) {p} (hM : s.mcast.length ≤ M) (hU : s.ucast.length ≤ U)
    (hk : s.calls[k]? = some p) (hc : (s.run answer acts).crashed = false) :
    ∃ p', (s.run answer acts).calls[k]? = some p' ∧
      (p' = [] ∨ weight M U p' + acts.count (.call k) ≤ weight M U p) := by
  induction acts generalizing s p with
  | nil => exact ⟨p, hk, .inr (by simp)⟩
  | cons a acts ih =>
    have hcr : s.crashed = false := by
      cases h : s.crashed with
      | false => rfl
      | true => rw [run_crashed _ _ h, h] at hc; cases hc
    rw [run_cons _ _ _ hcr] at hc ⊢
    obtain ⟨l1, l2⟩ := lists_step (answer := answer) s a
    have hM' := Nat.le_trans l1 hM
    have hU' := Nat.le_trans l2 hU
    rcases env_or a with ha | rfl | ⟨k', rfl⟩
    · obtain ⟨e1, -⟩ := step_env (answer := answer) s ha
      obtain ⟨p', hp', h⟩ := ih _ hM' hU' (by rw [e1]; exact hk) hc
      refine ⟨p', hp', h.imp_right fun h => ?_⟩
      rw [List.count_cons_of_ne (ha.2 k)]; exact h
    · obtain ⟨p', hp', h⟩ := ih _ hM' hU' (p := p)
        (by simp only [RunSt.step]; rw [List.getElem?_append_left (List.getElem?_eq_some_iff.mp hk).1]; exact hk) hc
      refine ⟨p', hp', h.imp_right fun h => ?_⟩
      rw [List.count_cons_of_ne (by simp)]; exact h
    · rcases step_call (answer := answer) s k' with ⟨i, rest, hk', e⟩ | ⟨hn, e⟩
      · obtain ⟨e1, -⟩ := exec_frame s rest i
        by_cases hkk : k' = k
        · subst hkk
          rw [hk] at hk'
          cases hk'
          have := weight_exec s (rest := rest) (i := i) hM hU
          obtain ⟨p', hp', h⟩ := ih _ hM' hU' (p := (s.exec rest i).2)
            (by rw [e]; dsimp only; rw [e1, List.getElem?_set_self (List.getElem?_eq_some_iff.mp hk).1]) hc
          refine ⟨p', hp', h.imp_right fun h => ?_⟩
          rw [List.count_cons_self]; omega
        · obtain ⟨p', hp', h⟩ := ih _ hM' hU' (p := p)
            (by rw [e]; dsimp only; rw [e1, List.getElem?_set_ne hkk]; exact hk) hc
          refine ⟨p', hp', h.imp_right fun h => ?_⟩
          rw [List.count_cons_of_ne (by simpa using hkk)]; exact h
      · rw [e] at hc hM' hU' ⊢
        obtain ⟨p', hp', h⟩ := ih s hM' hU' hk hc
        refine ⟨p', hp', ?_⟩
        by_cases hkk : k' = k
        · subst hkk
          rw [hk] at hn
          have hp : p = [] := by simpa using hn
          subst hp
          rcases h with h | h
          · exact .inl h
          · rw [weight_nil] at h
            exact .inl (weight_zero (M := M) (U := U) (by omega))
        · refine h.imp_right fun h => ?_
          rw [List.count_cons_of_ne (by simpa using hkk)]; exact h

theorem call_returns {M U k : Nat} (acts) (s : RunSt) {p} (hM : s.mcast.length ≤ M) (hU : s.ucast.length ≤ U)
    (hk : s.calls[k]? = some p) (hc : (s.run answer acts).crashed = false)
    (hn : weight M U p ≤ acts.count (.call k)) : (s.run answer acts).calls[k]? = some [] := by
  obtain ⟨p', hp', h⟩ := call_progress acts s hM hU hk hc
  rw [hp']
  rcases h with rfl | h
  · rfl
  · rw [weight_zero (M := M) (U := U) (p := p') (by omega)]

/-- The servers a program halts. -/
def halts (p : List Instr) : List Nat := p.filterMap fun x => match x with | .halt i => some i | _ => none

/-- The servers whose TCP a program halts. -/
def tcps (p : List Instr) : List Nat := p.filterMap fun x => match x with | .haltTcp i => some i | _ => none

/-- Nothing a program halts has been halted. -/
structure Ready (s : RunSt) (p : List Instr) : Prop where
  nodup : (halts p).Nodup
  nodupT : (tcps p).Nodup
  stopped : ∀ i ∈ halts p, fld s (·.stopped) i = false
  tcpStopped : ∀ i ∈ tcps p, fld s (·.tcpStopped) i = false

/-- No server in the list has been halted. -/
structure Fresh (s : RunSt) : Prop where
  nodup : s.ucast.Nodup
  flags : ∀ i ∈ s.ucast, fld s (·.stopped) i = false ∧ fld s (·.tcpStopped) i = false

/-- At most one call is under way and nothing will be halted twice. -/
structure Calm (s : RunSt) : Prop where
  up : s.crashed = false
  phase : ∀ p ∈ s.calls, Phase p
  one : ∀ (k k' : Nat) p p', s.calls[k]? = some p → s.calls[k']? = some p' → p ≠ [] → p' ≠ [] → k = k'
  ready : ∀ p ∈ s.calls, Ready s p
  fresh : Fresh s ∨ ∃ p ∈ s.calls, .forgetU ∈ p ∧ .takeU ∉ p

theorem ready_nil (s : RunSt) : Ready s [] := ⟨by simp [halts], by simp [tcps], by simp [halts], by simp [tcps]⟩

theorem fld_congr {s s' : RunSt} {f} (h : ∀ i : Nat, (s'.servers[i]?).map f = (s.servers[i]?).map f) (i : Nat) :
    fld s' f i = fld s f i := by
  unfold fld; rw [h]

theorem onServer_map (s : RunSt) (i : Nat) (g : Live → Live) (f : Live → Bool) (h : ∀ v, f (g v) = f v) (j : Nat) :
    ((s.onServer i g).servers[j]?).map f = (s.servers[j]?).map f := by
  rw [get_onServer, Option.map_map]
  congr 1
  funext v
  dsimp only [Function.comp]
  split
  · exact h v
  · rfl

theorem fld_same (s : RunSt) (i : Nat) (g : Live → Live) (f : Live → Bool) (j : Nat) (h : ∀ v, f (g v) = f v) :
    fld (s.onServer i g) f j = fld s f j := fld_congr (onServer_map s i g f h) j

/-- Only `halt` and `haltTcp` change the channels. -/
theorem exec_flags (s : RunSt) (rest i) (h1 : ∀ n, i ≠ .halt n) (h2 : ∀ n, i ≠ .haltTcp n) (j : Nat) :
    fld (s.exec rest i).1 (·.stopped) j = fld s (·.stopped) j ∧
    fld (s.exec rest i).1 (·.tcpStopped) j = fld s (·.tcpStopped) j ∧
    (s.exec rest i).1.crashed = s.crashed := by
  cases i
  case halt n => exact absurd rfl (h1 n)
  case haltTcp n => exact absurd rfl (h2 n)
  case clear n =>
    simp only [RunSt.exec]
    refine ⟨fld_same _ _ _ _ _ ?_, fld_same _ _ _ _ _ ?_, rfl⟩ <;> exact fun _ => rfl
  case shut n =>
    simp only [RunSt.exec]
    refine ⟨fld_same _ _ _ _ _ ?_, fld_same _ _ _ _ _ ?_, rfl⟩ <;> exact fun _ => rfl
  case shutTcp n =>
    simp only [RunSt.exec]
    refine ⟨fld_same _ _ _ _ _ ?_, fld_same _ _ _ _ _ ?_, rfl⟩ <;> exact fun _ => rfl
  case link n m =>
    simp only [RunSt.exec]
    refine ⟨fld_same _ _ _ _ _ ?_, fld_same _ _ _ _ _ ?_, rfl⟩ <;> exact fun _ => rfl
  all_goals exact ⟨rfl, rfl, rfl⟩

theorem exec_halts (s : RunSt) (rest i) (h : i ≠ .takeU) :
    halts (s.exec rest i).2 = halts rest ∧ tcps (s.exec rest i).2 = tcps rest := by
  cases i <;> simp only [RunSt.exec]
  case takeU => exact absurd rfl h
  case takeM =>
    have : ∀ l : List Nat, halts (l.map Instr.close ++ rest) = halts rest ∧ tcps (l.map Instr.close ++ rest) = tcps rest := by
      intro l
      induction l with
      | nil => exact ⟨rfl, rfl⟩
      | cons a l ih => exact ih
    exact this _
  all_goals first | exact ⟨rfl, rfl⟩ | (split <;> exact ⟨rfl, rfl⟩) | trivial

theorem exec_takeU_not (s : RunSt) (rest i) (h : .takeU ∉ rest) : .takeU ∉ (s.exec rest i).2 := by
  intro hm
  apply h
  cases i <;> simp only [RunSt.exec] at hm
  case takeM => simpa using hm
  case takeU =>
    rcases List.mem_append.mp hm with h | h
    · obtain ⟨n, -, h⟩ := List.mem_flatMap.mp h
      simp at h
    · exact h
  all_goals first | exact hm | (split at hm <;> simpa using hm) | simpa using hm

theorem halts_takeU (s : RunSt) :
    halts (s.exec [.forgetU] .takeU).2 = s.ucast ∧ (tcps (s.exec [.forgetU] .takeU).2).Sublist s.ucast := by
  simp only [RunSt.exec]
  generalize hf : (fun i : Nat => ((s.servers[i]?).map (·.tcp)).getD false) = f
  have hf' : ∀ i : Nat, ((s.servers[i]?).map (·.tcp)).getD false = f i := fun i => congrFun hf i
  simp only [hf']
  generalize s.ucast = l
  induction l with
  | nil => exact ⟨rfl, List.Sublist.refl _⟩
  | cons a l ih =>
    rw [List.flatMap_cons, List.append_assoc]
    unfold halts tcps at *
    cases f a with
    | true =>
      refine ⟨?_, ?_⟩
      · simpa using ih.1
      · simpa using ih.2
    | false =>
      refine ⟨?_, ?_⟩
      · simpa using ih.1
      · refine List.Sublist.cons a ?_
        simpa using ih.2

theorem phase_halt {rest i} (h : Phase (i :: rest)) (hi : (∃ n, i = .halt n) ∨ ∃ n, i = .haltTcp n) :
    .forgetU ∈ rest ∧ .takeU ∉ rest := by
  generalize hp : i :: rest = p at h
  cases h with
  | links h =>
    subst hp; obtain ⟨a, b, e⟩ := h _ List.mem_cons_self
    rcases hi with ⟨n, rfl⟩ | ⟨n, rfl⟩ <;> cases e
  | first =>
    rw [RunSt.stopProgram, List.cons.injEq] at hp
    rcases hi with ⟨n, rfl⟩ | ⟨n, rfl⟩ <;> cases hp.1
  | @mcast cs h =>
    cases cs with
    | nil =>
      rw [List.nil_append, List.cons.injEq] at hp
      rcases hi with ⟨n, rfl⟩ | ⟨n, rfl⟩ <;> cases hp.1
    | cons c cs =>
      rw [List.cons_append, List.cons.injEq] at hp
      obtain ⟨n, e⟩ := h c List.mem_cons_self
      rw [← hp.1] at e
      rcases hi with ⟨m, rfl⟩ | ⟨m, rfl⟩ <;> rcases e with e | e | e <;> cases e
  | mid =>
    rw [List.cons.injEq] at hp
    rcases hi with ⟨n, rfl⟩ | ⟨n, rfl⟩ <;> cases hp.1
  | @ucast q h =>
    cases q with
    | nil =>
      rw [List.nil_append, List.cons.injEq] at hp
      rcases hi with ⟨n, rfl⟩ | ⟨n, rfl⟩ <;> cases hp.1
    | cons c cs =>
      rw [List.cons_append, List.cons.injEq] at hp
      rw [hp.2]
      refine ⟨by simp, fun hm => ?_⟩
      rcases List.mem_append.mp hm with hm | hm
      · rcases h _ (List.mem_cons_of_mem _ hm) with ⟨n, e | e | e⟩ | ⟨n, e | e | e⟩ <;> cases e
      · simp at hm

theorem Calm.env {s s' : RunSt} (h : Calm s) (e1 : s'.calls = s.calls) (e3 : s'.ucast = s.ucast)
    (e4 : s'.crashed = s.crashed) (hf : ∀ i, fld s' (·.stopped) i = fld s (·.stopped) i)
    (hf' : ∀ i, fld s' (·.tcpStopped) i = fld s (·.tcpStopped) i) : Calm s' where
  up := e4.trans h.up
  phase := by rw [e1]; exact h.phase
  one := by rw [e1]; exact h.one
  ready p hp := by
    have := h.ready p (e1 ▸ hp)
    exact ⟨this.nodup, this.nodupT, fun i hi => (hf i).trans (this.stopped i hi),
      fun i hi => (hf' i).trans (this.tcpStopped i hi)⟩
  fresh := by
    rw [e1]
    refine h.fresh.imp_left fun hh => ⟨by rw [e3]; exact hh.nodup, fun i hi => ?_⟩
    rw [hf, hf']; exact hh.flags i (e3 ▸ hi)

theorem Calm.stop {s : RunSt} (h : Calm s) (hr : ∀ p ∈ s.calls, p = []) :
    Calm { s with calls := s.calls ++ [RunSt.stopProgram] } where
  up := h.up
  phase p hp := by
    rcases List.mem_append.mp hp with hp | hp
    · exact h.phase p hp
    · rw [List.mem_singleton.mp hp]; exact .first
  one k k' p p' hk hk' hp hp' := by
    have key : ∀ (k : Nat) (p : List Instr), (s.calls ++ [RunSt.stopProgram])[k]? = some p → p ≠ [] → k = s.calls.length := by
      intro k p hk hp
      rcases Nat.lt_trichotomy k s.calls.length with h | h | h
      · rw [List.getElem?_append_left h] at hk
        exact absurd (hr p (List.mem_of_getElem? hk)) hp
      · exact h
      · have : (s.calls ++ [RunSt.stopProgram])[k]? = none := List.getElem?_eq_none (by simp; omega)
        rw [this] at hk; cases hk
    rw [key k p hk hp, key k' p' hk' hp']
  ready p hp := by
    rcases List.mem_append.mp hp with hp | hp
    · have := h.ready p hp
      exact ⟨this.nodup, this.nodupT, this.stopped, this.tcpStopped⟩
    · rw [List.mem_singleton.mp hp]
      exact ⟨by simp [halts, RunSt.stopProgram], by simp [tcps, RunSt.stopProgram],
        by simp [halts, RunSt.stopProgram], by simp [tcps, RunSt.stopProgram]⟩
  fresh := by
    left
    rcases h.fresh with h | ⟨p, hp, hf, -⟩
    · exact ⟨h.nodup, h.flags⟩
    · rw [hr p hp] at hf; exact absurd hf List.not_mem_nil

theorem halts_cons_halt (n rest) : halts (.halt n :: rest) = n :: halts rest := rfl
theorem tcps_cons_haltTcp (n rest) : tcps (.haltTcp n :: rest) = n :: tcps rest := rfl

theorem fld_ne (s : RunSt) (f g i j) (h : i ≠ j) : fld (s.onServer i g) f j = fld s f j := by
  rw [fld_onServer, if_neg h]

theorem Calm.call {s : RunSt} (h : Calm s) {k : Nat} {i rest} (hk : s.calls[k]? = some (i :: rest)) :
    Calm { (s.exec rest i).1 with calls := (s.exec rest i).1.calls.set k (s.exec rest i).2 } := by
  obtain ⟨e1, -, -, -, -, -, -, e3, -⟩ := exec_frame s rest i
  have hmem : i :: rest ∈ s.calls := List.mem_of_getElem? hk
  have hlt := (List.getElem?_eq_some_iff.mp hk).1
  have hph := h.phase _ hmem
  have hrd := h.ready _ hmem
  have others : ∀ p ∈ s.calls.set k (s.exec rest i).2, p = [] ∨ p = (s.exec rest i).2 := by
    intro p hp
    obtain ⟨n, hn, e⟩ := List.mem_iff_getElem.mp hp
    have hn' : n < s.calls.length := by simpa using hn
    by_cases hkn : k = n
    · subst hkn; right; rw [← e]; simp
    · left
      rw [List.getElem_set_ne hkn] at e
      cases hp0 : p with
      | nil => rfl
      | cons x xs =>
        have := h.one k n _ p hk (by rw [List.getElem?_eq_getElem hn', e]) (by simp) (by simp [hp0])
        exact absurd this hkn
  have one' : ∀ (k1 k2 : Nat) p p', (s.calls.set k (s.exec rest i).2)[k1]? = some p →
      (s.calls.set k (s.exec rest i).2)[k2]? = some p' → p ≠ [] → p' ≠ [] → k1 = k2 := by
    have key : ∀ (k1 : Nat) p, (s.calls.set k (s.exec rest i).2)[k1]? = some p → p ≠ [] → k = k1 := by
      intro k1 p hk1 hp
      by_cases hkk : k = k1
      · exact hkk
      · rw [List.getElem?_set_ne hkk] at hk1
        exact h.one k k1 _ p hk hk1 (by simp) hp
    intro k1 k2 p p' h1 h2 hp hp'
    rw [← key k1 p h1 hp, ← key k2 p' h2 hp']
  have phase' : ∀ p ∈ s.calls.set k (s.exec rest i).2, Phase p := by
    intro p hp
    rcases List.mem_or_eq_of_mem_set hp with hp | rfl
    · exact h.phase p hp
    · exact phase_exec s hph
  -- only this call can be past taking the list
  have freshNow : .takeU ∈ i :: rest → Fresh s := by
    intro ht
    rcases h.fresh with h' | ⟨p, hp, hf, hn⟩
    · exact h'
    · obtain ⟨n, hn', e⟩ := List.mem_iff_getElem.mp hp
      have := h.one k n _ p hk (by rw [List.getElem?_eq_getElem hn', e]) (by simp) (by rintro rfl; simp at hf)
      subst this
      rw [List.getElem?_eq_getElem hn', e] at hk
      cases hk
      exact absurd ht hn
  by_cases hh : (∃ n, i = .halt n) ∨ ∃ n, i = .haltTcp n
  · obtain ⟨hf, hn⟩ := phase_halt hph hh
    rcases hh with ⟨n, rfl⟩ | ⟨n, rfl⟩
    · have hs : ((s.servers[n]?).map (·.stopped)).getD false = false :=
        hrd.stopped n (by rw [halts_cons_halt]; exact List.mem_cons_self)
      have hnd := hrd.nodup
      rw [halts_cons_halt, List.nodup_cons] at hnd
      have ex : s.exec rest (.halt n) = (s.onServer n (fun v => { v with stopped := true }), rest) := by
        simp only [RunSt.exec, hs]; rfl
      rw [ex] at others one' phase' e1 ⊢
      dsimp only at others one' phase' e1 ⊢
      refine ⟨h.up, by dsimp only; rw [e1]; exact phase', by dsimp only; rw [e1]; exact one', fun p hp => ?_,
        .inr ⟨rest, by dsimp only; rw [e1]; exact mem_set_self hk, hf, hn⟩⟩
      dsimp only at hp
      rw [e1] at hp
      rcases others p hp with rfl | rfl
      · exact ready_nil _
      · refine ⟨hnd.2, hrd.nodupT, fun j hj => ?_, fun j hj => ?_⟩
        · have : n ≠ j := by rintro rfl; exact hnd.1 hj
          exact (fld_ne s _ _ n j this).trans (hrd.stopped j (by rw [halts_cons_halt]; exact List.mem_cons_of_mem _ hj))
        · exact (fld_same s n (fun v => { v with stopped := true }) _ j (fun _ => rfl)).trans (hrd.tcpStopped j hj)
    · have hs : ((s.servers[n]?).map (·.tcpStopped)).getD false = false :=
        hrd.tcpStopped n (by rw [tcps_cons_haltTcp]; exact List.mem_cons_self)
      have hnd := hrd.nodupT
      rw [tcps_cons_haltTcp, List.nodup_cons] at hnd
      have ex : s.exec rest (.haltTcp n) = (s.onServer n (fun v => { v with tcpStopped := true }), rest) := by
        simp only [RunSt.exec, hs]; rfl
      rw [ex] at others one' phase' e1 ⊢
      dsimp only at others one' phase' e1 ⊢
      refine ⟨h.up, by dsimp only; rw [e1]; exact phase', by dsimp only; rw [e1]; exact one', fun p hp => ?_,
        .inr ⟨rest, by dsimp only; rw [e1]; exact mem_set_self hk, hf, hn⟩⟩
      dsimp only at hp
      rw [e1] at hp
      rcases others p hp with rfl | rfl
      · exact ready_nil _
      · refine ⟨hrd.nodup, hnd.2, fun j hj => ?_, fun j hj => ?_⟩
        · exact (fld_same s n (fun v => { v with tcpStopped := true }) _ j (fun _ => rfl)).trans (hrd.stopped j hj)
        · have : n ≠ j := by rintro rfl; exact hnd.1 hj
          exact (fld_ne s _ _ n j this).trans
            (hrd.tcpStopped j (by rw [tcps_cons_haltTcp]; exact List.mem_cons_of_mem _ hj))
  · have h1 : ∀ n, i ≠ .halt n := fun n e => hh (.inl ⟨n, e⟩)
    have h2 : ∀ n, i ≠ .haltTcp n := fun n e => hh (.inr ⟨n, e⟩)
    have hfl := exec_flags s rest i h1 h2
    refine ⟨(hfl 0).2.2.trans h.up, by dsimp only; rw [e1]; exact phase', by dsimp only; rw [e1]; exact one',
      fun p hp => ?_, ?_⟩
    · dsimp only at hp
      rw [e1] at hp
      rcases others p hp with rfl | rfl
      · exact ready_nil _
      · by_cases ht : i = .takeU
        · subst ht
          have hr := phase_takeU hph
          subst hr
          have hfr := freshNow List.mem_cons_self
          obtain ⟨a, b⟩ := halts_takeU s
          exact ⟨by rw [a]; exact hfr.nodup, b.nodup hfr.nodup,
            fun j hj => (hfr.flags j (a ▸ hj)).1, fun j hj => (hfr.flags j (b.subset hj)).2⟩
        · obtain ⟨a, b⟩ := exec_halts s rest i ht
          have sub1 : ∀ j, j ∈ halts rest → j ∈ halts (i :: rest) := by
            intro j hj
            unfold halts at *
            rw [List.filterMap_cons]
            split
            · exact hj
            · exact List.mem_cons_of_mem _ hj
          have sub2 : ∀ j, j ∈ tcps rest → j ∈ tcps (i :: rest) := by
            intro j hj
            unfold tcps at *
            rw [List.filterMap_cons]
            split
            · exact hj
            · exact List.mem_cons_of_mem _ hj
          refine ⟨?_, ?_, fun j hj => ?_, fun j hj => ?_⟩
          · rw [a]
            have := hrd.nodup
            unfold halts at *
            exact (((List.sublist_cons_self i rest).filterMap _).nodup this)
          · rw [b]
            have := hrd.nodupT
            unfold tcps at *
            exact (((List.sublist_cons_self i rest).filterMap _).nodup this)
          · exact (hfl j).1.trans (hrd.stopped j (sub1 j (a ▸ hj)))
          · exact (hfl j).2.1.trans (hrd.tcpStopped j (sub2 j (b ▸ hj)))
    · rcases e3 with e | ⟨rfl, e⟩
      · rcases h.fresh with hf | ⟨p, hp, hf, hn⟩
        · exact .inl ⟨by dsimp only; rw [e]; exact hf.nodup, fun j hj => by
            have := hf.flags j (e ▸ hj)
            exact ⟨(hfl j).1.trans this.1, (hfl j).2.1.trans this.2⟩⟩
        · obtain ⟨n, hn', ep⟩ := List.mem_iff_getElem.mp hp
          have := h.one k n _ p hk (by rw [List.getElem?_eq_getElem hn', ep]) (by simp) (by rintro rfl; simp at hf)
          subst this
          rw [List.getElem?_eq_getElem hn', ep] at hk
          cases hk
          by_cases hi : i = .forgetU
          · subst hi
            left
            exact ⟨by simp [RunSt.exec], by simp [RunSt.exec]⟩
          · right
            refine ⟨(s.exec rest i).2, by dsimp only; rw [e1]; exact mem_set_self (x := i :: rest) (by
              rw [List.getElem?_eq_getElem hn', ep]), ?_, ?_⟩
            · exact exec_keeps s rest i _ ((List.mem_cons.mp hf).resolve_left fun e => hi e.symm)
            · exact exec_takeU_not s rest i fun hm => hn (List.mem_cons_of_mem _ hm)
      · left
        exact ⟨by simp [RunSt.exec], by simp [RunSt.exec]⟩

theorem weaker_fld {s s' : RunSt} (hl : s'.servers.length = s.servers.length)
    (hv : ∀ (i : Nat) v', s'.servers[i]? = some v' → ∃ v, s.servers[i]? = some v ∧ Weaker v v') (i : Nat) :
    fld s' (·.stopped) i = fld s (·.stopped) i ∧ fld s' (·.tcpStopped) i = fld s (·.tcpStopped) i := by
  unfold fld
  cases h : s'.servers[i]? with
  | none =>
    have : s.servers[i]? = none := by
      rw [List.getElem?_eq_none_iff] at h ⊢; omega
    rw [this]; exact ⟨rfl, rfl⟩
  | some v' =>
    obtain ⟨v, e, w⟩ := hv i v' h
    rw [e]
    exact ⟨w.stopped, w.tcpStopped⟩

theorem Calm.step {s : RunSt} (h : Calm s) (a : RunAct) (ha : a = .stop → ∀ p ∈ s.calls, p = []) :
    Calm (s.step answer a) := by
  rcases env_or a with he | rfl | ⟨k, rfl⟩
  · obtain ⟨e1, -, e3, e4, e5, hv⟩ := step_env (answer := answer) s he
    exact h.env e1 e3 e4 (fun i => (weaker_fld e5 hv i).1) (fun i => (weaker_fld e5 hv i).2)
  · exact h.stop (ha rfl)
  · rcases step_call (answer := answer) s k with ⟨i, rest, hk, e⟩ | ⟨-, e⟩
    · rw [e]; exact h.call hk
    · rw [e]; exact h

theorem calm_starting (ts : List Bool) (links : List Nat) : Calm (RunSt.starting ts links) := by
  have hp : ∀ p ∈ (RunSt.starting ts links).calls, ∀ x ∈ p, ∃ i j, x = Instr.link i j := by
    intro p hp x hx
    rw [List.mem_singleton.mp hp] at hx
    obtain ⟨k, hk, rfl⟩ := List.mem_mapIdx.mp hx
    exact ⟨_, _, rfl⟩
  have hh : ∀ p ∈ (RunSt.starting ts links).calls, halts p = [] ∧ tcps p = [] := by
    intro p h
    constructor
    · refine List.filterMap_eq_nil_iff.mpr fun x hx => ?_
      obtain ⟨i, j, rfl⟩ := hp p h x hx; rfl
    · refine List.filterMap_eq_nil_iff.mpr fun x hx => ?_
      obtain ⟨i, j, rfl⟩ := hp p h x hx; rfl
  refine ⟨rfl, fun p h => .links (hp p h), fun k k' p p' hk hk' _ _ => ?_, fun p h => ?_, .inl ⟨List.nodup_range, ?_⟩⟩
  · have h1 := (List.getElem?_eq_some_iff.mp hk).1
    have h2 := (List.getElem?_eq_some_iff.mp hk').1
    simp [RunSt.starting] at h1 h2
    omega
  · obtain ⟨a, b⟩ := hh p h
    exact ⟨by rw [a]; exact List.nodup_nil, by rw [b]; exact List.nodup_nil, by simp [a], by simp [b]⟩
  · intro i _
    unfold fld
    cases h : (RunSt.starting ts links).servers[i]? with
    | none => exact ⟨rfl, rfl⟩
    | some v =>
      rcases starting_get ts links i v h with ⟨t, -, rfl⟩ | ⟨-, -, rfl⟩ <;> exact ⟨rfl, rfl⟩

end Shut

end Verif.Lemmas
