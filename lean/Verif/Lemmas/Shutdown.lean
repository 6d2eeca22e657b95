import Verif.Model.Shutdown

/-! # Lemmas about the machine of a running node -/

namespace Verif.Lemmas

open Verif.Model

variable {answer : List Message → Message → Option Message}

namespace Shut

/-- A field of a server which says yes or no. -/
def fld (s : RunSt) (f : Live → Bool) (i : Nat) : Bool := ((s.servers[i]?).map f).getD false

theorem hasConn_eq (s : RunSt) (i) : s.hasConn i = fld s (·.conn) i := rfl
theorem hasOpen_eq (s : RunSt) (i) : s.hasOpen i = fld s (·.isOpen) i := rfl

theorem fld_onServer (s : RunSt) (f g i j) :
    fld (s.onServer i g) f j = if i = j then ((s.servers[j]?).map (fun v => f (g v))).getD false else fld s f j := by
  unfold fld RunSt.onServer
  simp only [List.getElem?_modify]
  by_cases h : i = j
  · subst h; cases s.servers[i]? <;> simp
  · simp [h]

theorem get_onServer (s : RunSt) (g i j) :
    (s.onServer i g).servers[j]? = (s.servers[j]?).map (fun v => if i = j then g v else v) := by
  unfold RunSt.onServer
  simp only [List.getElem?_modify]
  by_cases h : i = j <;> simp [h]

theorem run_nil (s : RunSt) : s.run answer [] = s := rfl

theorem run_cons (s : RunSt) (a acts) (h : s.crashed = false) :
    s.run answer (a :: acts) = (s.step answer a).run answer acts := by
  show (if s.crashed then s else _) = _
  simp [h]

theorem run_crashed (s : RunSt) (acts) (h : s.crashed = true) : s.run answer acts = s := by
  cases acts with
  | nil => rfl
  | cons a acts => show (if s.crashed then s else _) = _; simp [h]

theorem run_append (s : RunSt) (as bs) : s.run answer (as ++ bs) = (s.run answer as).run answer bs := by
  induction as generalizing s with
  | nil => rfl
  | cons a as ih =>
    cases h : s.crashed with
    | true => rw [run_crashed _ _ h, run_crashed _ _ h, run_crashed _ _ h]
    | false => rw [List.cons_append, run_cons _ _ _ h, run_cons _ _ _ h, ih]

theorem run_inv (I : RunSt → Prop) (hstep : ∀ s a, I s → s.crashed = false → I (s.step answer a)) (s : RunSt)
    (acts) (h : I s) : I (s.run answer acts) := by
  induction acts generalizing s with
  | nil => exact h
  | cons a acts ih =>
    cases hc : s.crashed with
    | true => rw [run_crashed _ _ hc]; exact h
    | false => rw [run_cons _ _ _ hc]; exact ih _ (hstep s a h hc)

/-- An instruction of the closing of a socket. -/
def Closing (x : Instr) : Prop := ∃ i, x = .close i ∨ x = .clear i ∨ x = .shut i

/-- An instruction of the stopping of a unicast server. -/
def Halting (x : Instr) : Prop := Closing x ∨ ∃ i, x = .halt i ∨ x = .haltTcp i ∨ x = .shutTcp i

/-- Where a call can be. -/
inductive Phase : List Instr → Prop
  | links {p} : (∀ x ∈ p, ∃ i j, x = .link i j) → Phase p
  | first : Phase RunSt.stopProgram
  | mcast {cs} : (∀ x ∈ cs, Closing x) → Phase (cs ++ [.forgetM, .takeU, .forgetU])
  | mid : Phase [.takeU, .forgetU]
  | ucast {q} : (∀ x ∈ q, Halting x) → Phase (q ++ [.forgetU])

theorem closing_exec {s : RunSt} {i rest p q} (hi : Closing i) (e : (s.exec (rest ++ p) i).2 = q) :
    ∃ cs, q = cs ++ rest ++ p ∧ ∀ x ∈ cs, Closing x := by
  obtain ⟨n, rfl | rfl | rfl⟩ := hi
  · simp only [RunSt.exec] at e
    split at e
    · exact ⟨[.clear n], by simpa using e.symm, by simp [Closing]⟩
    · exact ⟨[], by simpa using e.symm, by simp⟩
  · exact ⟨[.shut n], by simpa [RunSt.exec] using e.symm, by simp [Closing]⟩
  · exact ⟨[], by simpa [RunSt.exec] using e.symm, by simp⟩

theorem halting_exec {s : RunSt} {i rest p q} (hi : Halting i) (e : (s.exec (rest ++ p) i).2 = q) :
    ∃ cs, q = cs ++ rest ++ p ∧ ∀ x ∈ cs, Closing x := by
  rcases hi with hi | ⟨n, rfl | rfl | rfl⟩
  · exact closing_exec hi e
  all_goals
    refine ⟨[], ?_, by simp⟩
    simp only [RunSt.exec] at e
    first
      | (split at e <;> simpa using e.symm)
      | simpa using e.symm

theorem phase_exec (s : RunSt) {i rest} (h : Phase (i :: rest)) : Phase (s.exec rest i).2 := by
  generalize hp : i :: rest = p at h
  cases h with
  | links h =>
    subst hp
    obtain ⟨a, b, rfl⟩ := h i (List.mem_cons_self)
    exact .links fun x hx => h x (List.mem_cons_of_mem _ hx)
  | first =>
    rw [RunSt.stopProgram, List.cons.injEq] at hp
    obtain ⟨rfl, rfl⟩ := hp
    exact .mcast (cs := s.mcast.map .close) (by simp [Closing])
  | @mcast cs h =>
    cases cs with
    | nil =>
      rw [List.nil_append, List.cons.injEq] at hp
      obtain ⟨rfl, rfl⟩ := hp
      exact .mid
    | cons c cs =>
      rw [List.cons_append, List.cons.injEq] at hp
      obtain ⟨rfl, rfl⟩ := hp
      obtain ⟨ds, e, hd⟩ := closing_exec (s := s) (h i List.mem_cons_self) rfl
      rw [e]
      refine .mcast fun x hx => ?_
      rcases List.mem_append.mp hx with hx | hx
      · exact hd x hx
      · exact h x (List.mem_cons_of_mem _ hx)
  | mid =>
    rw [List.cons.injEq] at hp
    obtain ⟨rfl, rfl⟩ := hp
    refine .ucast fun x hx => ?_
    obtain ⟨n, -, hx⟩ := List.mem_flatMap.mp hx
    rcases List.mem_append.mp hx with hx | hx
    · simp only [List.mem_cons, List.not_mem_nil, or_false] at hx
      rcases hx with rfl | rfl
      · exact .inr ⟨n, .inl rfl⟩
      · exact .inl ⟨n, .inl rfl⟩
    · split at hx
      · simp only [List.mem_cons, List.not_mem_nil, or_false] at hx
        rcases hx with rfl | rfl
        · exact .inr ⟨n, .inr (.inl rfl)⟩
        · exact .inr ⟨n, .inr (.inr rfl)⟩
      · exact absurd hx List.not_mem_nil
  | @ucast q h =>
    cases q with
    | nil =>
      rw [List.nil_append, List.cons.injEq] at hp
      obtain ⟨rfl, rfl⟩ := hp
      exact .links (by simp [RunSt.exec])
    | cons c cs =>
      rw [List.cons_append, List.cons.injEq] at hp
      obtain ⟨rfl, rfl⟩ := hp
      obtain ⟨ds, e, hd⟩ := halting_exec (s := s) (h i List.mem_cons_self) rfl
      rw [e]
      refine .ucast fun x hx => ?_
      rcases List.mem_append.mp hx with hx | hx
      · exact .inl (hd x hx)
      · exact h x (List.mem_cons_of_mem _ hx)

theorem phase_takeM {rest} (h : Phase (.takeM :: rest)) : rest = [.forgetM, .takeU, .forgetU] := by
  generalize hp : Instr.takeM :: rest = p at h
  cases h with
  | links h => subst hp; obtain ⟨a, b, e⟩ := h _ List.mem_cons_self; cases e
  | first => rw [RunSt.stopProgram, List.cons.injEq] at hp; exact hp.2
  | @mcast cs h =>
    cases cs with
    | nil => simp at hp
    | cons c cs =>
      rw [List.cons_append, List.cons.injEq] at hp
      obtain ⟨n, e | e | e⟩ := h c List.mem_cons_self <;> rw [← hp.1] at e <;> cases e
  | mid => simp at hp
  | @ucast q h =>
    cases q with
    | nil => simp at hp
    | cons c cs =>
      rw [List.cons_append, List.cons.injEq] at hp
      rcases h c List.mem_cons_self with ⟨n, e | e | e⟩ | ⟨n, e | e | e⟩ <;> rw [← hp.1] at e <;> cases e

theorem phase_takeU {rest} (h : Phase (.takeU :: rest)) : rest = [.forgetU] := by
  generalize hp : Instr.takeU :: rest = p at h
  cases h with
  | links h => subst hp; obtain ⟨a, b, e⟩ := h _ List.mem_cons_self; cases e
  | first => simp [RunSt.stopProgram] at hp
  | @mcast cs h =>
    cases cs with
    | nil => simp at hp
    | cons c cs =>
      rw [List.cons_append, List.cons.injEq] at hp
      obtain ⟨n, e | e | e⟩ := h c List.mem_cons_self <;> rw [← hp.1] at e <;> cases e
  | mid => simpa using hp
  | @ucast q h =>
    cases q with
    | nil => simp at hp
    | cons c cs =>
      rw [List.cons_append, List.cons.injEq] at hp
      rcases h c List.mem_cons_self with ⟨n, e | e | e⟩ | ⟨n, e | e | e⟩ <;> rw [← hp.1] at e <;> cases e

theorem phase_forgetM {rest} (h : Phase (.forgetM :: rest)) : rest = [.takeU, .forgetU] := by
  generalize hp : Instr.forgetM :: rest = p at h
  cases h with
  | links h => subst hp; obtain ⟨a, b, e⟩ := h _ List.mem_cons_self; cases e
  | first => simp [RunSt.stopProgram] at hp
  | @mcast cs h =>
    cases cs with
    | nil => simpa using hp
    | cons c cs =>
      rw [List.cons_append, List.cons.injEq] at hp
      obtain ⟨n, e | e | e⟩ := h c List.mem_cons_self <;> rw [← hp.1] at e <;> cases e
  | mid => simp at hp
  | @ucast q h =>
    cases q with
    | nil => simp at hp
    | cons c cs =>
      rw [List.cons_append, List.cons.injEq] at hp
      rcases h c List.mem_cons_self with ⟨n, e | e | e⟩ | ⟨n, e | e | e⟩ <;> rw [← hp.1] at e <;> cases e

theorem phase_forgetU {rest} (h : Phase (.forgetU :: rest)) : rest = [] := by
  generalize hp : Instr.forgetU :: rest = p at h
  cases h with
  | links h => subst hp; obtain ⟨a, b, e⟩ := h _ List.mem_cons_self; cases e
  | first => simp [RunSt.stopProgram] at hp
  | @mcast cs h =>
    cases cs with
    | nil => simp at hp
    | cons c cs =>
      rw [List.cons_append, List.cons.injEq] at hp
      obtain ⟨n, e | e | e⟩ := h c List.mem_cons_self <;> rw [← hp.1] at e <;> cases e
  | mid => simp at hp
  | @ucast q h =>
    cases q with
    | nil => simpa using hp
    | cons c cs =>
      rw [List.cons_append, List.cons.injEq] at hp
      rcases h c List.mem_cons_self with ⟨n, e | e | e⟩ | ⟨n, e | e | e⟩ <;> rw [← hp.1] at e <;> cases e

/-- What a step of a receive goroutine and an arrival leave of a server. -/
structure Weaker (v v' : Live) : Prop where
  conn : v'.conn = true → v.conn = true
  isOpen : v'.isOpen = true → v.isOpen = true
  held : v'.isOpen = true → v.conn = true ∨ v.pc = .shutting → v'.conn = true ∨ v'.pc = .shutting
  listening : v'.listening = v.listening
  tcp : v'.tcp = v.tcp
  stopped : v'.stopped = v.stopped
  tcpStopped : v'.tcpStopped = v.tcpStopped
  kind : v'.kind = v.kind
  via : v'.via = v.via

theorem Weaker.refl (v : Live) : Weaker v v := ⟨id, id, fun _ => id, rfl, rfl, rfl, rfl, rfl, rfl⟩

theorem leave_cases (v : Live) :
    (v.kind = .unicast ∧ RunSt.leave v = { v with pc := .ended }) ∨
    (v.kind = .multicast ∧ RunSt.leave v = { v with pc := .closing }) := by
  unfold RunSt.leave
  cases h : v.kind with
  | unicast => exact .inl ⟨rfl, rfl⟩
  | multicast => exact .inr ⟨rfl, rfl⟩

theorem weaker_leave {v : Live} (h : v.pc ≠ .shutting) : Weaker v (RunSt.leave v) := by
  rcases leave_cases v with ⟨-, e⟩ | ⟨-, e⟩ <;> rw [e] <;>
    exact ⟨id, id, fun _ hh => .inl (hh.resolve_right h), rfl, rfl, rfl, rfl, rfl, rfl⟩

theorem weaker_stepLoop (v : Live) : Weaker v (RunSt.stepLoop v).1 := by
  have triv : ∀ pc, v.pc ≠ .shutting → Weaker v { v with pc := pc } := fun pc h =>
    ⟨id, id, fun _ hh => .inl (hh.resolve_right h), rfl, rfl, rfl, rfl, rfl, rfl⟩
  unfold RunSt.stepLoop
  cases h : v.pc with
  | select =>
    dsimp only
    split
    · exact weaker_leave (by simp [h])
    · exact triv _ (by simp [h])
  | check =>
    dsimp only
    split
    · exact triv _ (by simp [h])
    · exact weaker_leave (by simp [h])
  | load => exact triv _ (by simp [h])
  | read held =>
    dsimp only
    split
    · exact weaker_leave (by simp [h])
    · split
      · exact .refl v
      · split
        · exact ⟨id, id, fun _ hh => .inl (hh.resolve_right (by simp [h])), rfl, rfl, rfl, rfl, rfl, rfl⟩
        · have := weaker_leave (v := { v with queue := ‹List Datagram› }) (by simp [h])
          exact ⟨this.conn, this.isOpen, this.held, this.listening, this.tcp, this.stopped, this.tcpStopped,
            this.kind, this.via⟩
  | got m => exact triv _ (by simp [h])
  | closing => exact triv _ (by simp [h])
  | clearing => exact ⟨by simp, id, fun _ _ => .inr rfl, rfl, rfl, rfl, rfl, rfl, rfl⟩
  | shutting => exact ⟨id, by simp, by simp, rfl, rfl, rfl, rfl, rfl, rfl⟩
  | ended => exact .refl v

/-- Any action but a call's. -/
def Env (a : RunAct) : Prop := a ≠ .stop ∧ ∀ k, a ≠ .call k

theorem stepReply_servers (s : RunSt) (h x) :
    (s.stepReply answer h x).servers = s.servers ∧ (s.stepReply answer h x).calls = s.calls ∧
    (s.stepReply answer h x).mcast = s.mcast ∧ (s.stepReply answer h x).ucast = s.ucast ∧
    (s.stepReply answer h x).crashed = s.crashed ∧ (s.stepReply answer h x).conns = s.conns := by
  unfold RunSt.stepReply
  split <;> first | exact ⟨rfl, rfl, rfl, rfl, rfl, rfl⟩ | (split <;> exact ⟨rfl, rfl, rfl, rfl, rfl, rfl⟩)

/-- What the actions of the system and of the goroutines leave. -/
theorem step_env (s : RunSt) {a} (ha : Env a) :
    (s.step answer a).calls = s.calls ∧ (s.step answer a).mcast = s.mcast ∧
    (s.step answer a).ucast = s.ucast ∧ (s.step answer a).crashed = s.crashed ∧
    (s.step answer a).servers.length = s.servers.length ∧
    ∀ (i : Nat) v', (s.step answer a).servers[i]? = some v' → ∃ v, s.servers[i]? = some v ∧ Weaker v v' := by
  have same : ∀ (i : Nat) v', s.servers[i]? = some v' → ∃ v, s.servers[i]? = some v ∧ Weaker v v' :=
    fun i v' h => ⟨v', h, .refl v'⟩
  cases a with
  | arrive i d =>
    simp only [RunSt.step]
    split
    · refine ⟨rfl, rfl, rfl, rfl, by simp [RunSt.onServer], fun j v' h => ?_⟩
      rw [get_onServer] at h
      obtain ⟨v, hv, rfl⟩ := Option.map_eq_some_iff.mp h
      refine ⟨v, hv, ?_⟩
      split
      · exact ⟨id, id, fun _ => id, rfl, rfl, rfl, rfl, rfl, rfl⟩
      · exact .refl v
    · exact ⟨rfl, rfl, rfl, rfl, rfl, same⟩
  | loop i =>
    simp only [RunSt.step]
    cases hi : s.servers[i]? with
    | none => exact ⟨rfl, rfl, rfl, rfl, rfl, same⟩
    | some v =>
      refine ⟨rfl, rfl, rfl, rfl, by simp, fun j v' h => ?_⟩
      dsimp only at h
      rw [List.getElem?_set] at h
      split at h
      · rename_i e
        subst e
        split at h
        · cases h; exact ⟨v, hi, weaker_stepLoop v⟩
        · cases h
      · exact same j v' h
  | reply h =>
    simp only [RunSt.step]
    split
    · exact ⟨rfl, rfl, rfl, rfl, rfl, same⟩
    · rename_i x _
      obtain ⟨e1, e2, e3, e4, e5, -⟩ := stepReply_servers (answer := answer) s h x
      rw [e1, e2, e3, e4, e5]
      exact ⟨rfl, rfl, rfl, rfl, rfl, same⟩
  | accept i =>
    simp only [RunSt.step]
    split <;> exact ⟨rfl, rfl, rfl, rfl, rfl, same⟩
  | request c m =>
    simp only [RunSt.step]
    split <;> exact ⟨rfl, rfl, rfl, rfl, rfl, same⟩
  | answer c =>
    simp only [RunSt.step]
    split <;> exact ⟨rfl, rfl, rfl, rfl, rfl, same⟩
  | stop => exact absurd rfl ha.1
  | call k => exact absurd rfl (ha.2 k)

/-- What is left to do for a server somebody has to close. -/
structure Inv (s : RunSt) : Prop where
  phase : ∀ p ∈ s.calls, Phase p
  tcp : ∀ (i : Nat) v, s.servers[i]? = some v → v.listening = true → v.tcp = true
  conn : ∀ (i : Nat) v, s.servers[i]? = some v → v.conn = true →
    i ∈ s.mcast ∨ i ∈ s.ucast ∨ ∃ p ∈ s.calls, .close i ∈ p ∨ .clear i ∈ p
  isOpen : ∀ (i : Nat) v, s.servers[i]? = some v → v.isOpen = true →
    v.conn = true ∨ v.pc = .shutting ∨ ∃ p ∈ s.calls, .shut i ∈ p
  listening : ∀ (i : Nat) v, s.servers[i]? = some v → v.listening = true →
    i ∈ s.ucast ∨ ∃ p ∈ s.calls, .shutTcp i ∈ p
  mcast : ∀ p ∈ s.calls, .forgetM ∈ p → .takeM ∉ p → ∀ i ∈ s.mcast, ∀ v, s.servers[i]? = some v →
    v.conn = true → .close i ∈ p ∨ .clear i ∈ p
  ucast : ∀ p ∈ s.calls, .forgetU ∈ p → .takeU ∉ p → ∀ i ∈ s.ucast, ∀ v, s.servers[i]? = some v →
    (v.conn = true → .close i ∈ p ∨ .clear i ∈ p) ∧ (v.listening = true → .shutTcp i ∈ p)

theorem Inv.env {s s' : RunSt} (h : Inv s) (e1 : s'.calls = s.calls) (e2 : s'.mcast = s.mcast)
    (e3 : s'.ucast = s.ucast)
    (hv : ∀ (i : Nat) v', s'.servers[i]? = some v' → ∃ v, s.servers[i]? = some v ∧ Weaker v v') : Inv s' where
  phase := by rw [e1]; exact h.phase
  tcp i v' hs hl := by
    obtain ⟨v, hs', w⟩ := hv i v' hs
    rw [w.tcp]; exact h.tcp i v hs' (by rw [← w.listening]; exact hl)
  conn i v' hs hc := by
    obtain ⟨v, hs', w⟩ := hv i v' hs
    rw [e1, e2, e3]; exact h.conn i v hs' (w.conn hc)
  isOpen i v' hs ho := by
    obtain ⟨v, hs', w⟩ := hv i v' hs
    rw [e1]
    rcases h.isOpen i v hs' (w.isOpen ho) with hc | hc | hc
    · rcases w.held ho (.inl hc) with h | h
      · exact .inl h
      · exact .inr (.inl h)
    · rcases w.held ho (.inr hc) with h | h
      · exact .inl h
      · exact .inr (.inl h)
    · exact .inr (.inr hc)
  listening i v' hs hl := by
    obtain ⟨v, hs', w⟩ := hv i v' hs
    rw [e1, e3]; exact h.listening i v hs' (by rw [← w.listening]; exact hl)
  mcast p hp hf ht i hi v' hs hc := by
    obtain ⟨v, hs', w⟩ := hv i v' hs
    exact h.mcast p (e1 ▸ hp) hf ht i (e2 ▸ hi) v hs' (w.conn hc)
  ucast p hp hf ht i hi v' hs := by
    obtain ⟨v, hs', w⟩ := hv i v' hs
    obtain ⟨a, b⟩ := h.ucast p (e1 ▸ hp) hf ht i (e3 ▸ hi) v hs'
    exact ⟨fun hc => a (w.conn hc), fun hl => b (by rw [← w.listening]; exact hl)⟩

/-- What a step of a call leaves of a server. -/
structure Lower (v v' : Live) : Prop where
  conn : v'.conn = true → v.conn = true
  isOpen : v'.isOpen = true → v.isOpen = true
  listening : v'.listening = true → v.listening = true
  tcp : v'.tcp = v.tcp
  pc : v'.pc = v.pc
  kind : v'.kind = v.kind

theorem Lower.refl (v : Live) : Lower v v := ⟨id, id, id, rfl, rfl, rfl⟩

theorem exec_frame (s : RunSt) (rest i) :
    (s.exec rest i).1.calls = s.calls ∧ (s.exec rest i).1.replying = s.replying ∧
    (s.exec rest i).1.conns = s.conns ∧ (s.exec rest i).1.seen = s.seen ∧ (s.exec rest i).1.sent = s.sent ∧
    (s.exec rest i).1.servers.length = s.servers.length ∧
    ((s.exec rest i).1.mcast = s.mcast ∨ i = .forgetM ∧ (s.exec rest i).1.mcast = []) ∧
    ((s.exec rest i).1.ucast = s.ucast ∨ i = .forgetU ∧ (s.exec rest i).1.ucast = []) ∧
    ∀ (j : Nat) v', (s.exec rest i).1.servers[j]? = some v' → ∃ v, s.servers[j]? = some v ∧ Lower v v' := by
  have same : ∀ (j : Nat) v', s.servers[j]? = some v' → ∃ v, s.servers[j]? = some v ∧ Lower v v' :=
    fun i v' h => ⟨v', h, .refl v'⟩
  have on : ∀ (i : Nat) g, (∀ v, Lower v (g v)) → ∀ (j : Nat) v', (s.onServer i g).servers[j]? = some v' →
      ∃ v, s.servers[j]? = some v ∧ Lower v v' := by
    intro i g hg j v' h
    rw [get_onServer] at h
    obtain ⟨v, hv, rfl⟩ := Option.map_eq_some_iff.mp h
    refine ⟨v, hv, ?_⟩
    split
    · exact hg v
    · exact .refl v
  have len : ∀ i g, (s.onServer i g).servers.length = s.servers.length := by
    intro i g; simp [RunSt.onServer]
  cases i
  case halt n =>
    simp only [RunSt.exec]
    split
    · exact ⟨rfl, rfl, rfl, rfl, rfl, rfl, .inl rfl, .inl rfl, same⟩
    · exact ⟨rfl, rfl, rfl, rfl, rfl, len _ _, .inl rfl, .inl rfl, on _ _ fun v => ⟨id, id, id, rfl, rfl, rfl⟩⟩
  case haltTcp n =>
    simp only [RunSt.exec]
    split
    · exact ⟨rfl, rfl, rfl, rfl, rfl, rfl, .inl rfl, .inl rfl, same⟩
    · exact ⟨rfl, rfl, rfl, rfl, rfl, len _ _, .inl rfl, .inl rfl, on _ _ fun v => ⟨id, id, id, rfl, rfl, rfl⟩⟩
  case clear n =>
    exact ⟨rfl, rfl, rfl, rfl, rfl, len _ _, .inl rfl, .inl rfl, on _ _ fun v => ⟨by simp, id, id, rfl, rfl, rfl⟩⟩
  case shut n =>
    exact ⟨rfl, rfl, rfl, rfl, rfl, len _ _, .inl rfl, .inl rfl, on _ _ fun v => ⟨id, by simp, id, rfl, rfl, rfl⟩⟩
  case shutTcp n =>
    exact ⟨rfl, rfl, rfl, rfl, rfl, len _ _, .inl rfl, .inl rfl, on _ _ fun v => ⟨id, id, by simp, rfl, rfl, rfl⟩⟩
  case link n m =>
    exact ⟨rfl, rfl, rfl, rfl, rfl, len _ _, .inl rfl, .inl rfl, on _ _ fun v => ⟨id, id, id, rfl, rfl, rfl⟩⟩
  case forgetM => exact ⟨rfl, rfl, rfl, rfl, rfl, rfl, .inr ⟨rfl, rfl⟩, .inl rfl, same⟩
  case forgetU => exact ⟨rfl, rfl, rfl, rfl, rfl, rfl, .inl rfl, .inr ⟨rfl, rfl⟩, same⟩
  all_goals exact ⟨rfl, rfl, rfl, rfl, rfl, rfl, .inl rfl, .inl rfl, same⟩

theorem exec_keeps (s : RunSt) (rest i) : ∀ x ∈ rest, x ∈ (s.exec rest i).2 := by
  intro x hx
  cases i <;> simp only [RunSt.exec] <;>
    first
      | exact hx
      | exact List.mem_append_right _ hx
      | exact List.mem_cons_of_mem _ hx
      | (split <;> first | exact hx | exact List.mem_cons_of_mem _ hx)

theorem exec_close (s : RunSt) (rest i) (n : Nat) (h : .close n ∈ i :: rest ∨ .clear n ∈ i :: rest) :
    (.close n ∈ (s.exec rest i).2 ∨ .clear n ∈ (s.exec rest i).2) ∨
    ∀ v', (s.exec rest i).1.servers[n]? = some v' → v'.conn = false := by
  simp only [List.mem_cons] at h
  rcases h with (rfl | h) | (rfl | h)
  · simp only [RunSt.exec]
    cases hc : s.hasConn n with
    | true => left; right; simp
    | false =>
      right
      intro v' hv
      simpa [RunSt.hasConn, hv] using hc
  · exact .inl (.inl (exec_keeps s rest i _ h))
  · right
    intro v' hv
    simp only [RunSt.exec] at hv
    rw [get_onServer] at hv
    obtain ⟨v, -, rfl⟩ := Option.map_eq_some_iff.mp hv
    simp
  · exact .inl (.inr (exec_keeps s rest i _ h))

theorem exec_shut (s : RunSt) (rest i) (n : Nat) (h : .shut n ∈ i :: rest) :
    .shut n ∈ (s.exec rest i).2 ∨ ∀ v', (s.exec rest i).1.servers[n]? = some v' → v'.isOpen = false := by
  rcases List.mem_cons.mp h with rfl | h
  · right
    intro v' hv
    simp only [RunSt.exec] at hv
    rw [get_onServer] at hv
    obtain ⟨v, -, rfl⟩ := Option.map_eq_some_iff.mp hv
    simp
  · exact .inl (exec_keeps s rest i _ h)

theorem exec_shutTcp (s : RunSt) (rest i) (n : Nat) (h : .shutTcp n ∈ i :: rest) :
    .shutTcp n ∈ (s.exec rest i).2 ∨ ∀ v', (s.exec rest i).1.servers[n]? = some v' → v'.listening = false := by
  rcases List.mem_cons.mp h with rfl | h
  · right
    intro v' hv
    simp only [RunSt.exec] at hv
    rw [get_onServer] at hv
    obtain ⟨v, -, rfl⟩ := Option.map_eq_some_iff.mp hv
    simp
  · exact .inl (exec_keeps s rest i _ h)

theorem exec_conn (s : RunSt) (rest i) (n : Nat) (v v') (h : s.servers[n]? = some v)
    (h' : (s.exec rest i).1.servers[n]? = some v') (hc : v.conn = true) :
    v'.conn = true ∨ .shut n ∈ (s.exec rest i).2 := by
  have on : ∀ (m : Nat) (g : Live → Live), (∀ v, (g v).conn = v.conn) →
      (s.onServer m g).servers[n]? = some v' → v'.conn = true := by
    intro m g hg e
    rw [get_onServer, h] at e
    cases e
    dsimp only
    split
    · rw [hg]; exact hc
    · exact hc
  have same : s.servers[n]? = some v' → v'.conn = true := by
    intro e; rw [h] at e; cases e; exact hc
  cases i <;> simp only [RunSt.exec] at h' ⊢
  case halt m =>
    split at h'
    · exact .inl (same h')
    · exact .inl (on _ _ (by simp) h')
  case haltTcp m =>
    split at h'
    · exact .inl (same h')
    · exact .inl (on _ _ (by simp) h')
  case clear m =>
    by_cases e : m = n
    · subst e; exact .inr List.mem_cons_self
    · left
      rw [get_onServer, h] at h'
      simp only [e, if_false, Option.map_some] at h'
      cases h'; exact hc
  case shut m => exact .inl (on _ _ (by simp) h')
  case shutTcp m => exact .inl (on _ _ (by simp) h')
  case link a b => exact .inl (on _ _ (by simp) h')
  all_goals exact .inl (same h')

theorem exec_forgetM (s : RunSt) (rest i) (h : .forgetM ∈ (s.exec rest i).2) : .forgetM ∈ rest := by
  cases i <;> simp only [RunSt.exec] at h
  case takeM => simpa using h
  case takeU =>
    rcases List.mem_append.mp h with h | h
    · obtain ⟨n, -, h⟩ := List.mem_flatMap.mp h
      simp at h
    · exact h
  all_goals first | exact h | (split at h <;> simpa using h) | simpa using h

theorem exec_forgetU (s : RunSt) (rest i) (h : .forgetU ∈ (s.exec rest i).2) : .forgetU ∈ rest := by
  cases i <;> simp only [RunSt.exec] at h
  case takeM => simpa using h
  case takeU =>
    rcases List.mem_append.mp h with h | h
    · obtain ⟨n, -, h⟩ := List.mem_flatMap.mp h
      simp at h
    · exact h
  all_goals first | exact h | (split at h <;> simpa using h) | simpa using h

theorem mem_set_of {α} {l : List α} {k : Nat} {x y p : α} (hk : l[k]? = some x) (hp : p ∈ l) :
    p ∈ l.set k y ∨ p = x := by
  obtain ⟨n, hn, e⟩ := List.mem_iff_getElem.mp hp
  by_cases h : k = n
  · subst h
    right
    rw [List.getElem?_eq_getElem hn] at hk
    cases hk; exact e.symm
  · left
    refine List.mem_iff_getElem.mpr ⟨n, by simpa using hn, ?_⟩
    rw [List.getElem_set_ne h]; exact e

theorem mem_set_self {α} {l : List α} {k : Nat} {x y : α} (hk : l[k]? = some x) : y ∈ l.set k y := by
  obtain ⟨hn, -⟩ := List.getElem?_eq_some_iff.mp hk
  exact List.mem_iff_getElem.mpr ⟨k, by simpa using hn, by simp⟩

theorem Inv.call {s : RunSt} (h : Inv s) {k : Nat} {i rest} (hk : s.calls[k]? = some (i :: rest)) :
    Inv { (s.exec rest i).1 with calls := (s.exec rest i).1.calls.set k (s.exec rest i).2 } := by
  obtain ⟨e1, -, -, -, -, -, e2, e3, hv⟩ := exec_frame s rest i
  have hmem : i :: rest ∈ s.calls := List.mem_of_getElem? hk
  have hsub : ∀ j, j ∈ (s.exec rest i).1.mcast → j ∈ s.mcast := by
    intro j hj; rcases e2 with e | ⟨-, e⟩ <;> rw [e] at hj
    · exact hj
    · exact absurd hj List.not_mem_nil
  have hsubU : ∀ j, j ∈ (s.exec rest i).1.ucast → j ∈ s.ucast := by
    intro j hj; rcases e3 with e | ⟨-, e⟩ <;> rw [e] at hj
    · exact hj
    · exact absurd hj List.not_mem_nil
  -- somebody who had something to do has it still, or it is done
  have trans : ∀ (F : List Instr → Prop) (X : Prop), (∃ p ∈ s.calls, F p) →
      (F (i :: rest) → F (s.exec rest i).2 ∨ X) → (∃ p ∈ s.calls.set k (s.exec rest i).2, F p) ∨ X := by
    intro F X ⟨p, hp, hF⟩ himp
    rcases mem_set_of (y := (s.exec rest i).2) hk hp with hp | rfl
    · exact .inl ⟨p, hp, hF⟩
    · rcases himp hF with hF | hX
      · exact .inl ⟨_, mem_set_self hk, hF⟩
      · exact .inr hX
  have closed : ∀ (n : Nat) v', (s.exec rest i).1.servers[n]? = some v' → v'.conn = true →
      (∃ p ∈ s.calls, .close n ∈ p ∨ .clear n ∈ p) →
      ∃ p ∈ s.calls.set k (s.exec rest i).2, .close n ∈ p ∨ .clear n ∈ p := by
    intro n v' hn hc hp
    rcases trans (fun p => .close n ∈ p ∨ .clear n ∈ p) _ hp (exec_close s rest i n) with h | h
    · exact h
    · exact absurd hc (by simp [h v' hn])
  constructor
  · intro p hp
    rw [e1] at hp
    rcases List.mem_or_eq_of_mem_set hp with hp | rfl
    · exact h.phase p hp
    · exact phase_exec s (h.phase _ hmem)
  · intro j v' hj hl
    obtain ⟨v, hj', w⟩ := hv j v' hj
    rw [w.tcp]; exact h.tcp j v hj' (w.listening hl)
  · intro j v' hj hc
    obtain ⟨v, hj', w⟩ := hv j v' hj
    dsimp only
    rw [e1]
    rcases h.conn j v hj' (w.conn hc) with hm | hm | hm
    · rcases e2 with e | ⟨ei, -⟩
      · rw [e]; exact .inl hm
      · subst ei
        have hr := phase_forgetM (h.phase _ hmem)
        right; right
        exact closed j v' hj hc ⟨_, hmem, h.mcast _ hmem List.mem_cons_self (by rw [hr]; simp) j hm v hj' (w.conn hc)⟩
    · rcases e3 with e | ⟨ei, -⟩
      · rw [e]; exact .inr (.inl hm)
      · subst ei
        have hr := phase_forgetU (h.phase _ hmem)
        right; right
        exact closed j v' hj hc
          ⟨_, hmem, (h.ucast _ hmem List.mem_cons_self (by rw [hr]; simp) j hm v hj').1 (w.conn hc)⟩
    · exact .inr (.inr (closed j v' hj hc hm))
  · intro j v' hj ho
    obtain ⟨v, hj', w⟩ := hv j v' hj
    dsimp only
    rw [e1]
    rcases h.isOpen j v hj' (w.isOpen ho) with hc | hc | hc
    · rcases exec_conn s rest i j v v' hj' hj hc with hc | hc
      · exact .inl hc
      · exact .inr (.inr ⟨_, mem_set_self hk, hc⟩)
    · exact .inr (.inl (w.pc.trans hc))
    · rcases trans (fun p => .shut j ∈ p) _ hc (exec_shut s rest i j) with h | h
      · exact .inr (.inr h)
      · exact absurd ho (by simp [h v' hj])
  · intro j v' hj hl
    obtain ⟨v, hj', w⟩ := hv j v' hj
    dsimp only
    rw [e1]
    have fin : (∃ p ∈ s.calls, .shutTcp j ∈ p) → ∃ p ∈ s.calls.set k (s.exec rest i).2, .shutTcp j ∈ p := by
      intro hp
      rcases trans (fun p => .shutTcp j ∈ p) _ hp (exec_shutTcp s rest i j) with h | h
      · exact h
      · exact absurd hl (by simp [h v' hj])
    rcases h.listening j v hj' (w.listening hl) with hm | hm
    · rcases e3 with e | ⟨ei, -⟩
      · rw [e]; exact .inl hm
      · subst ei
        have hr := phase_forgetU (h.phase _ hmem)
        right
        exact fin ⟨_, hmem, (h.ucast _ hmem List.mem_cons_self (by rw [hr]; simp) j hm v hj').2 (w.listening hl)⟩
    · exact .inr (fin hm)
  · intro p hp hf ht j hj v' hjv hc
    obtain ⟨v, hj', w⟩ := hv j v' hjv
    have hjm := hsub j hj
    rw [e1] at hp
    rcases List.mem_or_eq_of_mem_set hp with hp | rfl
    · exact h.mcast p hp hf ht j hjm v hj' (w.conn hc)
    · by_cases hi : i = .takeM
      · subst hi
        exact .inl (List.mem_append_left _ (List.mem_map_of_mem hjm))
      · have hf' := exec_forgetM s rest i hf
        have ht' : Instr.takeM ∉ i :: rest := by
          intro hm
          rcases List.mem_cons.mp hm with hm | hm
          · exact hi hm.symm
          · exact ht (exec_keeps s rest i _ hm)
        rcases exec_close s rest i j
          (h.mcast _ hmem (List.mem_cons_of_mem _ hf') ht' j hjm v hj' (w.conn hc)) with h | h
        · exact h
        · exact absurd hc (by simp [h v' hjv])
  · intro p hp hf ht j hj v' hjv
    obtain ⟨v, hj', w⟩ := hv j v' hjv
    have hjm := hsubU j hj
    rw [e1] at hp
    rcases List.mem_or_eq_of_mem_set hp with hp | rfl
    · have := h.ucast p hp hf ht j hjm v hj'
      exact ⟨fun hc => this.1 (w.conn hc), fun hl => this.2 (w.listening hl)⟩
    · by_cases hi : i = .takeU
      · subst hi
        refine ⟨fun _ => .inl (List.mem_append_left _ (List.mem_flatMap.mpr ⟨j, hjm, by simp⟩)), fun hl => ?_⟩
        refine List.mem_append_left _ (List.mem_flatMap.mpr ⟨j, hjm, ?_⟩)
        rw [hj']
        simp [h.tcp j v hj' (w.listening hl)]
      · have hf' := exec_forgetU s rest i hf
        have ht' : Instr.takeU ∉ i :: rest := by
          intro hm
          rcases List.mem_cons.mp hm with hm | hm
          · exact hi hm.symm
          · exact ht (exec_keeps s rest i _ hm)
        have := h.ucast _ hmem (List.mem_cons_of_mem _ hf') ht' j hjm v hj'
        refine ⟨fun hc => ?_, fun hl => ?_⟩
        · rcases exec_close s rest i j (this.1 (w.conn hc)) with h | h
          · exact h
          · exact absurd hc (by simp [h v' hjv])
        · rcases exec_shutTcp s rest i j (this.2 (w.listening hl)) with h | h
          · exact h
          · exact absurd hl (by simp [h v' hjv])

theorem Inv.stop {s : RunSt} (h : Inv s) : Inv { s with calls := s.calls ++ [RunSt.stopProgram] } where
  phase p hp := by
    rcases List.mem_append.mp hp with hp | hp
    · exact h.phase p hp
    · rw [List.mem_singleton.mp hp]; exact .first
  tcp := h.tcp
  conn j v hj hc := by
    rcases h.conn j v hj hc with h | h | ⟨p, hp, h⟩
    · exact .inl h
    · exact .inr (.inl h)
    · exact .inr (.inr ⟨p, List.mem_append_left _ hp, h⟩)
  isOpen j v hj hc := by
    rcases h.isOpen j v hj hc with h | h | ⟨p, hp, h⟩
    · exact .inl h
    · exact .inr (.inl h)
    · exact .inr (.inr ⟨p, List.mem_append_left _ hp, h⟩)
  listening j v hj hc := by
    rcases h.listening j v hj hc with h | ⟨p, hp, h⟩
    · exact .inl h
    · exact .inr ⟨p, List.mem_append_left _ hp, h⟩
  mcast p hp hf ht := by
    rcases List.mem_append.mp hp with hp | hp
    · exact h.mcast p hp hf ht
    · rw [List.mem_singleton.mp hp] at ht; simp [RunSt.stopProgram] at ht
  ucast p hp hf ht := by
    rcases List.mem_append.mp hp with hp | hp
    · exact h.ucast p hp hf ht
    · rw [List.mem_singleton.mp hp] at ht; simp [RunSt.stopProgram] at ht

theorem step_call (s : RunSt) (k : Nat) :
    (∃ i rest, s.calls[k]? = some (i :: rest) ∧
      s.step answer (.call k) =
        { (s.exec rest i).1 with calls := (s.exec rest i).1.calls.set k (s.exec rest i).2 }) ∨
    ((s.calls[k]? = none ∨ s.calls[k]? = some []) ∧ s.step answer (.call k) = s) := by
  simp only [RunSt.step]
  cases h : s.calls[k]? with
  | none => exact .inr ⟨.inl rfl, rfl⟩
  | some p =>
    cases p with
    | nil => exact .inr ⟨.inr rfl, rfl⟩
    | cons i rest => exact .inl ⟨i, rest, rfl, rfl⟩

theorem env_or (a : RunAct) : Env a ∨ a = .stop ∨ ∃ k, a = .call k := by
  cases a with
  | stop => exact .inr (.inl rfl)
  | call k => exact .inr (.inr ⟨k, rfl⟩)
  | _ => exact .inl ⟨by simp, by simp⟩

theorem Inv.step {s : RunSt} (h : Inv s) (a : RunAct) : Inv (s.step answer a) := by
  rcases env_or a with ha | rfl | ⟨k, rfl⟩
  · obtain ⟨e1, e2, e3, -, -, hv⟩ := step_env (answer := answer) s ha
    exact h.env e1 e2 e3 hv
  · exact h.stop
  · rcases step_call (answer := answer) s k with ⟨i, rest, hk, e⟩ | ⟨-, e⟩
    · rw [e]; exact h.call hk
    · rw [e]; exact h

theorem starting_get (tcps : List Bool) (links : List Nat) (i : Nat) (v : Live)
    (h : (RunSt.starting tcps links).servers[i]? = some v) :
    (∃ t, tcps[i]? = some t ∧ v = Live.unicast i t) ∨
    (tcps.length ≤ i ∧ i < tcps.length + links.length ∧ v = Live.multicast) := by
  simp only [RunSt.starting] at h
  by_cases hi : i < tcps.length
  · left
    rw [List.getElem?_append_left (by simpa using hi), List.getElem?_mapIdx] at h
    obtain ⟨t, ht, rfl⟩ := Option.map_eq_some_iff.mp h
    exact ⟨t, ht, rfl⟩
  · right
    have hi : tcps.length ≤ i := Nat.le_of_not_lt hi
    rw [List.getElem?_append_right (by simpa using hi), List.getElem?_map] at h
    obtain ⟨t, ht, rfl⟩ := Option.map_eq_some_iff.mp h
    have := (List.getElem?_eq_some_iff.mp ht).1
    simp at this
    exact ⟨hi, by omega, rfl⟩

theorem inv_starting (tcps : List Bool) (links : List Nat) : Inv (RunSt.starting tcps links) := by
  have hp : ∀ p ∈ (RunSt.starting tcps links).calls, ∀ x ∈ p, ∃ i j, x = Instr.link i j := by
    intro p hp x hx
    rw [List.mem_singleton.mp hp] at hx
    obtain ⟨k, hk, rfl⟩ := List.mem_mapIdx.mp hx
    exact ⟨_, _, rfl⟩
  constructor
  · intro p h; exact .links (hp p h)
  · intro i v h hl
    rcases starting_get tcps links i v h with ⟨t, -, rfl⟩ | ⟨-, -, rfl⟩
    · exact hl
    · simp [Live.multicast] at hl
  · intro i v h hl
    rcases starting_get tcps links i v h with ⟨t, ht, rfl⟩ | ⟨a, b, rfl⟩
    · exact .inr (.inl (List.mem_range.mpr (List.getElem?_eq_some_iff.mp ht).1))
    · exact .inl (List.mem_map.mpr ⟨i - tcps.length, List.mem_range.mpr (by omega), by omega⟩)
  · intro i v h hl
    rcases starting_get tcps links i v h with ⟨t, ht, rfl⟩ | ⟨a, b, rfl⟩
    · exact .inl rfl
    · exact .inl rfl
  · intro i v h hl
    rcases starting_get tcps links i v h with ⟨t, ht, rfl⟩ | ⟨a, b, rfl⟩
    · exact .inl (List.mem_range.mpr (List.getElem?_eq_some_iff.mp ht).1)
    · simp [Live.multicast] at hl
  · intro p h hf
    obtain ⟨i, j, e⟩ := hp p h _ hf
    cases e
  · intro p h hf
    obtain ⟨i, j, e⟩ := hp p h _ hf
    cases e

/-- A call of `Stop` has been made. -/
structure Stopping (s : RunSt) : Prop where
  inv : Inv s
  call : ∃ (k : Nat) (p : List Instr), s.calls[k]? = some p ∧ (.takeM ∈ p ∨ .forgetM ∈ p ∨ s.mcast = []) ∧
    (.takeU ∈ p ∨ .forgetU ∈ p ∨ s.ucast = [])

theorem Stopping.step {s : RunSt} (h : Stopping s) (a : RunAct) : Stopping (s.step answer a) := by
  refine ⟨h.inv.step a, ?_⟩
  obtain ⟨k, p, hk, h1, h2⟩ := h.call
  rcases env_or a with ha | rfl | ⟨k', rfl⟩
  · obtain ⟨e1, e2, e3, -, -, -⟩ := step_env (answer := answer) s ha
    rw [e1, e2, e3]
    exact ⟨k, p, hk, h1, h2⟩
  · exact ⟨k, p, by simp only [RunSt.step]; rw [List.getElem?_append_left (List.getElem?_eq_some_iff.mp hk).1]; exact hk,
      h1, h2⟩
  · rcases step_call (answer := answer) s k' with ⟨i, rest, hk', e⟩ | ⟨-, e⟩
    · rw [e]
      obtain ⟨e1, -, -, -, -, -, e2, e3, -⟩ := exec_frame s rest i
      have k1 : ∀ {X : Prop}, (X ∨ s.mcast = []) → X ∨ (s.exec rest i).1.mcast = [] := by
        intro X h
        rcases h with h | h
        · exact .inl h
        · rcases e2 with e | ⟨-, e⟩
          · exact .inr (e.trans h)
          · exact .inr e
      have k2 : ∀ {X : Prop}, (X ∨ s.ucast = []) → X ∨ (s.exec rest i).1.ucast = [] := by
        intro X h
        rcases h with h | h
        · exact .inl h
        · rcases e3 with e | ⟨-, e⟩
          · exact .inr (e.trans h)
          · exact .inr e
      by_cases hkk : k' = k
      · subst hkk
        rw [hk'] at hk
        cases hk
        refine ⟨k', (s.exec rest i).2, ?_, ?_, ?_⟩
        · dsimp only
          rw [e1, List.getElem?_set_self (List.getElem?_eq_some_iff.mp hk').1]
        · have hph := h.inv.phase _ (List.mem_of_getElem? hk')
          rcases h1 with h1 | h1 | h1
          · rcases List.mem_cons.mp h1 with h1 | h1
            · subst h1
              exact .inr (.inl (exec_keeps s rest _ _ (by rw [phase_takeM hph]; simp)))
            · exact .inl (exec_keeps s rest _ _ h1)
          · rcases List.mem_cons.mp h1 with h1 | h1
            · subst h1; exact .inr (.inr rfl)
            · exact .inr (.inl (exec_keeps s rest _ _ h1))
          · rcases k1 (X := False) (.inr h1) with h | h
            · exact h.elim
            · exact .inr (.inr h)
        · have hph := h.inv.phase _ (List.mem_of_getElem? hk')
          rcases h2 with h1 | h1 | h1
          · rcases List.mem_cons.mp h1 with h1 | h1
            · subst h1
              exact .inr (.inl (exec_keeps s rest _ _ (by rw [phase_takeU hph]; simp)))
            · exact .inl (exec_keeps s rest _ _ h1)
          · rcases List.mem_cons.mp h1 with h1 | h1
            · subst h1; exact .inr (.inr rfl)
            · exact .inr (.inl (exec_keeps s rest _ _ h1))
          · rcases k2 (X := False) (.inr h1) with h | h
            · exact h.elim
            · exact .inr (.inr h)
      · refine ⟨k, p, ?_, ?_, ?_⟩
        · dsimp only
          rw [e1, List.getElem?_set_ne hkk]; exact hk
        · rcases h1 with h1 | h1 | h1
          · exact .inl h1
          · exact .inr (.inl h1)
          · exact .inr (k1 (.inr h1))
        · rcases h2 with h1 | h1 | h1
          · exact .inl h1
          · exact .inr (.inl h1)
          · exact .inr (k2 (.inr h1))
    · rw [e]; exact ⟨k, p, hk, h1, h2⟩

theorem stopping_of_stop {s : RunSt} (h : Inv s) : Stopping (s.step answer .stop) :=
  ⟨h.stop, s.calls.length, RunSt.stopProgram, by simp [RunSt.step], by simp [RunSt.stopProgram],
    by simp [RunSt.stopProgram]⟩

theorem stopping_run {s : RunSt} (h : Inv s) (acts) (hs : .stop ∈ acts) (hc : (s.run answer acts).crashed = false) :
    Stopping (s.run answer acts) := by
  induction acts generalizing s with
  | nil => exact absurd hs List.not_mem_nil
  | cons a acts ih =>
    cases hcr : s.crashed with
    | true => rw [run_crashed _ _ hcr, hcr] at hc; cases hc
    | false =>
      rw [run_cons _ _ _ hcr] at hc ⊢
      rcases List.mem_cons.mp hs with rfl | hs
      · exact run_inv _ (fun s a h _ => h.step a) _ _ (stopping_of_stop h)
      · exact ih (h.step a) hs hc

/-- After `Stop` has returned. -/
structure Dead (s : RunSt) : Prop where
  mcast : s.mcast = []
  ucast : s.ucast = []
  server : ∀ (i : Nat) v, s.servers[i]? = some v → v.conn = false ∧ v.listening = false ∧
    (v.isOpen = true → v.pc = .shutting)
  calls : ∀ p ∈ s.calls, p <:+ RunSt.stopProgram
  up : s.crashed = false

theorem Stopping.dead {s : RunSt} (h : Stopping s) (hr : ∀ p ∈ s.calls, p = []) (hc : s.crashed = false) :
    Dead s := by
  obtain ⟨k, p, hk, h1, h2⟩ := h.call
  have := hr p (List.mem_of_getElem? hk)
  subst this
  have m : s.mcast = [] := by simpa using h1
  have u : s.ucast = [] := by simpa using h2
  have none : ∀ x, ¬ ∃ p ∈ s.calls, x ∈ p := by
    rintro x ⟨p, hp, hx⟩; rw [hr p hp] at hx; exact absurd hx List.not_mem_nil
  have hconn : ∀ (i : Nat) v, s.servers[i]? = some v → v.conn = false := by
    intro i v hv
    cases hc : v.conn with
    | false => rfl
    | true =>
      rcases h.inv.conn i v hv hc with h | h | ⟨p, hp, h | h⟩
      · rw [m] at h; exact absurd h List.not_mem_nil
      · rw [u] at h; exact absurd h List.not_mem_nil
      · exact absurd ⟨p, hp, h⟩ (none _)
      · exact absurd ⟨p, hp, h⟩ (none _)
  refine ⟨m, u, fun i v hv => ⟨hconn i v hv, ?_, fun ho => ?_⟩, ?_, hc⟩
  · cases hl : v.listening with
    | false => rfl
    | true =>
      rcases h.inv.listening i v hv hl with h | h
      · rw [u] at h; exact absurd h List.not_mem_nil
      · exact absurd h (none _)
  · rcases h.inv.isOpen i v hv ho with h | h | h
    · rw [hconn i v hv] at h; cases h
    · exact h
    · exact absurd h (none _)
  · intro p hp; rw [hr p hp]; exact List.nil_suffix

theorem Dead.step {s : RunSt} (h : Dead s) (a : RunAct) : Dead (s.step answer a) := by
  rcases env_or a with ha | rfl | ⟨k, rfl⟩
  · obtain ⟨e1, e2, e3, e4, -, hv⟩ := step_env (answer := answer) s ha
    refine ⟨by rw [e2, h.mcast], by rw [e3, h.ucast], fun i v' hi => ?_, by rw [e1]; exact h.calls, by rw [e4, h.up]⟩
    obtain ⟨v, hi', w⟩ := hv i v' hi
    obtain ⟨a, b, c⟩ := h.server i v hi'
    have hc : v'.conn = false := by
      cases hc : v'.conn with
      | false => rfl
      | true => rw [w.conn hc] at a; cases a
    refine ⟨hc, by rw [w.listening, b], fun ho => ?_⟩
    rcases w.held ho (.inr (c (w.isOpen ho))) with h | h
    · rw [hc] at h; cases h
    · exact h
  · exact ⟨h.mcast, h.ucast, h.server, fun p hp => by
      rcases List.mem_append.mp hp with hp | hp
      · exact h.calls p hp
      · rw [List.mem_singleton.mp hp]; exact List.suffix_refl _, h.up⟩
  · rcases step_call (answer := answer) s k with ⟨i, rest, hk, e⟩ | ⟨-, e⟩
    · rw [e]
      obtain ⟨e1, -, -, -, -, -, e2, e3, hv⟩ := exec_frame s rest i
      have hsuf := h.calls _ (List.mem_of_getElem? hk)
      have hi : (s.exec rest i).2 = rest ∧ (s.exec rest i).1.crashed = false := by
        have hm : i ∈ RunSt.stopProgram := hsuf.subset List.mem_cons_self
        simp only [RunSt.stopProgram, List.mem_cons, List.not_mem_nil, or_false] at hm
        rcases hm with rfl | rfl | rfl | rfl <;> simp [RunSt.exec, h.mcast, h.ucast, h.up]
      refine ⟨?_, ?_, fun j v' hj => ?_, fun p hp => ?_, hi.2⟩
      · rcases e2 with e | ⟨-, e⟩
        · exact e.trans h.mcast
        · exact e
      · rcases e3 with e | ⟨-, e⟩
        · exact e.trans h.ucast
        · exact e
      · obtain ⟨v, hj', w⟩ := hv j v' hj
        obtain ⟨a, b, c⟩ := h.server j v hj'
        refine ⟨?_, ?_, fun ho => w.pc.trans (c (w.isOpen ho))⟩
        · cases hc : v'.conn with
          | false => rfl
          | true => rw [w.conn hc] at a; cases a
        · cases hc : v'.listening with
          | false => rfl
          | true => rw [w.listening hc] at b; cases b
      · rw [hi.1, e1] at hp
        rcases List.mem_or_eq_of_mem_set hp with hp | rfl
        · exact h.calls p hp
        · exact (List.suffix_cons i p).trans hsuf
    · rw [e]; exact h

end Shut

end Verif.Lemmas
