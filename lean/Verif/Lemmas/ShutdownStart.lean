import Verif.Lemmas.ShutdownReply
import Verif.Spec.Shutdown

/-! # Lemmas about a started node -/

namespace Verif.Lemmas.Shut

open Verif.Model Verif.Spec

section

variable (answer : List Message → Message → Option Message) (tcps : List Bool) (links : List Nat)

/-- `Start` returns. -/
theorem start_returns : ∃ acts, .stop ∉ acts ∧ Returned ((RunSt.starting tcps links).run answer acts) ∧
    ((RunSt.starting tcps links).run answer acts).crashed = false ∧
    CallFrame (RunSt.starting tcps links) ((RunSt.starting tcps links).run answer acts) ∧
    (∀ (i : Nat) v, (RunSt.starting tcps links).servers[i]? = some v →
      ∃ w, ((RunSt.starting tcps links).run answer acts).servers[i]? = some { v with via := w }) ∧
    ((RunSt.starting tcps links).run answer acts).calls = [[]] := by
  obtain ⟨h1, h2, h3, h4⟩ := links_run (answer := answer) (links.mapIdx fun k j => .link (tcps.length + k) j)
    (RunSt.starting tcps links) rfl rfl (fun x hx => by
      obtain ⟨k, hk, rfl⟩ := List.mem_mapIdx.mp hx; exact ⟨_, _, rfl⟩)
  refine ⟨_, ?_, ?_, h2, h3, h4, h1⟩
  · intro h; have := (List.mem_replicate.mp h).2; cases this
  · intro p hp; rw [h1] at hp; exact List.mem_singleton.mp hp

theorem inv_run (acts) : Inv ((RunSt.starting tcps links).run answer acts) :=
  run_inv _ (fun _ a h _ => h.step a) _ _ (inv_starting tcps links)

theorem calm_run {s : RunSt} (h : Calm s) (acts) (ha : OneAtATime answer s acts) : Calm (s.run answer acts) := by
  induction acts generalizing s with
  | nil => exact h
  | cons a acts ih =>
    rw [run_cons _ _ _ h.up]
    exact ih (h.step a ha.1) ha.2

theorem oneAtATime_noStop (s : RunSt) (acts) (h : .stop ∉ acts) : OneAtATime answer s acts := by
  induction acts generalizing s with
  | nil => trivial
  | cons a acts ih => exact ⟨fun e => absurd (e ▸ List.mem_cons_self) h, ih _ fun hm => h (List.mem_cons_of_mem _ hm)⟩

theorem oneAtATime_append (s : RunSt) (as bs) (h : OneAtATime answer s as)
    (hc : (s.run answer as).crashed = false)
    (h' : OneAtATime answer (s.run answer as) bs) : OneAtATime answer s (as ++ bs) := by
  induction as generalizing s with
  | nil => exact h'
  | cons a as ih =>
    have hcr : s.crashed = false := by
      cases e : s.crashed with
      | false => rfl
      | true => rw [run_crashed _ _ e, e] at hc; cases hc
    rw [run_cons _ _ _ hcr] at hc h'
    exact ⟨h.1, ih _ h.2 hc h'⟩

/-- A server of a node that has just been started waits for a datagram. -/
theorem waiting {s : RunSt} (h : ∀ (i : Nat) v, (RunSt.starting tcps links).servers[i]? = some v →
      ∃ w, s.servers[i]? = some { v with via := w }) {i} (hi : i < tcps.length + links.length) :
    ∃ v, s.servers[i]? = some v ∧ v.pc = .select ∧ v.conn = true ∧ v.isOpen = true ∧ v.stopped = false ∧
      v.queue = [] ∧ (v.listening = true ↔ tcps[i]? = some true) := by
  have hlt : i < (RunSt.starting tcps links).servers.length := by simpa [RunSt.starting] using hi
  obtain ⟨w, hw⟩ := h i _ (List.getElem?_eq_getElem hlt)
  refine ⟨_, hw, ?_⟩
  rcases starting_get tcps links i _ (List.getElem?_eq_getElem hlt) with ⟨t, ht, e⟩ | ⟨h1, -, e⟩ <;> rw [e]
  · refine ⟨rfl, rfl, rfl, rfl, rfl, ?_⟩
    rw [ht]
    show t = true ↔ _
    simp
  · refine ⟨rfl, rfl, rfl, rfl, rfl, ?_⟩
    rw [List.getElem?_eq_none h1]
    simp [Live.multicast]

theorem decode_ok {k d m} (h : Message.newWithBytes (d.data.take maxPacketSize) = .ok m) :
    RunSt.decode k d = some { m with src := d.peer, pktType := k.packetType } := by
  unfold RunSt.decode
  rw [h]

theorem run_inv_noStop (acts) (h : .stop ∉ acts) :
    ((RunSt.starting tcps links).run answer acts).ucast = List.range tcps.length := by
  have key : ∀ (s : RunSt) (acts : List RunAct), .stop ∉ acts →
      (∃ p, s.calls = [p] ∧ ∀ x ∈ p, ∃ i j, x = .link i j) → (s.run answer acts).ucast = s.ucast := by
    intro s acts
    induction acts generalizing s with
    | nil => intro _ _; rfl
    | cons a acts ih =>
      intro h hp
      cases hc : s.crashed with
      | true => rw [run_crashed _ _ hc]
      | false =>
        rw [run_cons _ _ _ hc]
        have h' : .stop ∉ acts := fun hm => h (List.mem_cons_of_mem _ hm)
        rcases env_or a with ha | rfl | ⟨k, rfl⟩
        · obtain ⟨e1, -, e3, -⟩ := step_env (answer := answer) s ha
          rw [ih _ h' (by rw [e1]; exact hp), e3]
        · exact absurd List.mem_cons_self h
        · rcases step_call (answer := answer) s k with ⟨i, rest, hk, e⟩ | ⟨-, e⟩
          · obtain ⟨e1, -, -, -, -, -, -, e3, -⟩ := exec_frame s rest i
            obtain ⟨p, hp, hlk⟩ := hp
            rw [hp] at hk
            have hk0 : k = 0 := by
              have := (List.getElem?_eq_some_iff.mp hk).1
              simp at this; exact this
            subst hk0
            have hpe : p = i :: rest := by simpa using hk
            subst hpe
            obtain ⟨a, b, rfl⟩ := hlk i List.mem_cons_self
            rw [ih _ h', e]
            · rfl
            · rw [e]
              refine ⟨rest, ?_, fun x hx => hlk x (List.mem_cons_of_mem _ hx)⟩
              show s.calls.set 0 rest = _
              rw [hp]; rfl
          · rw [e]; exact ih _ h' hp
  exact key _ acts h ⟨_, rfl, fun x hx => by obtain ⟨k, hk, rfl⟩ := List.mem_mapIdx.mp hx; exact ⟨_, _, rfl⟩⟩

/-! ## After `Stop` has returned -/

theorem stepReply_msgs (s : RunSt) (h : Nat) (x) (hx : s.replying[h]? = some x) :
    (s.stepReply answer h x).replying.map (·.msg) = s.replying.map (·.msg) ∧
    (s.stepReply answer h x).servers = s.servers := by
  refine ⟨?_, (stepReply_servers s h x).1⟩
  have key : ∀ pc, (s.replying.set h { x with pc := pc }).map (·.msg) = s.replying.map (·.msg) := by
    intro pc
    refine List.ext_getElem? fun j => ?_
    rw [List.getElem?_map, List.getElem?_map, List.getElem?_set]
    split
    · rename_i e; subst e
      rw [if_pos (List.getElem?_eq_some_iff.mp hx).1, hx]; rfl
    · rfl
  unfold RunSt.stepReply
  split <;> first | exact key _ | rfl | (split <;> exact key _)

/-- What the receive goroutines have in hand after a step of a stopped node, and what they handed over. -/
theorem dead_step {s : RunSt} (h : Dead s) (a : RunAct) :
    ((s.step answer a).replying.map (·.msg) = s.replying.map (·.msg) ∧
      ∀ i m, inHand (s.step answer a) i = some m → inHand s i = some m) ∨
    ∃ i m, inHand s i = some m ∧ (s.step answer a).replying = s.replying ++ [⟨i, m, .handle⟩] ∧
      inHand (s.step answer a) i = none ∧ ∀ j m, inHand (s.step answer a) j = some m → inHand s j = some m := by
  have same : ∀ s' : RunSt, s'.servers = s.servers → ∀ i m, inHand s' i = some m → inHand s i = some m := by
    intro s' e i m hm; unfold inHand at *; rw [e] at hm; exact hm
  have low : ∀ s' : RunSt, CallFrame s s' → ∀ i m, inHand s' i = some m → inHand s i = some m := by
    intro s' f i m hm
    unfold inHand at *
    cases hv : s'.servers[i]? with
    | none => rw [hv] at hm; cases hm
    | some v' =>
      obtain ⟨v, hv', l⟩ := f.server i v' hv
      rw [hv, Option.map_some, l.pc] at hm
      rw [hv', Option.map_some]
      exact hm
  cases a with
  | stop => exact .inl ⟨rfl, same _ rfl⟩
  | call k =>
    have f := callFrame_step (answer := answer) s (a := .call k) (.inr ⟨k, rfl⟩)
    exact .inl ⟨by rw [f.replying], low _ f⟩
  | arrive i d =>
    left
    simp only [RunSt.step]
    split
    · refine ⟨rfl, fun j m hm => ?_⟩
      have e : ((s.onServer i fun v => { v with queue := v.queue ++ [d] }).servers[j]?).map Live.pc =
          (s.servers[j]?).map Live.pc := by
        rw [get_onServer, Option.map_map]
        congr 1
        funext v
        dsimp only [Function.comp]
        split <;> rfl
      unfold inHand at *
      rw [e] at hm
      exact hm
    · exact ⟨rfl, fun _ _ => id⟩
  | loop i =>
    simp only [RunSt.step]
    cases hi : s.servers[i]? with
    | none => exact .inl ⟨rfl, fun _ _ => id⟩
    | some v =>
      have hlt := (List.getElem?_eq_some_iff.mp hi).1
      obtain ⟨hc, -, ho⟩ := h.server i v hi
      have notGot : ∀ m, (RunSt.stepLoop v).1.pc ≠ .got m := by
        intro m hm
        have lv : ∀ w : Live, (RunSt.leave w).pc ≠ .got m := by
          intro w; rcases leave_cases w with ⟨-, e⟩ | ⟨-, e⟩ <;> rw [e] <;> simp
        unfold RunSt.stepLoop at hm
        cases hp : v.pc with
        | read held =>
          have : v.isOpen = false := by
            cases hoo : v.isOpen with
            | false => rfl
            | true => rw [ho hoo] at hp; cases hp
          rw [hp] at hm
          dsimp only at hm
          rw [if_pos (by simp [this])] at hm
          exact lv _ hm
        | select => rw [hp] at hm; dsimp only at hm; split at hm; exact lv _ hm; cases hm
        | check => rw [hp] at hm; dsimp only at hm; split at hm; cases hm; exact lv _ hm
        | closing => rw [hp] at hm; dsimp only at hm; split at hm <;> cases hm
        | ended => rw [hp] at hm; dsimp only at hm; rw [hp] at hm; cases hm
        | load => rw [hp] at hm; cases hm
        | got m' => rw [hp] at hm; cases hm
        | clearing => rw [hp] at hm; cases hm
        | shutting => rw [hp] at hm; cases hm
      have hands : ∀ (s' : RunSt), s'.servers = s.servers.set i (RunSt.stepLoop v).1 →
          (inHand s' i = none) ∧ ∀ j m, inHand s' j = some m → inHand s j = some m := by
        intro s' e
        have h0 : inHand s' i = none := by
          unfold inHand
          rw [e, List.getElem?_set_self hlt, Option.map_some]
          split
          · rename_i m he; exact absurd (Option.some.inj he) (notGot m)
          · rfl
        refine ⟨h0, fun j m hm => ?_⟩
        by_cases hij : i = j
        · subst hij; rw [h0] at hm; cases hm
        · unfold inHand at *
          rw [e, List.getElem?_set_ne hij] at hm
          exact hm
      cases hn : (RunSt.stepLoop v).2 with
      | none => exact .inl ⟨by simp only [hn], (hands _ rfl).2⟩
      | some m =>
        right
        have hp : v.pc = .got m := by
          unfold RunSt.stepLoop at hn
          cases hp : v.pc <;> rw [hp] at hn <;> dsimp only at hn
          case read held =>
            split at hn
            · cases hn
            · split at hn
              · cases hn
              · split at hn <;> cases hn
          case got m' => cases hn; rfl
          all_goals cases hn
        refine ⟨i, m, ?_, by simp only [hn], (hands _ rfl).1, (hands _ rfl).2⟩
        unfold inHand
        rw [hi, Option.map_some, hp]
  | reply h =>
    left
    simp only [RunSt.step]
    cases hx : s.replying[h]? with
    | none => exact ⟨rfl, fun _ _ => id⟩
    | some x =>
      obtain ⟨a, b⟩ := stepReply_msgs answer s h x hx
      exact ⟨a, same _ b⟩
  | accept i =>
    left
    simp only [RunSt.step]
    split <;> exact ⟨rfl, same _ rfl⟩
  | request c m =>
    left
    simp only [RunSt.step]
    split <;> exact ⟨rfl, same _ rfl⟩
  | answer c =>
    left
    simp only [RunSt.step]
    split <;> exact ⟨rfl, same _ rfl⟩

theorem stepReply_more (s : RunSt) (h : Nat) (x) :
    (∀ m ∈ (s.stepReply answer h x).seen, m ∈ s.seen ∨ x.pc = .handle ∧ x.msg = m) ∧
    ∀ y ∈ (s.stepReply answer h x).replying, y.pc = .handle → y ∈ s.replying := by
  have key : ∀ pc, pc ≠ .handle → ∀ y ∈ s.replying.set h { x with pc := pc }, y.pc = .handle → y ∈ s.replying := by
    intro pc hpc y hy hh
    rcases List.mem_or_eq_of_mem_set hy with hy | rfl
    · exact hy
    · exact absurd hh hpc
  have id' : ∀ m ∈ s.seen, m ∈ s.seen ∨ x.pc = .handle ∧ x.msg = m := fun m hm => .inl hm
  unfold RunSt.stepReply
  cases hp : x.pc with
  | handle =>
    dsimp only
    refine ⟨fun m hm => ?_, key _ ?_⟩
    · rcases List.mem_append.mp hm with hm | hm
      · exact .inl hm
      · exact .inr ⟨rfl, (List.mem_singleton.mp hm).symm⟩
    · split <;> simp
  | via r => exact ⟨fun m hm => .inl hm, key _ (by split <;> simp)⟩
  | check j r => exact ⟨fun m hm => .inl hm, key _ (by split <;> simp)⟩
  | load j r => exact ⟨fun m hm => .inl hm, key _ (by split <;> simp)⟩
  | write j r =>
    dsimp only
    split <;> exact ⟨fun m hm => .inl hm, key _ (by simp)⟩
  | dial r => exact ⟨fun m hm => .inl hm, key _ (by simp)⟩
  | done r => exact ⟨fun m hm => .inl hm, fun y hy _ => hy⟩

theorem dead_more {s : RunSt} (h : Dead s) (a : RunAct) :
    (s.step answer a).conns.length = s.conns.length ∧
    (∀ m ∈ (s.step answer a).seen, m ∈ s.seen ∨ (∃ x ∈ s.replying, x.pc = .handle ∧ x.msg = m) ∨
      ∃ c < s.conns.length, a = .request c m) ∧
    ∀ y ∈ (s.step answer a).replying, y.pc = .handle → y ∈ s.replying ∨ ∃ i, inHand s i = some y.msg := by
  have triv : s.conns.length = s.conns.length ∧
      (∀ m ∈ s.seen, m ∈ s.seen ∨ (∃ x ∈ s.replying, x.pc = .handle ∧ x.msg = m) ∨ ∃ c < s.conns.length, a = .request c m) ∧
      ∀ y ∈ s.replying, y.pc = .handle → y ∈ s.replying ∨ ∃ i, inHand s i = some y.msg :=
    ⟨rfl, fun m hm => .inl hm, fun y hy _ => .inl hy⟩
  cases a with
  | stop => exact triv
  | call k =>
    have f := callFrame_step (answer := answer) s (a := .call k) (.inr ⟨k, rfl⟩)
    rw [f.conns, f.seen, f.replying]
    exact triv
  | arrive i d =>
    simp only [RunSt.step]
    split <;> exact triv
  | loop i =>
    rcases dead_step answer h (.loop i) with ⟨-, -⟩ | ⟨j, m, hj, e, -, -⟩
    · simp only [RunSt.step]
      cases hi : s.servers[i]? with
      | none => exact triv
      | some v =>
        dsimp only
        refine ⟨triv.1, triv.2.1, fun y hy hh => ?_⟩
        cases hn : (RunSt.stepLoop v).2 with
        | none => rw [hn] at hy; exact .inl hy
        | some m =>
          rw [hn] at hy
          rcases List.mem_append.mp hy with hy | hy
          · exact .inl hy
          · have hp : v.pc = .got m := by
              unfold RunSt.stepLoop at hn
              cases hp : v.pc <;> rw [hp] at hn <;> dsimp only at hn
              case read held =>
                split at hn
                · cases hn
                · split at hn
                  · cases hn
                  · split at hn <;> cases hn
              case got m' => cases hn; rfl
              all_goals cases hn
            rw [List.mem_singleton.mp hy]
            refine .inr ⟨i, ?_⟩
            unfold inHand
            rw [hi, Option.map_some, hp]
    · refine ⟨?_, ?_, fun y hy _ => ?_⟩
      · simp only [RunSt.step]; split <;> rfl
      · have : (s.step answer (.loop i)).seen = s.seen := by simp only [RunSt.step]; split <;> rfl
        rw [this]; exact triv.2.1
      · rw [e] at hy
        rcases List.mem_append.mp hy with hy | hy
        · exact .inl hy
        · rw [List.mem_singleton.mp hy]; exact .inr ⟨j, hj⟩
  | reply h' =>
    simp only [RunSt.step]
    cases hx : s.replying[h']? with
    | none => exact triv
    | some x =>
      obtain ⟨a, b⟩ := stepReply_more answer s h' x
      dsimp only
      refine ⟨by rw [(stepReply_servers (answer := answer) s h' x).2.2.2.2.2], fun m hm => ?_, fun y hy hh => .inl (b y hy hh)⟩
      rcases a m hm with h | ⟨h1, h2⟩
      · exact .inl h
      · exact .inr (.inl ⟨x, List.mem_of_getElem? hx, h1, h2⟩)
  | accept i =>
    simp only [RunSt.step]
    have : ((s.servers[i]?).map (·.listening)).getD false = false := by
      cases hi : s.servers[i]? with
      | none => rfl
      | some v => exact (h.server i v hi).2.1
    rw [this]
    exact triv
  | request c m =>
    simp only [RunSt.step]
    split
    · rename_i hc
      refine ⟨by simp, fun m' hm => ?_, triv.2.2⟩
      rcases List.mem_append.mp hm with hm | hm
      · exact .inl hm
      · rw [List.mem_singleton.mp hm]
        exact .inr (.inr ⟨c, (List.getElem?_eq_some_iff.mp hc).1, rfl⟩)
    · exact triv
  | answer c =>
    simp only [RunSt.step]
    split
    · exact ⟨by simp, triv.2.1, triv.2.2⟩
    · exact triv

theorem dead_run {s : RunSt} (h : Dead s) (later) : Dead (s.run answer later) :=
  run_inv _ (fun _ a h _ => h.step a) _ _ h

theorem dead_handed {s : RunSt} (h : Dead s) (later) :
    ∃ js : List Nat, js.Nodup ∧ (∀ j ∈ js, (inHand s j).isSome) ∧
      ((s.run answer later).replying.map (·.msg)).map some =
        (s.replying.map (·.msg)).map some ++ js.map (inHand s) := by
  induction later generalizing s with
  | nil => exact ⟨[], List.nodup_nil, by simp, by simp [run_nil]⟩
  | cons a later ih =>
    rw [run_cons _ _ _ h.up]
    obtain ⟨js, hnd, hsome, e⟩ := ih (h.step (answer := answer) a)
    rcases dead_step answer h a with ⟨er, hin⟩ | ⟨i, m, hi, er, hi', hin⟩
    · have hsame : ∀ j ∈ js, inHand (s.step answer a) j = inHand s j := by
        intro j hj
        obtain ⟨m, hm⟩ := Option.isSome_iff_exists.mp (hsome j hj)
        rw [hm, hin j m hm]
      refine ⟨js, hnd, fun j hj => by rw [← hsame j hj]; exact hsome j hj, ?_⟩
      rw [e, er, List.map_congr_left hsame]
    · have hsame : ∀ j ∈ js, inHand (s.step answer a) j = inHand s j := by
        intro j hj
        obtain ⟨m, hm⟩ := Option.isSome_iff_exists.mp (hsome j hj)
        rw [hm, hin j m hm]
      have hni : i ∉ js := by
        intro hj
        have := hsome i hj
        rw [hi'] at this; cases this
      refine ⟨i :: js, List.nodup_cons.mpr ⟨hni, hnd⟩, ?_, ?_⟩
      · intro j hj
        rcases List.mem_cons.mp hj with rfl | hj
        · rw [hi]; rfl
        · rw [← hsame j hj]; exact hsome j hj
      · rw [e, er, List.map_congr_left hsame]
        simp [hi]

theorem dead_seen {s : RunSt} (h : Dead s) (later) (m) (hm : m ∈ (s.run answer later).seen) :
    m ∈ s.seen ∨ (∃ x ∈ s.replying, x.pc = .handle ∧ x.msg = m) ∨ (∃ i, inHand s i = some m) ∨
      ∃ c < s.conns.length, .request c m ∈ later := by
  induction later generalizing s with
  | nil => exact .inl hm
  | cons a later ih =>
    rw [run_cons _ _ _ h.up] at hm
    obtain ⟨h1, h2, h3⟩ := dead_more answer h a
    have hin : ∀ i m, inHand (s.step answer a) i = some m → inHand s i = some m := by
      rcases dead_step answer h a with ⟨-, hin⟩ | ⟨i, m, -, -, -, hin⟩ <;> exact hin
    rcases ih (h.step a) hm with hh | ⟨x, hx, hp, e⟩ | ⟨i, hi⟩ | ⟨c, hc, hr⟩
    · rcases h2 m hh with hh | hh | ⟨c, hc, e⟩
      · exact .inl hh
      · exact .inr (.inl hh)
      · exact .inr (.inr (.inr ⟨c, hc, e ▸ List.mem_cons_self⟩))
    · rcases h3 x hx hp with hx | ⟨i, hi⟩
      · exact .inr (.inl ⟨x, hx, hp, e⟩)
      · exact .inr (.inr (.inl ⟨i, e ▸ hi⟩))
    · exact .inr (.inr (.inl ⟨i, hin i m hi⟩))
    · exact .inr (.inr (.inr ⟨c, h1 ▸ hc, List.mem_cons_of_mem _ hr⟩))

/-- How many steps a receive goroutine of a stopped node can still make. -/
def rank : LoopPc → Nat
  | .got _ => 6
  | .select => 5
  | .load => 5
  | .check => 4
  | .read _ => 4
  | .closing => 3
  | .clearing => 2
  | .shutting => 1
  | .ended => 0

theorem rank_leave (v : Live) : rank (RunSt.leave v).pc ≤ 3 := by
  rcases leave_cases v with ⟨-, e⟩ | ⟨-, e⟩ <;> rw [e] <;> simp [rank]

theorem rank_step {v : Live} (hc : v.conn = false) (ho : v.isOpen = true → v.pc = .shutting) :
    rank (RunSt.stepLoop v).1.pc ≤ rank v.pc - 1 := by
  unfold RunSt.stepLoop
  have hl := rank_leave v
  cases hp : v.pc with
  | select =>
    dsimp only
    split
    · have : rank LoopPc.select - 1 = 4 := rfl
      omega
    · exact Nat.le_refl _
  | check =>
    dsimp only
    rw [hc]
    exact hl
  | load => exact Nat.le_refl _
  | read held =>
    have : v.isOpen = false := by
      cases hoo : v.isOpen with
      | false => rfl
      | true => rw [ho hoo] at hp; cases hp
    dsimp only
    rw [if_pos (by simp [this])]
    exact hl
  | got m => exact Nat.le_refl _
  | closing => dsimp only; rw [hc]; simp [rank]
  | clearing => exact Nat.le_refl _
  | shutting => exact Nat.le_refl _
  | ended => dsimp only; rw [hp]; exact Nat.le_refl _

theorem dead_ends {s : RunSt} (h : Dead s) (later) (i : Nat) {v} (hi : s.servers[i]? = some v) :
    ∃ v', (s.run answer later).servers[i]? = some v' ∧ rank v'.pc ≤ rank v.pc - later.count (.loop i) := by
  induction later generalizing s v with
  | nil => exact ⟨v, hi, by simp⟩
  | cons a later ih =>
    rw [run_cons _ _ _ h.up]
    have other : (∃ w, (s.step answer a).servers[i]? = some w ∧ w.pc = v.pc) → a ≠ .loop i →
        ∃ v', ((s.step answer a).run answer later).servers[i]? = some v' ∧
          rank v'.pc ≤ rank v.pc - (a :: later).count (.loop i) := by
      rintro ⟨w, hw, e⟩ hne
      obtain ⟨v', hv', hr⟩ := ih (h.step a) hw
      rw [e] at hr
      rw [List.count_cons_of_ne hne]
      exact ⟨v', hv', hr⟩
    cases a with
    | loop j =>
      by_cases e : j = i
      · subst e
        have hlt := (List.getElem?_eq_some_iff.mp hi).1
        obtain ⟨hc, -, ho⟩ := h.server j v hi
        have hstep : (s.step answer (.loop j)).servers[j]? = some (RunSt.stepLoop v).1 := by
          simp only [RunSt.step, hi]
          exact List.getElem?_set_self hlt
        obtain ⟨v', hv', hr⟩ := ih (h.step (.loop j)) hstep
        refine ⟨v', hv', ?_⟩
        have := rank_step hc ho
        rw [List.count_cons_self]
        omega
      · refine other ⟨v, ?_, rfl⟩ (by simpa using e)
        simp only [RunSt.step]
        cases hj : s.servers[j]? with
        | none => exact hi
        | some w => dsimp only; rw [List.getElem?_set_ne e]; exact hi
    | stop => exact other ⟨v, hi, rfl⟩ (by simp)
    | call k =>
      have f := callFrame_step (answer := answer) s (a := .call k) (.inr ⟨k, rfl⟩)
      obtain ⟨w, hw, l⟩ := f.get hi
      exact other ⟨w, hw, l.pc⟩ (by simp)
    | arrive j d =>
      refine other ?_ (by simp)
      simp only [RunSt.step]
      split
      · rw [get_onServer, hi]
        refine ⟨_, rfl, ?_⟩
        dsimp only
        split <;> rfl
      · exact ⟨v, hi, rfl⟩
    | reply h' =>
      refine other ⟨v, ?_, rfl⟩ (by simp)
      simp only [RunSt.step]
      cases hx : s.replying[h']? with
      | none => exact hi
      | some x => dsimp only; rw [(stepReply_servers (answer := answer) s h' x).1]; exact hi
    | accept j =>
      refine other ⟨v, ?_, rfl⟩ (by simp)
      simp only [RunSt.step]
      split <;> exact hi
    | request c m =>
      refine other ⟨v, ?_, rfl⟩ (by simp)
      simp only [RunSt.step]
      split <;> exact hi
    | answer c =>
      refine other ⟨v, ?_, rfl⟩ (by simp)
      simp only [RunSt.step]
      split <;> exact hi

/-! ## Two overlapping calls of `Stop` -/

/-- The first call made after `Start` has `p` to do and the second `q`. -/
structure Two (s : RunSt) (p q : List Instr) (us : List Nat) : Prop where
  up : s.crashed = false
  first : s.calls[1]? = some p
  second : s.calls[2]? = some q
  ucast : s.ucast = us
  flag : fld s (·.stopped) 0 = false

theorem Two.call1 {s : RunSt} {i p q us} (h : Two s (i :: p) q us) (h1 : ∀ n, i ≠ .halt n)
    (h2 : ∀ n, i ≠ .haltTcp n) (h3 : i ≠ .forgetU) :
    Two (s.step answer (.call 1)) (s.exec p i).2 q us := by
  obtain ⟨e1, -, -, -, -, -, -, e3, -⟩ := exec_frame s p i
  obtain ⟨f1, -, f3⟩ := exec_flags s p i h1 h2 0
  rcases step_call (answer := answer) s 1 with ⟨j, rest, hk, e⟩ | ⟨hk, -⟩
  · rw [h.first] at hk
    cases hk
    rw [e]
    refine ⟨f3.trans h.up, ?_, ?_, ?_, f1.trans h.flag⟩
    · dsimp only; rw [e1, List.getElem?_set_self (List.getElem?_eq_some_iff.mp h.first).1]
    · dsimp only; rw [e1, List.getElem?_set_ne (by omega)]; exact h.second
    · rcases e3 with e | ⟨e, -⟩
      · exact e.trans h.ucast
      · exact absurd e h3
  · rw [h.first] at hk; simp at hk

theorem Two.call2 {s : RunSt} {i p q us} (h : Two s p (i :: q) us) (h1 : ∀ n, i ≠ .halt n)
    (h2 : ∀ n, i ≠ .haltTcp n) (h3 : i ≠ .forgetU) :
    Two (s.step answer (.call 2)) p (s.exec q i).2 us := by
  obtain ⟨e1, -, -, -, -, -, -, e3, -⟩ := exec_frame s q i
  obtain ⟨f1, -, f3⟩ := exec_flags s q i h1 h2 0
  rcases step_call (answer := answer) s 2 with ⟨j, rest, hk, e⟩ | ⟨hk, -⟩
  · rw [h.second] at hk
    cases hk
    rw [e]
    refine ⟨f3.trans h.up, ?_, ?_, ?_, f1.trans h.flag⟩
    · dsimp only; rw [e1, List.getElem?_set_ne (by omega)]; exact h.first
    · dsimp only; rw [e1, List.getElem?_set_self (List.getElem?_eq_some_iff.mp h.second).1]
    · rcases e3 with e | ⟨e, -⟩
      · exact e.trans h.ucast
      · exact absurd e h3
  · rw [h.second] at hk; simp at hk

theorem closing_not {i} (h : Closing i) : (∀ n, i ≠ .halt n) ∧ (∀ n, i ≠ .haltTcp n) ∧ i ≠ .forgetU := by
  obtain ⟨n, rfl | rfl | rfl⟩ := h <;> simp

theorem Two.drain1 {s : RunSt} {cs q us} (hcl : ∀ x ∈ cs, Closing x)
    (h : Two s (cs ++ [.forgetM, .takeU, .forgetU]) q us) :
    ∃ n, Two (s.run answer (List.replicate n (.call 1))) [.takeU, .forgetU] q us := by
  obtain ⟨M, hM⟩ : ∃ M, s.mcast.length ≤ M := ⟨_, Nat.le_refl _⟩
  obtain ⟨U, hU⟩ : ∃ U, s.ucast.length ≤ U := ⟨_, Nat.le_refl _⟩
  obtain ⟨w, hle⟩ : ∃ w, weight M U (cs ++ [.forgetM, .takeU, .forgetU]) ≤ w := ⟨_, Nat.le_refl _⟩
  induction w generalizing s cs with
  | zero =>
    have := weight_zero (M := M) (U := U) (Nat.le_zero.mp hle)
    simp at this
  | succ w ih =>
    cases cs with
    | nil => exact ⟨1, by rw [List.replicate_one, run_cons _ _ _ h.up, run_nil]
                          exact h.call1 answer (by simp) (by simp) (by simp)⟩
    | cons c cs =>
      obtain ⟨n1, n2, n3⟩ := closing_not (hcl c List.mem_cons_self)
      rw [List.cons_append] at h
      have h' := h.call1 answer n1 n2 n3
      obtain ⟨ds, e, hd⟩ := closing_exec (s := s) (rest := cs) (p := [.forgetM, .takeU, .forgetU])
        (hcl c List.mem_cons_self) rfl
      have hwt := weight_exec s (rest := cs ++ [.forgetM, .takeU, .forgetU]) (i := c) hM hU
      obtain ⟨l1, l2⟩ := lists_step (answer := answer) s (.call 1)
      rw [e] at h' hwt
      obtain ⟨n, hn⟩ := ih (s := s.step answer (.call 1)) (cs := ds ++ cs) (fun x hx => by
          rcases List.mem_append.mp hx with hx | hx
          · exact hd x hx
          · exact hcl x (List.mem_cons_of_mem _ hx)) h'
        (Nat.le_trans l1 hM) (Nat.le_trans l2 hU) (Nat.le_of_succ_le_succ (Nat.le_trans hwt hle))
      exact ⟨n + 1, by rw [List.replicate_succ, run_cons _ _ _ h.up]; exact hn⟩

theorem Two.drain2 {s : RunSt} {cs p us} (hcl : ∀ x ∈ cs, Closing x)
    (h : Two s p (cs ++ [.forgetM, .takeU, .forgetU]) us) :
    ∃ n, Two (s.run answer (List.replicate n (.call 2))) p [.takeU, .forgetU] us := by
  obtain ⟨M, hM⟩ : ∃ M, s.mcast.length ≤ M := ⟨_, Nat.le_refl _⟩
  obtain ⟨U, hU⟩ : ∃ U, s.ucast.length ≤ U := ⟨_, Nat.le_refl _⟩
  obtain ⟨w, hle⟩ : ∃ w, weight M U (cs ++ [.forgetM, .takeU, .forgetU]) ≤ w := ⟨_, Nat.le_refl _⟩
  induction w generalizing s cs with
  | zero =>
    have := weight_zero (M := M) (U := U) (Nat.le_zero.mp hle)
    simp at this
  | succ w ih =>
    cases cs with
    | nil => exact ⟨1, by rw [List.replicate_one, run_cons _ _ _ h.up, run_nil]
                          exact h.call2 answer (by simp) (by simp) (by simp)⟩
    | cons c cs =>
      obtain ⟨n1, n2, n3⟩ := closing_not (hcl c List.mem_cons_self)
      rw [List.cons_append] at h
      have h' := h.call2 answer n1 n2 n3
      obtain ⟨ds, e, hd⟩ := closing_exec (s := s) (rest := cs) (p := [.forgetM, .takeU, .forgetU])
        (hcl c List.mem_cons_self) rfl
      have hwt := weight_exec s (rest := cs ++ [.forgetM, .takeU, .forgetU]) (i := c) hM hU
      obtain ⟨l1, l2⟩ := lists_step (answer := answer) s (.call 2)
      rw [e] at h' hwt
      obtain ⟨n, hn⟩ := ih (s := s.step answer (.call 2)) (cs := ds ++ cs) (fun x hx => by
          rcases List.mem_append.mp hx with hx | hx
          · exact hd x hx
          · exact hcl x (List.mem_cons_of_mem _ hx)) h'
        (Nat.le_trans l1 hM) (Nat.le_trans l2 hU) (Nat.le_of_succ_le_succ (Nat.le_trans hwt hle))
      exact ⟨n + 1, by rw [List.replicate_succ, run_cons _ _ _ h.up]; exact hn⟩

/-- Both calls reach the closing of the channel of the first unicast server. -/
theorem Two.crash {s : RunSt} {p q us} (h : Two s (.halt 0 :: p) (.halt 0 :: q) us) (hl : 0 < s.servers.length) :
    (s.run answer [.call 1, .call 2]).crashed = true := by
  have hs : ((s.servers[0]?).map (·.stopped)).getD false = false := h.flag
  have e1 : s.step answer (.call 1) =
      { s.onServer 0 (fun v => { v with stopped := true }) with calls := s.calls.set 1 p } := by
    simp only [RunSt.step, h.first, RunSt.exec, hs]
    rfl
  rw [run_cons _ _ _ h.up, e1, run_cons _ _ _ (by exact h.up), run_nil]
  have hk : (s.calls.set 1 p)[2]? = some (.halt 0 :: q) := by
    rw [List.getElem?_set_ne (by omega)]; exact h.second
  have hst : (((s.onServer 0 (fun v => { v with stopped := true })).servers[0]?).map (·.stopped)).getD false = true := by
    rw [get_onServer, List.getElem?_eq_getElem hl]; rfl
  simp only [RunSt.step, hk, RunSt.exec, hst]
  rfl

/-! ## The goroutines for messages -/

/-- How many steps the goroutine for a message can still make. -/
def replyRank : ReplyPc → Nat
  | .handle => 5
  | .via _ => 4
  | .check _ _ => 3
  | .load _ _ => 2
  | .write _ _ => 1
  | .dial _ => 1
  | .done _ => 0

theorem replyRank_step (s : RunSt) (h : Nat) (x) (hx : s.replying[h]? = some x) :
    ∃ pc, (s.stepReply answer h x).replying = s.replying.set h { x with pc := pc } ∧
      replyRank pc ≤ replyRank x.pc - 1 := by
  unfold RunSt.stepReply
  cases hp : x.pc with
  | handle =>
    refine ⟨_, rfl, ?_⟩
    cases answer s.seen x.msg <;> simp [replyRank]
  | via r =>
    refine ⟨_, rfl, ?_⟩
    cases (s.servers[x.server]?).bind (·.via) <;> simp [replyRank]
  | check j r => refine ⟨_, rfl, ?_⟩; split <;> simp [replyRank]
  | load j r => refine ⟨_, rfl, ?_⟩; split <;> simp [replyRank]
  | write j r => dsimp only; split <;> exact ⟨_, rfl, by simp [replyRank]⟩
  | dial r => exact ⟨_, rfl, by simp [replyRank]⟩
  | done r =>
    refine ⟨x.pc, ?_, by rw [hp]; simp [replyRank]⟩
    show s.replying = _
    refine List.ext_getElem? fun j => ?_
    rw [List.getElem?_set]
    split
    · rename_i e; subst e
      rw [if_pos (List.getElem?_eq_some_iff.mp hx).1, hx]
    · rfl

theorem reply_progress (s : RunSt) (acts) (h : Nat) {x} (hx : s.replying[h]? = some x)
    (hc : (s.run answer acts).crashed = false) :
    ∃ pc, (s.run answer acts).replying[h]? = some { x with pc := pc } ∧
      replyRank pc ≤ replyRank x.pc - acts.count (.reply h) := by
  induction acts generalizing s x with
  | nil => exact ⟨x.pc, hx, by simp⟩
  | cons a acts ih =>
    have hcr : s.crashed = false := by
      cases e : s.crashed with
      | false => rfl
      | true => rw [run_crashed _ _ e, e] at hc; cases hc
    rw [run_cons _ _ _ hcr] at hc ⊢
    have hlt := (List.getElem?_eq_some_iff.mp hx).1
    have other : (s.step answer a).replying[h]? = some x → a ≠ .reply h →
        ∃ pc, ((s.step answer a).run answer acts).replying[h]? = some { x with pc := pc } ∧
          replyRank pc ≤ replyRank x.pc - (a :: acts).count (.reply h) := by
      intro hx' hne
      rw [List.count_cons_of_ne hne]
      exact ih _ hx' hc
    cases a with
    | reply h' =>
      by_cases e : h' = h
      · subst e
        obtain ⟨pc, e1, e2⟩ := replyRank_step answer s h' x hx
        have hx' : (s.step answer (.reply h')).replying[h']? = some { x with pc := pc } := by
          simp only [RunSt.step, hx]
          rw [e1, List.getElem?_set_self hlt]
        obtain ⟨pc', e3, e4⟩ := ih _ hx' hc
        refine ⟨pc', e3, ?_⟩
        rw [List.count_cons_self]
        dsimp only at e4
        omega
      · refine other ?_ (by simpa using e)
        simp only [RunSt.step]
        cases hy : s.replying[h']? with
        | none => exact hx
        | some y =>
          obtain ⟨pc, e1, -⟩ := replyRank_step answer s h' y hy
          dsimp only
          rw [e1, List.getElem?_set_ne e]; exact hx
    | loop i =>
      refine other ?_ (by simp)
      simp only [RunSt.step]
      split
      · exact hx
      · dsimp only
        split
        · exact hx
        · rw [List.getElem?_append_left hlt]; exact hx
    | stop => exact other hx (by simp)
    | call k =>
      have f := callFrame_step (answer := answer) s (a := .call k) (.inr ⟨k, rfl⟩)
      exact other (by rw [f.replying]; exact hx) (by simp)
    | arrive j d => refine other ?_ (by simp); simp only [RunSt.step]; split <;> exact hx
    | accept j => refine other ?_ (by simp); simp only [RunSt.step]; split <;> exact hx
    | request c m => refine other ?_ (by simp); simp only [RunSt.step]; split <;> exact hx
    | answer c => refine other ?_ (by simp); simp only [RunSt.step]; split <;> exact hx

end

end Verif.Lemmas.Shut
