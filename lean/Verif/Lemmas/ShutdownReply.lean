import Verif.Lemmas.ShutdownRuns

/-! # Lemmas about replies and particular schedules of the machine of a running node -/

namespace Verif.Lemmas

open Verif.Model

variable {answer : List Message → Message → Option Message}

namespace Shut

/-- The unicast server that a server is to reply through. -/
def target (n : Nat) (links : List Nat) (i : Nat) : Option Nat := if i < n then some i else links[i - n]?

theorem target_lt {n links i j} (hl : ∀ j ∈ links, j < n) (h : target n links i = some j) : j < n := by
  unfold target at h
  split at h
  · cases h; assumption
  · exact hl j (List.mem_of_getElem? h)

theorem target_isSome {n i : Nat} {links : List Nat} (h : i < n + links.length) : ∃ j, target n links i = some j := by
  unfold target
  split
  · exact ⟨i, rfl⟩
  · exact ⟨links[i - n]'(by omega), List.getElem?_eq_getElem _⟩

/-- What is known of the goroutine for a message while nobody stops the node. -/
def ReplyOk (n : Nat) (links : List Nat) (late : Nat → Prop) (sent : List Outgoing) (h : Nat) (x : Replying) : Prop :=
  match x.pc with
  | .check j _ | .load j _ | .write j _ => target n links x.server = some j
  | .dial _ => False
  | .done (some r) => (x.server < n ∨ late h) →
    ∃ j, target n links x.server = some j ∧ (⟨.bound j, x.msg.src, r.bytes⟩ : Outgoing) ∈ sent
  | _ => True

/-- What is known while nobody stops the node. -/
structure Up (n : Nat) (links : List Nat) (late : Nat → Prop) (s : RunSt) : Prop where
  calls : ∃ p, s.calls = [p] ∧ ∀ x ∈ p, ∃ i j, x = .link i j ∧ target n links i = some j ∧ n ≤ i
  settled : (∃ h, late h) → s.calls = [[]]
  len : s.servers.length = n + links.length
  uni : ∀ i < n, ∃ v, s.servers[i]? = some v ∧ v.kind = .unicast ∧ v.conn = true ∧ v.isOpen = true ∧
    v.pc ≠ .closing ∧ v.pc ≠ .clearing ∧ v.pc ≠ .shutting ∧ v.via = some i
  multi : ∀ (i : Nat) v, n ≤ i → s.servers[i]? = some v → ∃ j, target n links i = some j ∧
    (v.via = some j ∨ (v.via = none ∧ ∃ p ∈ s.calls, .link i j ∈ p))
  reply : ∀ (h : Nat) x, s.replying[h]? = some x → x.server < n + links.length ∧ ReplyOk n links late s.sent h x
  sent : ∀ o ∈ s.sent, (∃ c, o.source = .conn c) ∨ ∃ x ∈ s.replying, ∃ r j, x.pc = .done (some r) ∧
    target n links x.server = some j ∧ o = ⟨.bound j, x.msg.src, r.bytes⟩

theorem ReplyOk.mono {n links late sent sent' h x} (hh : ReplyOk n links late sent h x)
    (hs : ∀ o ∈ sent, o ∈ sent') : ReplyOk n links late sent' h x := by
  unfold ReplyOk at *
  split
  all_goals first
    | (simp_all; done)
    | trivial
    | (rename_i hp; rw [hp] at hh; exact fun hl => let ⟨j, a, b⟩ := hh hl; ⟨j, a, hs _ b⟩)
    | (rename_i hp; rw [hp] at hh; exact hh)

theorem ReplyOk.widen {n links late' sent h x} (hh : ReplyOk n links (fun _ => False) sent h x) (hl : ¬ late' h) :
    ReplyOk n links late' sent h x := by
  unfold ReplyOk at *
  cases hp : x.pc with
  | done a =>
    rw [hp] at hh
    cases a with
    | none => trivial
    | some r => exact fun h => hh (.inl (h.resolve_right hl))
  | _ => rw [hp] at hh; exact hh

theorem uni_stepLoop {v : Live} {i : Nat} (h1 : v.kind = .unicast) (h2 : v.conn = true) (h3 : v.isOpen = true)
    (h4 : v.pc ≠ .closing) (h5 : v.pc ≠ .clearing) (h6 : v.pc ≠ .shutting) (h7 : v.via = some i) :
    let v' := (RunSt.stepLoop v).1
    v'.kind = .unicast ∧ v'.conn = true ∧ v'.isOpen = true ∧ v'.pc ≠ .closing ∧ v'.pc ≠ .clearing ∧
      v'.pc ≠ .shutting ∧ v'.via = some i := by
  have lv : ∀ v : Live, v.kind = .unicast → RunSt.leave v = { v with pc := .ended } := by
    intro v h; unfold RunSt.leave; rw [h]
  unfold RunSt.stepLoop
  cases hp : v.pc with
  | closing => exact absurd hp h4
  | clearing => exact absurd hp h5
  | shutting => exact absurd hp h6
  | select => dsimp only; split <;> simp_all
  | check => dsimp only; split <;> simp_all
  | load => simp_all
  | read held =>
    dsimp only
    split
    · simp_all
    · split
      · simp_all
      · split <;> simp_all
  | got m => simp_all
  | ended => simp_all

theorem replyOk_new {n links late sent h i m} : ReplyOk n links late sent h ⟨i, m, .handle⟩ := trivial

/-- A step of the goroutine for a message changes only its own entry, `seen` and `sent`. -/
theorem Up.stepReply {n links late} {s : RunSt} (hl : ∀ j ∈ links, j < n) (u : Up n links late s) {h : Nat} {x}
    (hx : s.replying[h]? = some x) : Up n links late (s.stepReply answer h x) := by
  obtain ⟨hsv, hok⟩ := u.reply h x hx
  have hlt := (List.getElem?_eq_some_iff.mp hx).1
  have alive : ∀ j, target n links x.server = some j → s.hasConn j = true ∧ s.hasOpen j = true := by
    intro j hj
    obtain ⟨v, hv, -, a, b, -⟩ := u.uni j (target_lt hl hj)
    unfold RunSt.hasConn RunSt.hasOpen
    rw [hv]; exact ⟨a, b⟩
  -- the general form of a step
  have build : ∀ (pc : ReplyPc) (seen' : List Message) (new : List Outgoing),
      (∀ r, x.pc ≠ .done r) →
      (ReplyOk n links late (s.sent ++ new) h { x with pc := pc }) →
      (∀ o ∈ new, ∃ r j, pc = .done (some r) ∧ target n links x.server = some j ∧ o = ⟨.bound j, x.msg.src, r.bytes⟩) →
      Up n links late { s with replying := s.replying.set h { x with pc := pc }, seen := seen', sent := s.sent ++ new } := by
    intro pc seen' new hnd hr hn
    refine ⟨u.calls, u.settled, u.len, u.uni, u.multi, fun h' x' hx' => ?_, fun o ho => ?_⟩
    · dsimp only at hx'
      rw [List.getElem?_set] at hx'
      split at hx'
      · rename_i e
        subst e
        cases hx'
        exact ⟨hsv, hr⟩
      · obtain ⟨a, b⟩ := u.reply h' x' hx'
        exact ⟨a, b.mono fun o ho => List.mem_append_left _ ho⟩
    · rcases List.mem_append.mp ho with ho | ho
      · refine (u.sent o ho).imp_right fun ⟨y, hy, r, j, e1, e2, e3⟩ => ?_
        rcases mem_set_of (y := { x with pc := pc }) hx hy with hy | hy
        · exact ⟨y, hy, r, j, e1, e2, e3⟩
        · subst hy; exact absurd e1 (hnd _)
      · obtain ⟨r, j, e1, e2, e3⟩ := hn o ho
        exact .inr ⟨{ x with pc := pc }, mem_set_self hx, r, j, e1, e2, e3⟩
  have keep : ∀ (pc : ReplyPc), (∀ r, x.pc ≠ .done r) → ReplyOk n links late s.sent h { x with pc := pc } →
      Up n links late (s.setReplying h { x with pc := pc }) := by
    intro pc hnd hr
    have := build pc s.seen [] hnd (by simpa using hr) (by simp)
    simpa [RunSt.setReplying] using this
  unfold ReplyOk at hok
  unfold RunSt.stepReply
  cases hp : x.pc with
  | handle =>
    dsimp only
    cases answer s.seen x.msg with
    | none =>
      have := build (.done none) (s.seen ++ [x.msg]) [] (by simp [hp]) trivial (by simp)
      simpa [RunSt.setReplying] using this
    | some r =>
      have := build (.via r) (s.seen ++ [x.msg]) [] (by simp [hp]) trivial (by simp)
      simpa [RunSt.setReplying] using this
  | via r =>
    dsimp only
    refine keep _ (by simp [hp]) ?_
    obtain ⟨v, hv⟩ : ∃ v, s.servers[x.server]? = some v :=
      ⟨_, List.getElem?_eq_getElem (by rw [u.len]; exact hsv)⟩
    rw [hv]
    by_cases hn : x.server < n
    · obtain ⟨v', hv', -, -, -, -, -, -, e⟩ := u.uni _ hn
      rw [hv] at hv'
      cases hv'
      show ReplyOk _ _ _ _ _ { x with pc := match v.via with | none => .done (some r) | some j => .check j r }
      rw [e]
      show target n links x.server = some x.server
      unfold target; rw [if_pos hn]
    · obtain ⟨j, hj, hvia⟩ := u.multi _ v (Nat.le_of_not_lt hn) hv
      show ReplyOk _ _ _ _ _ { x with pc := match v.via with | none => .done (some r) | some j => .check j r }
      rcases hvia with e | ⟨e, q, hq, hlk⟩
      · rw [e]; exact hj
      · rw [e]
        show (x.server < n ∨ late h) → _
        rintro (h' | h')
        · exact absurd h' hn
        · rw [u.settled ⟨h, h'⟩] at hq
          rw [List.mem_singleton.mp hq] at hlk
          exact absurd hlk List.not_mem_nil
  | check j r =>
    dsimp only
    rw [hp] at hok
    rw [(alive j hok).1]
    exact keep (.load j r) (by simp [hp]) hok
  | load j r =>
    dsimp only
    rw [hp] at hok
    rw [(alive j hok).1]
    exact keep (.write j r) (by simp [hp]) hok
  | write j r =>
    dsimp only
    rw [hp] at hok
    rw [(alive j hok).2, if_pos rfl]
    have := build (.done (some r)) s.seen [⟨.bound j, x.msg.src, r.bytes⟩] (by simp [hp])
      (fun _ => ⟨j, hok, by simp⟩) (by
        intro o ho
        rw [List.mem_singleton.mp ho]
        exact ⟨r, j, rfl, hok, rfl⟩)
    simpa [RunSt.setReplying] using this
  | dial r => rw [hp] at hok; exact hok.elim
  | done r => exact u

theorem Up.step {n links late} {s : RunSt} (hl : ∀ j ∈ links, j < n)
    (u : Up n links late s) (a : RunAct) (ha : a ≠ .stop) : Up n links late (s.step answer a) := by
  cases a with
  | stop => exact absurd rfl ha
  | arrive i d =>
    simp only [RunSt.step]
    split
    · refine ⟨u.calls, u.settled, by simp [RunSt.onServer, u.len], fun j hj => ?_, fun j v hj hv => ?_, u.reply, u.sent⟩
      · obtain ⟨v, hv, h⟩ := u.uni j hj
        rw [get_onServer, hv]
        refine ⟨_, rfl, ?_⟩
        dsimp only
        split <;> exact h
      · rw [get_onServer] at hv
        obtain ⟨w, hw, rfl⟩ := Option.map_eq_some_iff.mp hv
        obtain ⟨t, ht, h⟩ := u.multi j w hj hw
        refine ⟨t, ht, ?_⟩
        split <;> exact h
    · exact u
  | loop i =>
    simp only [RunSt.step]
    cases hi : s.servers[i]? with
    | none => exact u
    | some v =>
      have hlen : i < n + links.length := by rw [← u.len]; exact (List.getElem?_eq_some_iff.mp hi).1
      have hlt := (List.getElem?_eq_some_iff.mp hi).1
      refine ⟨u.calls, u.settled, by simp [u.len], fun j hj => ?_, fun j w hj hw => ?_, fun h x hx => ?_, fun o ho => ?_⟩
      · dsimp only
        obtain ⟨w, hw, h⟩ := u.uni j hj
        by_cases e : i = j
        · subst e
          rw [hi] at hw
          cases hw
          rw [List.getElem?_set_self hlt]
          exact ⟨_, rfl, uni_stepLoop h.1 h.2.1 h.2.2.1 h.2.2.2.1 h.2.2.2.2.1 h.2.2.2.2.2.1 h.2.2.2.2.2.2⟩
        · rw [List.getElem?_set_ne e]; exact ⟨w, hw, h⟩
      · dsimp only at hw
        by_cases e : i = j
        · subst e
          rw [List.getElem?_set_self hlt] at hw
          cases hw
          obtain ⟨t, ht, h⟩ := u.multi i v hj hi
          rw [(weaker_stepLoop v).via]
          exact ⟨t, ht, h⟩
        · rw [List.getElem?_set_ne e] at hw; exact u.multi j w hj hw
      · dsimp only at hx ⊢
        split at hx
        · exact u.reply h x hx
        · rw [List.getElem?_append] at hx
          split at hx
          · exact u.reply h x hx
          · rw [List.getElem?_singleton] at hx
            split at hx
            · cases hx; exact ⟨hlen, replyOk_new⟩
            · cases hx
      · refine (u.sent o ho).imp_right fun ⟨y, hy, hh⟩ => ⟨y, ?_, hh⟩
        dsimp only
        split
        · exact hy
        · exact List.mem_append_left _ hy
  | reply h =>
    simp only [RunSt.step]
    cases hx : s.replying[h]? with
    | none => exact u
    | some x => exact u.stepReply hl hx
  | accept i =>
    simp only [RunSt.step]
    split
    · exact ⟨u.calls, u.settled, u.len, u.uni, u.multi, u.reply, u.sent⟩
    · exact u
  | request c m =>
    simp only [RunSt.step]
    split
    · exact ⟨u.calls, u.settled, u.len, u.uni, u.multi, u.reply, u.sent⟩
    · exact u
  | answer c =>
    simp only [RunSt.step]
    split
    · refine ⟨u.calls, u.settled, u.len, u.uni, u.multi, fun h x hx => ?_, fun o ho => ?_⟩
      · obtain ⟨a, b⟩ := u.reply h x hx
        exact ⟨a, b.mono fun o ho => List.mem_append_left _ ho⟩
      · rcases List.mem_append.mp ho with ho | ho
        · exact u.sent o ho
        · rw [List.mem_singleton.mp ho]; exact .inl ⟨_, rfl⟩
    · exact u
  | call k =>
    rcases step_call (answer := answer) s k with ⟨i, rest, hk, e⟩ | ⟨-, e⟩
    · rw [e]
      obtain ⟨p, hp, hlk⟩ := u.calls
      rw [hp] at hk
      have hk0 : k = 0 := by
        have := (List.getElem?_eq_some_iff.mp hk).1
        simp at this; exact this
      subst hk0
      have hpe : p = i :: rest := by simpa using hk
      subst hpe
      obtain ⟨a, b, rfl, hab, hna⟩ := hlk i List.mem_cons_self
      simp only [RunSt.exec]
      have hcalls : (s.onServer a fun v => { v with via := some b }).calls.set 0 rest = [rest] := by
        show s.calls.set 0 rest = _
        rw [hp]; rfl
      refine ⟨⟨rest, hcalls, fun x hx => hlk x (List.mem_cons_of_mem _ hx)⟩, fun hh => ?_, by simp [RunSt.onServer, u.len],
        fun j hj => ?_, fun j v hj hv => ?_, u.reply, u.sent⟩
      · have := u.settled hh
        rw [hp] at this
        simp at this
      · obtain ⟨v, hv, h⟩ := u.uni j hj
        dsimp only
        rw [get_onServer, hv]
        refine ⟨_, rfl, ?_⟩
        dsimp only
        rw [if_neg (by omega)]; exact h
      · dsimp only at hv ⊢
        rw [get_onServer] at hv
        obtain ⟨w, hw, rfl⟩ := Option.map_eq_some_iff.mp hv
        obtain ⟨t, ht, h⟩ := u.multi j w hj hw
        refine ⟨t, ht, ?_⟩
        by_cases e : a = j
        · subst e
          rw [if_pos rfl]
          left
          rw [hab] at ht
          exact ht
        · rw [if_neg e, hcalls]
          refine h.imp_right fun ⟨h1, q, hq, hm⟩ => ⟨h1, rest, by simp, ?_⟩
          rw [hp] at hq
          rw [List.mem_singleton.mp hq] at hm
          refine (List.mem_cons.mp hm).resolve_left fun e' => ?_
          cases e'; exact e rfl
    · rw [e]; exact u

theorem run_up {n links late} (hl : ∀ j ∈ links, j < n) {s : RunSt} (u : Up n links late s) (acts) (ha : .stop ∉ acts) :
    Up n links late (s.run answer acts) := by
  induction acts generalizing s with
  | nil => exact u
  | cons a acts ih =>
    cases hc : s.crashed with
    | true => rw [run_crashed _ _ hc]; exact u
    | false =>
      rw [run_cons _ _ _ hc]
      exact ih (u.step hl a (fun e => ha (e ▸ List.mem_cons_self))) fun h => ha (List.mem_cons_of_mem _ h)

theorem starting_link {ts : List Bool} {links : List Nat} {k : Nat} {j : Nat} (h : links[k]? = some j) :
    .link (ts.length + k) j ∈ links.mapIdx (fun k j => Instr.link (ts.length + k) j) := by
  obtain ⟨hk, e⟩ := List.getElem?_eq_some_iff.mp h
  exact List.mem_mapIdx.mpr ⟨k, hk, by rw [e]⟩

theorem up_starting (ts : List Bool) (links : List Nat) :
    Up ts.length links (fun _ => False) (RunSt.starting ts links) := by
  refine ⟨⟨_, rfl, fun x hx => ?_⟩, by simp, by simp [RunSt.starting], fun i hi => ?_, fun i v hi hv => ?_, ?_, ?_⟩
  · obtain ⟨k, hk, rfl⟩ := List.mem_mapIdx.mp hx
    refine ⟨_, _, rfl, ?_, Nat.le_add_right _ _⟩
    unfold target
    rw [if_neg (by omega), Nat.add_sub_cancel_left]
    exact List.getElem?_eq_getElem _
  · refine ⟨Live.unicast i ts[i], ?_, rfl, rfl, rfl, by simp [Live.unicast], by simp [Live.unicast],
      by simp [Live.unicast], rfl⟩
    simp only [RunSt.starting]
    rw [List.getElem?_append_left (by simpa using hi), List.getElem?_mapIdx, List.getElem?_eq_getElem hi]
    rfl
  · rcases starting_get ts links i v hv with ⟨t, ht, -⟩ | ⟨-, h2, rfl⟩
    · have := (List.getElem?_eq_some_iff.mp ht).1
      omega
    · obtain ⟨j, hj⟩ := target_isSome (n := ts.length) (links := links) (i := i) (by omega)
      refine ⟨j, hj, .inr ⟨rfl, _, List.mem_singleton.mpr rfl, ?_⟩⟩
      unfold target at hj
      rw [if_neg (by omega)] at hj
      have := starting_link (ts := ts) hj
      rwa [Nat.add_sub_cancel' hi] at this
  · intro h x hx
    simp [RunSt.starting] at hx
  · intro o ho
    simp [RunSt.starting] at ho

/-- A state that differs at most in what calls change. -/
structure CallFrame (s s' : RunSt) : Prop where
  replying : s'.replying = s.replying
  conns : s'.conns = s.conns
  seen : s'.seen = s.seen
  sent : s'.sent = s.sent
  len : s'.servers.length = s.servers.length
  server : ∀ (i : Nat) v', s'.servers[i]? = some v' → ∃ v, s.servers[i]? = some v ∧ Lower v v'

theorem CallFrame.refl (s : RunSt) : CallFrame s s :=
  ⟨rfl, rfl, rfl, rfl, rfl, fun _ v h => ⟨v, h, .refl v⟩⟩

theorem Lower.trans {a b c : Live} (h : Lower a b) (h' : Lower b c) : Lower a c :=
  ⟨fun x => h.conn (h'.conn x), fun x => h.isOpen (h'.isOpen x), fun x => h.listening (h'.listening x),
    h'.tcp.trans h.tcp, h'.pc.trans h.pc, h'.kind.trans h.kind⟩

theorem CallFrame.trans {a b c : RunSt} (h : CallFrame a b) (h' : CallFrame b c) : CallFrame a c :=
  ⟨h'.replying.trans h.replying, h'.conns.trans h.conns, h'.seen.trans h.seen, h'.sent.trans h.sent,
    h'.len.trans h.len, fun i v' hv => by
      obtain ⟨w, hw, l⟩ := h'.server i v' hv
      obtain ⟨v, hv, l'⟩ := h.server i w hw
      exact ⟨v, hv, l'.trans l⟩⟩

theorem callFrame_step (s : RunSt) {a} (ha : a = .stop ∨ ∃ k, a = .call k) : CallFrame s (s.step answer a) := by
  rcases ha with rfl | ⟨k, rfl⟩
  · exact ⟨rfl, rfl, rfl, rfl, rfl, fun _ v h => ⟨v, h, .refl v⟩⟩
  · rcases step_call (answer := answer) s k with ⟨i, rest, hk, e⟩ | ⟨-, e⟩
    · rw [e]
      obtain ⟨-, a, b, c, d, f, -, -, g⟩ := exec_frame s rest i
      exact ⟨a, b, c, d, f, g⟩
    · rw [e]; exact .refl s

theorem callFrame_run (s : RunSt) (acts) (ha : ∀ a ∈ acts, a = .stop ∨ ∃ k, a = .call k) :
    CallFrame s (s.run answer acts) := by
  induction acts generalizing s with
  | nil => exact .refl s
  | cons a acts ih =>
    cases hc : s.crashed with
    | true => rw [run_crashed _ _ hc]; exact .refl s
    | false =>
      rw [run_cons _ _ _ hc]
      exact (callFrame_step s (ha a List.mem_cons_self)).trans (ih _ fun b hb => ha b (List.mem_cons_of_mem _ hb))

theorem CallFrame.get {s s' : RunSt} (h : CallFrame s s') {i : Nat} {v} (hi : s.servers[i]? = some v) :
    ∃ v', s'.servers[i]? = some v' ∧ Lower v v' := by
  have hlt := (List.getElem?_eq_some_iff.mp hi).1
  obtain ⟨w, hw, l⟩ := h.server i _ (List.getElem?_eq_getElem (by rw [h.len]; exact hlt))
  rw [hi] at hw
  cases hw
  exact ⟨_, List.getElem?_eq_getElem (by rw [h.len]; exact hlt), l⟩

/-- `Stop`, called when nobody else is under way and run to its end. -/
theorem stop_returns (s : RunSt) (hi : Inv s) (hc : Calm s) (hr : ∀ p ∈ s.calls, p = []) :
    ∃ acts, .stop ∈ acts ∧ (∀ a ∈ acts, a = .stop ∨ ∃ k, a = .call k) ∧ Dead (s.run answer acts) ∧
      (∀ p ∈ (s.run answer acts).calls, p = []) := by
  let M := s.mcast.length
  let U := s.ucast.length
  let acts := RunAct.stop :: List.replicate (weight M U RunSt.stopProgram) (RunAct.call s.calls.length)
  have hmem : ∀ a ∈ acts, a = .stop ∨ ∃ k, a = .call k := by
    intro a ha
    rcases List.mem_cons.mp ha with rfl | ha
    · exact .inl rfl
    · exact .inr ⟨_, (List.mem_replicate.mp ha).2⟩
  have hcalls : ∀ (m : Nat) (t : RunSt), Calm t → Calm (t.run answer (List.replicate m (.call s.calls.length))) := by
    intro m
    induction m with
    | zero => intro t h; exact h
    | succ m ih =>
      intro t h
      rw [List.replicate_succ, run_cons _ _ _ h.up]
      exact ih _ (h.step _ (by simp))
  have hcalm : Calm (s.run answer acts) := by
    show Calm (s.run answer (RunAct.stop :: _))
    rw [run_cons _ _ _ hc.up]
    exact hcalls _ _ (hc.step _ fun _ => hr)
  have hlen : (s.run answer acts).calls.length = s.calls.length + 1 ∧
      ∀ (k : Nat), k < s.calls.length → (s.run answer acts).calls[k]? = s.calls[k]? := by
    have key : ∀ (m : Nat) (t : RunSt), Calm t → (t.run answer (List.replicate m (.call s.calls.length))).calls.length = t.calls.length ∧
        ∀ k, k < s.calls.length → (t.run answer (List.replicate m (.call s.calls.length))).calls[k]? = t.calls[k]? := by
      intro m
      induction m with
      | zero => intro t _; exact ⟨rfl, fun _ _ => rfl⟩
      | succ m ih =>
        intro t h
        rw [List.replicate_succ, run_cons _ _ _ h.up]
        obtain ⟨a, b⟩ := ih _ (h.step (answer := answer) (.call s.calls.length) (by simp))
        have : (t.step answer (.call s.calls.length)).calls.length = t.calls.length ∧
            ∀ k, k < s.calls.length → (t.step answer (.call s.calls.length)).calls[k]? = t.calls[k]? := by
          rcases step_call (answer := answer) t s.calls.length with ⟨i, rest, hk, e⟩ | ⟨-, e⟩
          · rw [e]
            obtain ⟨e1, -⟩ := exec_frame t rest i
            dsimp only
            rw [e1]
            exact ⟨by simp, fun k hk => List.getElem?_set_ne (by omega)⟩
          · rw [e]; exact ⟨rfl, fun _ _ => rfl⟩
        exact ⟨a.trans this.1, fun k hk => (b k hk).trans (this.2 k hk)⟩
    have h1 : s.run answer acts = (s.step answer .stop).run answer (List.replicate (weight M U RunSt.stopProgram) (.call s.calls.length)) :=
      run_cons _ _ _ hc.up
    obtain ⟨a, b⟩ := key (weight M U RunSt.stopProgram) (s.step answer .stop) (hc.step _ fun _ => hr)
    rw [h1]
    refine ⟨by rw [a]; simp [RunSt.step], fun k hk => ?_⟩
    rw [b k hk]
    simp only [RunSt.step]
    rw [List.getElem?_append_left hk]
  have hlast : (s.run answer acts).calls[s.calls.length]? = some [] := by
    have h1 : s.run answer acts = (s.step answer .stop).run answer (List.replicate (weight M U RunSt.stopProgram) (.call s.calls.length)) :=
      run_cons _ _ _ hc.up
    have hup := hcalm.up
    rw [h1] at hup ⊢
    exact call_returns (M := M) (U := U) (p := RunSt.stopProgram) _ (s.step answer .stop) (Nat.le_refl _)
      (Nat.le_refl _) (by simp [RunSt.step]) hup (by rw [List.count_replicate_self]; exact Nat.le_refl _)
  have hret : ∀ p ∈ (s.run answer acts).calls, p = [] := by
    intro p hp
    obtain ⟨k, hk, e⟩ := List.mem_iff_getElem.mp hp
    rcases Nat.lt_or_ge k s.calls.length with h | h
    · have := hlen.2 k h
      rw [List.getElem?_eq_getElem hk, e] at this
      exact hr p (List.mem_of_getElem? this.symm)
    · have hke : k = s.calls.length := by omega
      subst hke
      rw [List.getElem?_eq_getElem hk, e] at hlast
      exact Option.some.inj hlast
  exact ⟨acts, List.mem_cons_self, hmem,
    (stopping_run hi acts List.mem_cons_self hcalm.up).dead hret hcalm.up, hret⟩

/-- `Start` runs to its end. -/
theorem links_run (p : List Instr) (s : RunSt) (hc : s.crashed = false) (hp : s.calls = [p])
    (hl : ∀ x ∈ p, ∃ i j, x = .link i j) :
    let s' := s.run answer (List.replicate p.length (.call 0))
    s'.calls = [[]] ∧ s'.crashed = false ∧ CallFrame s s' ∧
      ∀ (i : Nat) v, s.servers[i]? = some v → ∃ w, s'.servers[i]? = some { v with via := w } := by
  induction p generalizing s with
  | nil => exact ⟨hp, hc, .refl s, fun i v h => ⟨v.via, h⟩⟩
  | cons x p ih =>
    obtain ⟨a, b, rfl⟩ := hl x List.mem_cons_self
    have hstep : s.step answer (.call 0) = { s.onServer a (fun v => { v with via := some b }) with calls := [p] } := by
      simp only [RunSt.step, hp]
      simp only [List.getElem?_cons_zero, RunSt.exec, RunSt.onServer, hp]
      rfl
    have h := ih (s.step answer (.call 0)) (by rw [hstep]; exact hc) (by rw [hstep])
      (fun x hx => hl x (List.mem_cons_of_mem _ hx))
    have hrun : s.run answer (List.replicate (Instr.link a b :: p).length (.call 0)) =
        (s.step answer (.call 0)).run answer (List.replicate p.length (.call 0)) := by
      rw [List.length_cons, List.replicate_succ, run_cons _ _ _ hc]
    dsimp only
    rw [hrun]
    refine ⟨h.1, h.2.1, (callFrame_step s (.inr ⟨0, rfl⟩)).trans h.2.2.1, fun i v hv => ?_⟩
    have : ∃ w, (s.step answer (.call 0)).servers[i]? = some { v with via := w } := by
      rw [hstep]
      dsimp only
      rw [get_onServer, hv, Option.map_some]
      by_cases e : a = i
      · exact ⟨some b, by rw [if_pos e]⟩
      · exact ⟨v.via, by rw [if_neg e]⟩
    obtain ⟨w, hw⟩ := this
    obtain ⟨w', hw'⟩ := h.2.2.2 i _ hw
    exact ⟨w', hw'⟩

/-- The state with another server in place of one. -/
def put (s : RunSt) (i : Nat) (v : Live) : RunSt := { s with servers := s.servers.set i v }

theorem put_get {s : RunSt} {i : Nat} {v} (hi : i < s.servers.length) : (put s i v).servers[i]? = some v :=
  List.getElem?_set_self hi

theorem put_put (s : RunSt) (i v w) : put (put s i v) i w = put s i w := by
  unfold put; simp only [List.set_set]

theorem put_loop (s : RunSt) {i : Nat} {v v'} (acts) (hc : s.crashed = false) (hi : i < s.servers.length)
    (hv : RunSt.stepLoop v = (v', none)) :
    (put s i v).run answer (.loop i :: acts) = (put s i v').run answer acts := by
  rw [run_cons (put s i v) _ _ hc]
  congr 1
  rw [← put_put s i v v']
  simp only [RunSt.step, put_get hi, hv]
  rfl

theorem put_got (s : RunSt) {i : Nat} {v m} (acts) (hc : s.crashed = false) (hi : i < s.servers.length)
    (hv : v.pc = .got m) :
    (put s i v).run answer (.loop i :: acts) =
      (put { s with replying := s.replying ++ [⟨i, m, .handle⟩] } i { v with pc := .select }).run answer acts := by
  rw [run_cons (put s i v) _ _ hc]
  congr 1
  simp only [RunSt.step, put_get hi, RunSt.stepLoop, hv]
  unfold put
  simp only [List.set_set]

/-- A datagram reaches a server that waits for one, and is read. -/
theorem receive (s : RunSt) {i : Nat} {v d m} (acts) (hc : s.crashed = false) (hi : s.servers[i]? = some v)
    (hpc : v.pc = .select) (h1 : v.conn = true) (h2 : v.isOpen = true) (h3 : v.stopped = false) (h4 : v.queue = [])
    (hm : RunSt.decode v.kind d = some m) :
    s.run answer (.arrive i d :: .loop i :: .loop i :: .loop i :: .loop i :: acts) =
      (put s i { v with pc := .got m }).run answer acts := by
  have hlt := (List.getElem?_eq_some_iff.mp hi).1
  have ha : s.step answer (.arrive i d) = put s i { v with queue := [d] } := by
    have ho : s.hasOpen i = true := by unfold RunSt.hasOpen; rw [hi]; exact h2
    simp only [RunSt.step, ho, RunSt.onServer, put]
    rw [if_true]
    congr 1
    refine List.ext_getElem? fun j => ?_
    rw [List.getElem?_modify, List.getElem?_set]
    by_cases e : i = j
    · subst e; rw [hi, if_pos rfl, if_pos hlt]; simp [h4]
    · simp [e]
  rw [run_cons _ _ _ hc, ha,
    put_loop s (v' := { v with queue := [d], pc := .check }) _ hc hlt (by simp [RunSt.stepLoop, hpc, h3]),
    put_loop s (v' := { v with queue := [d], pc := .load }) _ hc hlt (by simp [RunSt.stepLoop, h1]),
    put_loop s (v' := { v with queue := [d], pc := .read true }) _ hc hlt (by simp [RunSt.stepLoop, h1]),
    put_loop s (v' := { v with pc := .got m }) _ hc hlt (by simp [RunSt.stepLoop, h2, hm, h4])]

end Shut

end Verif.Lemmas
