import Verif.Props.Ports

/-! # C62, C71: sending a message and announcing one -/

namespace Verif.Props
open Verif Model Transport Lemmas

/-- The order in which the sockets are tried: the servers in order, TCP before UDP. A server without
TCP, or not bound to a port, has no TCP to try. -/
def sendOrder (us : List UServer) : List Attempt :=
  us.flatMap (fun u => if u.tcpEnabled = true ∧ u.port ≠ 0 then [⟨u, .tcp⟩, ⟨u, .udp⟩] else [⟨u, .udp⟩])

/-- The attempts `as` are made in order from the `k`-th, until one succeeds. -/
def tryEach (out : SendOs) : Nat → Option Err → List Attempt → (Nat ⊕ Err) × List Attempt
  | _, e, [] => (.inr (e.getD .notRunning), [])
  | k, _, a :: as =>
    match out k a with
    | .inl n => (.inl n, [a])
    | .inr e => let (r, bs) := tryEach out (k + 1) (some e) as; (r, a :: bs)

theorem tryEach_append (out : SendOs) (k : Nat) (e : Option Err) (as bs : List Attempt) (hne : as ≠ []) :
    tryEach out k e (as ++ bs) = match tryEach out k e as with
      | (.inl n, xs) => (.inl n, xs)
      | (.inr e', xs) => let (r, ys) := tryEach out (k + as.length) (some e') bs; (r, xs ++ ys) := by
  induction as generalizing k e with
  | nil => exact absurd rfl hne
  | cons a as ih =>
    simp only [List.cons_append, tryEach]
    cases ho : out k a with
    | inl n => rfl
    | inr e1 =>
      cases as with
      | nil => simp only [tryEach, List.nil_append, Option.getD_some, List.length_singleton, List.singleton_append]
      | cons b as =>
        dsimp only
        rw [ih (k + 1) (some e1) (by simp)]
        rcases hr : tryEach out (k + 1) (some e1) (b :: as) with ⟨_ | e2, xs⟩
        · rfl
        · have : k + 1 + (b :: as).length = k + (a :: b :: as).length := by simp only [List.length_cons]; omega
          dsimp only
          rw [this]
          rfl

theorem serverSend_try (out : SendOs) (k : Nat) (e : Option Err) (u : UServer) :
    serverSend out k u = tryEach out k e (sendOrder [u]) := by
  have ho : sendOrder [u] = if u.tcpEnabled = true ∧ u.port ≠ 0 then [⟨u, .tcp⟩, ⟨u, .udp⟩] else [⟨u, .udp⟩] := by
    simp only [sendOrder, List.flatMap_cons, List.flatMap_nil, List.append_nil]
  have hudp : ∀ k e, tryEach out k e [⟨u, .udp⟩] = (out k ⟨u, .udp⟩, [⟨u, .udp⟩]) := by
    intro k e
    simp only [tryEach]
    cases out k ⟨u, .udp⟩ <;> rfl
  rw [ho]
  unfold serverSend
  by_cases hb : u.tcpEnabled = true
  · by_cases hp : u.port ≠ 0
    · rw [if_pos hb, if_pos hp, if_pos ⟨hb, hp⟩, tryEach]
      cases out k ⟨u, .tcp⟩ with
      | inl n => rfl
      | inr e => dsimp only; rw [hudp]
    · rw [if_pos hb, if_neg hp, if_neg (fun h => hp h.2), hudp]
  · rw [if_neg hb, if_neg (fun h => hb h.1), hudp]

theorem tryEach_fail_length {out : SendOs} {k : Nat} {e : Option Err} {as : List Attempt} {e' : Err} {xs : List Attempt}
    (h : tryEach out k e as = (.inr e', xs)) : xs = as := by
  induction as generalizing k e xs with
  | nil => simp only [tryEach, Prod.mk.injEq] at h; exact h.2.symm
  | cons a as ih =>
    simp only [tryEach] at h
    cases ho : out k a with
    | inl n => rw [ho] at h; cases h
    | inr e1 =>
      rw [ho] at h
      rcases hr : tryEach out (k + 1) (some e1) as with ⟨r, ys⟩
      simp only [hr, Prod.mk.injEq] at h
      obtain ⟨rfl, rfl⟩ := h
      rw [ih hr]

theorem sendOrder_ne (u : UServer) : sendOrder [u] ≠ [] := by
  unfold sendOrder
  rw [List.flatMap_cons]
  split <;> simp

theorem sendFrom_try (out : SendOs) (k : Nat) (e : Option Err) (us : List UServer) :
    sendFrom out k e us = tryEach out k e (sendOrder us) := by
  induction us generalizing k e with
  | nil => rfl
  | cons u us ih =>
    have : sendOrder (u :: us) = sendOrder [u] ++ sendOrder us := by
      simp only [sendOrder, List.flatMap_cons, List.flatMap_nil, List.append_nil]
    rw [this, tryEach_append _ _ _ _ _ (sendOrder_ne u), ← serverSend_try, sendFrom]
    rcases hs : serverSend out k u with ⟨n | e1, xs⟩
    · rfl
    · dsimp only
      have hx : xs = sendOrder [u] := tryEach_fail_length (e := e) (by rw [← serverSend_try]; exact hs)
      rw [ih, hx]

/-- A failure of an attempt. -/
def Fails (r : Nat ⊕ Err) : Prop := ∃ e, r = .inr e

/-- What trying in order means: up to the first success, or all of them. -/
theorem tryEach_spec (out : SendOs) (k : Nat) (e : Option Err) (as : List Attempt) :
    match tryEach out k e as with
    | (.inl n, made) => ∃ i a, as[i]? = some a ∧ out (k + i) a = .inl n ∧
        (∀ (j : Nat) b, j < i → as[j]? = some b → Fails (out (k + j) b)) ∧ made = as.take (i + 1)
    | (.inr e', made) => (∀ (j : Nat) b, as[j]? = some b → Fails (out (k + j) b)) ∧ made = as ∧
        (as = [] → e' = e.getD .notRunning) ∧
        ∀ a, as.getLast? = some a → out (k + (as.length - 1)) a = .inr e' := by
  induction as generalizing k e with
  | nil => exact ⟨fun j b h => (by cases h), rfl, fun _ => rfl, fun a h => (by cases h)⟩
  | cons a as ih =>
    simp only [tryEach]
    cases ho : out k a with
    | inl m => exact ⟨0, a, rfl, ho, fun j b hj => absurd hj (Nat.not_lt_zero j), rfl⟩
    | inr e1 =>
      have ih := ih (k + 1) (some e1)
      have hk : ∀ j, k + 1 + j = k + (j + 1) := fun j => by omega
      dsimp only
      rcases hr : tryEach out (k + 1) (some e1) as with ⟨n | e2, ys⟩
      · rw [hr] at ih
        obtain ⟨i, b, h1, h2, h3, h4⟩ := ih
        refine ⟨i + 1, b, h1, by rw [← hk]; exact h2, ?_, by rw [h4]; rfl⟩
        intro j b hj hb
        cases j with
        | zero =>
          simp only [List.getElem?_cons_zero, Option.some.injEq] at hb
          subst hb
          exact ⟨e1, ho⟩
        | succ j =>
          rw [← hk]
          exact h3 j b (Nat.lt_of_succ_lt_succ hj) hb
      · rw [hr] at ih
        obtain ⟨h1, h2, h3, h4⟩ := ih
        refine ⟨?_, by rw [h2], fun h => (by cases h), ?_⟩
        · intro j b hb
          cases j with
          | zero =>
            simp only [List.getElem?_cons_zero, Option.some.injEq] at hb
            subst hb
            exact ⟨e1, ho⟩
          | succ j =>
            rw [← hk]
            exact h1 j b hb
        · intro b hb
          cases as with
          | nil =>
            simp only [List.getLast?_singleton, Option.some.injEq] at hb
            subst hb
            have := h3 rfl
            rw [this]
            exact ho
          | cons c as =>
            rw [List.getLast?_cons_cons] at hb
            have := h4 b hb
            simp only [List.length_cons, Nat.add_sub_cancel] at this ⊢
            rwa [← hk]

/-- C62. Sending tries the sockets in the order `sendOrder`. When it succeeds, with the result of one
attempt, all earlier attempts failed and no later one was made. When it fails, all attempts were made
and failed, and the error is that of the last one; without a server it says so. -/
theorem C62_order (out : SendOs) (s : Transport) :
    match s.sendMessage out with
    | (.inl n, made) => ∃ i a, (sendOrder s.uservers)[i]? = some a ∧ out i a = .inl n ∧
        (∀ (j : Nat) b, j < i → (sendOrder s.uservers)[j]? = some b → Fails (out j b)) ∧
        made = (sendOrder s.uservers).take (i + 1)
    | (.inr e, made) => (∀ (j : Nat) b, (sendOrder s.uservers)[j]? = some b → Fails (out j b)) ∧
        made = sendOrder s.uservers ∧ (s.uservers = [] → e = .notRunning) ∧
        ∀ a, (sendOrder s.uservers).getLast? = some a → out ((sendOrder s.uservers).length - 1) a = .inr e := by
  unfold Transport.sendMessage
  rw [sendFrom_try]
  have h := tryEach_spec out 0 none (sendOrder s.uservers)
  rcases hr : tryEach out 0 none (sendOrder s.uservers) with ⟨n | e, made⟩
  · rw [hr] at h
    simpa only [Nat.zero_add] using h
  · rw [hr] at h
    simp only [Nat.zero_add] at h
    exact ⟨h.1, h.2.1, fun h0 => h.2.2.1 (by rw [h0]; rfl), h.2.2.2⟩

/-- C62. Sending fails exactly when all attempts fail. -/
theorem C62_fails_iff (out : SendOs) (s : Transport) :
    Fails (s.sendMessage out).1 ↔ ∀ (j : Nat) b, (sendOrder s.uservers)[j]? = some b → Fails (out j b) := by
  have h := C62_order out s
  rcases hr : s.sendMessage out with ⟨n | e, made⟩
  · rw [hr] at h
    obtain ⟨i, a, h1, h2, -⟩ := h
    constructor
    · rintro ⟨e, he⟩; cases he
    · intro hf
      obtain ⟨e, he⟩ := hf i a h1
      rw [h2] at he; cases he
  · rw [hr] at h
    exact ⟨fun _ => h.1, fun _ => ⟨e, rfl⟩⟩

/-- C62. After a successful start on a port other than 0 the order is: for each server TCP, if it is
enabled, and then UDP. -/
theorem C62_started (os : Os) (s s' : Transport) (h : Reachable os s) (hs : s.start os = .ok (none, s'))
    (hp : s.port ≠ 0) :
    sendOrder s'.uservers = s'.uservers.flatMap (fun u =>
      if s.config.unicast.tcpEnabled = true then [⟨u, .tcp⟩, ⟨u, .udp⟩] else [⟨u, .udp⟩]) := by
  obtain ⟨e1, s1, a1, -, -, -, a5, -⟩ := start_spec os (reachable_good h)
  rw [hs] at a1
  cases a1
  unfold sendOrder
  have : ∀ us : List UServer, (∀ u ∈ us, s.port ≤ u.port ∧ u.tcpEnabled = s.config.unicast.tcpEnabled) →
      us.flatMap (fun u => if u.tcpEnabled = true ∧ u.port ≠ 0 then [Attempt.mk u .tcp, ⟨u, .udp⟩] else [⟨u, .udp⟩]) =
      us.flatMap (fun u => if s.config.unicast.tcpEnabled = true then [⟨u, .tcp⟩, ⟨u, .udp⟩] else [⟨u, .udp⟩]) := by
    intro us hus
    induction us with
    | nil => rfl
    | cons u us ih =>
      rw [List.flatMap_cons, List.flatMap_cons, ih (fun v hv => hus v (List.mem_cons_of_mem _ hv))]
      obtain ⟨h1, h2⟩ := hus u (List.mem_cons_self ..)
      have hp' : u.port ≠ 0 := by omega
      rw [h2]
      simp only [hp', ne_eq, not_false_eq_true, and_true]
  exact this _ (fun u hu => ⟨(a5 u hu).1, (a5 u hu).2.2.1⟩)

/-- A server for the examples. -/
def aServer (port : Nat) (tcp : Bool) : UServer := ⟨tcp, none, addr0, port, none, none, .nil, .nil⟩

/-- Two servers with TCP: the first is not reachable by TCP nor by UDP, the second by UDP only. -/
example : ({ Transport.new 0 with uservers := [aServer 3610 true, aServer 3611 true, aServer 3612 true] }).sendMessage
      (fun k _ => if k < 3 then .inr (.io k) else .inl 14)
    = (.inl 14, [⟨aServer 3610 true, .tcp⟩, ⟨aServer 3610 true, .udp⟩, ⟨aServer 3611 true, .tcp⟩, ⟨aServer 3611 true, .udp⟩]) := by
  decide +kernel

/-! ## C71 -/

/-- C71 is false: when the first bound server can send, an announcement is sent through it alone,
however many other interfaces there are. -/
theorem C71_refuted (out : SendOs) (s : Transport) (u : UServer) (us : List UServer) (hu : s.uservers = u :: us)
    (hp : u.port ≠ 0) (n : Nat) (h0 : out 0 ⟨u, .udp⟩ = .inl n) :
    s.announceMessage out = (none, [⟨u, .udp⟩]) := by
  unfold Transport.announceMessage
  rw [hu, announceFrom, serverAnnounce, if_neg hp, h0]

theorem announceFrom_try (out : SendOs) (k : Nat) (e : Option Err) (us : List UServer)
    (hp : ∀ u ∈ us, u.port ≠ 0) :
    announceFrom out k e us = match tryEach out k e (us.map (fun u => ⟨u, .udp⟩)) with
      | (.inl _, made) => (none, made)
      | (.inr e, made) => (some e, made) := by
  induction us generalizing k e with
  | nil => rfl
  | cons u us ih =>
    rw [announceFrom, serverAnnounce, if_neg (hp u (List.mem_cons_self ..)), List.map_cons, tryEach]
    cases out k ⟨u, .udp⟩ with
    | inl n => rfl
    | inr e1 =>
      dsimp only
      rw [ih _ _ (fun v hv => hp v (List.mem_cons_of_mem _ hv)), List.length_singleton]
      rcases tryEach out (k + 1) (some e1) (us.map (fun u => (⟨u, .udp⟩ : Attempt))) with ⟨n | e2, ys⟩ <;> rfl

/-- C71, the part that holds: after a successful start an announcement is sent through at least one
bound interface, unless all fail; then the error is returned. -/
theorem C71_some_partial (os : Os) (out : SendOs) (s s' : Transport) (h : Reachable os s)
    (hs : s.start os = .ok (none, s')) (hp : s.port ≠ 0) :
    match s'.announceMessage out with
    | (none, made) => ∃ i u n, s'.uservers[i]? = some u ∧ out i ⟨u, .udp⟩ = .inl n ∧
        made = (s'.uservers.take (i + 1)).map (fun u => ⟨u, .udp⟩) ∧
        ∀ (j : Nat) v, j < i → s'.uservers[j]? = some v → Fails (out j ⟨v, .udp⟩)
    | (some _, made) => made = s'.uservers.map (fun u => ⟨u, .udp⟩) ∧
        ∀ (j : Nat) v, s'.uservers[j]? = some v → Fails (out j ⟨v, .udp⟩) := by
  obtain ⟨e1, s1, a1, -, -, -, a5, -⟩ := start_spec os (reachable_good h)
  rw [hs] at a1
  cases a1
  unfold Transport.announceMessage
  rw [announceFrom_try _ _ _ _ (fun u hu => by have := (a5 u hu).1; omega)]
  have ht := tryEach_spec out 0 none (s'.uservers.map (fun u => ⟨u, .udp⟩))
  rcases hr : tryEach out 0 none (s'.uservers.map (fun u => (⟨u, .udp⟩ : Attempt))) with ⟨n | e, made⟩
  · rw [hr] at ht
    obtain ⟨i, a, h1, h2, h3, h4⟩ := ht
    rw [List.getElem?_map] at h1
    cases hi : s'.uservers[i]? with
    | none => rw [hi] at h1; cases h1
    | some u =>
      rw [hi] at h1
      cases h1
      refine ⟨i, u, n, hi, by rw [← h2, Nat.zero_add], by rw [h4, List.map_take], fun j v hj hv => ?_⟩
      have := h3 j ⟨v, .udp⟩ hj (by rw [List.getElem?_map, hv]; rfl)
      rwa [Nat.zero_add] at this
  · rw [hr] at ht
    refine ⟨ht.2.1, fun j v hv => ?_⟩
    have := ht.1 j ⟨v, .udp⟩ (by rw [List.getElem?_map, hv]; rfl)
    rwa [Nat.zero_add] at this

/-- C71, the part that holds: with one bound interface an announcement is sent through it. -/
theorem C71_single_partial (os : Os) (out : SendOs) (s s' : Transport) (h : Reachable os s)
    (hs : s.start os = .ok (none, s')) (hp : s.port ≠ 0) (u : UServer) (hu : s'.uservers = [u]) :
    (s'.announceMessage out).2 = [⟨u, .udp⟩] ∧
    ((s'.announceMessage out).1 = none ↔ ∃ n, out 0 ⟨u, .udp⟩ = .inl n) := by
  obtain ⟨e1, s1, a1, -, -, -, a5, -⟩ := start_spec os (reachable_good h)
  rw [hs] at a1
  cases a1
  have hp' : u.port ≠ 0 := by have := (a5 u (by rw [hu]; exact List.mem_singleton.mpr rfl)).1; omega
  unfold Transport.announceMessage
  rw [hu, announceFrom, serverAnnounce, if_neg hp']
  cases out 0 ⟨u, .udp⟩ with
  | inl n => exact ⟨rfl, fun _ => ⟨n, rfl⟩, fun _ => rfl⟩
  | inr e => exact ⟨rfl, fun h => (by cases h), fun ⟨n, h⟩ => (by cases h)⟩

/-- The interfaces through which a node announces itself when it is started. -/
def announcedOn (os : Os) (out : SendOs) : Option (List Str × List Str) :=
  match (Transport.new 0).start os with
  | .ok (none, s) => some (s.uservers.map (·.addr), (s.announceMessage out).2.map (·.server.addr))
  | _ => none

/-- On a host with two interfaces the node is announced on the first only. -/
example : announcedOn (twoIfs (fun _ _ _ => .ok) (fun _ _ _ => .ok)) (fun _ _ => .inl 14)
    = some ([addr0, addr1], [addr0]) := by decide +kernel

/-! ## C73 -/

theorem announceFrom_fails {out : SendOs} (hf : ∀ k a, Fails (out k a)) (k : Nat) (e : Option Err) (us : List UServer) :
    (announceFrom out k e us).1 ≠ none := by
  induction us generalizing k e with
  | nil => simp [announceFrom]
  | cons u us ih =>
    rw [announceFrom]
    unfold serverAnnounce
    by_cases hp : u.port = 0
    · rw [if_pos hp]
      exact ih _ _
    · obtain ⟨e1, h1⟩ := hf k ⟨u, .udp⟩
      rw [if_neg hp, h1]
      exact ih _ _

/-- C73 is false: when the node is started but cannot be announced, `Start` reports an error and
leaves the node running. -/
theorem C73_refuted (os : Os) (hst : Stable os) (out : SendOs) (s s' : Transport) (h : Reachable os s)
    (hs : s.start os = .ok (none, s')) (hf : ∀ k a, Fails (out k a)) :
    ∃ e made, s.nodeStart os out = .ok (some e, s', made) ∧ s'.isRunning = true := by
  have hr := (C58_running os hst s s' h hs).1
  unfold Transport.nodeStart
  rw [hs]
  simp only [Res.ok_bind, Transport.announce, hr, Bool.true_eq_false, if_false]
  have hne := announceFrom_fails hf 0 none s'.uservers
  rcases ha : s'.announceMessage out with ⟨_ | e, made⟩
  · unfold Transport.announceMessage at ha
    rw [ha] at hne
    exact absurd rfl hne
  · exact ⟨e, made, rfl, trivial⟩

/-- The outcome of the start of a node: whether there was an error, whether it is running, and the announcements. -/
def startOutcome (os : Os) (out : SendOs) : Option (Bool × Bool × Nat) :=
  match (Transport.new 0).nodeStart os out with
  | .ok (e, s, made) => some (e.isSome, s.isRunning, made.length)
  | _ => none

/-- A start on a host with two interfaces of a node that cannot be announced, and of one that can. -/
example : startOutcome (twoIfs (fun _ _ _ => .ok) (fun _ _ _ => .ok)) (fun k _ => .inr (.io k)) = some (true, true, 2)
    ∧ startOutcome (twoIfs (fun _ _ _ => .ok) (fun _ _ _ => .ok)) (fun _ _ => .inl 18) = some (false, true, 1)
    ∧ startOutcome (twoIfs (fun _ a _ => if a = addr1 then .refused else .ok) (fun _ _ _ => .ok)) (fun _ _ => .inl 18)
      = some (true, false, 0) := by decide +kernel

/-- C73, the part that holds: when the sockets cannot be bound, `Start` reports an error, the node is
not running and nothing is announced; when `Start` reports none, it is running and was announced. -/
theorem C73_partial (os : Os) (out : SendOs) (s : Transport) (h : Reachable os s) :
    ∃ e s' made, s.nodeStart os out = .ok (e, s', made) ∧
      (∀ e' s1, s.start os = .ok (some e', s1) → e = some e' ∧ s' = s1 ∧ s'.isRunning = false ∧ made = []) ∧
      (e = none → s'.isRunning = true ∧ ∃ i a n, made[i]? = some a ∧ a.server ∈ s'.uservers ∧ out i a = .inl n) := by
  obtain ⟨e1, s1, a1, -, -, -, a5, -, a7, -⟩ := start_spec os (reachable_good h)
  unfold Transport.nodeStart
  rw [a1]
  simp only [Res.ok_bind]
  cases e1 with
  | some e1 =>
    refine ⟨_, _, _, rfl, fun e' s2 he => ?_, fun h => (by cases h)⟩
    cases he
    refine ⟨rfl, rfl, ?_, rfl⟩
    have := a7 (by simp)
    unfold Transport.isRunning
    rw [this]
    simp
  | none =>
    refine ⟨_, _, _, rfl, fun e' s2 he => (by cases he), fun he => ?_⟩
    unfold Transport.announce at he ⊢
    cases hr : s1.isRunning with
    | false => rw [hr, if_pos rfl] at he; cases he
    | true =>
      rw [hr] at he
      simp only [Bool.true_eq_false, if_false] at he ⊢
      refine ⟨trivial, ?_⟩
      unfold Transport.announceMessage at he ⊢
      have key : ∀ (us : List UServer) (k : Nat) (e : Option Err), (announceFrom out k e us).1 = none →
          ∃ i a n, (announceFrom out k e us).2[i]? = some a ∧ a.server ∈ us ∧ out (k + i) a = .inl n := by
        intro us
        induction us with
        | nil => intro k e he; simp [announceFrom] at he
        | cons u us ih =>
          intro k e he
          rw [announceFrom] at he ⊢
          unfold serverAnnounce at he ⊢
          by_cases hp : u.port = 0
          · rw [if_pos hp] at he ⊢
            obtain ⟨i, a, n, b1, b2, b3⟩ := ih _ _ he
            exact ⟨i, a, n, b1, List.mem_cons_of_mem _ b2, b3⟩
          · rw [if_neg hp] at he ⊢
            cases ho : out k ⟨u, .udp⟩ with
            | inl n => exact ⟨0, ⟨u, .udp⟩, n, rfl, List.mem_cons_self .., ho⟩
            | inr e1 =>
              rw [ho] at he
              obtain ⟨i, a, n, b1, b2, b3⟩ := ih _ _ he
              refine ⟨i + 1, a, n, b1, List.mem_cons_of_mem _ b2, ?_⟩
              rw [← b3]
              congr 1
              simp only [List.length_singleton]
              omega
      obtain ⟨i, a, n, b1, b2, b3⟩ := key s1.uservers 0 none he
      rw [Nat.zero_add] at b3
      exact ⟨i, a, n, b1, b2, b3⟩

end Verif.Props
