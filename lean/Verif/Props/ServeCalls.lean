import Verif.Props.LiveNetwork

/-!
# C162 and C163: callbacks of messages handled at the same time

While a message is handled, other messages and the program may change the node at any moment. Whatever the
schedule: the callbacks of a message that is not refused are called once each, in the order of the properties,
and what they do is done, in order, between the arrival of the message and its reply. The goroutine changes
the node at no other moment.
-/

namespace Verif.Props
open Verif Model Spec Lemmas

/-- The calls `ops` were made on the node one after the other at the moments `us`, not before `t` and before
`k`. -/
inductive OpsMade (db : StdDB) (σ : Nat → ServeSt) (t : Nat) : List NodeOp → List Nat → Nat → Prop
  | none {k : Nat} (h : t ≤ k) : OpsMade db σ t [] [] k
  | next {ops us u k op} (h : OpsMade db σ t ops us u) (hk : u < k)
      (node : (σ (u + 1)).node = (op.run db (σ u).node).1)
      (sent : (σ (u + 1)).sent = (σ u).sent ++ (op.run db (σ u).node).2) :
      OpsMade db σ t (ops ++ [op]) (us ++ [u]) k

/-- The callbacks `cs` were called one after the other, not before `t`, and returned `rs` before `k`. Each found
the node as it was when it was called and knew the calls made before it; what it does with the node was done
after that at moments of `us`, before the next one was called. -/
inductive CallsMade (env : Env) (db : StdDB) (σ : Nat → ServeSt) (t : Nat) :
    List Call → List Nat → List (Option Err) → Nat → Prop
  | none {k : Nat} (h : t ≤ k) : CallsMade env db σ t [] [] [] k
  | next {cs us rs u c ops e vs k} (h : CallsMade env db σ t cs us rs u)
      (called : env.behave (σ u).node cs c = (ops, e)) (ran : OpsMade db σ (u + 1) ops vs k) :
      CallsMade env db σ t (cs ++ [c]) (us ++ vs) (rs ++ [e]) k

section
variable {env : Env} {db : StdDB} {σ : Nat → ServeSt} {act : Nat → Option ServeAct}

theorem OpsMade.le {t ops us k} (h : OpsMade db σ t ops us k) : t ≤ k := by
  induction h with
  | none h => exact h
  | next _ hk _ _ ih => omega

theorem OpsMade.mono {t ops us k k'} (h : OpsMade db σ t ops us k) (hk : k ≤ k') : OpsMade db σ t ops us k' := by
  cases h with
  | none h => exact .none (by omega)
  | next h h1 h2 h3 => exact .next h (by omega) h2 h3

theorem CallsMade.mono {t cs us rs k k'} (h : CallsMade env db σ t cs us rs k) (hk : k ≤ k') :
    CallsMade env db σ t cs us rs k' := by
  cases h with
  | none h => exact .none (by omega)
  | next h h1 h2 => exact .next h h1 (h2.mono hk)

/-- The callbacks for the properties `ps`. -/
def callsFor (env : Env) (r : ObjRef) (e : ESV) (ps : List PProp) : List Call :=
  ps.flatMap (fun p => (if env.objListener r then [Call.request r e p] else []) ++
    (if env.reqHandler r then [Call.handler r e p] else []))

/-- The callbacks before those for the properties. -/
def callsFirst (env : Env) (m : Message) : List Call := if env.listener then [Call.message m] else []

theorem callsFor_snoc (r : ObjRef) (e : ESV) (ps : List PProp) (p : PProp) :
    callsFor env r e (ps ++ [p]) = callsFor env r e ps ++
      ((if env.objListener r then [Call.request r e p] else []) ++
        (if env.reqHandler r then [Call.handler r e p] else [])) := by
  unfold callsFor
  rw [List.flatMap_append, List.flatMap_singleton]

/-- Between `a` and `k` the message was found acceptable: it was not ignored at a moment, there is such a service,
and, for requests to read or write, the object was found and permitted what is asked for with each property at a
moment. -/
def Cleared (σ : Nat → ServeSt) (a k : Nat) (m : Message) : Prop :=
  (∃ u, a < u ∧ u < k ∧ ¬ Ignored (σ u).node m) ∧ (∃ s ∈ Esv.table, s.code = m.esv) ∧
  ((m.esv = 0x60 ∨ m.esv = 0x61 ∨ m.esv = 0x62 ∨ m.esv = 0x6E) →
    ∃ r t o, a < t ∧ t < k ∧ Addressed (σ t).node m.getDEOJ r o ∧
      ∀ p ∈ properties m, ∃ u o', t < u ∧ u < k ∧ (σ u).node.get r = some o' ∧ Permits o' m.esv p)

/-- The object was found at moment `t`, and the message was found acceptable before. -/
def FoundAt (σ : Nat → ServeSt) (a k : Nat) (m : Message) (r : ObjRef) (t : Nat) : Prop :=
  a < t ∧ t < k ∧ (∃ o, Addressed (σ t).node m.getDEOJ r o) ∧ Cleared σ a t m

/-- What is known of a goroutine in callback `c`, after the calls `cs` with the results `rs`. -/
def InCall (env : Env) (m : Message) (cs : List Call) (c : Call) (rs : List (Option Err)) (r : ObjRef) :
    AfterCall → Prop
  | .message r' => r' = r ∧ env.listener = true ∧ cs = [] ∧ c = .message m ∧ rs = []
  | .request r' p ps last => r' = r ∧ env.objListener r = true ∧ ∃ done, m.requested = done ++ p :: ps ∧
      cs = callsFirst env m ++ callsFor env r m.esv done ∧ c = .request r m.esv p ∧
      (last = none ↔ ∀ x ∈ rs, x = none)
  | .handler r' e1 ps last => r' = r ∧ env.reqHandler r = true ∧ ∃ done p, m.requested = done ++ p :: ps ∧
      cs = callsFirst env m ++ callsFor env r m.esv done ++
        (if env.objListener r then [Call.request r m.esv p] else []) ∧ c = .handler r m.esv p ∧
      (e1 = none ∧ last = none ↔ ∀ x ∈ rs, x = none)

/-- How a goroutine ended that has called no callback: the message was ignored, it was refused, or there was no
such object any more. -/
def NoneCalled (σ : Nat → ServeSt) (a k : Nat) (m : Message) (reply : Option Message) (e : Option Err) : Prop :=
  ∃ u, a < u ∧ u < k ∧
    ((reply = none ∧ e = none ∧ Ignored (σ u).node m) ∨
      (e = none ∧ reply.isSome ∧ m.newImpossible = .ok (reply.getD m)) ∨
      (reply = none ∧ e = some .notFound ∧ ∀ r o, ¬ Addressed (σ u).node m.getDEOJ r o))

/-- What is known of a goroutine that has called `calls` and changed the node at the moments `us`. -/
def Walked (env : Env) (db : StdDB) (σ : Nat → ServeSt) (a k : Nat) (m : Message) (calls : List Call)
    (us : List Nat) : ServePc → Prop
  | .start => calls = [] ∧ us = []
  | .check r todo => calls = [] ∧ us = [] ∧ (∃ u, a < u ∧ u < k ∧ ¬ Ignored (σ u).node m) ∧
      (∃ s ∈ Esv.table, s.code = m.esv) ∧ (m.esv = 0x60 ∨ m.esv = 0x61 ∨ m.esv = 0x62 ∨ m.esv = 0x6E) ∧
      ∃ t o done, a < t ∧ t < k ∧ Addressed (σ t).node m.getDEOJ r o ∧ m.requested = done ++ todo ∧
        ∀ p ∈ done, ∃ u o', t < u ∧ u < k ∧ (σ u).node.get r = some o' ∧ Permits o' m.esv p
  | .listeners => calls = [] ∧ us = [] ∧ Cleared σ a k m
  | .inside ops e c => ∃ t r cs c0 ops0 us0 vs rs u, FoundAt σ a k m r t ∧ calls = cs ++ [c0] ∧ us = us0 ++ vs ∧
      CallsMade env db σ t cs us0 rs u ∧ env.behave (σ u).node cs c0 = (ops0 ++ ops, e) ∧
      OpsMade db σ (u + 1) ops0 vs k ∧ InCall env m cs c0 rs r c
  | .request r todo last => ∃ t done rs, FoundAt σ a k m r t ∧ m.requested = done ++ todo ∧
      calls = callsFirst env m ++ callsFor env r m.esv done ∧ CallsMade env db σ t calls us rs k ∧
      (last = none ↔ ∀ x ∈ rs, x = none)
  | .handler r p e1 todo last => ∃ t done rs, FoundAt σ a k m r t ∧ m.requested = done ++ p :: todo ∧
      calls = callsFirst env m ++ callsFor env r m.esv done ++
        (if env.objListener r then [Call.request r m.esv p] else []) ∧ CallsMade env db σ t calls us rs k ∧
      (e1 = none ∧ last = none ↔ ∀ x ∈ rs, x = none)
  | .respond => ∃ t r rs, FoundAt σ a k m r t ∧ calls = expectedCalls env r m ∧
      CallsMade env db σ t calls us rs k ∧ ∀ x ∈ rs, x = none
  | .answer _ _ _ => ∃ t r rs, FoundAt σ a k m r t ∧ calls = expectedCalls env r m ∧
      CallsMade env db σ t calls us rs k ∧ ∀ x ∈ rs, x = none
  | .done reply e => (calls = [] ∧ us = [] ∧ NoneCalled σ a k m reply e) ∨
      ∃ t r rs, FoundAt σ a k m r t ∧ calls = expectedCalls env r m ∧ CallsMade env db σ t calls us rs k ∧
        ((∀ x ∈ rs, x = none) ∨ (reply = none ∧ e ≠ none))
  | .crashed => calls = [] ∧ us = []

theorem FoundAt.later {a k m r t} (h : FoundAt σ a k m r t) : FoundAt σ a (k + 1) m r t :=
  ⟨h.1, Nat.lt_succ_of_lt h.2.1, h.2.2⟩

theorem Cleared.later {a k m} (h : Cleared σ a k m) : Cleared σ a (k + 1) m := by
  obtain ⟨⟨u, u1, u2, u3⟩, h1, h2⟩ := h
  refine ⟨⟨u, u1, Nat.lt_succ_of_lt u2, u3⟩, h1, fun hr => ?_⟩
  obtain ⟨r, t, o, g1, g2, g3, g4⟩ := h2 hr
  refine ⟨r, t, o, g1, Nat.lt_succ_of_lt g2, g3, fun p hp => ?_⟩
  obtain ⟨w, o', w1, w2, w3⟩ := g4 p hp
  exact ⟨w, o', w1, Nat.lt_succ_of_lt w2, w3⟩

theorem NoneCalled.later {a k m reply e} (h : NoneCalled σ a k m reply e) : NoneCalled σ a (k + 1) m reply e := by
  obtain ⟨u, u1, u2, u3⟩ := h
  exact ⟨u, u1, Nat.lt_succ_of_lt u2, u3⟩

theorem Walked.later {a k m calls us pc} (h : Walked env db σ a k m calls us pc) :
    Walked env db σ a (k + 1) m calls us pc := by
  cases pc with
  | start => exact h
  | check r todo =>
    obtain ⟨h1, h2, ⟨u, u1, u2, u3⟩, h3, h4, t, o, d, g1, g2, g3, g4, g5⟩ := h
    refine ⟨h1, h2, ⟨u, u1, Nat.lt_succ_of_lt u2, u3⟩, h3, h4, t, o, d, g1, Nat.lt_succ_of_lt g2, g3, g4,
      fun p hp => ?_⟩
    obtain ⟨w, o', w1, w2, w3⟩ := g5 p hp
    exact ⟨w, o', w1, Nat.lt_succ_of_lt w2, w3⟩
  | listeners => exact ⟨h.1, h.2.1, h.2.2.later⟩
  | crashed => exact h
  | inside ops e c =>
    obtain ⟨t, r, cs, c0, ops0, us0, vs, rs, u, h1, h2, h3, h4, h5, h6, h7⟩ := h
    exact ⟨t, r, cs, c0, ops0, us0, vs, rs, u, h1.later, h2, h3, h4, h5, h6.mono (Nat.le_succ k), h7⟩
  | request r todo last =>
    obtain ⟨t, d, rs, h1, h2, h3, h4, h5⟩ := h
    exact ⟨t, d, rs, h1.later, h2, h3, h4.mono (Nat.le_succ k), h5⟩
  | handler r p e1 todo last =>
    obtain ⟨t, d, rs, h1, h2, h3, h4, h5⟩ := h
    exact ⟨t, d, rs, h1.later, h2, h3, h4.mono (Nat.le_succ k), h5⟩
  | respond =>
    obtain ⟨t, r, rs, h1, h2, h3, h4⟩ := h
    exact ⟨t, r, rs, h1.later, h2, h3.mono (Nat.le_succ k), h4⟩
  | answer =>
    obtain ⟨t, r, rs, h1, h2, h3, h4⟩ := h
    exact ⟨t, r, rs, h1.later, h2, h3.mono (Nat.le_succ k), h4⟩
  | done reply e =>
    rcases h with ⟨h1, h2, h3⟩ | ⟨t, r, rs, h1, h2, h3, h4⟩
    · exact .inl ⟨h1, h2, h3.later⟩
    · exact .inr ⟨t, r, rs, h1.later, h2, h3.mono (Nat.le_succ k), h4⟩

theorem lastErr_none (e1 e2 last : Option Err) :
    Serving.lastErr e1 e2 last = none ↔ e1 = none ∧ e2 = none ∧ last = none := by
  unfold Serving.lastErr
  cases e1 <;> cases e2 <;> cases last <;> simp [Node.joinErr]

theorem none_snoc (rs : List (Option Err)) (e : Option Err) :
    (∀ x ∈ rs ++ [e], x = none) ↔ (∀ x ∈ rs, x = none) ∧ e = none := by
  constructor
  · exact fun h => ⟨fun x hx => h x (List.mem_append_left _ hx), h e (by simp)⟩
  · rintro ⟨h1, h2⟩ x hx
    rcases List.mem_append.mp hx with hx | hx
    · exact h1 x hx
    · rw [List.mem_singleton.mp hx]; exact h2

theorem impossible_walked {a k : Nat} {h : Serving} (hak : a < k) (hc : h.calls = []) :
    Walked env db σ a (k + 1) h.msg h.impossible.calls [] h.impossible.pc := by
  unfold Serving.impossible
  cases hx : h.msg.newImpossible with
  | ok r => exact .inl ⟨hc, rfl, k, hak, Nat.lt_succ_self k, .inr (.inl ⟨rfl, rfl, hx⟩)⟩
  | err => exact ⟨hc, rfl⟩
  | panic => exact ⟨hc, rfl⟩

/-- A step of the goroutine: it changes the node only at a moment that is noted. -/
theorem Walked.step {a k : Nat} {h : Serving} {us : List Nat} (hak : a < k)
    (hw : Walked env db σ a k h.msg h.calls us h.pc)
    (hn : (σ (k + 1)).node = (h.step env db (σ k).node).1)
    (hs : (σ (k + 1)).sent = (σ k).sent ++ (h.step env db (σ k).node).2.2) :
    ∃ us', Walked env db σ a (k + 1) h.msg (h.step env db (σ k).node).2.1.calls us'
        (h.step env db (σ k).node).2.1.pc ∧
      (us' = us ++ [k] ∨ us' = us ∧ (σ (k + 1)).node = (σ k).node ∧ (σ (k + 1)).sent = (σ k).sent) := by
  obtain ⟨m, cs, pc⟩ := h
  have imp := fun hc => impossible_walked (env := env) (db := db) (σ := σ) (h := ⟨m, cs, pc⟩) hak hc
  have calm : ∀ x : Node × Serving × List Sent, x = Serving.step env db (σ k).node ⟨m, cs, pc⟩ →
      x.1 = (σ k).node → x.2.2 = [] →
      us = us ∧ (σ (k + 1)).node = (σ k).node ∧ (σ (k + 1)).sent = (σ k).sent := by
    intro x hx h1 h2
    rw [← hx] at hn hs
    exact ⟨rfl, by rw [hn, h1], by rw [hs, h2, List.append_nil]⟩
  dsimp only at hw ⊢
  cases pc with
  | start =>
    obtain ⟨rfl, rfl⟩ := hw
    refine ⟨[], ?_, .inr (calm _ rfl ?_ ?_)⟩
    · simp only [Serving.step]
      split
      · next hi =>
        exact .inl ⟨rfl, rfl, k, hak, Nat.lt_succ_self k, .inl ⟨rfl, rfl, (ignored_iff _ m).mp hi⟩⟩
      · next hi =>
        have hseen : ∃ u, a < u ∧ u < k + 1 ∧ ¬ Ignored (σ u).node m :=
          ⟨k, hak, Nat.lt_succ_self k, fun h => hi ((ignored_iff _ m).mpr h)⟩
        split
        · exact imp rfl
        · next r hl =>
          split
          · exact imp rfl
          · next hv =>
            have hval : ∃ s ∈ Esv.table, s.code = m.esv := by
              rw [← esv_in_table]
              simpa using hv
            split
            · next hrw =>
              obtain ⟨o, ho, -⟩ := lookupObject_some hl
              exact ⟨rfl, rfl, hseen, hval, (esv_rw m.esv).mp hrw, k, o, [], hak, Nat.lt_succ_self k, ho, rfl,
                fun p hp => (by cases hp)⟩
            · next hrw => exact ⟨rfl, rfl, hseen, hval, fun h => absurd ((esv_rw m.esv).mpr h) hrw⟩
    all_goals
      simp only [Serving.step]
      repeat' split
      all_goals rfl
  | check r todo =>
    have hw' := Walked.later (pc := .check r todo) hw
    obtain ⟨rfl, rfl, h1, h2, h3, t, o, d, g1, g2, g3, g4, g5⟩ := hw
    cases todo with
    | nil =>
      obtain ⟨-, -, h1, -, -, -⟩ := hw'
      rw [List.append_nil, requested_eq] at g4
      refine ⟨[], ⟨rfl, rfl, h1, h2, fun _ => ⟨r, t, o, g1, Nat.lt_succ_of_lt g2, g3, fun p hp => ?_⟩⟩,
        .inr (calm _ rfl rfl rfl)⟩
      obtain ⟨w, o', w1, w2, w3⟩ := g5 p (by rw [← g4]; exact hp)
      exact ⟨w, o', w1, Nat.lt_succ_of_lt w2, w3⟩
    | cons p ps =>
      refine ⟨[], ?_, .inr (calm _ rfl ?_ ?_)⟩
      · simp only [Serving.step]
        split
        · exact imp rfl
        · next o1 hg =>
          split
          · next hv =>
            obtain ⟨-, -, h1, -, -, -⟩ := hw'
            refine ⟨rfl, rfl, h1, h2, h3, t, o, d ++ [p], g1, Nat.lt_succ_of_lt g2, g3, by rw [g4]; simp,
              fun q hq => ?_⟩
            rcases List.mem_append.mp hq with hq | hq
            · obtain ⟨w, o', w1, w2, w3⟩ := g5 q hq
              exact ⟨w, o', w1, Nat.lt_succ_of_lt w2, w3⟩
            · rw [List.mem_singleton.mp hq]
              refine ⟨k, o1, g2, Nat.lt_succ_self k, hg, ?_⟩
              exact (valid_all o1 m.esv h3 [p]).mp (by simpa using hv) p (by simp)
          · exact imp rfl
      all_goals
        simp only [Serving.step]
        repeat' split
        all_goals rfl
  | listeners =>
    obtain ⟨rfl, rfl, hcl⟩ := hw
    refine ⟨[], ?_, .inr (calm _ rfl ?_ ?_)⟩
    · simp only [Serving.step]
      split
      · next hl =>
        exact .inl ⟨rfl, rfl, k, hak, Nat.lt_succ_self k, .inr (.inr ⟨rfl, rfl, lookupObject_none hl⟩)⟩
      · next r hl =>
        obtain ⟨o, ho, -⟩ := lookupObject_some hl
        have hf : FoundAt σ a (k + 1) m r k := ⟨hak, Nat.lt_succ_self k, ⟨o, ho⟩, hcl⟩
        split
        · next hlis =>
          exact ⟨k, r, [], .message m, [], [], [], [], k, hf, rfl, rfl, .none (Nat.le_refl k), rfl,
            .none (Nat.le_refl _), rfl, hlis, rfl, rfl, rfl⟩
        · next hlis =>
          refine ⟨k, [], [], hf, rfl, ?_, .none (Nat.le_succ k), by simp⟩
          unfold callsFirst
          rw [if_neg hlis]
          rfl
    all_goals
      simp only [Serving.step]
      repeat' split
      all_goals rfl
  | inside ops e c =>
    obtain ⟨t, r, cs', c0, ops0, us0, vs, rs, u, h1, h2, h3, h4, h5, h6, h7⟩ := hw
    cases ops with
    | nil =>
      refine ⟨us, ?_, .inr (calm _ rfl rfl rfl)⟩
      rw [List.append_nil] at h5
      have hm : CallsMade env db σ t cs us (rs ++ [e]) (k + 1) := by
        rw [h2, h3]
        exact .next h4 h5 (h6.mono (Nat.le_succ k))
      cases c with
      | message r' =>
        obtain ⟨rfl, g1, g2, g3, g4⟩ := h7
        refine ⟨t, [], rs ++ [e], h1.later, rfl, ?_, hm, ?_⟩
        · rw [h2, g2, g3]
          unfold callsFirst
          rw [if_pos g1]
          rfl
        · rw [g4]; simp
      | request r' p ps last =>
        obtain ⟨rfl, g1, d, g2, g3, g4, g5⟩ := h7
        refine ⟨t, d, rs ++ [e], h1.later, g2, ?_, hm, ?_⟩
        · show cs = _
          rw [h2, g3, g4, if_pos g1]
        · rw [none_snoc, ← g5, and_comm]
      | handler r' e1 ps last =>
        obtain ⟨rfl, g1, d, p, g2, g3, g4, g5⟩ := h7
        refine ⟨t, d ++ [p], rs ++ [e], h1.later, by rw [g2]; simp, ?_, hm, ?_⟩
        · show cs = _
          rw [h2, g3, g4, callsFor_snoc, if_pos g1]
          simp only [List.append_assoc]
        · rw [none_snoc, ← g5, lastErr_none]
          constructor
          · exact fun h => ⟨⟨h.1, h.2.2⟩, h.2.1⟩
          · exact fun h => ⟨h.1.1, h.2, h.1.2⟩
    | cons op ops =>
      refine ⟨us ++ [k], ?_, .inl rfl⟩
      refine ⟨t, r, cs', c0, ops0 ++ [op], us0, vs ++ [k], rs, u, h1.later, h2, by rw [h3]; simp, h4, ?_, ?_, h7⟩
      · rw [h5]; simp
      · exact .next h6 (Nat.lt_succ_self k) hn hs
  | request r todo last =>
    obtain ⟨t, d, rs, h1, h2, h3, h4, h5⟩ := hw
    cases todo with
    | nil =>
      rw [List.append_nil] at h2
      have he : cs = expectedCalls env r m := by
        rw [h3]
        unfold expectedCalls callsFirst callsFor
        rw [← requested_eq, h2]
      cases last with
      | none =>
        exact ⟨us, ⟨t, r, rs, h1.later, he, h4.mono (Nat.le_succ k), h5.mp rfl⟩, .inr (calm _ rfl rfl rfl)⟩
      | some e =>
        exact ⟨us, .inr ⟨t, r, rs, h1.later, he, h4.mono (Nat.le_succ k), .inr ⟨rfl, by simp⟩⟩,
          .inr (calm _ rfl rfl rfl)⟩
    | cons p ps =>
      refine ⟨us, ?_, .inr (calm _ rfl ?_ ?_)⟩
      · simp only [Serving.step]
        split
        · next hl =>
          exact ⟨t, r, cs, .request r m.esv p, [], us, [], rs, k, h1.later, rfl, by simp, h4, rfl,
            .none (Nat.le_refl _), rfl, hl, d, h2, h3, rfl, h5⟩
        · next hl =>
          refine ⟨t, d, rs, h1.later, h2, ?_, h4.mono (Nat.le_succ k), by simpa using h5⟩
          rw [if_neg hl, List.append_nil]
          exact h3
      all_goals
        simp only [Serving.step]
        split <;> rfl
  | handler r p e1 todo last =>
    obtain ⟨t, d, rs, h1, h2, h3, h4, h5⟩ := hw
    refine ⟨us, ?_, .inr (calm _ rfl ?_ ?_)⟩
    · simp only [Serving.step]
      split
      · next hl =>
        exact ⟨t, r, cs, .handler r m.esv p, [], us, [], rs, k, h1.later, rfl, by simp, h4, rfl,
          .none (Nat.le_refl _), rfl, hl, d, p, h2, h3, rfl, h5⟩
      · next hl =>
        refine ⟨t, d ++ [p], rs, h1.later, by rw [h2]; simp, ?_, h4.mono (Nat.le_succ k), ?_⟩
        · rw [callsFor_snoc, if_neg hl, List.append_nil, ← List.append_assoc]
          exact h3
        · rw [← h5, lastErr_none]
          simp
    all_goals
      simp only [Serving.step]
      split <;> rfl
  | respond =>
    obtain ⟨t, r, rs, h1, h2, h3, h4⟩ := hw
    have hd := h3.mono (Nat.le_succ k)
    refine ⟨us, ?_, .inr (calm _ rfl ?_ ?_)⟩
    · simp only [Serving.step]
      split
      · exact .inr ⟨t, r, rs, h1.later, h2, hd, .inl h4⟩
      · split
        · exact .inr ⟨t, r, rs, h1.later, h2, hd, .inl h4⟩
        · exact ⟨t, r, rs, h1.later, h2, hd, h4⟩
    all_goals
      simp only [Serving.step]
      repeat' split
      all_goals rfl
  | answer r' todo res =>
    obtain ⟨t, r, rs, h1, h2, h3, h4⟩ := hw
    have hd := h3.mono (Nat.le_succ k)
    cases todo with
    | nil => exact ⟨us, .inr ⟨t, r, rs, h1.later, h2, hd, .inl h4⟩, .inr (calm _ rfl rfl rfl)⟩
    | cons p ps =>
      refine ⟨us, ?_, .inr (calm _ rfl ?_ ?_)⟩
      · simp only [Serving.step]
        split <;> exact ⟨t, r, rs, h1.later, h2, hd, h4⟩
      all_goals
        simp only [Serving.step]
        split <;> rfl
  | done reply e => exact ⟨us, Walked.later (pc := .done reply e) hw, .inr (calm _ rfl rfl rfl)⟩
  | crashed => exact ⟨us, hw, .inr (calm _ rfl rfl rfl)⟩

theorem serving_msg (env : Env) (db : StdDB) (n : Node) (h : Serving) : (h.step env db n).2.1.msg = h.msg := by
  obtain ⟨m, cs, pc⟩ := h
  have imp := (impossible_still ⟨m, cs, pc⟩).2
  cases pc with
  | inside ops e k => cases ops <;> rfl
  | request r todo last =>
    cases todo with
    | nil => cases last <;> rfl
    | cons p ps => simp only [Serving.step]; split <;> rfl
  | check r todo =>
    cases todo with
    | nil => rfl
    | cons p ps =>
      simp only [Serving.step]
      repeat' split
      all_goals first | rfl | exact imp
  | answer r todo res =>
    cases todo with
    | nil => rfl
    | cons p ps => simp only [Serving.step]; split <;> rfl
  | _ =>
    simp only [Serving.step]
    repeat' split
    all_goals first | rfl | exact imp

/-- What is known of all goroutines. -/
theorem walked_all (hf : Follows env db σ act) (k : Nat) : ∀ i h, (σ k).serving[i]? = some h →
    ∃ a us, a < k ∧ act a = some (.arrive h.msg) ∧ (σ a).serving.length = i ∧
      Walked env db σ a k h.msg h.calls us h.pc ∧
      ∀ u, u < k → act u = some (.step i) → u ∉ us →
        (σ (u + 1)).node = (σ u).node ∧ (σ (u + 1)).sent = (σ u).sent := by
  induction k with
  | zero => intro i h hi; rw [hf.1] at hi; cases hi
  | succ k ih =>
    have keep : ∀ i h, (σ k).serving[i]? = some h → act k ≠ some (.step i) →
        ∃ a us, a < k + 1 ∧ act a = some (.arrive h.msg) ∧ (σ a).serving.length = i ∧
          Walked env db σ a (k + 1) h.msg h.calls us h.pc ∧
          ∀ u, u < k + 1 → act u = some (.step i) → u ∉ us →
            (σ (u + 1)).node = (σ u).node ∧ (σ (u + 1)).sent = (σ u).sent := by
      intro i h hi hne
      obtain ⟨a, us, a1, a2, a3, a4, a5⟩ := ih i h hi
      refine ⟨a, us, Nat.lt_succ_of_lt a1, a2, a3, a4.later, fun u hu hstep hus => ?_⟩
      by_cases e : u = k
      · rw [e] at hstep; exact absurd hstep hne
      · exact a5 u (by omega) hstep hus
    intro i h hi
    have hf2 := hf.2 k
    rw [hf2] at hi
    cases ha : act k with
    | none => rw [ha] at hi; exact keep i h hi (by rw [ha]; simp)
    | some x =>
      rw [ha] at hi hf2
      dsimp only at hi hf2
      cases x with
      | arrive m =>
        simp only [ServeSt.step] at hi
        rw [List.getElem?_append] at hi
        split at hi
        · exact keep i h hi (by rw [ha]; simp)
        · next hge =>
          have hi0 : i = (σ k).serving.length := by
            have : i - (σ k).serving.length < 1 := by
              rcases Nat.lt_or_ge (i - (σ k).serving.length) 1 with x | x
              · exact x
              · rw [List.getElem?_eq_none (by simpa using x)] at hi; cases hi
            omega
          simp [hi0] at hi
          subst hi
          refine ⟨k, [], Nat.lt_succ_self k, ha, hi0.symm, ⟨rfl, rfl⟩, fun u hu hstep _ => ?_⟩
          have hlt : u < k := by
            rcases Nat.lt_or_ge u k with x | x
            · exact x
            · have : u = k := by omega
              rw [this, ha] at hstep; cases hstep
          have hg : (σ u).serving.length ≤ i := by rw [hi0]; exact hf.grows (Nat.le_of_lt hlt)
          have hnone : (σ u).serving[i]? = none := List.getElem?_eq_none hg
          have hu2 := hf.2 u
          rw [hstep] at hu2
          simp only [ServeSt.step, hnone] at hu2
          rw [hu2]
          exact ⟨rfl, rfl⟩
      | step j =>
        simp only [ServeSt.step] at hi hf2
        cases hj : (σ k).serving[j]? with
        | none =>
          rw [hj] at hi
          refine keep i h hi (fun e => ?_)
          rw [ha] at e
          cases e
          rw [hj] at hi
          cases hi
        | some g =>
          rw [hj] at hi hf2
          dsimp only at hi hf2
          rw [List.getElem?_set] at hi
          split at hi
          · next e =>
            subst e
            split at hi
            · cases hi
              obtain ⟨a, us, a1, a2, a3, a4, a5⟩ := ih j g hj
              obtain ⟨us', w1, w2⟩ := a4.step a1 (by rw [hf2]) (by rw [hf2])
              have hmsg : (g.step env db (σ k).node).2.1.msg = g.msg := serving_msg env db (σ k).node g
              refine ⟨a, us', Nat.lt_succ_of_lt a1, by rw [hmsg]; exact a2, a3, by rw [hmsg]; exact w1,
                fun u hu hstep hus => ?_⟩
              by_cases e : u = k
              · subst e
                rcases w2 with w2 | ⟨-, w2⟩
                · exact absurd (by rw [w2]; simp) hus
                · exact w2
              · refine a5 u (by omega) hstep (fun hm => hus ?_)
                rcases w2 with w2 | ⟨w2, -⟩
                · rw [w2]; exact List.mem_append_left _ hm
                · rw [w2]; exact hm
            · cases hi
          · next hne =>
            refine keep i h hi (fun e => ?_)
            rw [ha] at e
            cases e
            exact hne rfl
      | call op => exact keep i h hi (by rw [ha]; simp)

end

/-- C162. A message that was handled, whatever else happened meanwhile, had arrived at a step `a`, and the
goroutine that handled it changed the node at the moments `us` only. Either no callback was called, the node was
never changed, and the message was ignored, or refused for a reason that held at a moment after its arrival, or
its object was gone. Or the message was found acceptable, and at a later moment `t` its object was found; then
the callbacks due for this object were called, each once and in order, and what they do was done between `t` and the end,
in order. If one of them reported an error there is no reply. -/
theorem C162_called (env : Env) (db : StdDB) (n : Node) (acts : List ServeAct) (i : Nat) (m : Message)
    (hm : Built m) (cs : List Call) (reply : Option Message) (e : Option Err)
    (hi : ((ServeSt.init n).run env db acts).serving[i]? = some ⟨m, cs, .done reply e⟩) :
    ∃ a us, acts[a]? = some (.arrive m) ∧ (arrivals (acts.take a)).length = i ∧
      (∀ u, acts[u]? = some (.step i) → u ∉ us →
        (serveAt env db n acts (u + 1)).node = (serveAt env db n acts u).node ∧
        (serveAt env db n acts (u + 1)).sent = (serveAt env db n acts u).sent) ∧
      ((cs = [] ∧ us = [] ∧
          ((reply = none ∧ e = none ∧ ∃ u, a < u ∧ u < acts.length ∧ Ignored (serveAt env db n acts u).node m) ∨
            (∃ res, reply = some res ∧ e = none ∧ res.esv = specRefusal m.esv ∧
              Unfit (serveAt env db n acts) a acts.length m) ∨
            (reply = none ∧ e = some .notFound ∧ ∃ u, a < u ∧ u < acts.length ∧
              ∀ r o, ¬ Addressed (serveAt env db n acts u).node m.getDEOJ r o))) ∨
        ∃ t r o rs, Cleared (serveAt env db n acts) a t m ∧ t < acts.length ∧
          Addressed (serveAt env db n acts t).node m.getDEOJ r o ∧ cs = expectedCalls env r m ∧
          CallsMade env db (serveAt env db n acts) t cs us rs acts.length ∧
          ((∀ x ∈ rs, x = none) ∨ (reply = none ∧ e ≠ none))) := by
  rw [← serveAt_end (Nat.le_refl _)] at hi
  obtain ⟨a, us, a1, a2, a3, a4, a5⟩ := walked_all (serveAt_follows env db n acts) acts.length i _ hi
  dsimp only at a2 a4
  refine ⟨a, us, a2, by rw [← serving_length a (by omega)]; exact a3, fun u hu => ?_, ?_⟩
  · exact a5 u (List.getElem?_eq_some_iff.mp hu).1 hu
  · rcases a4 with ⟨h1, h2, u, u1, u2, h3⟩ | ⟨t, r, rs, ⟨-, f2, ⟨o, f3⟩, f4⟩, g2, g3, g4⟩
    · refine .inl ⟨h1, h2, ?_⟩
      rcases h3 with ⟨x, y, z⟩ | ⟨x, y, z⟩ | ⟨x, y, z⟩
      · exact .inl ⟨x, y, u, u1, u2, z⟩
      · obtain ⟨res, rfl⟩ := Option.isSome_iff_exists.mp y
        subst x
        obtain ⟨r, x1, -, -, -, x5, -⟩ := C16_header_partial m hm
        rw [Option.getD_some, x1] at z
        cases z
        obtain ⟨b, b1, b2, b3, b4⟩ := told_all (serveAt_follows env db n acts) acts.length i _ hi
        have hab : a = b := (serveAt_follows env db n acts).arrival a2 b2 (by rw [a3, b3])
        subst hab
        refine .inr (.inl ⟨_, rfl, rfl, x5, ?_⟩)
        rcases b4 with ⟨-, b4⟩ | ⟨r, t0, ts, h⟩
        · exact b4
        · exfalso
          obtain ⟨-, -, -, -, c, -⟩ := h.reply hm
          rw [x5] at c
          exact answer_not_refusal _ h.asked c.symm
      · exact .inr (.inr ⟨x, y, u, u1, u2, z⟩)
    · exact .inr ⟨t, r, o, rs, f4, f2, f3, g2, g3, g4⟩

/-- A write of two properties that the program carries out, while it writes the first one itself in between: the
hypotheses of `C162_called`, and a case with callbacks. -/
example : ∃ acts res, Built (request 0x61 [⟨0x80, [0x31]⟩, ⟨0xB0, [0x42]⟩]) ∧
    ((ServeSt.init pairNode).run keepingEnv stdDB acts).serving[0]?
      = some ⟨request 0x61 [⟨0x80, [0x31]⟩, ⟨0xB0, [0x42]⟩],
        [.message (request 0x61 [⟨0x80, [0x31]⟩, ⟨0xB0, [0x42]⟩]), .request (.device 0) 0x61 ⟨0x80, [0x31]⟩,
          .request (.device 0) 0x61 ⟨0xB0, [0x42]⟩], .done (some res) none⟩ ∧
    properties res = [⟨0x80, [0x32]⟩, ⟨0xB0, [0x42]⟩] :=
  ⟨[.arrive (request 0x61 [⟨0x80, [0x31]⟩, ⟨0xB0, [0x42]⟩])] ++ List.replicate 9 (.step 0) ++
      [.call (.obj (.device 0) (.write 0x80 [0x32]))] ++ List.replicate 12 (.step 0),
    ((request 0x61 [⟨0x80, [0x31]⟩, ⟨0xB0, [0x42]⟩]).newResponse.addProperty (some ⟨0x80, [0x32]⟩)).addProperty
      (some ⟨0xB0, [0x42]⟩),
    .addProperty _ (.addProperty _ (.setESV _ (.setDEOJ _ (.setSEOJ _ (.setTID _ .new))))), rfl, rfl⟩

end Verif.Props
