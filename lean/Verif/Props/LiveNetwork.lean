import Verif.Props.Moments
import Verif.Props.NetworkRead
import Verif.Model.LiveNetwork

/-!
# C161: posts to a node that handles messages at the same time
-/

namespace Verif.Props
open Verif Model Spec Lemmas

/-! ## Histories -/

/-- The state after the first `t` of the steps. -/
abbrev liveAt (L : Link) (c n : Node) (acts : List LiveAct) (t : Nat) : LiveNet :=
  (LiveNet.init c n).run L (acts.take t)

/-- The node asked and its goroutines after the first `t` of the steps. -/
def servedAt (L : Link) (c n : Node) (acts : List LiveAct) (t : Nat) : ServeSt :=
  ⟨(liveAt L c n acts t).net.server, (liveAt L c n acts t).serving, (liveAt L c n acts t).sent⟩

/-- A call that uses an identifier of the posting node. -/
def liveUsesId : LiveAct → Bool
  | .post .. => true
  | .other => true
  | _ => false

/-- What a step is for the node asked. -/
def asServed (L : Link) (s : LiveNet) : LiveAct → Option ServeAct
  | .arrive k => (s.net.requests[k]?.bind (arriving L.toIf L.from_)).map .arrive
  | .message m => some (.arrive m)
  | .step i => some (.step i)
  | .call op => some (.call op)
  | _ => none

theorem liveAt_succ (L : Link) (c n : Node) (acts : List LiveAct) (t : Nat) (a : LiveAct)
    (h : acts[t]? = some a) : liveAt L c n acts (t + 1) = (liveAt L c n acts t).step L a := by
  unfold liveAt LiveNet.run
  rw [List.take_add_one, h]
  simp [List.foldl_append]

theorem liveAt_end (L : Link) (c n : Node) (acts : List LiveAct) (t : Nat) (h : acts[t]? = none) :
    liveAt L c n acts (t + 1) = liveAt L c n acts t := by
  unfold liveAt
  rw [List.take_add_one, h]
  simp

theorem post_server (s : Net) (o : ObjectCode) (e : ESV) (ps : List EProp) : (s.post o e ps).server = s.server := by
  unfold Net.post
  cases s.waiting with
  | some q => rfl
  | none =>
    dsimp only
    split <;> rfl

theorem deliver_server (L : Link) (s : Net) (k : Nat) : (s.deliver L k).server = s.server := by
  unfold Net.deliver
  split
  · rfl
  · split
    · rfl
    · split <;> rfl

/-- The node asked does what `Verif.Model.Serve` says. -/
theorem live_served (L : Link) (s : LiveNet) (a : LiveAct) :
    (⟨(s.step L a).net.server, (s.step L a).serving, (s.step L a).sent⟩ : ServeSt) =
      match asServed L s a with
      | some x => ServeSt.step L.env L.db ⟨s.net.server, s.serving, s.sent⟩ x
      | none => ⟨s.net.server, s.serving, s.sent⟩ := by
  cases a with
  | post o e ps =>
    show (⟨(s.net.post o e ps).server, s.serving, s.sent⟩ : ServeSt) = _
    rw [post_server]; rfl
  | other => rfl
  | deliver k =>
    show (⟨(s.net.deliver L k).server, s.serving, s.sent⟩ : ServeSt) = _
    rw [deliver_server]; rfl
  | timeout => rfl
  | arrive k =>
    simp only [LiveNet.step, asServed]
    cases s.net.requests[k]? with
    | none => rfl
    | some b =>
      simp only [Option.bind_some]
      cases arriving L.toIf L.from_ b <;> rfl
  | message m => rfl
  | step i =>
    simp only [LiveNet.step, asServed, LiveNet.go, ServeSt.step]
    cases s.serving[i]? <;> rfl
  | call op => rfl

theorem servedAt_follows (L : Link) (c n : Node) (acts : List LiveAct) :
    Follows L.env L.db (servedAt L c n acts) (fun t => acts[t]?.bind (asServed L (liveAt L c n acts t))) := by
  refine ⟨rfl, fun t => ?_⟩
  dsimp only
  cases ha : acts[t]? with
  | none =>
    unfold servedAt
    rw [liveAt_end _ _ _ _ _ ha]
    rfl
  | some a =>
    unfold servedAt
    rw [liveAt_succ _ _ _ _ _ _ ha]
    exact live_served L _ a

/-- Everything a step may do to the posting node and the datagrams. -/
theorem livenet_cases (L : Link) (s : LiveNet) (a : LiveAct) :
    ((s.step L a).net.client = s.net.client ∨
      (liveUsesId a = true ∧ (s.step L a).net.client = s.net.client.nextTID)) ∧
    ((s.step L a).net.requests = s.net.requests ∨ ∃ objCode esv ps q, a = .post objCode esv ps ∧
      Issued s.net objCode esv ps q ∧ (s.step L a).net.requests = s.net.requests ++ [q.bytes] ∧
      (s.step L a).net.waiting = some q ∧ (s.step L a).net.client = s.net.client.nextTID) ∧
    ((s.step L a).net.waiting = s.net.waiting ∨ (s.step L a).net.waiting = none ∨ ∃ objCode esv ps q,
      a = .post objCode esv ps ∧ Issued s.net objCode esv ps q ∧ (s.step L a).net.waiting = some q ∧
      (s.step L a).net.requests = s.net.requests ++ [q.bytes]) ∧
    ((s.step L a).net.replies = s.net.replies ∨ ∃ i m cs r, a = .step i ∧ s.asked[i]? = some true ∧
      (s.step L a).serving[i]? = some ⟨m, cs, .done (some r) none⟩ ∧
      (s.step L a).net.replies = s.net.replies ++ [r.bytes]) ∧
    ((s.step L a).net.returned = s.net.returned ∨ ∃ k b m q, a = .deliver k ∧ s.net.replies[k]? = some b ∧
      arriving L.fromIf L.to_ b = some m ∧ s.net.waiting = some q ∧ m.getTID = q.getTID ∧
      (s.step L a).net.returned = s.net.returned ++ [m]) := by
  cases a with
  | post o e ps =>
    obtain ⟨h1, h2, h3, h4, h5⟩ := step_cases L s.net (.post o e ps)
    refine ⟨h1, ?_, ?_, .inl ?_, .inl ?_⟩
    · rcases h2 with h2 | ⟨o', e', ps', q, x, h2⟩
      · exact .inl h2
      · cases x; exact .inr ⟨o, e, ps, q, rfl, h2⟩
    · rcases h3 with h3 | h3 | ⟨o', e', ps', q, x, h3⟩
      · exact .inl h3
      · exact .inr (.inl h3)
      · cases x; exact .inr (.inr ⟨o, e, ps, q, rfl, h3⟩)
    · rcases h4 with h4 | ⟨_, _, _, _, x, _⟩
      · exact h4
      · cases x
    · rcases h5 with h5 | ⟨_, _, _, _, x, _⟩
      · exact h5
      · cases x
  | other => exact ⟨.inr ⟨rfl, rfl⟩, .inl rfl, .inl rfl, .inl rfl, .inl rfl⟩
  | timeout => exact ⟨.inl rfl, .inl rfl, .inr (.inl rfl), .inl rfl, .inl rfl⟩
  | deliver k =>
    obtain ⟨h1, h2, h3, h4, h5⟩ := step_cases L s.net (.deliver k)
    refine ⟨?_, ?_, ?_, .inl ?_, ?_⟩
    · rcases h1 with h1 | ⟨x, _⟩
      · exact .inl h1
      · cases x
    · rcases h2 with h2 | ⟨o', e', ps', q, x, h2⟩
      · exact .inl h2
      · cases x
    · rcases h3 with h3 | h3 | ⟨o', e', ps', q, x, h3⟩
      · exact .inl h3
      · exact .inr (.inl h3)
      · cases x
    · rcases h4 with h4 | ⟨_, _, _, _, x, _⟩
      · exact h4
      · cases x
    · rcases h5 with h5 | ⟨k', b, m, q, x, h5⟩
      · exact .inl h5
      · cases x; exact .inr ⟨k, b, m, q, rfl, h5⟩
  | arrive k =>
    have hx : (s.step L (.arrive k)).net = s.net := by
      simp only [LiveNet.step]
      cases s.net.requests[k]? with
      | none => rfl
      | some b => dsimp only; cases arriving L.toIf L.from_ b <;> rfl
    rw [hx]
    exact ⟨.inl rfl, .inl rfl, .inl rfl, .inl rfl, .inl rfl⟩
  | message m => exact ⟨.inl rfl, .inl rfl, .inl rfl, .inl rfl, .inl rfl⟩
  | call op => exact ⟨.inl rfl, .inl rfl, .inl rfl, .inl rfl, .inl rfl⟩
  | step i =>
    simp only [LiveNet.step, LiveNet.go]
    cases hi : s.serving[i]? with
    | none => exact ⟨.inl rfl, .inl rfl, .inl rfl, .inl rfl, .inl rfl⟩
    | some h =>
      refine ⟨.inl rfl, .inl rfl, .inl rfl, ?_, .inl rfl⟩
      dsimp only
      split
      · next ha =>
        have hlt : i < s.serving.length := List.getElem?_eq_some_iff.mp hi |>.1
        generalize hh : (h.step L.env L.db s.net.server).2.1 = h'
        have key : LiveNet.written h h' = [] ∨ ∃ m cs r, h' = ⟨m, cs, .done (some r) none⟩ ∧
            LiveNet.written h h' = [r.bytes] := by
          obtain ⟨m', cs', pc'⟩ := h'
          unfold LiveNet.written
          split
          · exact .inl rfl
          · dsimp only
            split
            · next r => exact .inr ⟨m', cs', r, rfl, rfl⟩
            · exact .inl rfl
        rcases key with key | ⟨m, cs, r, k1, k2⟩
        · left
          rw [key, List.append_nil]
        · right
          refine ⟨i, m, cs, r, rfl, ha, ?_, by rw [k2]⟩
          rw [List.getElem?_set_self hlt, k1]
      · left
        rw [List.append_nil]

section
variable (L : Link) (c n : Node) (acts : List LiveAct)

theorem live_requests_origin (t : Nat) : ∀ (k : Nat) (b : Bytes), (liveAt L c n acts t).net.requests[k]? = some b →
    ∃ i objCode esv ps q, i < t ∧ acts[i]? = some (.post objCode esv ps) ∧
      Issued (liveAt L c n acts i).net objCode esv ps q ∧ q.bytes = b ∧
      (liveAt L c n acts (i + 1)).net.client = (liveAt L c n acts i).net.client.nextTID := by
  induction t with
  | zero => intro k b h; simp [liveAt, LiveNet.run, LiveNet.init, Net.init] at h
  | succ t ih =>
    intro k b h
    cases ha : acts[t]? with
    | none =>
      rw [liveAt_end _ _ _ _ _ ha] at h
      obtain ⟨i, o, e, ps, q, h1, h2⟩ := ih k b h
      exact ⟨i, o, e, ps, q, by omega, h2⟩
    | some a =>
      have hs := liveAt_succ L c n acts t a ha
      rcases (livenet_cases L (liveAt L c n acts t) a).2.1 with h' | ⟨o, e, ps, q, rfl, hi, h', -, hc⟩
      · rw [hs, h'] at h
        obtain ⟨i, o, e, ps, q, h1, h2⟩ := ih k b h
        exact ⟨i, o, e, ps, q, by omega, h2⟩
      · rw [hs, h', List.getElem?_append] at h
        split at h
        · obtain ⟨i, o, e, ps, q, h1, h2⟩ := ih k b h
          exact ⟨i, o, e, ps, q, by omega, h2⟩
        · rw [List.getElem?_singleton] at h
          split at h
          · exact ⟨t, o, e, ps, q, by omega, ha, hi, Option.some.inj h, by rw [hs]; exact hc⟩
          · cases h

theorem live_waiting_origin (t : Nat) : ∀ q, (liveAt L c n acts t).net.waiting = some q →
    ∃ i objCode esv ps, i < t ∧ acts[i]? = some (.post objCode esv ps) ∧
      Issued (liveAt L c n acts i).net objCode esv ps q ∧
      (liveAt L c n acts (i + 1)).net.client = (liveAt L c n acts i).net.client.nextTID ∧
      ∀ u, i < u → u ≤ t → (liveAt L c n acts u).net.waiting = some q := by
  induction t with
  | zero => intro q h; simp [liveAt, LiveNet.run, LiveNet.init, Net.init] at h
  | succ t ih =>
    intro q h
    have old : (liveAt L c n acts t).net.waiting = some q → ∃ i objCode esv ps, i < t + 1 ∧
        acts[i]? = some (.post objCode esv ps) ∧ Issued (liveAt L c n acts i).net objCode esv ps q ∧
        (liveAt L c n acts (i + 1)).net.client = (liveAt L c n acts i).net.client.nextTID ∧
        ∀ u, i < u → u ≤ t + 1 → (liveAt L c n acts u).net.waiting = some q := by
      intro h'
      obtain ⟨i, o, e, ps, h1, h2, h3, h4, h5⟩ := ih q h'
      refine ⟨i, o, e, ps, by omega, h2, h3, h4, fun u hu1 hu2 => ?_⟩
      by_cases hu : u = t + 1
      · rw [hu]; exact h
      · exact h5 u hu1 (by omega)
    cases ha : acts[t]? with
    | none =>
      rw [liveAt_end _ _ _ _ _ ha] at h
      exact old h
    | some a =>
      have hs := liveAt_succ L c n acts t a ha
      obtain ⟨-, hr, hw, -⟩ := livenet_cases L (liveAt L c n acts t) a
      rcases hw with h' | h' | ⟨o, e, ps, q', rfl, hi, h', hrq⟩
      · exact old (by rw [← h', ← hs]; exact h)
      · rw [hs, h'] at h; cases h
      · rw [hs, h'] at h
        cases h
        rcases hr with hr | ⟨-, -, -, -, -, -, -, -, hc⟩
        · rw [hrq] at hr
          have := congrArg List.length hr
          simp at this
        · refine ⟨t, o, e, ps, by omega, ha, hi, by rw [hs]; exact hc, fun u hu1 hu2 => ?_⟩
          rw [show u = t + 1 by omega, hs]
          exact h'

theorem live_replies_origin (t : Nat) : ∀ (k : Nat) (b : Bytes), (liveAt L c n acts t).net.replies[k]? = some b →
    ∃ w i m cs r, w < t ∧ acts[w]? = some (.step i) ∧ (liveAt L c n acts w).asked[i]? = some true ∧
      (servedAt L c n acts (w + 1)).serving[i]? = some ⟨m, cs, .done (some r) none⟩ ∧ r.bytes = b := by
  induction t with
  | zero => intro k b h; simp [liveAt, LiveNet.run, LiveNet.init, Net.init] at h
  | succ t ih =>
    intro k b h
    have old : (liveAt L c n acts t).net.replies[k]? = some b → ∃ w i m cs r, w < t + 1 ∧
        acts[w]? = some (.step i) ∧ (liveAt L c n acts w).asked[i]? = some true ∧
        (servedAt L c n acts (w + 1)).serving[i]? = some ⟨m, cs, .done (some r) none⟩ ∧ r.bytes = b := by
      intro h
      obtain ⟨w, i, m, cs, r, h1, h2⟩ := ih k b h
      exact ⟨w, i, m, cs, r, by omega, h2⟩
    cases ha : acts[t]? with
    | none => exact old (by rw [liveAt_end _ _ _ _ _ ha] at h; exact h)
    | some a =>
      have hs := liveAt_succ L c n acts t a ha
      rcases (livenet_cases L (liveAt L c n acts t) a).2.2.2.1 with h' | ⟨i, m, cs, r, rfl, h1, h2, h'⟩
      · rw [hs, h'] at h
        exact old h
      · rw [hs, h', List.getElem?_append] at h
        split at h
        · exact old h
        · rw [List.getElem?_singleton] at h
          split at h
          · refine ⟨t, i, m, cs, r, by omega, ha, h1, ?_, Option.some.inj h⟩
            show (liveAt L c n acts (t + 1)).serving[i]? = _
            rw [hs]; exact h2
          · cases h

/-- A goroutine whose reply goes to the posting node was started by a request of it. -/
theorem asked_origin (t : Nat) : (liveAt L c n acts t).asked.length = (liveAt L c n acts t).serving.length ∧
    ∀ i : Nat, (liveAt L c n acts t).asked[i]? = some true →
    ∃ a k b m, a < t ∧ acts[a]? = some (.arrive k) ∧ (liveAt L c n acts a).net.requests[k]? = some b ∧
      arriving L.toIf L.from_ b = some m ∧ (liveAt L c n acts a).serving.length = i := by
  induction t with
  | zero => exact ⟨rfl, fun i h => by simp [liveAt, LiveNet.run, LiveNet.init] at h⟩
  | succ t ih =>
    have old : ∀ i : Nat, (liveAt L c n acts t).asked[i]? = some true → ∃ a k b m, a < t + 1 ∧
        acts[a]? = some (.arrive k) ∧ (liveAt L c n acts a).net.requests[k]? = some b ∧
        arriving L.toIf L.from_ b = some m ∧ (liveAt L c n acts a).serving.length = i := by
      intro i h
      obtain ⟨a, k, b, m, h1, h2⟩ := ih.2 i h
      exact ⟨a, k, b, m, by omega, h2⟩
    cases ha : acts[t]? with
    | none => rw [liveAt_end _ _ _ _ _ ha]; exact ⟨ih.1, old⟩
    | some a =>
      rw [liveAt_succ L c n acts t a ha]
      cases a with
      | post o e ps => exact ⟨ih.1, old⟩
      | other => exact ⟨ih.1, old⟩
      | deliver k => exact ⟨ih.1, old⟩
      | timeout => exact ⟨ih.1, old⟩
      | call op => exact ⟨ih.1, old⟩
      | step i =>
        simp only [LiveNet.step, LiveNet.go]
        cases (liveAt L c n acts t).serving[i]? with
        | none => exact ⟨ih.1, old⟩
        | some h => exact ⟨by simpa using ih.1, old⟩
      | message m =>
        simp only [LiveNet.step, LiveNet.start]
        refine ⟨by simp [ih.1], fun i h => ?_⟩
        rw [List.getElem?_append] at h
        split at h
        · exact old i h
        · rw [List.getElem?_singleton] at h
          split at h <;> cases h
      | arrive k =>
        simp only [LiveNet.step]
        cases hk : (liveAt L c n acts t).net.requests[k]? with
        | none => exact ⟨ih.1, old⟩
        | some b =>
          dsimp only
          cases hm : arriving L.toIf L.from_ b with
          | none => exact ⟨ih.1, old⟩
          | some m =>
            simp only [LiveNet.start]
            refine ⟨by simp [ih.1], fun i h => ?_⟩
            rw [List.getElem?_append] at h
            split at h
            · exact old i h
            · rw [List.getElem?_singleton] at h
              split at h
              · exact ⟨t, k, b, m, by omega, ha, hk, hm, by rw [← ih.1]; omega⟩
              · cases h

/-- The number of identifiers used in the first `t` steps. -/
def liveCount : Nat → Nat
  | 0 => 0
  | t + 1 => liveCount t +
      if (liveAt L c n acts (t + 1)).net.client.lastTID = (liveAt L c n acts t).net.client.lastTID then 0 else 1

theorem live_idCount_spec (hc : c.lastTID.toNat ≤ 65535) (t : Nat) :
    (liveAt L c n acts t).net.client.lastTID.toNat = (c.lastTID.toNat + liveCount L c n acts t) % 65536 ∧
    liveCount L c n acts t ≤ ((acts.take t).filter liveUsesId).length ∧
    (∃ l, (liveAt L c n acts t).net.client = { c with lastTID := l }) := by
  induction t with
  | zero =>
    refine ⟨?_, Nat.le_refl _, c.lastTID, rfl⟩
    show c.lastTID.toNat = _
    unfold liveCount
    omega
  | succ t ih =>
    obtain ⟨i1, i2, l, i3⟩ := ih
    have hle : (liveAt L c n acts t).net.client.lastTID.toNat ≤ 65535 := by omega
    have hf : ((acts.take t).filter liveUsesId).length ≤ ((acts.take (t + 1)).filter liveUsesId).length := by
      rw [List.take_add_one, List.filter_append, List.length_append]; omega
    cases ha : acts[t]? with
    | none =>
      have hs := liveAt_end L c n acts t ha
      unfold liveCount
      rw [hs, if_pos rfl]
      exact ⟨i1, by omega, l, i3⟩
    | some a =>
      have hs := liveAt_succ L c n acts t a ha
      rcases (livenet_cases L (liveAt L c n acts t) a).1 with h' | ⟨hu, h'⟩
      · unfold liveCount
        rw [hs, h', if_pos rfl]
        exact ⟨i1, by omega, l, i3⟩
      · unfold liveCount
        rw [hs, h', if_neg (nextTID_differs _ hle)]
        refine ⟨?_, ?_, nextId l, ?_⟩
        · rw [nextTID_eq]
          show (nextId _).toNat = _
          rw [nextId_toNat _ hle, i1]
          omega
        · rw [List.take_add_one, ha, List.filter_append, List.length_append]
          simp only [Option.toList_some, List.filter_cons, hu, if_true, List.filter_nil, List.length_cons,
            List.length_nil]
          omega
        · rw [nextTID_eq, i3]

theorem live_idCount_mono {t t' : Nat} (h : t ≤ t') : liveCount L c n acts t ≤ liveCount L c n acts t' := by
  induction t' with
  | zero => rw [Nat.le_zero.mp h]; exact Nat.le_refl _
  | succ t' ih =>
    by_cases e : t = t' + 1
    · rw [e]; exact Nat.le_refl _
    · refine Nat.le_trans (ih (by omega)) ?_
      show _ ≤ liveCount L c n acts t' + _
      omega

end

/-- Two posts whose requests have the same identifier are the same, as long as no more identifiers are
used than there are. -/
theorem live_issued_once (L : Link) (c n : Node) (acts : List LiveAct) (hc : c.lastTID.toNat ≤ 65535)
    (hn : (acts.filter liveUsesId).length ≤ 65536) (i i' : Nat) (o o' : ObjectCode) (e e' : ESV)
    (ps ps' : List EProp) (q q' : Message)
    (h : Issued (liveAt L c n acts i).net o e ps q) (h' : Issued (liveAt L c n acts i').net o' e' ps' q')
    (hs : (liveAt L c n acts (i + 1)).net.client = (liveAt L c n acts i).net.client.nextTID)
    (hs' : (liveAt L c n acts (i' + 1)).net.client = (liveAt L c n acts i').net.client.nextTID)
    (ht : q.getTID = q'.getTID) : i = i' := by
  have key : ∀ (j : Nat) (x : Net), x = (liveAt L c n acts j).net → x.client.lastTID.toNat ≤ 65535 := by
    intro j x hx
    have := (live_idCount_spec L c n acts hc j).1
    rw [hx]; omega
  have up : ∀ j : Nat, (liveAt L c n acts (j + 1)).net.client = (liveAt L c n acts j).net.client.nextTID →
      liveCount L c n acts (j + 1) = liveCount L c n acts j + 1 := by
    intro j hj
    show liveCount L c n acts j + _ = _
    rw [hj, if_neg (nextTID_differs _ (key j _ rfl))]
  have most : ∀ j, liveCount L c n acts j ≤ 65536 := by
    intro j
    refine Nat.le_trans (live_idCount_spec L c n acts hc j).2.1 (Nat.le_trans ?_ hn)
    exact (List.Sublist.filter _ (List.take_sublist _ _)).length_le
  have t1 := (issued_built h (key i _ rfl)).2
  have t2 := (issued_built h' (key i' _ rfl)).2
  rw [(live_idCount_spec L c n acts hc i).1] at t1
  rw [(live_idCount_spec L c n acts hc i').1] at t2
  have ht' := congrArg BitVec.toNat ht
  rw [t1, t2] at ht'
  have u1 := up i hs
  have u2 := up i' hs'
  have m1 := most (i + 1)
  have m2 := most (i' + 1)
  rcases Nat.lt_trichotomy i i' with h | h | h
  · have := live_idCount_mono L c n acts (show i + 1 ≤ i' by omega)
    omega
  · exact h
  · have := live_idCount_mono L c n acts (show i' + 1 ≤ i by omega)
    omega



/-! ## C161 -/

theorem Follows.grows {env : Env} {db : StdDB} {σ : Nat → ServeSt} {act : Nat → Option ServeAct}
    (hf : Follows env db σ act) {a b : Nat} (h : a ≤ b) : (σ a).serving.length ≤ (σ b).serving.length := by
  induction b with
  | zero => rw [Nat.le_zero.mp h]; exact Nat.le_refl _
  | succ b ih =>
    by_cases e : a = b + 1
    · rw [e]; exact Nat.le_refl _
    · refine Nat.le_trans (ih (by omega)) ?_
      rw [hf.2 b]
      cases act b with
      | none => exact Nat.le_refl _
      | some x =>
        cases x with
        | arrive m => simp [ServeSt.step]
        | call op => exact Nat.le_refl _
        | step i =>
          simp only [ServeSt.step]
          cases (σ b).serving[i]? <;> simp

theorem Follows.arrival {env : Env} {db : StdDB} {σ : Nat → ServeSt} {act : Nat → Option ServeAct}
    (hf : Follows env db σ act) {a b : Nat} {m m' : Message} (ha : act a = some (.arrive m))
    (hb : act b = some (.arrive m')) (h : (σ a).serving.length = (σ b).serving.length) : a = b := by
  have up : ∀ x y z, act x = some (.arrive z) → x < y → (σ x).serving.length < (σ y).serving.length := by
    intro x y z hx hxy
    refine Nat.lt_of_lt_of_le ?_ (hf.grows (show x + 1 ≤ y from hxy))
    rw [hf.2 x, hx]
    simp [ServeSt.step]
  rcases Nat.lt_trichotomy a b with h' | h' | h'
  · have := up a b m ha h'; omega
  · exact h'
  · have := up b a m' hb h'; omega

/-- C161, the part that holds for every request. As long as the posting node uses each identifier once, a response
that a post returns is the answer to its own request, made between the call and the return: there are a step `i` at
which the post was made with request `q`, which waits ever since, and a later step `a` at which a datagram with
this request arrived at the node asked and was handled by a goroutine of its own, number `g`. This returned the
reply `r` before the post returned, and the message returned is this reply received. What the goroutine has
read or checked it did between `a` and its end. -/
theorem C161_answered_partial (L : Link) (c n : Node) (acts : List LiveAct) (hc : c.lastTID.toNat ≤ 65535)
    (hn : (acts.filter liveUsesId).length ≤ 65536) (t : Nat) (res : Message)
    (ht : (liveAt L c n acts (t + 1)).net.returned = (liveAt L c n acts t).net.returned ++ [res]) :
    ∃ i a w j g objCode esv ps q m cs r, i < a ∧ a < w ∧ w ≤ t ∧ acts[i]? = some (.post objCode esv ps) ∧
      Issued (liveAt L c n acts i).net objCode esv ps q ∧
      (∀ u, i < u → u ≤ t → (liveAt L c n acts u).net.waiting = some q) ∧
      acts[a]? = some (.arrive j) ∧ (liveAt L c n acts a).net.requests[j]? = some q.bytes ∧
      arriving L.toIf L.from_ q.bytes = some m ∧ Built m ∧ (liveAt L c n acts a).serving.length = g ∧
      (liveAt L c n acts w).serving[g]? = some ⟨m, cs, .done (some r) none⟩ ∧ Built r ∧ r.getTID = m.getTID ∧
      r.bytes ∈ (liveAt L c n acts t).net.replies ∧ arriving L.fromIf L.to_ r.bytes = some res ∧
      ((m.newImpossible = .ok r ∧ Unfit (servedAt L c n acts) a w m) ∨
        ∃ r' t0 ts, Tale (servedAt L c n acts) a w m r' m.requested r t0 ts) := by
  have hle : ∀ j : Nat, (liveAt L c n acts j).net.client.lastTID.toNat ≤ 65535 := by
    intro j
    have := (live_idCount_spec L c n acts hc j).1
    omega
  cases ha : acts[t]? with
  | none =>
    rw [liveAt_end _ _ _ _ _ ha] at ht
    have := congrArg List.length ht
    simp at this
  | some a =>
    have hs := liveAt_succ L c n acts t a ha
    rcases (livenet_cases L (liveAt L c n acts t) a).2.2.2.2 with h' | ⟨k, b, m, q, rfl, hk, hm, hw, htid, h'⟩
    · rw [hs, h'] at ht
      have := congrArg List.length ht
      simp at this
    · rw [hs, h'] at ht
      have hres : m = res := by
        have := List.append_cancel_left ht
        simpa using this
      subst hres
      obtain ⟨i, o, e, ps, i1, i2, i3, i4, i5⟩ := live_waiting_origin L c n acts t q hw
      obtain ⟨w, g, mr, cs, r, w1, w2, w3, w4, rfl⟩ := live_replies_origin L c n acts t k b hk
      obtain ⟨a, j, rb, m', a1, a2, a3, a4, a5⟩ := (asked_origin L c n acts w).2 g w3
      have hf := servedAt_follows L c n acts
      obtain ⟨a', b1, b2, b3, b4⟩ := told_all hf (w + 1) g _ w4
      dsimp only at b2 b4
      have act_a : acts[a]?.bind (asServed L (liveAt L c n acts a)) = some (.arrive m') := by
        rw [a2, Option.bind_some]
        simp only [asServed]
        rw [a3, Option.bind_some, a4]
        rfl
      have haa : a = a' := hf.arrival (a := a) (b := a') act_a b2 (by rw [b3]; exact a5)
      subst haa
      have hmm : m' = mr := by
        have := act_a.symm.trans b2
        cases this
        rfl
      subst hmm
      obtain ⟨i', o', e', ps', q', j1, j2, j3, j4, j5⟩ := live_requests_origin L c n acts a j rb a3
      obtain ⟨bq, -⟩ := issued_built j3 (hle i')
      rw [← j4] at a4
      obtain ⟨x1, x2, -, -⟩ := arriving_header bq a4
      have hr : Built r ∧ r.getTID = m'.getTID := by
        rcases b4 with ⟨y, -⟩ | ⟨r', t0, ts, y⟩
        · obtain ⟨z, z1, z2, -⟩ := C16_header_partial m' x1
          rw [y] at z1
          cases z1
          exact ⟨.impossible x1 y, z2⟩
        · exact ⟨(y.reply x1).1, (y.reply x1).2.1⟩
      have htids : m.getTID = q'.getTID := by
        obtain ⟨-, y2, -⟩ := arriving_header hr.1 hm
        exact y2.trans (hr.2.trans x2)
      have hi : i = i' := live_issued_once L c n acts hc hn i i' o o' e e' ps ps' q q' i3 j3 i4 j5
        (htid.symm.trans htids)
      subst hi
      rw [i2] at j2
      cases j2
      have hq : q = q' := by
        have := i3.2.symm.trans j3.2
        exact Option.some.inj this
      subst hq
      rw [← j4] at a3
      exact ⟨i, a, w + 1, j, g, o, e, ps, q, m', cs, r, j1, by omega, by omega, i2, i3, i5, a2, a3, a4, x1, a5, w4,
        hr.1, hr.2, List.mem_of_getElem? hk, hm, b4⟩

/-- C161, for reads. When a post for the properties with codes `cs` of an object returns, it is refused and at a
moment between its call (step `i`) and its return (step `t`) the object did not exist or did not permit to read
one of the properties; or the response holds properties in the order of the codes, each with exactly the data it had
at a moment of its own between the call and the return, these moments being in order. A code is left out only if
the object did not have it at its moment. So no value is older than the call. Properties are at most 255 bytes and
the response at most 1024 bytes long; longer ones are misread (C05, C06). -/
theorem C161_read_partial (L : Link) (c n : Node) (hb : Base c) (hr : c.running = true)
    (acts : List LiveAct) (hc : c.lastTID.toNat ≤ 65535) (hn : (acts.filter liveUsesId).length ≤ 65536)
    (t : Nat) (res : Message)
    (ht : (liveAt L c n acts (t + 1)).net.returned = (liveAt L c n acts t).net.returned ++ [res])
    (hdata : ∀ u r o, (liveAt L c n acts u).net.server.get r = some o → ∀ p ∈ o.props, p.data.length ≤ 255)
    (hfit : ∀ b ∈ (liveAt L c n acts t).net.replies, b.length ≤ 1024) :
    ∃ i objCode esv ps q, i < t ∧ acts[i]? = some (.post objCode esv ps) ∧
      Issued (liveAt L c n acts i).net objCode esv ps q ∧
      (∀ u, i < u → u ≤ t → (liveAt L c n acts u).net.waiting = some q) ∧
      ∀ cs, esv = 0x62 → ps = asking cs → cs.length ≤ 255 → objCode.toNat < 2 ^ 24 →
        (res.esv = 0x72 ∧ ∃ r t0 o, ∃ ts : List Nat, i < t0 ∧
            Addressed (liveAt L c n acts t0).net.server objCode r o ∧
            ts.length = cs.length ∧ ts.Pairwise (· ≤ ·) ∧ (∀ u ∈ ts, t0 ≤ u ∧ u < t) ∧
            ∃ vs, res.clientProperties = .ok vs ∧ vs.map (fun p => (p.code, p.data)) =
              (cs.zip ts).filterMap (fun x => (((liveAt L c n acts x.2).net.server.get r).bind
                (·.props.lookup x.1)).map (fun p => (x.1, p.data)))) ∨
        (res.esv = 0x52 ∧ ∃ u, i < u ∧ u < t ∧
          ((∀ r o, ¬ Addressed (liveAt L c n acts u).net.server objCode r o) ∨
            ∃ r t0 o x, i < t0 ∧ t0 ≤ u ∧ Addressed (liveAt L c n acts t0).net.server objCode r o ∧ x ∈ cs ∧
              ∀ o', (liveAt L c n acts u).net.server.get r = some o' →
                ¬ ∃ p, o'.props.lookup x = some p ∧ p.getAttr ≠ 0)) := by
  obtain ⟨i, a, w, j, g, objCode, esv, ps, q, m, calls, r, h1, h2, h2', h3, h4, h5, h6, h7, h8, m2, h9, h10, r1,
    r2, h11, h12, h13⟩ := C161_answered_partial L c n acts hc hn t res ht
  refine ⟨i, objCode, esv, ps, q, by omega, h3, h4, h5, ?_⟩
  rintro cs rfl rfl hl ho
  -- the request
  obtain ⟨e1, -, l, e2⟩ := live_idCount_spec L c n acts hc i
  have hbi : Base (liveAt L c n acts i).net.client := by
    rw [e2]
    exact ⟨fun r o h => hb.wf r o (by cases r <;> exact h), hb.prof⟩
  obtain ⟨q', k1, k2, k3, k4, k5⟩ := C88_wire (liveAt L c n acts i).net.client hbi (by rw [e2]; exact hr)
    (by omega) objCode ho 0x62 (asking cs) (by rw [asking, List.length_map]; exact hl)
    (fun p hp => by
      obtain ⟨x, -, rfl⟩ := List.mem_map.mp hp
      show (0 : Nat) ≤ 255
      omega)
  have hq : q = q' := by
    have := h4.2
    rw [k1] at this
    exact (Option.some.inj this).symm
  subst hq
  generalize hf : requestFrame (liveAt L c n acts i).net.client.lastTID.toNat objCode 0x62 (asking cs) = f
    at k3 k4 k5
  have fprops : f.props = cs.map (fun x => ⟨x, []⟩) := by
    rw [← hf]
    show (asking cs).map _ = _
    rw [asking, List.map_map]; rfl
  have hlen : f.encode.length ≤ 1024 := by
    rw [encode_length, fprops, List.map_map]
    have : ∀ l : List Byte, (l.map ((fun p : WireProp => 2 + p.edt.length) ∘ fun x => ⟨x, []⟩)).sum
        = 2 * l.length := by
      intro l
      induction l with
      | nil => rfl
      | cons x l ih =>
        rw [List.map_cons, List.sum_cons, ih, List.length_cons]
        show 2 + 0 + _ = _
        omega
    rw [this]
    omega
  obtain ⟨m', m1, -, m3, -⟩ := arriving_frame (ifi := L.toIf) (a := L.from_) k3 hlen
  rw [k5, m1] at h8
  cases h8
  have hesv : m.esv = 0x62 := by rw [m3.esv, ← hf]; rfl
  have hdeoj : m.getDEOJ = objCode := by
    apply BitVec.eq_of_toNat_eq
    rw [m3.deoj, ← hf]; rfl
  have hprops : properties m = cs.map (fun x => ⟨x, []⟩) := by
    unfold properties
    have := m3.opc
    unfold Message.getOPC at this
    rw [this, m3.props, List.take_of_length_le (by simp), fprops, List.map_map]
    rw [← filterMap_some (cs.map (fun x => (⟨x, []⟩ : PProp))), List.map_map]
    rfl
  obtain ⟨-, -, x3, -⟩ := arriving_header r1 h12
  rcases h13 with ⟨g1, u, g2, g3, g4⟩ | ⟨ro, t0, ts, g1⟩
  · right
    obtain ⟨z, z1, -, -, -, z2, -⟩ := C16_header_partial m m2
    rw [g1] at z1
    cases z1
    refine ⟨by rw [x3, z2, hesv]; rfl, u, by omega, by omega, ?_⟩
    rw [hdeoj] at g4
    rcases g4 with g4 | g4 | ⟨ro, t0, o, p, g4, g5, g6, g7, -, g8⟩
    · exact .inl g4
    · exact absurd ⟨⟨0x62, .request, false, true, some 0x72, some 0x52⟩, by decide, hesv.symm⟩ g4
    · rw [hprops] at g7
      obtain ⟨x, hx, rfl⟩ := List.mem_map.mp g7
      refine .inr ⟨ro, t0, o, x, by omega, g5, g6, hx, fun o' ho' => ?_⟩
      rintro ⟨p, p1, p2⟩
      refine g8 o' ho' ⟨p, p1, fun hh => ?_, fun _ => p2⟩
      rw [hesv] at hh
      simp at hh
  · left
    obtain ⟨y1, y2, y3, y4, y5, y6, y7, y8, -⟩ := g1.reply m2
    obtain ⟨o, hfound⟩ := g1.found
    rw [hdeoj] at hfound
    have hrange := g1.range
    rw [hprops] at y6 y7
    rw [List.length_map] at y6
    refine ⟨by rw [x3, y5, hesv]; rfl, ro, t0, o, ts, Nat.lt_trans h1 g1.after, hfound, y6, g1.order,
      fun u hu => ⟨(hrange u hu).1, Nat.lt_of_lt_of_le (hrange u hu).2 h2'⟩, ?_⟩
    have hcar := g1.carries m2 m3
    have hv : (⟨f.tid, f.deoj, f.seoj, specReply m.esv,
        (properties r).map (fun p => ⟨p.code, p.data⟩)⟩ : Frame).Valid := by
      obtain ⟨v1, v2, v3, v4, v5⟩ := k3
      refine ⟨v1, v3, v2, ?_, ?_⟩
      · show ((properties r).map _).length < 256
        rw [List.length_map]
        have := Verif.Props.properties_length r
        omega
      · intro p hp
        obtain ⟨p', hp', rfl⟩ := List.mem_map.mp hp
        rw [y7] at hp'
        obtain ⟨x, -, hx⟩ := List.mem_filterMap.mp hp'
        unfold shownIn at hx
        obtain ⟨z, z1, rfl⟩ := Option.map_eq_some_iff.mp hx
        obtain ⟨o', z2, z3⟩ := Option.bind_eq_some_iff.mp z1
        have := hdata x.2 ro o' z2 z (lookup_mem z3)
        show z.data.length < 256
        omega
    have hfr := hfit _ h11
    rw [C03_frame r r1 _ hcar] at hfr h12
    obtain ⟨z, z1, -, z3, -⟩ := arriving_frame (ifi := L.fromIf) (a := L.to_) hv hfr
    rw [z1] at h12
    cases h12
    obtain ⟨vs, p1, p2, -⟩ := C88_properties _ _ z3
    refine ⟨vs, p1, ?_⟩
    rw [p2]
    show ((properties r).map _).map _ = _
    rw [y7, List.map_map, List.map_filterMap, List.zip_map_left, List.filterMap_map]
    apply congrArg (fun g => List.filterMap g (cs.zip ts))
    funext x
    simp only [Function.comp, Prod.map]
    unfold shownIn
    show Option.map _ (Option.map _ (((servedAt L c n acts x.2).node.get ro).bind (·.props.lookup x.1))) =
      Option.map _ (((servedAt L c n acts x.2).node.get ro).bind (·.props.lookup x.1))
    cases hz : ((servedAt L c n acts x.2).node.get ro).bind (·.props.lookup x.1) with
    | none => rfl
    | some z =>
      obtain ⟨o', -, z3⟩ := Option.bind_eq_some_iff.mp hz
      rw [← lookup_code z3]
      rfl

/-! ## A response that shows no moment -/

/-- A schedule of the node asked, with the arrival of the first request of the posting node. -/
def lifted : ServeAct → LiveAct
  | .arrive _ => .arrive 0
  | .step i => .step i
  | .call op => .call op

/-- Every goroutine is for the posting node, and the replies of those that are done are sent. -/
def Replied (s : LiveNet) : Prop :=
  ∀ (i : Nat) (h : Serving), s.serving[i]? = some h → s.asked[i]? = some true ∧
    ∀ r, h.pc = .done (some r) none → r.bytes ∈ s.net.replies

theorem written_new {h h' : Serving} {r : Message} (hp : h'.pc = .done (some r) none) :
    LiveNet.written h h' = [r.bytes] ∨ ∃ x e, h.pc = .done x e := by
  unfold LiveNet.written
  rw [hp]
  split
  · next x e he => exact .inr ⟨x, e, he⟩
  · exact .inl rfl

/-- The network does what the schedule of the node asked says. -/
theorem lifted_run (L : Link) (m : Message) (b : Bytes) (hm : arriving L.toIf L.from_ b = some m) :
    ∀ (acts : List ServeAct) (s : LiveNet), (∀ x ∈ arrivals acts, x = m) → s.net.requests[0]? = some b →
      s.asked.length = s.serving.length → Replied s →
      (let s' := s.run L (acts.map lifted)
      (⟨s'.net.server, s'.serving, s'.sent⟩ : ServeSt) =
          ServeSt.run L.env L.db ⟨s.net.server, s.serving, s.sent⟩ acts ∧
        s'.net.client = s.net.client ∧ s'.net.requests = s.net.requests ∧ s'.net.waiting = s.net.waiting ∧
        s'.net.returned = s.net.returned ∧ Replied s') := by
  intro acts
  induction acts with
  | nil => intro s _ _ _ hr; exact ⟨rfl, rfl, rfl, rfl, rfl, hr⟩
  | cons a acts ih =>
    intro s ha hb hl hr
    have hsv := live_served L s (lifted a)
    have hx : asServed L s (lifted a) = some a := by
      cases a with
      | arrive x =>
        have : x = m := ha x (by simp [arrivals])
        subst this
        show (s.net.requests[0]?.bind (arriving L.toIf L.from_)).map _ = _
        rw [hb, Option.bind_some, hm]
        rfl
      | step i => rfl
      | call op => rfl
    rw [hx] at hsv
    have step : ∀ s1, s.step L (lifted a) = s1 → s1.net.client = s.net.client ∧ s1.net.requests = s.net.requests ∧
        s1.net.waiting = s.net.waiting ∧ s1.net.returned = s.net.returned ∧ s1.asked.length = s1.serving.length ∧
        Replied s1 := by
      intro s1 h1
      cases a with
      | arrive x =>
        have h2 : s1 = s.start m true := by
          rw [← h1]
          show (match s.net.requests[0]? with
            | none => s
            | some b => _) = _
          rw [hb]
          dsimp only
          rw [hm]
        subst h2
        refine ⟨rfl, rfl, rfl, rfl, by simp [LiveNet.start, hl], fun i h hi => ?_⟩
        simp only [LiveNet.start] at hi ⊢
        rw [List.getElem?_append] at hi
        split at hi
        · next hlt =>
          obtain ⟨y1, y2⟩ := hr i h hi
          rw [List.getElem?_append_left (by omega)]
          exact ⟨y1, y2⟩
        · next hge =>
          rw [List.getElem?_singleton] at hi
          split at hi
          · next h0 =>
            cases hi
            rw [List.getElem?_append_right (by omega), hl, h0]
            exact ⟨rfl, fun r hp => by cases hp⟩
          · cases hi
      | call op =>
        subst h1
        exact ⟨rfl, rfl, rfl, rfl, hl, hr⟩
      | step i =>
        have h1 : s.go L i = s1 := h1
        unfold LiveNet.go at h1
        cases hi : s.serving[i]? with
        | none =>
          rw [hi] at h1
          dsimp only at h1
          subst h1
          exact ⟨rfl, rfl, rfl, rfl, hl, hr⟩
        | some h =>
          rw [hi] at h1
          dsimp only at h1
          subst h1
          refine ⟨rfl, rfl, rfl, rfl, by simpa using hl, fun j g hj => ?_⟩
          dsimp only at hj ⊢
          rw [List.getElem?_set] at hj
          split at hj
          · next e =>
            subst e
            split at hj
            · cases hj
              obtain ⟨y1, y2⟩ := hr i h hi
              refine ⟨y1, fun r hp => ?_⟩
              rcases written_new (h := h) hp with hw | ⟨x, e, hd⟩
              · rw [if_pos y1, hw]; simp
              · refine List.mem_append.mpr (.inl (y2 r ?_))
                obtain ⟨hm', hc', hp'⟩ := h
                dsimp only at hd
                subst hd
                exact hp
            · cases hj
          · obtain ⟨y1, y2⟩ := hr j g hj
            exact ⟨y1, fun r hp => List.mem_append.mpr (.inl (y2 r hp))⟩
    obtain ⟨g1, g2, g3, g4, g5, g6⟩ := step _ rfl
    have := ih (s.step L (lifted a)) (fun x hx => ha x (by cases a <;> simp_all [arrivals])) (by rw [g2]; exact hb)
      g5 g6
    obtain ⟨k1, k2, k3, k4, k5, k6⟩ := this
    exact ⟨k1.trans (by rw [hsv]; rfl), k2.trans g1, k3.trans g2, k4.trans g3, k5.trans g4, k6⟩

/-- The calls of the program of the node asked, in order. -/
def netCalls (acts : List LiveAct) : List NodeOp :=
  acts.filterMap (fun a => match a with | .call op => some op | _ => none)

/-- The posts, in order. -/
def netPosts (acts : List LiveAct) : List (ObjectCode × ESV × List EProp) :=
  acts.filterMap (fun a => match a with | .post o e ps => some (o, e, ps) | _ => none)

theorem netCalls_lifted (acts : List ServeAct) : netCalls (acts.map lifted) = programCalls acts := by
  induction acts with
  | nil => rfl
  | cons a acts ih =>
    cases a with
    | arrive m => exact ih
    | step i => exact ih
    | call op => exact congrArg (op :: ·) ih

theorem netPosts_lifted (acts : List ServeAct) : netPosts (acts.map lifted) = [] := by
  induction acts with
  | nil => rfl
  | cons a acts ih => cases a <;> exact ih

/-- C161. The property fails: while a post reads two properties of an object of another node, the program there
writes first the one and then the other. The post returns the old data of the first and the new data of the
second, though the object has not held these two together at any moment. This is so for every node, object and
pair of properties that may be read, and for all data that fits, if the callbacks do nothing. -/
theorem C161_refuted (L : Link) (c : Node) (hb : Base c) (hr : c.running = true) (ht : c.lastTID.toNat ≤ 65535)
    (n : Node) (r : ObjRef) (o : Obj) (objCode : ObjectCode) (hc : objCode.toNat < 2 ^ 24)
    (ho : Addressed n objCode r o) (he : Passive L.env 0x62) (hac : n.selfMsg = true ∨ L.from_ ≠ n.addr)
    (p q : Byte) (hpq : p ≠ q) (x y : EProp) (hx : o.props.lookup p = some x) (hy : o.props.lookup q = some y)
    (hxa : x.getAttr ≠ 0) (hya : y.getAttr ≠ 0) (p1 q1 : Bytes) (hp1 : p1 ≠ x.data) (hq1 : q1 ≠ y.data)
    (hxl : x.data.length ≤ 255) (hql : q1.length ≤ 255) :
    ∃ acts res, netPosts acts = [(objCode, 0x62, asking [p, q])] ∧
      netCalls acts = [.obj r (.write p p1), .obj r (.write q q1)] ∧
      ((LiveNet.init c n).run L acts).net.returned = [res] ∧ res.esv = 0x72 ∧ res.getSEOJ = objCode ∧
      (∃ vs, res.clientProperties = .ok vs ∧
        vs.map (fun z => (z.code, z.data)) = [(p, x.data), (q, q1)]) ∧
      ∀ u o', (liveAt L c n acts u).net.server.get r = some o' →
        ¬ (stored o' p = x.data ∧ stored o' q = q1) := by
  obtain ⟨rq, k1, k2, k3, k4, k5⟩ := C88_wire c hb hr ht objCode hc 0x62 (asking [p, q]) (by simp [asking])
    (fun z hz => by
      obtain ⟨v, -, rfl⟩ := List.mem_map.mp hz
      show (0 : Nat) ≤ 255
      omega)
  generalize hf : requestFrame c.lastTID.toNat objCode 0x62 (asking [p, q]) = f at k3 k4 k5
  have fprops : f.props = [⟨p, []⟩, ⟨q, []⟩] := by rw [← hf]; rfl
  have fdeoj : f.deoj = objCode.toNat := by rw [← hf]; rfl
  have fesv : f.esv = 0x62 := by rw [← hf]; rfl
  obtain ⟨m, m1, m2, m3, m4⟩ := arriving_frame (ifi := L.toIf) (a := L.from_) k3 (by
    rw [encode_length, fprops]
    show 12 + (2 + 0 + (2 + 0 + 0)) ≤ 1024
    omega)
  have hesv : m.esv = 0x62 := m3.esv.trans fesv
  have hdeoj : m.getDEOJ = objCode := BitVec.eq_of_toNat_eq (by rw [m3.deoj, fdeoj])
  have hprops : properties m = [⟨p, []⟩, ⟨q, []⟩] := by
    unfold properties
    have := m3.opc
    unfold Message.getOPC at this
    rw [this, m3.props, List.take_of_length_le (by simp), fprops]
    rfl
  have hi : ¬ Ignored n m := by
    rintro ⟨a, b⟩
    rcases hac with h | h
    · rw [a] at h; cases h
    · rw [m4] at b; exact h b
  obtain ⟨sa, rep, cs, s1, s2, s3, s4, s5, s6⟩ := C160_refuted L.env L.db he n r o m hesv (by rw [hdeoj]; exact ho)
    hi p q hpq (by rw [hprops]; rfl) x y hx hy hxa hya p1 q1 hp1 hq1
  -- the reply
  have hrep : ∃ a ro t0 ts, Tale (serveAt L.env L.db n sa) a sa.length m ro m.requested rep t0 ts := by
    have h0 : (serveAt L.env L.db n sa sa.length).serving[0]? = some ⟨m, cs, .done (some rep) none⟩ := by
      rw [serveAt_end (Nat.le_refl _), s3]; rfl
    obtain ⟨a, -, -, -, a4⟩ := told_all (serveAt_follows L.env L.db n sa) sa.length 0 _ h0
    rcases a4 with ⟨a4, -⟩ | ⟨ro, t0, ts, h⟩
    · obtain ⟨z, z1, -, -, -, z2, -⟩ := C16_header_partial m m2
      dsimp only at a4
      rw [a4] at z1
      cases z1
      rw [s5, hesv] at z2
      cases z2
    · exact ⟨a, ro, t0, ts, h⟩
  obtain ⟨a, ro, t0, ts, tale⟩ := hrep
  have hcar := tale.carries m2 m3
  obtain ⟨rb, -⟩ := tale.reply m2
  rw [s4, hesv] at hcar
  generalize hg : (⟨f.tid, f.deoj, f.seoj, specReply 0x62, ([⟨p, x.data⟩, ⟨q, q1⟩] : List PProp).map
    (fun p => ⟨p.code, p.data⟩)⟩ : Frame) = g at hcar
  have gprops : g.props = [⟨p, x.data⟩, ⟨q, q1⟩] := by rw [← hg]; rfl
  have gv : g.Valid := by
    obtain ⟨v1, v2, v3, v4, v5⟩ := k3
    rw [← hg]
    refine ⟨v1, v3, v2, by show 2 < 256; omega, ?_⟩
    intro z hz
    rcases List.mem_cons.mp hz with rfl | hz
    · show x.data.length < 256; omega
    · rw [List.mem_singleton.mp hz]; show q1.length < 256; omega
  obtain ⟨res, w1, w2, w3, -⟩ := arriving_frame (ifi := L.fromIf) (a := L.to_) gv (by
    rw [encode_length, gprops]
    show 12 + (2 + x.data.length + (2 + q1.length + 0)) ≤ 1024
    omega)
  rw [← C03_frame rep rb g hcar] at w1
  have taken : Node.isResponseMessage { c.nextTID with pending := some rq } res = true := by
    have hne : res.bytes ≠ rq.bytes := by
      intro h
      have e1 := C03_frame res w2 g w3
      have hgq : Message.newWithBytes (g.encode ++ []) = Message.newWithBytes (f.encode ++ []) := by
        rw [← e1, h, k5]
      obtain ⟨u, u1, u2, -⟩ := C05_decode_encode g gv []
      obtain ⟨v, v1, v2, -⟩ := C05_decode_encode f k3 []
      rw [u1, v1] at hgq
      cases hgq
      have := u2.esv.symm.trans v2.esv
      rw [fesv, ← hg] at this
      revert this
      show ¬ specReply 0x62 = 0x62
      decide
    have htid : res.getTID = rq.getTID := by
      apply BitVec.eq_of_toNat_eq
      rw [w3.tid, k4.tid, ← hg]
    unfold Node.isResponseMessage
    dsimp only
    rw [if_neg (by
      intro h
      exact hne (((C12_equals res rq rq).1).mp h)), if_neg (by rw [htid]; simp)]
  -- the steps
  have first : (LiveNet.init c n).step L (.post objCode 0x62 (asking [p, q]))
      = ⟨⟨c.nextTID, n, [rq.bytes], [], some rq, []⟩, [], [], []⟩ := by
    show (⟨(Net.init c n).post objCode 0x62 (asking [p, q]), [], [], []⟩ : LiveNet) = _
    have : (Net.init c n).post objCode 0x62 (asking [p, q]) = ⟨c.nextTID, n, [rq.bytes], [], some rq, []⟩ := by
      show (match c.sendRequest objCode 0x62 (asking [p, q]) with
        | (c, some q, _) => _
        | (c, none, _) => _) = _
      rw [k1]; rfl
    rw [this]
  generalize hs0 : (⟨⟨c.nextTID, n, [rq.bytes], [], some rq, []⟩, [], [], []⟩ : LiveNet) = s0 at first
  have part : ∀ k, (let s' := s0.run L ((sa.take k).map lifted)
      (⟨s'.net.server, s'.serving, s'.sent⟩ : ServeSt) = serveAt L.env L.db n sa k ∧
        s'.net.client = c.nextTID ∧ s'.net.requests = [rq.bytes] ∧ s'.net.waiting = some rq ∧
        s'.net.returned = [] ∧ Replied s') := by
    intro k
    have := lifted_run L m rq.bytes (by rw [k5]; exact m1) (sa.take k) s0 (by
        intro z hz
        have : z ∈ arrivals sa := by
          rw [← List.take_append_drop k sa, arrivals_append]
          exact List.mem_append.mpr (.inl hz)
        rw [s1] at this
        exact List.mem_singleton.mp this) (by rw [← hs0]; rfl) (by rw [← hs0]; rfl) (by
        rw [← hs0]
        intro i h hi
        cases hi)
    rw [← hs0] at this ⊢
    exact this
  have whole := part sa.length
  rw [List.take_length] at whole
  generalize hs1 : s0.run L (sa.map lifted) = s1' at whole
  obtain ⟨q1', q2', q3', q4', q5', q6'⟩ := whole
  rw [serveAt_end (Nat.le_refl _)] at q1'
  have hsv : s1'.serving = [⟨m, cs, .done (some rep) none⟩] := by
    rw [← s3, ← q1']
  have hmem := (q6' 0 _ (by rw [hsv]; rfl)).2 rep rfl
  obtain ⟨k, hk⟩ := List.getElem?_of_mem hmem
  have last : s1'.step L (.deliver k) = ⟨⟨c.nextTID, s1'.net.server, [rq.bytes], s1'.net.replies, none, [res]⟩,
      s1'.serving, s1'.asked, s1'.sent⟩ := by
    show (⟨s1'.net.deliver L k, s1'.serving, s1'.asked, s1'.sent⟩ : LiveNet) = _
    have : s1'.net.deliver L k = ⟨c.nextTID, s1'.net.server, [rq.bytes], s1'.net.replies, none, [res]⟩ := by
      unfold Net.deliver
      rw [hk]
      dsimp only
      rw [w1]
      dsimp only
      rw [q2', q3', q4', q5', if_pos taken]
      rfl
    rw [this]
  have app : ∀ (s : LiveNet) a b, s.run L (a ++ b) = (s.run L a).run L b := by
    intro s a b; unfold LiveNet.run; rw [List.foldl_append]
  have one : ∀ (s : LiveNet) a, s.run L [a] = s.step L a := fun s a => rfl
  refine ⟨[.post objCode 0x62 (asking [p, q])] ++ (sa.map lifted ++ [.deliver k]), res, ?_, ?_, ?_, ?_, ?_, ?_, ?_⟩
  · unfold netPosts
    rw [List.filterMap_append, List.filterMap_append]
    have := netPosts_lifted sa
    unfold netPosts at this
    rw [this]
    rfl
  · unfold netCalls
    rw [List.filterMap_append, List.filterMap_append]
    have := netCalls_lifted sa
    unfold netCalls at this
    rw [this, s2]
    rfl
  · rw [app, app, one _ (.deliver k), one _ (.post _ _ _), first, hs1, last]
  · rw [w3.esv, ← hg]; rfl
  · apply BitVec.eq_of_toNat_eq
    rw [w3.seoj, ← hg]
    exact fdeoj
  · obtain ⟨vs, v1, v2, -⟩ := C88_properties res g w3
    refine ⟨vs, v1, ?_⟩
    rw [v2, gprops]
    rfl
  · intro u o' hu
    have key : ∃ v, (liveAt L c n ([.post objCode 0x62 (asking [p, q])] ++ (sa.map lifted ++ [.deliver k])) u).net.server
        = (serveAt L.env L.db n sa v).node := by
      cases u with
      | zero => exact ⟨0, rfl⟩
      | succ u =>
        unfold liveAt
        rw [List.singleton_append, List.take_succ_cons, ← List.singleton_append, app, one, first, List.take_append,
          app, ← List.map_take]
        refine ⟨u, ?_⟩
        have h1 := congrArg ServeSt.node (part u).1
        refine Eq.trans ?_ h1
        generalize s0.run L ((sa.take u).map lifted) = s2
        cases u - (sa.map lifted).length with
        | zero => rfl
        | succ v =>
          rw [List.take_of_length_le (by simp)]
          exact deliver_server L s2.net k
    obtain ⟨v, hv⟩ := key
    exact s6 v o' (by rw [← hv]; exact hu)

/-- A read of two properties while somebody else's message writes the first and the program writes the second. -/
def aMixedRead : List LiveAct :=
  [.post 0x013001 0x62 (asking [0x80, 0xB0]), .arrive 0, .message (request 0x61 [⟨0x80, [0x31]⟩])] ++
    List.replicate 11 (.step 0) ++ [.step 1, .call (.obj (.device 0) (.write 0xB0 [0x42])), .step 1, .deliver 0] ++
    List.replicate 6 (.step 0) ++ [.deliver 0]

/-- The hypotheses of the theorems on posts are met by it, and what it returns. -/
example : Base aClient ∧ aClient.running = true ∧ aClient.lastTID.toNat ≤ 65535 ∧
    (aMixedRead.filter liveUsesId).length ≤ 65536 ∧
    (∃ res, (liveAt aLink aClient pairNode aMixedRead 25).net.returned =
      (liveAt aLink aClient pairNode aMixedRead 24).net.returned ++ [res] ∧ res.getTID = 8 ∧
      res.ep = [some ⟨0x80, [0x30]⟩, some ⟨0xB0, [0x42]⟩]) ∧
    (∀ u r o, (liveAt aLink aClient pairNode aMixedRead u).net.server.get r = some o →
      ∀ p ∈ o.props, p.data.length ≤ 255) ∧
    (∀ b ∈ (liveAt aLink aClient pairNode aMixedRead 24).net.replies, b.length ≤ 1024) := by
  refine ⟨aClient_base, rfl, by decide, by decide, first_returned (by decide +kernel), ?_, by decide +kernel⟩
  · have key : ∀ n : Node, (∀ o ∈ n.devices ++ n.profiles, ∀ p ∈ o.props, p.data.length ≤ 255) →
        ∀ r o, n.get r = some o → ∀ p ∈ o.props, p.data.length ≤ 255 := by
      intro n h r o hg
      refine h o ?_
      cases r with
      | device i => exact List.mem_append.mpr (.inl (List.mem_of_getElem? hg))
      | profile i => exact List.mem_append.mpr (.inr (List.mem_of_getElem? hg))
    intro u
    apply key
    have small : ∀ v < 26, ∀ o ∈ (liveAt aLink aClient pairNode aMixedRead v).net.server.devices ++
        (liveAt aLink aClient pairNode aMixedRead v).net.server.profiles, ∀ p ∈ o.props, p.data.length ≤ 255 := by
      decide +kernel
    by_cases hu : u < 26
    · exact small u hu
    · have : liveAt aLink aClient pairNode aMixedRead u = liveAt aLink aClient pairNode aMixedRead 25 := by
        unfold liveAt
        rw [List.take_of_length_le (by show 25 ≤ u; omega), List.take_of_length_le (Nat.le_refl 25)]
      rw [this]
      exact small 25 (by omega)

/-- The hypotheses of the refutation are met. -/
example : ∃ acts res, netPosts acts = [(0x013001, 0x62, asking [0x80, 0xB0])] ∧
    netCalls acts = [.obj (.device 0) (.write 0x80 [0x31]), .obj (.device 0) (.write 0xB0 [0x42])] ∧
    ((LiveNet.init aClient pairNode).run aLink acts).net.returned = [res] ∧ res.esv = 0x72 ∧
    res.getSEOJ = 0x013001 ∧
    (∃ vs, res.clientProperties = .ok vs ∧
      vs.map (fun z => (z.code, z.data)) = [(0x80, [0x30]), (0xB0, [0x42])]) ∧
    ∀ u o', (liveAt aLink aClient pairNode acts u).net.server.get (.device 0) = some o' →
      ¬ (stored o' 0x80 = [0x30] ∧ stored o' 0xB0 = [0x42]) :=
  C161_refuted aLink aClient aClient_base rfl (by decide) pairNode (.device 0) _ 0x013001 (by decide)
    pairNode_addressed ⟨fun _ _ _ _ _ => rfl, fun _ _ _ _ _ => rfl, fun _ _ _ _ _ => rfl⟩ (by decide) 0x80 0xB0
    (by decide) ⟨"", 0x80, [0x30], 1, 1, 0⟩ ⟨"", 0xB0, [0x41], 1, 1, 0⟩ rfl rfl (by decide) (by decide) [0x31] [0x42]
    (by decide) (by decide) (by decide) (by decide)

end Verif.Props
