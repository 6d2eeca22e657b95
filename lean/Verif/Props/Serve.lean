import Verif.Model.Serve
import Verif.Props.RoundTrip

/-! # C101, C102: messages handled at the same time -/

namespace Verif.Props
open Verif Model Spec Lemmas

/-- A goroutine makes steps, one after the other, and nothing else happens: the node and the
goroutine before and after, and the messages sent. -/
inductive Goes (env : Env) (db : StdDB) : Node → Serving → Node → Serving → List Sent → Prop
  | refl (n h) : Goes env db n h n h []
  | step {n h n' h' ms} : Goes env db (h.step env db n).1 (h.step env db n).2.1 n' h' ms →
      Goes env db n h n' h' ((h.step env db n).2.2 ++ ms)

section
variable {env : Env} {db : StdDB}

theorem Goes.trans {n h n1 h1 ms1 n2 h2 ms2} (a : Goes env db n h n1 h1 ms1)
    (b : Goes env db n1 h1 n2 h2 ms2) : Goes env db n h n2 h2 (ms1 ++ ms2) := by
  induction a with
  | refl => exact b
  | step _ ih => rw [List.append_assoc]; exact .step (ih b)

/-- One step and then more. -/
theorem Goes.next {n h n1 h1 ms1 n2 h2 ms2} (a : h.step env db n = (n1, h1, ms1))
    (b : Goes env db n1 h1 n2 h2 ms2) : Goes env db n h n2 h2 (ms1 ++ ms2) := by
  have : Goes env db (h.step env db n).1 (h.step env db n).2.1 n2 h2 ms2 := by rw [a]; exact b
  have := Goes.step this
  rw [a] at this
  exact this

/-- One silent step and then more. -/
theorem Goes.quiet {n h n1 h1 n2 h2 ms} (a : h.step env db n = (n1, h1, []))
    (b : Goes env db n1 h1 n2 h2 ms) : Goes env db n h n2 h2 ms := Goes.next a b

theorem Goes.one {n h n1 h1 ms} (a : h.step env db n = (n1, h1, ms)) : Goes env db n h n1 h1 ms := by
  have := Goes.next a (.refl _ _)
  rwa [List.append_nil] at this

/-- Steps of a goroutine as part of a schedule. -/
theorem Goes.run {n h n' h' ms} (a : Goes env db n h n' h' ms) (s : ServeSt) (i : Nat)
    (hn : s.node = n) (hi : s.serving[i]? = some h) :
    ∃ k, s.run env db (List.replicate k (.step i)) = ⟨n', s.serving.set i h', s.sent ++ ms⟩ := by
  induction a generalizing s with
  | refl n h =>
    refine ⟨0, ?_⟩
    have : s.serving.set i h = s.serving := by
      apply List.ext_getElem?
      intro j
      rw [List.getElem?_set]
      split
      · next e =>
        subst e
        rw [hi]
        split
        · rfl
        · rw [List.getElem?_eq_none (by omega)] at hi; cases hi
      · rfl
    rw [this, ← hn]
    simp [ServeSt.run]
  | @step n h n' h' ms _ ih =>
    subst hn
    have hl : i < s.serving.length := by
      rcases Nat.lt_or_ge i s.serving.length with h | h
      · exact h
      · rw [List.getElem?_eq_none h] at hi; cases hi
    obtain ⟨k, hk⟩ := ih ⟨(h.step env db s.node).1, s.serving.set i (h.step env db s.node).2.1,
      s.sent ++ (h.step env db s.node).2.2⟩ rfl (by
        show (s.serving.set i _)[i]? = _
        rw [List.getElem?_set_self hl])
    refine ⟨k + 1, ?_⟩
    rw [List.replicate_succ, ServeSt.run, List.foldl_cons]
    have : s.step env db (.step i) = ⟨(h.step env db s.node).1, s.serving.set i (h.step env db s.node).2.1,
      s.sent ++ (h.step env db s.node).2.2⟩ := by
      simp only [ServeSt.step, hi]
    rw [this]
    unfold ServeSt.run at hk
    rw [hk]
    simp [List.append_assoc]

/-! ## A goroutine by itself does what `Node.received` does -/

theorem goes_check (n : Node) (m : Message) (cs : List Call) (r : ObjRef) (o : Obj) (ho : n.get r = some o)
    (ps : List PProp) : Goes env db n ⟨m, cs, .check r ps⟩ n
      (if ps.all (Node.validProperty o m.esv) then ⟨m, cs, .listeners⟩
       else Serving.impossible ⟨m, cs, .start⟩) [] := by
  induction ps with
  | nil => exact .one rfl
  | cons p ps ih =>
    by_cases hv : Node.validProperty o m.esv p = true
    · refine .quiet (n1 := n) (h1 := ⟨m, cs, .check r ps⟩) ?_ ?_
      · simp [Serving.step, ho, hv]
      · simpa [hv] using ih
    · refine .one ?_
      simp only [Serving.step, ho, List.all_cons]
      simp only [hv, Bool.false_and]
      simp [Serving.impossible]

theorem goes_inside (m : Message) (cs : List Call) (e : Option Err) (k : AfterCall) (ops : List NodeOp) :
    ∀ n, Goes env db n ⟨m, cs, .inside ops e k⟩ (NodeOp.runAll db n ops).1 ⟨m, cs, Serving.after e m k⟩
      (NodeOp.runAll db n ops).2 := by
  induction ops with
  | nil => exact fun n => .one rfl
  | cons op ops ih =>
    intro n
    exact .next (n1 := (op.run db n).1) (h1 := ⟨m, cs, .inside ops e k⟩) (ms1 := (op.run db n).2) rfl (ih _)

/-- A callback from its call to its return. -/
theorem goes_call (n : Node) (h : Serving) (c : Call) (k : AfterCall) (sent : List Sent) :
    ∃ ms, (env.call db ⟨n, h.calls, sent⟩ c).1.sent = sent ++ ms ∧
      Goes env db n (h.callback env n c k) (env.call db ⟨n, h.calls, sent⟩ c).1.node
        ⟨h.msg, (env.call db ⟨n, h.calls, sent⟩ c).1.calls,
          Serving.after (env.call db ⟨n, h.calls, sent⟩ c).2 h.msg k⟩ ms :=
  ⟨_, rfl, goes_inside _ _ _ _ _ _⟩

/-- The callbacks for one property. -/
theorem goes_property (m : Message) (r : ObjRef) (p : PProp) (ps : List PProp) (s : HState)
    (last : Option Err) :
    ∃ ms, (Node.notifyPropertyRequest env db r m.esv p s).1.sent = s.sent ++ ms ∧
      Goes env db s.node ⟨m, s.calls, .request r (p :: ps) last⟩
        (Node.notifyPropertyRequest env db r m.esv p s).1.node
        ⟨m, (Node.notifyPropertyRequest env db r m.esv p s).1.calls,
          .request r ps (match (Node.notifyPropertyRequest env db r m.esv p s).2 with
            | some e => some e
            | none => last)⟩ ms := by
  have second : ∀ (s : HState) (e1 : Option Err), ∃ ms,
      (if env.reqHandler r then env.call db s (.handler r m.esv p) else (s, none)).1.sent = s.sent ++ ms ∧
      Goes env db s.node ⟨m, s.calls, .handler r p e1 ps last⟩
        (if env.reqHandler r then env.call db s (.handler r m.esv p) else (s, none)).1.node
        ⟨m, (if env.reqHandler r then env.call db s (.handler r m.esv p) else (s, none)).1.calls,
          .request r ps (Serving.lastErr e1
            (if env.reqHandler r then env.call db s (.handler r m.esv p) else (s, none)).2 last)⟩ ms := by
    intro s e1
    by_cases hq : env.reqHandler r = true
    · simp only [hq, if_true]
      obtain ⟨ms, h1, h2⟩ := goes_call (env := env) (db := db) s.node ⟨m, s.calls, .handler r p e1 ps last⟩
        (.handler r m.esv p) (.handler r e1 ps last) s.sent
      refine ⟨ms, h1, .quiet (n1 := s.node) (h1 := Serving.callback env s.node
        ⟨m, s.calls, .handler r p e1 ps last⟩ (.handler r m.esv p) (.handler r e1 ps last)) ?_ h2⟩
      simp [Serving.step, hq]
    · simp only [hq]
      refine ⟨[], by simp, .one ?_⟩
      simp [Serving.step, hq]
  by_cases hl : env.objListener r = true
  · obtain ⟨ms1, h1, h2⟩ := goes_call (env := env) (db := db) s.node ⟨m, s.calls, .request r (p :: ps) last⟩
      (.request r m.esv p) (.request r p ps last) s.sent
    obtain ⟨ms2, g1, g2⟩ := second (env.call db s (.request r m.esv p)).1
      (env.call db s (.request r m.esv p)).2
    unfold Node.notifyPropertyRequest
    simp only [hl, if_true]
    refine ⟨ms1 ++ ms2, by rw [g1, ← List.append_assoc]; exact congrArg (· ++ ms2) h1, ?_⟩
    refine .quiet (n1 := s.node) (h1 := Serving.callback env s.node
        ⟨m, s.calls, .request r (p :: ps) last⟩ (.request r m.esv p) (.request r p ps last)) ?_ (h2.trans ?_)
    · simp [Serving.step, hl]
    · exact g2
  · obtain ⟨ms2, g1, g2⟩ := second s none
    unfold Node.notifyPropertyRequest
    simp only [hl]
    refine ⟨ms2, g1, ?_⟩
    refine .quiet (n1 := s.node) (h1 := ⟨m, s.calls, .handler r p none ps last⟩) ?_ g2
    simp [Serving.step, hl]

theorem goes_notify (m : Message) (r : ObjRef) (ps : List PProp) : ∀ (s : HState) (last : Option Err),
    ∃ ms, (Node.notifyAll env db r m.esv ps s last).1.sent = s.sent ++ ms ∧
      Goes env db s.node ⟨m, s.calls, .request r ps last⟩ (Node.notifyAll env db r m.esv ps s last).1.node
        ⟨m, (Node.notifyAll env db r m.esv ps s last).1.calls,
          .request r [] (Node.notifyAll env db r m.esv ps s last).2⟩ ms := by
  induction ps with
  | nil => exact fun s last => ⟨[], by simp [Node.notifyAll], .refl _ _⟩
  | cons p ps ih =>
    intro s last
    obtain ⟨ms1, h1, h2⟩ := goes_property (env := env) (db := db) m r p ps s last
    obtain ⟨ms2, g1, g2⟩ := ih (Node.notifyPropertyRequest env db r m.esv p s).1
      (match (Node.notifyPropertyRequest env db r m.esv p s).2 with
        | some e => some e
        | none => last)
    exact ⟨ms1 ++ ms2, by rw [← List.append_assoc, ← h1]; exact g1, h2.trans g2⟩

theorem goes_answer (n : Node) (m : Message) (cs : List Call) (r : ObjRef) (o : Obj) (ho : n.get r = some o)
    (ps : List PProp) : ∀ res, Goes env db n ⟨m, cs, .answer r ps res⟩ n
      ⟨m, cs, .done (some (ps.foldl (fun res p =>
        match o.props.lookup p.code with
        | none => res
        | some prop => res.addProperty (some prop.toProtocol)) res)) none⟩ [] := by
  induction ps with
  | nil => exact fun res => .one rfl
  | cons p ps ih =>
    intro res
    rw [List.foldl_cons]
    cases hp : o.props.lookup p.code with
    | none =>
      refine .quiet (n1 := n) (h1 := ⟨m, cs, .answer r ps res⟩) ?_ (ih res)
      simp [Serving.step, ho, hp]
    | some prop =>
      refine .quiet (n1 := n) (h1 := ⟨m, cs, .answer r ps (res.addProperty (some prop.toProtocol))⟩) ?_ (ih _)
      simp [Serving.step, ho, hp]

theorem goes_listeners (n : Node) (m : Message) (r : ObjRef) (hl : n.lookupObject m.getDEOJ = some r) :
    Goes env db n ⟨m, [], .listeners⟩ (Node.executeMessageListeners env db m ⟨n, [], []⟩).1.node
      ⟨m, (Node.executeMessageListeners env db m ⟨n, [], []⟩).1.calls,
        .request r [] (Node.executeMessageListeners env db m ⟨n, [], []⟩).2⟩
      (Node.executeMessageListeners env db m ⟨n, [], []⟩).1.sent := by
  unfold Node.executeMessageListeners
  simp only [hl]
  by_cases hn : env.listener = true
  · simp only [hn, if_true]
    obtain ⟨ms1, h1, h2⟩ := goes_call (env := env) (db := db) n ⟨m, [], .listeners⟩ (.message m) (.message r) []
    obtain ⟨ms2, g1, g2⟩ := goes_notify (env := env) (db := db) m r m.requested
      (env.call db ⟨n, [], []⟩ (.message m)).1 (env.call db ⟨n, [], []⟩ (.message m)).2
    have e : (env.call db ⟨n, [], []⟩ (.message m)).1.sent = ms1 := h1
    rw [g1, e]
    refine .quiet (n1 := n) (h1 := Serving.callback env n ⟨m, [], .listeners⟩ (.message m) (.message r)) ?_
      (h2.trans g2)
    simp [Serving.step, hl, hn]
  · simp only [hn]
    obtain ⟨ms2, g1, g2⟩ := goes_notify (env := env) (db := db) m r m.requested ⟨n, [], []⟩ none
    simp only [List.nil_append] at g1
    have first : Serving.step env db n ⟨m, [], .listeners⟩ = (n, ⟨m, [], .request r m.requested none⟩, []) := by
      simp [Serving.step, hl, hn]
    have := Goes.quiet first g2
    rw [← g1] at this
    exact this

theorem goes_respond (n : Node) (m : Message) (cs : List Call) (hr : m.esv.isResponseRequired = true) :
    Goes env db n ⟨m, cs, .respond⟩ n ⟨m, cs, .done (n.createResponse m).1 (n.createResponse m).2⟩ [] := by
  unfold Node.createResponse
  cases hl : n.lookupObject m.getDEOJ with
  | none =>
    refine .one ?_
    simp [Serving.step, hr, hl]
  | some r =>
    obtain ⟨o, -, hg⟩ := lookupObject_some hl
    simp only [hg]
    refine .quiet (n1 := n) (h1 := ⟨m, cs, .answer r m.requested m.newResponse⟩) ?_
      (goes_answer n m cs r o hg _ _)
    simp [Serving.step, hr, hl]

theorem goes_accepted (n : Node) (m : Message) (out : Outcome) (r : ObjRef) (d : Bool)
    (hl : n.lookupObject m.getDEOJ = some r)
    (h : (match Node.executeMessageListeners env db m ⟨n, [], []⟩ with
      | (s, some e) => Res.ok (⟨s.node, s.calls, s.sent, d, none, some e⟩ : Outcome)
      | (s, none) =>
        if !m.esv.isResponseRequired then .ok ⟨s.node, s.calls, s.sent, d, none, none⟩
        else
          let (r, e) := s.node.createResponse m
          .ok ⟨s.node, s.calls, s.sent, d, r, e⟩) = .ok out) :
    Goes env db n ⟨m, [], .listeners⟩ out.node ⟨m, out.calls, .done out.reply out.error⟩ out.sent := by
  have hg := goes_listeners (env := env) (db := db) n m r hl
  generalize Node.executeMessageListeners env db m ⟨n, [], []⟩ = x at h hg
  obtain ⟨s, e⟩ := x
  cases e with
  | some e =>
    injection h with h; subst h
    have := hg.trans (Goes.one (n1 := s.node) (h1 := ⟨m, s.calls, .done none (some e)⟩) (ms := []) rfl)
    rwa [List.append_nil] at this
  | none =>
    have h1 := hg.trans (Goes.one (n1 := s.node) (h1 := ⟨m, s.calls, .respond⟩) (ms := []) rfl)
    rw [List.append_nil] at h1
    by_cases hr : m.esv.isResponseRequired = true
    · simp only [hr] at h
      injection h with h; subst h
      have := h1.trans (goes_respond s.node m s.calls hr)
      rwa [List.append_nil] at this
    · simp only [hr] at h
      injection h with h; subst h
      have := h1.trans (Goes.one (n1 := s.node) (h1 := ⟨m, s.calls, .done none none⟩) (ms := [])
        (by simp [Serving.step, hr]))
      rwa [List.append_nil] at this

/-- A goroutine that runs alone does to the node, calls, sends and answers what `Node.received`
says. -/
theorem goes_received (n : Node) (m : Message) (out : Outcome) (h : n.received env db m = .ok out) :
    Goes env db n ⟨m, [], .start⟩ out.node ⟨m, out.calls, .done out.reply out.error⟩ out.sent := by
  unfold Node.received at h
  by_cases hs : (!n.selfMsg && n.isSelfMessage m) = true
  · rw [if_pos hs] at h
    injection h with h; subst h
    refine .one ?_
    simp [Serving.step, hs]
  rw [if_neg hs] at h
  dsimp only at h
  have imposs : ∀ x, (m.newImpossible >>= fun r => Res.ok (⟨n, [], [], x, some r, none⟩ : Outcome)) = .ok out →
      out.node = n ∧ out.calls = [] ∧ out.sent = [] ∧
      Serving.impossible ⟨m, [], .start⟩ = ⟨m, [], .done out.reply out.error⟩ := by
    intro x hx
    obtain ⟨r, h1, h2⟩ := Res.bind_eq_ok.mp hx
    injection h2 with h2; subst h2
    refine ⟨rfl, rfl, rfl, ?_⟩
    simp [Serving.impossible, h1]
  cases hl : n.lookupObject m.getDEOJ with
  | none =>
    have hv : n.validateReceivedMessage m = false := by unfold Node.validateReceivedMessage; rw [hl]
    rw [hv] at h
    obtain ⟨e1, e2, e3, e4⟩ := imposs _ h
    rw [e1, e2, e3]
    refine .one ?_
    simp [Serving.step, hs, hl, e4]
  | some r =>
    obtain ⟨o, -, hg⟩ := lookupObject_some hl
    by_cases hvalid : m.esv.isValid = true
    · by_cases hrw : (m.esv.isReadRequest || m.esv.isWriteRequest) = true
      · have first : Serving.step env db n ⟨m, [], .start⟩ = (n, ⟨m, [], .check r m.requested⟩, []) := by
          simp only [Serving.step, hs, hl, hvalid, hrw]
          rfl
        have hc := goes_check (env := env) (db := db) n m [] r o hg m.requested
        have hv : n.validateReceivedMessage m = m.requested.all (Node.validProperty o m.esv) := by
          unfold Node.validateReceivedMessage
          simp only [hl, hg, hvalid, hrw]
          rfl
        rw [hv] at h
        by_cases ha : m.requested.all (Node.validProperty o m.esv) = true
        · rw [if_pos ha] at hc
          rw [ha] at h
          exact .quiet first (hc.trans (goes_accepted n m out r _ hl h))
        · rw [if_neg ha] at hc
          simp only [ha] at h
          obtain ⟨e1, e2, e3, e4⟩ := imposs _ h
          rw [e1, e2, e3, ← e4]
          exact .quiet first hc
      · have first : Serving.step env db n ⟨m, [], .start⟩ = (n, ⟨m, [], .listeners⟩, []) := by
          simp only [Serving.step, hs, hl, hvalid, hrw]
          rfl
        have hv : n.validateReceivedMessage m = true := by
          unfold Node.validateReceivedMessage
          simp only [hl, hg, hvalid, hrw]
          rfl
        rw [hv] at h
        exact .quiet first (goes_accepted n m out r _ hl h)
    · have hv : n.validateReceivedMessage m = false := by
        unfold Node.validateReceivedMessage
        simp only [hl, hg, hvalid]
        rfl
      rw [hv] at h
      obtain ⟨e1, e2, e3, e4⟩ := imposs _ h
      rw [e1, e2, e3]
      refine .one ?_
      simp only [Serving.step, hs, hl, hvalid, e4]
      rfl

end

/-! ## Callbacks that keep to their object -/

/-- The object a callback is told about. -/
def Call.obj? : Call → Option ObjRef
  | .message _ => none
  | .request r _ _ => some r
  | .handler r _ _ => some r

/-- A program whose callbacks for an object make calls on this object only, which do not change its
code, and decide by this object only; the node listener does nothing. -/
structure Local (env : Env) : Prop where
  message : ∀ n cs m, env.behave n cs (.message m) = ([], none)
  calls : ∀ n cs c r, Call.obj? c = some r → ∀ x ∈ (env.behave n cs c).1, ∃ op, x = .obj r op ∧ KeepsCode op
  only : ∀ n n' cs c r, Call.obj? c = some r → n.get r = n'.get r → env.behave n cs c = env.behave n' cs c

def AfterCall.obj : AfterCall → ObjRef
  | .message r => r
  | .request r _ _ _ => r
  | .handler r _ _ _ => r

/-- A goroutine works on the object `t` its message is addressed to. -/
def Placed (env : Env) (t : Option ObjRef) (h : Serving) : Prop :=
  match h.pc with
  | .check r _ => t = some r
  | .request r _ _ => t = some r
  | .handler r _ _ _ _ => t = some r
  | .answer r _ _ => t = some r
  | .inside ops _ k => t = some (AfterCall.obj k) ∧
      (∀ x ∈ ops, ∃ op, x = .obj (AfterCall.obj k) op ∧ KeepsCode op) ∧ (Passive env h.msg.esv → ops = [])
  | _ => True

/-- Two nodes that differ at most in the data of objects other than `t`, and in identifiers. -/
structure Alike (t : Option ObjRef) (a b : Node) : Prop where
  lookup : ∀ c, a.lookupObject c = b.lookupObject c
  selfMsg : a.selfMsg = b.selfMsg
  addr : a.addr = b.addr
  get : ∀ r, t = some r → a.get r = b.get r

theorem lookup_codes {a b : Node} (h : ∀ r, (b.get r).map (·.codes) = (a.get r).map (·.codes)) (c : ObjectCode) :
    b.lookupObject c = a.lookupObject c := by
  obtain ⟨l1, l2⟩ := codes_of_get h
  have key : ∀ l l' : List Obj, l.map (·.codes) = l'.map (·.codes) →
      l.findIdx? (fun o => o.code == c) = l'.findIdx? (fun o => o.code == c) := by
    intro l
    induction l with
    | nil => intro l' h; cases l' with
      | nil => rfl
      | cons => cases h
    | cons x l ih =>
      intro l' h
      cases l' with
      | nil => cases h
      | cons y l' =>
        rw [List.map_cons, List.map_cons, List.cons.injEq] at h
        rw [List.findIdx?_cons, List.findIdx?_cons, ih l' h.2, Obj.code, h.1]
        rfl
  unfold Node.lookupObject Node.lookupDevice Node.lookupProfile
  rw [key _ _ l1, key _ _ l2]

/-- A call on an object that keeps its code. -/
theorem obj_run (db : StdDB) (n : Node) (r : ObjRef) (op : ObjOp) (hk : KeepsCode op) :
    (∀ c, ((NodeOp.obj r op).run db n).1.lookupObject c = n.lookupObject c) ∧
    ((NodeOp.obj r op).run db n).1.selfMsg = n.selfMsg ∧ ((NodeOp.obj r op).run db n).1.addr = n.addr ∧
    ∀ r', ((NodeOp.obj r op).run db n).1.get r'
      = if r' = r then (n.get r).map (fun o => (op.run db o).1) else n.get r' := by
  have hg : ∀ r', ((NodeOp.obj r op).run db n).1.get r'
      = if r' = r then (n.get r).map (fun o => (op.run db o).1) else n.get r' := by
    intro r'
    exact onObj_get n r r' _
  have hf : SameFrame n ((NodeOp.obj r op).run db n).1 := onObj_frame n r _
  refine ⟨lookup_codes ?_, hf.selfMsg, hf.addr, hg⟩
  intro r'
  rw [hg]
  split
  · next e =>
    subst e
    rw [Option.map_map]
    congr 1
    funext o
    exact keepsCode_codes db o op hk
  · rfl

theorem impossible_msg (h : Serving) : h.impossible.msg = h.msg ∧ h.impossible.calls = h.calls ∧
    ∀ env t, Placed env t h.impossible := by
  unfold Serving.impossible
  split
  · exact ⟨rfl, rfl, fun _ _ => trivial⟩
  · exact ⟨rfl, rfl, fun _ _ => trivial⟩

/-- A step of a goroutine changes its own object only, and that not at all if its callbacks do
nothing. -/
theorem placed_step {env : Env} (he : Local env) (db : StdDB) (n0 n : Node)
    (hl : ∀ c, n.lookupObject c = n0.lookupObject c) (h : Serving)
    (hp : Placed env (n0.lookupObject h.msg.getDEOJ) h) :
    (h.step env db n).2.1.msg = h.msg ∧
    Placed env (n0.lookupObject h.msg.getDEOJ) (h.step env db n).2.1 ∧
    (∀ c, (h.step env db n).1.lookupObject c = n.lookupObject c) ∧
    (h.step env db n).1.selfMsg = n.selfMsg ∧ (h.step env db n).1.addr = n.addr ∧
    ∀ r, (n0.lookupObject h.msg.getDEOJ ≠ some r ∨ Passive env h.msg.esv) →
      (h.step env db n).1.get r = n.get r := by
  obtain ⟨m, cs, pc⟩ := h
  have still : ∀ h' : Serving, h'.msg = m → Placed env (n0.lookupObject m.getDEOJ) h' →
      Serving.step env db n ⟨m, cs, pc⟩ = (n, h', []) → 
      (Serving.step env db n ⟨m, cs, pc⟩).2.1.msg = m ∧
      Placed env (n0.lookupObject m.getDEOJ) (Serving.step env db n ⟨m, cs, pc⟩).2.1 ∧
      (∀ c, (Serving.step env db n ⟨m, cs, pc⟩).1.lookupObject c = n.lookupObject c) ∧
      (Serving.step env db n ⟨m, cs, pc⟩).1.selfMsg = n.selfMsg ∧
      (Serving.step env db n ⟨m, cs, pc⟩).1.addr = n.addr ∧
      ∀ r, (n0.lookupObject m.getDEOJ ≠ some r ∨ Passive env m.esv) →
        (Serving.step env db n ⟨m, cs, pc⟩).1.get r = n.get r := by
    intro h' hm hp' hs
    rw [hs]
    exact ⟨hm, hp', fun _ => rfl, rfl, rfl, fun _ _ => rfl⟩
  have imp := impossible_msg ⟨m, cs, pc⟩
  dsimp only at hp ⊢
  cases pc with
  | start =>
    by_cases h1 : (!n.selfMsg && n.isSelfMessage m) = true
    · exact still ⟨m, cs, .done none none⟩ rfl trivial (by simp [Serving.step, h1])
    · cases h2 : n.lookupObject m.getDEOJ with
      | none => exact still _ imp.1 (imp.2.2 _ _) (by simp [Serving.step, h1, h2])
      | some r =>
        by_cases h3 : m.esv.isValid = true
        · by_cases h4 : (m.esv.isReadRequest || m.esv.isWriteRequest) = true
          · exact still ⟨m, cs, .check r m.requested⟩ rfl (by rw [← hl, h2]; rfl)
              (by simp only [Serving.step, h1, h2, h3, h4]; rfl)
          · exact still ⟨m, cs, .listeners⟩ rfl trivial (by simp only [Serving.step, h1, h2, h3, h4]; rfl)
        · exact still _ imp.1 (imp.2.2 _ _) (by simp only [Serving.step, h1, h2, h3]; rfl)
  | check r ps =>
    cases ps with
    | nil => exact still ⟨m, cs, .listeners⟩ rfl trivial rfl
    | cons p ps =>
      cases h1 : n.get r with
      | none => exact still _ imp.1 (imp.2.2 _ _) (by simp [Serving.step, h1])
      | some o =>
        by_cases h2 : Node.validProperty o m.esv p = true
        · exact still ⟨m, cs, .check r ps⟩ rfl hp (by simp [Serving.step, h1, h2])
        · exact still _ imp.1 (imp.2.2 _ _) (by simp [Serving.step, h1, h2])
  | listeners =>
    cases h1 : n.lookupObject m.getDEOJ with
    | none => exact still ⟨m, cs, .done none (some .notFound)⟩ rfl trivial (by simp [Serving.step, h1])
    | some r =>
      have hr : n0.lookupObject m.getDEOJ = some r := by rw [← hl, h1]
      by_cases h2 : env.listener = true
      · refine still (Serving.callback env n ⟨m, cs, .listeners⟩ (.message m) (.message r)) rfl ?_
          (by simp [Serving.step, h1, h2])
        refine ⟨hr, ?_, ?_⟩
        · rw [he.message]; intro x hx; cases hx
        · intro _; rw [he.message]
      · exact still ⟨m, cs, .request r m.requested none⟩ rfl hr (by simp [Serving.step, h1, h2])
  | inside ops e k =>
    obtain ⟨hp1, hp2, hp3⟩ := hp
    cases ops with
    | nil =>
      refine still ⟨m, cs, Serving.after e m k⟩ rfl ?_ rfl
      cases k <;> exact hp1
    | cons op ops =>
      obtain ⟨x, rfl, hx⟩ := hp2 op (List.mem_cons_self ..)
      obtain ⟨k1, k2, k3, k4⟩ := obj_run db n (AfterCall.obj k) x hx
      refine ⟨rfl, ⟨hp1, fun y hy => hp2 y (List.mem_cons_of_mem _ hy), fun h => absurd (hp3 h) (by simp)⟩,
        k1, k2, k3, ?_⟩
      intro r hr
      refine (k4 r).trans ?_
      rcases hr with hr | hr
      · rw [if_neg]
        intro e'
        exact hr (by rw [e']; exact hp1)
      · exact absurd (hp3 hr) (by simp)
  | request r ps last =>
    cases ps with
    | nil =>
      cases last with
      | none => exact still ⟨m, cs, .respond⟩ rfl trivial rfl
      | some e => exact still ⟨m, cs, .done none (some e)⟩ rfl trivial rfl
    | cons p ps =>
      by_cases h1 : env.objListener r = true
      · refine still (Serving.callback env n ⟨m, cs, .request r (p :: ps) last⟩ (.request r m.esv p)
          (.request r p ps last)) rfl ?_ (by simp [Serving.step, h1])
        exact ⟨hp, he.calls n cs _ r rfl, fun h => congrArg Prod.fst (h.request r h1 n cs p)⟩
      · exact still ⟨m, cs, .handler r p none ps last⟩ rfl hp (by simp [Serving.step, h1])
  | handler r p e1 ps last =>
    by_cases h1 : env.reqHandler r = true
    · refine still (Serving.callback env n ⟨m, cs, .handler r p e1 ps last⟩ (.handler r m.esv p)
        (.handler r e1 ps last)) rfl ?_ (by simp [Serving.step, h1])
      exact ⟨hp, he.calls n cs _ r rfl, fun h => congrArg Prod.fst (h.handler r h1 n cs p)⟩
    · exact still ⟨m, cs, .request r ps (Serving.lastErr e1 none last)⟩ rfl hp (by simp [Serving.step, h1])
  | respond =>
    by_cases h1 : m.esv.isResponseRequired = true
    · cases h2 : n.lookupObject m.getDEOJ with
      | none => exact still ⟨m, cs, .done none (some .notFound)⟩ rfl trivial (by simp [Serving.step, h1, h2])
      | some r =>
        exact still ⟨m, cs, .answer r m.requested m.newResponse⟩ rfl (by rw [← hl, h2]; rfl)
          (by simp [Serving.step, h1, h2])
    · exact still ⟨m, cs, .done none none⟩ rfl trivial (by simp [Serving.step, h1])
  | answer r ps res =>
    cases ps with
    | nil => exact still ⟨m, cs, .done (some res) none⟩ rfl trivial rfl
    | cons p ps =>
      cases h1 : (n.get r).bind (·.props.lookup p.code) with
      | none => exact still ⟨m, cs, .answer r ps res⟩ rfl hp (by simp only [Serving.step, h1])
      | some prop =>
        exact still ⟨m, cs, .answer r ps (res.addProperty (some prop.toProtocol))⟩ rfl hp
          (by simp only [Serving.step, h1])
  | done a b => exact still _ rfl hp rfl
  | crashed => exact still _ rfl hp rfl

/-- A goroutine makes the same step on nodes that are alike. -/
theorem alike_step {env : Env} (he : Local env) (db : StdDB) (a b : Node) (t : Option ObjRef)
    (h : Serving) (hab : Alike t a b) (ht : a.lookupObject h.msg.getDEOJ = t) (hp : Placed env t h) :
    (h.step env db a).2.1 = (h.step env db b).2.1 ∧
    Alike t (h.step env db a).1 (h.step env db b).1 := by
  obtain ⟨m, cs, pc⟩ := h
  have still : ∀ h' : Serving, Serving.step env db a ⟨m, cs, pc⟩ = (a, h', []) →
      Serving.step env db b ⟨m, cs, pc⟩ = (b, h', []) →
      (Serving.step env db a ⟨m, cs, pc⟩).2.1 = (Serving.step env db b ⟨m, cs, pc⟩).2.1 ∧
      Alike t (Serving.step env db a ⟨m, cs, pc⟩).1 (Serving.step env db b ⟨m, cs, pc⟩).1 := by
    intro h' h1 h2
    rw [h1, h2]
    exact ⟨rfl, hab⟩
  have hlk := hab.lookup m.getDEOJ
  have hself : (!a.selfMsg && a.isSelfMessage m) = (!b.selfMsg && b.isSelfMessage m) := by
    unfold Node.isSelfMessage
    rw [hab.selfMsg, hab.addr]
  dsimp only at ht
  cases pc with
  | start =>
    by_cases h1 : (!b.selfMsg && b.isSelfMessage m) = true
    · exact still ⟨m, cs, .done none none⟩ (by simp only [Serving.step, hself, h1]; rfl)
        (by simp only [Serving.step, h1]; rfl)
    · cases h2 : b.lookupObject m.getDEOJ with
      | none =>
        exact still _ (by simp only [Serving.step, hself, h1, hlk, h2]; rfl)
          (by simp only [Serving.step, h1, h2]; rfl)
      | some r =>
        by_cases h3 : m.esv.isValid = true
        · by_cases h4 : (m.esv.isReadRequest || m.esv.isWriteRequest) = true
          · exact still ⟨m, cs, .check r m.requested⟩ (by simp only [Serving.step, hself, h1, hlk, h2, h3, h4]; rfl)
              (by simp only [Serving.step, h1, h2, h3, h4]; rfl)
          · exact still ⟨m, cs, .listeners⟩ (by simp only [Serving.step, hself, h1, hlk, h2, h3, h4]; rfl)
              (by simp only [Serving.step, h1, h2, h3, h4]; rfl)
        · exact still _ (by simp only [Serving.step, hself, h1, hlk, h2, h3]; rfl)
            (by simp only [Serving.step, h1, h2, h3]; rfl)
  | check r ps =>
    cases ps with
    | nil => exact still ⟨m, cs, .listeners⟩ rfl rfl
    | cons p ps =>
      have hg := hab.get r hp
      cases h1 : b.get r with
      | none =>
        exact still (Serving.impossible ⟨m, cs, .check r (p :: ps)⟩) (by simp only [Serving.step, hg, h1])
          (by simp only [Serving.step, h1])
      | some o =>
        by_cases h2 : Node.validProperty o m.esv p = true
        · exact still ⟨m, cs, .check r ps⟩ (by simp [Serving.step, hg, h1, h2]) (by simp [Serving.step, h1, h2])
        · exact still (Serving.impossible ⟨m, cs, .check r (p :: ps)⟩) (by simp [Serving.step, hg, h1, h2])
            (by simp [Serving.step, h1, h2])
  | listeners =>
    cases h1 : b.lookupObject m.getDEOJ with
    | none =>
      exact still ⟨m, cs, .done none (some .notFound)⟩ (by simp only [Serving.step, hlk, h1])
        (by simp only [Serving.step, h1])
    | some r =>
      by_cases h2 : env.listener = true
      · refine still (Serving.callback env b ⟨m, cs, .listeners⟩ (.message m) (.message r)) ?_
          (by simp [Serving.step, h1, h2])
        simp only [Serving.step, hlk, h1, h2, Serving.callback, he.message]
        rfl
      · exact still ⟨m, cs, .request r m.requested none⟩ (by simp [Serving.step, hlk, h1, h2])
          (by simp [Serving.step, h1, h2])
  | inside ops e k =>
    obtain ⟨hp1, hp2, -⟩ := hp
    cases ops with
    | nil => exact still ⟨m, cs, Serving.after e m k⟩ rfl rfl
    | cons op ops =>
      obtain ⟨x, rfl, hx⟩ := hp2 op (List.mem_cons_self ..)
      obtain ⟨k1, k2, k3, k4⟩ := obj_run db a (AfterCall.obj k) x hx
      obtain ⟨l1, l2, l3, l4⟩ := obj_run db b (AfterCall.obj k) x hx
      refine ⟨rfl, ⟨fun c => (k1 c).trans ((hab.lookup c).trans (l1 c).symm), k2.trans (hab.selfMsg.trans l2.symm),
        k3.trans (hab.addr.trans l3.symm), ?_⟩⟩
      intro r hr
      refine (k4 r).trans (Eq.trans ?_ (l4 r).symm)
      rw [hab.get r hr, hab.get _ hp1]
  | request r ps last =>
    cases ps with
    | nil =>
      cases last with
      | none =>
        exact still ⟨m, cs, .respond⟩ rfl rfl
      | some e => exact still ⟨m, cs, .done none (some e)⟩ rfl rfl
    | cons p ps =>
      by_cases h1 : env.objListener r = true
      · refine still (Serving.callback env b ⟨m, cs, .request r (p :: ps) last⟩ (.request r m.esv p)
          (.request r p ps last)) ?_ (by simp [Serving.step, h1])
        simp only [Serving.step, h1, Serving.callback, he.only a b cs (.request r m.esv p) r rfl (hab.get r hp)]
        rfl
      · exact still ⟨m, cs, .handler r p none ps last⟩ (by simp [Serving.step, h1]) (by simp [Serving.step, h1])
  | handler r p e1 ps last =>
    by_cases h1 : env.reqHandler r = true
    · refine still (Serving.callback env b ⟨m, cs, .handler r p e1 ps last⟩ (.handler r m.esv p)
        (.handler r e1 ps last)) ?_ (by simp [Serving.step, h1])
      simp only [Serving.step, h1, Serving.callback, he.only a b cs (.handler r m.esv p) r rfl (hab.get r hp)]
      rfl
    · exact still ⟨m, cs, .request r ps (Serving.lastErr e1 none last)⟩ (by simp [Serving.step, h1])
        (by simp [Serving.step, h1])
  | respond =>
    by_cases h1 : m.esv.isResponseRequired = true
    · cases h2 : b.lookupObject m.getDEOJ with
      | none =>
        exact still ⟨m, cs, .done none (some .notFound)⟩ (by simp [Serving.step, hlk, h1, h2])
          (by simp [Serving.step, h1, h2])
      | some r =>
        exact still ⟨m, cs, .answer r m.requested m.newResponse⟩ (by simp [Serving.step, hlk, h1, h2])
          (by simp [Serving.step, h1, h2])
    · exact still ⟨m, cs, .done none none⟩ (by simp [Serving.step, h1]) (by simp [Serving.step, h1])
  | answer r ps res =>
    cases ps with
    | nil => exact still ⟨m, cs, .done (some res) none⟩ rfl rfl
    | cons p ps =>
      have hg := hab.get r hp
      cases h1 : (b.get r).bind (·.props.lookup p.code) with
      | none =>
        exact still ⟨m, cs, .answer r ps res⟩ (by simp only [Serving.step, hg, h1])
          (by simp only [Serving.step, h1])
      | some prop =>
        exact still ⟨m, cs, .answer r ps (res.addProperty (some prop.toProtocol))⟩
          (by simp only [Serving.step, hg, h1]) (by simp only [Serving.step, h1])
  | done x y => exact still _ rfl rfl
  | crashed => exact still _ rfl rfl

end Verif.Props
