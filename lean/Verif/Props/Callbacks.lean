import Verif.Model.Callbacks
import Verif.Props.Handler

/-! # C151, C152: callbacks that change the message they are given, or the callbacks that are set -/

namespace Verif.Props
open Verif Model Spec Lemmas

/-! ## What is said about callbacks -/

/-- The property a callback is given. -/
def Call.given : Call → PProp
  | .message _ => PProp.new
  | .request _ _ p => p
  | .handler _ _ p => p

/-- The callbacks do what `env` says and leave the message, its properties and the callbacks alone. -/
def LeaveAlone (cb : Callbacks) (env : Env) : Prop :=
  ∀ s c, cb s c = ⟨(env.behave s.node s.calls c).1, (env.behave s.node s.calls c).2, s.msg, Call.given c, s.regs⟩

/-- The callbacks `env` has set. -/
def Env.regs (env : Env) : Regs := ⟨env.listener, env.objListener, env.reqHandler⟩

/-- The state after some callbacks were called one after the other. -/
def afterCalls (cb : Callbacks) (db : StdDB) (s : Turn) (cs : List Call) : Turn := cs.foldl (Turn.step cb db) s

/-- The callback called is set. -/
def IsSet (regs : Regs) : Call → Prop
  | .message _ => regs.listener = true
  | .request r _ _ => regs.objListener r = true
  | .handler r _ _ => regs.reqHandler r = true

/-- The callbacks `cs` called one after the other, each set when it was called, lead from `s` to `s'`. -/
def Turns (cb : Callbacks) (db : StdDB) (s s' : Turn) (cs : List Call) : Prop :=
  s' = afterCalls cb db s cs ∧ ∀ pre c post, cs = pre ++ c :: post → IsSet (afterCalls cb db s pre).regs c

/-! ## Callbacks that leave the message alone -/

theorem alone_notify {cb : Callbacks} {env : Env} (h : LeaveAlone cb env) (db : StdDB) (r : ObjRef) (esv : ESV)
    (p : PProp) (s : Turn) (hr : s.regs = Env.regs env) :
    Turn.notify cb db r esv p s =
      (let x := Node.notifyPropertyRequest env db r esv p ⟨s.node, s.calls, s.sent⟩
       (⟨x.1.node, x.1.calls, x.1.sent, s.msg, s.regs⟩, x.2)) := by
  have hstep : ∀ (s : Turn) (c : Call), s.step cb db c
      = ⟨(env.call db ⟨s.node, s.calls, s.sent⟩ c).1.node, (env.call db ⟨s.node, s.calls, s.sent⟩ c).1.calls,
          (env.call db ⟨s.node, s.calls, s.sent⟩ c).1.sent, s.msg, s.regs⟩ := by
    intro s c
    unfold Turn.step Env.call
    rw [h s c]
  have herr : ∀ (s : Turn) (c : Call), (cb s c).err = (env.call db ⟨s.node, s.calls, s.sent⟩ c).2 := by
    intro s c
    rw [h s c]
    rfl
  have hprop : ∀ (s : Turn) (c : Call), (cb s c).prop = Call.given c := fun s c => by rw [h s c]
  unfold Turn.notify Node.notifyPropertyRequest
  dsimp only
  simp only [hstep, herr, hprop, Call.given]
  rw [show s.regs.objListener = env.objListener by rw [hr]; rfl, show s.regs.reqHandler = env.reqHandler by rw [hr]; rfl]
  cases env.objListener r <;> cases env.reqHandler r <;> simp [Node.joinErr]

theorem alone_all {cb : Callbacks} {env : Env} (h : LeaveAlone cb env) (db : StdDB) (r : ObjRef) (esv : ESV)
    (is : List Nat) : ∀ (s : Turn) (e : Option Err), s.regs = Env.regs env →
    Turn.notifyAll cb db r esv is s e =
      (let x := Node.notifyAll env db r esv
        (is.filterMap (fun (i : Nat) => match s.msg.property i with | .ok p => p | _ => none))
        ⟨s.node, s.calls, s.sent⟩ e
       (⟨x.1.node, x.1.calls, x.1.sent, s.msg, s.regs⟩, x.2)) := by
  induction is with
  | nil => intro s e _; rfl
  | cons i is ih =>
    intro s e hr
    unfold Turn.notifyAll
    cases hp : s.msg.property i with
    | err x =>
      have hf : (i :: is).filterMap (fun (i : Nat) => match s.msg.property i with | .ok p => p | _ => none)
          = is.filterMap (fun (i : Nat) => match s.msg.property i with | .ok p => p | _ => none) := by
        simp [hp]
      dsimp only
      rw [hf]
      exact ih s e hr
    | panic =>
      have hf : (i :: is).filterMap (fun (i : Nat) => match s.msg.property i with | .ok p => p | _ => none)
          = is.filterMap (fun (i : Nat) => match s.msg.property i with | .ok p => p | _ => none) := by
        simp [hp]
      dsimp only
      rw [hf]
      exact ih s e hr
    | ok v =>
      cases v with
      | none =>
        have hf : (i :: is).filterMap (fun (i : Nat) => match s.msg.property i with | .ok p => p | _ => none)
            = is.filterMap (fun (i : Nat) => match s.msg.property i with | .ok p => p | _ => none) := by
          simp [hp]
        dsimp only
        rw [hf]
        exact ih s e hr
      | some p =>
        have hf : (i :: is).filterMap (fun (i : Nat) => match s.msg.property i with | .ok p => p | _ => none)
            = p :: is.filterMap (fun (i : Nat) => match s.msg.property i with | .ok p => p | _ => none) := by
          simp [hp]
        dsimp only
        rw [hf, alone_notify h db r esv p s hr]
        dsimp only
        rw [ih _ _ (by exact hr)]
        rfl

/-- C151. Callbacks that leave the message and the callbacks alone are handled as in the model of the other
properties, and the message is afterwards as it was received. -/
theorem C151_alone_partial (cb : Callbacks) (env : Env) (h : LeaveAlone cb env) (db : StdDB) (n : Node) (m : Message) :
    n.receivedLive cb db (Env.regs env) m = (n.received env db m).bind (fun out =>
      .ok ⟨⟨out.node, out.calls, out.sent, m, Env.regs env⟩, out.delivered, out.reply, out.error⟩) := by
  unfold Node.receivedLive Node.received
  dsimp only
  by_cases h1 : (!n.selfMsg && n.isSelfMessage m) = true
  · rw [if_pos h1, if_pos h1]; rfl
  · rw [if_neg h1, if_neg h1]
    by_cases h2 : (!n.validateReceivedMessage m) = true
    · rw [if_pos h2, if_pos h2, newImpossible_eq]; rfl
    · rw [if_neg h2, if_neg h2]
      have key : Turn.execute cb db ⟨n, [], [], m, Env.regs env⟩ =
          (let x := Node.executeMessageListeners env db m ⟨n, [], []⟩
           (⟨x.1.node, x.1.calls, x.1.sent, m, Env.regs env⟩, x.2)) := by
        unfold Turn.execute Node.executeMessageListeners
        dsimp only
        cases n.lookupObject m.getDEOJ with
        | none => rfl
        | some r =>
          dsimp only
          have hl : (Env.regs env).listener = env.listener := rfl
          rw [hl]
          cases env.listener with
          | false => exact alone_all h db r m.esv _ _ _ rfl
          | true =>
            rw [if_pos rfl, if_pos rfl]
            rw [alone_all h db r m.esv _ _ _ (by unfold Turn.step; rw [h]), h]
            unfold Turn.step
            rw [h]
            rfl
      rw [key]
      dsimp only
      generalize Node.executeMessageListeners env db m ⟨n, [], []⟩ = x
      obtain ⟨s, e⟩ := x
      cases e with
      | some e => rfl
      | none =>
        dsimp only
        by_cases h3 : (!m.esv.isResponseRequired) = true
        · rw [if_pos h3, if_pos h3]; rfl
        · rw [if_neg h3, if_neg h3]; rfl

/-! ## Which callbacks are called -/

theorem Turns.refl (cb : Callbacks) (db : StdDB) (s : Turn) : Turns cb db s s [] :=
  ⟨rfl, fun pre c post h => by cases pre <;> cases h⟩

theorem Turns.one {cb : Callbacks} {db : StdDB} {s : Turn} {c : Call} (h : IsSet s.regs c) :
    Turns cb db s (s.step cb db c) [c] := by
  refine ⟨rfl, fun pre x post e => ?_⟩
  cases pre with
  | nil => cases e; exact h
  | cons y pre => cases pre <;> cases e

theorem Turns.trans {cb : Callbacks} {db : StdDB} {s s' s'' : Turn} {cs cs' : List Call} (h : Turns cb db s s' cs)
    (h' : Turns cb db s' s'' cs') : Turns cb db s s'' (cs ++ cs') := by
  obtain ⟨rfl, h⟩ := h
  obtain ⟨rfl, h'⟩ := h'
  refine ⟨by unfold afterCalls; rw [List.foldl_append], fun pre c post e => ?_⟩
  rcases List.append_eq_append_iff.mp e with ⟨a, rfl, e2⟩ | ⟨a, e1, e2⟩
  · rw [show afterCalls cb db s (cs ++ a) = afterCalls cb db (afterCalls cb db s cs) a by
      unfold afterCalls; rw [List.foldl_append]]
    exact h' a c post e2
  · cases a with
    | nil =>
      have e1 : cs = pre := by simpa using e1
      have e2 : cs' = c :: post := by simpa using e2.symm
      subst e1
      exact h' [] c post (by simpa using e2)
    | cons x a =>
      obtain ⟨rfl, e2⟩ := List.cons.inj e2
      exact h pre c a e1

/-- The callbacks of one object for one service. -/
def ForObject (r : ObjRef) (esv : ESV) (c : Call) : Prop := ∃ p, c = .request r esv p ∨ c = .handler r esv p

theorem notify_turns (cb : Callbacks) (db : StdDB) (r : ObjRef) (esv : ESV) (p : PProp) (s : Turn) :
    ∃ cs, Turns cb db s (Turn.notify cb db r esv p s).1 cs ∧ cs.length ≤ 2 ∧ ∀ c ∈ cs, ForObject r esv c := by
  unfold Turn.notify
  dsimp only
  split
  · next h1 =>
    split
    · next h2 =>
      refine ⟨[.request r esv p] ++ [.handler r esv (cb s (.request r esv p)).prop],
        (Turns.one (cb := cb) (db := db) (c := .request r esv p) h1).trans
          (Turns.one (c := .handler r esv (cb s (.request r esv p)).prop) h2), by simp, ?_⟩
      intro c hc
      simp only [List.cons_append, List.nil_append, List.mem_cons, List.not_mem_nil, or_false] at hc
      rcases hc with rfl | rfl
      · exact ⟨_, Or.inl rfl⟩
      · exact ⟨_, Or.inr rfl⟩
    · refine ⟨[.request r esv p], Turns.one (c := .request r esv p) h1, by simp, ?_⟩
      intro c hc
      exact ⟨p, Or.inl (by simpa using hc)⟩
  · split
    · next h2 =>
      refine ⟨[.handler r esv p], Turns.one (c := .handler r esv p) h2, by simp, ?_⟩
      intro c hc
      exact ⟨p, Or.inr (by simpa using hc)⟩
    · exact ⟨[], Turns.refl cb db s, by simp, by simp⟩

theorem notifyAll_turns (cb : Callbacks) (db : StdDB) (r : ObjRef) (esv : ESV) (is : List Nat) :
    ∀ (s : Turn) (e : Option Err), ∃ cs, Turns cb db s (Turn.notifyAll cb db r esv is s e).1 cs ∧
      cs.length ≤ 2 * is.length ∧ ∀ c ∈ cs, ForObject r esv c := by
  induction is with
  | nil => exact fun s e => ⟨[], Turns.refl cb db s, by simp, by simp⟩
  | cons i is ih =>
    intro s e
    unfold Turn.notifyAll
    split
    · next p _ =>
      obtain ⟨cs, h1, h2, h3⟩ := notify_turns cb db r esv p s
      generalize Turn.notify cb db r esv p s = x at h1
      obtain ⟨s', e'⟩ := x
      dsimp only
      obtain ⟨cs', k1, k2, k3⟩ := ih s' (match (generalizing := false) e' with | some e => some e | none => e)
      refine ⟨cs ++ cs', h1.trans k1, by simp; omega, fun c hc => ?_⟩
      rcases List.mem_append.mp hc with hc | hc
      · exact h3 c hc
      · exact k3 c hc
    · obtain ⟨cs', k1, k2, k3⟩ := ih s e
      exact ⟨cs', k1, by simp; omega, k3⟩

/-- The calls made so far are recorded. -/
theorem afterCalls_calls (cb : Callbacks) (db : StdDB) (cs : List Call) :
    ∀ s, (afterCalls cb db s cs).calls = s.calls ++ cs := by
  induction cs with
  | nil => intro s; simp [afterCalls]
  | cons c cs ih =>
    intro s
    show (afterCalls cb db (s.step cb db c) cs).calls = _
    rw [ih]
    unfold Turn.step
    simp

theorem execute_turns (cb : Callbacks) (db : StdDB) (s : Turn) (r : ObjRef)
    (hr : s.node.lookupObject s.msg.getDEOJ = some r) :
    ∃ cs, Turns cb db s (Turn.execute cb db s).1 ((if s.regs.listener then [.message s.msg] else []) ++ cs) ∧
      cs.length ≤ 2 * s.msg.getOPC ∧ ∀ c ∈ cs, ForObject r s.msg.esv c := by
  unfold Turn.execute
  rw [hr]
  dsimp only
  split
  · next hl =>
    obtain ⟨cs, h1, h2, h3⟩ := notifyAll_turns cb db r s.msg.esv (List.range s.msg.getOPC)
      (s.step cb db (.message s.msg)) (cb s (.message s.msg)).err
    exact ⟨cs, (Turns.one (c := .message s.msg) hl).trans h1, by simpa using h2, h3⟩
  · obtain ⟨cs, h1, h2, h3⟩ := notifyAll_turns cb db r s.msg.esv (List.range s.msg.getOPC) s none
    exact ⟨cs, h1, by simpa using h2, h3⟩

/-- Turn an accepted message. -/
theorem receivedLive_accepted (cb : Callbacks) (db : StdDB) (regs : Regs) (n : Node) (m : Message)
    (hi : ¬ Ignored n m) (ha : Accepts n m) :
    n.receivedLive cb db regs m =
      match Turn.execute cb db ⟨n, [], [], m, regs⟩ with
      | (s, some e) => .ok ⟨s, n.isResponseMessage m, none, some e⟩
      | (s, none) =>
        if !s.msg.esv.isResponseRequired then .ok ⟨s, n.isResponseMessage m, none, none⟩
        else .ok ⟨s, n.isResponseMessage m, (s.node.createResponse s.msg).1, (s.node.createResponse s.msg).2⟩ := by
  unfold Node.receivedLive
  dsimp only
  rw [if_neg (fun h => hi ((ignored_iff n m).mp h)), if_neg (by simp [(validate_iff n m).mpr ha])]
  rfl

theorem receivedLive_state (cb : Callbacks) (db : StdDB) (regs : Regs) (n : Node) (m : Message)
    (hi : ¬ Ignored n m) (ha : Accepts n m) :
    ∃ out, n.receivedLive cb db regs m = .ok out ∧ out.live = (Turn.execute cb db ⟨n, [], [], m, regs⟩).1 := by
  rw [receivedLive_accepted cb db regs n m hi ha]
  generalize Turn.execute cb db ⟨n, [], [], m, regs⟩ = x
  obtain ⟨s, e⟩ := x
  cases e with
  | some e => exact ⟨_, rfl, rfl⟩
  | none =>
    dsimp only
    split
    · exact ⟨_, rfl, rfl⟩
    · exact ⟨_, rfl, rfl⟩

/-- C151. Whatever callbacks do to the message: the node listener is called first, with the message as received, if
it is set; all other calls are for the object that the message as received addresses, with the service received, and
there are at most two for each property the message said it had. -/
theorem C151_calls_partial (cb : Callbacks) (db : StdDB) (regs : Regs) (n : Node) (m : Message) (hi : ¬ Ignored n m)
    (ha : Accepts n m) (r : ObjRef) (o : Obj) (ho : Addressed n m.getDEOJ r o) :
    ∃ out cs, n.receivedLive cb db regs m = .ok out ∧
      out.live.calls = (if regs.listener then [.message m] else []) ++ cs ∧
      cs.length ≤ 2 * m.getOPC ∧
      ∀ c ∈ cs, ∃ p, c = .request r m.esv p ∨ c = .handler r m.esv p := by
  obtain ⟨out, h1, h2⟩ := receivedLive_state cb db regs n m hi ha
  obtain ⟨cs, ⟨k1, -⟩, k2, k3⟩ := execute_turns cb db ⟨n, [], [], m, regs⟩ r (addressed_lookup ho).1
  refine ⟨out, cs, h1, ?_, k2, k3⟩
  rw [h2, k1, afterCalls_calls]
  rfl

/-- C152. A callback is called only if it is set when its turn comes, by the callbacks called before it or from the
beginning. -/
theorem C152_set (cb : Callbacks) (db : StdDB) (regs : Regs) (n : Node) (m : Message) (hi : ¬ Ignored n m)
    (ha : Accepts n m) :
    ∃ out, n.receivedLive cb db regs m = .ok out ∧
      out.live = afterCalls cb db ⟨n, [], [], m, regs⟩ out.live.calls ∧
      ∀ before c later, out.live.calls = before ++ c :: later →
        IsSet (afterCalls cb db ⟨n, [], [], m, regs⟩ before).regs c := by
  obtain ⟨out, h1, h2⟩ := receivedLive_state cb db regs n m hi ha
  obtain ⟨r, o, ho, -⟩ := id ha
  obtain ⟨cs, ⟨k1, k2⟩, -⟩ := execute_turns cb db ⟨n, [], [], m, regs⟩ r (addressed_lookup ho).1
  have hc : out.live.calls = (if regs.listener then [.message m] else []) ++ cs := by
    rw [h2, k1, afterCalls_calls]
    rfl
  refine ⟨out, h1, ?_, fun pre c post e => k2 pre c post (by rw [← e, hc])⟩
  rw [hc, h2, k1]

/-! ## Handlers that are set and removed while a message is handled -/

/-- The properties a message has at some places. -/
def placed (m : Message) (is : List Nat) : List PProp :=
  is.filterMap (fun (i : Nat) => match m.property i with | .ok p => p | _ => none)

theorem placed_cons (m : Message) (i : Nat) (is : List Nat) :
    (∃ p, m.property i = .ok (some p) ∧ placed m (i :: is) = p :: placed m is) ∨
    ((∀ p, m.property i ≠ .ok (some p)) ∧ placed m (i :: is) = placed m is) := by
  unfold placed
  cases hp : m.property i with
  | err x => exact Or.inr ⟨fun p h => (by cases h), by simp [hp]⟩
  | panic => exact Or.inr ⟨fun p h => (by cases h), by simp [hp]⟩
  | ok v =>
    cases v with
    | none => exact Or.inr ⟨fun p h => (by cases h), by simp [hp]⟩
    | some p => exact Or.inl ⟨p, rfl, by simp [hp]⟩

theorem placed_all (m : Message) : placed m (List.range m.getOPC) = properties m := requested_eq m

theorem notifyAll_some (cb : Callbacks) (db : StdDB) (r : ObjRef) (esv : ESV) (i : Nat) (is : List Nat) (s : Turn)
    (e : Option Err) (p : PProp) (h : s.msg.property i = .ok (some p)) : ∃ e',
    Turn.notifyAll cb db r esv (i :: is) s e = Turn.notifyAll cb db r esv is (Turn.notify cb db r esv p s).1 e' := by
  rw [Turn.notifyAll, h]
  exact ⟨_, rfl⟩

theorem notifyAll_skip (cb : Callbacks) (db : StdDB) (r : ObjRef) (esv : ESV) (i : Nat) (is : List Nat) (s : Turn)
    (e : Option Err) (h : ∀ p, s.msg.property i ≠ .ok (some p)) :
    Turn.notifyAll cb db r esv (i :: is) s e = Turn.notifyAll cb db r esv is s e := by
  rw [Turn.notifyAll]
  split
  · next p hp => exact absurd hp (h p)
  · rfl

theorem notifyAll_unset (cb : Callbacks) (db : StdDB) (r : ObjRef) (esv : ESV) (is : List Nat) (s : Turn)
    (h1 : s.regs.objListener r = false) (h2 : s.regs.reqHandler r = false) :
    ∀ e, (Turn.notifyAll cb db r esv is s e).1 = s := by
  induction is with
  | nil => intro e; rfl
  | cons i is ih =>
    intro e
    rcases placed_cons s.msg i is with ⟨p, hp, -⟩ | ⟨hp, -⟩
    · obtain ⟨e', he⟩ := notifyAll_some cb db r esv i is s e p hp
      have hn : (Turn.notify cb db r esv p s).1 = s := by
        unfold Turn.notify
        simp [h1, h2]
      rw [he, hn]
      exact ih e'
    · rw [notifyAll_skip cb db r esv i is s e hp]
      exact ih e

theorem notify_handler (cb : Callbacks) (db : StdDB) (r : ObjRef) (esv : ESV) (p : PProp) (s : Turn)
    (h1 : s.regs.objListener r = false) (h2 : s.regs.reqHandler r = true) :
    (Turn.notify cb db r esv p s).1 = s.step cb db (.handler r esv p) := by
  unfold Turn.notify
  simp [h1, h2]

/-- C152. A request handler that removes itself is called once, for the first property, however many properties the
request has. -/
theorem C152_once (cb : Callbacks) (db : StdDB) (regs : Regs) (n : Node) (m : Message) (hi : ¬ Ignored n m)
    (ha : Accepts n m) (r : ObjRef) (o : Obj) (ho : Addressed n m.getDEOJ r o) (h1 : regs.listener = false)
    (h2 : regs.objListener r = false) (h3 : regs.reqHandler r = true)
    (hcb : ∀ s p, (cb s (.handler r m.esv p)).regs.objListener r = false ∧
      (cb s (.handler r m.esv p)).regs.reqHandler r = false)
    (p : PProp) (ps : List PProp) (hp : properties m = p :: ps) :
    ∃ out, n.receivedLive cb db regs m = .ok out ∧ out.live.calls = [.handler r m.esv p] := by
  obtain ⟨out, k1, k2⟩ := receivedLive_state cb db regs n m hi ha
  refine ⟨out, k1, ?_⟩
  have key : ∀ (is : List Nat) (e : Option Err), placed m is = p :: ps →
      (Turn.notifyAll cb db r m.esv is ⟨n, [], [], m, regs⟩ e).1
        = Turn.step cb db ⟨n, [], [], m, regs⟩ (.handler r m.esv p) := by
    intro is
    induction is with
    | nil => intro e h; cases h
    | cons i is ih =>
      intro e h
      rcases placed_cons m i is with ⟨q, hq, e2⟩ | ⟨hq, e2⟩
      · rw [e2] at h
        obtain ⟨rfl, -⟩ := List.cons.inj h
        obtain ⟨e', he⟩ := notifyAll_some cb db r m.esv i is ⟨n, [], [], m, regs⟩ e q hq
        rw [he, notify_handler cb db r m.esv q _ h2 h3]
        exact notifyAll_unset cb db r m.esv is _ (hcb _ q).1 (hcb _ q).2 e'
      · rw [notifyAll_skip cb db r m.esv i is ⟨n, [], [], m, regs⟩ e hq]
        exact ih e (by rw [← e2]; exact h)
  rw [k2]
  unfold Turn.execute
  dsimp only
  rw [(addressed_lookup ho).1]
  dsimp only
  rw [h1, if_neg (by simp), key _ _ (by rw [placed_all, hp])]
  rfl

/-- C152. A request handler that the node listener sets when the message arrives is called for every property of this
message. -/
theorem C152_set_on_arrival (cb : Callbacks) (db : StdDB) (regs : Regs) (n : Node) (m : Message) (hi : ¬ Ignored n m)
    (ha : Accepts n m) (r : ObjRef) (o : Obj) (ho : Addressed n m.getDEOJ r o) (h1 : regs.listener = true)
    (hmsg : ∀ s, s.msg = m → (cb s (.message m)).msg = m ∧ (cb s (.message m)).regs.objListener r = false ∧
      (cb s (.message m)).regs.reqHandler r = true)
    (hcb : ∀ s p, (cb s (.handler r m.esv p)).msg = s.msg ∧ (cb s (.handler r m.esv p)).regs = s.regs) :
    ∃ out, n.receivedLive cb db regs m = .ok out ∧
      out.live.calls = .message m :: (properties m).map (fun p => .handler r m.esv p) := by
  obtain ⟨out, k1, k2⟩ := receivedLive_state cb db regs n m hi ha
  refine ⟨out, k1, ?_⟩
  have key : ∀ (is : List Nat) (s : Turn) (e : Option Err), s.regs.objListener r = false →
      s.regs.reqHandler r = true →
      (Turn.notifyAll cb db r m.esv is s e).1.calls
        = s.calls ++ (placed s.msg is).map (fun p => .handler r m.esv p) := by
    intro is
    induction is with
    | nil => intro s e _ _; simp [Turn.notifyAll, placed]
    | cons i is ih =>
      intro s e a1 a2
      rcases placed_cons s.msg i is with ⟨q, hq, e2⟩ | ⟨hq, e2⟩
      · obtain ⟨e', he⟩ := notifyAll_some cb db r m.esv i is s e q hq
        rw [he, notify_handler cb db r m.esv q s a1 a2, ih]
        · have hm : (s.step cb db (.handler r m.esv q)).msg = s.msg := (hcb s q).1
          rw [hm, e2]
          unfold Turn.step
          simp
        · show (cb s (.handler r m.esv q)).regs.objListener r = false
          rw [(hcb s q).2]; exact a1
        · show (cb s (.handler r m.esv q)).regs.reqHandler r = true
          rw [(hcb s q).2]; exact a2
      · rw [notifyAll_skip cb db r m.esv i is s e hq, e2]
        exact ih s e a1 a2
  rw [k2]
  unfold Turn.execute
  dsimp only
  rw [(addressed_lookup ho).1]
  dsimp only
  rw [h1, if_pos rfl, key _ _ _ (hmsg _ rfl).2.1 (hmsg _ rfl).2.2]
  have hm : (Turn.step cb db ⟨n, [], [], m, regs⟩ (.message m)).msg = m := (hmsg _ rfl).1
  rw [hm, placed_all]
  rfl

/-! ## C151, refuted -/

/-- The node listener sets the service of the message and does nothing else; the other callbacks do nothing. -/
def settingService (e : ESV) : Callbacks := fun s c =>
  ⟨[], none, match c with | .message _ => s.msg.setESV e | _ => s.msg, Call.given c, s.regs⟩

/-- The request handlers set the code of the property they get, which is the only one of the message, and do nothing
else; the other callbacks do nothing. -/
def settingCode (x : Byte) : Callbacks := fun s c =>
  match c with
  | .handler _ _ p => ⟨[], none, { s.msg with ep := [some (p.setCode x)] }, p.setCode x, s.regs⟩
  | c => ⟨[], none, s.msg, Call.given c, s.regs⟩

theorem idle_notify (cb : Callbacks) (db : StdDB) (r : ObjRef) (esv : ESV) (p : PProp) (s : Turn)
    (h : ∀ s c, (cb s c).ops = [] ∧ (cb s c).err = none) :
    (Turn.notify cb db r esv p s).1.node = s.node ∧ (Turn.notify cb db r esv p s).1.sent = s.sent ∧
    (Turn.notify cb db r esv p s).2 = none := by
  have hs : ∀ s c, (Turn.step cb db s c).node = s.node ∧ (Turn.step cb db s c).sent = s.sent := by
    intro s c
    unfold Turn.step
    dsimp only
    rw [(h s c).1]
    exact ⟨rfl, List.append_nil _⟩
  unfold Turn.notify
  dsimp only
  simp only [(h _ _).2]
  split
  · split
    · exact ⟨by rw [(hs _ _).1, (hs _ _).1], by rw [(hs _ _).2, (hs _ _).2], rfl⟩
    · exact ⟨(hs _ _).1, (hs _ _).2, rfl⟩
  · split
    · exact ⟨(hs _ _).1, (hs _ _).2, rfl⟩
    · exact ⟨rfl, rfl, rfl⟩

theorem idle_all (cb : Callbacks) (db : StdDB) (r : ObjRef) (esv : ESV)
    (h : ∀ s c, (cb s c).ops = [] ∧ (cb s c).err = none) (e0 : ESV)
    (hk : ∀ s c, ForObject r esv c → s.msg.esv = e0 → (cb s c).msg.esv = e0) (is : List Nat) :
    ∀ s : Turn, s.msg.esv = e0 →
    (Turn.notifyAll cb db r esv is s none).1.node = s.node ∧ (Turn.notifyAll cb db r esv is s none).1.sent = s.sent ∧
    (Turn.notifyAll cb db r esv is s none).2 = none ∧ (Turn.notifyAll cb db r esv is s none).1.msg.esv = e0 := by
  induction is with
  | nil => intro s he; exact ⟨rfl, rfl, rfl, he⟩
  | cons i is ih =>
    intro s he
    rcases placed_cons s.msg i is with ⟨p, hp, -⟩ | ⟨hp, -⟩
    · have hn := idle_notify cb db r esv p s h
      have hm : (Turn.notify cb db r esv p s).1.msg.esv = e0 := by
        unfold Turn.notify
        dsimp only
        split
        · have h1 : (Turn.step cb db s (.request r esv p)).msg.esv = e0 := hk _ _ ⟨p, Or.inl rfl⟩ he
          split
          · exact hk _ _ ⟨_, Or.inr rfl⟩ h1
          · exact h1
        · split
          · exact hk _ _ ⟨_, Or.inr rfl⟩ he
          · exact he
      have hstep : Turn.notifyAll cb db r esv (i :: is) s none
          = Turn.notifyAll cb db r esv is (Turn.notify cb db r esv p s).1 none := by
        rw [Turn.notifyAll, hp]
        dsimp only
        rw [hn.2.2]
      rw [hstep]
      obtain ⟨a, b, c, d⟩ := ih _ hm
      exact ⟨a.trans hn.1, b.trans hn.2.1, c, d⟩
    · rw [notifyAll_skip cb db r esv i is s none hp]
      exact ih s he

/-- C151, refuted: a node listener that only sets the service of the message it was given keeps the node from
answering, whatever the request. -/
theorem C151_refuted_service (db : StdDB) (regs : Regs) (n : Node) (m : Message) (hi : ¬ Ignored n m)
    (ha : Accepts n m) (hl : regs.listener = true) :
    ∃ out, n.receivedLive (settingService 0x60) db regs m = .ok out ∧ out.live.node = n ∧ out.live.sent = [] ∧
      out.reply = none ∧ out.error = none := by
  obtain ⟨r, o, ho, -⟩ := id ha
  rw [receivedLive_accepted _ db regs n m hi ha]
  have hx : Turn.execute (settingService 0x60) db ⟨n, [], [], m, regs⟩
      = Turn.notifyAll (settingService 0x60) db r m.esv (List.range m.getOPC)
          (Turn.step (settingService 0x60) db ⟨n, [], [], m, regs⟩ (.message m)) none := by
    unfold Turn.execute
    dsimp only
    rw [(addressed_lookup ho).1]
    dsimp only
    rw [hl, if_pos rfl]
    rfl
  obtain ⟨a, b, c, d⟩ := idle_all (settingService 0x60) db r m.esv (fun _ _ => ⟨rfl, rfl⟩) 0x60
    (fun s c hc he => by obtain ⟨p, rfl | rfl⟩ := hc <;> exact he) (List.range m.getOPC)
    (Turn.step (settingService 0x60) db ⟨n, [], [], m, regs⟩ (.message m)) rfl
  rw [← hx] at a b c d
  generalize Turn.execute (settingService 0x60) db ⟨n, [], [], m, regs⟩ = x at a b c d
  obtain ⟨s, e⟩ := x
  dsimp only at a b c d
  subst c
  dsimp only
  rw [d, if_pos (by decide)]
  exact ⟨_, rfl, a, b, rfl, rfl⟩

/-- C151, refuted: a request handler that only sets the code of the property it was given makes the node answer with
another property of the object, whatever the attributes of that property. -/
theorem C151_refuted_code (db : StdDB) (regs : Regs) (n : Node) (m : Message) (hi : ¬ Ignored n m)
    (ha : Accepts n m) (hn : m.esv.isResponseRequired = true) (r : ObjRef) (o : Obj)
    (ho : Addressed n m.getDEOJ r o) (h1 : regs.listener = false) (h2 : regs.objListener r = false)
    (h3 : regs.reqHandler r = true) (p : PProp) (hopc : m.opc = 1) (hep : m.ep = [some p]) (x : Byte) (q : EProp)
    (hq : o.props.lookup x = some q) :
    ∃ out res, n.receivedLive (settingCode x) db regs m = .ok out ∧ out.live.node = n ∧ out.error = none ∧
      out.reply = some res ∧ res.ep = [some q.toProtocol] := by
  rw [receivedLive_accepted _ db regs n m hi ha]
  have hx : Turn.execute (settingCode x) db ⟨n, [], [], m, regs⟩
      = (⟨n, [.handler r m.esv p], [], { m with ep := [some (p.setCode x)] }, regs⟩, none) := by
    unfold Turn.execute
    dsimp only
    rw [(addressed_lookup ho).1]
    dsimp only
    rw [h1, if_neg (by simp)]
    have hr : List.range m.getOPC = [0] := by
      unfold Message.getOPC
      rw [hopc]
      rfl
    have hp : m.property 0 = .ok (some p) := by
      unfold Message.property
      rw [hep]
      rfl
    rw [hr, Turn.notifyAll]
    dsimp only
    rw [show m.property ((0 : Nat) : Int) = .ok (some p) from hp]
    dsimp only
    unfold Turn.notify
    dsimp only
    rw [h2, if_neg (by simp), h3, if_pos rfl]
    rfl
  rw [hx]
  dsimp only
  rw [if_neg (by simp [hn])]
  have hd : ({ m with ep := [some (p.setCode x)] } : Message).getDEOJ = m.getDEOJ := rfl
  have hreq : ({ m with ep := [some (p.setCode x)] } : Message).requested = [p.setCode x] := by
    rw [requested_eq]
    unfold properties
    dsimp only
    rw [hopc]
    rfl
  have hcr : n.createResponse { m with ep := [some (p.setCode x)] }
      = (some (({ m with ep := [some (p.setCode x)] } : Message).newResponse.addProperty (some q.toProtocol)), none) := by
    unfold Node.createResponse
    rw [hd, (addressed_lookup ho).1]
    dsimp only
    rw [(addressed_lookup ho).2, hreq]
    dsimp only
    rw [List.foldl_cons, List.foldl_nil]
    have : (p.setCode x).code = x := rfl
    rw [this, hq]
  rw [hcr]
  refine ⟨_, _, rfl, rfl, rfl, rfl, ?_⟩
  have hnil : ({ m with ep := [some (p.setCode x)] } : Message).newResponse.ep = [] := by
    unfold Message.newResponse
    dsimp only
    repeat' split
    all_goals rfl
  unfold Message.addProperty
  rw [hnil]
  rfl

/-! ## The hypotheses are met -/

/-- All callbacks are set. -/
def allSet : Regs := ⟨true, fun _ => true, fun _ => true⟩

/-- Only a request handler is set. -/
def handlerSet : Regs := ⟨false, fun _ => false, fun _ => true⟩

/-- A request for the values of two properties. -/
def readTwo : Message := request 0x62 [⟨0x80, []⟩, ⟨0xB0, []⟩]

theorem readTwo_accepted : ¬ Ignored smallNode readTwo ∧ Accepts smallNode readTwo ∧
    Accepts smallNode (request 0x62 [⟨0x80, []⟩]) ∧ ¬ Ignored smallNode (request 0x62 [⟨0x80, []⟩]) := by
  simp only [← validate_iff, ← ignored_iff]
  decide +kernel

theorem readTwo_addressed : Addressed smallNode readTwo.getDEOJ (.device 0)
    ⟨"", "", [0x01, 0x30, 0x01], [⟨"", 0x80, [0x30], 1, 1, 0⟩, ⟨"", 0xB0, [0x41], 1, 0, 0⟩]⟩ :=
  ⟨rfl, by decide +kernel, fun j hj => absurd hj (Nat.not_lt_zero j)⟩

/-- The callbacks of `storingEnv`, as callbacks that could change the message. -/
def storing : Callbacks := fun s c =>
  ⟨(storingEnv.behave s.node s.calls c).1, (storingEnv.behave s.node s.calls c).2, s.msg, Call.given c, s.regs⟩

example : LeaveAlone storing storingEnv := fun _ _ => rfl

/-- A handler that removes itself. -/
def onceOnly : Callbacks := fun s c => ⟨[], none, s.msg, Call.given c, ⟨false, fun _ => false, fun _ => false⟩⟩

example : ∃ out, smallNode.receivedLive onceOnly ⟨[]⟩ handlerSet readTwo = .ok out ∧
    out.live.calls = [.handler (.device 0) 0x62 ⟨0x80, []⟩] :=
  C152_once onceOnly ⟨[]⟩ handlerSet smallNode readTwo readTwo_accepted.1 readTwo_accepted.2.1 (.device 0) _
    readTwo_addressed rfl rfl rfl (fun _ _ => ⟨rfl, rfl⟩) ⟨0x80, []⟩ [⟨0xB0, []⟩] (by decide +kernel)

/-- A node listener that sets a request handler. -/
def settingHandler : Callbacks := fun s c =>
  ⟨[], none, s.msg, Call.given c, match c with | .message _ => ⟨true, fun _ => false, fun _ => true⟩ | _ => s.regs⟩

/-- The node listener alone is set, then the handler. -/
example : ∃ out, smallNode.receivedLive settingHandler ⟨[]⟩ ⟨true, fun _ => false, fun _ => false⟩ readTwo = .ok out ∧
    out.live.calls = .message readTwo :: (properties readTwo).map (fun p => .handler (.device 0) 0x62 p) :=
  C152_set_on_arrival settingHandler ⟨[]⟩ ⟨true, fun _ => false, fun _ => false⟩ smallNode readTwo readTwo_accepted.1
    readTwo_accepted.2.1 (.device 0) _ readTwo_addressed rfl (fun _ h => ⟨h, rfl, rfl⟩) (fun _ _ => ⟨rfl, rfl⟩)

example : ∃ out, smallNode.receivedLive (settingService 0x60) ⟨[]⟩ allSet readTwo = .ok out ∧
    out.live.node = smallNode ∧ out.live.sent = [] ∧ out.reply = none ∧ out.error = none :=
  C151_refuted_service ⟨[]⟩ allSet smallNode readTwo readTwo_accepted.1 readTwo_accepted.2.1 rfl

example : ∃ out res, smallNode.receivedLive (settingCode 0xB0) ⟨[]⟩ handlerSet (request 0x62 [⟨0x80, []⟩]) = .ok out ∧
    out.live.node = smallNode ∧ out.error = none ∧ out.reply = some res ∧ res.ep = [some ⟨0xB0, [0x41]⟩] :=
  C151_refuted_code ⟨[]⟩ handlerSet smallNode (request 0x62 [⟨0x80, []⟩]) readTwo_accepted.2.2.2
    readTwo_accepted.2.2.1 (by decide +kernel) (.device 0) _ readTwo_addressed rfl rfl rfl ⟨0x80, []⟩
    (by decide +kernel) (by decide +kernel) 0xB0 ⟨"", 0xB0, [0x41], 1, 0, 0⟩ (by decide +kernel)

end Verif.Props
