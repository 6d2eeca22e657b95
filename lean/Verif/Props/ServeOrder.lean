import Verif.Props.Serve

/-!
# C101, C102: messages handled at the same time

Every message a node receives is handled in a goroutine of its own, and nothing orders these goroutines. So
the last of two messages to arrive need not be the last to take effect (C101), and the requests of two
messages for the same object can be carried out in turn (C102). What does hold for every schedule: a message
that is handled before the next one arrives takes effect by itself, and a message is handled as if it were
alone as long as the others are for other objects or only read.
-/

namespace Verif.Props
open Verif Model Spec Lemmas

/-- The messages that arrive, in order. -/
def arrivals : List ServeAct → List Message
  | [] => []
  | .arrive m :: acts => m :: arrivals acts
  | _ :: acts => arrivals acts

theorem arrivals_append (a b : List ServeAct) : arrivals (a ++ b) = arrivals a ++ arrivals b := by
  induction a with
  | nil => rfl
  | cons x a ih => cases x <;> simp [arrivals, ih]

theorem arrivals_steps (i k : Nat) : arrivals (List.replicate k (.step i)) = [] := by
  induction k with
  | zero => rfl
  | succ k ih => exact ih

/-- `m` asks to write the properties `ps` of the object, and the node listens to it. -/
structure Write (n : Node) (code : ObjectCode) (ps : List PProp) (m : Message) : Prop where
  esv : m.esv = 0x61
  obj : m.getDEOJ = code
  props : properties m = ps
  seen : ¬ Ignored n m

/-- The object lets the properties be written, and their data have the right sizes. -/
def Fitting (o : Obj) (ps : List PProp) : Prop :=
  ∀ p ∈ ps, ∃ q, o.props.lookup p.code = some q ∧ q.setAttr ≠ 0 ∧ p.data.length = q.data.length

/-- The message was handled, without an error, and answered. -/
def WasAnswered (h : Serving) : Prop := ∃ reply, h.pc = .done (some reply) none

theorem fitting_writeAll {o : Obj} {ps qs : List PProp} (h1 : Fitting o ps) (h2 : Fitting o qs) :
    Fitting (writeAll o ps) qs := by
  intro p hp
  obtain ⟨q, a, b, c⟩ := h2 p hp
  have hw := writeAll_lookup ps o p.code
  rw [a, Option.map_some] at hw
  refine ⟨_, hw, b, ?_⟩
  show _ = ((((ps.filter (fun x => x.code = p.code)).getLast?).map (·.data)).getD q.data).length
  cases hx : (ps.filter (fun x => x.code = p.code)).getLast? with
  | none => exact c
  | some y =>
    obtain ⟨hy, hc⟩ := List.mem_filter.mp (List.mem_of_getLast? hx)
    obtain ⟨q', d, -, e⟩ := h1 y hy
    have hc : y.code = p.code := by simpa using hc
    rw [hc, a] at d
    cases d
    exact c.trans e.symm

theorem Write.accepted {n : Node} {code : ObjectCode} {ps : List PProp} {m : Message} {r : ObjRef} {o : Obj}
    (h : Write n code ps m) (ho : Addressed n code r o) (hf : Fitting o ps) : Accepts n m := by
  refine ⟨r, o, by rw [h.obj]; exact ho, ⟨⟨0x61, .request, true, false, some 0x71, some 0x51⟩, by decide, h.esv.symm⟩,
    fun _ p hp => ?_⟩
  rw [h.props] at hp
  obtain ⟨q, a, b, c⟩ := hf p hp
  refine ⟨q, a, fun _ => ⟨b, c⟩, fun hh => ?_⟩
  rw [h.esv] at hh
  simp at hh

theorem Write.frame {n n' : Node} {code : ObjectCode} {ps : List PProp} {m : Message} (h : Write n code ps m)
    (hf : SameFrame n n') : Write n' code ps m :=
  ⟨h.esv, h.obj, h.props, fun hi => h.seen ⟨by rw [← hf.selfMsg]; exact hi.1, by rw [← hf.addr]; exact hi.2⟩⟩

/-- A message that writes, handled alone. -/
theorem write_received {env : Env} (he : Keeping env) (db : StdDB) {n : Node} {code : ObjectCode} {r : ObjRef}
    {o : Obj} (ho : Addressed n code r o) {ps : List PProp} {m : Message} (hw : Write n code ps m)
    (hf : Fitting o ps) :
    ∃ out reply, n.received env db m = .ok out ∧ out.reply = some reply ∧ out.error = none ∧
      SameFrame n out.node ∧ Addressed out.node code r (writeAll o ps) ∧
      out.node.get r = some (writeAll o ps) := by
  have hmap : (ps.map (fun p => (⟨"", p.code, p.data, 0, 0, 0⟩ : EProp))).map (fun p => (⟨p.code, p.data⟩ : PProp))
      = ps := by
    rw [List.map_map]
    exact List.map_id _
  have ha := hw.accepted ho hf
  obtain ⟨out, rs, h1, ⟨h2, h3⟩, h4, h5⟩ := keeping_received n r o code ho env he db
    (ps.map (fun p => (⟨"", p.code, p.data, 0, 0, 0⟩ : EProp))) (writeAll o ps) (by rw [hmap]) m hw.esv
    (by rw [hmap]; exact hw.props) hw.obj hw.seen ha
  have ho' := addressed_written ho (writeAll_codes ps o) h3
  have hg : out.node.get r = some (writeAll o ps) := by rw [h3, if_pos rfl]
  obtain ⟨out', rs', k1, -, k3, -, -, -, k4⟩ := received_accepted env db n m hw.seen ha r o
    (by rw [hw.obj]; exact ho)
  rw [h1] at k1
  cases k1
  obtain ⟨-, -, rfl⟩ := effects_unique h4 k3
  obtain ⟨e1, e2⟩ := k4 h5 (by rw [hw.esv]; decide)
  unfold Node.createResponse at e1 e2
  have hl := (addressed_lookup ho').1
  rw [hw.obj, hl] at e1 e2
  simp only [hg] at e1 e2
  exact ⟨out, _, h1, e1, e2, h2, ho', hg⟩

/-- C101. The property fails: two messages write data to the same property of an object, one arriving after the
other; both are carried out and answered, and yet in the end the object holds the data of the one that
arrived first. This is so for every node, object and property and for all such messages, if the program
stores what is written. -/
theorem C101_refuted (env : Env) (he : Keeping env) (db : StdDB) (n : Node) (code : ObjectCode) (r : ObjRef)
    (o : Obj) (ho : Addressed n code r o) (c : Byte) (d1 d2 : Bytes) (m1 m2 : Message)
    (h1 : Write n code [⟨c, d1⟩] m1) (h2 : Write n code [⟨c, d2⟩] m2)
    (f1 : Fitting o [⟨c, d1⟩]) (f2 : Fitting o [⟨c, d2⟩]) :
    ∃ acts s, arrivals acts = [m1, m2] ∧ s = (ServeSt.init n).run env db acts ∧
      (∃ a b, s.serving = [a, b] ∧ WasAnswered a ∧ WasAnswered b) ∧
      (∃ o', s.node.get r = some o' ∧ stored o' c = d1) ∧
      (∃ out1 out2 o', n.received env db m1 = .ok out1 ∧ out1.node.received env db m2 = .ok out2 ∧
        out2.node.get r = some o' ∧ stored o' c = d2) := by
  have look : ∀ o' x, Fitting o' [⟨c, x⟩] → stored (writeAll o' [⟨c, x⟩]) c = x := by
    intro o' x hx
    obtain ⟨q, a, -⟩ := hx _ (List.mem_singleton.mpr rfl)
    unfold stored
    rw [writeAll_lookup, a]
    simp [EProp.setData]
  obtain ⟨outb, rb, b1, b2, b3, b4, b5, b6⟩ := write_received he db ho h2 f2
  obtain ⟨outa, ra, a1, a2, a3, a4, a5, a6⟩ := write_received he db b5 (h1.frame b4) (fitting_writeAll f2 f1)
  obtain ⟨out1, r1, x1, x2, x3, x4, x5, x6⟩ := write_received he db ho h1 f1
  obtain ⟨out2, r2, y1, y2, y3, y4, y5, y6⟩ := write_received he db x5 (h2.frame x4) (fitting_writeAll f1 f2)
  have g1 := goes_received n m2 outb b1
  have g2 := goes_received outb.node m1 outa a1
  obtain ⟨k1, e1⟩ := g1.run ⟨n, [⟨m1, [], .start⟩, ⟨m2, [], .start⟩], []⟩ 1 rfl rfl
  obtain ⟨k2, e2⟩ := g2.run ⟨outb.node, [⟨m1, [], .start⟩, ⟨m2, outb.calls, .done outb.reply outb.error⟩],
    [] ++ outb.sent⟩ 0 rfl rfl
  refine ⟨[.arrive m1, .arrive m2] ++ (List.replicate k1 (.step 1) ++ List.replicate k2 (.step 0)), _, ?_, rfl, ?_⟩
  · rw [arrivals_append, arrivals_append, arrivals_steps, arrivals_steps]
    rfl
  · have hrun : (ServeSt.init n).run env db
        ([.arrive m1, .arrive m2] ++ (List.replicate k1 (.step 1) ++ List.replicate k2 (.step 0)))
        = ⟨outa.node, [⟨m1, outa.calls, .done outa.reply outa.error⟩, ⟨m2, outb.calls, .done outb.reply outb.error⟩],
          [] ++ outb.sent ++ outa.sent⟩ := by
      unfold ServeSt.run at e1 e2 ⊢
      rw [List.foldl_append, List.foldl_append]
      refine (congrArg (fun s => List.foldl (ServeSt.step env db) s _) e1).trans ?_
      exact e2
    rw [hrun]
    refine ⟨⟨_, _, rfl, ⟨ra, ?_⟩, ⟨rb, ?_⟩⟩, ⟨_, a6, look _ _ (fitting_writeAll f2 f1)⟩,
      out1, out2, _, x1, y1, y6, look _ _ (fitting_writeAll f1 f2)⟩
    · show ServePc.done _ _ = _
      rw [a2, a3]
    · show ServePc.done _ _ = _
      rw [b2, b3]

/-- A program that stores what is written. -/
def keepingEnv : Env := ⟨true, fun _ => true, fun _ => false, fun _ _ c => match c with
  | .request r e p => if e = 0x61 then ([.obj r (.write p.code p.data)], none) else ([], none)
  | _ => ([], none)⟩

theorem keepingEnv_keeping : Keeping keepingEnv :=
  ⟨fun _ _ _ _ => rfl, fun _ => rfl, fun _ _ _ _ => rfl, fun _ _ _ _ => rfl, fun _ => rfl⟩

/-- A node with two devices, the first with two properties that can be written. -/
def pairNode : Node :=
  { Node.initial with devices := [⟨"", "", [0x01, 0x30, 0x01],
      [⟨"", 0x80, [0x30], 1, 1, 0⟩, ⟨"", 0xB0, [0x41], 1, 1, 0⟩]⟩,
      ⟨"", "", [0x01, 0x30, 0x02], [⟨"", 0x80, [0x30], 1, 1, 0⟩]⟩] }

theorem pairNode_addressed : Addressed pairNode 0x013001 (.device 0)
    ⟨"", "", [0x01, 0x30, 0x01], [⟨"", 0x80, [0x30], 1, 1, 0⟩, ⟨"", 0xB0, [0x41], 1, 1, 0⟩]⟩ :=
  ⟨rfl, by decide, fun j hj => absurd hj (by omega)⟩

theorem pairNode_write (ps : List PProp) (h : properties (request 0x61 ps) = ps)
    (he : (request 0x61 ps).esv = 0x61) (hd : (request 0x61 ps).getDEOJ = 0x013001) :
    Write pairNode 0x013001 ps (request 0x61 ps) :=
  ⟨he, hd, h, fun hi => absurd hi.1 (by decide)⟩

theorem pairNode_fitting (a b : Byte) :
    Fitting ⟨"", "", [0x01, 0x30, 0x01], [⟨"", 0x80, [0x30], 1, 1, 0⟩, ⟨"", 0xB0, [0x41], 1, 1, 0⟩]⟩
      [⟨0x80, [a]⟩, ⟨0xB0, [b]⟩] := by
  intro p hp
  rcases List.mem_cons.mp hp with rfl | hp
  · exact ⟨_, rfl, by decide, rfl⟩
  · rw [List.mem_singleton.mp hp]
    exact ⟨_, rfl, by decide, rfl⟩

/-- Two writes of the operation status: the first, "on", is in force at the end. -/
example : ∃ acts s, arrivals acts = [request 0x61 [⟨0x80, [0x30]⟩], request 0x61 [⟨0x80, [0x31]⟩]] ∧
    s = (ServeSt.init pairNode).run keepingEnv stdDB acts ∧
    ∃ o', s.node.get (.device 0) = some o' ∧ stored o' 0x80 = [0x30] := by
  obtain ⟨acts, s, h1, h2, -, h4, -⟩ := C101_refuted keepingEnv keepingEnv_keeping stdDB pairNode 0x013001
    (.device 0) _ pairNode_addressed 0x80 [0x30] [0x31] (request 0x61 [⟨0x80, [0x30]⟩])
    (request 0x61 [⟨0x80, [0x31]⟩]) (pairNode_write _ (by decide +kernel) (by decide +kernel) (by decide +kernel))
    (pairNode_write _ (by decide +kernel) (by decide +kernel) (by decide +kernel))
    (fun p hp => pairNode_fitting 0x30 0 p (by simp at hp; simp [hp]))
    (fun p hp => pairNode_fitting 0x31 0 p (by simp at hp; simp [hp]))
  exact ⟨acts, s, h1, h2, h4⟩

/-! ## One after the other -/

/-- Steps of the same goroutine, until it is done, have one outcome. -/
theorem goes_done_unique {env : Env} {db : StdDB} {n h n1 h1 ms1} (a : Goes env db n h n1 h1 ms1) :
    ∀ {n2 h2 ms2}, Goes env db n h n2 h2 ms2 →
    (∀ n, h1.step env db n = (n, h1, [])) → (∀ n, h2.step env db n = (n, h2, [])) →
    n1 = n2 ∧ h1 = h2 ∧ ms1 = ms2 := by
  have still : ∀ {n h n2 h2 ms2}, Goes env db n h n2 h2 ms2 → (∀ n, h.step env db n = (n, h, [])) →
      n2 = n ∧ h2 = h ∧ ms2 = [] := by
    intro n h n2 h2 ms2 b hs
    induction b with
    | refl => exact ⟨rfl, rfl, rfl⟩
    | step _ ih =>
      rw [hs] at ih ⊢
      exact ih hs
  induction a with
  | refl n h =>
    intro n2 h2 ms2 b hs _
    obtain ⟨e1, e2, e3⟩ := still b hs
    exact ⟨e1.symm, e2.symm, e3.symm⟩
  | step a ih =>
    intro n2 h2 ms2 b hs1 hs2
    cases b with
    | refl =>
      have := still (.step a) hs2
      exact this
    | step b =>
      obtain ⟨e1, e2, e3⟩ := ih b hs1 hs2
      exact ⟨e1, e2, by rw [e3]⟩

/-- Every message is handled to an end. -/
theorem received_ok (env : Env) (db : StdDB) (n : Node) (m : Message) : ∃ out, n.received env db m = .ok out := by
  by_cases hi : Ignored n m
  · refine ⟨⟨n, [], [], false, none, none⟩, ?_⟩
    unfold Node.received
    rw [if_pos ((ignored_iff n m).mpr hi)]
  · obtain ⟨out, h, -⟩ := C42_others env db n m (by
      cases hs : n.selfMsg with
      | true => exact .inl rfl
      | false => exact .inr (fun h => hi ⟨hs, h⟩))
    exact ⟨out, h⟩

/-- The steps of one goroutine in a schedule. -/
theorem run_goes (env : Env) (db : StdDB) (i : Nat) (k : Nat) : ∀ (s : ServeSt) (h : Serving),
    s.serving[i]? = some h → ∃ h' ms, Goes env db s.node h
      (s.run env db (List.replicate k (.step i))).node h' ms ∧
      (s.run env db (List.replicate k (.step i))).serving = s.serving.set i h' ∧
      (s.run env db (List.replicate k (.step i))).sent = s.sent ++ ms := by
  induction k with
  | zero =>
    intro s h hi
    refine ⟨h, [], .refl _ _, ?_, ?_⟩
    · show s.serving = _
      obtain ⟨hl, e⟩ := List.getElem?_eq_some_iff.mp hi
      rw [← e, List.set_getElem_self]
    · show s.sent = _
      rw [List.append_nil]
  | succ k ih =>
    intro s h hi
    have hl : i < s.serving.length := (List.getElem?_eq_some_iff.mp hi).1
    have hs : s.step env db (.step i) = ⟨(h.step env db s.node).1, s.serving.set i (h.step env db s.node).2.1,
      s.sent ++ (h.step env db s.node).2.2⟩ := by
      simp only [ServeSt.step, hi]
    obtain ⟨h', ms, e1, e2, e3⟩ := ih (s.step env db (.step i)) (h.step env db s.node).2.1 (by
      rw [hs]
      exact List.getElem?_set_self hl)
    refine ⟨h', (h.step env db s.node).2.2 ++ ms, ?_, ?_, ?_⟩
    · rw [List.replicate_succ]
      refine .step ?_
      rw [hs] at e1
      rw [← hs] at e1
      have : (s.step env db (.step i)).node = (h.step env db s.node).1 := by rw [hs]
      rw [← this]
      exact e1
    · rw [List.replicate_succ]
      refine e2.trans ?_
      rw [hs]
      simp
    · rw [List.replicate_succ]
      refine e3.trans ?_
      rw [hs]
      simp [List.append_assoc]

/-- C101, the part that holds. After any history, a message that arrives and is handled to the end before
anything else happens acts on the node, calls the callbacks, sends messages and is answered as a message
handled alone. So messages that each arrive after the one before was handled take effect in the order they
arrive. -/
theorem C101_partial (env : Env) (db : StdDB) (s : ServeSt) (m : Message) (k : Nat) (cs : List Call)
    (reply : Option Message) (e : Option Err) (s' : ServeSt)
    (hs' : s' = s.run env db (.arrive m :: List.replicate k (.step s.serving.length)))
    (hdone : s'.serving[s.serving.length]? = some ⟨m, cs, .done reply e⟩) :
    ∃ out, s.node.received env db m = .ok out ∧ out.reply = reply ∧ out.error = e ∧ out.calls = cs ∧
      s'.node = out.node ∧ s'.sent = s.sent ++ out.sent ∧
      s'.serving = s.serving ++ [⟨m, cs, .done reply e⟩] := by
  subst hs'
  obtain ⟨out, ho⟩ := received_ok env db s.node m
  have g := goes_received s.node m out ho
  obtain ⟨h', ms, e1, e2, e3⟩ := run_goes env db s.serving.length k (s.step env db (.arrive m)) ⟨m, [], .start⟩
    (by simp [ServeSt.step])
  have hset : (s.step env db (.arrive m)).serving.set s.serving.length h' = s.serving ++ [h'] := by
    simp [ServeSt.step]
  rw [hset] at e2
  have hh : h' = ⟨m, cs, .done reply e⟩ := by
    have : ((s.step env db (.arrive m)).run env db (List.replicate k (.step s.serving.length))).serving[s.serving.length]?
      = some ⟨m, cs, .done reply e⟩ := hdone
    rw [e2] at this
    simpa using this
  subst hh
  obtain ⟨u1, u2, u3⟩ := goes_done_unique g e1 (fun _ => rfl) (fun _ => rfl)
  simp only [Serving.mk.injEq, ServePc.done.injEq, true_and] at u2
  exact ⟨out, ho, u2.2.1, u2.2.2, u2.1, u1.symm, by rw [u3]; exact e3, e2⟩

/-- C101, the part that holds, continued. Such handling always comes to its end: after some number of steps
the message is handled. -/
theorem C101_ends_partial (env : Env) (db : StdDB) (s : ServeSt) (m : Message) :
    ∃ k cs reply e, (s.run env db (.arrive m :: List.replicate k (.step s.serving.length))).serving[s.serving.length]?
      = some ⟨m, cs, .done reply e⟩ := by
  obtain ⟨out, ho⟩ := received_ok env db s.node m
  obtain ⟨k, hk⟩ := (goes_received s.node m out ho).run (s.step env db (.arrive m)) s.serving.length rfl
    (by simp [ServeSt.step])
  refine ⟨k, out.calls, out.reply, out.error, ?_⟩
  show ((s.step env db (.arrive m)).run env db _).serving[_]? = _
  rw [hk]
  simp [ServeSt.step]

/-! ## Requests carried out in turn -/

/-- One property of a message that writes is passed on and stored. -/
theorem goes_keep {env : Env} (he : Keeping env) (db : StdDB) (n : Node) (r : ObjRef) (o : Obj)
    (hg : n.get r = some o) (m : Message) (hm : m.esv = 0x61) (cs : List Call) (p : PProp) (ps : List PProp) :
    ∃ n' cs' ms, Goes env db n ⟨m, cs, .request r (p :: ps) none⟩ n' ⟨m, cs', .request r ps none⟩ ms ∧
      SameFrame n n' ∧ ∀ r', n'.get r' = if r' = r then some (writeAll o [p]) else n.get r' := by
  obtain ⟨ms, -, g⟩ := goes_property (env := env) (db := db) m r p ps ⟨n, cs, []⟩ none
  have hx : Node.notifyPropertyRequest env db r m.esv p ⟨n, cs, []⟩
      = (⟨(NodeOp.runAll db n [.obj r (.write p.code p.data)]).1, cs ++ [.request r 0x61 p],
        [] ++ (NodeOp.runAll db n [.obj r (.write p.code p.data)]).2⟩, none) := by
    unfold Node.notifyPropertyRequest
    simp only [he.listens, he.handler, if_true, hm, Env.call, he.stores]
    rfl
  rw [hx] at g
  refine ⟨_, _, ms, g, onObj_frame n r _, ?_⟩
  intro r'
  show (n.onObj r (fun o => Node.dropErr ((ObjOp.write p.code p.data).run db o))).1.get r' = _
  rw [onObj_get, hg]
  congr 1
  show some ((ObjOp.write p.code p.data).run db o).1 = _
  rw [run_target db o _ p.code p.data rfl, setPropertyData_fst]
  rfl

/-- All properties of a message that writes are passed on and stored. -/
theorem goes_keeps {env : Env} (he : Keeping env) (db : StdDB) (r : ObjRef) (m : Message) (hm : m.esv = 0x61)
    (ps : List PProp) : ∀ (n : Node) (o : Obj) (cs : List Call), n.get r = some o →
    ∃ n' cs' ms, Goes env db n ⟨m, cs, .request r ps none⟩ n' ⟨m, cs', .request r [] none⟩ ms ∧
      SameFrame n n' ∧ ∀ r', n'.get r' = if r' = r then some (writeAll o ps) else n.get r' := by
  induction ps with
  | nil =>
    intro n o cs hg
    refine ⟨n, cs, [], .refl _ _, .refl n, fun r' => ?_⟩
    split
    · next e => rw [e, hg]; rfl
    · rfl
  | cons p ps ih =>
    intro n o cs hg
    obtain ⟨n1, cs1, ms1, g1, f1, k1⟩ := goes_keep he db n r o hg m hm cs p ps
    obtain ⟨n2, cs2, ms2, g2, f2, k2⟩ := ih n1 (writeAll o [p]) cs1 (by rw [k1, if_pos rfl])
    refine ⟨n2, cs2, _, g1.trans g2, f1.trans f2, fun r' => ?_⟩
    rw [k2, k1]
    split <;> rfl

/-- A message that writes is accepted. -/
theorem goes_begin {env : Env} (he : Keeping env) (db : StdDB) {n : Node} {code : ObjectCode} {r : ObjRef}
    {o : Obj} (ho : Addressed n code r o) {ps : List PProp} {m : Message} (hw : Write n code ps m)
    (hf : Fitting o ps) : ∃ cs, Goes env db n ⟨m, [], .start⟩ n ⟨m, cs, .request r ps none⟩ [] := by
  obtain ⟨hl, hg⟩ := addressed_lookup ho
  have hs : ¬ (!n.selfMsg && n.isSelfMessage m) = true := fun h => hw.seen ((ignored_iff n m).mp h)
  have hv := (validate_iff n m).mpr (hw.accepted ho hf)
  have hreq : m.requested = ps := (requested_eq m).trans hw.props
  have hvalid : m.esv.isValid = true := by rw [hw.esv]; decide
  have hrw : (m.esv.isReadRequest || m.esv.isWriteRequest) = true := by rw [hw.esv]; decide
  have first : Serving.step env db n ⟨m, [], .start⟩ = (n, ⟨m, [], .check r ps⟩, []) := by
    simp only [Serving.step, hs, hw.obj, hl, hvalid, hrw, hreq]
    rfl
  have hall : ps.all (Node.validProperty o m.esv) = true := by
    unfold Node.validateReceivedMessage at hv
    simp only [hw.obj, hl, hg, hvalid, hrw, hreq] at hv
    exact hv
  have hc := goes_check (env := env) (db := db) n m [] r o hg ps
  rw [if_pos hall] at hc
  have g := Goes.quiet first hc
  by_cases hlis : env.listener = true
  · have s1 : Serving.step env db n ⟨m, [], .listeners⟩
        = (n, ⟨m, [.message m], .inside [] none (.message r)⟩, []) := by
      simp only [Serving.step, hw.obj, hl, hlis, if_true, Serving.callback, he.message hlis]
      rfl
    have s2 : Serving.step env db n ⟨m, [.message m], .inside [] none (.message r)⟩
        = (n, ⟨m, [.message m], .request r ps none⟩, []) := by
      simp only [Serving.step, Serving.after, hreq]
    exact ⟨_, (g.trans (Goes.quiet s1 (.one s2)))⟩
  · have s1 : Serving.step env db n ⟨m, [], .listeners⟩ = (n, ⟨m, [], .request r ps none⟩, []) := by
      simp only [Serving.step, hw.obj, hl, hlis, hreq]
      rfl
    exact ⟨_, g.trans (.one s1)⟩

/-- A message that writes is answered. -/
theorem goes_end {env : Env} (db : StdDB) {n : Node} {code : ObjectCode} {r : ObjRef}
    {o : Obj} (ho : Addressed n code r o) {m : Message} (hm : m.esv = 0x61) (hd : m.getDEOJ = code)
    (cs : List Call) :
    ∃ reply, Goes env db n ⟨m, cs, .request r [] none⟩ n ⟨m, cs, .done (some reply) none⟩ [] := by
  obtain ⟨hl, hg⟩ := addressed_lookup ho
  have g := goes_respond (env := env) (db := db) n m cs (by rw [hm]; decide)
  unfold Node.createResponse at g
  simp only [hd, hl, hg] at g
  exact ⟨_, .quiet (n1 := n) (h1 := ⟨m, cs, .respond⟩) rfl g⟩

/-- C102. The property fails: two messages write the same two properties `p` and `q` of an object, with
different data. Both are carried out and answered, and yet in the end the object holds the data of the one
for `p` and of the other for `q`; handled one after the other, in either order, they leave the data of the
last for both. This is so for every node, object and pair of properties and for all such messages, if the
program stores what is written. -/
theorem C102_refuted (env : Env) (he : Keeping env) (db : StdDB) (n : Node) (code : ObjectCode) (r : ObjRef)
    (o : Obj) (ho : Addressed n code r o) (p q : Byte) (hpq : p ≠ q) (p1 q1 p2 q2 : Bytes)
    (hp : p1 ≠ p2) (hq : q1 ≠ q2) (m1 m2 : Message)
    (h1 : Write n code [⟨p, p1⟩, ⟨q, q1⟩] m1) (h2 : Write n code [⟨p, p2⟩, ⟨q, q2⟩] m2)
    (f1 : Fitting o [⟨p, p1⟩, ⟨q, q1⟩]) (f2 : Fitting o [⟨p, p2⟩, ⟨q, q2⟩]) :
    ∃ acts s, arrivals acts = [m1, m2] ∧ s = (ServeSt.init n).run env db acts ∧
      (∃ a b, s.serving = [a, b] ∧ WasAnswered a ∧ WasAnswered b) ∧
      (∃ o', s.node.get r = some o' ∧ stored o' p = p2 ∧ stored o' q = q1) ∧
      (∀ out1 out2, n.received env db m1 = .ok out1 → out1.node.received env db m2 = .ok out2 →
        out2.node.get r ≠ s.node.get r) ∧
      (∀ out2 out1, n.received env db m2 = .ok out2 → out2.node.received env db m1 = .ok out1 →
        out1.node.get r ≠ s.node.get r) := by
  have f1p : Fitting o [⟨p, p1⟩] := fun x hx => f1 x (by simp at hx; simp [hx])
  have look : ∀ (o' : Obj) (a b : Bytes), Fitting o' [⟨p, a⟩, ⟨q, b⟩] →
      stored (writeAll o' [⟨p, a⟩, ⟨q, b⟩]) p = a ∧ stored (writeAll o' [⟨p, a⟩, ⟨q, b⟩]) q = b := by
    intro o' a b hx
    obtain ⟨x, hx1, -⟩ := hx ⟨p, a⟩ (by simp)
    obtain ⟨y, hy1, -⟩ := hx ⟨q, b⟩ (by simp)
    unfold stored
    rw [writeAll_lookup, writeAll_lookup, hx1, hy1]
    simp [EProp.setData, hpq, Ne.symm hpq]
  -- the first message is accepted and its first property stored
  obtain ⟨cs0, g0⟩ := goes_begin he db ho h1 f1
  obtain ⟨na, cs1, ms1, g1, fr1, k1⟩ := goes_keep he db n r o (addressed_lookup ho).2 m1 h1.esv cs0
    ⟨p, p1⟩ [⟨q, q1⟩]
  have oa := addressed_written ho (writeAll_codes _ o) k1
  -- the second message
  obtain ⟨outb, rb, b1, b2, b3, b4, b5, b6⟩ := write_received he db oa (h2.frame fr1) (fitting_writeAll f1p f2)
  have g2 := goes_received na m2 outb b1
  -- the second property of the first message
  obtain ⟨nc, cs3, ms3, g3, fr3, k3⟩ := goes_keep he db outb.node r _ b6 m1 h1.esv cs1 ⟨q, q1⟩ []
  have oc := addressed_written b5 (writeAll_codes _ _) k3
  obtain ⟨reply, g4⟩ := goes_end (env := env) db oc h1.esv h1.obj cs3
  have ga := g0.trans g1
  have gc := g3.trans g4
  obtain ⟨j1, e1⟩ := ga.run ⟨n, [⟨m1, [], .start⟩, ⟨m2, [], .start⟩], []⟩ 0 rfl rfl
  obtain ⟨j2, e2⟩ := g2.run ⟨na, [⟨m1, cs1, .request r [⟨q, q1⟩] none⟩, ⟨m2, [], .start⟩], [] ++ ([] ++ ms1)⟩ 1
    rfl rfl
  obtain ⟨j3, e3⟩ := gc.run ⟨outb.node, [⟨m1, cs1, .request r [⟨q, q1⟩] none⟩,
    ⟨m2, outb.calls, .done outb.reply outb.error⟩], [] ++ ([] ++ ms1) ++ outb.sent⟩ 0 rfl rfl
  refine ⟨[.arrive m1, .arrive m2] ++ (List.replicate j1 (.step 0) ++ (List.replicate j2 (.step 1) ++
    List.replicate j3 (.step 0))), _, ?_, rfl, ?_⟩
  · rw [arrivals_append, arrivals_append, arrivals_append, arrivals_steps, arrivals_steps, arrivals_steps]
    rfl
  · have hrun : (ServeSt.init n).run env db
        ([.arrive m1, .arrive m2] ++ (List.replicate j1 (.step 0) ++ (List.replicate j2 (.step 1) ++
          List.replicate j3 (.step 0))))
        = ⟨nc, [⟨m1, cs3, .done (some reply) none⟩, ⟨m2, outb.calls, .done outb.reply outb.error⟩],
          [] ++ ([] ++ ms1) ++ outb.sent ++ (ms3 ++ [])⟩ := by
      unfold ServeSt.run at e1 e2 e3 ⊢
      rw [List.foldl_append, List.foldl_append, List.foldl_append]
      refine (congrArg (fun s => List.foldl (ServeSt.step env db)
        (List.foldl (ServeSt.step env db) s _) _) e1).trans ?_
      refine (congrArg (fun s => List.foldl (ServeSt.step env db) s _) e2).trans ?_
      exact e3
    rw [hrun]
    have hc : nc.get r = some (writeAll (writeAll (writeAll o [⟨p, p1⟩]) [⟨p, p2⟩, ⟨q, q2⟩]) [⟨q, q1⟩]) := by
      rw [k3, if_pos rfl]
    have hlast : stored (writeAll (writeAll (writeAll o [⟨p, p1⟩]) [⟨p, p2⟩, ⟨q, q2⟩]) [⟨q, q1⟩]) p = p2 ∧
        stored (writeAll (writeAll (writeAll o [⟨p, p1⟩]) [⟨p, p2⟩, ⟨q, q2⟩]) [⟨q, q1⟩]) q = q1 := by
      obtain ⟨x, hx1, -⟩ := f1 ⟨p, p1⟩ (by simp)
      obtain ⟨y, hy1, -⟩ := f1 ⟨q, q1⟩ (by simp)
      unfold stored
      rw [writeAll_lookup, writeAll_lookup, writeAll_lookup, writeAll_lookup, writeAll_lookup, writeAll_lookup,
        hx1, hy1]
      simp [EProp.setData, hpq, Ne.symm hpq]
    refine ⟨⟨_, _, rfl, ⟨reply, rfl⟩, ⟨rb, ?_⟩⟩, ⟨_, hc, hlast⟩, ?_, ?_⟩
    · show ServePc.done _ _ = _
      rw [b2, b3]
    · intro out1 out2 x1 x2 heq
      obtain ⟨o1, -, y1, -, -, y4, y5, y6⟩ := write_received he db ho h1 f1
      rw [x1] at y1; cases y1
      obtain ⟨o2, -, z1, -, -, -, -, z6⟩ := write_received he db y5 (h2.frame y4) (fitting_writeAll f1 f2)
      rw [x2] at z1; cases z1
      rw [z6, hc] at heq
      injection heq with heq
      have := (look _ p2 q2 (fitting_writeAll f1 f2)).2
      rw [heq, hlast.2] at this
      exact hq this
    · intro out2 out1 x1 x2 heq
      obtain ⟨o1, -, y1, -, -, y4, y5, y6⟩ := write_received he db ho h2 f2
      rw [x1] at y1; cases y1
      obtain ⟨o2, -, z1, -, -, -, -, z6⟩ := write_received he db y5 (h1.frame y4) (fitting_writeAll f2 f1)
      rw [x2] at z1; cases z1
      rw [z6, hc] at heq
      injection heq with heq
      have := (look _ p1 q1 (fitting_writeAll f2 f1)).1
      rw [heq, hlast.1] at this
      exact hp this.symm

/-! ## As if alone -/

theorem goes_snoc {env : Env} {db : StdDB} {n h n1 h1 ms1} (a : Goes env db n h n1 h1 ms1) :
    Goes env db n h (h1.step env db n1).1 (h1.step env db n1).2.1 (ms1 ++ (h1.step env db n1).2.2) :=
  a.trans (.one rfl)

/-- What holds of a schedule as far as message `i` is concerned. -/
structure AsAlone (env : Env) (db : StdDB) (n : Node) (i : Nat) (m : Message) (s : ServeSt) : Prop where
  lookup : ∀ c, s.node.lookupObject c = n.lookupObject c
  selfMsg : s.node.selfMsg = n.selfMsg
  addr : s.node.addr = n.addr
  placed : ∀ h ∈ s.serving, Placed env (n.lookupObject h.msg.getDEOJ) h
  before : s.serving[i]? = none → ∀ r, n.lookupObject m.getDEOJ = some r → s.node.get r = n.get r
  after : ∀ h, s.serving[i]? = some h → h.msg = m ∧ ∃ n' ms, Goes env db n ⟨m, [], .start⟩ n' h ms ∧
    Alike (n.lookupObject m.getDEOJ) n' s.node

theorem asAlone_run {env : Env} (he : Local env) (db : StdDB) (n : Node) (i : Nat) (m : Message)
    (all : List Message) (hi : all[i]? = some m)
    (hothers : ∀ j m', j ≠ i → all[j]? = some m' → Passive env m'.esv ∨
      ∀ r, n.lookupObject m.getDEOJ = some r → n.lookupObject m'.getDEOJ ≠ some r)
    (acts : List ServeAct) (hacts : ∀ op, ServeAct.call op ∈ acts → ∃ r x, op = .obj r x ∧ KeepsCode x ∧
      n.lookupObject m.getDEOJ ≠ some r) :
    ∀ s : ServeSt, AsAlone env db n i m s → s.serving.map (·.msg) ++ arrivals acts = all →
      AsAlone env db n i m (s.run env db acts) := by
  induction acts with
  | nil => exact fun s h _ => h
  | cons a acts ih =>
    intro s hs hall
    have hrest := fun s' => ih (fun x hx => hacts x (List.mem_cons_of_mem _ hx)) s'
    cases a with
    | call op =>
      obtain ⟨r, x, rfl, hk, hr⟩ := hacts op (List.mem_cons_self ..)
      obtain ⟨k1, k2, k3, k4⟩ := obj_run db s.node r x hk
      have hget : ∀ r', n.lookupObject m.getDEOJ = some r' →
          ((NodeOp.obj r x).run db s.node).1.get r' = s.node.get r' := by
        intro r' h'
        rw [k4, if_neg]
        intro e
        exact hr (by rw [← e]; exact h')
      refine hrest (s.step env db (.call (.obj r x))) ?_ hall
      refine ⟨fun c => (k1 c).trans (hs.lookup c), k2.trans hs.selfMsg, k3.trans hs.addr, hs.placed,
        fun hn r' hr' => (hget r' hr').trans (hs.before hn r' hr'), ?_⟩
      intro h hh
      obtain ⟨a1, n', ms, a2, a3⟩ := hs.after h hh
      exact ⟨a1, n', ms, a2, fun c => (a3.lookup c).trans (k1 c).symm, a3.selfMsg.trans k2.symm,
        a3.addr.trans k3.symm, fun r' hr' => (a3.get r' hr').trans (hget r' hr').symm⟩
    | arrive m' =>
      refine hrest (s.step env db (.arrive m')) ?_ ?_
      · refine ⟨hs.lookup, hs.selfMsg, hs.addr, ?_, ?_, ?_⟩
        · intro h hh
          rcases List.mem_append.mp hh with hh | hh
          · exact hs.placed h hh
          · rw [List.mem_singleton.mp hh]; exact trivial
        · intro hn
          refine hs.before ?_
          have : s.serving.length + 1 ≤ i := by simpa [ServeSt.step] using hn
          exact List.getElem?_eq_none (by omega)
        · intro h hh
          have hh : (s.serving ++ [⟨m', [], .start⟩])[i]? = some h := hh
          rcases Nat.lt_trichotomy i s.serving.length with hlt | heq | hgt
          · rw [List.getElem?_append_left hlt] at hh
            exact hs.after h hh
          · subst heq
            have e : h = ⟨m', [], .start⟩ := by simpa using hh.symm
            have hm : m' = m := by
              rw [← hall] at hi
              simpa [arrivals] using hi
            subst e
            subst hm
            refine ⟨rfl, n, [], .refl _ _, fun c => (hs.lookup c).symm, hs.selfMsg.symm, hs.addr.symm, ?_⟩
            intro r hr
            exact (hs.before (by simp) r hr).symm
          · rw [List.getElem?_eq_none (by simp; omega)] at hh
            cases hh
      · rw [← hall]
        simp [ServeSt.step, arrivals]
    | step j =>
      cases hj : s.serving[j]? with
      | none =>
        have e : s.step env db (.step j) = s := by simp only [ServeSt.step, hj]
        refine hrest (s.step env db (.step j)) ?_ ?_
        · rw [e]; exact hs
        · rw [e]; exact hall
      | some h =>
        have e : s.step env db (.step j) = ⟨(h.step env db s.node).1, s.serving.set j (h.step env db s.node).2.1,
            s.sent ++ (h.step env db s.node).2.2⟩ := by
          simp only [ServeSt.step, hj]
        obtain ⟨hlt, hjj⟩ := List.getElem?_eq_some_iff.mp hj
        have hpl : Placed env (n.lookupObject h.msg.getDEOJ) h := hs.placed h (by
          rw [← hjj]; exact List.getElem_mem _)
        obtain ⟨p1, p2, p3, p4, p5, p6⟩ := placed_step he db n s.node hs.lookup h hpl
        have hmsg : all[j]? = some h.msg := by
          rw [← hall, List.getElem?_append_left (by simpa using hlt), List.getElem?_map, hj]
          rfl
        refine hrest (s.step env db (.step j)) ?_ ?_
        · rw [e]
          refine ⟨fun c => (p3 c).trans (hs.lookup c), p4.trans hs.selfMsg, p5.trans hs.addr, ?_, ?_, ?_⟩
          · intro x hx
            rcases List.mem_or_eq_of_mem_set hx with hx | rfl
            · exact hs.placed x hx
            · rw [p1]; exact p2
          · intro hn r hr
            have hn' : s.serving[i]? = none := by simpa using hn
            have hne : j ≠ i := by
              intro e; subst e; rw [hj] at hn'; cases hn'
            refine (p6 r ?_).trans (hs.before hn' r hr)
            rcases hothers j h.msg hne hmsg with x | x
            · exact .inr x
            · exact .inl (x r hr)
          · intro x hx
            by_cases hij : j = i
            · subst hij
              have hx : (s.serving.set j (h.step env db s.node).2.1)[j]? = some x := hx
              rw [List.getElem?_set_self hlt] at hx
              injection hx with hx
              obtain ⟨a1, n', ms, a2, a3⟩ := hs.after h hj
              rw [a1] at hpl
              obtain ⟨b1, b2⟩ := alike_step he db n' s.node _ h a3
                (by rw [a1, a3.lookup, hs.lookup]) hpl
              rw [← hx]
              have g := goes_snoc a2
              rw [b1] at g
              exact ⟨p1.trans a1, _, _, g, b2⟩
            · have hx : (s.serving.set j (h.step env db s.node).2.1)[i]? = some x := hx
              rw [List.getElem?_set_ne hij] at hx
              obtain ⟨a1, n', ms, a2, a3⟩ := hs.after x hx
              refine ⟨a1, n', ms, a2, fun c => (a3.lookup c).trans (p3 c).symm, a3.selfMsg.trans p4.symm,
                a3.addr.trans p5.symm, fun r hr => (a3.get r hr).trans (p6 r ?_).symm⟩
              rcases hothers j h.msg hij hmsg with y | y
              · exact .inr y
              · exact .inl (y r hr)
        · rw [e, ← hall]
          congr 1
          show (s.serving.set j _).map _ = _
          rw [List.map_set, p1]
          apply List.ext_getElem?
          intro k
          by_cases hk : j = k
          · subst hk
            rw [List.getElem?_set_self (by simpa using hlt), List.getElem?_map, hj]
            rfl
          · rw [List.getElem?_set_ne hk]

/-- C102, the part that holds. Any number of messages are handled at the same time, their steps in any order,
while the program makes calls on other objects of the node. Message `i` is handled as if it were alone, if each other message is for another object, or only read, so that
the callbacks do nothing for it: once it is handled, its reply, its error and the callbacks called are those
of the message handled alone, and the object it is for is as it would be then. The callbacks for an object
must keep to this object (`Local`). -/
theorem C102_partial (env : Env) (he : Local env) (db : StdDB) (n : Node) (acts : List ServeAct)
    (i : Nat) (m : Message) (hi : (arrivals acts)[i]? = some m)
    (hacts : ∀ op, ServeAct.call op ∈ acts → ∃ r x, op = .obj r x ∧ KeepsCode x ∧
      ∀ o, ¬ Addressed n m.getDEOJ r o)
    (hothers : ∀ j m', j ≠ i → (arrivals acts)[j]? = some m' →
      Passive env m'.esv ∨ ∀ r o, Addressed n m.getDEOJ r o → ¬ Addressed n m'.getDEOJ r o)
    (s : ServeSt) (hs : s = (ServeSt.init n).run env db acts) (cs : List Call) (reply : Option Message)
    (e : Option Err) (hdone : s.serving[i]? = some ⟨m, cs, .done reply e⟩) :
    ∃ out, n.received env db m = .ok out ∧ out.reply = reply ∧ out.error = e ∧ out.calls = cs ∧
      ∀ r o, Addressed n m.getDEOJ r o → s.node.get r = out.node.get r := by
  subst hs
  obtain ⟨out, ho⟩ := received_ok env db n m
  have g := goes_received n m out ho
  have inv := asAlone_run he db n i m (arrivals acts) hi (fun j m' hj hm' => by
      rcases hothers j m' hj hm' with h | h
      · exact .inl h
      · refine .inr (fun r hr heq => ?_)
        obtain ⟨o, h1, h2⟩ := lookupObject_some hr
        obtain ⟨o', h3, h4⟩ := lookupObject_some heq
        rw [h2] at h4
        cases h4
        exact h r o h1 h3)
    acts (fun op hop => by
      obtain ⟨r, x, h1, h2, h3⟩ := hacts op hop
      refine ⟨r, x, h1, h2, fun h => ?_⟩
      obtain ⟨o, h4, -⟩ := lookupObject_some h
      exact h3 o h4) (ServeSt.init n)
    ⟨fun _ => rfl, rfl, rfl, fun h hh => absurd hh (by simp [ServeSt.init]), fun _ _ _ => rfl,
      fun h hh => by simp [ServeSt.init] at hh⟩ rfl
  obtain ⟨-, n', ms, a2, a3⟩ := inv.after _ hdone
  obtain ⟨u1, u2, -⟩ := goes_done_unique g a2 (fun _ => rfl) (fun _ => rfl)
  simp only [Serving.mk.injEq, ServePc.done.injEq, true_and] at u2
  refine ⟨out, ho, u2.2.1, u2.2.2, u2.1, fun r o h => ?_⟩
  rw [u1]
  exact (a3.get r (addressed_lookup h).1).symm

/-- The hypotheses of `C102_refuted` are met. -/
example : ∃ acts s, arrivals acts = [request 0x61 [⟨0x80, [0x31]⟩, ⟨0xB0, [0x42]⟩],
      request 0x61 [⟨0x80, [0x32]⟩, ⟨0xB0, [0x43]⟩]] ∧
    s = (ServeSt.init pairNode).run keepingEnv stdDB acts ∧
    ∃ o', s.node.get (.device 0) = some o' ∧ stored o' 0x80 = [0x32] ∧ stored o' 0xB0 = [0x42] := by
  obtain ⟨acts, s, h1, h2, -, h4, -⟩ := C102_refuted keepingEnv keepingEnv_keeping stdDB pairNode 0x013001
    (.device 0) _ pairNode_addressed 0x80 0xB0 (by decide) [0x31] [0x42] [0x32] [0x43] (by decide) (by decide)
    (request 0x61 [⟨0x80, [0x31]⟩, ⟨0xB0, [0x42]⟩]) (request 0x61 [⟨0x80, [0x32]⟩, ⟨0xB0, [0x43]⟩])
    (pairNode_write _ (by decide +kernel) (by decide +kernel) (by decide +kernel))
    (pairNode_write _ (by decide +kernel) (by decide +kernel) (by decide +kernel))
    (pairNode_fitting _ _) (pairNode_fitting _ _)
  exact ⟨acts, s, h1, h2, h4⟩

theorem keepingEnv_local : Local keepingEnv := by
  refine ⟨fun _ _ _ => rfl, ?_, ?_⟩
  · intro n cs c r hc x hx
    cases c with
    | message m => cases hc
    | request r' e p =>
      simp only [Call.obj?, Option.some.injEq] at hc
      subst hc
      simp only [keepingEnv] at hx
      split at hx
      · rw [List.mem_singleton.mp hx]
        exact ⟨_, rfl, trivial⟩
      · cases hx
    | handler r' e p => cases hx
  · intro n n' cs c r _ _
    cases c <;> rfl

/-- A write to the first device, with reads of it and a write to the second device at the same time, their
steps mixed: the hypotheses of `C102_partial` are met, and the message is handled after these steps. -/
example :
    let w := request 0x61 [⟨0x80, [0x31]⟩, ⟨0xB0, [0x42]⟩]
    let g := request 0x62 [⟨0x80, []⟩]
    let v := (request 0x61 [⟨0x80, [0x32]⟩]).setDEOJ 0x013002
    let acts := [.arrive g, .arrive w, .arrive v] ++ (List.replicate 20 [.step 1, .step 2, .step 0]).flatten
    (arrivals acts)[1]? = some w ∧ Passive keepingEnv g.esv ∧
    (∀ r o, Addressed pairNode w.getDEOJ r o → ¬ Addressed pairNode v.getDEOJ r o) ∧
    (∃ h, ((ServeSt.init pairNode).run keepingEnv stdDB acts).serving[1]? = some h ∧ WasAnswered h) := by
  refine ⟨by decide +kernel, ⟨fun _ _ _ _ _ => rfl, fun _ _ _ _ _ => rfl, fun _ h => nomatch h⟩, ?_, ?_⟩
  · intro r o h1 h2
    obtain ⟨a, -⟩ := addressed_lookup h1
    obtain ⟨b, -⟩ := addressed_lookup h2
    have : pairNode.lookupObject (request 0x61 [⟨0x80, [0x31]⟩, ⟨0xB0, [0x42]⟩]).getDEOJ
      ≠ pairNode.lookupObject ((request 0x61 [⟨0x80, [0x32]⟩]).setDEOJ 0x013002).getDEOJ := by decide +kernel
    exact this (a.trans b.symm)
  · have key : (match ((ServeSt.init pairNode).run keepingEnv stdDB
        ([.arrive (request 0x62 [⟨0x80, []⟩]), .arrive (request 0x61 [⟨0x80, [0x31]⟩, ⟨0xB0, [0x42]⟩]),
          .arrive ((request 0x61 [⟨0x80, [0x32]⟩]).setDEOJ 0x013002)] ++
          (List.replicate 20 [.step 1, .step 2, .step 0]).flatten)).serving[1]?.map (·.pc) with
        | some (.done (some _) none) => true
        | _ => false) = true := by decide +kernel
    split at key
    · next reply heq =>
      obtain ⟨h, h1, h2⟩ := Option.map_eq_some_iff.mp heq
      exact ⟨h, h1, reply, h2⟩
    · cases key

end Verif.Props
