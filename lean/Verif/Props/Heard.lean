import Verif.Props.Network

/-! # C99: announced changes reach the listeners of controllers -/

namespace Verif.Props
open Verif Model Spec Lemmas

/-- What a write to an object of the node should announce: the code of the object and the property
with its new data, if the property is there and announceable. -/
def toAnnounce (n : Node) (w : ObjRef × ObjOp) : Option (Bytes × PProp) :=
  match n.get w.1, w.2.target with
  | some o, some (c, d) =>
    match o.props.lookup c with
    | some p => if p.annoAttr ≠ 0 then some (o.codes, ⟨c, d⟩) else none
    | none => none
  | _, _ => none

/-- A write of at most 255 bytes. -/
def ShortWrite (w : ObjRef × ObjOp) : Prop := ∃ c d, w.2.target = some (c, d) ∧ d.length ≤ 255

theorem infMessage_built (t : GoUint) (a : Ann) : Built (infMessage t a) :=
  .setDEOJ _ (.setTID _ (.addProperty _ (.setSEOJ _ (.setESV _ .new))))

/-- What one write sends. -/
theorem write_sends {db : StdDB} {n : Node} (hn : NodeReached db n) (hr : n.running = true)
    (w : ObjRef × ObjOp) (c : Byte) (d : Bytes) (hw : w.2.target = some (c, d)) :
    (toAnnounce n w = none ∧ ((NodeOp.obj w.1 w.2).run db n).2 = []) ∨
    ∃ s m, toAnnounce n w = some (s, ⟨c, d⟩) ∧ ((NodeOp.obj w.1 w.2).run db n).2 = [.multicast m] ∧
      Built m ∧ m.ehd1 = 0x10 ∧ m.ehd2 = 0x81 ∧ m.esv = 0x73 ∧ m.seoj = s ∧
      m.deoj = [0x0E, 0xF0, 0x01] ∧ m.opc = 1 ∧ m.ep = [some ⟨c, d⟩] := by
  obtain ⟨r, op⟩ := w
  dsimp only at hw
  unfold toAnnounce
  cases ho : n.get r with
  | none =>
    refine .inl ⟨rfl, ?_⟩
    simp only [NodeOp.run, Node.onObj, ho, casts]
    rfl
  | some o =>
    have hrun : ((NodeOp.obj r op).run db n).2
        = (infs n.lastTID (o.setPropertyData c d).2.1).map .multicast := by
      simp only [NodeOp.run, Node.onObj, ho, casts, Node.dropErr]
      rw [run_target db o op c d hw, emit_eq]
      rw [show ∀ x, (n.set r x).running = n.running by intro x; cases r <;> rfl, hr]
      rw [show ∀ x, (n.set r x).lastTID = n.lastTID by intro x; cases r <;> rfl]
      rfl
    simp only [hw]
    rw [hrun, setPropertyData_eq]
    cases hp : o.props.lookup c with
    | none => exact .inl ⟨rfl, rfl⟩
    | some p =>
      by_cases ha : p.annoAttr = 0
      · refine .inl ⟨by simp [ha], ?_⟩
        have hann : p.isAnnounceable = false := by
          unfold EProp.isAnnounceable Attr.isProhibited Attr.prohibited
          simp [ha]
        simp [hann, infs]
      · have hann : p.isAnnounceable = true := by
          unfold EProp.isAnnounceable Attr.isProhibited Attr.prohibited
          simpa using ha
        have hi := infMessage_is (nextId n.lastTID) (nextId_le _ hn.tid) o (hn.owf r o ho) c d
        refine .inr ⟨o.codes, infMessage (nextId n.lastTID) ⟨o.code, ⟨c, d⟩⟩, by dsimp only; rw [if_pos ha], ?_,
          infMessage_built _ _, rfl, rfl, hi.esv, hi.seoj, hi.deoj, hi.opc, hi.props⟩
        simp only [hann, if_true]; rfl

/-- A write changes neither what other writes announce nor whether the node runs. -/
theorem write_keeps {db : StdDB} {n : Node} (hn : NodeReached db n)
    (w : ObjRef × ObjOp) (c : Byte) (d : Bytes) (hw : w.2.target = some (c, d)) :
    NodeReached db ((NodeOp.obj w.1 w.2).run db n).1 ∧
    ((NodeOp.obj w.1 w.2).run db n).1.running = n.running ∧
    ∀ w', toAnnounce ((NodeOp.obj w.1 w.2).run db n).1 w' = toAnnounce n w' := by
  obtain ⟨r, op⟩ := w
  dsimp only at hw
  refine ⟨?_, ?_, ?_⟩
  · obtain ⟨ops, h1, h2⟩ := hn
    refine ⟨ops ++ [.obj r op], ?_, ?_⟩
    · intro x hx
      rcases List.mem_append.mp hx with hx | hx
      · exact h1 x hx
      · rw [List.mem_singleton] at hx
        subst hx; trivial
    · rw [h2]
      clear h1 h2
      generalize Node.new db = n0
      induction ops generalizing n0 with
      | nil => rfl
      | cons y ys ih => simp only [List.cons_append, NodeOp.runAll]; exact ih _
  · exact (onObj_frame n r (fun o => Node.dropErr (op.run db o))).running
  · rintro ⟨r', op'⟩
    have hget : ((NodeOp.obj r op).run db n).1.get r'
        = if r' = r then (n.get r).map (fun o => { o with props := o.props.update c d }) else n.get r' := by
      show (n.onObj r _).1.get r' = _
      rw [onObj_get]
      split
      · congr 1
        funext o
        rw [Node.dropErr, run_target db o op c d hw, setPropertyData_fst]
      · rfl
    unfold toAnnounce
    dsimp only
    rw [hget]
    by_cases er : r' = r
    · subst er
      rw [if_pos rfl]
      cases n.get r' with
      | none => rfl
      | some o =>
        simp only [Option.map_some]
        cases op'.target with
        | none => rfl
        | some x =>
          obtain ⟨c', d'⟩ := x
          simp only [lookup_update]
          by_cases e : c' = c
          · subst e
            rw [if_pos rfl]
            cases o.props.lookup c' <;> rfl
          · rw [if_neg e]
    · rw [if_neg er]

/-- A controller with a listener that hears from `a` passes on every notification to its node
profile. -/
theorem passed_all (a : Addr) (arrived : List (Env × Message)) : ∀ (c : Ctrl), Hears c a →
    c.listener = true → (∀ x ∈ arrived, ∀ n cs y, (x.1.behave n cs y).1 = []) →
    (∀ x ∈ arrived, x.2.esv = 0x73 ∧ x.2.getDEOJ = 0x0EF001) →
    passed (CtrlOp.runAll stdDB c (arrived.map (fun x => .received x.1 { x.2 with src := a }))).2
      = arrived.map (fun x => { x.2 with src := a }) := by
  induction arrived with
  | nil => intro c _ _ _ _; rfl
  | cons x xs ih =>
    intro c hh hl he hm
    obtain ⟨k1, -, k3, -⟩ := received_found x.1 (he x (List.mem_cons_self ..)) c { x.2 with src := a }
    have kl := step_listener stdDB c (.received x.1 { x.2 with src := a }) trivial
    obtain ⟨m1, m2⟩ := hm x (List.mem_cons_self ..)
    have hp := ((C46_passed stdDB x.1 c { x.2 with src := a } hl).1 (handles_of hh (.inl m1) m2)).1
    have := ih _ ⟨by rw [k1]; exact hh.profile, by rw [k1, k3]; exact hh.foreign⟩ (kl.trans hl)
      (fun y hy => he y (List.mem_cons_of_mem _ hy)) (fun y hy => hm y (List.mem_cons_of_mem _ hy))
    simp only [List.map_cons, CtrlOp.runAll]
    unfold passed at hp this ⊢
    rw [List.filterMap_append, hp, this]
    rfl

/-- C99, the part that holds: data of at most 255 bytes. A program of a running node makes any writes
to its objects (with `SetPropertyData`, `SetPropertyByte` or `SetPropertyInteger`). The node then
multicasts one message for each write of an announceable property, in order, and nothing else. The
bytes of each message are received as a notification from the object with exactly the property and
the data written. When these messages arrive at a controller with a listener, in any order, some of
them lost or repeated, the listener gets exactly the messages that arrived, in the order in which
they arrived. Missing: more data (`C99_refuted`). -/
theorem C99_heard_partial (n : Node) (hn : NodeReached stdDB n) (hr : n.running = true)
    (writes : List (ObjRef × ObjOp)) (hw : ∀ w ∈ writes, ShortWrite w) :
    ∃ ms ds : List Message,
      (NodeOp.runAll stdDB n (writes.map (fun w => .obj w.1 w.2))).2 = ms.map .multicast ∧
      ms.map (fun m => Message.newWithBytes m.bytes) = ds.map .ok ∧
      ds.map (fun d => (d.esv, d.seoj, d.ep))
        = (writes.filterMap (toAnnounce n)).map (fun x => (0x73, x.1, [some x.2])) ∧
      ∀ (c : Ctrl) (a : Addr), Hears c a → c.listener = true →
        ∀ arrived : List (Env × Message), (∀ x ∈ arrived, ∀ n cs y, (x.1.behave n cs y).1 = []) →
          (∀ x ∈ arrived, x.2 ∈ ds) →
          passed (CtrlOp.runAll stdDB c
              (arrived.map (fun x => .received x.1 { x.2 with src := a }))).2
            = arrived.map (fun x => { x.2 with src := a }) := by
  suffices h : ∃ ms ds : List Message,
      (NodeOp.runAll stdDB n (writes.map (fun w => .obj w.1 w.2))).2 = ms.map .multicast ∧
      ms.map (fun m => Message.newWithBytes m.bytes) = ds.map .ok ∧
      ds.map (fun d => (d.esv, d.seoj, d.ep))
        = (writes.filterMap (toAnnounce n)).map (fun x => (0x73, x.1, [some x.2])) ∧
      ∀ d ∈ ds, d.esv = 0x73 ∧ d.getDEOJ = 0x0EF001 by
    obtain ⟨ms, ds, h1, h2, h3, h4⟩ := h
    exact ⟨ms, ds, h1, h2, h3, fun c a hh hl arrived he ha =>
      passed_all a arrived c hh hl he (fun x hx => h4 x.2 (ha x hx))⟩
  induction writes generalizing n with
  | nil => exact ⟨[], [], rfl, rfl, rfl, fun _ h => by cases h⟩
  | cons w ws ih =>
    obtain ⟨c, d, ht, hd⟩ := hw w (List.mem_cons_self ..)
    obtain ⟨k1, k2, k3⟩ := write_keeps hn w c d ht
    obtain ⟨ms, ds, h1, h2, h3, h4⟩ := ih _ k1 (k2.trans hr) (fun x hx => hw x (List.mem_cons_of_mem _ hx))
    rw [show toAnnounce ((NodeOp.obj w.1 w.2).run stdDB n).1 = toAnnounce n from funext k3] at h3
    simp only [List.map_cons, NodeOp.runAll]
    rcases write_sends hn hr w c d ht with ⟨g1, g2⟩ | ⟨s, m, g1, g2, b, e1, e2, e3, e4, e5, e6, e7⟩
    · refine ⟨ms, ds, by rw [g2, h1]; rfl, h2, ?_, h4⟩
      rw [List.filterMap_cons_none g1]; exact h3
    · have hf : Fits m := ⟨e1, e2, by rw [e7]; simp, by
        rw [e7]
        intro o ho
        rw [List.mem_singleton] at ho
        exact ⟨_, ho, hd⟩⟩
      have hdec := C02_roundtrip m b hf []
      rw [List.append_nil] at hdec
      refine ⟨m :: ms, _ :: ds, by rw [g2, h1]; rfl, by rw [List.map_cons, List.map_cons, hdec, h2], ?_, ?_⟩
      · rw [List.filterMap_cons_some g1, List.map_cons, List.map_cons, h3]
        simp only [e3, e4, e7]
      · intro x hx
        rcases List.mem_cons.mp hx with rfl | hx
        · refine ⟨e3, ?_⟩
          unfold Message.getDEOJ
          dsimp only
          rw [e5]; decide
        · exact h4 x hx

/-- C99 is false for more data: a write of 256 bytes or more to an announceable property is
announced by one message, which arrives as a notification with fewer bytes, the first ones of the
data, and is passed on like this. -/
theorem C99_refuted (n : Node) (hn : NodeReached stdDB n) (hr : n.running = true)
    (w : ObjRef × ObjOp) (c : Byte) (d : Bytes) (hw : w.2.target = some (c, d))
    (hlong : 256 ≤ d.length) (ha : (toAnnounce n w).isSome) (ctrl : Ctrl) (a : Addr)
    (hh : Hears ctrl a) (hl : ctrl.listener = true) (e : Env) :
    ∃ m x, ((NodeOp.obj w.1 w.2).run stdDB n).2 = [.multicast m] ∧
      Message.newWithBytes m.bytes = .ok x ∧
      passed ((CtrlOp.received e { x with src := a }).run stdDB ctrl).2 = [{ x with src := a }] ∧
      x.ep = [some ⟨c, d.take (d.length % 256)⟩] ∧ d.take (d.length % 256) ≠ d := by
  rcases write_sends hn hr w c d hw with ⟨g1, -⟩ | ⟨s, m, -, g2, b, e1, e2, e3, -, e5, e6, e7⟩
  · rw [g1] at ha; cases ha
  · obtain ⟨x, hx, -, x2, x3, x4⟩ := truncated m b e1 e2 e6 _ _ e7
    refine ⟨m, x, g2, hx, ?_, x4, ?_⟩
    · refine ((C46_passed stdDB e ctrl { x with src := a } hl).1
        (handles_of hh (.inl (x3.trans e3)) ?_)).1
      unfold Message.getDEOJ
      dsimp only
      rw [x2, e5]; decide
    · intro h
      have := congrArg List.length h
      rw [List.length_take] at this
      omega

/-- Three writes to the air conditioner of a started node: two are announced. A write of 300 bytes is
announced too, and a started controller hears the node. -/
example : NodeReached stdDB (many 1) ∧ (many 1).running = true ∧
    (∀ w ∈ ([(.device 0, .write 0x80 [0x30]), (.device 0, .write 0xD0 [1]),
      (.device 0, .writeByte 0x80 0x31)] : List (ObjRef × ObjOp)), ShortWrite w) ∧
    ([(.device 0, .write 0x80 [0x30]), (.device 0, .write 0xD0 [1]),
      (.device 0, .writeByte 0x80 0x31)] : List (ObjRef × ObjOp)).filterMap (toAnnounce (many 1))
      = [([0x01, 0x30, 0x01], ⟨0x80, [0x30]⟩), ([0x01, 0x30, 0x01], ⟨0x80, [0x31]⟩)] ∧
    (toAnnounce (many 1) (.device 0, .write 0x80 (List.replicate 300 0))).isSome ∧
    Hears searcher ⟨"10.0.0.2", 3610⟩ := by
  refine ⟨⟨manyOps 1, ?_, rfl⟩, (many_lawful 1).2.1, ?_, by decide +kernel, by decide +kernel,
    searcher_hears _⟩
  · intro op hop
    rcases List.mem_cons.mp hop with rfl | hop
    · trivial
    · rw [(List.mem_replicate.mp hop).2]
      exact aircon_reached
  · intro w hw
    simp only [List.mem_cons, List.not_mem_nil, or_false] at hw
    rcases hw with rfl | rfl | rfl
    · exact ⟨_, _, rfl, by simp⟩
    · exact ⟨_, _, rfl, by simp⟩
    · exact ⟨_, _, rfl, by simp⟩

end Verif.Props
