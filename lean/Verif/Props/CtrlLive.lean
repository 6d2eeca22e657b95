import Verif.Model.CtrlLive
import Verif.Props.Controller

/-!
# C155: controller listeners that act on the controller
-/

namespace Verif.Props
open Verif Model Spec Lemmas

/-- The act empties the list of nodes. -/
def Empties : CtrlAct → Bool
  | .clear => true
  | .start .. => true
  | _ => false

/-- The listener after some acts. -/
def listenerAfter (b : Bool) (acts : List CtrlAct) : Bool :=
  acts.foldl (fun b a => match a with | .setListener b => b | _ => b) b

/-- The list of nodes after some acts. -/
def foundAfter (ns : List RemoteNode) (acts : List CtrlAct) : List RemoteNode :=
  if acts.any Empties then [] else ns

theorem acts_listener (db : StdDB) (acts : List CtrlAct) (c : Ctrl) :
    (acts.foldl (CtrlAct.run db) c).listener = listenerAfter c.listener acts := by
  induction acts generalizing c with
  | nil => rfl
  | cons a acts ih =>
    show (acts.foldl (CtrlAct.run db) (a.run db c)).listener = _
    rw [ih]
    unfold listenerAfter
    rw [List.foldl_cons]
    congr 1
    cases a <;> rfl

theorem acts_found (db : StdDB) (acts : List CtrlAct) (c : Ctrl) :
    (acts.foldl (CtrlAct.run db) c).found = foundAfter c.found acts := by
  induction acts generalizing c with
  | nil => rfl
  | cons a acts ih =>
    show (acts.foldl (CtrlAct.run db) (a.run db c)).found = _
    rw [ih]
    unfold foundAfter
    rw [List.any_cons]
    cases a with
    | clear => simp [Empties, CtrlAct.run, CtrlAct.op, CtrlOp.run, Ctrl.clear]
    | start r s v => simp [Empties, CtrlAct.run, CtrlAct.op, CtrlOp.run, Ctrl.clear]
    | _ => simp [Empties, CtrlAct.run, CtrlAct.op, CtrlOp.run]

theorem runAll_append (db : StdDB) (a b : List NodeOp) (n : Node) :
    (NodeOp.runAll db n (a ++ b)).1 = (NodeOp.runAll db (NodeOp.runAll db n a).1 b).1 := by
  induction a generalizing n with
  | nil => rfl
  | cons x a ih => exact ih _

theorem acts_node (db : StdDB) (acts : List CtrlAct) (c : Ctrl) :
    (acts.foldl (CtrlAct.run db) c).node = (NodeOp.runAll db c.node (acts.flatMap CtrlAct.nodeOps)).1 := by
  induction acts generalizing c with
  | nil => rfl
  | cons a acts ih =>
    show (acts.foldl (CtrlAct.run db) (a.run db c)).node = _
    rw [ih, List.flatMap_cons, runAll_append]
    congr 2
    cases a <;> rfl

/-- A call of the listener, by its acts. -/
theorem call_eq (db : StdDB) (l : CtrlListener) (c : Ctrl) (calls : List CtrlCall) (ops : List NodeOp) (x : CtrlCall) :
    CtrlTurn.call db l ⟨c, calls, ops⟩ x = ⟨(l c calls x).foldl (CtrlAct.run db) c, calls ++ [x],
      ops ++ (l c calls x).flatMap CtrlAct.nodeOps⟩ := rfl

/-- The turn of the listener when a message is passed on, if there is one. -/
def passOn (db : StdDB) (l : CtrlListener) (s : CtrlTurn) (m : Message) : CtrlTurn :=
  if s.ctrl.listener then s.call db l (.message m) else s

/-- The turn of the listener when a node was found, if there is one. -/
def tellOf (db : StdDB) (l : CtrlListener) (c : Ctrl) (n : RemoteNode) : CtrlTurn :=
  if c.listener then CtrlTurn.call db l ⟨{ c with found := c.found ++ [n] }, [], []⟩ (.newNode n)
  else ⟨{ c with found := c.found ++ [n] }, [], []⟩

theorem liveMessage_cases (db : StdDB) (l : CtrlListener) (c : Ctrl) (m : Message) :
    (Own c m → CtrlTurn.onMessage db l ⟨c, [], []⟩ m = .ok ⟨c, [], []⟩) ∧
    (¬ Own c m → (¬ ∃ n, Announces db c.autoPort m n ∧ Fresh c n) →
      CtrlTurn.onMessage db l ⟨c, [], []⟩ m = .ok (passOn db l ⟨c, [], []⟩ m)) ∧
    (¬ Own c m → ∀ n, Announces db c.autoPort m n → Fresh c n →
      CtrlTurn.onMessage db l ⟨c, [], []⟩ m = .ok (passOn db l (tellOf db l c n) m)) := by
  have known : ∀ n : RemoteNode, c.found.any n.equals = true ↔ ¬ Fresh c n := by
    intro n
    rw [List.any_eq_true]
    unfold Fresh
    constructor
    · rintro ⟨x, hx, h⟩ hf
      have := (equals_iff n x).mp h
      exact hf x hx ⟨this.1.symm, this.2.symm⟩
    · intro h
      refine Classical.byContradiction fun hn => h fun x hx hxn => hn ⟨x, hx, ?_⟩
      exact (equals_iff n x).mpr ⟨hxn.1.symm, hxn.2.symm⟩
  unfold CtrlTurn.onMessage
  dsimp only
  refine ⟨fun h => by rw [if_pos ((own_iff c m).mpr h)], fun h hn => ?_, fun h n hn hf => ?_⟩
  · rw [if_neg (fun h' => h ((own_iff c m).mp h'))]
    by_cases hp : Ctrl.isNodeProfileMessage m = true
    · rw [if_pos hp]
      unfold CtrlTurn.parseNodeProfileMessage
      dsimp only
      rw [if_neg (fun h' => h ((own_iff c m).mp h'))]
      cases hx : RemoteNode.ofInstanceListAndConfig db c.autoPort m with
      | panic => exact absurd hx (C47_no_panic db c.autoPort m)
      | err e => rfl
      | ok n =>
        have : ¬ Fresh c n := fun hf => hn ⟨n, ⟨((nodeProfileMessage_iff m).mp hp).1,
          ((nodeProfileMessage_iff m).mp hp).2, hx⟩, hf⟩
        dsimp only
        unfold CtrlTurn.addNode
        rw [if_pos ((known n).mpr this)]
        rfl
    · rw [if_neg hp]
      rfl
  · rw [if_neg (fun h' => h ((own_iff c m).mp h'))]
    rw [if_pos ((nodeProfileMessage_iff m).mpr ⟨hn.1, hn.2.1⟩)]
    unfold CtrlTurn.parseNodeProfileMessage
    dsimp only
    rw [if_neg (fun h' => h ((own_iff c m).mp h')), hn.2.2]
    dsimp only
    unfold CtrlTurn.addNode
    rw [if_neg (fun h' => (known n).mp h' hf)]
    rfl

/-- What a received message does to a controller whose listener acts on it. -/
theorem live_cases (db : StdDB) (l : CtrlListener) (e : Env) (c : Ctrl) (m : Message) :
    (¬ Handles c m → ∃ out, c.receivedLive db l e m = .ok ({ c with node := out.node }, [], out)) ∧
    (Handles c m → (¬ ∃ n, Announces db c.autoPort m n ∧ Fresh c n) →
      ∃ out, c.node.received (Ctrl.envLive e (passOn db l ⟨c, [], []⟩ m).ops) db m = .ok out ∧
        c.receivedLive db l e m = .ok ({ (passOn db l ⟨c, [], []⟩ m).ctrl with node := out.node },
          (passOn db l ⟨c, [], []⟩ m).calls, out)) ∧
    (Handles c m → ∀ n, Announces db c.autoPort m n → Fresh c n →
      ∃ out, c.node.received (Ctrl.envLive e (passOn db l (tellOf db l c n) m).ops) db m = .ok out ∧
        c.receivedLive db l e m = .ok ({ (passOn db l (tellOf db l c n) m).ctrl with node := out.node },
          (passOn db l (tellOf db l c n) m).calls, out)) := by
  obtain ⟨h1, h2, h3⟩ := liveMessage_cases db l c m
  have key : ∀ t : CtrlTurn, CtrlTurn.onMessage db l ⟨c, [], []⟩ m = .ok t → ¬ Ignored c.node m → Accepts c.node m →
      ∃ out, c.node.received (Ctrl.envLive e t.ops) db m = .ok out ∧
        c.receivedLive db l e m = .ok ({ t.ctrl with node := out.node }, t.calls, out) := by
    intro t ht hi hacc
    obtain ⟨out, hr, ha, hn⟩ := C43_valid_partial (Ctrl.envLive e t.ops) db c.node m hi rfl
    refine ⟨out, hr, ?_⟩
    unfold Ctrl.receivedLive
    rw [ht]
    simp only [Res.ok_bind]
    rw [hr]
    simp only [Res.ok_bind]
    have hc : out.calls.contains (.message m) = true := by
      rw [List.contains_iff_mem]
      exact List.mem_of_mem_head? (by rw [(ha hacc).1]; rfl)
    rw [if_pos hc]
  have ht : ∃ t, CtrlTurn.onMessage db l ⟨c, [], []⟩ m = .ok t := by
    by_cases ho : Own c m
    · exact ⟨_, h1 ho⟩
    · by_cases hn : ∃ n, Announces db c.autoPort m n ∧ Fresh c n
      · obtain ⟨n, ha, hf⟩ := hn
        exact ⟨_, h3 ho n ha hf⟩
      · exact ⟨_, h2 ho hn⟩
  refine ⟨fun hh => ?_, fun hh hn => key _ (h2 hh.2.2 hn) hh.1 hh.2.1,
    fun hh n ha hf => key _ (h3 hh.2.2 n ha hf) hh.1 hh.2.1⟩
  obtain ⟨t, ht⟩ := ht
  by_cases hi : Ignored c.node m
  · have hr : c.node.received (Ctrl.envLive e t.ops) db m = .ok ⟨c.node, [], [], false, none, none⟩ := by
      unfold Node.received
      rw [if_pos ((ignored_iff c.node m).mpr hi)]
    refine ⟨⟨c.node, [], [], false, none, none⟩, ?_⟩
    unfold Ctrl.receivedLive
    rw [ht]
    simp only [Res.ok_bind]
    rw [hr]
    rfl
  · by_cases hacc : Accepts c.node m
    · have ho : Own c m := Classical.byContradiction fun h => hh ⟨hi, hacc, h⟩
      obtain ⟨out, -, h⟩ := key _ (h1 ho) hi hacc
      exact ⟨out, h⟩
    · obtain ⟨out, hr, -, hn⟩ := C43_valid_partial (Ctrl.envLive e t.ops) db c.node m hi rfl
      refine ⟨out, ?_⟩
      unfold Ctrl.receivedLive
      rw [ht]
      simp only [Res.ok_bind]
      rw [hr]
      simp only [Res.ok_bind]
      rw [hn hacc]
      rfl

/-- C155: a message that makes no new node known is passed to the listener, if there is one, and what the listener
does then decides which nodes are listed and which listener there is. -/
theorem C155_message (db : StdDB) (l : CtrlListener) (e : Env) (c : Ctrl) (m : Message) (h : Handles c m)
    (hn : ¬ ∃ n, Announces db c.autoPort m n ∧ Fresh c n) :
    ∃ c' out, c.receivedLive db l e m = .ok (c', if c.listener then [.message m] else [], out) ∧
      (c.listener = true → c'.found = foundAfter c.found (l c [] (.message m)) ∧
        c'.listener = listenerAfter true (l c [] (.message m))) ∧
      (c.listener = false → c'.found = c.found ∧ c'.listener = false) := by
  obtain ⟨out, -, hr⟩ := (live_cases db l e c m).2.1 h hn
  refine ⟨{ (passOn db l ⟨c, [], []⟩ m).ctrl with node := out.node }, out, ?_, ?_, ?_⟩
  · rw [hr]
    unfold passOn
    cases hl : c.listener <;> rfl
  · intro hl
    dsimp only
    unfold passOn
    rw [if_pos hl]
    exact ⟨acts_found db _ c, by rw [← hl]; exact acts_listener db _ c⟩
  · intro hl
    dsimp only
    unfold passOn
    rw [if_neg (by rw [hl]; decide)]
    exact ⟨rfl, hl⟩

/-- C155: a message that makes a node known is first reported, with the node already listed. The message itself is
passed on if a listener is set after that. What the listener does in both calls decides which nodes are listed. -/
theorem C155_found (db : StdDB) (l : CtrlListener) (e : Env) (c : Ctrl) (m : Message) (h : Handles c m)
    (hl : c.listener = true) (n : RemoteNode) (ha : Announces db c.autoPort m n) (hf : Fresh c n) :
    let acts := l { c with found := c.found ++ [n] } [] (.newNode n)
    (listenerAfter true acts = false → ∃ c' out, c.receivedLive db l e m = .ok (c', [.newNode n], out) ∧
      c'.found = foundAfter (c.found ++ [n]) acts ∧ c'.listener = false) ∧
    (listenerAfter true acts = true → ∃ c' out acts',
      c.receivedLive db l e m = .ok (c', [.newNode n, .message m], out) ∧
      (∃ c1 : Ctrl, c1.found = foundAfter (c.found ++ [n]) acts ∧ acts' = l c1 [.newNode n] (.message m)) ∧
      c'.found = foundAfter (c.found ++ [n]) (acts ++ acts') ∧ c'.listener = listenerAfter true acts') := by
  intro acts
  obtain ⟨out, -, hr⟩ := (live_cases db l e c m).2.2 h n ha hf
  have ht : tellOf db l c n
      = ⟨acts.foldl (CtrlAct.run db) { c with found := c.found ++ [n] }, [.newNode n], acts.flatMap CtrlAct.nodeOps⟩ := by
    unfold tellOf
    rw [if_pos hl]
    rfl
  have hla : (acts.foldl (CtrlAct.run db) { c with found := c.found ++ [n] }).listener = listenerAfter true acts := by
    rw [acts_listener, ← hl]
  have hfa : (acts.foldl (CtrlAct.run db) { c with found := c.found ++ [n] }).found
      = foundAfter (c.found ++ [n]) acts := acts_found db acts _
  rw [ht] at hr
  generalize acts.foldl (CtrlAct.run db) { c with found := c.found ++ [n] } = c1 at *
  constructor
  · intro hb
    unfold passOn at hr
    rw [if_neg (by rw [show c1.listener = _ from hla, hb]; decide)] at hr
    exact ⟨_, out, hr, hfa, hla.trans hb⟩
  · intro hb
    unfold passOn at hr
    rw [if_pos (hla.trans hb)] at hr
    refine ⟨_, out, l c1 [.newNode n] (.message m), hr, ⟨c1, hfa, rfl⟩, ?_, ?_⟩
    · dsimp only [CtrlTurn.call]
      rw [acts_found, hfa]
      unfold foundAfter
      rw [List.any_append]
      cases acts.any Empties <;> cases (l c1 [.newNode n] (.message m)).any Empties <;> rfl
    · dsimp only [CtrlTurn.call]
      rw [acts_listener, hla, hb]

/-- C155: without a listener nothing is called and new nodes are listed; a message that is not handled changes
nothing. -/
theorem C155_silent (db : StdDB) (l : CtrlListener) (e : Env) (c : Ctrl) (m : Message)
    (h : ¬ Handles c m ∨ c.listener = false) :
    ∃ c' out, c.receivedLive db l e m = .ok (c', [], out) ∧ c'.listener = c.listener ∧
      (¬ Handles c m → c'.found = c.found) ∧
      (Handles c m → (¬ ∃ n, Announces db c.autoPort m n ∧ Fresh c n) → c'.found = c.found) ∧
      (Handles c m → ∀ n, Announces db c.autoPort m n → Fresh c n → c'.found = c.found ++ [n]) := by
  by_cases hh : Handles c m
  · have hl := h.resolve_left fun h => h hh
    by_cases hn : ∃ n, Announces db c.autoPort m n ∧ Fresh c n
    · obtain ⟨n, ha, hf⟩ := hn
      obtain ⟨out, -, hr⟩ := (live_cases db l e c m).2.2 hh n ha hf
      have ht : tellOf db l c n = ⟨{ c with found := c.found ++ [n] }, [], []⟩ := by
        unfold tellOf
        rw [if_neg (by rw [hl]; decide)]
      rw [ht] at hr
      unfold passOn at hr
      dsimp only at hr
      rw [if_neg (by rw [hl]; decide)] at hr
      refine ⟨_, out, hr, rfl, fun h => absurd hh h, fun _ h => absurd ⟨n, ha, hf⟩ h, fun _ n' ha' _ => ?_⟩
      have := ha.2.2.symm.trans ha'.2.2
      injection this with this
      rw [this]
    · obtain ⟨out, -, hr⟩ := (live_cases db l e c m).2.1 hh hn
      unfold passOn at hr
      dsimp only at hr
      rw [if_neg (by rw [hl]; decide)] at hr
      exact ⟨_, out, hr, rfl, fun h => absurd hh h, fun _ _ => rfl, fun _ n ha hf => absurd ⟨n, ha, hf⟩ hn⟩
  · obtain ⟨out, hr⟩ := (live_cases db l e c m).1 hh
    exact ⟨_, out, hr, rfl, fun _ => rfl, fun h => absurd h hh, fun h => absurd h hh⟩

theorem foundAfter_cases (ns : List RemoteNode) (acts : List CtrlAct) :
    foundAfter ns acts = [] ∨ foundAfter ns acts = ns := by
  unfold foundAfter
  split
  · exact .inl rfl
  · exact .inr rfl

theorem distinct_after {ns : List RemoteNode} (h : Distinct ns) (acts : List CtrlAct) :
    Distinct (foundAfter ns acts) := by
  rcases foundAfter_cases ns acts with e | e
  · rw [e]; exact List.Pairwise.nil
  · rw [e]; exact h

/-- C155, and C44: whatever the listener does while it is called, no node is listed twice. -/
theorem C155_unique (db : StdDB) (evs : List CtrlEvent) :
    Distinct (evs.foldl (CtrlEvent.run db) (Ctrl.new db)).found := by
  suffices ∀ c : Ctrl, Distinct c.found → Distinct (evs.foldl (CtrlEvent.run db) c).found from
    this _ List.Pairwise.nil
  induction evs with
  | nil => exact fun c h => h
  | cons ev evs ih =>
    intro c h
    refine ih (ev.run db c) ?_
    cases ev with
    | act a =>
      show Distinct (a.run db c).found
      have : (a.run db c).found = foundAfter c.found [a] := acts_found db [a] c
      rw [this]
      exact distinct_after h _
    | received l e m =>
      show Distinct (match c.receivedLive db l e m with | .ok (c, _) => c | _ => c).found
      by_cases hs : ¬ Handles c m ∨ c.listener = false
      · obtain ⟨c', out, hr, -, hk, hk1, hk2⟩ := C155_silent db l e c m hs
        rw [hr]
        show Distinct c'.found
        by_cases hh : Handles c m
        · by_cases hn : ∃ n, Announces db c.autoPort m n ∧ Fresh c n
          · obtain ⟨n, ha, hf⟩ := hn
            rw [hk2 hh n ha hf]
            exact distinct_append h hf
          · rw [hk1 hh hn]
            exact h
        · rw [hk hh]
          exact h
      · have hh : Handles c m := Classical.byContradiction fun h => hs (.inl h)
        have hl : c.listener = true := by
          cases hc : c.listener
          · exact absurd (.inr hc) hs
          · rfl
        by_cases hn : ∃ n, Announces db c.autoPort m n ∧ Fresh c n
        · obtain ⟨n, ha, hf⟩ := hn
          have hd := distinct_append h hf
          obtain ⟨h1, h2⟩ := C155_found db l e c m hh hl n ha hf
          cases hb : listenerAfter true (l { c with found := c.found ++ [n] } [] (.newNode n)) with
          | false =>
            obtain ⟨c', out, hr, hfo, -⟩ := h1 hb
            rw [hr]
            show Distinct c'.found
            rw [hfo]
            exact distinct_after hd _
          | true =>
            obtain ⟨c', out, acts', hr, -, hfo, -⟩ := h2 hb
            rw [hr]
            show Distinct c'.found
            rw [hfo]
            exact distinct_after hd _
        · obtain ⟨c', out, hr, hk, -⟩ := C155_message db l e c m hh hn
          rw [hr]
          show Distinct c'.found
          rw [(hk hl).1]
          exact distinct_after h _

/-- C155: a listener that clears the controller when it is told of a node is told of it again by the next message of
the node. -/
theorem C155_again (db : StdDB) (l : CtrlListener) (e : Env) (c : Ctrl) (m : Message) (h : Handles c m)
    (hl : c.listener = true) (n : RemoteNode) (ha : Announces db c.autoPort m n) (hf : Fresh c n)
    (hclear : ∀ c cs n, l c cs (.newNode n) = [.clear]) (hmsg : ∀ c cs m, l c cs (.message m) = []) :
    ∃ c' out, c.receivedLive db l e m = .ok (c', [.newNode n, .message m], out) ∧ c'.found = [] ∧
      (Handles c' m → c'.autoPort = c.autoPort →
        ∃ c'' out, c'.receivedLive db l e m = .ok (c'', [.newNode n, .message m], out)) := by
  obtain ⟨-, h2⟩ := C155_found db l e c m h hl n ha hf
  obtain ⟨c', out, acts', hr, ⟨c1, -, ha'⟩, hfo, hli⟩ := h2 (by rw [hclear]; rfl)
  rw [hmsg] at ha'
  have he : c'.found = [] := by rw [hfo, hclear]; rfl
  refine ⟨c', out, hr, he, fun hh hp => ?_⟩
  have hl' : c'.listener = true := by rw [hli, ha']; rfl
  obtain ⟨-, h2⟩ := C155_found db l e c' m hh hl' n (hp ▸ ha) (fun x hx => by rw [he] at hx; cases hx)
  obtain ⟨c'', out', acts', hr', -⟩ := h2 (by rw [hclear]; rfl)
  exact ⟨c'', out', hr'⟩

/-- The listener does nothing but use the node of the controller. -/
def NodeOnly (l : CtrlListener) : Prop := ∀ c cs x, ∀ a ∈ l c cs x, ∃ op, a = .node op

theorem nodeOnly_acts (db : StdDB) (acts : List CtrlAct) (h : ∀ a ∈ acts, ∃ op, a = .node op) (c : Ctrl) :
    ∃ n, acts.foldl (CtrlAct.run db) c = { c with node := n } := by
  induction acts generalizing c with
  | nil => exact ⟨c.node, rfl⟩
  | cons a acts ih =>
    obtain ⟨op, rfl⟩ := h a (.head _)
    obtain ⟨n, hn⟩ := ih (fun a ha => h a (.tail _ ha)) (CtrlAct.run db c (.node op))
    exact ⟨n, hn⟩

theorem passOn_nodeOnly (db : StdDB) (l : CtrlListener) (hl : NodeOnly l) (s : CtrlTurn) (m : Message) :
    ∃ n, (passOn db l s m).ctrl = { s.ctrl with node := n } ∧
      (passOn db l s m).calls = s.calls ++ if s.ctrl.listener then [.message m] else [] := by
  unfold passOn
  by_cases h : s.ctrl.listener = true
  · rw [if_pos h, if_pos h]
    obtain ⟨n, hn⟩ := nodeOnly_acts db (l s.ctrl s.calls (.message m)) (hl _ _ _) s.ctrl
    exact ⟨n, hn, rfl⟩
  · rw [if_neg h, if_neg h]
    exact ⟨s.ctrl.node, rfl, (List.append_nil _).symm⟩

/-- C155: for a listener that only uses the node, the controller does what `Ctrl.received` says, on which the other
theorems about controllers rest. -/
theorem C155_same (db : StdDB) (l : CtrlListener) (hl : NodeOnly l) (e : Env) (c : Ctrl) (m : Message) :
    ∃ e', c.receivedLive db l e m = c.received db e' m := by
  have key : ∀ (t : CtrlTurn) (c1 : Ctrl) (calls : List CtrlCall), CtrlTurn.onMessage db l ⟨c, [], []⟩ m = .ok t →
      c.onMessage db m = .ok (c1, calls) → t.calls = calls → (∃ n, t.ctrl = { c1 with node := n }) →
      ∃ e', c.receivedLive db l e m = c.received db e' m := by
    rintro t c1 calls h1 h2 h3 ⟨n, h4⟩
    refine ⟨Ctrl.envLive e t.ops, ?_⟩
    have henv : Ctrl.env (Ctrl.envLive e t.ops) = Ctrl.envLive e t.ops := by
      unfold Ctrl.env Ctrl.envLive
      congr 1
      funext n cs x
      cases x <;> rfl
    unfold Ctrl.receivedLive Ctrl.received
    rw [h1, h2, henv]
    simp only [Res.ok_bind]
    cases c.node.received (Ctrl.envLive e t.ops) db m with
    | panic => rfl
    | err x => rfl
    | ok out =>
      simp only [Res.ok_bind]
      by_cases hc : out.calls.contains (.message m) = true
      · rw [if_pos hc, if_pos hc, h3, h4]
      · rw [if_neg hc, if_neg hc]
  obtain ⟨a1, a2, a3⟩ := liveMessage_cases db l c m
  obtain ⟨b1, b2, b3⟩ := onMessage_cases db c m
  by_cases ho : Own c m
  · exact key _ _ _ (a1 ho) (b1 ho) rfl ⟨c.node, rfl⟩
  · by_cases hn : ∃ n, Announces db c.autoPort m n ∧ Fresh c n
    · obtain ⟨n, ha, hf⟩ := hn
      have ht : ∃ k, (tellOf db l c n).ctrl = { c with node := k, found := c.found ++ [n] } ∧
          (tellOf db l c n).calls = if c.listener then [.newNode n] else [] := by
        unfold tellOf
        by_cases h : c.listener = true
        · rw [if_pos h, if_pos h]
          obtain ⟨k, hk⟩ := nodeOnly_acts db (l { c with found := c.found ++ [n] } [] (.newNode n)) (hl _ _ _)
            { c with found := c.found ++ [n] }
          exact ⟨k, hk, rfl⟩
        · rw [if_neg h, if_neg h]
          exact ⟨c.node, rfl, rfl⟩
      obtain ⟨k, hk, hc⟩ := ht
      obtain ⟨k', hk', hc'⟩ := passOn_nodeOnly db l hl (tellOf db l c n) m
      refine key _ _ _ (a3 ho n ha hf) (b3 ho n ha hf) ?_ ⟨k', ?_⟩
      · rw [hc', hc, hk]
        cases c.listener <;> rfl
      · rw [hk', hk]
    · obtain ⟨k, hk, hc⟩ := passOn_nodeOnly db l hl ⟨c, [], []⟩ m
      exact key _ _ _ (a2 ho hn) (b2 ho hn) hc ⟨k, hk⟩

/-- A listener that clears the controller when told of a node, and one that removes itself. -/
def clearing : CtrlListener := fun _ _ x => match x with | .newNode _ => [.clear] | _ => []
def leaving : CtrlListener := fun _ _ x => match x with | .newNode _ => [.setListener false] | _ => []

/-- The calls of the listener and the number of listed nodes after some messages. -/
def liveCalls (l : CtrlListener) (c : Ctrl) : List Message → List (List CtrlCall × Nat)
  | [] => []
  | m :: ms =>
    match c.receivedLive stdDB l ⟨false, fun _ => false, fun _ => false, fun _ _ _ => ([], none)⟩ m with
    | .ok (c, calls, _) => (calls, c.found.length) :: liveCalls l c ms
    | _ => []

/-- The hypotheses of the theorems: a node announces itself twice to a controller whose listener clears it, and to one
whose listener removes itself; by `C155_silent` the message is handled where a call is made. -/
example : let m := listMessage ⟨"10.0.0.2", 3610⟩ [1, 1, 0x30, 1]
    let c := (CtrlOp.runAll stdDB (Ctrl.new stdDB) [.setListener true]).1
    c.listener = true ∧ ∃ n, RemoteNode.ofInstanceListAndConfig stdDB false m = .ok n ∧
    liveCalls clearing c [m, m] = [([.newNode n, .message m], 0), ([.newNode n, .message m], 0)] ∧
    liveCalls leaving c [m, m] = [([.newNode n], 1), ([], 1)] := by
  refine ⟨rfl, ?_⟩
  let n := match RemoteNode.ofInstanceListAndConfig stdDB false (listMessage ⟨"10.0.0.2", 3610⟩ [1, 1, 0x30, 1]) with
    | .ok n => n | _ => RemoteNode.mk "" 0 [] []
  refine ⟨n, by decide +kernel, by decide +kernel, by decide +kernel⟩

end Verif.Props
