import Verif.Props.ServeOrder
import Verif.Props.Sequences

/-!
# C124, C125: what write requests can not change

A program that stores what write requests hold, as `doc/device_overview.md` shows, while any number of messages are
handled at the same time.
-/

namespace Verif.Props
open Verif Model Spec Lemmas

/-- The services that write. -/
def Writes (e : Byte) : Prop := e = 0x60 ∨ e = 0x61 ∨ e = 0x6E

/-- The callbacks do nothing to the node but store the data of write requests in the properties they are for. -/
def OnlyStores (env : Env) : Prop :=
  ∀ n cs x, ∀ op ∈ (env.behave n cs x).1, ∃ r e p, (x = .request r e p ∨ x = .handler r e p) ∧ Writes e ∧
    op = .obj r (.write p.code p.data)

/-- Calls of the program: starting, stopping, sending, and writing data of the size the property has. -/
def KeepsSizes (n : Node) : NodeOp → Prop
  | .setSelf _ | .start _ _ | .stop | .send _ => True
  | .obj r op => ∃ c d, op.target = some (c, d) ∧
      ∀ o q, n.get r = some o → o.props.lookup c = some q → d.length = q.data.length
  | _ => False

/-- The program itself writes the property `c` of the object `r`. -/
def ProgramWrites (acts : List ServeAct) (r : ObjRef) (c : Byte) : Prop :=
  ∃ op d, ServeAct.call (.obj r op) ∈ acts ∧ op.target = some (c, d)

/-- The object `o'` has the properties of `o`, with data of the same size; those of which `free` does not hold and
which may not be written have the same data. -/
def SameShape (free : Byte → Prop) (o o' : Obj) : Prop :=
  o'.codes = o.codes ∧ ∀ c, (o.props.lookup c = none ∧ o'.props.lookup c = none) ∨
    ∃ q d, o.props.lookup c = some q ∧ o'.props.lookup c = some (q.setData d) ∧ d.length = q.data.length ∧
      (q.setAttr = 0 → ¬ free c → d = q.data)

theorem SameShape.refl (free : Byte → Prop) (o : Obj) : SameShape free o o := by
  refine ⟨rfl, fun c => ?_⟩
  cases h : o.props.lookup c with
  | none => exact .inl ⟨rfl, rfl⟩
  | some q => exact .inr ⟨q, q.data, rfl, rfl, rfl, fun _ _ => rfl⟩

theorem SameShape.write {free : Byte → Prop} {o o' : Obj} (h : SameShape free o o') (c : Byte) (d : Bytes)
    (hd : ∀ q, o.props.lookup c = some q → d.length = q.data.length ∧ (q.setAttr ≠ 0 ∨ free c)) :
    SameShape free o { o' with props := o'.props.update c d } := by
  refine ⟨h.1, fun c' => ?_⟩
  show (o.props.lookup c' = none ∧ (o'.props.update c d).lookup c' = none) ∨
    ∃ q x, o.props.lookup c' = some q ∧ (o'.props.update c d).lookup c' = some (q.setData x) ∧
      x.length = q.data.length ∧ (q.setAttr = 0 → ¬ free c' → x = q.data)
  rw [lookup_update]
  rcases h.2 c' with ⟨h1, h2⟩ | ⟨q, d', h1, h2, h3, h4⟩
  · left
    refine ⟨h1, ?_⟩
    split
    · next e => subst e; rw [h2]; rfl
    · exact h2
  · right
    by_cases e : c' = c
    · subst e
      obtain ⟨k1, k2⟩ := hd q h1
      refine ⟨q, d, h1, by rw [if_pos rfl, h2]; rfl, k1, fun a b => ?_⟩
      rcases k2 with k2 | k2
      · exact absurd a k2
      · exact absurd k2 b
    · exact ⟨q, d', h1, by rw [if_neg e, h2], h3, h4⟩

/-- Every object of the node has kept its shape. -/
def Shaped (free : ObjRef → Byte → Prop) (n n' : Node) : Prop :=
  ∀ r, (n.get r = none ∧ n'.get r = none) ∨
    ∃ o o', n.get r = some o ∧ n'.get r = some o' ∧ SameShape (free r) o o'

theorem Shaped.lookup {free : ObjRef → Byte → Prop} {n n' : Node} (h : Shaped free n n') (c : ObjectCode) :
    n'.lookupObject c = n.lookupObject c := by
  refine lookup_codes (fun r => ?_) c
  rcases h r with ⟨h1, h2⟩ | ⟨o, o', h1, h2, h3⟩
  · rw [h1, h2]
  · rw [h1, h2]
    exact congrArg some h3.1

theorem Shaped.same {free : ObjRef → Byte → Prop} {n n' n'' : Node} (h : Shaped free n n')
    (e : ∀ r, n''.get r = n'.get r) : Shaped free n n'' := by
  intro r
  rw [e r]
  exact h r

/-- A write of the right size keeps the shape. -/
theorem Shaped.write {free : ObjRef → Byte → Prop} {n n' : Node} (h : Shaped free n n') (db : StdDB) (r : ObjRef)
    (op : ObjOp) (c : Byte) (d : Bytes) (hop : op.target = some (c, d))
    (hd : ∀ o q, n.get r = some o → o.props.lookup c = some q →
      d.length = q.data.length ∧ (q.setAttr ≠ 0 ∨ free r c)) :
    Shaped free n ((NodeOp.obj r op).run db n').1 := by
  intro r'
  have e : ((NodeOp.obj r op).run db n').1.get r' = _ := onObj_get n' r r' _
  rw [e]
  by_cases hr : r' = r
  · subst hr
    rw [if_pos rfl]
    rcases h r' with ⟨h1, h2⟩ | ⟨o, o', h1, h2, h3⟩
    · exact .inl ⟨h1, by rw [h2]; rfl⟩
    · refine .inr ⟨o, _, h1, by rw [h2]; rfl, ?_⟩
      show SameShape (free r') o (op.run db o').1
      rw [run_target db o' op c d hop, setPropertyData_fst]
      exact h3.write c d (fun q hq => hd o q h1 hq)
  · rw [if_neg hr]
    exact h r'

theorem announce_get (n : Node) (r : ObjRef) : n.announce.1.get r = n.get r := by
  have hm : ∀ m, (n.announceMessage m).1.get r = n.get r := by
    intro m
    unfold Node.announceMessage Node.nextTID
    split
    · rfl
    · dsimp only; split <;> cases r <;> rfl
  unfold Node.announce Node.announceProperty
  split
  · rfl
  · split
    · rfl
    · split
      · rfl
      · exact hm _

/-- The calls that are allowed keep the shape. -/
theorem Shaped.call {free : ObjRef → Byte → Prop} {n n' : Node} (h : Shaped free n n') (db : StdDB) (op : NodeOp)
    (hop : KeepsSizes n op) (hf : ∀ r x c d, op = .obj r x → x.target = some (c, d) → free r c) :
    Shaped free n (op.run db n').1 := by
  cases op with
  | setSelf b => exact h.same (fun r => by cases r <;> rfl)
  | stop => exact h.same (fun r => by cases r <;> rfl)
  | start res stays =>
    refine h.same (fun r => ?_)
    show (n'.start res stays).1.get r = _
    unfold Node.start
    split
    · cases r <;> rfl
    · rw [announce_get]
      cases r <;> rfl
  | send m =>
    refine h.same (fun r => ?_)
    show (n'.sendMessage m).1.get r = _
    have hn : n'.nextTID.get r = n'.get r := by
      unfold Node.nextTID; split <;> cases r <;> rfl
    unfold Node.sendMessage
    split
    · rfl
    · dsimp only
      split
      · exact hn
      · split <;> exact hn
  | obj r x =>
    obtain ⟨c, d, h1, h2⟩ := hop
    exact h.write db r x c d h1 (fun o q ho hq => ⟨h2 o q ho hq, .inr (hf r x c d rfl h1)⟩)
  | addDevice _ => exact absurd hop id
  | addProfile _ => exact absurd hop id
  | setManufacturer _ => exact absurd hop id

/-- What may be written: the property of the object has this size and may be written. -/
def Fit (n : Node) (r : ObjRef) (p : PProp) : Prop :=
  ∀ o q, n.get r = some o → o.props.lookup p.code = some q → p.data.length = q.data.length ∧ q.setAttr ≠ 0

/-- What a goroutine may still write fits. -/
def WillFit (n : Node) (h : Serving) : Prop :=
  let all (r : ObjRef) (ps : List PProp) : Prop := Writes h.msg.esv → ∀ p ∈ ps, Fit n r p
  match h.pc with
  | .start => True
  | .check r todo => n.lookupObject h.msg.getDEOJ = some r ∧
      (Writes h.msg.esv → ∀ p ∈ h.msg.requested, p ∈ todo ∨ Fit n r p)
  | .listeners => ∀ r, n.lookupObject h.msg.getDEOJ = some r → all r h.msg.requested
  | .inside ops _ k => (∀ op ∈ ops, ∃ r p, op = .obj r (.write p.code p.data) ∧ Fit n r p) ∧
      (match k with
       | .message r => all r h.msg.requested
       | .request r p ps _ => all r (p :: ps)
       | .handler r _ ps _ => all r ps)
  | .request r todo _ => all r todo
  | .handler r p _ todo _ => all r (p :: todo)
  | _ => True

theorem writes_iff : ∀ e : Byte, Writes e → (ESV.isReadRequest e || ESV.isWriteRequest e) = true := by
  intro e h
  rw [esv_rw]
  rcases h with h | h | h
  · exact .inl h
  · exact .inr (.inl h)
  · exact .inr (.inr (.inr h))

theorem impossible_fit (n : Node) (h : Serving) : WillFit n h.impossible ∧ h.impossible.msg = h.msg := by
  unfold Serving.impossible
  split
  · exact ⟨trivial, rfl⟩
  · exact ⟨trivial, rfl⟩

/-- A step of a goroutine. -/
theorem willFit_step {free : ObjRef → Byte → Prop} {env : Env} (he : OnlyStores env) (db : StdDB) {n n' : Node}
    (hn : Shaped free n n') (h : Serving) (hw : WillFit n h) :
    Shaped free n (h.step env db n').1 ∧ WillFit n (h.step env db n').2.1 := by
  obtain ⟨m, cs, pc⟩ := h
  have imp := (impossible_fit n ⟨m, cs, pc⟩).1
  have hcall : ∀ (x : Call), (∀ r e p, x = .request r e p ∨ x = .handler r e p → Writes e → Fit n r p) →
      ∀ op ∈ (env.behave n' cs x).1, ∃ r p, op = .obj r (.write p.code p.data) ∧ Fit n r p := by
    intro x hx op hop
    obtain ⟨r, e, p, h1, h2, h3⟩ := he n' cs x op hop
    exact ⟨r, p, h3, hx r e p h1 h2⟩
  cases pc with
  | start =>
    simp only [Serving.step]
    split
    · exact ⟨hn, trivial⟩
    · split
      · exact ⟨hn, imp⟩
      · next r hr =>
        rw [hn.lookup] at hr
        split
        · exact ⟨hn, imp⟩
        · split
          · exact ⟨hn, hr, fun _ p hp => .inl hp⟩
          · next hrw =>
            refine ⟨hn, fun r' _ hwr => absurd (writes_iff _ hwr) hrw⟩
  | check r todo =>
    cases todo with
    | nil =>
      refine ⟨hn, fun r' hr' hwr p hp => ?_⟩
      obtain ⟨h1, h2⟩ := hw
      have h1 : n.lookupObject m.getDEOJ = some r := h1
      rw [show n.lookupObject m.getDEOJ = some r' from hr'] at h1
      cases h1
      rcases h2 hwr p hp with h | h
      · exact absurd h List.not_mem_nil
      · exact h
    | cons p ps =>
      simp only [Serving.step]
      obtain ⟨h1, h2⟩ := hw
      split
      · exact ⟨hn, imp⟩
      · next o' ho' =>
        split
        · next hv =>
          refine ⟨hn, h1, fun hwr x hx => ?_⟩
          rcases h2 hwr x hx with h | h
          · rcases List.mem_cons.mp h with rfl | h
            · right
              have hp := (valid_iff o' m.esv ((esv_rw _).mp (writes_iff _ hwr)) x).mp hv
              obtain ⟨q', hq', hq2, -⟩ := hp
              obtain ⟨hq3, hq4⟩ := hq2 hwr
              intro o q ho hq
              rcases hn r with ⟨k1, -⟩ | ⟨o1, o2, k1, k2, k3⟩
              · rw [ho] at k1; cases k1
              · rw [ho] at k1; cases k1
                rw [ho'] at k2; cases k2
                rcases k3.2 x.code with ⟨j1, -⟩ | ⟨y, d, j1, j2, j3, -⟩
                · rw [hq] at j1; cases j1
                · rw [hq] at j1; cases j1
                  rw [hq'] at j2
                  cases j2
                  exact ⟨hq4.trans j3, hq3⟩
            · exact .inl h
          · exact .inr h
        · exact ⟨hn, imp⟩
  | listeners =>
    simp only [Serving.step]
    split
    · exact ⟨hn, trivial⟩
    · next r hr =>
      rw [hn.lookup] at hr
      split
      · refine ⟨hn, ?_, hw r hr⟩
        refine hcall _ (fun r e p hx => ?_)
        rcases hx with hx | hx <;> cases hx
      · exact ⟨hn, hw r hr⟩
  | inside ops e k =>
    cases ops with
    | nil =>
      refine ⟨hn, ?_⟩
      cases k with
      | message r => exact hw.2
      | request r p ps last => exact hw.2
      | handler r e1 ps last => exact hw.2
    | cons op ops =>
      obtain ⟨r, p, rfl, hfit⟩ := hw.1 op (List.mem_cons_self ..)
      refine ⟨hn.write db r _ p.code p.data rfl (fun o q ho hq => ?_),
        fun x hx => hw.1 x (List.mem_cons_of_mem _ hx), hw.2⟩
      exact ⟨(hfit o q ho hq).1, .inl (hfit o q ho hq).2⟩
  | request r todo last =>
    cases todo with
    | nil => cases last <;> exact ⟨hn, trivial⟩
    | cons p ps =>
      simp only [Serving.step]
      split
      · refine ⟨hn, ?_, hw⟩
        refine hcall _ (fun r' e' p' hx hwr => ?_)
        rcases hx with hx | hx
        · cases hx
          exact hw hwr p (List.mem_cons_self ..)
        · cases hx
      · exact ⟨hn, hw⟩
  | handler r p e1 todo last =>
    simp only [Serving.step]
    have hrest : Writes m.esv → ∀ x ∈ todo, Fit n r x := fun hwr x hx => hw hwr x (List.mem_cons_of_mem _ hx)
    split
    · refine ⟨hn, ?_, hrest⟩
      refine hcall _ (fun r' e' p' hx hwr => ?_)
      rcases hx with hx | hx
      · cases hx
      · cases hx
        exact hw hwr p (List.mem_cons_self ..)
    · exact ⟨hn, hrest⟩
  | respond =>
    simp only [Serving.step]
    split
    · exact ⟨hn, trivial⟩
    · split <;> exact ⟨hn, trivial⟩
  | answer r todo res =>
    cases todo with
    | nil => exact ⟨hn, trivial⟩
    | cons p ps =>
      simp only [Serving.step]
      split <;> exact ⟨hn, trivial⟩
  | done _ _ => exact ⟨hn, trivial⟩
  | crashed => exact ⟨hn, trivial⟩

theorem shaped_run {free : ObjRef → Byte → Prop} {env : Env} (he : OnlyStores env) (db : StdDB) (n : Node)
    (acts : List ServeAct) (hacts : ∀ op, ServeAct.call op ∈ acts → KeepsSizes n op ∧
      ∀ r x c d, op = .obj r x → x.target = some (c, d) → free r c) :
    ∀ s : ServeSt, Shaped free n s.node → (∀ h ∈ s.serving, WillFit n h) →
      Shaped free n (s.run env db acts).node := by
  induction acts with
  | nil => exact fun s h _ => h
  | cons a acts ih =>
    intro s hs hw
    have ih := ih (fun op hop => hacts op (List.mem_cons_of_mem _ hop))
    show Shaped free n ((s.step env db a).run env db acts).node
    cases a with
    | arrive m =>
      refine ih _ hs (fun h hh => ?_)
      rcases List.mem_append.mp hh with hh | hh
      · exact hw h hh
      · rw [List.mem_singleton.mp hh]; exact trivial
    | call op =>
      obtain ⟨h1, h2⟩ := hacts op (List.mem_cons_self ..)
      exact ih (s.step env db (.call op)) (hs.call db op h1 h2) hw
    | step i =>
      cases hi : s.serving[i]? with
      | none =>
        have e : s.step env db (.step i) = s := by simp only [ServeSt.step, hi]
        rw [e]
        exact ih s hs hw
      | some h =>
        have e : s.step env db (.step i) = ⟨(h.step env db s.node).1, s.serving.set i (h.step env db s.node).2.1,
            s.sent ++ (h.step env db s.node).2.2⟩ := by
          simp only [ServeSt.step, hi]
        rw [e]
        obtain ⟨k1, k2⟩ := willFit_step he db hs h (hw h (List.mem_of_getElem? hi))
        refine ih _ k1 (fun x hx => ?_)
        rcases List.mem_or_eq_of_mem_set hx with hx | rfl
        · exact hw x hx
        · exact k2

/-! ## C124: data of the wrong size -/

/-- **C124**: a write request with data of another size than the property has is refused: no callback is called,
nothing changes, and the answer has the code for requests that can not be processed. -/
theorem C124_refused (env : Env) (db : StdDB) (n : Node) (m : Message) (hm : Built m) (hi : ¬ Ignored n m)
    (hw : Writes m.esv) (r : ObjRef) (o : Obj) (ho : Addressed n m.getDEOJ r o) (p : PProp) (hp : p ∈ properties m)
    (q : EProp) (hq : o.props.lookup p.code = some q) (hs : p.data.length ≠ q.data.length) :
    ∃ out res, n.received env db m = .ok out ∧ out.node = n ∧ out.calls = [] ∧ out.sent = [] ∧
      out.reply = some res ∧ res.getTID = m.getTID ∧ res.getDEOJ = m.getSEOJ ∧ res.esv = specRefusal m.esv := by
  have ha : ¬ Accepts n m := by
    rintro ⟨r', o', h1, -, h2⟩
    obtain ⟨rfl, rfl⟩ := addressed_unique ho h1
    have hw' : m.esv = 0x60 ∨ m.esv = 0x61 ∨ m.esv = 0x62 ∨ m.esv = 0x6E := (esv_rw _).mp (writes_iff _ hw)
    obtain ⟨q', h3, h4, -⟩ := h2 hw' p hp
    rw [hq] at h3
    cases h3
    exact hs (h4 hw).2
  obtain ⟨out, res, h1, h2, h3, h4, h5, -, h6, -, h7, h8⟩ := C33_rejected env db n m hm hi ha
  exact ⟨out, res, h1, h2, h3, h4, h5, h6, h7, h8⟩

/-- **C124**: whatever messages arrive, however many at the same time and in whatever order their steps are made,
every property keeps the size of its data, if the program stores what write requests hold and writes data of the
right size itself. No property appears or disappears. -/
theorem C124_sizes (env : Env) (he : OnlyStores env) (db : StdDB) (n : Node) (acts : List ServeAct)
    (hacts : ∀ op, ServeAct.call op ∈ acts → KeepsSizes n op) (s : ServeSt)
    (hs : s = (ServeSt.init n).run env db acts) (r : ObjRef) (o : Obj) (ho : n.get r = some o) :
    ∃ o', s.node.get r = some o' ∧ o'.code = o.code ∧
      ∀ c, (o'.props.lookup c).map (·.data.length) = (o.props.lookup c).map (·.data.length) := by
  subst hs
  have key := shaped_run (free := fun _ _ => True) he db n acts (fun op hop => ⟨hacts op hop, fun _ _ _ _ _ _ => trivial⟩)
    (ServeSt.init n) (fun r => by
      show (n.get r = none ∧ n.get r = none) ∨ ∃ o o', n.get r = some o ∧ n.get r = some o' ∧ _
      cases h : n.get r with
      | none => exact .inl ⟨rfl, rfl⟩
      | some o => exact .inr ⟨o, o, rfl, rfl, SameShape.refl _ o⟩) (fun h hh => absurd hh List.not_mem_nil) r
  rcases key with ⟨k, -⟩ | ⟨a, b, k1, k2, k3⟩
  · rw [ho] at k; cases k
  · rw [ho] at k1
    cases k1
    refine ⟨b, k2, ?_, fun c => ?_⟩
    · unfold Obj.code
      rw [k3.1]
    · rcases k3.2 c with ⟨j1, j2⟩ | ⟨q, d, j1, j2, j3, -⟩
      · rw [j1, j2]
      · rw [j1, j2]
        exact congrArg some j3

theorem keepingEnv_stores : OnlyStores keepingEnv := by
  intro n cs x op hop
  cases x with
  | request r e p =>
    simp only [keepingEnv] at hop
    split at hop
    · next h => exact ⟨r, e, p, .inl rfl, .inr (.inl h), List.mem_singleton.mp hop⟩
    · exact absurd hop List.not_mem_nil
  | message m => exact absurd hop List.not_mem_nil
  | handler r e p => exact absurd hop List.not_mem_nil

/-- Two writes at the same time, one of them too long, and a write by the program. -/
def sizeActs : List ServeAct :=
  [.arrive (request 0x61 [⟨0x80, [0x31]⟩]), .arrive (request 0x61 [⟨0x80, [0x32, 0x33]⟩]), .step 0, .step 1, .step 0,
   .call (.obj (.device 0) (.write 0xB0 [0x45])), .step 1, .step 0, .step 0, .step 0, .step 0, .step 0, .step 0]

example : Writes (request 0x61 [⟨0x80, [0x32, 0x33]⟩]).esv ∧ ¬ Ignored smallNode (request 0x61 [⟨0x80, [0x32, 0x33]⟩]) ∧
    properties (request 0x61 [⟨0x80, [0x32, 0x33]⟩]) = [⟨0x80, [0x32, 0x33]⟩] ∧
    (request 0x61 [⟨0x80, [0x32, 0x33]⟩]).getDEOJ = 0x013001 :=
  ⟨.inr (.inl rfl), fun h => absurd h.1 (by decide), by decide, by decide⟩

example : OnlyStores keepingEnv ∧ (∀ op, ServeAct.call op ∈ sizeActs → KeepsSizes smallNode op) ∧
    (((ServeSt.init smallNode).run keepingEnv stdDB sizeActs).node.get (.device 0)).map (·.props)
      = some [⟨"", 0x80, [0x31], 1, 1, 0⟩, ⟨"", 0xB0, [0x45], 1, 0, 0⟩] := by
  refine ⟨keepingEnv_stores, fun op hop => ?_, by decide +kernel⟩
  simp only [sizeActs, List.mem_cons, reduceCtorEq, ServeAct.call.injEq, false_or, or_false, List.not_mem_nil] at hop
  subst hop
  refine ⟨0xB0, [0x45], rfl, fun o q ho hq => ?_⟩
  cases ho
  cases hq
  rfl

/-! ## C125: properties that may not be written -/

/-- **C125**: whatever messages arrive, however many at the same time and in whatever order their steps are made, a
property that may not be written keeps its data and its attributes, if the program stores what write requests hold
and does not write this property itself. -/
theorem C125_kept (env : Env) (he : OnlyStores env) (db : StdDB) (n : Node) (acts : List ServeAct)
    (hacts : ∀ op, ServeAct.call op ∈ acts → KeepsSizes n op) (s : ServeSt)
    (hs : s = (ServeSt.init n).run env db acts) (r : ObjRef) (o : Obj) (ho : n.get r = some o) (c : Byte) (q : EProp)
    (hq : o.props.lookup c = some q) (hw : q.setAttr = 0) (hc : ¬ ProgramWrites acts r c) :
    ∃ o', s.node.get r = some o' ∧ o'.props.lookup c = some q := by
  subst hs
  have key := shaped_run (free := ProgramWrites acts) he db n acts
    (fun op hop => ⟨hacts op hop, fun r x c d e ht => ⟨x, d, by rw [← e]; exact hop, ht⟩⟩)
    (ServeSt.init n) (fun r => by
      show (n.get r = none ∧ n.get r = none) ∨ ∃ o o', n.get r = some o ∧ n.get r = some o' ∧ _
      cases h : n.get r with
      | none => exact .inl ⟨rfl, rfl⟩
      | some o => exact .inr ⟨o, o, rfl, rfl, SameShape.refl _ o⟩) (fun h hh => absurd hh List.not_mem_nil) r
  rcases key with ⟨k, -⟩ | ⟨a, b, k1, k2, k3⟩
  · rw [ho] at k; cases k
  · rw [ho] at k1
    cases k1
    refine ⟨b, k2, ?_⟩
    rcases k3.2 c with ⟨j1, -⟩ | ⟨q', d, j1, j2, -, j4⟩
    · rw [hq] at j1; cases j1
    · rw [hq] at j1
      cases j1
      rw [j2, j4 hw hc]
      rfl

/-- Two writes at the same time, one of them of a property that may not be written. -/
def readOnlyActs : List ServeAct :=
  [.arrive (request 0x61 [⟨0x80, [0x31]⟩]), .arrive (request 0x61 [⟨0xB0, [0x42]⟩]), .step 0, .step 1, .step 0,
   .step 1, .step 1, .step 0, .step 0, .step 0, .step 0, .step 0]

example : ¬ ProgramWrites readOnlyActs (.device 0) 0xB0 ∧
    (((ServeSt.init smallNode).run keepingEnv stdDB readOnlyActs).node.get (.device 0)).map (·.props)
      = some [⟨"", 0x80, [0x31], 1, 1, 0⟩, ⟨"", 0xB0, [0x41], 1, 0, 0⟩] := by
  refine ⟨fun ⟨op, d, h, _⟩ => ?_, by decide +kernel⟩
  simp [readOnlyActs] at h

end Verif.Props
