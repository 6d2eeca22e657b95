import Verif.Spec.Handler
import Verif.Lemmas.Node
import Verif.Props.Property
import Verif.Props.Service

/-! # Lemmas on message handling -/

namespace Verif.Lemmas
open Verif Model Spec Props

theorem findIdx?_first (l : List Obj) (c : ObjectCode) (i : Nat) (h : l.findIdx? (fun o => o.code == c) = some i) :
    ∃ o, FirstAt l c i o := by
  rw [List.findIdx?_eq_some_iff_getElem] at h
  obtain ⟨hi, h1, h2⟩ := h
  refine ⟨l[i], by simp [hi], by simpa using h1, ?_⟩
  intro j hj x hx
  have hjl : j < l.length := by omega
  rw [List.getElem?_eq_getElem hjl] at hx
  cases hx
  simpa using h2 j hj

theorem findIdx?_none (l : List Obj) (c : ObjectCode) (h : l.findIdx? (fun o => o.code == c) = none) :
    ∀ x ∈ l, x.code ≠ c := by
  rw [List.findIdx?_eq_none_iff] at h
  intro x hx
  simpa using h x hx

theorem first_unique {l : List Obj} {c : ObjectCode} {i j : Nat} {o o' : Obj} (h : FirstAt l c i o)
    (h' : FirstAt l c j o') : i = j ∧ o = o' := by
  have hij : i = j := by
    rcases Nat.lt_trichotomy i j with hlt | he | hlt
    · exact absurd h.2.1 (h'.2.2 i hlt o h.1)
    · exact he
    · exact absurd h'.2.1 (h.2.2 j hlt o' h'.1)
  subst hij
  exact ⟨rfl, Option.some.inj (h.1.symm.trans h'.1)⟩

theorem first_mem {l : List Obj} {c : ObjectCode} {i : Nat} {o : Obj} (h : FirstAt l c i o) :
    o ∈ l := List.mem_of_getElem? h.1

/-- What `LookupObject` finds. -/
theorem lookupObject_some {n : Node} {c : ObjectCode} {r : ObjRef} (h : n.lookupObject c = some r) :
    ∃ o, Addressed n c r o ∧ n.get r = some o := by
  unfold Node.lookupObject Node.lookupDevice Node.lookupProfile at h
  cases hd : n.devices.findIdx? (fun o => o.code == c) with
  | some i =>
    rw [hd] at h
    cases h
    obtain ⟨o, ho⟩ := findIdx?_first _ _ _ hd
    exact ⟨o, ho, ho.1⟩
  | none =>
    rw [hd] at h
    cases hp : n.profiles.findIdx? (fun o => o.code == c) with
    | none => rw [hp] at h; cases h
    | some i =>
      rw [hp] at h
      cases h
      obtain ⟨o, ho⟩ := findIdx?_first _ _ _ hp
      exact ⟨o, ⟨findIdx?_none _ _ hd, ho⟩, ho.1⟩

theorem lookupObject_none {n : Node} {c : ObjectCode} (h : n.lookupObject c = none) (r : ObjRef)
    (o : Obj) : ¬ Addressed n c r o := by
  unfold Node.lookupObject Node.lookupDevice Node.lookupProfile at h
  cases hd : n.devices.findIdx? (fun o => o.code == c) with
  | some i => rw [hd] at h; cases h
  | none =>
    rw [hd] at h
    cases hp : n.profiles.findIdx? (fun o => o.code == c) with
    | some i => rw [hp] at h; cases h
    | none =>
      intro ha
      cases r with
      | device i => exact findIdx?_none _ _ hd o (first_mem ha) ha.2.1
      | profile i => exact findIdx?_none _ _ hp o (first_mem ha.2) ha.2.2.1

theorem addressed_unique {n : Node} {c : ObjectCode} {r r' : ObjRef} {o o' : Obj}
    (h : Addressed n c r o) (h' : Addressed n c r' o') : r = r' ∧ o = o' := by
  cases r with
  | device i =>
    cases r' with
    | device j => obtain ⟨rfl, rfl⟩ := first_unique h h'; exact ⟨rfl, rfl⟩
    | profile j => exact absurd h.2.1 (h'.1 o (first_mem h))
  | profile i =>
    cases r' with
    | device j => exact absurd h'.2.1 (h.1 o' (first_mem h'))
    | profile j => obtain ⟨rfl, rfl⟩ := first_unique h.2 h'.2; exact ⟨rfl, rfl⟩

theorem addressed_lookup {n : Node} {c : ObjectCode} {r : ObjRef} {o : Obj} (h : Addressed n c r o) :
    n.lookupObject c = some r ∧ n.get r = some o := by
  cases hl : n.lookupObject c with
  | none => exact absurd h (lookupObject_none hl r o)
  | some r' =>
    obtain ⟨o', h1, h2⟩ := lookupObject_some hl
    obtain ⟨rfl, rfl⟩ := addressed_unique h h1
    exact ⟨rfl, h2⟩

theorem propAt_lt (l : List (Option PProp)) (k : Nat) (h : k < l.length) :
    Message.propAt l k = .ok l[k] := by
  unfold Message.propAt
  rw [if_neg (by omega), if_neg (by omega), Int.toNat_natCast, rd_ok _ _ h]

theorem propAt_ge (l : List (Option PProp)) (k : Nat) (h : l.length ≤ k) :
    Message.propAt l k = .ok none := by
  unfold Message.propAt
  rw [if_pos (by omega)]

/-- The properties the loops see. -/
theorem requested_eq (m : Message) : m.requested = properties m := by
  unfold Message.requested properties Message.getOPC
  have key : ∀ (k : Nat) (l : List (Option PProp)),
      (List.range k).filterMap (fun (i : Nat) => match Message.propAt l i with | .ok p => p | _ => none)
        = (l.take k).filterMap id := by
    intro k
    induction k with
    | zero => intro l; rfl
    | succ k ih =>
      intro l
      rw [List.range_succ, List.filterMap_append, ih]
      by_cases hk : k < l.length
      · rw [List.take_succ_eq_append_getElem hk, List.filterMap_append]
        congr 1
        rw [List.filterMap_cons, propAt_lt l k hk]
        cases l[k] <;> rfl
      · rw [List.take_of_length_le (by omega), List.take_of_length_le (by omega)]
        rw [List.filterMap_cons, propAt_ge l k (by omega)]
        simp
  exact key _ _

theorem valid_iff (o : Obj) (e : Byte) (he : e = 0x60 ∨ e = 0x61 ∨ e = 0x62 ∨ e = 0x6E) (p : PProp) :
    Node.validProperty o e p = true ↔ Permits o e p := by
  unfold Node.validProperty Permits
  cases h : o.props.lookup p.code with
  | none => simp
  | some q =>
    have hw : q.isWritable = true ↔ q.setAttr ≠ 0 := by
      simp [EProp.isWritable, Attr.isProhibited, Attr.prohibited]
    have hr : q.isReadable = true ↔ q.getAttr ≠ 0 := by
      simp [EProp.isReadable, Attr.isProhibited, Attr.prohibited]
    simp only [Option.some.injEq, exists_eq_left']
    rw [← hw, ← hr]
    unfold EProp.isAvailableService PProp.size EProp.size
    cases q.isWritable <;> cases q.isReadable <;>
      (by_cases hs : p.data.length = q.data.length) <;>
      rcases he with rfl | rfl | rfl | rfl <;>
      simp [hs, ESV.isWriteRequest, ESV.writeRequest, ESV.writeRequestResponseRequired, ESV.readRequest,
        ESV.writeReadRequest, ESV.notificationRequest]

theorem valid_all (o : Obj) (e : Byte) (he : e = 0x60 ∨ e = 0x61 ∨ e = 0x62 ∨ e = 0x6E)
    (ps : List PProp) : ps.all (Node.validProperty o e) = true ↔ ∀ p ∈ ps, Permits o e p := by
  rw [List.all_eq_true]
  exact forall_congr' fun p => forall_congr' fun _ => valid_iff o e he p

theorem esv_in_table : ∀ e : Byte, ESV.isValid e = true ↔ ∃ s ∈ Spec.Esv.table, s.code = e := by
  decide +kernel

theorem esv_rw : ∀ e : Byte, (ESV.isReadRequest e || ESV.isWriteRequest e) = true ↔
    (e = 0x60 ∨ e = 0x61 ∨ e = 0x62 ∨ e = 0x6E) := by decide +kernel

theorem validate_iff (n : Node) (m : Message) : n.validateReceivedMessage m = true ↔ Accepts n m := by
  unfold Node.validateReceivedMessage Accepts
  cases hl : n.lookupObject m.getDEOJ with
  | none =>
    simp only [Bool.false_eq_true, false_iff]
    rintro ⟨r, o, h, -⟩
    exact lookupObject_none hl r o h
  | some r =>
    obtain ⟨o, ha, hg⟩ := lookupObject_some hl
    simp only [hg]
    have hv := esv_in_table m.esv
    have hrw := esv_rw m.esv
    have hx : (∃ r o, Addressed n m.getDEOJ r o ∧ (∃ s ∈ Esv.table, s.code = m.esv) ∧
        (m.esv = 0x60 ∨ m.esv = 0x61 ∨ m.esv = 0x62 ∨ m.esv = 0x6E →
          ∀ p ∈ properties m, Permits o m.esv p)) ↔
        ((∃ s ∈ Esv.table, s.code = m.esv) ∧
        (m.esv = 0x60 ∨ m.esv = 0x61 ∨ m.esv = 0x62 ∨ m.esv = 0x6E →
          ∀ p ∈ properties m, Permits o m.esv p)) := by
      constructor
      · rintro ⟨r', o', h1, h2⟩
        obtain ⟨rfl, rfl⟩ := addressed_unique ha h1
        exact h2
      · intro h; exact ⟨r, o, ha, h⟩
    rw [hx, ← hv]
    cases hval : m.esv.isValid with
    | false => simp
    | true =>
      simp only [Bool.not_true, Bool.false_eq_true, if_false, true_and]
      by_cases h : m.esv = 0x60 ∨ m.esv = 0x61 ∨ m.esv = 0x62 ∨ m.esv = 0x6E
      · rw [if_pos (hrw.mpr h), requested_eq, valid_all o m.esv h]
        exact ⟨fun h' _ => h', fun h' => h' h⟩
      · rw [if_neg (fun h' => h (hrw.mp h'))]
        exact ⟨fun _ h' => absurd h' h, fun _ => rfl⟩

/-- A call has the effects of one callback. -/
theorem Effects.append {env : Env} {db : StdDB} {n n' n'' : Node} {done cs cs' : List Call}
    {ms ms' : List Sent} {rs rs' : List (Option Err)}
    (h : Effects env db n done cs n' ms rs) (h' : Effects env db n' (done ++ cs) cs' n'' ms' rs') :
    Effects env db n done (cs ++ cs') n'' (ms ++ ms') (rs ++ rs') := by
  induction h with
  | nil n done => simpa using h'
  | cons _ ih =>
    rw [List.append_assoc]
    exact .cons (ih (by rw [List.append_assoc]; exact h'))

/-- From state `s` to state `s'` the callbacks `cs` were called, with results `rs`. -/
def Ran (env : Env) (db : StdDB) (s s' : HState) (cs : List Call) (rs : List (Option Err)) : Prop :=
  s'.calls = s.calls ++ cs ∧ ∃ ms, s'.sent = s.sent ++ ms ∧ Effects env db s.node s.calls cs s'.node ms rs

theorem Ran.refl (env : Env) (db : StdDB) (s : HState) : Ran env db s s [] [] :=
  ⟨by simp, [], by simp, .nil _ _⟩

theorem Ran.trans {env : Env} {db : StdDB} {s s' s'' : HState} {cs cs' : List Call}
    {rs rs' : List (Option Err)} (h : Ran env db s s' cs rs) (h' : Ran env db s' s'' cs' rs') :
    Ran env db s s'' (cs ++ cs') (rs ++ rs') := by
  obtain ⟨h1, ms, h2, h3⟩ := h
  obtain ⟨k1, ms', k2, k3⟩ := h'
  refine ⟨by rw [k1, h1, List.append_assoc], ms ++ ms', by rw [k2, h2, List.append_assoc], ?_⟩
  rw [h1] at k3
  exact Effects.append h3 k3

theorem call_ran (env : Env) (db : StdDB) (s : HState) (c : Call) :
    Ran env db s (env.call db s c).1 [c] [(env.call db s c).2] :=
  ⟨rfl, _, rfl, by
    have := Effects.cons (env := env) (db := db) (n := s.node) (done := s.calls) (c := c)
      (Effects.nil (NodeOp.runAll db s.node (env.behave s.node s.calls c).1).1 (s.calls ++ [c]))
    rw [List.append_nil] at this
    exact this⟩

/-- No callback reported an error. -/
def NoErr (rs : List (Option Err)) : Prop := ∀ e ∈ rs, e = none

theorem NoErr_append (a b : List (Option Err)) : NoErr (a ++ b) ↔ NoErr a ∧ NoErr b := by
  unfold NoErr
  simp only [List.mem_append]
  constructor
  · intro h; exact ⟨fun e he => h e (.inl he), fun e he => h e (.inr he)⟩
  · rintro ⟨h1, h2⟩ e (he | he)
    · exact h1 e he
    · exact h2 e he

theorem maybe_ran (env : Env) (db : StdDB) (s : HState) (c : Call) (b : Bool) :
    ∃ rs, Ran env db s (if b then env.call db s c else (s, none)).1 (if b then [c] else []) rs ∧
      ((if b then env.call db s c else (s, none)).2 = none ↔ NoErr rs) := by
  cases b with
  | false => exact ⟨[], Ran.refl _ _ _, by simp [NoErr]⟩
  | true => exact ⟨_, call_ran env db s c, by simp [NoErr]⟩

theorem joinErr_none (a b : Option Err) : Node.joinErr a b = none ↔ a = none ∧ b = none := by
  cases a <;> cases b <;> simp [Node.joinErr]

theorem notify_ran (env : Env) (db : StdDB) (r : ObjRef) (e : ESV) (p : PProp) (s : HState) :
    ∃ rs, Ran env db s (Node.notifyPropertyRequest env db r e p s).1
        ((if env.objListener r then [.request r e p] else []) ++
          (if env.reqHandler r then [.handler r e p] else [])) rs ∧
      ((Node.notifyPropertyRequest env db r e p s).2 = none ↔ NoErr rs) := by
  obtain ⟨rs1, h1, e1⟩ := maybe_ran env db s (.request r e p) (env.objListener r)
  obtain ⟨rs2, h2, e2⟩ := maybe_ran env db
    (if env.objListener r then env.call db s (.request r e p) else (s, none)).1 (.handler r e p)
    (env.reqHandler r)
  refine ⟨rs1 ++ rs2, h1.trans h2, ?_⟩
  rw [NoErr_append, ← e1, ← e2]
  exact joinErr_none _ _

theorem notifyAll_ran (env : Env) (db : StdDB) (r : ObjRef) (e : ESV) (ps : List PProp) (s : HState)
    (last : Option Err) :
    ∃ rs, Ran env db s (Node.notifyAll env db r e ps s last).1
        (ps.flatMap (fun p => (if env.objListener r then [.request r e p] else []) ++
          (if env.reqHandler r then [.handler r e p] else []))) rs ∧
      ((Node.notifyAll env db r e ps s last).2 = none ↔ last = none ∧ NoErr rs) := by
  induction ps generalizing s last with
  | nil => exact ⟨[], Ran.refl _ _ _, by simp [Node.notifyAll, NoErr]⟩
  | cons p ps ih =>
    obtain ⟨rs1, h1, e1⟩ := notify_ran env db r e p s
    obtain ⟨rs2, h2, e2⟩ := ih (Node.notifyPropertyRequest env db r e p s).1
      (match (Node.notifyPropertyRequest env db r e p s).2 with | some e => some e | none => last)
    refine ⟨rs1 ++ rs2, h1.trans h2, ?_⟩
    rw [NoErr_append, ← e1]
    rw [show Node.notifyAll env db r e (p :: ps) s last
      = Node.notifyAll env db r e ps (Node.notifyPropertyRequest env db r e p s).1
        (match (Node.notifyPropertyRequest env db r e p s).2 with | some e => some e | none => last)
      from rfl, e2]
    cases (Node.notifyPropertyRequest env db r e p s).2 <;> simp

theorem execute_ran (env : Env) (db : StdDB) (m : Message) (s : HState) (r : ObjRef) (o : Obj)
    (h : Addressed s.node m.getDEOJ r o) :
    ∃ rs, Ran env db s (Node.executeMessageListeners env db m s).1 (expectedCalls env r m) rs ∧
      ((Node.executeMessageListeners env db m s).2 = none ↔ NoErr rs) := by
  obtain ⟨rs1, h1, e1⟩ := maybe_ran env db s (.message m) env.listener
  obtain ⟨rs2, h2, e2⟩ := notifyAll_ran env db r m.esv m.requested
    (if env.listener then env.call db s (.message m) else (s, none)).1
    (if env.listener then env.call db s (.message m) else (s, none)).2
  unfold Node.executeMessageListeners expectedCalls
  rw [(addressed_lookup h).1]
  refine ⟨rs1 ++ rs2, ?_, ?_⟩
  · rw [← requested_eq]; exact h1.trans h2
  · rw [NoErr_append, ← e1]; exact e2

end Verif.Lemmas
