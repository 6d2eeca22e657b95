import Verif.Props.Handler

/-! # C40: a read returns the value last set -/

namespace Verif.Props
open Verif Model Spec Lemmas

/-- The call does not concern the property `c` of object `r`: it is made on another object, or
spares the property; the manufacturer code is set only if `c` is another property; objects are
added only if `r` is a device or `c` is not one of the lists of the node profile. -/
def Leaves (r : ObjRef) (c : Byte) : NodeOp → Prop
  | .obj r' op => r' ≠ r ∨ Spares op c
  | .setManufacturer _ => c ≠ 0x8A
  | .addDevice _ | .addProfile _ => (∃ i, r = .device i) ∨ c ∉ listCodes
  | _ => True

/-- No callback makes a call that concerns the property. -/
def EnvLeaves (env : Env) (r : ObjRef) (c : Byte) : Prop :=
  ∀ n cs x, ∀ op ∈ (env.behave n cs x).1, Leaves r c op

/-- What happens to a node: a call by the program, or a message that arrives. -/
inductive Event where
  | call (op : NodeOp)
  | message (env : Env) (m : Message)

/-- The node after an event. -/
def Event.run (db : StdDB) (n : Node) : Event → Node
  | .call op => (op.run db n).1
  | .message env m =>
    match n.received env db m with
    | .ok out => out.node
    | _ => n

/-- The node after a history. -/
def Event.runAll (db : StdDB) (n : Node) (evs : List Event) : Node := evs.foldl (Event.run db) n

def Event.Leaves (r : ObjRef) (c : Byte) : Event → Prop
  | .call op => Props.Leaves r c op
  | .message env _ => EnvLeaves env r c

/-- The property `c` of object `r` has data `d`. -/
def Holds (n : Node) (r : ObjRef) (c : Byte) (d : Bytes) : Prop :=
  ∃ o, n.get r = some o ∧ HasData o c d

theorem profileWrites_other (ds : List Obj) (cs : List Cls) (o : Obj) (x : Byte) (hx : x ∉ listCodes) :
    (profileWrites ds cs o).props.lookup x = o.props.lookup x := by
  have key : ∀ (o : Obj) (c : Byte) (d : Bytes), c ∈ listCodes →
      (o.setPropertyData c d).1.props.lookup x = o.props.lookup x := by
    intro o c d hc
    rw [setPropertyData_fst, lookup_update, if_neg (by rintro rfl; exact hx hc)]
  unfold profileWrites Obj.setClassList
  rw [key _ _ _ (by decide)]
  have h3 : ∀ o : Obj, (o.setInstanceList ds).1.props.lookup x = o.props.lookup x := by
    intro o
    unfold Obj.setInstanceList
    dsimp only
    split
    · next heq =>
      have := key o 0xD5 (Obj.instanceListData ds) (by decide)
      rw [heq] at this; exact this
    · next o' as' heq =>
      have := key o 0xD5 (Obj.instanceListData ds) (by decide)
      rw [heq] at this
      show (o'.setPropertyData _ _).1.props.lookup _ = _
      rw [key _ _ _ (by decide)]; exact this
  rw [h3]
  unfold Obj.setClassCount Obj.setInstanceCount
  rw [setPropertyInteger_eq, key _ _ _ (by decide), setPropertyInteger_eq, key _ _ _ (by decide)]

theorem Holds.map {n n' : Node} {r : ObjRef} {c : Byte} {d : Bytes} (h : Holds n r c d) (f : Obj → Obj)
    (hget : n'.get r = (n.get r).map f)
    (hf : ∀ o, n.get r = some o → (f o).props.lookup c = o.props.lookup c) : Holds n' r c d := by
  obtain ⟨o, h1, p, h2, h3⟩ := h
  refine ⟨f o, by rw [hget, h1]; rfl, p, ?_, h3⟩
  rw [hf o h1]; exact h2

theorem Holds.same {n n' : Node} {r : ObjRef} {c : Byte} {d : Bytes} (h : Holds n r c d)
    (hget : n'.get r = n.get r) : Holds n' r c d :=
  h.map (fun o => o) (by rw [hget]; simp) (fun _ _ => rfl)

theorem Holds.update {n : Node} {r : ObjRef} {c : Byte} {d : Bytes} (h : Holds n r c d)
    (hl : (∃ i, r = .device i) ∨ c ∉ listCodes) : Holds n.updateNodeProfile.1 r c d := by
  by_cases hp : n.nodeProfile = some r
  · rcases hl with ⟨i, rfl⟩ | hl
    · obtain ⟨j, hj, -⟩ := nodeProfile_cases hp
      cases hj
    · refine h.map (profileWrites n.devices n.classes) ?_ (fun o _ => profileWrites_other _ _ o c hl)
      rw [updateNodeProfile_get, if_pos hp]
  · refine h.same ?_
    rw [updateNodeProfile_get, if_neg hp]

theorem Holds.step (db : StdDB) {n : Node} {r : ObjRef} {c : Byte} {d : Bytes} (h : Holds n r c d)
    (hc : ¬ IsMapCode c) (op : NodeOp) (hop : Leaves r c op) : Holds (op.run db n).1 r c d := by
  have hlt : ∀ {l : List Obj} {i : Nat} {x : Obj} (y : Obj), l[i]? = some x → (l ++ [y])[i]? = l[i]? := by
    intro l i x y hx
    have : i < l.length := by
      rcases Nat.lt_or_ge i l.length with h | h
      · exact h
      · rw [List.getElem?_eq_none h] at hx; cases hx
    rw [List.getElem?_append_left this]
  cases op with
  | addDevice o =>
    refine Holds.update (n := { n with devices := n.devices ++ [_] }) ?_ hop
    refine h.same ?_
    obtain ⟨o', h1, -⟩ := h
    cases r with
    | device i => exact hlt _ h1
    | profile i => rfl
  | addProfile o =>
    refine Holds.update (n := { n with profiles := n.profiles ++ [_] }) ?_ hop
    refine h.same ?_
    obtain ⟨o', h1, -⟩ := h
    cases r with
    | device i => rfl
    | profile i => exact hlt _ h1
  | setManufacturer k =>
    exact h.map _ (setManufacturerCode_get n k r) (fun o _ => setMan_lookup o k c hop)
  | setSelf b => exact h.same (by cases r <;> rfl)
  | obj r' op =>
    have hg : ((NodeOp.obj r' op).run db n).1.get r
        = if r = r' then (n.get r').map (fun o => (op.run db o).1) else n.get r := by
      show (n.onObj r' (fun o => Node.dropErr (op.run db o))).1.get r = _
      rw [onObj_get]
      rfl
    by_cases e : r = r'
    · subst e
      rw [if_pos rfl] at hg
      rcases hop with hop | hop
      · exact absurd rfl hop
      · exact h.map _ hg (fun o _ => spares_lookup db o op c hop hc)
    · rw [if_neg e] at hg
      exact h.same hg
  | start res stays => exact h.same ((start_same db n res stays).1 r)
  | stop => exact h.same (by cases r <;> rfl)
  | send m => exact h.same ((sendMessage_same n m).get r)

theorem Holds.ops (db : StdDB) {n : Node} {r : ObjRef} {c : Byte} {d : Bytes} (h : Holds n r c d)
    (hc : ¬ IsMapCode c) (ops : List NodeOp) (hops : ∀ op ∈ ops, Leaves r c op) :
    Holds (NodeOp.runAll db n ops).1 r c d := by
  induction ops generalizing n with
  | nil => exact h
  | cons op ops ih =>
    exact ih (h.step db hc op (hops op List.mem_cons_self))
      (fun o ho => hops o (List.mem_cons_of_mem _ ho))

theorem Holds.effects {env : Env} {db : StdDB} {n n' : Node} {done cs : List Call} {ms : List Sent}
    {rs : List (Option Err)} (he : Effects env db n done cs n' ms rs) {r : ObjRef} {c : Byte}
    {d : Bytes} (henv : EnvLeaves env r c) (hc : ¬ IsMapCode c) (h : Holds n r c d) :
    Holds n' r c d := by
  induction he with
  | nil => exact h
  | cons _ ih => exact ih (h.ops db hc _ (henv _ _ _))

theorem Holds.event (db : StdDB) {n : Node} {r : ObjRef} {c : Byte} {d : Bytes} (h : Holds n r c d)
    (hc : ¬ IsMapCode c) (e : Event) (he : e.Leaves r c) : Holds (e.run db n) r c d := by
  cases e with
  | call op => exact h.step db hc op he
  | message env m =>
    obtain ⟨out, rs, h1, h2⟩ := C39_only_callbacks env db n m
    show Holds (match n.received env db m with | .ok out => out.node | _ => n) r c d
    rw [h1]
    exact Holds.effects h2 he hc h

/-- C40, the state. After a write of `d` to the property `c` of the object `r` and any history of
calls and received messages that does not concern this property, it holds `d`. -/
theorem C40_holds (db : StdDB) (n : Node) (r : ObjRef) (o : Obj) (ho : n.get r = some o)
    (op : ObjOp) (c : Byte) (d : Bytes) (hop : op.target = some (c, d))
    (hp : (o.props.lookup c).isSome) (hc : ¬ IsMapCode c)
    (evs : List Event) (hevs : ∀ e ∈ evs, e.Leaves r c) :
    Holds (Event.runAll db ((NodeOp.obj r op).run db n).1 evs) r c d := by
  have h0 : Holds ((NodeOp.obj r op).run db n).1 r c d := by
    refine ⟨(op.run db o).1, ?_, ?_⟩
    · show (n.onObj r (fun o => Node.dropErr (op.run db o))).1.get r = _
      rw [onObj_get, if_pos rfl, ho]; rfl
    · rw [run_target db o op c d hop, setPropertyData_fst]
      exact HasData.of_update hp d
  generalize ((NodeOp.obj r op).run db n).1 = n1 at h0
  induction evs generalizing n1 with
  | nil => exact h0
  | cons e evs ih =>
    exact ih (fun x hx => hevs x (List.mem_cons_of_mem _ hx)) _
      (h0.event db hc e (hevs e List.mem_cons_self))

/-- C40. After a write of `d` to the property `c` of the object `r` and any history that does not
concern this property, a Get request that the node answers and that asks the object for `c` is
answered with exactly `d` for this property. Callbacks may run before the answer, as long as they do
not concern the property, and may register other objects, as long as the request is still for `r`. -/
theorem C40_read_back (db : StdDB) (n : Node) (r : ObjRef) (o : Obj) (ho : n.get r = some o)
    (op : ObjOp) (c : Byte) (d : Bytes) (hop : op.target = some (c, d))
    (hp : (o.props.lookup c).isSome) (hc : ¬ IsMapCode c)
    (evs : List Event) (hevs : ∀ e ∈ evs, e.Leaves r c)
    (n' : Node) (hn' : n' = Event.runAll db ((NodeOp.obj r op).run db n).1 evs)
    (env : Env) (henv : EnvLeaves env r c)
    (m : Message) (hm : Built m) (hesv : m.esv = 0x62) (hask : ∃ p ∈ properties m, p.code = c)
    (hi : ¬ Ignored n' m) (ha : Accepts n' m) (out : Outcome) (hout : n'.received env db m = .ok out)
    (rs : List (Option Err)) (hrs : Results env db n' out rs) (hne : ∀ e ∈ rs, e = none)
    (o' : Obj) (ho' : Addressed out.node m.getDEOJ r o') :
    ∃ res, out.reply = some res ∧ res.getTID = m.getTID ∧ res.getDEOJ = m.getSEOJ ∧
      res.esv = 0x72 ∧ some ⟨c, d⟩ ∈ res.ep ∧ ∀ d', some ⟨c, d'⟩ ∈ res.ep → d' = d := by
  have hh : Holds out.node r c d :=
    Holds.effects hrs henv hc (hn' ▸ C40_holds db n r o ho op c d hop hp hc evs hevs)
  obtain ⟨res, h1, -, h3, -, h5, h6, -, h8⟩ := C35_response env db n' m hm hi ha out hout rs hrs hne
    ⟨0x62, .request, false, true, some 0x72, some 0x52⟩ (by decide) hesv.symm 0x72 rfl r o' ho'
  obtain ⟨o2, g1, q, g2, g3⟩ := hh
  have : o2 = o' := by
    have := (addressed_lookup ho').2
    rw [g1] at this
    exact Option.some.inj this
  subst this
  refine ⟨res, h1, h3, h5, h6, ?_, ?_⟩
  · obtain ⟨p, hp1, hp2⟩ := hask
    rw [h8, List.mem_map]
    refine ⟨⟨c, d⟩, ?_, rfl⟩
    unfold replyProps
    rw [List.mem_filterMap]
    exact ⟨p, hp1, by rw [hp2, g2, ← g3]; rfl⟩
  · intro d' hd'
    rw [h8, List.mem_map] at hd'
    obtain ⟨x, hx, he⟩ := hd'
    cases he
    unfold replyProps at hx
    rw [List.mem_filterMap] at hx
    obtain ⟨p, -, hp2⟩ := hx
    rw [Option.map_eq_some_iff] at hp2
    obtain ⟨q', hq1, hq2⟩ := hp2
    cases hq2
    rw [g2] at hq1
    cases hq1
    exact g3

/-! ### A concrete case -/

/-- A write of 0x31 is read back by the Get request `sampleMessage` would make. -/
example :
    let n := ((NodeOp.obj (.device 0) (.writeByte 0x80 0x31)).run stdDB smallNode).1
    let m := { sampleMessage with ep := [some ⟨0x80, []⟩], opc := 1 }
    (match n.received noEnv stdDB m with
      | .ok out => out.reply.map (fun r => (r.esv, r.ep))
      | _ => none) = some (0x72, [some ⟨0x80, [0x31]⟩]) := by decide +kernel

end Verif.Props
