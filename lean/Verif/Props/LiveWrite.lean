import Verif.Props.ServeCalls
import Verif.Props.NetworkWrite

/-!
# C163: confirmed writes to a node that handles several messages at once

The network is that of `Verif.Model.LiveNetwork`. A write that was confirmed was carried out property by
property: each at a moment of its own between the call and the return, in the order of the request. In between
other messages and the program may change the object.
-/

namespace Verif.Props
open Verif Model Spec Lemmas

theorem onObj_isSome (n : Node) (r r' : ObjRef) (f : Obj → Obj × List Ann) (h : (n.get r').isSome) :
    ((n.onObj r f).1.get r').isSome := by
  rw [onObj_get]
  split
  · next e => rw [← e, Option.isSome_map]; exact h
  · exact h

theorem onObjs_isSome (f : Obj → Obj × List Ann) (r' : ObjRef) (rs : List ObjRef) : ∀ n : Node,
    (n.get r').isSome → ((n.onObjs f rs).1.get r').isSome := by
  induction rs with
  | nil => exact fun n h => h
  | cons r rs ih => exact fun n h => ih _ (onObj_isSome n r r' f h)

theorem profile_isSome (n : Node) (r : ObjRef) (h : (n.get r).isSome) : (n.updateNodeProfile.1.get r).isSome := by
  unfold Node.updateNodeProfile
  cases n.nodeProfile with
  | none => exact h
  | some p => exact onObj_isSome _ _ _ _ (onObj_isSome _ _ _ _ (onObj_isSome _ _ _ _ (onObj_isSome _ _ _ _ h)))

theorem nextTID_get (n : Node) (r : ObjRef) : n.nextTID.get r = n.get r := by
  unfold Node.nextTID
  split <;> cases r <;> rfl

/-- No call removes an object from a node. -/
theorem op_isSome (db : StdDB) (n : Node) (op : NodeOp) (r : ObjRef) (h : (n.get r).isSome) :
    ((op.run db n).1.get r).isSome := by
  have more : ∀ l : List Obj, ∀ x : Obj, ∀ i : Nat, l[i]?.isSome → (l ++ [x])[i]?.isSome := by
    intro l x i hi
    have := List.getElem?_eq_some_iff.mp (Option.isSome_iff_exists.mp hi).choose_spec
    rw [List.getElem?_append_left this.1]
    exact hi
  cases op with
  | addDevice o =>
    refine profile_isSome _ r ?_
    cases r with
    | device i => exact more _ _ _ h
    | profile i => exact h
  | addProfile o =>
    refine profile_isSome _ r ?_
    cases r with
    | device i => exact h
    | profile i => exact more _ _ _ h
  | setManufacturer c => exact onObjs_isSome _ r _ _ (by cases r <;> exact h)
  | setSelf b => cases r <;> exact h
  | obj r' op => exact onObj_isSome n r' r _ h
  | start res stays =>
    show ((n.start res stays).1.get r).isSome
    have ann : ∀ (n : Node) (m : Message), (n.get r).isSome → ((n.announceMessage m).1.get r).isSome := by
      intro n m h
      unfold Node.announceMessage
      split
      · exact h
      · show (n.nextTID.get r).isSome
        rw [nextTID_get]; exact h
    unfold Node.start
    split
    · cases r <;> exact h
    · unfold Node.announce
      repeat' split
      all_goals first
        | (cases r <;> exact h)
        | (exact ann _ _ (by cases r <;> exact h))
  | stop => cases r <;> exact h
  | send m =>
    show ((n.sendMessage m).1.get r).isSome
    have hk : (n.nextTID.get r).isSome := by rw [nextTID_get]; exact h
    unfold Node.sendMessage
    split
    · exact h
    · dsimp only
      repeat' split
      all_goals exact hk

section
variable {env : Env} {db : StdDB} {σ : Nat → ServeSt} {act : Nat → Option ServeAct}

theorem serving_isSome (env : Env) (db : StdDB) (n : Node) (h : Serving) (r : ObjRef) (hr : (n.get r).isSome) :
    ((h.step env db n).1.get r).isSome := by
  obtain ⟨m, cs, pc⟩ := h
  cases pc with
  | inside ops e k =>
    cases ops with
    | nil => exact hr
    | cons op ops => exact op_isSome db n op r hr
  | request r todo last =>
    cases todo with
    | nil => cases last <;> exact hr
    | cons p ps => simp only [Serving.step]; split <;> exact hr
  | check r todo =>
    cases todo with
    | nil => exact hr
    | cons p ps =>
      simp only [Serving.step]
      repeat' split
      all_goals exact hr
  | answer r todo res =>
    cases todo with
    | nil => exact hr
    | cons p ps => simp only [Serving.step]; split <;> exact hr
  | _ =>
    simp only [Serving.step]
    repeat' split
    all_goals exact hr

/-- Objects stay. -/
theorem Follows.isSome (hf : Follows env db σ act) {r : ObjRef} {a b : Nat} (hab : a ≤ b)
    (h : ((σ a).node.get r).isSome) : ((σ b).node.get r).isSome := by
  induction b with
  | zero => rw [← Nat.le_zero.mp hab]; exact h
  | succ b ih =>
    by_cases e : a = b + 1
    · rw [← e]; exact h
    · have h' := ih (by omega)
      rw [hf.2 b]
      cases act b with
      | none => exact h'
      | some x =>
        cases x with
        | arrive m => exact h'
        | call op => exact op_isSome db _ op r h'
        | step i =>
          simp only [ServeSt.step]
          cases (σ b).serving[i]? with
          | none => exact h'
          | some g => exact serving_isSome env db _ g r h'

theorem CallsMade.snoc_inv {t cs c us rs k} (h : CallsMade env db σ t (cs ++ [c]) us rs k) :
    ∃ us0 vs rs0 u ops e, us = us0 ++ vs ∧ rs = rs0 ++ [e] ∧ CallsMade env db σ t cs us0 rs0 u ∧
      env.behave (σ u).node cs c = (ops, e) ∧ OpsMade db σ (u + 1) ops vs k := by
  generalize hx : cs ++ [c] = l at h
  cases h with
  | none => simp at hx
  | next h1 h2 h3 =>
    obtain ⟨rfl, h4⟩ := List.append_inj' hx rfl
    cases h4
    exact ⟨_, _, _, _, _, _, rfl, rfl, h1, h2, h3⟩

theorem CallsMade.le {t cs us rs k} (h : CallsMade env db σ t cs us rs k) : t ≤ k := by
  induction h with
  | none h => exact h
  | next _ _ h2 ih => have := h2.le; omega

theorem OpsMade.one_inv {t op us k} (h : OpsMade db σ t [op] us k) :
    ∃ u, us = [u] ∧ t ≤ u ∧ u < k ∧ (σ (u + 1)).node = (op.run db (σ u).node).1 := by
  generalize hx : [op] = l at h
  cases h with
  | none => cases hx
  | next h1 h2 h3 h4 =>
    obtain ⟨h5, h6⟩ := List.append_inj' (s₁ := []) hx rfl
    cases h6
    cases h1 with
    | none h => exact ⟨_, rfl, h, h2, h3⟩
    | next => simp at h5

theorem OpsMade.none_inv {t us k} (h : OpsMade db σ t [] us k) : us = [] := by
  generalize hx : ([] : List NodeOp) = l at h
  cases h with
  | none => rfl
  | next => simp at hx

/-- A program that stores what is written: the moments at which it does so. -/
theorem keeping_moments (he : Keeping env) (r : ObjRef) (m : Message) (ps : List PProp) (t : Nat) :
    ∀ us rs k, CallsMade env db σ t (callsFirst env m ++ callsFor env r 0x61 ps) us rs k →
    us.length = ps.length ∧ us.Pairwise (· < ·) ∧ (∀ u ∈ us, t ≤ u ∧ u < k) ∧
    ∀ (j : Nat) (p : PProp) (u : Nat), ps[j]? = some p → us[j]? = some u →
      (σ (u + 1)).node = ((NodeOp.obj r (.write p.code p.data)).run db (σ u).node).1 := by
  suffices H : ∀ (ps' : List PProp), ∀ us rs k,
      CallsMade env db σ t (callsFirst env m ++ callsFor env r 0x61 ps'.reverse) us rs k →
      us.length = ps'.length ∧ us.Pairwise (· < ·) ∧ (∀ u ∈ us, t ≤ u ∧ u < k) ∧
      ∀ (j : Nat) (p : PProp) (u : Nat), ps'.reverse[j]? = some p → us[j]? = some u →
        (σ (u + 1)).node = ((NodeOp.obj r (.write p.code p.data)).run db (σ u).node).1 by
    intro us rs k h
    have := H ps.reverse us rs k (by rw [List.reverse_reverse]; exact h)
    rw [List.reverse_reverse, List.length_reverse] at this
    exact this
  intro ps'
  induction ps' with
  | nil =>
    intro us rs k h
    have hus : us = [] := by
      unfold callsFirst at h
      by_cases hl : env.listener = true
      · rw [if_pos hl] at h
        obtain ⟨us0, vs, rs0, u, ops, e, rfl, -, h1, h2, h3⟩ := CallsMade.snoc_inv (cs := []) h
        rw [he.message hl] at h2
        cases h2
        rw [h3.none_inv, List.append_nil]
        generalize hx : ([] : List Call) = l at h1
        cases h1 with
        | none => rfl
        | next => simp at hx
      · rw [if_neg hl] at h
        generalize hx : ([] ++ callsFor env r 0x61 [].reverse) = l at h
        cases h with
        | none => rfl
        | next => simp [callsFor] at hx
    subst hus
    exact ⟨rfl, .nil, fun u hu => (by cases hu), fun j p u _ hu => (by cases hu)⟩
  | cons p ps' ih =>
    intro us rs k h
    rw [List.reverse_cons, callsFor_snoc, if_pos (he.listens r), if_neg (by rw [he.handler]; simp),
      List.append_nil, ← List.append_assoc] at h
    obtain ⟨us0, vs, rs0, u, ops, e, rfl, -, h1, h2, h3⟩ := h.snoc_inv
    rw [he.stores] at h2
    cases h2
    obtain ⟨w, rfl, w1, w2, w3⟩ := h3.one_inv
    obtain ⟨i1, i2, i3, i4⟩ := ih us0 rs0 u h1
    have hle := h1.le
    refine ⟨by simp [i1], ?_, ?_, ?_⟩
    · refine List.pairwise_append.mpr ⟨i2, List.pairwise_singleton _ _, fun x hx y hy => ?_⟩
      rw [List.mem_singleton.mp hy]
      have := (i3 x hx).2
      omega
    · intro x hx
      rcases List.mem_append.mp hx with hx | hx
      · have := i3 x hx; omega
      · rw [List.mem_singleton.mp hx]; omega
    · intro j p' u' hj hu
      rw [List.reverse_cons] at hj
      by_cases hlt : j < us0.length
      · rw [List.getElem?_append_left hlt] at hu
        rw [List.getElem?_append_left (by rw [List.length_reverse, ← i1]; exact hlt)] at hj
        exact i4 j p' u' hj hu
      · have hj' : j = us0.length := by
          have := (List.getElem?_eq_some_iff.mp hu).1
          simp at this
          omega
        subst hj'
        rw [List.getElem?_append_right (Nat.le_refl _)] at hu
        rw [List.getElem?_append_right (by rw [List.length_reverse, ← i1]; exact Nat.le_refl _),
          List.length_reverse, i1] at hj
        simp at hj hu
        subst hj hu
        exact w3

end

/-- A write of one property of an object. -/
theorem write_one (db : StdDB) (n : Node) (r : ObjRef) (o : Obj) (hg : n.get r = some o) (c : Byte) (d : Bytes) :
    ∃ o', ((NodeOp.obj r (.write c d)).run db n).1.get r = some o' ∧
      ∀ x, (o.props.lookup x).isSome → stored o' x = if x = c then d else stored o x := by
  refine ⟨writeAll o [⟨c, d⟩], ?_, fun x hx => ?_⟩
  · show (n.onObj r (fun o => Node.dropErr ((ObjOp.write c d).run db o))).1.get r = _
    rw [onObj_get, if_pos rfl, hg]
    show some ((ObjOp.write c d).run db o).1 = _
    rw [run_target db o _ c d rfl, setPropertyData_fst]
    rfl
  · obtain ⟨q, hq⟩ := Option.isSome_iff_exists.mp hx
    unfold stored
    rw [writeAll_lookup, hq]
    by_cases e : c = x
    · subst e; simp [EProp.setData]
    · simp [EProp.setData, e, Ne.symm e]

/-- C163. A write of the properties `ps` of an object that was confirmed took place between its call (step `i`) and
its return (step `t`): the object was found at a moment `w`, and at the moments `us`, one after the other, each of the
properties was given the data of the request; in between other requests and the program may have changed the
object. Before that the object permitted to write each property with data of this length. The program of the node
asked stores what is written and the request is at most 1024 bytes long. -/
theorem C163_write_partial (L : Link) (c n : Node) (hb : Base c) (hr : c.running = true)
    (acts : List LiveAct) (hc : c.lastTID.toNat ≤ 65535) (hn : (acts.filter liveUsesId).length ≤ 65536)
    (he : Keeping L.env) (t : Nat) (res : Message)
    (ht : (liveAt L c n acts (t + 1)).net.returned = (liveAt L c n acts t).net.returned ++ [res]) :
    ∃ i objCode esv ps q, i < t ∧ acts[i]? = some (.post objCode esv ps) ∧
      Issued (liveAt L c n acts i).net objCode esv ps q ∧
      (∀ u, i < u → u ≤ t → (liveAt L c n acts u).net.waiting = some q) ∧
      (esv = 0x61 → ps.length ≤ 255 → (∀ p ∈ ps, p.data.length ≤ 255) →
        12 + (ps.map (fun p => 2 + p.data.length)).sum ≤ 1024 → objCode.toNat < 2 ^ 24 → res.esv = 0x71 →
        (∃ v r o, i < v ∧ v < t ∧ Addressed (liveAt L c n acts v).net.server objCode r o ∧
          ∀ p ∈ ps, ∃ u o' x, v < u ∧ u < t ∧ (liveAt L c n acts u).net.server.get r = some o' ∧
            o'.props.lookup p.code = some x ∧ x.setAttr ≠ 0 ∧ p.data.length = x.data.length) ∧
        ∃ w r o, ∃ us : List Nat, i < w ∧ Addressed (liveAt L c n acts w).net.server objCode r o ∧
          us.length = ps.length ∧ us.Pairwise (· < ·) ∧ (∀ u ∈ us, w ≤ u ∧ u < t) ∧
          ∀ (j : Nat) (p : EProp) (u : Nat), ps[j]? = some p → us[j]? = some u →
            ∃ o1 o2, (liveAt L c n acts u).net.server.get r = some o1 ∧
              (liveAt L c n acts (u + 1)).net.server.get r = some o2 ∧
              ∀ x, (o1.props.lookup x).isSome → stored o2 x = if x = p.code then p.data else stored o1 x) := by
  obtain ⟨i, a, w, j, g, objCode, esv, ps, q, m, cs, r, h1, h2, h2', h3, h4, h5, h6, h7, h8, m2, h9, h10, r1, r2,
    h11, h12, h13⟩ := C161_answered_partial L c n acts hc hn t res ht
  refine ⟨i, objCode, esv, ps, q, by omega, h3, h4, h5, ?_⟩
  rintro rfl hl hd hsize ho hres
  obtain ⟨e1, -, l, e2⟩ := live_idCount_spec L c n acts hc i
  have hbi : Base (liveAt L c n acts i).net.client := by
    rw [e2]
    exact ⟨fun r o h => hb.wf r o (by cases r <;> exact h), hb.prof⟩
  obtain ⟨q', k1, k2, k3, k4, k5⟩ := C88_wire (liveAt L c n acts i).net.client hbi (by rw [e2]; exact hr)
    (by omega) objCode ho 0x61 ps hl hd
  have hq : q = q' := by
    have := h4.2
    rw [k1] at this
    exact (Option.some.inj this).symm
  subst hq
  generalize hf : requestFrame (liveAt L c n acts i).net.client.lastTID.toNat objCode 0x61 ps = f at k3 k4 k5
  have fprops : f.props = ps.map (fun p => ⟨p.code, p.data⟩) := by rw [← hf]; rfl
  have hlen : f.encode.length ≤ 1024 := by
    rw [encode_length, fprops, List.map_map]
    exact hsize
  obtain ⟨m', m1, -, m3, -⟩ := arriving_frame (ifi := L.toIf) (a := L.from_) k3 hlen
  rw [k5, m1] at h8
  cases h8
  have hesv : m.esv = 0x61 := by rw [m3.esv, ← hf]; rfl
  have hdeoj : m.getDEOJ = objCode := by
    apply BitVec.eq_of_toNat_eq
    rw [m3.deoj, ← hf]; rfl
  have hmp : properties m = ps.map (fun p => ⟨p.code, p.data⟩) := by
    unfold properties
    have := m3.opc
    unfold Message.getOPC at this
    rw [this, m3.props, List.take_of_length_le (by simp), fprops, List.map_map,
      ← filterMap_some (ps.map (fun p => (⟨p.code, p.data⟩ : PProp))), List.map_map]
    rfl
  obtain ⟨-, -, x3, -⟩ := arriving_header r1 h12
  have hfol := servedAt_follows L c n acts
  obtain ⟨a', us, a1, a2, a3, a4, -⟩ := walked_all hfol w g _ h10
  dsimp only at a2 a4
  have act_a : acts[a]?.bind (asServed L (liveAt L c n acts a)) = some (.arrive m) := by
    rw [h6, Option.bind_some]
    simp only [asServed]
    rw [h7, Option.bind_some, k5, m1]
    rfl
  have haa : a = a' := hfol.arrival (a := a) (b := a') act_a a2 (by rw [a3]; exact h9)
  subst haa
  rcases a4 with ⟨-, -, u, -, -, z⟩ | ⟨w0, ro, rs, ⟨f1, f2, ⟨o, f3⟩, f4⟩, g2, g3, -⟩
  · exfalso
    rcases z with ⟨z, -⟩ | ⟨-, -, z⟩ | ⟨z, -⟩
    · cases z
    · obtain ⟨y, y1, -, -, -, y5, -⟩ := C16_header_partial m m2
      rw [Option.getD_some, y1] at z
      cases z
      rw [hres, y5, hesv] at x3
      exact absurd x3 (by decide)
    · cases z
  · rw [hdeoj] at f3
    constructor
    · obtain ⟨-, -, f5⟩ := f4
      obtain ⟨r', v, o', v1, v2, v3, v4⟩ := f5 (.inr (.inl hesv))
      rw [hdeoj] at v3
      refine ⟨v, r', o', by omega, by omega, v3, fun p hp => ?_⟩
      obtain ⟨u, o2, u1, u2, u3, x, u4, u5, -⟩ := v4 ⟨p.code, p.data⟩ (by
        rw [hmp]; exact List.mem_map.mpr ⟨p, hp, rfl⟩)
      exact ⟨u, o2, x, u1, by omega, u3, u4, u5 (.inr (.inl hesv))⟩
    · have hcalls : expectedCalls L.env ro m = callsFirst L.env m ++ callsFor L.env ro 0x61 (properties m) := by
        unfold expectedCalls callsFirst callsFor
        rw [hesv]
      rw [g2, hcalls] at g3
      obtain ⟨s1, s2, s3, s4⟩ := keeping_moments he ro m (properties m) w0 us rs w g3
      rw [hmp, List.length_map] at s1
      refine ⟨w0, ro, o, us, by omega, f3, s1, s2, fun u hu => ⟨(s3 u hu).1, by have := (s3 u hu).2; omega⟩, ?_⟩
      intro j p u hj hu
      have hjm : (properties m)[j]? = some ⟨p.code, p.data⟩ := by
        rw [hmp, List.getElem?_map, hj]; rfl
      have hrun := s4 j _ u hjm hu
      have hsome : ((servedAt L c n acts u).node.get ro).isSome := by
        refine hfol.isSome (s3 u (List.mem_of_getElem? hu)).1 ?_
        have : (servedAt L c n acts w0).node.get ro = some o := (addressed_lookup f3).2
        rw [this]; rfl
      obtain ⟨o1, ho1⟩ := Option.isSome_iff_exists.mp hsome
      obtain ⟨o2, w1, w2⟩ := write_one L.db _ ro o1 ho1 p.code p.data
      refine ⟨o1, o2, ho1, ?_, w2⟩
      show (servedAt L c n acts (u + 1)).node.get ro = some o2
      rw [hrun]
      exact w1

/-! ## A confirmed write that held at no moment -/

/-- The steps of a schedule that change the object. -/
theorem node_changes {env : Env} {db : StdDB} {n : Node} {acts : List ServeAct} {us : List Nat}
    (hq : ∀ u, acts[u]? = some (.step 0) → u ∉ us →
      (serveAt env db n acts (u + 1)).node = (serveAt env db n acts u).node)
    (hs : ∀ i, .step i ∈ acts → i = 0) (k : Nat) (hk : k ∉ us)
    (hc : ∀ op, acts[k]? ≠ some (.call op)) :
    (serveAt env db n acts (k + 1)).node = (serveAt env db n acts k).node := by
  cases h : acts[k]? with
  | none =>
    have := List.getElem?_eq_none_iff.mp h
    rw [serveAt_end (by omega), serveAt_end (by omega)]
  | some a =>
    cases a with
    | arrive m => rw [serveAt_succ h]; rfl
    | call op => exact absurd h (hc op)
    | step i =>
      have := hs i (List.mem_of_getElem? h)
      subst this
      exact hq k h hk

/-- A write of one property of an object leaves it its properties. -/
theorem write_has (db : StdDB) (n : Node) (r : ObjRef) (o : Obj) (hg : n.get r = some o) (c : Byte) (d : Bytes) :
    ∃ o', ((NodeOp.obj r (.write c d)).run db n).1.get r = some o' ∧
      ∀ x, (o.props.lookup x).isSome → (o'.props.lookup x).isSome ∧ stored o' x = if x = c then d else stored o x := by
  obtain ⟨o', h1, h2⟩ := write_one db n r o hg c d
  refine ⟨o', h1, fun x hx => ⟨?_, h2 x hx⟩⟩
  have e : some (writeAll o [⟨c, d⟩]) = some o' := by
    rw [← h1]
    show _ = (n.onObj r (fun o => Node.dropErr ((ObjOp.write c d).run db o))).1.get r
    rw [onObj_get, if_pos rfl, hg]
    show _ = some ((ObjOp.write c d).run db o).1
    rw [run_target db o _ c d rfl, setPropertyData_fst]
    rfl
  cases e
  rw [writeAll_lookup]
  obtain ⟨q, hq⟩ := Option.isSome_iff_exists.mp hx
  rw [hq]
  rfl

theorem write_other (db : StdDB) (n : Node) (r r' : ObjRef) (h : r ≠ r') (c : Byte) (d : Bytes) :
    ((NodeOp.obj r' (.write c d)).run db n).1.get r = n.get r := by
  show (n.onObj r' (fun o => Node.dropErr ((ObjOp.write c d).run db o))).1.get r = _
  rw [onObj_get, if_neg h]

theorem mem_steps {i j k : Nat} (h : ServeAct.step i ∈ List.replicate k (ServeAct.step j)) : i = j := by
  have := (List.mem_replicate.mp h).2
  cases this
  rfl

/-- While a message that writes two properties is handled the program writes the first one: the write is
confirmed and at no moment the object held the data of both. -/
theorem write_split {env : Env} (he : Keeping env) (db : StdDB) (n : Node) (code : ObjectCode) (r : ObjRef)
    (o : Obj) (ho : Addressed n code r o) (p q : Byte) (hpq : p ≠ q) (p1 q1 p2 : Bytes) (m : Message) (hm : Built m)
    (hw : Write n code [⟨p, p1⟩, ⟨q, q1⟩] m) (hf : Fitting o [⟨p, p1⟩, ⟨q, q1⟩])
    (hp1 : p1 ≠ stored o p) (hq1 : q1 ≠ stored o q) (hp2 : p2 ≠ p1) :
    ∃ acts res cs, arrivals acts = [m] ∧ programCalls acts = [.obj r (.write p p2)] ∧
      ((ServeSt.init n).run env db acts).serving = [⟨m, cs, .done (some res) none⟩] ∧
      (∃ x y : EProp, x.data = p2 ∧ y.data = q1 ∧
        res = [some x.toProtocol, some y.toProtocol].foldl Message.addProperty m.newResponse) ∧
      ∀ k o', (serveAt env db n acts k).node.get r = some o' → ¬ (stored o' p = p1 ∧ stored o' q = q1) := by
  obtain ⟨x, hx, -⟩ := hf ⟨p, p1⟩ (by simp)
  obtain ⟨y, hy, -⟩ := hf ⟨q, q1⟩ (by simp)
  dsimp only at hx hy
  obtain ⟨-, hg⟩ := addressed_lookup ho
  obtain ⟨cs0, g0⟩ := goes_begin he db ho hw hf
  obtain ⟨na, cs1, ms1, g1, fr1, k1⟩ := goes_keep he db n r o hg m hw.esv cs0 ⟨p, p1⟩ [⟨q, q1⟩]
  have oa := addressed_written ho (writeAll_codes _ o) k1
  obtain ⟨-, hga⟩ := addressed_lookup oa
  generalize hoa : writeAll o [⟨p, p1⟩] = o1 at k1 oa hga
  generalize hop : NodeOp.obj r (.write p p2) = op
  have kb : ∀ r', (op.run db na).1.get r' = if r' = r then some (writeAll o1 [⟨p, p2⟩]) else na.get r' := by
    intro r'
    rw [← hop]
    show (na.onObj r (fun o => Node.dropErr ((ObjOp.write p p2).run db o))).1.get r' = _
    rw [onObj_get, hga]
    congr 1
    show some ((ObjOp.write p p2).run db o1).1 = _
    rw [run_target db o1 _ p p2 rfl, setPropertyData_fst]
    rfl
  have ob := addressed_written oa (writeAll_codes _ o1) kb
  obtain ⟨-, hgb⟩ := addressed_lookup ob
  generalize hob : writeAll o1 [⟨p, p2⟩] = o2 at kb ob hgb
  obtain ⟨nc, cs3, ms3, g3, fr3, k3⟩ := goes_keep he db (op.run db na).1 r o2 hgb m hw.esv cs1 ⟨q, q1⟩ []
  have oc := addressed_written ob (writeAll_codes _ o2) k3
  obtain ⟨hlc, hgc⟩ := addressed_lookup oc
  have g4 := goes_respond (env := env) (db := db) nc m cs3 (by rw [hw.esv]; decide)
  have hreq : m.requested = [⟨p, p1⟩, ⟨q, q1⟩] := by rw [requested_eq]; exact hw.props
  have hcr : ∃ res, nc.createResponse m = (some res, none) ∧ ∃ x y : EProp, x.data = p2 ∧ y.data = q1 ∧
      res = [some x.toProtocol, some y.toProtocol].foldl Message.addProperty m.newResponse := by
    have lp : ∃ x' : EProp, (writeAll o2 [⟨q, q1⟩]).props.lookup p = some x' ∧ x'.data = p2 := by
      rw [← hob, ← hoa]
      simp only [writeAll_lookup, hx]
      simp [EProp.setData, Ne.symm hpq]
    have lq : ∃ y' : EProp, (writeAll o2 [⟨q, q1⟩]).props.lookup q = some y' ∧ y'.data = q1 := by
      rw [← hob, ← hoa]
      simp only [writeAll_lookup, hy]
      simp [EProp.setData]
    obtain ⟨x', lp1, lp2⟩ := lp
    obtain ⟨y', lq1, lq2⟩ := lq
    unfold Node.createResponse
    simp only [hw.obj, hlc, hgc, hreq, List.foldl_cons, List.foldl_nil, lp1, lq1]
    exact ⟨_, rfl, x', y', lp2, lq2, rfl⟩
  obtain ⟨res, hres, hrp⟩ := hcr
  rw [hres] at g4
  have ga := g0.trans g1
  have gc := g3.trans (Goes.quiet (n1 := nc) (h := ⟨m, cs3, .request r [] none⟩) (h1 := ⟨m, cs3, .respond⟩) rfl g4)
  obtain ⟨j1, e1⟩ := ga.run ⟨n, [⟨m, [], .start⟩], []⟩ 0 rfl rfl
  obtain ⟨j2, e2⟩ := gc.run ⟨(op.run db na).1, [⟨m, cs1, .request r [⟨q, q1⟩] none⟩],
    [] ++ ([] ++ ms1) ++ (op.run db na).2⟩ 0 rfl rfl
  generalize hacts : ([.arrive m] ++ (List.replicate j1 (.step 0) ++ ([.call op] ++ List.replicate j2 (.step 0))) :
    List ServeAct) = acts
  have hrun : (ServeSt.init n).run env db acts = ⟨nc, [⟨m, cs3, .done (some res) none⟩],
      [] ++ ([] ++ ms1) ++ (op.run db na).2 ++ (ms3 ++ [])⟩ := by
    rw [← hacts]
    unfold ServeSt.run at e1 e2 ⊢
    rw [List.foldl_append, List.foldl_append, List.foldl_append]
    refine (congrArg (fun s => List.foldl (ServeSt.step env db)
      (List.foldl (ServeSt.step env db) s [.call op]) _) e1).trans ?_
    exact e2
  have hmid : (serveAt env db n acts (1 + j1)).node = na := by
    unfold serveAt
    have : acts.take (1 + j1) = [.arrive m] ++ List.replicate j1 (.step 0) := by
      rw [← hacts, ← List.append_assoc, List.take_append_of_le_length (by simp; omega),
        List.take_of_length_le (by simp; omega)]
    rw [this]
    have e1' := congrArg ServeSt.node e1
    exact e1'
  have hcall : ∀ k op', acts[k]? = some (.call op') ↔ k = 1 + j1 ∧ op' = op := by
    intro k op'
    rw [← hacts, List.getElem?_append, List.getElem?_append, List.getElem?_append]
    simp only [List.length_cons, List.length_nil, List.length_replicate]
    constructor
    · intro h
      split at h
      · have : k = 0 := by omega
        subst this
        cases h
      · split at h
        · cases (List.mem_replicate.mp (List.mem_of_getElem? h)).2
        · split at h
          · have hk : k - (0 + 1) - j1 = 0 := by omega
            rw [hk] at h
            cases h
            exact ⟨by omega, rfl⟩
          · cases (List.mem_replicate.mp (List.mem_of_getElem? h)).2
    · rintro ⟨rfl, rfl⟩
      rw [if_neg (by omega), if_neg (by omega), if_pos (by omega),
        show 1 + j1 - (0 + 1) - j1 = 0 by omega]
      rfl
  have hsteps : ∀ i, .step i ∈ acts → i = 0 := by
    intro i hi
    rw [← hacts] at hi
    rcases List.mem_append.mp hi with hi | hi
    · rw [List.mem_singleton] at hi; cases hi
    · rcases List.mem_append.mp hi with hi | hi
      · exact mem_steps hi
      · rcases List.mem_append.mp hi with hi | hi
        · rw [List.mem_singleton] at hi; cases hi
        · exact mem_steps hi
  -- the moments of the writes
  have h0 : (serveAt env db n acts acts.length).serving[0]? = some ⟨m, cs3, .done (some res) none⟩ := by
    rw [serveAt_end (Nat.le_refl _), hrun]; rfl
  obtain ⟨a, us, -, -, -, a4, a5⟩ := walked_all (serveAt_follows env db n acts) acts.length 0 _ h0
  dsimp only at a4
  refine ⟨acts, res, cs3, ?_, ?_, by rw [hrun], hrp, ?_⟩
  · rw [← hacts, arrivals_append, arrivals_append, arrivals_append, arrivals_steps, arrivals_steps]; rfl
  · rw [← hacts, programCalls_append, programCalls_append, programCalls_append, programCalls_steps,
      programCalls_steps]; rfl
  have hcalls : ∀ r', expectedCalls env r' m = callsFirst env m ++ callsFor env r' 0x61 (properties m) := by
    intro r'
    unfold expectedCalls callsFirst callsFor
    rw [hw.esv]
  have hprops : properties m = [⟨p, p1⟩, ⟨q, q1⟩] := hw.props
  have hmoves : ∃ r' u1 u2, u1 < u2 ∧ us = [u1, u2] ∧
      (serveAt env db n acts (u1 + 1)).node = ((NodeOp.obj r' (.write p p1)).run db (serveAt env db n acts u1).node).1 ∧
      (serveAt env db n acts (u2 + 1)).node = ((NodeOp.obj r' (.write q q1)).run db (serveAt env db n acts u2).node).1 := by
    rcases a4 with ⟨-, -, u, -, -, z⟩ | ⟨w0, r', rs, -, g2, g3, -⟩
    · exfalso
      rcases z with ⟨z, -⟩ | ⟨-, -, z⟩ | ⟨z, -⟩
      · cases z
      · obtain ⟨y, y1, -, -, -, y5, -⟩ := C16_header_partial m hm
        obtain ⟨-, -, -, c4, -⟩ := C15_response m hm
        obtain ⟨x', y', -, -, e⟩ := hrp
        rw [Option.getD_some, y1] at z
        cases z
        rw [e, addProperties_eq, hw.esv] at y5
        have : specReply 0x61 = specRefusal 0x61 := by rw [hw.esv] at c4; exact c4.symm.trans y5
        exact absurd this (by decide)
      · cases z
    · rw [g2, hcalls] at g3
      obtain ⟨s1, s2, -, s4⟩ := keeping_moments he r' m (properties m) w0 us rs _ g3
      rw [hprops] at s1 s4
      match us, s1, s2, s4 with
      | [u1, u2], _, s2, s4 =>
        exact ⟨r', u1, u2, by simpa using s2, rfl, s4 0 _ u1 rfl rfl, s4 1 _ u2 rfl rfl⟩
  obtain ⟨r', u1, u2, hlt, rfl, w1, w2⟩ := hmoves
  have still : ∀ k, k ≠ u1 → k ≠ u2 → k ≠ 1 + j1 →
      (serveAt env db n acts (k + 1)).node = (serveAt env db n acts k).node := by
    intro k h1 h2 h3
    refine node_changes (us := [u1, u2]) (fun u hu hn => ?_) hsteps k (by simp [h1, h2])
      (fun op' h => h3 ((hcall k op').mp h).1)
    exact (a5 u (List.getElem?_eq_some_iff.mp hu).1 hu hn).1
  have called : (serveAt env db n acts (1 + j1 + 1)).node
      = ((NodeOp.obj r (.write p p2)).run db (serveAt env db n acts (1 + j1)).node).1 := by
    rw [serveAt_succ ((hcall (1 + j1) op).mpr ⟨rfl, rfl⟩), hop]
    rfl
  have start : (serveAt env db n acts 0).node.get r = some o := hg
  have mid : (serveAt env db n acts (1 + j1)).node.get r = some o1 := by rw [hmid]; exact hga
  have mp : stored o1 p = p1 := by
    rw [← hoa]; unfold stored; rw [writeAll_lookup, hx]; simp [EProp.setData]
  have mq : stored o1 q = stored o q := by
    rw [← hoa]; unfold stored; rw [writeAll_lookup, hy]; simp [EProp.setData, hpq]
  have hrr : ¬ (r ≠ r' ∨ 1 + j1 ≤ u1) := by
    intro h
    have : ∀ k ≤ 1 + j1, (serveAt env db n acts k).node.get r = some o := by
      intro k
      induction k with
      | zero => intro _; exact start
      | succ k ih =>
        intro hk
        have ih := ih (by omega)
        by_cases c1 : k = u1
        · subst c1
          rw [w1, write_other db _ _ _ (h.resolve_right (by omega))]; exact ih
        by_cases c2 : k = u2
        · subst c2
          rw [w2, write_other db _ _ _ (h.resolve_right (by omega))]; exact ih
        rw [still k c1 c2 (by omega)]; exact ih
    have := this _ (Nat.le_refl _)
    rw [mid] at this
    cases this
    exact hp1 mp.symm
  have hru : r = r' ∧ u1 < 1 + j1 :=
    ⟨Classical.byContradiction fun h => hrr (.inl h), Classical.byContradiction fun h => hrr (.inr (by omega))⟩
  obtain ⟨rfl, hu1⟩ := hru
  have inv : ∀ k, ∃ o', (serveAt env db n acts k).node.get r = some o' ∧ (o'.props.lookup p).isSome ∧
      (o'.props.lookup q).isSome ∧ (k ≤ u2 → stored o' q = stored o q) ∧
      (u2 < k → k ≤ 1 + j1 → stored o' q = q1) ∧ (1 + j1 < k → stored o' p = p2) := by
    intro k
    induction k with
    | zero => exact ⟨o, start, by rw [hx]; rfl, by rw [hy]; rfl, fun _ => rfl, fun h => absurd h (by omega),
        fun h => absurd h (by omega)⟩
    | succ k ih =>
      obtain ⟨o', i1, i2, i3, i4, i5, i6⟩ := ih
      by_cases c3 : k = 1 + j1
      · subst c3
        obtain ⟨o3, z1, z2⟩ := write_has db _ r o' i1 p p2
        refine ⟨o3, by rw [called]; exact z1, (z2 p i2).1, (z2 q i3).1, fun h => ?_, fun _ h => absurd h (by omega),
          fun _ => ?_⟩
        · rw [(z2 q i3).2, if_neg (Ne.symm hpq)]; exact i4 (by omega)
        · rw [(z2 p i2).2, if_pos rfl]
      by_cases c1 : k = u1
      · subst c1
        obtain ⟨o3, z1, z2⟩ := write_has db _ r o' i1 p p1
        refine ⟨o3, by rw [w1]; exact z1, (z2 p i2).1, (z2 q i3).1, fun h => ?_, fun h => absurd h (by omega),
          fun h => absurd h (by omega)⟩
        rw [(z2 q i3).2, if_neg (Ne.symm hpq)]; exact i4 (by omega)
      by_cases c2 : k = u2
      · subst c2
        obtain ⟨o3, z1, z2⟩ := write_has db _ r o' i1 q q1
        refine ⟨o3, by rw [w2]; exact z1, (z2 p i2).1, (z2 q i3).1, fun h => absurd h (by omega), fun _ _ => ?_,
          fun h => ?_⟩
        · rw [(z2 q i3).2, if_pos rfl]
        · rw [(z2 p i2).2, if_neg hpq]; exact i6 (by omega)
      · refine ⟨o', by rw [still k c1 c2 c3]; exact i1, i2, i3, fun h => i4 (by omega), fun h h' => i5 (by omega) (by omega),
          fun h => i6 (by omega)⟩
  have hu2 : 1 + j1 ≤ u2 := by
    refine Classical.byContradiction fun h => ?_
    obtain ⟨o', i1, -, -, -, i5, -⟩ := inv (1 + j1)
    rw [mid] at i1
    cases i1
    exact hq1 ((i5 (by omega) (Nat.le_refl _)).symm.trans mq)
  rintro k o' hk ⟨e1, e2⟩
  obtain ⟨o3, i1, -, -, i4, -, i6⟩ := inv k
  rw [hk] at i1
  cases i1
  by_cases h : k ≤ u2
  · exact hq1 (e2.symm.trans (i4 h))
  · exact hp2 ((i6 (by omega)).symm.trans e1)

/-- A way two nodes may handle one message, put on the network: the message is asked for with a post, and the reply
is brought back to it. -/
theorem posted_run (L : Link) (c n : Node) (objCode : ObjectCode) (esv : ESV) (ps : List EProp) (rq m rep res : Message)
    (k1 : c.sendRequest objCode esv ps = (c.nextTID, some rq, none)) (m1 : arriving L.toIf L.from_ rq.bytes = some m)
    (sa : List ServeAct) (s1 : arrivals sa = [m]) (cs : List Call)
    (s3 : ((ServeSt.init n).run L.env L.db sa).serving = [⟨m, cs, .done (some rep) none⟩])
    (w1 : arriving L.fromIf L.to_ rep.bytes = some res)
    (taken : Node.isResponseMessage { c.nextTID with pending := some rq } res = true) :
    ∃ acts, netPosts acts = [(objCode, esv, ps)] ∧ netCalls acts = programCalls sa ∧
      ((LiveNet.init c n).run L acts).net.returned = [res] ∧
      ∀ u, ∃ v, (liveAt L c n acts u).net.server = (serveAt L.env L.db n sa v).node := by
  have first : (LiveNet.init c n).step L (.post objCode esv ps)
      = ⟨⟨c.nextTID, n, [rq.bytes], [], some rq, []⟩, [], [], []⟩ := by
    show (⟨(Net.init c n).post objCode esv ps, [], [], []⟩ : LiveNet) = _
    have : (Net.init c n).post objCode esv ps = ⟨c.nextTID, n, [rq.bytes], [], some rq, []⟩ := by
      show (match c.sendRequest objCode esv ps with
        | (c, some q, _) => _
        | (c, none, _) => _) = _
      rw [k1]; rfl
    rw [this]
  generalize hs0 : (⟨⟨c.nextTID, n, [rq.bytes], [], some rq, []⟩, [], [], []⟩ : LiveNet) = s0 at first
  have part : ∀ k, (let s' := s0.run L ((sa.take k).map lifted)
      (⟨s'.net.server, s'.serving, s'.sent⟩ : ServeSt) = serveAt L.env L.db n sa k ∧
        s'.net.client = c.nextTID ∧ s'.net.requests = [rq.bytes] ∧ s'.net.waiting = some rq ∧
        s'.net.returned = [] ∧ Replied s') := by
    intro k
    have := lifted_run L m rq.bytes m1 (sa.take k) s0 (by
        intro z hz
        have : z ∈ arrivals sa := by
          rw [← List.take_append_drop k sa, arrivals_append]
          exact List.mem_append.mpr (.inl hz)
        rw [s1] at this
        exact List.mem_singleton.mp this) (by rw [← hs0]; rfl) (by rw [← hs0]; rfl) (by
        rw [← hs0]
        intro i h hi
        cases hi)
    rw [← hs0] at this ⊢
    exact this
  have whole := part sa.length
  rw [List.take_length] at whole
  generalize hs1 : s0.run L (sa.map lifted) = s1' at whole
  obtain ⟨q1', q2', q3', q4', q5', q6'⟩ := whole
  rw [serveAt_end (Nat.le_refl _)] at q1'
  have hsv : s1'.serving = [⟨m, cs, .done (some rep) none⟩] := by
    rw [← s3, ← q1']
  have hmem := (q6' 0 _ (by rw [hsv]; rfl)).2 rep rfl
  obtain ⟨k, hk⟩ := List.getElem?_of_mem hmem
  have last : s1'.step L (.deliver k) = ⟨⟨c.nextTID, s1'.net.server, [rq.bytes], s1'.net.replies, none, [res]⟩,
      s1'.serving, s1'.asked, s1'.sent⟩ := by
    show (⟨s1'.net.deliver L k, s1'.serving, s1'.asked, s1'.sent⟩ : LiveNet) = _
    have : s1'.net.deliver L k = ⟨c.nextTID, s1'.net.server, [rq.bytes], s1'.net.replies, none, [res]⟩ := by
      unfold Net.deliver
      rw [hk]
      dsimp only
      rw [w1]
      dsimp only
      rw [q2', q3', q4', q5', if_pos taken]
      rfl
    rw [this]
  have app : ∀ (s : LiveNet) a b, s.run L (a ++ b) = (s.run L a).run L b := by
    intro s a b; unfold LiveNet.run; rw [List.foldl_append]
  have one : ∀ (s : LiveNet) a, s.run L [a] = s.step L a := fun s a => rfl
  refine ⟨[.post objCode esv ps] ++ (sa.map lifted ++ [.deliver k]), ?_, ?_, ?_, ?_⟩
  · unfold netPosts
    rw [List.filterMap_append, List.filterMap_append]
    have := netPosts_lifted sa
    unfold netPosts at this
    rw [this]
    rfl
  · unfold netCalls
    rw [List.filterMap_append, List.filterMap_append]
    have := netCalls_lifted sa
    unfold netCalls at this
    rw [this]
    show [] ++ (_ ++ []) = _
    simp
  · rw [app, app, one _ (.deliver k), one _ (.post _ _ _), first, hs1, last]
  · intro u
    cases u with
    | zero => exact ⟨0, rfl⟩
    | succ u =>
      unfold liveAt
      rw [List.singleton_append, List.take_succ_cons, ← List.singleton_append, app, one, first, List.take_append,
        app, ← List.map_take]
      refine ⟨u, ?_⟩
      have h1 := congrArg ServeSt.node (part u).1
      refine Eq.trans ?_ h1
      generalize s0.run L ((sa.take u).map lifted) = s2
      cases u - (sa.map lifted).length with
      | zero => rfl
      | succ v =>
        rw [List.take_of_length_le (by simp)]
        exact deliver_server L s2.net k

/-- A reply with the identifier of the request and another service is taken. -/
theorem reply_taken {c : Node} {rq res : Message} {f g : Frame} (fv : f.Valid) (gv : g.Valid) (hq : Built rq)
    (hr : Built res) (k4 : Carries rq f) (w3 : Carries res g) (htid : g.tid = f.tid) (hesv : g.esv ≠ f.esv) :
    Node.isResponseMessage { c with pending := some rq } res = true := by
  have hne : res.bytes ≠ rq.bytes := by
    intro h
    have e1 := C03_frame res hr g w3
    have e2 := C03_frame rq hq f k4
    have hgq : Message.newWithBytes (g.encode ++ []) = Message.newWithBytes (f.encode ++ []) := by
      rw [← e1, h, e2]
    obtain ⟨u, u1, u2, -⟩ := C05_decode_encode g gv []
    obtain ⟨v, v1, v2, -⟩ := C05_decode_encode f fv []
    rw [u1, v1] at hgq
    cases hgq
    exact hesv (u2.esv.symm.trans v2.esv)
  have htid' : res.getTID = rq.getTID := by
    apply BitVec.eq_of_toNat_eq
    rw [w3.tid, k4.tid, htid]
  unfold Node.isResponseMessage
  dsimp only
  rw [if_neg (by
    intro h
    exact hne (((C12_equals res rq rq).1).mp h)), if_neg (by rw [htid']; simp)]

/-- C163. The property fails: while a post writes two properties of an object of another node, the program there
writes the first one. The write is confirmed, though the object has not held the data of both at any moment. This is so
for every node, object and pair of properties that may be written, and for all data that fits, if the program
stores what is written. -/
theorem C163_refuted (L : Link) (c : Node) (hb : Base c) (hr : c.running = true) (ht : c.lastTID.toNat ≤ 65535)
    (n : Node) (r : ObjRef) (o : Obj) (objCode : ObjectCode) (hc : objCode.toNat < 2 ^ 24)
    (ho : Addressed n objCode r o) (he : Keeping L.env) (hac : n.selfMsg = true ∨ L.from_ ≠ n.addr)
    (P Q : EProp) (hpq : P.code ≠ Q.code) (hf : Fitting o [⟨P.code, P.data⟩, ⟨Q.code, Q.data⟩])
    (hp1 : P.data ≠ stored o P.code) (hq1 : Q.data ≠ stored o Q.code) (p2 : Bytes) (hp2 : p2 ≠ P.data)
    (hpl : P.data.length ≤ 255) (hql : Q.data.length ≤ 255) (hp2l : p2.length ≤ 255) :
    ∃ acts res, netPosts acts = [(objCode, 0x61, [P, Q])] ∧ netCalls acts = [.obj r (.write P.code p2)] ∧
      ((LiveNet.init c n).run L acts).net.returned = [res] ∧ res.esv = 0x71 ∧
      ∀ u o', (liveAt L c n acts u).net.server.get r = some o' →
        ¬ (stored o' P.code = P.data ∧ stored o' Q.code = Q.data) := by
  obtain ⟨rq, k1, k2, k3, k4, k5⟩ := C88_wire c hb hr ht objCode hc 0x61 [P, Q] (by simp) (fun z hz => by
      rcases List.mem_cons.mp hz with rfl | hz
      · exact hpl
      · rw [List.mem_singleton.mp hz]; exact hql)
  generalize hfr : requestFrame c.lastTID.toNat objCode 0x61 [P, Q] = f at k3 k4 k5
  have fprops : f.props = [⟨P.code, P.data⟩, ⟨Q.code, Q.data⟩] := by rw [← hfr]; rfl
  have fdeoj : f.deoj = objCode.toNat := by rw [← hfr]; rfl
  have fesv : f.esv = 0x61 := by rw [← hfr]; rfl
  obtain ⟨m, m1, m2, m3, m4⟩ := arriving_frame (ifi := L.toIf) (a := L.from_) k3 (by
    rw [encode_length, fprops]
    show 12 + (2 + P.data.length + (2 + Q.data.length + 0)) ≤ 1024
    omega)
  have hw : Write n objCode [⟨P.code, P.data⟩, ⟨Q.code, Q.data⟩] m := by
    refine ⟨m3.esv.trans fesv, BitVec.eq_of_toNat_eq (by rw [m3.deoj, fdeoj]), ?_, ?_⟩
    · unfold properties
      have := m3.opc
      unfold Message.getOPC at this
      rw [this, m3.props, List.take_of_length_le (by simp), fprops]
      rfl
    · rintro ⟨a, b⟩
      rcases hac with h | h
      · rw [a] at h; cases h
      · rw [m4] at b; exact h b
  obtain ⟨sa, rep, cs, s1, s2, s3, ⟨x, y, hx, hy, s4⟩, s6⟩ := write_split he L.db n objCode r o ho P.code Q.code hpq
    P.data Q.data p2 m m2 hw hf hp1 hq1 hp2
  obtain ⟨c1, c2, c3, c4, -, -, c7, c8⟩ := C15_response m m2
  have rb : Built rep := by
    rw [s4]
    exact .addProperty _ (.addProperty _ (.response m2))
  generalize hg : (⟨f.tid, f.deoj, f.seoj, specReply 0x61, [⟨x.code, p2⟩, ⟨y.code, Q.data⟩]⟩ : Frame) = g
  have hcar : Carries rep g := by
    have hprops := shown_properties m [x.toProtocol, y.toProtocol] (by simp)
    have s4' := s4
    rw [addProperties_eq] at s4'
    have h0 : m.newResponse.ep = [] ∧ m.newResponse.opc = 0 := by rw [newResponse_eq]; exact ⟨rfl, rfl⟩
    rw [← hg, s4']
    refine ⟨c7, c8, ?_, ?_, ?_, ?_, ?_, ?_⟩
    · exact (congrArg BitVec.toNat c1).trans m3.tid
    · exact (congrArg BitVec.toNat c2).trans m3.deoj
    · exact (congrArg BitVec.toNat c3).trans m3.seoj
    · rw [hw.esv] at c4; exact c4
    · unfold Message.getOPC
      dsimp only
      rw [h0.2]
      rfl
    · dsimp only
      rw [h0.1, ← hx, ← hy]
      rfl
  have gprops : g.props = [⟨x.code, p2⟩, ⟨y.code, Q.data⟩] := by rw [← hg]
  have gv : g.Valid := by
    obtain ⟨v1, v2, v3, v4, v5⟩ := k3
    rw [← hg]
    refine ⟨v1, v3, v2, by show 2 < 256; omega, ?_⟩
    intro z hz
    rcases List.mem_cons.mp hz with rfl | hz
    · show p2.length < 256; omega
    · rw [List.mem_singleton.mp hz]; show Q.data.length < 256; omega
  obtain ⟨res, w1, w2, w3, -⟩ := arriving_frame (ifi := L.fromIf) (a := L.to_) gv (by
    rw [encode_length, gprops]
    show 12 + (2 + p2.length + (2 + Q.data.length + 0)) ≤ 1024
    omega)
  rw [← C03_frame rep rb g hcar] at w1
  obtain ⟨acts, a1, a2, a3, a4⟩ := posted_run L c n objCode 0x61 [P, Q] rq m rep res k1 (by rw [k5]; exact m1) sa s1 cs
    s3 w1 (reply_taken k3 gv k2 w2 k4 w3 (by rw [← hg]) (by
      rw [← hg, fesv]
      show specReply 0x61 ≠ 0x61
      decide))
  refine ⟨acts, res, a1, a2.trans s2, a3, ?_, ?_⟩
  · rw [w3.esv, ← hg]; rfl
  · intro u o' hu
    obtain ⟨v, hv⟩ := a4 u
    rw [hv] at hu
    exact s6 v o' hu

/-- A write of two properties while the program writes the first. -/
def aMixedWrite : List LiveAct :=
  [.post 0x013001 0x61 [⟨"", 0x80, [0x31], 0, 0, 0⟩, ⟨"", 0xB0, [0x42], 0, 0, 0⟩], .arrive 0] ++
    List.replicate 9 (.step 0) ++ [.call (.obj (.device 0) (.write 0x80 [0x32]))] ++
    List.replicate 12 (.step 0) ++ [.deliver 0]

/-- The hypotheses of `C163_write_partial` are met by it, and what it returns. -/
example : Base aClient ∧ aClient.running = true ∧ aClient.lastTID.toNat ≤ 65535 ∧
    (aMixedWrite.filter liveUsesId).length ≤ 65536 ∧ Keeping keepingEnv ∧
    (liveAt { aLink with env := keepingEnv } aClient pairNode aMixedWrite 24).net.returned = [] ∧
    ((liveAt { aLink with env := keepingEnv } aClient pairNode aMixedWrite 25).net.returned.map
      (fun m => (m.getTID, m.esv, m.ep))) = [(8, 0x71, [some ⟨0x80, [0x32]⟩, some ⟨0xB0, [0x42]⟩])] :=
  ⟨aClient_base, rfl, by decide, by decide, keepingEnv_keeping, by decide +kernel, by decide +kernel⟩

/-- The hypotheses of the refutation are met. -/
example : ∃ acts res,
    netPosts acts = [(0x013001, 0x61, [⟨"", 0x80, [0x31], 0, 0, 0⟩, ⟨"", 0xB0, [0x42], 0, 0, 0⟩])] ∧
    netCalls acts = [.obj (.device 0) (.write 0x80 [0x32])] ∧
    ((LiveNet.init aClient pairNode).run { aLink with env := keepingEnv } acts).net.returned = [res] ∧
    res.esv = 0x71 ∧
    ∀ u o', (liveAt { aLink with env := keepingEnv } aClient pairNode acts u).net.server.get (.device 0) = some o' →
      ¬ (stored o' 0x80 = [0x31] ∧ stored o' 0xB0 = [0x42]) :=
  C163_refuted { aLink with env := keepingEnv } aClient aClient_base rfl (by decide) pairNode (.device 0) _ 0x013001
    (by decide) pairNode_addressed keepingEnv_keeping (by decide) ⟨"", 0x80, [0x31], 0, 0, 0⟩
    ⟨"", 0xB0, [0x42], 0, 0, 0⟩ (by decide) (pairNode_fitting _ _) (by decide) (by decide) [0x32] (by decide)
    (by decide) (by decide) (by decide)

end Verif.Props
