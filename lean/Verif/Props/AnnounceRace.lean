import Verif.Model.AnnounceRace
import Verif.Props.Heard

/-!
# C168: announcements of a property that several goroutines write

Whoever listens to the announcements of a property wants to know its data: when all is quiet, the last announcement
should hold what the property holds. With several goroutines that write it need not. What does hold for every
schedule: each call announces once, what it announces the property held during the call, what the property holds in the
end is announced after the last change, and fewer wrong announcements come after that than there are other goroutines.
-/

namespace Verif.Props
open Verif Model Spec Lemmas

/-- What there is after the first `t` steps of a schedule. -/
abbrev annAt (r : ObjRef) (c : Byte) (n : Node) (values : List (List Bytes)) (is : List Nat) (t : Nat) : AnnSt :=
  (AnnSt.init n values).run r c (is.take t)

theorem annAt_succ {r : ObjRef} {c : Byte} {n : Node} {values : List (List Bytes)} {is : List Nat} {t i : Nat}
    (h : is[t]? = some i) :
    annAt r c n values is (t + 1) = (annAt r c n values is t).step r c i := by
  unfold annAt AnnSt.run
  rw [List.take_add_one, h, Option.toList_some, List.foldl_append]
  rfl

theorem annAt_end {r : ObjRef} {c : Byte} {n : Node} {values : List (List Bytes)} {is : List Nat} {t : Nat}
    (h : is[t]? = none) : annAt r c n values is (t + 1) = annAt r c n values is t := by
  unfold annAt
  rw [List.take_add_one, h]
  simp

/-! ## Steps -/

/-- The node runs, and the property is there, is announced and holds `d`. -/
structure Ready (r : ObjRef) (c : Byte) (o : Obj) (n : Node) (d : Bytes) : Prop where
  running : n.running = true
  tid : n.lastTID.toNat ≤ 65535
  prop : ∃ o' p, n.get r = some o' ∧ o'.codes = o.codes ∧ o'.props.lookup c = some p ∧ p.isAnnounceable = true ∧
    p.data = d

/-- The message without an identifier and destination. -/
def notice (o : Obj) (c : Byte) (d : Bytes) : Message :=
  ((Message.new.setESV ESV.notification).setSEOJ o.code).addProperty (some ⟨c, d⟩)

theorem Ready.find {r c o d} {s : AnnSt} (h : Ready r c o s.node d) : ∃ o' p, s.find r c = some (o', p) ∧
    AnnSt.notice o' p = notice o c d ∧ p.code = c ∧ p.isAnnounceable = true ∧ p.data = d ∧
    s.node.get r = some o' ∧ o'.codes = o.codes ∧ o'.props.lookup c = some p := by
  obtain ⟨o', p, h1, h2, h3, h4, h5⟩ := h.prop
  refine ⟨o', p, ?_, ?_, lookup_code h3, h4, h5, h1, h2, h3⟩
  · unfold AnnSt.find
    rw [h1, Option.bind_some, h3]
    rfl
  · unfold AnnSt.notice notice EProp.toProtocol Obj.code
    rw [h2, lookup_code h3, h5]
    rfl

theorem Ready.held {r c o d} {s : AnnSt} (h : Ready r c o s.node d) : s.held r c = some d := by
  obtain ⟨o', p, h1, -, -, -, h2, -⟩ := h.find
  unfold AnnSt.held
  rw [h1]
  exact congrArg some h2

theorem Ready.unique {r c o d d'} {n : Node} (h : Ready r c o n d) (h' : Ready r c o n d') : d = d' := by
  have h1 := Ready.held (s := ⟨n, [], []⟩) h
  have h2 := Ready.held (s := ⟨n, [], []⟩) h'
  rw [h1] at h2
  exact Option.some.inj h2

/-- What a step does. -/
inductive Does (r : ObjRef) (c : Byte) (o : Obj) (i : Nat) (s s' : AnnSt) (d : Bytes) : Prop where
  | nothing (h : s' = s)
  | write (e : Bytes) (ds : List Bytes) (hp : s.writers[i]? = some (.idle (e :: ds)))
      (hw : s'.writers = s.writers.set i (.check ds)) (hs : s'.sent = s.sent) (hr : Ready r c o s'.node e)
  | check (ds : List Bytes) (hp : s.writers[i]? = some (.check ds)) (hw : s'.writers = s.writers.set i (.build ds))
      (hs : s'.sent = s.sent) (hn : s'.node = s.node)
  | build (ds : List Bytes) (hp : s.writers[i]? = some (.build ds))
      (hw : s'.writers = s.writers.set i (.number (notice o c d) ds)) (hs : s'.sent = s.sent) (hn : s'.node = s.node)
  | number (m : Message) (ds : List Bytes) (hp : s.writers[i]? = some (.number m ds))
      (hw : s'.writers = s.writers.set i
        (.send ((m.setTID (nextId s.node.lastTID)).setDEOJ nodeProfileObjectCode) ds))
      (hs : s'.sent = s.sent) (hr : Ready r c o s'.node d)
  | send (m : Message) (ds : List Bytes) (hp : s.writers[i]? = some (.send m ds))
      (hw : s'.writers = s.writers.set i (.idle ds)) (hs : s'.sent = s.sent ++ [m]) (hn : s'.node = s.node)

theorem does {r c o d} {s : AnnSt} (h : Ready r c o s.node d) (i : Nat) : Does r c o i s (s.step r c i) d := by
  obtain ⟨o', p, f1, f2, f3, f4, f5, f6, f7, f8⟩ := h.find
  cases hp : s.writers[i]? with
  | none => exact .nothing (by simp only [AnnSt.step]; rw [hp])
  | some pc =>
    cases pc with
    | idle todo =>
      cases todo with
      | nil => exact .nothing (by simp only [AnnSt.step]; rw [hp])
      | cons e ds =>
        have hs : s.step r c i =
            ⟨s.node.set r { o' with props := o'.props.update p.code e }, s.writers.set i (.check ds), s.sent⟩ := by
          simp only [AnnSt.step]; rw [hp]; dsimp only; rw [f1]
        rw [hs]
        refine .write e ds hp rfl rfl ⟨?_, ?_, ?_⟩
        · rw [← h.running]; cases r <;> rfl
        · have : (s.node.set r { o' with props := o'.props.update p.code e }).lastTID = s.node.lastTID := by
            cases r <;> rfl
          rw [this]; exact h.tid
        · refine ⟨{ o' with props := o'.props.update p.code e }, p.setData e, ?_, f7, ?_, f4, rfl⟩
          · rw [get_set _ _ _ _ (by rw [f6]; rfl), if_pos rfl]
          · dsimp only
            rw [lookup_update, f3, if_pos rfl, f8]
            rfl
    | check ds =>
      refine .check ds hp ?_ ?_ ?_ <;>
      · simp only [AnnSt.step]; rw [hp]; dsimp only; rw [f1]; dsimp only; rw [f4, h.running]; try rfl
    | build ds =>
      have hs : s.step r c i = ⟨s.node, s.writers.set i (.number (notice o c d) ds), s.sent⟩ := by
        simp only [AnnSt.step]; rw [hp]; dsimp only; rw [f1]; dsimp only; rw [f2]
      rw [hs]
      exact .build ds hp rfl rfl rfl
    | number m ds =>
      have hs : s.step r c i = ⟨s.node.nextTID,
        s.writers.set i (.send ((m.setTID s.node.nextTID.lastTID).setDEOJ nodeProfileObjectCode) ds), s.sent⟩ := by
        simp only [AnnSt.step]; rw [hp]; dsimp only; rw [if_pos h.running]
      rw [hs]
      refine .number m ds hp ?_ rfl ⟨?_, ?_, o', p, ?_, f7, f8, f4, f5⟩
      · rw [nextTID_eq]
      · rw [nextTID_eq]; exact h.running
      · rw [nextTID_eq]; exact nextId_le _ h.tid
      · rw [nextTID_eq]; cases r <;> exact f6
    | send m ds =>
      refine .send m ds hp ?_ ?_ ?_ <;>
      · simp only [AnnSt.step]; rw [hp]

theorem Does.ready {r c o i s s' d} (h : Ready r c o s.node d) (x : Does r c o i s s' d) : ∃ d', Ready r c o s'.node d' := by
  cases x with
  | nothing e => exact ⟨d, e ▸ h⟩
  | write e ds _ _ _ hr => exact ⟨e, hr⟩
  | check ds _ _ _ hn => exact ⟨d, hn ▸ h⟩
  | build ds _ _ _ hn => exact ⟨d, hn ▸ h⟩
  | number m ds _ _ _ hr => exact ⟨d, hr⟩
  | send m ds _ _ _ hn => exact ⟨d, hn ▸ h⟩

theorem ready_run {r c o d} {s : AnnSt} (h : Ready r c o s.node d) (is : List Nat) :
    ∃ d', Ready r c o (s.run r c is).node d' := by
  induction is generalizing s d with
  | nil => exact ⟨d, h⟩
  | cons i is ih =>
    obtain ⟨d', h'⟩ := (does h i).ready h
    exact ih h'

/-- A property that is announced. -/
theorem ready_init {db : StdDB} {n : Node} (hn : NodeReached db n) (hr : n.running = true) {r : ObjRef} {o : Obj}
    (ho : n.get r = some o) {c : Byte} {p : EProp} (hp : o.props.lookup c = some p) (ha : p.annoAttr ≠ 0) :
    Ready r c o n p.data := by
  refine ⟨hr, hn.tid, o, p, ho, rfl, hp, ?_, rfl⟩
  unfold EProp.isAnnounceable Attr.isProhibited Attr.prohibited
  simpa using ha

/-! ## The last announcement may be wrong -/

/-- C168. The property fails, whatever was written and announced before: let two goroutines `i` and `j` be about to write
`d1` and `d2`. In some schedule both calls return, the property holds `d2`, and of the two announcements made the last
one, also by its identifier, holds `d1`. -/
theorem C168_refuted (db : StdDB) (n : Node) (hn : NodeReached db n) (hr : n.running = true) (r : ObjRef) (o : Obj)
    (ho : n.get r = some o) (c : Byte) (p : EProp) (hp : o.props.lookup c = some p) (ha : p.annoAttr ≠ 0)
    (values : List (List Bytes)) (before : List Nat) (i j : Nat) (hij : i ≠ j) (d1 d2 : Bytes) (ds1 ds2 : List Bytes)
    (hi : ((AnnSt.init n values).run r c before).writers[i]? = some (.idle (d1 :: ds1)))
    (hj : ((AnnSt.init n values).run r c before).writers[j]? = some (.idle (d2 :: ds2))) :
    ∃ is m1 m2, let s := (AnnSt.init n values).run r c before
      let s' := (AnnSt.init n values).run r c (before ++ is)
      s'.writers[i]? = some (.idle ds1) ∧ s'.writers[j]? = some (.idle ds2) ∧ s'.held r c = some d2 ∧
      s'.sent = s.sent ++ [m2, m1] ∧
      IsNotification m2 ((s.node.lastTID.toNat + 1) % 65536) o.codes c d2 ∧
      IsNotification m1 ((s.node.lastTID.toNat + 2) % 65536) o.codes c d1 := by
  obtain ⟨d, h0⟩ := ready_run (s := AnnSt.init n values) (ready_init hn hr ho hp ha) before
  generalize hs : (AnnSt.init n values).run r c before = s at hi hj h0
  have hw := hn.owf r o ho
  have app : ∀ is, (AnnSt.init n values).run r c (before ++ is) = s.run r c is := by
    intro is
    unfold AnnSt.run at hs ⊢
    rw [List.foldl_append, hs]
  -- one step at a time
  have sWrite : ∀ (s : AnnSt) (d : Bytes) (k : Nat) (e : Bytes) (ds : List Bytes), Ready r c o s.node d →
      s.writers[k]? = some (.idle (e :: ds)) → Ready r c o (s.step r c k).node e ∧
      (s.step r c k).writers = s.writers.set k (.check ds) ∧ (s.step r c k).sent = s.sent ∧
      (s.step r c k).node.lastTID = s.node.lastTID := by
    intro s d k e ds h hk
    have htid : (s.step r c k).node.lastTID = s.node.lastTID := by
      obtain ⟨o', p, f1, -⟩ := h.find
      simp only [AnnSt.step]; rw [hk]; dsimp only; rw [f1]; cases r <;> rfl
    cases does h k with
    | write e' ds' hp hw hs hr => rw [hk] at hp; cases hp; exact ⟨hr, hw, hs, htid⟩
    | nothing x =>
      exfalso
      obtain ⟨o', p, f1, -⟩ := h.find
      have : (s.step r c k).writers[k]? = some (.check ds) := by
        simp only [AnnSt.step]; rw [hk]; dsimp only; rw [f1]; dsimp only
        rw [List.getElem?_set_self (List.getElem?_eq_some_iff.mp hk).1]
      rw [x, hk] at this
      cases this
    | check ds hp => rw [hk] at hp; cases hp
    | build ds hp => rw [hk] at hp; cases hp
    | number m ds hp => rw [hk] at hp; cases hp
    | send m ds hp => rw [hk] at hp; cases hp
  have sCheck : ∀ (s : AnnSt) (d : Bytes) (k : Nat) (ds : List Bytes), Ready r c o s.node d →
      s.writers[k]? = some (.check ds) → (s.step r c k) = ⟨s.node, s.writers.set k (.build ds), s.sent⟩ := by
    intro s d k ds h hk
    obtain ⟨o', p, f1, f2, f3, f4, -⟩ := h.find
    simp only [AnnSt.step]; rw [hk]; dsimp only; rw [f1]; dsimp only; rw [f4, h.running]; rfl
  have sBuild : ∀ (s : AnnSt) (d : Bytes) (k : Nat) (ds : List Bytes), Ready r c o s.node d →
      s.writers[k]? = some (.build ds) →
      (s.step r c k) = ⟨s.node, s.writers.set k (.number (notice o c d) ds), s.sent⟩ := by
    intro s d k ds h hk
    obtain ⟨o', p, f1, f2, -⟩ := h.find
    simp only [AnnSt.step]; rw [hk]; dsimp only; rw [f1]; dsimp only; rw [f2]
  have sNumber : ∀ (s : AnnSt) (d : Bytes) (k : Nat) (m : Message) (ds : List Bytes), Ready r c o s.node d →
      s.writers[k]? = some (.number m ds) → Ready r c o (s.step r c k).node d ∧
      (s.step r c k).node.lastTID = nextId s.node.lastTID ∧
      (s.step r c k).writers = s.writers.set k (.send ((m.setTID (nextId s.node.lastTID)).setDEOJ nodeProfileObjectCode) ds) ∧
      (s.step r c k).sent = s.sent := by
    intro s d k m ds h hk
    have hn : (s.step r c k).node = s.node.nextTID := by
      simp only [AnnSt.step]; rw [hk]; dsimp only; rw [if_pos h.running]
    have hw : (s.step r c k).writers =
        s.writers.set k (.send ((m.setTID (nextId s.node.lastTID)).setDEOJ nodeProfileObjectCode) ds) := by
      simp only [AnnSt.step]; rw [hk]; dsimp only; rw [if_pos h.running, nextTID_eq]
    have hs : (s.step r c k).sent = s.sent := by
      simp only [AnnSt.step]; rw [hk]; dsimp only; rw [if_pos h.running]
    refine ⟨?_, by rw [hn, nextTID_eq], hw, hs⟩
    obtain ⟨o', p, h1, h2, h3, h4, h5⟩ := h.prop
    rw [hn]
    exact ⟨by rw [nextTID_eq]; exact h.running, by rw [nextTID_eq]; exact nextId_le _ h.tid, o', p,
      by rw [nextTID_eq]; cases r <;> exact h1, h2, h3, h4, h5⟩
  have sSend : ∀ (s : AnnSt) (k : Nat) (m : Message) (ds : List Bytes), s.writers[k]? = some (.send m ds) →
      (s.step r c k) = ⟨s.node, s.writers.set k (.idle ds), s.sent ++ [m]⟩ := by
    intro s k m ds hk
    simp only [AnnSt.step]; rw [hk]
  -- a goroutine up to the message
  have up : ∀ (s : AnnSt) (d : Bytes) (k : Nat) (e : Bytes) (ds : List Bytes), Ready r c o s.node d →
      s.writers[k]? = some (.idle (e :: ds)) → Ready r c o (s.run r c [k, k, k]).node e ∧
      (s.run r c [k, k, k]).writers = s.writers.set k (.number (notice o c e) ds) ∧
      (s.run r c [k, k, k]).sent = s.sent ∧ (s.run r c [k, k, k]).node.lastTID = s.node.lastTID := by
    intro s d k e ds h hk
    have hlt := (List.getElem?_eq_some_iff.mp hk).1
    obtain ⟨a1, a2, a3, a4⟩ := sWrite s d k e ds h hk
    show Ready r c o (((s.step r c k).step r c k).step r c k).node e ∧
      (((s.step r c k).step r c k).step r c k).writers = _ ∧ (((s.step r c k).step r c k).step r c k).sent = _ ∧
      (((s.step r c k).step r c k).step r c k).node.lastTID = _
    generalize s.step r c k = s1 at a1 a2 a3 a4
    have b := sCheck s1 e k ds a1 (by rw [a2, List.getElem?_set_self hlt])
    have b' := sBuild ⟨s1.node, s1.writers.set k (.build ds), s1.sent⟩ e k ds a1
      (by dsimp only; rw [a2, List.set_set, List.getElem?_set_self hlt])
    rw [b, b']
    exact ⟨a1, by dsimp only; rw [a2, List.set_set, List.set_set], a3, a4⟩
  -- from the message on
  have out : ∀ (s : AnnSt) (d : Bytes) (k : Nat) (m : Message) (ds : List Bytes), Ready r c o s.node d →
      s.writers[k]? = some (.number m ds) → Ready r c o (s.run r c [k, k]).node d ∧
      (s.run r c [k, k]).writers = s.writers.set k (.idle ds) ∧
      (s.run r c [k, k]).sent = s.sent ++ [(m.setTID (nextId s.node.lastTID)).setDEOJ nodeProfileObjectCode] ∧
      (s.run r c [k, k]).node.lastTID = nextId s.node.lastTID := by
    intro s d k m ds h hk
    have hlt := (List.getElem?_eq_some_iff.mp hk).1
    obtain ⟨a1, a2, a3, a4⟩ := sNumber s d k m ds h hk
    show Ready r c o ((s.step r c k).step r c k).node d ∧ ((s.step r c k).step r c k).writers = _ ∧
      ((s.step r c k).step r c k).sent = _ ∧ ((s.step r c k).step r c k).node.lastTID = _
    generalize s.step r c k = s1 at a1 a2 a3 a4
    rw [sSend s1 k _ ds (by rw [a3, List.getElem?_set_self hlt])]
    exact ⟨a1, by dsimp only; rw [a3, List.set_set], by dsimp only; rw [a4], a2⟩
  have hli := (List.getElem?_eq_some_iff.mp hi).1
  have hlj := (List.getElem?_eq_some_iff.mp hj).1
  obtain ⟨a1, a2, a3, a4⟩ := up s d i d1 ds1 h0 hi
  generalize hs1 : s.run r c [i, i, i] = s1 at a1 a2 a3 a4
  obtain ⟨b1, b2, b3, b4⟩ := up s1 d1 j d2 ds2 a1 (by rw [a2, List.getElem?_set_ne hij]; exact hj)
  generalize hs2 : s1.run r c [j, j, j] = s2 at b1 b2 b3 b4
  obtain ⟨c1, c2, c3, c4⟩ := out s2 d2 j _ ds2 b1 (by
    rw [b2, List.getElem?_set_self (by rw [a2, List.length_set]; exact hlj)])
  generalize hs3 : s2.run r c [j, j] = s3 at c1 c2 c3 c4
  obtain ⟨e1, e2, e3, e4⟩ := out s3 d2 i (notice o c d1) ds1 c1 (by
    rw [c2, b2, List.set_set, List.getElem?_set_ne (Ne.symm hij), a2, List.getElem?_set_self hli])
  generalize hs4 : s3.run r c [i, i] = s4 at e1 e2 e3 e4
  have tid : s3.node.lastTID = nextId s.node.lastTID := by rw [c4, b4, a4]
  have hx := nextId_toNat _ h0.tid
  have hx' := nextId_toNat _ (nextId_le _ h0.tid)
  refine ⟨[i, i, i] ++ [j, j, j] ++ [j, j] ++ [i, i], infMessage (nextId (nextId s.node.lastTID)) ⟨o.code, ⟨c, d1⟩⟩,
    infMessage (nextId s.node.lastTID) ⟨o.code, ⟨c, d2⟩⟩, ?_⟩
  have es' : s.run r c ([i, i, i] ++ [j, j, j] ++ [j, j] ++ [i, i]) = s4 := by
    rw [← hs4, ← hs3, ← hs2, ← hs1]
    unfold AnnSt.run
    rw [List.foldl_append, List.foldl_append, List.foldl_append]
  rw [app, es']
  dsimp only
  refine ⟨?_, ?_, e1.held, ?_, ?_, ?_⟩
  · rw [e2, List.getElem?_set_self]
    rw [c2, b2, a2, List.length_set, List.length_set, List.length_set]; exact hli
  · rw [e2, List.getElem?_set_ne hij, c2, List.getElem?_set_self]
    rw [b2, a2, List.length_set, List.length_set]; exact hlj
  · rw [e3, c3, b3, a3, tid, b4, a4, List.append_assoc]
    rfl
  · have := infMessage_is (nextId s.node.lastTID) (nextId_le _ h0.tid) o hw c d2
    rw [hx] at this
    exact this
  · have := infMessage_is (nextId (nextId s.node.lastTID)) (nextId_le _ (nextId_le _ h0.tid)) o hw c d1
    rw [hx', hx] at this
    have e : ((s.node.lastTID.toNat + 1) % 65536 + 1) % 65536 = (s.node.lastTID.toNat + 2) % 65536 := by omega
    rw [e] at this
    exact this

/-! ## What holds of every announcement -/

/-- Goroutine `i` began a call that writes `e` in step `w` and is still in it before step `t`. -/
structure CallAt (r : ObjRef) (c : Byte) (n : Node) (values : List (List Bytes)) (is : List Nat) (i w t : Nat)
    (e : Bytes) : Prop where
  before : w < t
  turn : is[w]? = some i
  starts : ∃ ds, (annAt r c n values is w).writers[i]? = some (.idle (e :: ds))
  writes : (annAt r c n values is (w + 1)).held r c = some e
  runs : ∀ v, w < v → v ≤ t → ∀ ds, (annAt r c n values is v).writers[i]? ≠ some (.idle ds)

theorem CallAt.later {r c n values is i w t e} (h : CallAt r c n values is i w t e)
    (hw : ∀ ds, (annAt r c n values is (t + 1)).writers[i]? ≠ some (.idle ds)) : CallAt r c n values is i w (t + 1) e := by
  refine ⟨Nat.lt_succ_of_lt h.before, h.turn, h.starts, h.writes, fun v h1 h2 => ?_⟩
  rcases Nat.lt_or_eq_of_le h2 with h2 | h2
  · exact h.runs v h1 (Nat.le_of_lt_succ h2)
  · subst h2; exact hw

/-- What is known of a goroutine in a call. -/
def Known (r : ObjRef) (c : Byte) (o : Obj) (n : Node) (values : List (List Bytes)) (is : List Nat) (t i : Nat)
    (pc : AnnPc) : Prop :=
  match pc with
  | .idle _ => True
  | .check _ => ∃ w e, CallAt r c n values is i w t e
  | .build _ => ∃ w e, CallAt r c n values is i w t e
  | .number m _ => ∃ w e u D, CallAt r c n values is i w t e ∧ w < u ∧ u < t ∧ is[u]? = some i ∧
      (annAt r c n values is u).held r c = some D ∧ m = notice o c D
  | .send m _ => ∃ w e u D, CallAt r c n values is i w t e ∧ w < u ∧ u < t ∧ is[u]? = some i ∧
      (annAt r c n values is u).held r c = some D ∧
      ∃ x : GoUint, x.toNat ≤ 65535 ∧ m = infMessage x ⟨o.code, ⟨c, D⟩⟩

theorem Known.later {r c o n values is t i pc} (h : Known r c o n values is t i pc)
    (hw : (annAt r c n values is (t + 1)).writers[i]? = some pc) : Known r c o n values is (t + 1) i pc := by
  have no : ∀ p, p = pc → (∀ ds, p ≠ .idle ds) → ∀ ds, (annAt r c n values is (t + 1)).writers[i]? ≠ some (.idle ds) := by
    intro p hp h ds h'
    rw [hw] at h'
    exact h ds (hp.trans (Option.some.inj h'))
  cases pc with
  | idle ds => trivial
  | check ds =>
    obtain ⟨w, e, h⟩ := h
    exact ⟨w, e, h.later (no _ rfl (fun _ h => by cases h))⟩
  | build ds =>
    obtain ⟨w, e, h⟩ := h
    exact ⟨w, e, h.later (no _ rfl (fun _ h => by cases h))⟩
  | number m ds =>
    obtain ⟨w, e, u, D, h, h1, h2, h3, h4, h5⟩ := h
    exact ⟨w, e, u, D, h.later (no _ rfl (fun _ h => by cases h)), h1, by omega, h3, h4, h5⟩
  | send m ds =>
    obtain ⟨w, e, u, D, h, h1, h2, h3, h4, h5⟩ := h
    exact ⟨w, e, u, D, h.later (no _ rfl (fun _ h => by cases h)), h1, by omega, h3, h4, h5⟩

theorem known {r : ObjRef} {c : Byte} {o : Obj} {n : Node} {d : Bytes} (h0 : Ready r c o n d)
    (values : List (List Bytes)) (is : List Nat) (t : Nat) :
    ∀ (i : Nat) pc, (annAt r c n values is t).writers[i]? = some pc → Known r c o n values is t i pc := by
  induction t with
  | zero =>
    intro i pc h
    have : (annAt r c n values is 0).writers = values.map .idle := rfl
    rw [this, List.getElem?_map] at h
    cases hv : values[i]? with
    | none => rw [hv] at h; cases h
    | some v => rw [hv] at h; cases h; trivial
  | succ t ih =>
    intro i pc h
    cases ht : is[t]? with
    | none =>
      have e := annAt_end (r := r) (c := c) (n := n) (values := values) ht
      exact (ih i pc (e ▸ h)).later h
    | some k =>
      have e := annAt_succ (r := r) (c := c) (n := n) (values := values) ht
      obtain ⟨D, hD⟩ := ready_run (s := AnnSt.init n values) h0 (is.take t)
      have hd := does hD k
      change Does r c o k (annAt r c n values is t) _ D at hd
      rw [← e] at hd
      have other : ∀ (p' : AnnPc), k ≠ i →
          (annAt r c n values is (t + 1)).writers = (annAt r c n values is t).writers.set k p' →
          Known r c o n values is (t + 1) i pc := by
        intro p' hk hw
        have h' := h
        rw [hw, List.getElem?_set_ne hk] at h'
        exact (ih i pc h').later h
      have own : ∀ (p p' : AnnPc), k = i → (annAt r c n values is t).writers[k]? = some p →
          (annAt r c n values is (t + 1)).writers = (annAt r c n values is t).writers.set k p' → pc = p' := by
        intro p p' hk hp hw
        have h' := h
        rw [hw, hk, List.getElem?_set_self (hk ▸ (List.getElem?_eq_some_iff.mp hp).1)] at h'
        exact (Option.some.inj h').symm
      have no : (∀ ds, pc ≠ .idle ds) →
          ∀ ds, (annAt r c n values is (t + 1)).writers[i]? ≠ some (.idle ds) := by
        intro h1 ds h2
        rw [h] at h2
        exact h1 ds (Option.some.inj h2)
      by_cases hk : k = i
      · cases hd with
        | nothing x => exact (ih i pc (x ▸ h)).later h
        | write e' ds hp hw hs hr =>
          have := own _ _ hk hp hw
          subst this
          subst hk
          refine ⟨t, e', Nat.lt_succ_self t, ht, ⟨ds, hp⟩, hr.held, fun v h1 h2 => ?_⟩
          have : v = t + 1 := by omega
          subst this
          exact no (fun _ h => by cases h)
        | check ds hp hw hs hn =>
          have := own _ _ hk hp hw
          subst this
          subst hk
          obtain ⟨w, e', h'⟩ := ih k _ hp
          exact ⟨w, e', h'.later (no (fun _ h => by cases h))⟩
        | build ds hp hw hs hn =>
          have := own _ _ hk hp hw
          subst this
          subst hk
          obtain ⟨w, e', h'⟩ := ih k _ hp
          exact ⟨w, e', t, D, h'.later (no (fun _ h => by cases h)), h'.before, Nat.lt_succ_self t, ht, hD.held, rfl⟩
        | number m ds hp hw hs hr =>
          have := own _ _ hk hp hw
          subst this
          subst hk
          obtain ⟨w, e', u, D', h', h1, h2, h3, h4, h5⟩ := ih k _ hp
          exact ⟨w, e', u, D', h'.later (no (fun _ h => by cases h)), h1, by omega, h3, h4,
            nextId (annAt r c n values is t).node.lastTID, nextId_le _ hD.tid, by rw [h5]; rfl⟩
        | send m ds hp hw hs hn =>
          have := own _ _ hk hp hw
          subst this
          trivial
      · cases hd with
        | nothing x => exact (ih i pc (x ▸ h)).later h
        | write e' ds hp hw hs hr => exact other _ hk hw
        | check ds hp hw hs hn => exact other _ hk hw
        | build ds hp hw hs hn => exact other _ hk hw
        | number m ds hp hw hs hr => exact other _ hk hw
        | send m ds hp hw hs hn => exact other _ hk hw

/-- C168, part: every announcement is made by one of the calls, once, and holds data the property held during that call.
In detail: the `k`-th message sent is handed over in some step `t` of a goroutine `i`, which is then in the call it began
in step `w`; in a step `u` of that call, after its write, the property held the data the message announces. -/
theorem C168_each_partial (db : StdDB) (n : Node) (hn : NodeReached db n) (hr : n.running = true) (r : ObjRef) (o : Obj)
    (ho : n.get r = some o) (c : Byte) (p : EProp) (hp : o.props.lookup c = some p) (ha : p.annoAttr ≠ 0)
    (values : List (List Bytes)) (is : List Nat) (k : Nat) (m : Message)
    (hm : ((AnnSt.init n values).run r c is).sent[k]? = some m) :
    ∃ i w u t e D, is[t]? = some i ∧ is[u]? = some i ∧ CallAt r c n values is i w t e ∧ w < u ∧ u < t ∧
      (annAt r c n values is u).held r c = some D ∧ IsNotification m m.getTID.toNat o.codes c D ∧
      (annAt r c n values is t).sent.length = k ∧
      (annAt r c n values is (t + 1)).sent = (annAt r c n values is t).sent ++ [m] := by
  have h0 := ready_init hn hr ho hp ha
  have key : ∀ t, t ≤ is.length → (annAt r c n values is t).sent[k]? = some m →
      ∃ i w u t e D, is[t]? = some i ∧ is[u]? = some i ∧ CallAt r c n values is i w t e ∧ w < u ∧ u < t ∧
      (annAt r c n values is u).held r c = some D ∧ IsNotification m m.getTID.toNat o.codes c D ∧
      (annAt r c n values is t).sent.length = k ∧
      (annAt r c n values is (t + 1)).sent = (annAt r c n values is t).sent ++ [m] := by
    intro t
    induction t with
    | zero => intro _ h; cases h
    | succ t ih =>
      intro ht h
      obtain ⟨i, hi⟩ : ∃ i, is[t]? = some i := ⟨_, List.getElem?_eq_getElem ht⟩
      have e := annAt_succ (r := r) (c := c) (n := n) (values := values) hi
      obtain ⟨D, hD⟩ := ready_run (s := AnnSt.init n values) h0 (is.take t)
      have hd := does hD i
      change Does r c o i (annAt r c n values is t) _ D at hd
      rw [← e] at hd
      cases hd with
      | nothing x => exact ih (by omega) (x ▸ h)
      | write e' ds hp hw hs hr => exact ih (by omega) (hs ▸ h)
      | check ds hp hw hs hn => exact ih (by omega) (hs ▸ h)
      | build ds hp hw hs hn => exact ih (by omega) (hs ▸ h)
      | number m ds hp hw hs hr => exact ih (by omega) (hs ▸ h)
      | send m' ds hp hw hs hn' =>
        rcases Nat.lt_or_ge k (annAt r c n values is t).sent.length with hk | hk
        · refine ih (by omega) ?_
          rw [hs, List.getElem?_append_left hk] at h
          exact h
        · rw [hs, List.getElem?_append_right hk] at h
          have hk' : k - (annAt r c n values is t).sent.length = 0 := by
            have := (List.getElem?_eq_some_iff.mp h).1
            simpa using this
          rw [hk'] at h
          have hm' : m' = m := Option.some.inj h
          subst hm'
          obtain ⟨w, e', u, D', h', h1, h2, h3, h4, x, h5, h6⟩ := known h0 values is t i _ hp
          refine ⟨i, w, u, t, e', D', hi, h3, h', h1, h2, h4, ?_, by omega, hs⟩
          have hx := infMessage_is x h5 o (hn.owf r o ho) c D'
          rw [h6, hx.tid]
          exact hx
  refine key is.length (Nat.le_refl _) ?_
  unfold annAt
  rw [List.take_length]
  exact hm

/-! ## How many announcements there are -/

theorem sum_set {α : Type} (f : α → Nat) (l : List α) (i : Nat) (a b : α) (h : l[i]? = some a) :
    ((l.set i b).map f).sum + f a = (l.map f).sum + f b := by
  induction l generalizing i with
  | nil => cases h
  | cons x l ih =>
    cases i with
    | zero =>
      cases h
      simp only [List.set_cons_zero, List.map_cons, List.sum_cons]
      omega
    | succ i =>
      have := ih i h
      simp only [List.set_cons_succ, List.map_cons, List.sum_cons]
      omega

/-- The announcements a goroutine has still to make. -/
def toCome : AnnPc → Nat
  | .idle ds => ds.length
  | .check ds => ds.length + 1
  | .build ds => ds.length + 1
  | .number _ ds => ds.length + 1
  | .send _ ds => ds.length + 1

theorem count_run {r c o d} {s : AnnSt} (h : Ready r c o s.node d) (is : List Nat) :
    (s.run r c is).sent.length + ((s.run r c is).writers.map toCome).sum =
      s.sent.length + (s.writers.map toCome).sum := by
  induction is generalizing s d with
  | nil => rfl
  | cons i is ih =>
    obtain ⟨d', h'⟩ := (does h i).ready h
    refine (ih h').trans ?_
    cases does h i with
    | nothing x => rw [x]
    | write e ds hp hw hs _ =>
      have := sum_set toCome s.writers i _ (.check ds) hp
      rw [hw, hs]; simp only [toCome, List.length_cons] at this; omega
    | check ds hp hw hs _ =>
      have := sum_set toCome s.writers i _ (.build ds) hp
      rw [hw, hs]; simp only [toCome] at this; omega
    | build ds hp hw hs _ =>
      have := sum_set toCome s.writers i _ (.number (notice o c d) ds) hp
      rw [hw, hs]; simp only [toCome] at this; omega
    | number m ds hp hw hs _ =>
      have := sum_set toCome s.writers i _
        (.send ((m.setTID (nextId s.node.lastTID)).setDEOJ nodeProfileObjectCode) ds) hp
      rw [hw, hs]; simp only [toCome] at this; omega
    | send m ds hp hw hs _ =>
      have := sum_set toCome s.writers i _ (.idle ds) hp
      rw [hw, hs, List.length_append, List.length_singleton]; simp only [toCome] at this; omega

/-- Every goroutine has returned from its last call. -/
def AllReturned (s : AnnSt) : Prop := ∀ pc ∈ s.writers, pc = .idle []

/-- C168, part: when all calls have returned, there were as many announcements as calls. -/
theorem C168_count_partial (db : StdDB) (n : Node) (hn : NodeReached db n) (hr : n.running = true) (r : ObjRef) (o : Obj)
    (ho : n.get r = some o) (c : Byte) (p : EProp) (hp : o.props.lookup c = some p) (ha : p.annoAttr ≠ 0)
    (values : List (List Bytes)) (is : List Nat) (hd : AllReturned ((AnnSt.init n values).run r c is)) :
    ((AnnSt.init n values).run r c is).sent.length = values.flatten.length := by
  have h := count_run (s := AnnSt.init n values) (ready_init hn hr ho hp ha) is
  have h1 : ∀ l : List AnnPc, (∀ pc ∈ l, pc = .idle []) → (l.map toCome).sum = 0 := by
    intro l hl
    induction l with
    | nil => rfl
    | cons x l ih =>
      rw [List.map_cons, List.sum_cons, ih (fun pc h => hl pc (List.mem_cons_of_mem _ h)), hl x List.mem_cons_self]
      rfl
  have h2 : ((AnnSt.init n values).writers.map toCome).sum = values.flatten.length := by
    show ((values.map AnnPc.idle).map toCome).sum = _
    rw [List.length_flatten, List.map_map]
    rfl
  rw [h1 _ hd, h2] at h
  exact h.trans (Nat.zero_add _)

/-! ## What comes after the last change -/

/-- Whether a goroutine is about to announce something other than `D`. -/
def stale (c : Byte) (D : Bytes) : AnnPc → Nat
  | .number m _ => if m.ep = [some ⟨c, D⟩] then 0 else 1
  | .send m _ => if m.ep = [some ⟨c, D⟩] then 0 else 1
  | _ => 0

theorem stale_le (c : Byte) (D : Bytes) (pc : AnnPc) : stale c D pc ≤ 1 := by
  cases pc <;> simp only [stale] <;> (try split) <;> omega

theorem sum_le {α : Type} (f : α → Nat) (hf : ∀ a, f a ≤ 1) (l : List α) : (l.map f).sum ≤ l.length := by
  induction l with
  | nil => exact Nat.le_refl 0
  | cons x l ih =>
    have := hf x
    simp only [List.map_cons, List.sum_cons, List.length_cons]
    omega

theorem sum_lt {α : Type} (f : α → Nat) (hf : ∀ a, f a ≤ 1) (l : List α) (i : Nat) (a : α) (h : l[i]? = some a)
    (ha : f a = 0) : (l.map f).sum + 1 ≤ l.length := by
  induction l generalizing i with
  | nil => cases h
  | cons x l ih =>
    cases i with
    | zero =>
      cases h
      have := sum_le f hf l
      simp only [List.map_cons, List.sum_cons, List.length_cons]
      omega
    | succ i =>
      have := ih i h
      have := hf x
      simp only [List.map_cons, List.sum_cons, List.length_cons]
      omega

/-- A goroutine that will announce `D`, if nothing is written meanwhile. -/
def WillTell (c : Byte) (D : Bytes) : AnnPc → Prop
  | .idle _ => False
  | .check _ => True
  | .build _ => True
  | .number m _ => m.ep = [some ⟨c, D⟩]
  | .send m _ => m.ep = [some ⟨c, D⟩]

/-- Since step `k`, the last that wrote, the property holds `D`. -/
structure Since (r : ObjRef) (c : Byte) (n : Node) (values : List (List Bytes)) (is : List Nat) (k t : Nat) (D : Bytes)
    (later : List Message) : Prop where
  before : k < t
  written : D ∈ values.flatten
  holds : ∀ v, k < v → v ≤ t → (annAt r c n values is v).held r c = some D
  sent : (annAt r c n values is t).sent = (annAt r c n values is k).sent ++ later
  told : (∃ m ∈ later, m.ep = [some ⟨c, D⟩]) ∨
    ∃ (i : Nat) (pc : AnnPc), (annAt r c n values is t).writers[i]? = some pc ∧ WillTell c D pc
  count : (later.filter (fun m => m.ep ≠ [some ⟨c, D⟩])).length +
    ((annAt r c n values is t).writers.map (stale c D)).sum + 1 ≤ values.length

/-- The values a goroutine has still to write. -/
def todoOf : AnnPc → List Bytes
  | .idle ds => ds
  | .check ds => ds
  | .build ds => ds
  | .number _ ds => ds
  | .send _ ds => ds

theorem todo_run {r c o d} {s : AnnSt} (h : Ready r c o s.node d) (is : List Nat) (vs : List Bytes)
    (hv : ∀ (i : Nat) pc, s.writers[i]? = some pc → ∀ e ∈ todoOf pc, e ∈ vs) :
    (s.run r c is).writers.length = s.writers.length ∧
    ∀ (i : Nat) pc, (s.run r c is).writers[i]? = some pc → ∀ e ∈ todoOf pc, e ∈ vs := by
  induction is generalizing s d with
  | nil => exact ⟨rfl, hv⟩
  | cons i is ih =>
    obtain ⟨d', h'⟩ := (does h i).ready h
    have step : (s.step r c i).writers.length = s.writers.length ∧
        ∀ (k : Nat) pc, (s.step r c i).writers[k]? = some pc → ∀ e ∈ todoOf pc, e ∈ vs := by
      have put : ∀ p p', s.writers[i]? = some p → (s.step r c i).writers = s.writers.set i p' →
          (∀ e ∈ todoOf p', e ∈ todoOf p) → (s.step r c i).writers.length = s.writers.length ∧
          ∀ (k : Nat) pc, (s.step r c i).writers[k]? = some pc → ∀ e ∈ todoOf pc, e ∈ vs := by
        intro p p' hp hw hs
        rw [hw]
        refine ⟨List.length_set, fun k pc hk e he => ?_⟩
        by_cases hki : i = k
        · subst hki
          rw [List.getElem?_set_self (List.getElem?_eq_some_iff.mp hp).1] at hk
          cases hk
          exact hv i p hp e (hs e he)
        · rw [List.getElem?_set_ne hki] at hk
          exact hv k pc hk e he
      cases does h i with
      | nothing x => rw [x]; exact ⟨rfl, hv⟩
      | write e ds hp hw hs _ => exact put _ _ hp hw (fun _ h => List.mem_cons_of_mem _ h)
      | check ds hp hw hs _ => exact put _ _ hp hw (fun _ h => h)
      | build ds hp hw hs _ => exact put _ _ hp hw (fun _ h => h)
      | number m ds hp hw hs _ => exact put _ _ hp hw (fun _ h => h)
      | send m ds hp hw hs _ => exact put _ _ hp hw (fun _ h => h)
    obtain ⟨a, b⟩ := ih h' step.2
    exact ⟨a.trans step.1, b⟩

theorem todo_init (n : Node) (values : List (List Bytes)) :
    ∀ (i : Nat) pc, (AnnSt.init n values).writers[i]? = some pc → ∀ e ∈ todoOf pc, e ∈ values.flatten := by
  intro i pc h e he
  have : (AnnSt.init n values).writers = values.map .idle := rfl
  rw [this, List.getElem?_map] at h
  cases hv : values[i]? with
  | none => rw [hv] at h; cases h
  | some v =>
    rw [hv] at h
    cases h
    exact List.mem_flatten.mpr ⟨v, List.mem_of_getElem? hv, he⟩

theorem since {r : ObjRef} {c : Byte} {o : Obj} {n : Node} {d : Bytes} (h0 : Ready r c o n d)
    (values : List (List Bytes)) (is : List Nat) (t : Nat) :
    annAt r c n values is t = AnnSt.init n values ∨ ∃ k D later, Since r c n values is k t D later := by
  induction t with
  | zero => exact .inl rfl
  | succ t ih =>
    cases ht : is[t]? with
    | none =>
      have e := annAt_end (r := r) (c := c) (n := n) (values := values) ht
      rcases ih with ih | ⟨k, D, later, h⟩
      · exact .inl (e.trans ih)
      · refine .inr ⟨k, D, later, Nat.lt_succ_of_lt h.before, h.written, fun v h1 h2 => ?_, by rw [e]; exact h.sent,
          by rw [e]; exact h.told, by rw [e]; exact h.count⟩
        rcases Nat.lt_or_eq_of_le h2 with h2 | h2
        · exact h.holds v h1 (by omega)
        · rw [h2, e]; exact h.holds t h.before (Nat.le_refl _)
    | some i =>
      have e := annAt_succ (r := r) (c := c) (n := n) (values := values) ht
      obtain ⟨D', hD⟩ := ready_run (s := AnnSt.init n values) h0 (is.take t)
      obtain ⟨len, todo⟩ := todo_run (s := AnnSt.init n values) h0 (is.take t) values.flatten (todo_init n values)
      change Ready r c o (annAt r c n values is t).node D' at hD
      change (annAt r c n values is t).writers.length = _ at len
      change ∀ (i : Nat) pc, (annAt r c n values is t).writers[i]? = some pc → _ at todo
      have len' : (annAt r c n values is t).writers.length = values.length := by
        rw [len]; exact List.length_map _
      have hd := does hD i
      rw [← e] at hd
      by_cases hn : annAt r c n values is (t + 1) = annAt r c n values is t
      · rcases ih with ih | ⟨k, D, later, h⟩
        · exact .inl (hn.trans ih)
        · refine .inr ⟨k, D, later, Nat.lt_succ_of_lt h.before, h.written, fun v h1 h2 => ?_, by rw [hn]; exact h.sent,
            by rw [hn]; exact h.told, by rw [hn]; exact h.count⟩
          rcases Nat.lt_or_eq_of_le h2 with h2 | h2
          · exact h.holds v h1 (by omega)
          · rw [h2, hn]; exact h.holds t h.before (Nat.le_refl _)
      -- a step within a call
      have inCall : ∀ p p', (annAt r c n values is t).writers[i]? = some p → (∀ ds, p ≠ .idle ds) →
          (annAt r c n values is (t + 1)).writers = (annAt r c n values is t).writers.set i p' →
          (annAt r c n values is (t + 1)).held r c = (annAt r c n values is t).held r c →
          (∀ k D later, Since r c n values is k t D later → D = D' →
            ∃ more, (annAt r c n values is (t + 1)).sent = (annAt r c n values is t).sent ++ more ∧
            (WillTell c D p → WillTell c D p' ∨ ∃ m ∈ more, m.ep = [some ⟨c, D⟩]) ∧
            (more.filter (fun m => m.ep ≠ [some ⟨c, D⟩])).length + stale c D p' ≤ stale c D p) →
          ∃ k D later, Since r c n values is k (t + 1) D later := by
        intro p p' hp hni hw hheld hx
        rcases ih with ih | ⟨k, D, later, h⟩
        · exfalso
          rw [ih] at hp
          have : (AnnSt.init n values).writers = values.map .idle := rfl
          rw [this, List.getElem?_map] at hp
          cases hv : values[i]? with
          | none => rw [hv] at hp; cases hp
          | some v => rw [hv] at hp; cases hp; exact hni v rfl
        · have hDD : D = D' := by
            have h1 := h.holds t h.before (Nat.le_refl _)
            rw [hD.held] at h1
            exact (Option.some.inj h1).symm
          obtain ⟨more, x1, x2, x3⟩ := hx k D later h hDD
          have hsum := sum_set (stale c D) _ i p p' hp
          refine ⟨k, D, later ++ more, Nat.lt_succ_of_lt h.before, h.written, fun v h1 h2 => ?_, ?_, ?_, ?_⟩
          · rcases Nat.lt_or_eq_of_le h2 with h2 | h2
            · exact h.holds v h1 (by omega)
            · rw [h2, hheld]; exact h.holds t h.before (Nat.le_refl _)
          · rw [x1, h.sent, List.append_assoc]
          · rcases h.told with ⟨m, h1, h2⟩ | ⟨i', pc, h1, h2⟩
            · exact .inl ⟨m, List.mem_append_left _ h1, h2⟩
            · by_cases hi : i = i'
              · subst hi
                rw [hp] at h1
                cases h1
                rcases x2 h2 with h3 | ⟨m, h3, h4⟩
                · exact .inr ⟨i, p', by rw [hw, List.getElem?_set_self (List.getElem?_eq_some_iff.mp hp).1], h3⟩
                · exact .inl ⟨m, List.mem_append_right _ h3, h4⟩
              · exact .inr ⟨i', pc, by rw [hw, List.getElem?_set_ne hi]; exact h1, h2⟩
          · have := h.count
            rw [List.filter_append, List.length_append, hw]
            omega
      have held_of : ∀ {s s' : AnnSt}, s'.node = s.node → s'.held r c = s.held r c := by
        intro s s' h
        unfold AnnSt.held AnnSt.find
        rw [h]
      right
      cases hd with
      | nothing x => exact absurd x hn
      | write e' ds hp hw hs hr =>
        refine ⟨t, e', [], Nat.lt_succ_self t, todo i _ hp e' List.mem_cons_self, fun v h1 h2 => ?_, ?_, ?_, ?_⟩
        · have : v = t + 1 := by omega
          rw [this]; exact hr.held
        · rw [hs, List.append_nil]
        · exact .inr ⟨i, .check ds, by rw [hw, List.getElem?_set_self (List.getElem?_eq_some_iff.mp hp).1], trivial⟩
        · have := sum_lt (stale c e') (stale_le c e') (annAt r c n values is (t + 1)).writers i (.check ds)
            (by rw [hw, List.getElem?_set_self (List.getElem?_eq_some_iff.mp hp).1]) rfl
          rw [hw, List.length_set, len'] at this
          rw [hw]
          simpa using this
      | check ds hp hw hs hn' =>
        exact inCall _ _ hp (fun _ h => by cases h) hw (held_of hn') (fun k D later h hD' =>
          ⟨[], by rw [hs, List.append_nil], fun _ => .inl trivial, Nat.le_refl _⟩)
      | build ds hp hw hs hn' =>
        exact inCall _ _ hp (fun _ h => by cases h) hw (held_of hn') (fun k D later h hD' =>
          ⟨[], by rw [hs, List.append_nil], fun _ => .inl (by subst hD'; rfl), by
            subst hD'
            have : (notice o c D).ep = [some ⟨c, D⟩] := rfl
            show 0 + (if (notice o c D).ep = [some ⟨c, D⟩] then 0 else 1) ≤ 0
            rw [if_pos this]
            exact Nat.le_refl _⟩)
      | number m ds hp hw hs hr =>
        exact inCall _ _ hp (fun _ h => by cases h) hw (by rw [hr.held, hD.held]) (fun k D later h hD' =>
          ⟨[], by rw [hs, List.append_nil], fun h => .inl h, Nat.le_of_eq (Nat.zero_add _)⟩)
      | send m ds hp hw hs hn' =>
        exact inCall _ _ hp (fun _ h => by cases h) hw (held_of hn') (fun k D later h hD' =>
          ⟨[m], hs, fun h => .inr ⟨m, List.mem_singleton_self m, h⟩, by
            by_cases hm : m.ep = [some ⟨c, D⟩]
            · simp [stale, hm]
            · simp [stale, hm]⟩)

/-- C168, part: when all calls have returned and there was one, let step `k` be the last that wrote. From then on the property
holds the `D` written; a message announcing `D` is sent after that step, and fewer other messages are sent after
it than there are goroutines. -/
theorem C168_final_partial (db : StdDB) (n : Node) (hn : NodeReached db n) (hr : n.running = true) (r : ObjRef) (o : Obj)
    (ho : n.get r = some o) (c : Byte) (p : EProp) (hp : o.props.lookup c = some p) (ha : p.annoAttr ≠ 0)
    (values : List (List Bytes)) (is : List Nat) (hd : AllReturned ((AnnSt.init n values).run r c is))
    (hv : values.flatten ≠ []) :
    ∃ k D later, k < is.length ∧ D ∈ values.flatten ∧
      (∀ v, k < v → v ≤ is.length → (annAt r c n values is v).held r c = some D) ∧
      ((AnnSt.init n values).run r c is).sent = (annAt r c n values is k).sent ++ later ∧
      (∃ m ∈ later, IsNotification m m.getTID.toNat o.codes c D) ∧
      (later.filter (fun m => m.ep ≠ [some ⟨c, D⟩])).length < values.length := by
  have h0 := ready_init hn hr ho hp ha
  have hend : annAt r c n values is is.length = (AnnSt.init n values).run r c is := by
    unfold annAt; rw [List.take_length]
  rcases since h0 values is is.length with h | ⟨k, D, later, h⟩
  · exfalso
    rw [hend] at h
    rw [h] at hd
    apply hv
    refine List.flatten_eq_nil_iff.mpr (fun v hv => ?_)
    have := hd (.idle v) (List.mem_map.mpr ⟨v, hv, rfl⟩)
    cases this
    rfl
  · refine ⟨k, D, later, h.before, h.written, h.holds, by rw [← hend]; exact h.sent, ?_, ?_⟩
    · have tell : ∃ m ∈ later, m.ep = [some ⟨c, D⟩] := by
        rcases h.told with h' | ⟨i, pc, h1, h2⟩
        · exact h'
        · exfalso
          rw [hend] at h1
          have := hd pc (List.mem_of_getElem? h1)
          subst this
          exact h2
      obtain ⟨m, h1, h2⟩ := tell
      refine ⟨m, h1, ?_⟩
      have hmem : m ∈ ((AnnSt.init n values).run r c is).sent := by
        rw [← hend, h.sent]; exact List.mem_append_right _ h1
      obtain ⟨j, hj⟩ := List.getElem?_of_mem hmem
      obtain ⟨-, -, -, -, -, D', -, -, -, -, -, -, hx, -⟩ :=
        C168_each_partial db n hn hr r o ho c p hp ha values is j m hj
      have : D' = D := by
        have h3 := hx.props
        rw [h2] at h3
        simpa using h3.symm
      rw [this] at hx
      exact hx
    · have := h.count
      omega

/-- C168, part: with one goroutine, the last announcement holds the data of the property. -/
theorem C168_one_partial (db : StdDB) (n : Node) (hn : NodeReached db n) (hr : n.running = true) (r : ObjRef) (o : Obj)
    (ho : n.get r = some o) (c : Byte) (p : EProp) (hp : o.props.lookup c = some p) (ha : p.annoAttr ≠ 0)
    (ds : List Bytes) (is : List Nat) (hd : AllReturned ((AnnSt.init n [ds]).run r c is)) (hv : ds ≠ []) :
    ∃ m D, ((AnnSt.init n [ds]).run r c is).sent.getLast? = some m ∧ IsNotification m m.getTID.toNat o.codes c D ∧
      ((AnnSt.init n [ds]).run r c is).held r c = some D := by
  obtain ⟨k, D, later, h1, h2, h3, h4, ⟨m, h5, h6⟩, h7⟩ := C168_final_partial db n hn hr r o ho c p hp ha [ds] is hd
    (by simpa using hv)
  have hend : annAt r c n [ds] is is.length = (AnnSt.init n [ds]).run r c is := by
    unfold annAt; rw [List.take_length]
  have hne : later ≠ [] := List.ne_nil_of_mem h5
  have hl : later.getLast hne ∈ later := List.getLast_mem hne
  have hep : (later.getLast hne).ep = [some ⟨c, D⟩] := by
    apply Classical.byContradiction
    intro h
    have : later.getLast hne ∈ later.filter (fun m => m.ep ≠ [some ⟨c, D⟩]) :=
      List.mem_filter.mpr ⟨hl, by simpa using h⟩
    have := List.length_pos_of_mem this
    simp only [List.length_singleton] at h7
    omega
  have hlast : ((AnnSt.init n [ds]).run r c is).sent.getLast? = some (later.getLast hne) := by
    rw [h4, List.getLast?_append, List.getLast?_eq_some_getLast hne]
    rfl
  refine ⟨later.getLast hne, D, hlast, ?_, by rw [← hend]; exact h3 _ h1 (Nat.le_refl _)⟩
  have hmem : later.getLast hne ∈ ((AnnSt.init n [ds]).run r c is).sent := by
    rw [h4]; exact List.mem_append_right _ hl
  obtain ⟨j, hj⟩ := List.getElem?_of_mem hmem
  obtain ⟨-, -, -, -, -, D', -, -, -, -, -, -, hx, -⟩ :=
    C168_each_partial db n hn hr r o ho c p hp ha [ds] is j _ hj
  have : D' = D := by
    have h3 := hx.props
    rw [hep] at h3
    simpa using h3.symm
  rw [this] at hx
  exact hx

/-! ## One call on its own is the call of `Verif.Model.Node` -/

theorem node_set_self (n : Node) (r : ObjRef) (o : Obj) (h : n.get r = some o) : n.set r o = n := by
  have same : ∀ (l : List Obj) (i : Nat), l[i]? = some o → l.set i o = l := by
    intro l i h
    obtain ⟨h1, h2⟩ := List.getElem?_eq_some_iff.mp h
    rw [← h2, List.set_getElem_self]
  cases r with
  | device i =>
    show ({ n with devices := n.devices.set i o } : Node) = n
    rw [same _ _ h]
  | profile i =>
    show ({ n with profiles := n.profiles.set i o } : Node) = n
    rw [same _ _ h]

/-- A goroutine that makes one call, while no other runs, does what the call does in `Verif.Model.Node`. -/
theorem alone_is_write (db : StdDB) (n : Node) (r : ObjRef) (c : Byte) (d : Bytes) :
    let s := (AnnSt.init n [[d]]).run r c [0, 0, 0, 0, 0]
    s.writers = [.idle []] ∧ NodeOp.run db n (.obj r (.write c d)) = (s.node, s.sent.map .multicast) := by
  have last : ∀ (n : Node) (l : List Message) (k : Nat),
      (AnnSt.run r c ⟨n, [.idle []], l⟩ (List.replicate k 0)) = ⟨n, [.idle []], l⟩ := by
    intro n l k
    induction k with
    | zero => rfl
    | succ k ih => exact ih
  have hrun : NodeOp.run db n (.obj r (.write c d)) =
      casts (n.onObj r (fun o => Node.dropErr (o.setPropertyData c d))) := rfl
  rw [hrun]
  unfold Node.onObj
  cases ho : n.get r with
  | none =>
    have h1 : (AnnSt.init n [[d]]).step r c 0 = ⟨n, [.idle []], []⟩ := by
      show (match AnnSt.find (AnnSt.init n [[d]]) r c with | none => _ | some (o, p) => _) = _
      have : AnnSt.find (AnnSt.init n [[d]]) r c = none := by
        unfold AnnSt.find; rw [show (AnnSt.init n [[d]]).node = n from rfl, ho]; rfl
      rw [this]; rfl
    have h2 : (AnnSt.init n [[d]]).run r c [0, 0, 0, 0, 0] = ⟨n, [.idle []], []⟩ := by
      show ((AnnSt.init n [[d]]).step r c 0).run r c (List.replicate 4 0) = _
      rw [h1]; exact last n [] 4
    rw [h2]
    exact ⟨rfl, rfl⟩
  | some o =>
    cases hp : o.props.lookup c with
    | none =>
      have h1 : (AnnSt.init n [[d]]).step r c 0 = ⟨n, [.idle []], []⟩ := by
        show (match AnnSt.find (AnnSt.init n [[d]]) r c with | none => _ | some (o, p) => _) = _
        have : AnnSt.find (AnnSt.init n [[d]]) r c = none := by
          unfold AnnSt.find; rw [show (AnnSt.init n [[d]]).node = n from rfl, ho]; simp [hp]
        rw [this]; rfl
      have h2 : (AnnSt.init n [[d]]).run r c [0, 0, 0, 0, 0] = ⟨n, [.idle []], []⟩ := by
        show ((AnnSt.init n [[d]]).step r c 0).run r c (List.replicate 4 0) = _
        rw [h1]; exact last n [] 4
      rw [h2]
      refine ⟨rfl, ?_⟩
      have : Node.dropErr (o.setPropertyData c d) = (o, []) := by
        unfold Obj.setPropertyData Node.dropErr; rw [hp]
      dsimp only
      rw [this, node_set_self n r o ho]
      rfl
    | some p =>
      have hc := lookup_code hp
      have f0 : AnnSt.find (AnnSt.init n [[d]]) r c = some (o, p) := by
        unfold AnnSt.find; rw [show (AnnSt.init n [[d]]).node = n from rfl, ho]; simp [hp]
      have h1 : (AnnSt.init n [[d]]).step r c 0 =
          ⟨n.set r { o with props := o.props.update p.code d }, [.check []], []⟩ := by
        show (match AnnSt.find (AnnSt.init n [[d]]) r c with | none => _ | some (o, p) => _) = _
        rw [f0]; rfl
      have hset : Node.dropErr (o.setPropertyData c d) = ({ o with props := o.props.update p.code d },
          if p.isAnnounceable then [⟨o.code, (p.setData d).toProtocol⟩] else []) := by
        unfold Obj.setPropertyData Node.dropErr; rw [hp]; rfl
      have hg : (n.set r { o with props := o.props.update p.code d }).get r =
          some { o with props := o.props.update p.code d } := by
        rw [get_set _ _ _ _ (by rw [ho]; rfl), if_pos rfl]
      have hl : (o.props.update p.code d).lookup c = some (p.setData d) := by
        rw [lookup_update, hc, if_pos rfl, hp]; rfl
      have hrun : (n.set r { o with props := o.props.update p.code d }).running = n.running := by cases r <;> rfl
      dsimp only
      rw [hset]
      dsimp only
      rw [emit_eq]
      generalize hN : n.set r { o with props := o.props.update p.code d } = N at h1 hg hrun
      have f : ∀ ws l, AnnSt.find ⟨N, ws, l⟩ r c = some ({ o with props := o.props.update p.code d }, p.setData d) := by
        intro ws l
        unfold AnnSt.find; dsimp only; rw [hg, Option.bind_some]; dsimp only; rw [hl]; rfl
      have h2 : (AnnSt.init n [[d]]).run r c [0, 0, 0, 0, 0] =
          ((⟨N, [.check []], []⟩ : AnnSt).step r c 0).run r c [0, 0, 0] := by
        show (((AnnSt.init n [[d]]).step r c 0).step r c 0).run r c [0, 0, 0] = _
        rw [h1]
      rw [h2]
      by_cases hx : (p.isAnnounceable && N.running) = true
      · obtain ⟨hx1, hx2⟩ := Bool.and_eq_true_iff.mp hx
        have h3 : (⟨N, [.check []], []⟩ : AnnSt).step r c 0 = ⟨N, [.build []], []⟩ := by
          show (match AnnSt.find ⟨N, [.check []], []⟩ r c with | none => _ | some (_, p) => _) = _
          rw [f]
          dsimp only
          rw [show (p.setData d).isAnnounceable = p.isAnnounceable from rfl, if_pos hx]; rfl
        have h4 : (⟨N, [.build []], []⟩ : AnnSt).step r c 0 =
            ⟨N, [.number (AnnSt.notice { o with props := o.props.update p.code d } (p.setData d)) []], []⟩ := by
          show (match AnnSt.find ⟨N, [.build []], []⟩ r c with | none => _ | some (o, p) => _) = _
          rw [f]; rfl
        have h5 : ∀ m, (⟨N, [.number m []], []⟩ : AnnSt).step r c 0 =
            ⟨N.nextTID, [.send ((m.setTID N.nextTID.lastTID).setDEOJ nodeProfileObjectCode) []], []⟩ := by
          intro m
          show (if N.running then _ else _) = _
          rw [if_pos hx2]; rfl
        have h6 : ((⟨N, [.check []], []⟩ : AnnSt).step r c 0).run r c [0, 0, 0] =
            ⟨N.nextTID, [.idle []], [((AnnSt.notice { o with props := o.props.update p.code d } (p.setData d)).setTID
              N.nextTID.lastTID).setDEOJ nodeProfileObjectCode]⟩ := by
          rw [h3]
          show (((⟨N, [.build []], []⟩ : AnnSt).step r c 0).step r c 0).step r c 0 = _
          rw [h4, h5]; rfl
        rw [h6, if_pos hx1, if_pos hx2, nextTID_eq]
        exact ⟨rfl, rfl⟩
      · have h3 : (⟨N, [.check []], []⟩ : AnnSt).step r c 0 = ⟨N, [.idle []], []⟩ := by
          show (match AnnSt.find ⟨N, [.check []], []⟩ r c with | none => _ | some (_, p) => _) = _
          rw [f]
          dsimp only
          rw [show (p.setData d).isAnnounceable = p.isAnnounceable from rfl, if_neg hx]; rfl
        rw [h3, show [0, 0, 0] = List.replicate 3 0 from rfl, last]
        refine ⟨rfl, ?_⟩
        by_cases hr : N.running = true
        · have : ¬ p.isAnnounceable = true := by
            rw [hr, Bool.and_true] at hx; exact hx
          rw [if_pos hr, if_neg this]
          rfl
        · rw [if_neg hr]; rfl

/-! ## A case -/

/-- A node in service with a device whose power (0x80) is announced. -/
abbrev announcer : Node := (NodeOp.runAll stdDB (Node.new stdDB) sampleOps).1

example : NodeReached stdDB announcer ∧ announcer.running = true ∧
    (∃ o p, announcer.get (.device 0) = some o ∧ o.props.lookup 0x80 = some p ∧ p.annoAttr ≠ 0) ∧
    (let s := (AnnSt.init announcer [[[0x30], [0x31]], [[0x31]]]).run (.device 0) 0x80 [0, 0, 0, 0, 0]
     s.writers[0]? = some (.idle [[0x31]]) ∧ s.writers[1]? = some (.idle [[0x31]])) := by
  refine ⟨⟨sampleOps, fun op hop => ?_, rfl⟩, by decide +kernel, ?_, by decide +kernel⟩
  · simp only [sampleOps, List.mem_cons, List.not_mem_nil, or_false] at hop
    rcases hop with rfl | rfl | rfl | rfl
    · exact ⟨_, rfl⟩
    · trivial
    · exact ⟨_, rfl⟩
    · trivial
  · have h : ((announcer.get (.device 0)).bind (fun o => (o.props.lookup 0x80).map (·.annoAttr))) = some 1 := by
      decide +kernel
    cases ho : announcer.get (.device 0) with
    | none => rw [ho] at h; cases h
    | some o =>
      cases hp : o.props.lookup 0x80 with
      | none => rw [ho, Option.bind_some, hp] at h; cases h
      | some p =>
        rw [ho, Option.bind_some, hp] at h
        refine ⟨o, p, rfl, hp, ?_⟩
        have h : p.annoAttr = 1 := Option.some.inj h
        rw [h]
        decide

/-- Two goroutines switch the power on and off: the device is off at the end, the last announcement says on. -/
example : let s := (AnnSt.init announcer [[[0x30]], [[0x31]]]).run (.device 0) 0x80 [0, 0, 0, 1, 1, 1, 1, 1, 0, 0]
    AllReturned s ∧ s.held (.device 0) 0x80 = some [0x31] ∧
    s.sent.map (·.ep) = [[some ⟨0x80, [0x31]⟩], [some ⟨0x80, [0x30]⟩]] := by
  unfold AllReturned
  decide +kernel

/-- One goroutine. -/
example : AllReturned ((AnnSt.init announcer [[[0x30], [0x31]]]).run (.device 0) 0x80 (List.replicate 10 0)) := by
  unfold AllReturned
  decide +kernel

end Verif.Props
