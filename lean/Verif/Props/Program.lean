import Verif.Model.Program
import Verif.Props.Announce
import Verif.Props.NodeOptions

/-!
# C164: nodes of one program

A program has several nodes and objects it adds to them by pointers (`Verif.Model.Program`). A node whose objects are
added to it only, and once, is as if it were alone and owned them (`Verif.Model.Node`).
-/

namespace Verif.Props
open Verif Model Spec Lemmas

/-- The pointers of a node. -/
def ptrsOf (w : Prog) (n : Nat) : List Ptr := (w.nodes n).devs ++ (w.nodes n).profs

/-- The position of a pointer. -/
def refIn (ds ps : List Ptr) (p : Ptr) : Option ObjRef :=
  match ds.findIdx? (· == p) with
  | some i => some (.device i)
  | none => (ps.findIdx? (· == p)).map .profile

theorem refIn_none {ds ps : List Ptr} {p : Ptr} (h : refIn ds ps p = none) : p ∉ ds ++ ps := by
  unfold refIn at h
  cases h1 : ds.findIdx? (· == p) with
  | some i => rw [h1] at h; cases h
  | none =>
    rw [h1] at h
    cases h2 : ps.findIdx? (· == p) with
    | some i => rw [h2] at h; cases h
    | none =>
      rw [List.findIdx?_eq_none_iff] at h1 h2
      intro hm
      rcases List.mem_append.mp hm with hm | hm
      · have := h1 p hm; simp at this
      · have := h2 p hm; simp at this

theorem refIn_some {w : Prog} {n : Nat} {p : Ptr} {r : ObjRef}
    (h : refIn (w.nodes n).devs (w.nodes n).profs p = some r) : w.ptrAt n r = some p := by
  have key : ∀ (l : List Ptr) (i : Nat), l.findIdx? (· == p) = some i → l[i]? = some p := by
    intro l i hi
    rw [List.findIdx?_eq_some_iff_getElem] at hi
    obtain ⟨hlt, h1, -⟩ := hi
    rw [List.getElem?_eq_getElem hlt]
    simp at h1
    rw [h1]
  unfold refIn at h
  cases h1 : (w.nodes n).devs.findIdx? (· == p) with
  | some i =>
    rw [h1] at h
    cases h
    exact key _ i h1
  | none =>
    rw [h1] at h
    cases h2 : (w.nodes n).profs.findIdx? (· == p) with
    | none => rw [h2] at h; cases h
    | some i =>
      rw [h2] at h
      cases h
      exact key _ i h2

theorem ptrAt_mem {w : Prog} {n : Nat} {r : ObjRef} {p : Ptr} (h : w.ptrAt n r = some p) : p ∈ ptrsOf w n := by
  unfold ptrsOf
  cases r with
  | device i => exact List.mem_append.mpr (.inl (List.mem_of_getElem? h))
  | profile i => exact List.mem_append.mpr (.inr (List.mem_of_getElem? h))

/-- What calls on objects leave as it is. -/
structure SamePtrs (w w' : Prog) : Prop where
  devs : ∀ n, (w'.nodes n).devs = (w.nodes n).devs
  profs : ∀ n, (w'.nodes n).profs = (w.nodes n).profs
  parent : w'.parent = w.parent

theorem SamePtrs.refl (w : Prog) : SamePtrs w w := ⟨fun _ => rfl, fun _ => rfl, rfl⟩

theorem SamePtrs.trans {a b c : Prog} (h : SamePtrs a b) (k : SamePtrs b c) : SamePtrs a c :=
  ⟨fun n => (k.devs n).trans (h.devs n), fun n => (k.profs n).trans (h.profs n), k.parent.trans h.parent⟩

theorem SamePtrs.ptrs {w w' : Prog} (h : SamePtrs w w') (n : Nat) : ptrsOf w' n = ptrsOf w n := by
  unfold ptrsOf; rw [h.devs, h.profs]

theorem SamePtrs.at {w w' : Prog} (h : SamePtrs w w') (n : Nat) (r : ObjRef) : w'.ptrAt n r = w.ptrAt n r := by
  cases r <;> simp [Prog.ptrAt, h.devs, h.profs]

theorem emitBy_same (w : Prog) (k : Option Nat) (as : List Ann) : SamePtrs w (w.emitBy k as).1 := by
  cases k with
  | none => exact .refl w
  | some k =>
    refine ⟨fun n => ?_, fun n => ?_, rfl⟩ <;>
    · simp only [Prog.emitBy, Prog.setNode]
      split
      · next h => subst h; rfl
      · rfl

theorem onPtr_same (w : Prog) (p : Ptr) (f : Obj → Obj × List Ann) : SamePtrs w (w.onPtr p f).1 := by
  have := emitBy_same { w with objs := fun q => if q = p then (f (w.objs p)).1 else w.objs q } (w.parent p) (f (w.objs p)).2
  exact ⟨this.devs, this.profs, this.parent⟩

theorem emitBy_objs (w : Prog) (k : Option Nat) (as : List Ann) : (w.emitBy k as).1.objs = w.objs := by
  cases k <;> rfl

theorem onPtr_objs (w : Prog) (p : Ptr) (f : Obj → Obj × List Ann) (q : Ptr) :
    (w.onPtr p f).1.objs q = if q = p then (f (w.objs p)).1 else w.objs q := by
  show (Prog.emitBy _ _ _).1.objs q = _
  rw [emitBy_objs]

/-- The messages of one node. -/
def sentBy (n : Nat) (ms : List (Nat × Sent)) : List Sent := (ms.filter (fun x => x.1 = n)).map (·.2)

theorem sentBy_append (n : Nat) (a b : List (Nat × Sent)) : sentBy n (a ++ b) = sentBy n a ++ sentBy n b := by
  simp [sentBy]

theorem sentBy_own (n : Nat) (ms : List Sent) : sentBy n (ms.map (fun m => (n, m))) = ms := by
  unfold sentBy
  rw [List.filter_eq_self.mpr (by
    intro x hx
    obtain ⟨y, -, rfl⟩ := List.mem_map.mp hx
    simp), List.map_map]
  show ms.map _ = ms
  exact List.map_id _

theorem sentBy_other {n k : Nat} (h : k ≠ n) (ms : List Sent) : sentBy n (ms.map (fun m => (k, m))) = [] := by
  unfold sentBy
  rw [List.filter_eq_nil_iff.mpr (by
    intro x hx
    obtain ⟨y, -, rfl⟩ := List.mem_map.mp hx
    simpa using h)]
  rfl

theorem emit_with (b : Node) (ds ps : List Obj) (as : List Ann) :
    ({ b with devices := ds, profiles := ps } : Node).emit as =
      ({ (b.emit as).1 with devices := ds, profiles := ps }, (b.emit as).2) := by
  rw [emit_eq, emit_eq]
  by_cases hr : b.running = true
  · simp [hr]
  · simp [hr]

theorem emitBy_view (w : Prog) (n : Nat) (as : List Ann) :
    (w.emitBy (some n) as).1.view n = ((w.view n).emit as).1 ∧
    sentBy n (w.emitBy (some n) as).2 = ((w.view n).emit as).2.map .multicast := by
  have hm : (w.emitBy (some n) as).2 = (((w.nodes n).base.emit as).2.map .multicast).map (fun m => (n, m)) := by
    simp [Prog.emitBy]
  rw [hm, sentBy_own]
  have e : (w.view n).emit as = _ := emit_with (w.nodes n).base _ _ as
  rw [e]
  refine ⟨?_, rfl⟩
  simp [Prog.emitBy, Prog.view, Prog.setNode]

theorem emitBy_other (w : Prog) (k : Option Nat) (n : Nat) (h : k ≠ some n) (as : List Ann) :
    (w.emitBy k as).1.nodes n = w.nodes n ∧ sentBy n (w.emitBy k as).2 = [] := by
  cases k with
  | none => exact ⟨rfl, rfl⟩
  | some k =>
    have hk : k ≠ n := fun e => h (by rw [e])
    constructor
    · simp only [Prog.emitBy, Prog.setNode]
      rw [if_neg (Ne.symm hk)]
    · have hm : (w.emitBy (some k) as).2 = (((w.nodes k).base.emit as).2.map .multicast).map (fun m => (k, m)) := by
        simp [Prog.emitBy]
      rw [hm, sentBy_other hk]

theorem map_update {l : List Ptr} {i : Nat} {p : Ptr} (hn : l.Nodup) (h : l[i]? = some p) (g : Ptr → Obj) (o : Obj) :
    l.map (fun q => if q = p then o else g q) = (l.map g).set i o := by
  apply List.ext_getElem?
  intro j
  rw [List.getElem?_map, List.getElem?_set, List.getElem?_map, List.length_map]
  by_cases hij : i = j
  · subst hij
    have := (List.getElem?_eq_some_iff.mp h).1
    rw [h]
    simp [this]
  · rw [if_neg hij]
    cases hq : l[j]? with
    | none => rfl
    | some q =>
      have : q ≠ p := by
        rintro rfl
        obtain ⟨a, b⟩ := List.getElem?_eq_some_iff.mp h
        obtain ⟨c, d⟩ := List.getElem?_eq_some_iff.mp hq
        have := List.pairwise_iff_getElem.mp hn
        rcases Nat.lt_or_gt_of_ne hij with hlt | hlt
        · exact this i j a c hlt (b.trans d.symm)
        · exact this j i c a hlt (d.trans b.symm)
      simp [this]

theorem map_update_other {l : List Ptr} {p : Ptr} (h : p ∉ l) (g : Ptr → Obj) (o : Obj) :
    l.map (fun q => if q = p then o else g q) = l.map g := by
  apply List.map_congr_left
  intro q hq
  rw [if_neg (by rintro rfl; exact h hq)]

/-- A call on an object of a node that owns it. -/
theorem onPtr_view (w : Prog) (n : Nat) (r : ObjRef) (p : Ptr) (f : Obj → Obj × List Ann) (h : w.ptrAt n r = some p)
    (hn : (ptrsOf w n).Nodup) (hp : w.parent p = some n) :
    (w.onPtr p f).1.view n = ((w.view n).onObj r f).1 ∧
    sentBy n (w.onPtr p f).2 = ((w.view n).onObj r f).2.map .multicast := by
  obtain ⟨nd, np, dj⟩ := List.nodup_append.mp hn
  have hg : (w.view n).get r = some (w.objs p) := by
    cases r with
    | device i => show ((w.nodes n).devs.map w.objs)[i]? = _; rw [List.getElem?_map]; rw [show (w.nodes n).devs[i]? = some p from h]; rfl
    | profile i => show ((w.nodes n).profs.map w.objs)[i]? = _; rw [List.getElem?_map]; rw [show (w.nodes n).profs[i]? = some p from h]; rfl
  have hs : Prog.view { w with objs := fun q => if q = p then (f (w.objs p)).1 else w.objs q } n
      = (w.view n).set r (f (w.objs p)).1 := by
    cases r with
    | device i =>
      have hi : (w.nodes n).devs[i]? = some p := h
      have hout : p ∉ (w.nodes n).profs := fun hm => dj p (List.mem_of_getElem? hi) p hm rfl
      simp only [Prog.view, Node.set]
      rw [map_update nd hi, map_update_other hout]
    | profile i =>
      have hi : (w.nodes n).profs[i]? = some p := h
      have hout : p ∉ (w.nodes n).devs := fun hm => dj p hm p (List.mem_of_getElem? hi) rfl
      simp only [Prog.view, Node.set]
      rw [map_update np hi, map_update_other hout]
  have := emitBy_view { w with objs := fun q => if q = p then (f (w.objs p)).1 else w.objs q } n (f (w.objs p)).2
  rw [hs] at this
  have e : w.onPtr p f = Prog.emitBy { w with objs := fun q => if q = p then (f (w.objs p)).1 else w.objs q }
      (some n) (f (w.objs p)).2 := by rw [← hp]; rfl
  have e' : (w.view n).onObj r f = ((w.view n).set r (f (w.objs p)).1).emit (f (w.objs p)).2 := by
    unfold Node.onObj; rw [hg]
  rw [e, e']
  exact this

/-- A call on an object of others. -/
theorem onPtr_other (w : Prog) (n : Nat) (p : Ptr) (f : Obj → Obj × List Ann) (h : p ∉ ptrsOf w n)
    (hp : w.parent p ≠ some n) : (w.onPtr p f).1.view n = w.view n ∧ sentBy n (w.onPtr p f).2 = [] := by
  have h1 : p ∉ (w.nodes n).devs := fun hm => h (List.mem_append.mpr (.inl hm))
  have h2 : p ∉ (w.nodes n).profs := fun hm => h (List.mem_append.mpr (.inr hm))
  obtain ⟨a, b⟩ := emitBy_other { w with objs := fun q => if q = p then (f (w.objs p)).1 else w.objs q } (w.parent p) n hp
    (f (w.objs p)).2
  refine ⟨?_, b⟩
  show Prog.view (Prog.emitBy _ _ _).1 n = _
  unfold Prog.view
  rw [a, emitBy_objs]
  dsimp only
  rw [map_update_other h1, map_update_other h2]

/-! ## A node that owns its objects -/

/-- Node `n` has each of its objects once, is the parent of just these, and no other node has one of them. -/
structure Owns (w : Prog) (n : Nat) : Prop where
  once : (ptrsOf w n).Nodup
  parent : ∀ p, w.parent p = some n ↔ p ∈ ptrsOf w n
  only : ∀ m, m ≠ n → ∀ p ∈ ptrsOf w m, p ∉ ptrsOf w n

theorem Owns.same {w w' : Prog} {n : Nat} (h : Owns w n) (k : SamePtrs w w') : Owns w' n :=
  ⟨by rw [k.ptrs]; exact h.once, fun p => by rw [k.parent, k.ptrs]; exact h.parent p,
   fun m hm p hp => by rw [k.ptrs] at hp ⊢; exact h.only m hm p hp⟩

theorem onPtrs_cons (w : Prog) (f : Obj → Obj × List Ann) (p : Ptr) (ps : List Ptr) :
    w.onPtrs f (p :: ps) = (((w.onPtr p f).1.onPtrs f ps).1, (w.onPtr p f).2 ++ ((w.onPtr p f).1.onPtrs f ps).2) := rfl

theorem onPtrs_same (w : Prog) (f : Obj → Obj × List Ann) (ps : List Ptr) : SamePtrs w (w.onPtrs f ps).1 := by
  induction ps generalizing w with
  | nil => exact .refl w
  | cons p ps ih => exact (onPtr_same w p f).trans (ih _)

theorem onPtrs_other (w : Prog) (n : Nat) (h : Owns w n) (f : Obj → Obj × List Ann) (ps : List Ptr)
    (hps : ∀ p ∈ ps, p ∉ ptrsOf w n) :
    (w.onPtrs f ps).1.view n = w.view n ∧ sentBy n (w.onPtrs f ps).2 = [] := by
  induction ps generalizing w with
  | nil => exact ⟨rfl, rfl⟩
  | cons p ps ih =>
    have hp := hps p (by simp)
    obtain ⟨a, b⟩ := onPtr_other w n p f hp (fun e => hp ((h.parent p).mp e))
    have hs := onPtr_same w p f
    obtain ⟨c, d⟩ := ih (w.onPtr p f).1 (h.same hs) (fun q hq => by rw [hs.ptrs]; exact hps q (by simp [hq]))
    exact ⟨c.trans a, by rw [onPtrs_cons, sentBy_append, b, d]; rfl⟩

/-- The same call on objects of a node, named by their positions. -/
theorem onPtrs_view (w : Prog) (n : Nat) (h : Owns w n) (f : Obj → Obj × List Ann) (rs : List ObjRef)
    (ps : List Ptr) (hrs : rs.map (w.ptrAt n) = ps.map some) :
    (w.onPtrs f ps).1.view n = ((w.view n).onObjs f rs).1 ∧
    sentBy n (w.onPtrs f ps).2 = ((w.view n).onObjs f rs).2.map .multicast := by
  induction ps generalizing w rs with
  | nil =>
    cases rs with
    | nil => exact ⟨rfl, rfl⟩
    | cons => cases hrs
  | cons p ps ih =>
    cases rs with
    | nil => cases hrs
    | cons r rs =>
      rw [List.map_cons, List.map_cons] at hrs
      injection hrs with h1 h2
      have hp := ptrAt_mem h1
      obtain ⟨a, b⟩ := onPtr_view w n r p f h1 h.once ((h.parent p).mpr hp)
      have hs := onPtr_same w p f
      obtain ⟨c, d⟩ := ih (w.onPtr p f).1 (h.same hs) rs (by
        rw [← h2]
        apply List.map_congr_left
        intro x _
        exact hs.at n x)
      rw [a] at c d
      refine ⟨c, ?_⟩
      rw [onPtrs_cons, sentBy_append, b, d, ← List.map_append]
      rfl

theorem refs_ptrs (w : Prog) (n : Nat) : (w.view n).refs.map (w.ptrAt n) = (ptrsOf w n).map some := by
  have key : ∀ l : List Ptr, (List.range l.length).map (fun i => l[i]?) = l.map some := by
    intro l
    apply List.ext_getElem?
    intro i
    rw [List.getElem?_map, List.getElem?_map]
    by_cases hi : i < l.length
    · rw [List.getElem?_range hi, List.getElem?_eq_getElem hi]
      simp [hi]
    · rw [List.getElem?_eq_none (by simp; omega), List.getElem?_eq_none (by omega)]
      rfl
  unfold Node.refs ptrsOf
  rw [List.map_append, List.map_append, List.map_map, List.map_map]
  congr 1
  · rw [← key]
    show (List.range ((w.nodes n).devs.map w.objs).length).map _ = _
    rw [List.length_map]
    rfl
  · rw [← key]
    show (List.range ((w.nodes n).profs.map w.objs).length).map _ = _
    rw [List.length_map]
    rfl

theorem setManufacturer_view (w : Prog) (n : Nat) (h : Owns w n) (c : GoUint) :
    (w.setManufacturer n c).1.view n = ((w.view n).setManufacturerCode c).1 ∧
    sentBy n (w.setManufacturer n c).2 = ((w.view n).setManufacturerCode c).2.map .multicast := by
  have hs : SamePtrs w (w.setNode n { w.nodes n with base := { (w.nodes n).base with manufacturer := c } }) := by
    refine ⟨fun m => ?_, fun m => ?_, rfl⟩ <;>
    · simp only [Prog.setNode]
      split
      · next e => subst e; rfl
      · rfl
  have hv : (w.setNode n { w.nodes n with base := { (w.nodes n).base with manufacturer := c } }).view n
      = { w.view n with manufacturer := c } := by
    simp [Prog.view, Prog.setNode]
  generalize hw1 : w.setNode n { w.nodes n with base := { (w.nodes n).base with manufacturer := c } } = w1 at hs hv
  have e : w.setManufacturer n c = w1.onPtrs (fun o => Node.dropErr (o.setManufacturerCode c)) (ptrsOf w1 n) := by
    rw [← hw1]; rfl
  have := onPtrs_view w1 n (h.same hs) (fun o => Node.dropErr (o.setManufacturerCode c)) (w1.view n).refs (ptrsOf w1 n)
    (refs_ptrs w1 n)
  rw [e]
  rw [hv] at this
  exact this

theorem setManufacturer_same (w : Prog) (n : Nat) (c : GoUint) : SamePtrs w (w.setManufacturer n c).1 := by
  have hs : SamePtrs w (w.setNode n { w.nodes n with base := { (w.nodes n).base with manufacturer := c } }) := by
    refine ⟨fun m => ?_, fun m => ?_, rfl⟩ <;>
    · simp only [Prog.setNode]
      split
      · next e => subst e; rfl
      · rfl
  exact hs.trans (onPtrs_same _ _ _)

theorem setNode_other (w : Prog) (n m : Nat) (c : NodeCell) (h : n ≠ m) : (w.setNode m c).view n = w.view n := by
  simp [Prog.view, Prog.setNode, h]

theorem setManufacturer_other (w : Prog) (n m : Nat) (hm : m ≠ n) (h : Owns w n) (c : GoUint) :
    (w.setManufacturer m c).1.view n = w.view n ∧ sentBy n (w.setManufacturer m c).2 = [] := by
  have hs : SamePtrs w (w.setNode m { w.nodes m with base := { (w.nodes m).base with manufacturer := c } }) := by
    refine ⟨fun m => ?_, fun m => ?_, rfl⟩ <;>
    · simp only [Prog.setNode]
      split
      · next e => subst e; rfl
      · rfl
  obtain ⟨a, b⟩ := onPtrs_other _ n (h.same hs) (fun o => Node.dropErr (o.setManufacturerCode c))
    (ptrsOf (w.setNode m { w.nodes m with base := { (w.nodes m).base with manufacturer := c } }) m)
    (fun p hp => by rw [hs.ptrs] at hp ⊢; exact h.only m hm p hp)
  exact ⟨a.trans (setNode_other w n m _ (Ne.symm hm)), b⟩

theorem onNode_view (db : StdDB) (w : Prog) (n : Nat) (op : NodeOp) (h : (op.run db (w.view n)).1.devices = (w.view n).devices)
    (h' : (op.run db (w.view n)).1.profiles = (w.view n).profiles) :
    (w.onNode db n op).1.view n = (op.run db (w.view n)).1 ∧
    sentBy n (w.onNode db n op).2 = (op.run db (w.view n)).2 := by
  refine ⟨?_, sentBy_own n _⟩
  have h1 : ∀ (x : Node) (ds ps : List Obj), x.devices = ds → x.profiles = ps →
      ({ x with devices := ds, profiles := ps } : Node) = x := by
    rintro x ds ps rfl rfl; rfl
  refine Eq.trans ?_ (h1 _ _ _ h h')
  simp [Prog.onNode, Prog.view, Prog.setNode]

theorem onNode_same (db : StdDB) (w : Prog) (n : Nat) (op : NodeOp) : SamePtrs w (w.onNode db n op).1 := by
  refine ⟨fun m => ?_, fun m => ?_, rfl⟩ <;>
  · simp only [Prog.onNode, Prog.setNode]
    split
    · next e => subst e; rfl
    · rfl

theorem onNode_other (db : StdDB) (w : Prog) (n m : Nat) (hm : m ≠ n) (op : NodeOp) :
    (w.onNode db m op).1.view n = w.view n ∧ sentBy n (w.onNode db m op).2 = [] :=
  ⟨setNode_other w n m _ (Ne.symm hm), sentBy_other hm _⟩

theorem updateNodeProfile_same (w : Prog) (n : Nat) : SamePtrs w (w.updateNodeProfile n).1 := by
  unfold Prog.updateNodeProfile
  cases (w.view n).nodeProfile.bind (w.ptrAt n) with
  | none => exact .refl w
  | some p =>
    exact (onPtr_same _ _ _).trans ((onPtr_same _ _ _).trans ((onPtr_same _ _ _).trans (onPtr_same _ _ _)))

theorem updateNodeProfile_view (w : Prog) (n : Nat) (h : Owns w n) :
    (w.updateNodeProfile n).1.view n = ((w.view n).updateNodeProfile).1 ∧
    sentBy n (w.updateNodeProfile n).2 = ((w.view n).updateNodeProfile).2.map .multicast := by
  unfold Prog.updateNodeProfile Node.updateNodeProfile
  cases hr : (w.view n).nodeProfile with
  | none => exact ⟨rfl, rfl⟩
  | some r =>
    have hsome : ∃ p, w.ptrAt n r = some p := by
      obtain ⟨i, rfl, hi⟩ := nodeProfile_cases hr
      have : ((w.nodes n).profs.map w.objs)[i]?.isSome := hi
      rw [List.getElem?_map, Option.isSome_map] at this
      exact Option.isSome_iff_exists.mp this
    obtain ⟨p, hp⟩ := hsome
    rw [Option.bind_some, hp]
    dsimp only
    generalize (w.view n).classes = cl
    generalize (w.view n).devices = ds
    have go : ∀ (w : Prog) (f : Obj → Obj × List Ann), Owns w n → w.ptrAt n r = some p →
        (w.onPtr p f).1.view n = ((w.view n).onObj r f).1 ∧
        sentBy n (w.onPtr p f).2 = ((w.view n).onObj r f).2.map .multicast ∧ Owns (w.onPtr p f).1 n ∧
        (w.onPtr p f).1.ptrAt n r = some p := by
      intro w f h hp
      obtain ⟨a, b⟩ := onPtr_view w n r p f hp h.once ((h.parent p).mpr (ptrAt_mem hp))
      exact ⟨a, b, h.same (onPtr_same w p f), by rw [(onPtr_same w p f).at]; exact hp⟩
    obtain ⟨a1, b1, c1, d1⟩ := go w (fun o => Node.dropErr (o.setInstanceCount (BitVec.ofNat 64 ds.length))) h hp
    obtain ⟨a2, b2, c2, d2⟩ := go _ (fun o => Node.dropErr (o.setClassCount (BitVec.ofNat 64 cl.length))) c1 d1
    obtain ⟨a3, b3, c3, d3⟩ := go _ (fun o => Node.dropErr (o.setInstanceList ds)) c2 d2
    obtain ⟨a4, b4, c4, d4⟩ := go _ (fun o => Node.dropErr (o.setClassList cl)) c3 d3
    rw [a1] at a2 b2
    rw [a2] at a3 b3
    rw [a3] at a4 b4
    refine ⟨a4, ?_⟩
    rw [sentBy_append, sentBy_append, sentBy_append, b1, b2, b3, b4, ← List.map_append, ← List.map_append,
      ← List.map_append]

theorem updateNodeProfile_other (w : Prog) (n m : Nat) (hm : m ≠ n) (h : Owns w n) :
    (w.updateNodeProfile m).1.view n = w.view n ∧ sentBy n (w.updateNodeProfile m).2 = [] := by
  unfold Prog.updateNodeProfile
  cases hr : (w.view m).nodeProfile.bind (w.ptrAt m) with
  | none => exact ⟨rfl, rfl⟩
  | some p =>
    have hp : p ∉ ptrsOf w n := by
      obtain ⟨r, -, hr⟩ := Option.bind_eq_some_iff.mp hr
      exact h.only m hm p (ptrAt_mem hr)
    dsimp only
    generalize (w.view m).classes = cl
    generalize (w.view m).devices = ds
    have go : ∀ (w : Prog) (f : Obj → Obj × List Ann), Owns w n → p ∉ ptrsOf w n →
        (w.onPtr p f).1.view n = w.view n ∧ sentBy n (w.onPtr p f).2 = [] ∧ Owns (w.onPtr p f).1 n ∧
        p ∉ ptrsOf (w.onPtr p f).1 n := by
      intro w f h hp
      obtain ⟨a, b⟩ := onPtr_other w n p f hp (fun e => hp ((h.parent p).mp e))
      exact ⟨a, b, h.same (onPtr_same w p f), by rw [(onPtr_same w p f).ptrs]; exact hp⟩
    obtain ⟨a1, b1, c1, d1⟩ := go w (fun o => Node.dropErr (o.setInstanceCount (BitVec.ofNat 64 ds.length))) h hp
    obtain ⟨a2, b2, c2, d2⟩ := go _ (fun o => Node.dropErr (o.setClassCount (BitVec.ofNat 64 cl.length))) c1 d1
    obtain ⟨a3, b3, c3, d3⟩ := go _ (fun o => Node.dropErr (o.setInstanceList ds)) c2 d2
    obtain ⟨a4, b4, c4, d4⟩ := go _ (fun o => Node.dropErr (o.setClassList cl)) c3 d3
    refine ⟨a4.trans (a3.trans (a2.trans a1)), ?_⟩
    rw [sentBy_append, sentBy_append, sentBy_append, b1, b2, b3, b4]
    rfl

/-- An object that no node has. -/
def Loose (w : Prog) (p : Ptr) : Prop := w.parent p = none ∧ ∀ m, p ∉ ptrsOf w m

/-- What adding an object does before the node profile is updated. -/
def added (w : Prog) (n : Nat) (p : Ptr) (c : NodeCell) : Prog × List (Nat × Sent) :=
  let w := w.setNode n c
  let (w, m1) := w.onPtr p (fun o => Node.dropErr (o.setManufacturerCode (w.nodes n).base.manufacturer))
  (w.setParent p (some n), m1)

theorem progAddDevice_eq (w : Prog) (n : Nat) (p : Ptr) :
    w.addDevice n p =
      let x := added w n p { w.nodes n with devs := (w.nodes n).devs ++ [p] }
      ((x.1.updateNodeProfile n).1, x.2 ++ (x.1.updateNodeProfile n).2) := rfl

theorem progAddProfile_eq (w : Prog) (n : Nat) (p : Ptr) :
    w.addProfile n p =
      let x := added w n p { w.nodes n with profs := (w.nodes n).profs ++ [p] }
      ((x.1.updateNodeProfile n).1, x.2 ++ (x.1.updateNodeProfile n).2) := rfl

theorem added_nodes (w : Prog) (n : Nat) (p : Ptr) (c : NodeCell) (m : Nat) :
    ((added w n p c).1.nodes m).devs = (if m = n then c.devs else (w.nodes m).devs) ∧
    ((added w n p c).1.nodes m).profs = (if m = n then c.profs else (w.nodes m).profs) := by
  have := onPtr_same (w.setNode n c) p
    (fun o => Node.dropErr (o.setManufacturerCode ((w.setNode n c).nodes n).base.manufacturer))
  constructor
  · refine (this.devs m).trans ?_
    simp only [Prog.setNode]
    split <;> rfl
  · refine (this.profs m).trans ?_
    simp only [Prog.setNode]
    split <;> rfl

theorem added_parent (w : Prog) (n : Nat) (p : Ptr) (c : NodeCell) (q : Ptr) :
    (added w n p c).1.parent q = if q = p then some n else w.parent q := by
  have := onPtr_same (w.setNode n c) p
    (fun o => Node.dropErr (o.setManufacturerCode ((w.setNode n c).nodes n).base.manufacturer))
  show (if q = p then some n else (Prog.onPtr (w.setNode n c) p
    (fun o => Node.dropErr (o.setManufacturerCode ((w.setNode n c).nodes n).base.manufacturer))).1.parent q) = _
  rw [this.parent]
  rfl

theorem added_ptrs (w : Prog) (n : Nat) (p : Ptr) (c : NodeCell) (m : Nat) :
    ptrsOf (added w n p c).1 m = if m = n then c.devs ++ c.profs else ptrsOf w m := by
  unfold ptrsOf
  rw [(added_nodes w n p c m).1, (added_nodes w n p c m).2]
  split <;> rfl

theorem added_owns (w : Prog) (n : Nat) (h : Owns w n) (p : Ptr) (hp : Loose w p) (c : NodeCell)
    (hnd : (c.devs ++ c.profs).Nodup) (hc : ∀ q, q ∈ c.devs ++ c.profs ↔ q = p ∨ q ∈ ptrsOf w n) :
    Owns (added w n p c).1 n := by
  refine ⟨?_, fun q => ?_, fun m hm q hq => ?_⟩
  · rw [added_ptrs, if_pos rfl]; exact hnd
  · rw [added_ptrs, if_pos rfl, added_parent, hc]
    split
    · next e => simp [e]
    · next e => rw [h.parent]; simp [e]
  · rw [added_ptrs, if_neg hm] at hq
    rw [added_ptrs, if_pos rfl, hc]
    rintro (rfl | hn)
    · exact hp.2 m hq
    · exact h.only m hm q hq hn

theorem added_owns_other (w : Prog) (n m : Nat) (hm : m ≠ n) (h : Owns w n) (p : Ptr) (hp : p ∉ ptrsOf w n)
    (c : NodeCell) (hc : ∀ q, q ∈ c.devs ++ c.profs → q = p ∨ q ∈ ptrsOf w m) :
    Owns (added w m p c).1 n := by
  refine ⟨?_, fun q => ?_, fun k hk q hq => ?_⟩
  · rw [added_ptrs, if_neg (Ne.symm hm)]; exact h.once
  · rw [added_ptrs, if_neg (Ne.symm hm), added_parent]
    split
    · next e =>
      subst e
      exact ⟨fun x => absurd (Option.some.inj x) hm, fun x => absurd x hp⟩
    · exact h.parent q
  · rw [added_ptrs, if_neg (Ne.symm hm)]
    rw [added_ptrs] at hq
    split at hq
    · rcases hc q hq with rfl | hq
      · exact hp
      · exact h.only m hm q hq
    · exact h.only k hk q hq

/-- The view of a node that gets a loose object. -/
theorem added_view (w : Prog) (n : Nat) (p : Ptr) (hp : Loose w p) (c : NodeCell) (hb : c.base = (w.nodes n).base) :
    (added w n p c).1.view n = { w.view n with
      devices := c.devs.map (fun q => if q = p then ((w.objs p).setManufacturerCode (w.view n).manufacturer).1 else w.objs q),
      profiles := c.profs.map (fun q => if q = p then ((w.objs p).setManufacturerCode (w.view n).manufacturer).1 else w.objs q) } ∧
    (added w n p c).2 = [] := by
  have hpar : (w.setNode n c).parent p = none := hp.1
  have e : added w n p c = (Prog.setParent { w.setNode n c with objs := fun q =>
      if q = p then ((w.objs p).setManufacturerCode c.base.manufacturer).1 else w.objs q } p (some n), []) := by
    unfold added Prog.onPtr
    dsimp only
    rw [hpar]
    simp [Prog.emitBy, Prog.setNode, Node.dropErr]
  rw [e]
  refine ⟨?_, rfl⟩
  simp [Prog.view, Prog.setParent, Prog.setNode, hb]

theorem added_view_other (w : Prog) (n m : Nat) (hm : m ≠ n) (p : Ptr) (hp : p ∉ ptrsOf w n)
    (hpar : w.parent p ≠ some n) (c : NodeCell) :
    (added w m p c).1.view n = w.view n ∧ sentBy n (added w m p c).2 = [] := by
  have hptrs : ptrsOf (w.setNode m c) n = ptrsOf w n := by
    simp [ptrsOf, Prog.setNode, Ne.symm hm]
  obtain ⟨a, b⟩ := onPtr_other (w.setNode m c) n p
    (fun o => Node.dropErr (o.setManufacturerCode ((w.setNode m c).nodes m).base.manufacturer)) (by rw [hptrs]; exact hp) hpar
  refine ⟨?_, b⟩
  have : (added w m p c).1.view n = (Prog.onPtr (w.setNode m c) p
    (fun o => Node.dropErr (o.setManufacturerCode ((w.setNode m c).nodes m).base.manufacturer))).1.view n := rfl
  rw [this, a, setNode_other w n m c (Ne.symm hm)]

theorem addDevice_view (w : Prog) (n : Nat) (h : Owns w n) (p : Ptr) (hp : Loose w p) :
    (w.addDevice n p).1.view n = ((w.view n).addDevice (w.objs p)).1 ∧
    sentBy n (w.addDevice n p).2 = ((w.view n).addDevice (w.objs p)).2.map .multicast ∧ Owns (w.addDevice n p).1 n := by
  have h1 : p ∉ (w.nodes n).devs := fun hm => hp.2 n (List.mem_append.mpr (.inl hm))
  have h2 : p ∉ (w.nodes n).profs := fun hm => hp.2 n (List.mem_append.mpr (.inr hm))
  obtain ⟨a, b⟩ := added_view w n p hp { w.nodes n with devs := (w.nodes n).devs ++ [p] } rfl
  have ho := added_owns w n h p hp { w.nodes n with devs := (w.nodes n).devs ++ [p] } (by
    have := h.once
    unfold ptrsOf at this
    obtain ⟨x, y, z⟩ := List.nodup_append.mp this
    refine List.nodup_append.mpr ⟨List.nodup_append.mpr ⟨x, by simp, ?_⟩, y, ?_⟩
    · intro u hu v hv e
      rw [List.mem_singleton.mp hv] at e
      exact h1 (e ▸ hu)
    · intro u hu v hv e
      rcases List.mem_append.mp hu with hu | hu
      · exact z u hu v hv e
      · rw [List.mem_singleton.mp hu] at e
        exact h2 (e ▸ hv)) (by
    intro q
    unfold ptrsOf
    simp only [List.mem_append, List.mem_singleton]
    constructor
    · rintro ((x | x) | x)
      · exact .inr (.inl x)
      · exact .inl x
      · exact .inr (.inr x)
    · rintro (x | x | x)
      · exact .inl (.inr x)
      · exact .inl (.inl x)
      · exact .inr x)
  dsimp only at a
  rw [List.map_append, map_update_other h1, map_update_other h2] at a
  rw [progAddDevice_eq]
  dsimp only
  obtain ⟨c, d⟩ := updateNodeProfile_view _ n ho
  rw [a] at c d
  refine ⟨?_, ?_, ho.same (updateNodeProfile_same _ n)⟩
  · rw [c]
    simp [Node.addDevice, Prog.view]
  · rw [sentBy_append, b, d]
    simp [Node.addDevice, Prog.view, sentBy]

theorem addProfile_view (w : Prog) (n : Nat) (h : Owns w n) (p : Ptr) (hp : Loose w p) :
    (w.addProfile n p).1.view n = ((w.view n).addProfile (w.objs p)).1 ∧
    sentBy n (w.addProfile n p).2 = ((w.view n).addProfile (w.objs p)).2.map .multicast ∧ Owns (w.addProfile n p).1 n := by
  have h1 : p ∉ (w.nodes n).devs := fun hm => hp.2 n (List.mem_append.mpr (.inl hm))
  have h2 : p ∉ (w.nodes n).profs := fun hm => hp.2 n (List.mem_append.mpr (.inr hm))
  obtain ⟨a, b⟩ := added_view w n p hp { w.nodes n with profs := (w.nodes n).profs ++ [p] } rfl
  have ho := added_owns w n h p hp { w.nodes n with profs := (w.nodes n).profs ++ [p] } (by
    have := h.once
    unfold ptrsOf at this
    rw [← List.append_assoc]
    refine List.nodup_append.mpr ⟨this, by simp, ?_⟩
    intro u hu v hv e
    rw [List.mem_singleton.mp hv] at e
    exact hp.2 n (e ▸ hu)) (by
    intro q
    unfold ptrsOf
    simp only [List.mem_append, List.mem_singleton]
    constructor
    · rintro (x | x | x)
      · exact .inr (.inl x)
      · exact .inr (.inr x)
      · exact .inl x
    · rintro (x | x | x)
      · exact .inr (.inr x)
      · exact .inl x
      · exact .inr (.inl x))
  dsimp only at a
  rw [List.map_append, map_update_other h1, map_update_other h2] at a
  rw [progAddProfile_eq]
  dsimp only
  obtain ⟨c, d⟩ := updateNodeProfile_view _ n ho
  rw [a] at c d
  refine ⟨?_, ?_, ho.same (updateNodeProfile_same _ n)⟩
  · rw [c]
    simp [Node.addProfile, Prog.view]
  · rw [sentBy_append, b, d]
    simp [Node.addProfile, Prog.view, sentBy]

/-- Another node gets an object. -/
theorem added_other (w : Prog) (n m : Nat) (hm : m ≠ n) (h : Owns w n) (p : Ptr) (hp : p ∉ ptrsOf w n) (c : NodeCell)
    (hc : ∀ q, q ∈ c.devs ++ c.profs → q = p ∨ q ∈ ptrsOf w m) :
    let x := added w m p c
    (x.1.updateNodeProfile m).1.view n = w.view n ∧ sentBy n (x.2 ++ (x.1.updateNodeProfile m).2) = [] ∧
    Owns (x.1.updateNodeProfile m).1 n := by
  have ho := added_owns_other w n m hm h p hp c hc
  obtain ⟨a, b⟩ := added_view_other w n m hm p hp (fun e => hp ((h.parent p).mp e)) c
  obtain ⟨c1, d⟩ := updateNodeProfile_other _ n m hm ho
  refine ⟨c1.trans a, ?_, ho.same (updateNodeProfile_same _ m)⟩
  rw [sentBy_append, b, d]; rfl

/-! ## Histories -/

/-- The node and the object of a call that adds one. -/
def addsPtr : ProgOp → Option (Nat × Ptr)
  | .addDevice n p => some (n, p)
  | .addProfile n p => some (n, p)
  | _ => none

/-- The calls of a history that concern node `n`, as calls on a node that owns its objects: `ds` and `ps` are the
objects it has, `objs` the objects it may get. -/
def nodeCalls (db : StdDB) (n : Nat) : List Ptr → List Ptr → (Ptr → Obj) → List ProgOp → List NodeOp
  | _, _, _, [] => []
  | ds, ps, objs, op :: ops =>
    match op with
    | .addDevice m p =>
      if m = n then .addDevice (objs p) :: nodeCalls db n (ds ++ [p]) ps objs ops else nodeCalls db n ds ps objs ops
    | .addProfile m p =>
      if m = n then .addProfile (objs p) :: nodeCalls db n ds (ps ++ [p]) objs ops else nodeCalls db n ds ps objs ops
    | .setManufacturer m c =>
      if m = n then .setManufacturer c :: nodeCalls db n ds ps objs ops else nodeCalls db n ds ps objs ops
    | .setSelf m b => if m = n then .setSelf b :: nodeCalls db n ds ps objs ops else nodeCalls db n ds ps objs ops
    | .obj p x =>
      match refIn ds ps p with
      | some r => .obj r x :: nodeCalls db n ds ps objs ops
      | none => nodeCalls db n ds ps (fun q => if q = p then (x.run db (objs p)).1 else objs q) ops
    | .setParent _ _ => nodeCalls db n ds ps objs ops
    | .start m res stays =>
      if m = n then .start res stays :: nodeCalls db n ds ps objs ops else nodeCalls db n ds ps objs ops
    | .stop m => if m = n then .stop :: nodeCalls db n ds ps objs ops else nodeCalls db n ds ps objs ops
    | .send m x => if m = n then .send x :: nodeCalls db n ds ps objs ops else nodeCalls db n ds ps objs ops

/-- What is to come keeps the objects of node `n` to itself. -/
structure Tidy (w : Prog) (n : Nat) (ops : List ProgOp) : Prop where
  owns : Owns w n
  loose : ∀ p, (n, p) ∈ ops.filterMap addsPtr → Loose w p
  once : (((ops.filterMap addsPtr).filter (fun x => x.1 = n)).map (·.2)).Nodup
  only : ∀ m p, (m, p) ∈ ops.filterMap addsPtr → m ≠ n → p ∉ ptrsOf w n ∧ (n, p) ∉ ops.filterMap addsPtr
  left : ∀ p k, ProgOp.setParent p k ∈ ops → k ≠ some n ∧ p ∉ ptrsOf w n ∧ (n, p) ∉ ops.filterMap addsPtr

theorem filterMap_adds_sub {op : ProgOp} {ops : List ProgOp} {x : Nat × Ptr} (h : x ∈ ops.filterMap addsPtr) :
    x ∈ (op :: ops).filterMap addsPtr := by
  rw [List.mem_filterMap] at h ⊢
  obtain ⟨a, h1, h2⟩ := h
  exact ⟨a, by simp [h1], h2⟩

/-- A call that adds nothing to node `n` and leaves its pointers. -/
theorem Tidy.next {w w' : Prog} {n : Nat} {op : ProgOp} {ops : List ProgOp} (h : Tidy w n (op :: ops))
    (owns : Owns w' n) (ptrs : ptrsOf w' n = ptrsOf w n)
    (loose : ∀ p, (n, p) ∈ ops.filterMap addsPtr → Loose w p → Loose w' p) : Tidy w' n ops := by
  refine ⟨owns, fun p hp => loose p hp (h.loose p (filterMap_adds_sub hp)), ?_, fun m p hp hm => ?_, fun p k hp => ?_⟩
  · have := h.once
    rw [List.filterMap_cons] at this
    split at this
    · exact this
    · rw [List.filter_cons] at this
      split at this
      · exact (List.nodup_cons.mp this).2
      · exact this
  · obtain ⟨a, b⟩ := h.only m p (filterMap_adds_sub hp) hm
    exact ⟨by rw [ptrs]; exact a, fun hx => b (filterMap_adds_sub hx)⟩
  · obtain ⟨a, b, c⟩ := h.left p k (by simp [hp])
    exact ⟨a, by rw [ptrs]; exact b, fun hx => c (filterMap_adds_sub hx)⟩

theorem SamePtrs.loose {w w' : Prog} (h : SamePtrs w w') {p : Ptr} (hp : Loose w p) : Loose w' p :=
  ⟨by rw [h.parent]; exact hp.1, fun m => by rw [h.ptrs]; exact hp.2 m⟩

theorem added_loose {w : Prog} {n : Nat} {p : Ptr} {c : NodeCell} (hc : ∀ q, q ∈ c.devs ++ c.profs → q = p ∨ q ∈ ptrsOf w n)
    {q : Ptr} (hq : q ≠ p) (h : Loose w q) : Loose ((added w n p c).1.updateNodeProfile n).1 q := by
  refine (updateNodeProfile_same _ n).loose ⟨?_, fun m => ?_⟩
  · rw [added_parent, if_neg hq]; exact h.1
  · rw [added_ptrs]
    split
    · intro hx
      rcases hc q hx with e | e
      · exact hq e
      · exact h.2 n e
    · exact h.2 m

theorem onPtrs_objs {w : Prog} {f : Obj → Obj × List Ann} {ps : List Ptr} {q : Ptr} (h : q ∉ ps) :
    (w.onPtrs f ps).1.objs q = w.objs q := by
  induction ps generalizing w with
  | nil => rfl
  | cons p ps ih =>
    rw [onPtrs_cons]
    dsimp only
    rw [ih (fun hx => h (by simp [hx])), onPtr_objs, if_neg (by rintro rfl; exact h (by simp))]

theorem updateNodeProfile_objs {w : Prog} {n : Nat} {q : Ptr} (h : q ∉ ptrsOf w n) :
    (w.updateNodeProfile n).1.objs q = w.objs q := by
  unfold Prog.updateNodeProfile
  cases hr : (w.view n).nodeProfile.bind (w.ptrAt n) with
  | none => rfl
  | some p =>
    have hp : q ≠ p := by
      obtain ⟨r, -, hr⟩ := Option.bind_eq_some_iff.mp hr
      rintro rfl
      exact h (ptrAt_mem hr)
    dsimp only
    rw [onPtr_objs, if_neg hp, onPtr_objs, if_neg hp, onPtr_objs, if_neg hp, onPtr_objs, if_neg hp]

theorem added_objs {w : Prog} {n : Nat} {p : Ptr} {c : NodeCell} (hc : ∀ q, q ∈ c.devs ++ c.profs → q = p ∨ q ∈ ptrsOf w n)
    {q : Ptr} (hq : q ≠ p) (h : Loose w q) : ((added w n p c).1.updateNodeProfile n).1.objs q = w.objs q := by
  rw [updateNodeProfile_objs]
  · show (Prog.onPtr (w.setNode n c) p
      (fun o => Node.dropErr (o.setManufacturerCode ((w.setNode n c).nodes n).base.manufacturer))).1.objs q = _
    rw [onPtr_objs, if_neg hq]
    rfl
  · rw [added_ptrs, if_pos rfl]
    intro hx
    rcases hc q hx with e | e
    · exact hq e
    · exact h.2 n e

theorem devs_sub {w : Prog} {n : Nat} {p q : Ptr} (h : q ∈ ((w.nodes n).devs ++ [p]) ++ (w.nodes n).profs) :
    q = p ∨ q ∈ ptrsOf w n := by
  unfold ptrsOf
  simp only [List.mem_append, List.mem_singleton] at h ⊢
  rcases h with (x | x) | x
  · exact .inr (.inl x)
  · exact .inl x
  · exact .inr (.inr x)

theorem profs_sub {w : Prog} {n : Nat} {p q : Ptr} (h : q ∈ (w.nodes n).devs ++ ((w.nodes n).profs ++ [p])) :
    q = p ∨ q ∈ ptrsOf w n := by
  unfold ptrsOf
  simp only [List.mem_append, List.mem_singleton] at h ⊢
  rcases h with x | x | x
  · exact .inr (.inl x)
  · exact .inr (.inr x)
  · exact .inl x

theorem node_run_keeps (db : StdDB) (n : Node) (op : NodeOp) (h : (∃ b, op = .setSelf b) ∨ op = .stop ∨
    (∃ m, op = .send m) ∨ ∃ res stays, op = .start res stays) :
    (op.run db n).1.devices = n.devices ∧ (op.run db n).1.profiles = n.profiles := by
  rcases h with ⟨b, rfl⟩ | rfl | ⟨m, rfl⟩ | ⟨res, stays, rfl⟩
  · exact ⟨rfl, rfl⟩
  · exact ⟨rfl, rfl⟩
  · have := sendMessage_same n m
    show (n.sendMessage m).1.devices = _ ∧ (n.sendMessage m).1.profiles = _
    rw [this]
    exact ⟨rfl, rfl⟩
  · cases res with
    | none => exact ⟨rfl, rfl⟩
    | some x =>
      have := announce_same { n with running := x.1, addr := x.2 }
      show (Node.announce { n with running := x.1, addr := x.2 }).1.devices = _ ∧
        (Node.announce { n with running := x.1, addr := x.2 }).1.profiles = _
      rw [this]
      exact ⟨rfl, rfl⟩

/-- A node whose objects are its own goes through a history as if it were alone and owned them. -/
theorem alone_run (db : StdDB) (n : Nat) (ops : List ProgOp) : ∀ (w : Prog) (objs : Ptr → Obj), Tidy w n ops →
    (∀ p, (n, p) ∈ ops.filterMap addsPtr → objs p = w.objs p) →
    (Prog.run db w ops).1.view n
      = (NodeOp.runAll db (w.view n) (nodeCalls db n (w.nodes n).devs (w.nodes n).profs objs ops)).1 ∧
    sentBy n (Prog.run db w ops).2
      = (NodeOp.runAll db (w.view n) (nodeCalls db n (w.nodes n).devs (w.nodes n).profs objs ops)).2 := by
  induction ops with
  | nil => intro w objs h _; exact ⟨rfl, rfl⟩
  | cons op ops ih =>
    intro w objs h hobjs
    have hrun : Prog.run db w (op :: ops) = ((Prog.run db (w.step db op).1 ops).1,
        (w.step db op).2 ++ (Prog.run db (w.step db op).1 ops).2) := rfl
    have hsub : ∀ p, (n, p) ∈ ops.filterMap addsPtr → (n, p) ∈ (op :: ops).filterMap addsPtr :=
      fun p hp => filterMap_adds_sub hp
    -- a call that is none of node `n`
    have skip : ∀ objs', (w.step db op).1.view n = w.view n → sentBy n (w.step db op).2 = [] →
        ((w.step db op).1.nodes n).devs = (w.nodes n).devs → ((w.step db op).1.nodes n).profs = (w.nodes n).profs →
        Tidy (w.step db op).1 n ops →
        (∀ p, (n, p) ∈ ops.filterMap addsPtr → objs' p = (w.step db op).1.objs p) →
        nodeCalls db n (w.nodes n).devs (w.nodes n).profs objs (op :: ops)
          = nodeCalls db n (w.nodes n).devs (w.nodes n).profs objs' ops →
        (Prog.run db w (op :: ops)).1.view n
          = (NodeOp.runAll db (w.view n) (nodeCalls db n (w.nodes n).devs (w.nodes n).profs objs (op :: ops))).1 ∧
        sentBy n (Prog.run db w (op :: ops)).2
          = (NodeOp.runAll db (w.view n) (nodeCalls db n (w.nodes n).devs (w.nodes n).profs objs (op :: ops))).2 := by
      intro objs' hv hs hd hp ht ho hc
      obtain ⟨a, b⟩ := ih (w.step db op).1 objs' ht ho
      rw [hv, hd, hp] at a b
      rw [hrun, hc]
      exact ⟨a, by rw [sentBy_append, hs, b]; rfl⟩
    -- a call of node `n`
    have take : ∀ nop ds ps, (w.step db op).1.view n = (nop.run db (w.view n)).1 →
        sentBy n (w.step db op).2 = (nop.run db (w.view n)).2 →
        ((w.step db op).1.nodes n).devs = ds → ((w.step db op).1.nodes n).profs = ps →
        Tidy (w.step db op).1 n ops →
        (∀ p, (n, p) ∈ ops.filterMap addsPtr → objs p = (w.step db op).1.objs p) →
        nodeCalls db n (w.nodes n).devs (w.nodes n).profs objs (op :: ops) = nop :: nodeCalls db n ds ps objs ops →
        (Prog.run db w (op :: ops)).1.view n
          = (NodeOp.runAll db (w.view n) (nodeCalls db n (w.nodes n).devs (w.nodes n).profs objs (op :: ops))).1 ∧
        sentBy n (Prog.run db w (op :: ops)).2
          = (NodeOp.runAll db (w.view n) (nodeCalls db n (w.nodes n).devs (w.nodes n).profs objs (op :: ops))).2 := by
      intro nop ds ps hv hs hd hp ht ho hc
      obtain ⟨a, b⟩ := ih (w.step db op).1 objs ht ho
      rw [hv, hd, hp] at a b
      rw [hrun, hc]
      exact ⟨a, by rw [sentBy_append, hs, b]; rfl⟩
    have hobj0 : ∀ p, (n, p) ∈ ops.filterMap addsPtr → objs p = w.objs p := fun p hp => hobjs p (hsub p hp)
    have plain : ∀ m nop, w.step db op = w.onNode db m nop → ((∃ b, nop = .setSelf b) ∨ nop = .stop ∨
        (∃ m, nop = .send m) ∨ ∃ res stays, nop = .start res stays) →
        nodeCalls db n (w.nodes n).devs (w.nodes n).profs objs (op :: ops) = (if m = n then
          nop :: nodeCalls db n (w.nodes n).devs (w.nodes n).profs objs ops
          else nodeCalls db n (w.nodes n).devs (w.nodes n).profs objs ops) →
        (Prog.run db w (op :: ops)).1.view n
          = (NodeOp.runAll db (w.view n) (nodeCalls db n (w.nodes n).devs (w.nodes n).profs objs (op :: ops))).1 ∧
        sentBy n (Prog.run db w (op :: ops)).2
          = (NodeOp.runAll db (w.view n) (nodeCalls db n (w.nodes n).devs (w.nodes n).profs objs (op :: ops))).2 := by
      intro m nop hst hk hc
      have hs := onNode_same db w m nop
      have ht : Tidy (w.onNode db m nop).1 n ops :=
        h.next (h.owns.same hs) (hs.ptrs n) (fun p _ hp => hs.loose hp)
      by_cases hm : m = n
      · subst hm
        rw [if_pos rfl] at hc
        obtain ⟨k1, k2⟩ := node_run_keeps db (w.view m) nop hk
        obtain ⟨a, b⟩ := onNode_view db w m nop k1 k2
        exact take nop _ _ (by rw [hst]; exact a) (by rw [hst]; exact b) (by rw [hst]; exact hs.devs m)
          (by rw [hst]; exact hs.profs m) (by rw [hst]; exact ht) (by rw [hst]; exact hobj0) hc
      · rw [if_neg hm] at hc
        obtain ⟨a, b⟩ := onNode_other db w n m hm nop
        exact skip objs (by rw [hst]; exact a) (by rw [hst]; exact b) (by rw [hst]; exact hs.devs n)
          (by rw [hst]; exact hs.profs n) (by rw [hst]; exact ht) (by rw [hst]; exact hobj0) hc
    cases op with
    | setSelf m b => exact plain m (.setSelf b) rfl (.inl ⟨b, rfl⟩) rfl
    | stop m => exact plain m .stop rfl (.inr (.inl rfl)) rfl
    | send m x => exact plain m (.send x) rfl (.inr (.inr (.inl ⟨x, rfl⟩))) rfl
    | start m res stays => exact plain m (.start res stays) rfl (.inr (.inr (.inr ⟨res, stays, rfl⟩))) rfl
    | setManufacturer m c =>
      have hs := setManufacturer_same w m c
      have ht : Tidy (w.setManufacturer m c).1 n ops :=
        h.next (h.owns.same hs) (hs.ptrs n) (fun p _ hp => hs.loose hp)
      have ho : ∀ p, (n, p) ∈ ops.filterMap addsPtr → objs p = (w.setManufacturer m c).1.objs p := by
        intro p hp
        rw [hobj0 p hp]
        have hl := (h.loose p (hsub p hp)).2 m
        unfold Prog.setManufacturer
        dsimp only
        rw [onPtrs_objs]
        · rfl
        · simp only [Prog.setNode, if_true]
          exact hl
      by_cases hm : m = n
      · subst hm
        obtain ⟨a, b⟩ := setManufacturer_view w m h.owns c
        exact take (.setManufacturer c) _ _ a b (hs.devs m) (hs.profs m) ht ho (if_pos rfl)
      · obtain ⟨a, b⟩ := setManufacturer_other w n m hm h.owns c
        exact skip objs a b (hs.devs n) (hs.profs n) ht ho (if_neg hm)
    | setParent p k =>
      obtain ⟨h1, h2, h3⟩ := h.left p k (by simp)
      refine skip objs rfl rfl rfl rfl ?_ hobj0 rfl
      refine h.next ⟨h.owns.once, fun q => ?_, h.owns.only⟩ rfl (fun q hq hl => ⟨?_, hl.2⟩)
      · show (if q = p then k else w.parent q) = some n ↔ _
        split
        · next e => subst e; exact ⟨fun e => absurd e h1, fun e => absurd e h2⟩
        · exact h.owns.parent q
      · show (if q = p then k else w.parent q) = none
        rw [if_neg (by rintro rfl; exact h3 (hsub _ hq))]
        exact hl.1
    | obj p x =>
      have hs := onPtr_same w p (fun o => Node.dropErr (x.run db o))
      have ht : Tidy (w.onPtr p (fun o => Node.dropErr (x.run db o))).1 n ops :=
        h.next (h.owns.same hs) (hs.ptrs n) (fun p _ hp => hs.loose hp)
      cases hr : refIn (w.nodes n).devs (w.nodes n).profs p with
      | some r =>
        have hat := refIn_some hr
        have hmem := ptrAt_mem hat
        obtain ⟨a, b⟩ := onPtr_view w n r p (fun o => Node.dropErr (x.run db o)) hat h.owns.once
          ((h.owns.parent p).mpr hmem)
        refine take (.obj r x) _ _ a b (hs.devs n) (hs.profs n) ht (fun q hq => ?_) (by simp only [nodeCalls, hr])
        show _ = (w.onPtr p _).1.objs q
        rw [onPtr_objs, if_neg (by rintro rfl; exact (h.loose _ (hsub _ hq)).2 n hmem)]
        exact hobj0 q hq
      | none =>
        have hmem : p ∉ ptrsOf w n := refIn_none hr
        obtain ⟨a, b⟩ := onPtr_other w n p (fun o => Node.dropErr (x.run db o)) hmem
          (fun e => hmem ((h.owns.parent p).mp e))
        refine skip (fun q => if q = p then (x.run db (objs p)).1 else objs q) a b (hs.devs n) (hs.profs n) ht
          (fun q hq => ?_) (by simp only [nodeCalls, hr])
        show _ = (w.onPtr p _).1.objs q
        rw [onPtr_objs]
        split
        · next e => subst e; rw [hobj0 q hq]; rfl
        · exact hobj0 q hq
    | addDevice m p =>
      have hdist : ∀ q, (n, q) ∈ ops.filterMap addsPtr → q ≠ p := by
        rintro q hq rfl
        by_cases hm : m = n
        · subst hm
          have := h.once
          rw [List.filterMap_cons] at this
          simp only [addsPtr] at this
          rw [List.filter_cons, if_pos (by simp), List.map_cons, List.nodup_cons] at this
          exact this.1 (List.mem_map.mpr ⟨_, List.mem_filter.mpr ⟨hq, by simp⟩, rfl⟩)
        · exact (h.only m q (List.mem_filterMap.mpr ⟨_, List.mem_cons_self, rfl⟩) hm).2 (hsub q hq)
      have ho : ∀ q, (n, q) ∈ ops.filterMap addsPtr → objs q = (w.addDevice m p).1.objs q := by
        intro q hq
        rw [progAddDevice_eq]
        refine (hobj0 q hq).trans (added_objs (fun q hq => devs_sub hq) (hdist q hq) (h.loose q (hsub q hq))).symm
      have hl : ∀ q, (n, q) ∈ ops.filterMap addsPtr → Loose w q → Loose (w.addDevice m p).1 q := by
        intro q hq hl
        rw [progAddDevice_eq]
        exact added_loose (fun q hq => devs_sub hq) (hdist q hq) hl
      have hnodes : ∀ k, ((w.addDevice m p).1.nodes k).devs = (if k = m then (w.nodes m).devs ++ [p] else (w.nodes k).devs) ∧
          ((w.addDevice m p).1.nodes k).profs = (w.nodes k).profs := by
        intro k
        rw [progAddDevice_eq]
        have hs := updateNodeProfile_same (added w m p { w.nodes m with devs := (w.nodes m).devs ++ [p] }).1 m
        obtain ⟨x1, x2⟩ := added_nodes w m p { w.nodes m with devs := (w.nodes m).devs ++ [p] } k
        refine ⟨(hs.devs k).trans x1, (hs.profs k).trans (x2.trans ?_)⟩
        split
        · next e => subst e; rfl
        · rfl
      by_cases hm : m = n
      · subst hm
        have hp := h.loose p (List.mem_filterMap.mpr ⟨_, List.mem_cons_self, rfl⟩)
        obtain ⟨a, b, c⟩ := addDevice_view w m h.owns p hp
        have hpt : ptrsOf (w.addDevice m p).1 m = ((w.nodes m).devs ++ [p]) ++ (w.nodes m).profs := by
          unfold ptrsOf
          rw [(hnodes m).1, (hnodes m).2, if_pos rfl]
        refine take (.addDevice (objs p)) ((w.nodes m).devs ++ [p]) (w.nodes m).profs ?_ ?_ ((hnodes m).1.trans (if_pos rfl))
          (hnodes m).2 ⟨c, fun q hq => hl q hq (h.loose q (hsub q hq)), ?_, ?_, ?_⟩ ho (if_pos rfl)
        · rw [hobjs p (List.mem_filterMap.mpr ⟨_, List.mem_cons_self, rfl⟩)]; exact a
        · rw [hobjs p (List.mem_filterMap.mpr ⟨_, List.mem_cons_self, rfl⟩)]; exact b
        · have := h.once
          rw [List.filterMap_cons] at this
          simp only [addsPtr] at this
          rw [List.filter_cons, if_pos (by simp), List.map_cons, List.nodup_cons] at this
          exact this.2
        · intro k q hq hk
          obtain ⟨x1, x2⟩ := h.only k q (filterMap_adds_sub hq) hk
          refine ⟨fun hx => ?_, fun hx => x2 (hsub q hx)⟩
          rw [show ptrsOf (w.step db (.addDevice m p)).1 m = _ from hpt] at hx
          rcases devs_sub hx with e | e
          · subst e; exact x2 (List.mem_filterMap.mpr ⟨_, List.mem_cons_self, rfl⟩)
          · exact x1 e
        · intro q k hq
          obtain ⟨x0, x1, x2⟩ := h.left q k (by simp [hq])
          refine ⟨x0, fun hx => ?_, fun hx => x2 (hsub q hx)⟩
          rw [show ptrsOf (w.step db (.addDevice m p)).1 m = _ from hpt] at hx
          rcases devs_sub hx with e | e
          · subst e; exact x2 (List.mem_filterMap.mpr ⟨_, List.mem_cons_self, rfl⟩)
          · exact x1 e
      · have hp := (h.only m p (List.mem_filterMap.mpr ⟨_, List.mem_cons_self, rfl⟩) hm).1
        obtain ⟨a, b, c⟩ := added_other w n m hm h.owns p hp { w.nodes m with devs := (w.nodes m).devs ++ [p] }
          (fun q hq => devs_sub hq)
        refine skip objs a b ((hnodes n).1.trans (if_neg (Ne.symm hm))) (hnodes n).2 (h.next c ?_ hl) ho (if_neg hm)
        unfold ptrsOf
        rw [show ((w.step db (.addDevice m p)).1.nodes n).devs = _ from (hnodes n).1,
          show ((w.step db (.addDevice m p)).1.nodes n).profs = _ from (hnodes n).2, if_neg (Ne.symm hm)]
    | addProfile m p =>
      have hdist : ∀ q, (n, q) ∈ ops.filterMap addsPtr → q ≠ p := by
        rintro q hq rfl
        by_cases hm : m = n
        · subst hm
          have := h.once
          rw [List.filterMap_cons] at this
          simp only [addsPtr] at this
          rw [List.filter_cons, if_pos (by simp), List.map_cons, List.nodup_cons] at this
          exact this.1 (List.mem_map.mpr ⟨_, List.mem_filter.mpr ⟨hq, by simp⟩, rfl⟩)
        · exact (h.only m q (List.mem_filterMap.mpr ⟨_, List.mem_cons_self, rfl⟩) hm).2 (hsub q hq)
      have ho : ∀ q, (n, q) ∈ ops.filterMap addsPtr → objs q = (w.addProfile m p).1.objs q := by
        intro q hq
        rw [progAddProfile_eq]
        refine (hobj0 q hq).trans (added_objs (fun q hq => profs_sub hq) (hdist q hq) (h.loose q (hsub q hq))).symm
      have hl : ∀ q, (n, q) ∈ ops.filterMap addsPtr → Loose w q → Loose (w.addProfile m p).1 q := by
        intro q hq hl
        rw [progAddProfile_eq]
        exact added_loose (fun q hq => profs_sub hq) (hdist q hq) hl
      have hnodes : ∀ k, ((w.addProfile m p).1.nodes k).devs = (w.nodes k).devs ∧
          ((w.addProfile m p).1.nodes k).profs = (if k = m then (w.nodes m).profs ++ [p] else (w.nodes k).profs) := by
        intro k
        rw [progAddProfile_eq]
        have hs := updateNodeProfile_same (added w m p { w.nodes m with profs := (w.nodes m).profs ++ [p] }).1 m
        obtain ⟨x1, x2⟩ := added_nodes w m p { w.nodes m with profs := (w.nodes m).profs ++ [p] } k
        refine ⟨(hs.devs k).trans (x1.trans ?_), (hs.profs k).trans x2⟩
        split
        · next e => subst e; rfl
        · rfl
      by_cases hm : m = n
      · subst hm
        have hp := h.loose p (List.mem_filterMap.mpr ⟨_, List.mem_cons_self, rfl⟩)
        obtain ⟨a, b, c⟩ := addProfile_view w m h.owns p hp
        have hpt : ptrsOf (w.addProfile m p).1 m = (w.nodes m).devs ++ ((w.nodes m).profs ++ [p]) := by
          unfold ptrsOf
          rw [(hnodes m).1, (hnodes m).2, if_pos rfl]
        refine take (.addProfile (objs p)) (w.nodes m).devs ((w.nodes m).profs ++ [p]) ?_ ?_ (hnodes m).1
          ((hnodes m).2.trans (if_pos rfl)) ⟨c, fun q hq => hl q hq (h.loose q (hsub q hq)), ?_, ?_, ?_⟩ ho (if_pos rfl)
        · rw [hobjs p (List.mem_filterMap.mpr ⟨_, List.mem_cons_self, rfl⟩)]; exact a
        · rw [hobjs p (List.mem_filterMap.mpr ⟨_, List.mem_cons_self, rfl⟩)]; exact b
        · have := h.once
          rw [List.filterMap_cons] at this
          simp only [addsPtr] at this
          rw [List.filter_cons, if_pos (by simp), List.map_cons, List.nodup_cons] at this
          exact this.2
        · intro k q hq hk
          obtain ⟨x1, x2⟩ := h.only k q (filterMap_adds_sub hq) hk
          refine ⟨fun hx => ?_, fun hx => x2 (hsub q hx)⟩
          rw [show ptrsOf (w.step db (.addProfile m p)).1 m = _ from hpt] at hx
          rcases profs_sub hx with e | e
          · subst e; exact x2 (List.mem_filterMap.mpr ⟨_, List.mem_cons_self, rfl⟩)
          · exact x1 e
        · intro q k hq
          obtain ⟨x0, x1, x2⟩ := h.left q k (by simp [hq])
          refine ⟨x0, fun hx => ?_, fun hx => x2 (hsub q hx)⟩
          rw [show ptrsOf (w.step db (.addProfile m p)).1 m = _ from hpt] at hx
          rcases profs_sub hx with e | e
          · subst e; exact x2 (List.mem_filterMap.mpr ⟨_, List.mem_cons_self, rfl⟩)
          · exact x1 e
      · have hp := (h.only m p (List.mem_filterMap.mpr ⟨_, List.mem_cons_self, rfl⟩) hm).1
        obtain ⟨a, b, c⟩ := added_other w n m hm h.owns p hp { w.nodes m with profs := (w.nodes m).profs ++ [p] }
          (fun q hq => profs_sub hq)
        refine skip objs a b (hnodes n).1 ((hnodes n).2.trans (if_neg (Ne.symm hm))) (h.next c ?_ hl) ho (if_neg hm)
        unfold ptrsOf
        rw [show ((w.step db (.addProfile m p)).1.nodes n).devs = _ from (hnodes n).1,
          show ((w.step db (.addProfile m p)).1.nodes n).profs = _ from (hnodes n).2, if_neg (Ne.symm hm)]

/-! ## New nodes -/

theorem init_view (db : StdDB) (made : Nat → Obj) (n : Nat) : (Prog.init db made).view n = Node.new db := by
  obtain ⟨hd, -, -, hp⟩ := new_keeps db
  unfold Prog.view Prog.init
  dsimp only [List.map]
  generalize Node.new db = x at *
  obtain ⟨ds, ps, a, b, c, d, e, f⟩ := x
  dsimp only at hd hp ⊢
  subst hd
  match ps, hp with
  | [o], _ => rfl

theorem init_owns (db : StdDB) (made : Nat → Obj) (n : Nat) : Owns (Prog.init db made) n := by
  refine ⟨by simp [ptrsOf, Prog.init], fun p => ?_, fun m hm p hp hx => ?_⟩
  · cases p <;> simp [ptrsOf, Prog.init]
  · simp only [ptrsOf, Prog.init, List.nil_append, List.mem_singleton] at hp hx
    rw [hp] at hx
    exact hm (Ptr.own.inj hx)

/-- The objects a history adds to node `n`. -/
def addedTo (n : Nat) (ops : List ProgOp) : List Ptr :=
  ((ops.filterMap addsPtr).filter (fun x => x.1 = n)).map (·.2)

theorem mem_addedTo {n : Nat} {ops : List ProgOp} {p : Ptr} : p ∈ addedTo n ops ↔ (n, p) ∈ ops.filterMap addsPtr := by
  unfold addedTo
  rw [List.mem_map]
  constructor
  · rintro ⟨⟨a, b⟩, h, rfl⟩
    obtain ⟨h', e⟩ := List.mem_filter.mp h
    have : a = n := by simpa using e
    subst this; exact h'
  · intro h; exact ⟨_, List.mem_filter.mpr ⟨h, by simp⟩, rfl⟩

/-- The program adds to node `n` only objects it made itself, each once, and to no other node; it does not add the
node profile `n` made for itself to a node, nor change the parent of an object of `n` with `SetParentNode`. -/
structure Exclusive (n : Nat) (ops : List ProgOp) : Prop where
  made : ∀ p ∈ addedTo n ops, ∃ k, p = .made k
  once : (addedTo n ops).Nodup
  only : ∀ m, m ≠ n → ∀ p ∈ addedTo m ops, p ≠ .own n ∧ p ∉ addedTo n ops
  left : ∀ p k, ProgOp.setParent p k ∈ ops → k ≠ some n ∧ p ≠ .own n ∧ p ∉ addedTo n ops

theorem Exclusive.tidy {n : Nat} {ops : List ProgOp} (h : Exclusive n ops) (db : StdDB) (made : Nat → Obj) :
    Tidy (Prog.init db made) n ops := by
  have hp : ptrsOf (Prog.init db made) n = [.own n] := rfl
  refine ⟨init_owns db made n, fun p hx => ?_, h.once, fun m p hx hm => ?_, fun p k hx => ?_⟩
  · obtain ⟨k, rfl⟩ := h.made p (mem_addedTo.mpr hx)
    exact ⟨rfl, fun m => by simp [ptrsOf, Prog.init]⟩
  · obtain ⟨a, b⟩ := h.only m hm p (mem_addedTo.mpr hx)
    exact ⟨by rw [hp]; simpa using a, fun hy => b (mem_addedTo.mpr hy)⟩
  · obtain ⟨a, b, c⟩ := h.left p k hx
    exact ⟨a, by rw [hp]; simpa using b, fun hy => c (mem_addedTo.mpr hy)⟩

/-- The call is made on node `n` or on one of the objects `mine`. -/
def Concerns (n : Nat) (mine : List Ptr) : ProgOp → Bool
  | .addDevice m _ => m = n
  | .addProfile m _ => m = n
  | .setManufacturer m _ => m = n
  | .setSelf m _ => m = n
  | .obj p _ => mine.contains p
  | .setParent _ _ => false
  | .start m _ _ => m = n
  | .stop m => m = n
  | .send m _ => m = n

/-- The calls of a history on node `n`, on its node profile and on the objects the history adds to it. -/
def concerning (n : Nat) (ops : List ProgOp) : List ProgOp := ops.filter (Concerns n (.own n :: addedTo n ops))

theorem nodeCalls_filter (db : StdDB) (n : Nat) (mine : List Ptr) (ops : List ProgOp) : ∀ (ds ps : List Ptr) (objs objs' : Ptr → Obj),
    (∀ p ∈ ds ++ ps, p ∈ mine) → (∀ p ∈ addedTo n ops, p ∈ mine) → (∀ p ∈ mine, objs p = objs' p) →
    nodeCalls db n ds ps objs ops = nodeCalls db n ds ps objs' (ops.filter (Concerns n mine)) := by
  induction ops with
  | nil => intro _ _ _ _ _ _ _; rfl
  | cons op ops ih =>
    intro ds ps objs objs' h1 h2 h3
    have h2' : ∀ p ∈ addedTo n ops, p ∈ mine := fun p hp =>
      h2 p (mem_addedTo.mpr (filterMap_adds_sub (mem_addedTo.mp hp)))
    rw [List.filter_cons]
    cases op with
    | addDevice m p =>
      by_cases hm : m = n
      · subst hm
        have hp : p ∈ mine := h2 p (mem_addedTo.mpr (List.mem_filterMap.mpr ⟨_, List.mem_cons_self, rfl⟩))
        simp only [Concerns, decide_true, if_true, nodeCalls]
        rw [h3 p hp, ih _ _ objs objs' ?_ h2' h3]
        intro q hq
        simp only [List.mem_append, List.mem_singleton] at hq
        rcases hq with (hq | rfl) | hq
        · exact h1 q (by simp [hq])
        · exact hp
        · exact h1 q (by simp [hq])
      · simp only [Concerns, hm, decide_false, if_false, nodeCalls, Bool.false_eq_true]
        exact ih ds ps objs objs' h1 h2' h3
    | addProfile m p =>
      by_cases hm : m = n
      · subst hm
        have hp : p ∈ mine := h2 p (mem_addedTo.mpr (List.mem_filterMap.mpr ⟨_, List.mem_cons_self, rfl⟩))
        simp only [Concerns, decide_true, if_true, nodeCalls]
        rw [h3 p hp, ih _ _ objs objs' ?_ h2' h3]
        intro q hq
        simp only [List.mem_append, List.mem_singleton] at hq
        rcases hq with hq | (hq | rfl)
        · exact h1 q (by simp [hq])
        · exact h1 q (by simp [hq])
        · exact hp
      · simp only [Concerns, hm, decide_false, if_false, nodeCalls, Bool.false_eq_true]
        exact ih ds ps objs objs' h1 h2' h3
    | setManufacturer m c =>
      by_cases hm : m = n
      · simp only [Concerns, hm, decide_true, if_true, nodeCalls]
        rw [ih ds ps objs objs' h1 h2' h3]
      · simp only [Concerns, hm, decide_false, if_false, nodeCalls, Bool.false_eq_true]
        exact ih ds ps objs objs' h1 h2' h3
    | setSelf m c =>
      by_cases hm : m = n
      · simp only [Concerns, hm, decide_true, if_true, nodeCalls]
        rw [ih ds ps objs objs' h1 h2' h3]
      · simp only [Concerns, hm, decide_false, if_false, nodeCalls, Bool.false_eq_true]
        exact ih ds ps objs objs' h1 h2' h3
    | start m res stays =>
      by_cases hm : m = n
      · simp only [Concerns, hm, decide_true, if_true, nodeCalls]
        rw [ih ds ps objs objs' h1 h2' h3]
      · simp only [Concerns, hm, decide_false, if_false, nodeCalls, Bool.false_eq_true]
        exact ih ds ps objs objs' h1 h2' h3
    | stop m =>
      by_cases hm : m = n
      · simp only [Concerns, hm, decide_true, if_true, nodeCalls]
        rw [ih ds ps objs objs' h1 h2' h3]
      · simp only [Concerns, hm, decide_false, if_false, nodeCalls, Bool.false_eq_true]
        exact ih ds ps objs objs' h1 h2' h3
    | send m x =>
      by_cases hm : m = n
      · simp only [Concerns, hm, decide_true, if_true, nodeCalls]
        rw [ih ds ps objs objs' h1 h2' h3]
      · simp only [Concerns, hm, decide_false, if_false, nodeCalls, Bool.false_eq_true]
        exact ih ds ps objs objs' h1 h2' h3
    | setParent p k =>
      simp only [Concerns, nodeCalls, Bool.false_eq_true, if_false]
      exact ih ds ps objs objs' h1 h2' h3
    | obj p x =>
      by_cases hp : p ∈ mine
      · have hc : Concerns n mine (.obj p x) = true := by simpa [Concerns] using hp
        rw [if_pos hc]
        cases hr : refIn ds ps p with
        | some r =>
          simp only [nodeCalls, hr]
          rw [ih ds ps objs objs' h1 h2' h3]
        | none =>
          simp only [nodeCalls, hr]
          refine ih ds ps _ _ h1 h2' (fun q hq => ?_)
          split
          · rw [h3 p hp]
          · exact h3 q hq
      · have hc : ¬ Concerns n mine (.obj p x) = true := by simpa [Concerns] using hp
        rw [if_neg hc]
        cases hr : refIn ds ps p with
        | some r =>
          exfalso
          refine hp (h1 p ?_)
          unfold refIn at hr
          cases h5 : ds.findIdx? (· == p) with
          | some i =>
            obtain ⟨hi, e, -⟩ := List.findIdx?_eq_some_iff_getElem.mp h5
            have : ds[i] = p := by simpa using e
            exact List.mem_append.mpr (.inl (this ▸ List.getElem_mem hi))
          | none =>
            rw [h5] at hr
            obtain ⟨i, hi, -⟩ := Option.map_eq_some_iff.mp hr
            obtain ⟨hi, e, -⟩ := List.findIdx?_eq_some_iff_getElem.mp hi
            have : ps[i] = p := by simpa using e
            exact List.mem_append.mpr (.inr (this ▸ List.getElem_mem hi))
        | none =>
          simp only [nodeCalls, hr]
          refine ih ds ps _ _ h1 h2' (fun q hq => ?_)
          rw [if_neg (by rintro rfl; exact hp hq)]
          exact h3 q hq

theorem addedTo_filter (n : Nat) (ops : List ProgOp) (f : ProgOp → Bool) :
    (addedTo n (ops.filter f)).Sublist (addedTo n ops) := by
  unfold addedTo
  exact ((List.filter_sublist.filterMap addsPtr).filter _).map _

theorem Exclusive.concerning {n : Nat} {ops : List ProgOp} (h : Exclusive n ops) : Exclusive n (concerning n ops) := by
  refine ⟨fun p hp => h.made p ((addedTo_filter _ _ _).subset hp), h.once.sublist (addedTo_filter _ _ _),
    fun m hm p hp => ?_, fun p k hp => ?_⟩
  · obtain ⟨a, b⟩ := h.only m hm p ((addedTo_filter _ _ _).subset hp)
    exact ⟨a, fun hx => b ((addedTo_filter _ _ _).subset hx)⟩
  · have := (List.mem_filter.mp hp).2
    cases this

/-! ## C164 -/

/-- C164. In a program that adds objects to node `n` only once and to no other node, `n` holds what a node that is alone
and owns its objects would hold after the calls on `n` and on its objects, and hands the same messages to the transport.
So what is proved of one node (`Verif.Model.Node`) holds of each such node of a program. -/
theorem C164_alone_partial (db : StdDB) (made : Nat → Obj) (n : Nat) (ops : List ProgOp) (h : Exclusive n ops) :
    let calls := nodeCalls db n [] [.own n] (Prog.init db made).objs ops
    (Prog.run db (Prog.init db made) ops).1.view n = (NodeOp.runAll db (Node.new db) calls).1 ∧
    sentBy n (Prog.run db (Prog.init db made) ops).2 = (NodeOp.runAll db (Node.new db) calls).2 := by
  have := alone_run db n ops (Prog.init db made) (Prog.init db made).objs (h.tidy db made) (fun _ _ => rfl)
  rw [init_view] at this
  exact this

/-- C164. Of a history, only the calls on node `n`, on its node profile and on the objects added to it matter for what
`n` holds and sends: without all other calls, it holds and sends the same. -/
theorem C164_independent_partial (db : StdDB) (made : Nat → Obj) (n : Nat) (ops : List ProgOp) (h : Exclusive n ops) :
    (Prog.run db (Prog.init db made) ops).1.view n
      = (Prog.run db (Prog.init db made) (concerning n ops)).1.view n ∧
    sentBy n (Prog.run db (Prog.init db made) ops).2
      = sentBy n (Prog.run db (Prog.init db made) (concerning n ops)).2 := by
  obtain ⟨a, b⟩ := C164_alone_partial db made n ops h
  obtain ⟨c, d⟩ := C164_alone_partial db made n (concerning n ops) h.concerning
  have e := nodeCalls_filter db n (.own n :: addedTo n ops) ops [] [.own n] (Prog.init db made).objs
    (Prog.init db made).objs (by simp) (fun p hp => by simp [hp]) (fun _ _ => rfl)
  exact ⟨a.trans ((congrArg (fun l => (NodeOp.runAll db (Node.new db) l).1) e).trans c.symm),
    b.trans ((congrArg (fun l => (NodeOp.runAll db (Node.new db) l).2) e).trans d.symm)⟩

theorem onPtrs_man (c : GoUint) (p : Ptr) (ps : List Ptr) : ∀ (w : Prog) (e : EProp), (w.objs p).props.lookup 0x8A = some e →
    ∃ e', ((w.onPtrs (fun o => Node.dropErr (o.setManufacturerCode c)) ps).1.objs p).props.lookup 0x8A = some e' ∧
      (p ∈ ps ∨ e.data = beBytes 3 c.toNat → e'.data = beBytes 3 c.toNat) := by
  induction ps with
  | nil => intro w e h; exact ⟨e, h, fun hx => hx.elim (fun hx => absurd hx List.not_mem_nil) id⟩
  | cons q ps ih =>
    intro w e h
    have ho := onPtr_objs w q (fun o => Node.dropErr (o.setManufacturerCode c)) p
    rw [onPtrs_cons]
    by_cases hq : p = q
    · subst hq
      rw [if_pos rfl] at ho
      have hl : (((w.onPtr p (fun o => Node.dropErr (o.setManufacturerCode c))).1).objs p).props.lookup 0x8A
          = some { e with data := EProp.integerData c 3 } := by
        rw [ho]
        show ((w.objs p).setManufacturerCode c).1.props.lookup 0x8A = _
        rw [setMan_fst, lookup_update, if_pos rfl, h]
        rfl
      obtain ⟨e', h1, h2⟩ := ih _ _ hl
      refine ⟨e', h1, fun _ => h2 (.inr ?_)⟩
      unfold EProp.integerData
      rw [integerToByte_eq]
      rfl
    · rw [if_neg hq] at ho
      obtain ⟨e', h1, h2⟩ := ih ((w.onPtr q (fun o => Node.dropErr (o.setManufacturerCode c))).1) e (by rw [ho]; exact h)
      refine ⟨e', h1, fun hx => h2 (hx.imp_left (fun hx => ?_))⟩
      rcases List.mem_cons.mp hx with hx | hx
      · exact absurd hx hq
      · exact hx

theorem onPtrs_manufacturer (f : Obj → Obj × List Ann) (n : Nat) (ps : List Ptr) : ∀ w : Prog,
    ((w.onPtrs f ps).1.nodes n).base.manufacturer = (w.nodes n).base.manufacturer := by
  induction ps with
  | nil => intro w; rfl
  | cons q ps ih =>
    intro w
    rw [onPtrs_cons]
    refine (ih _).trans ?_
    show ((Prog.emitBy _ (w.parent q) _).1.nodes n).base.manufacturer = _
    cases w.parent q with
    | none => rfl
    | some k =>
      simp only [Prog.emitBy, Prog.setNode]
      split
      · next e => subst e; rw [emit_same]
      · rfl

theorem prog_run_snoc (db : StdDB) (ops : List ProgOp) (op : ProgOp) : ∀ w : Prog,
    (Prog.run db w (ops ++ [op])).1 = ((Prog.run db w ops).1.step db op).1 := by
  induction ops with
  | nil => intro w; rfl
  | cons o ops ih => intro w; exact ih (w.step db o).1

/-- C164 is false as soon as a device is added to two nodes. Whatever happened before: `SetManufacturerCode` of node `m`
changes the data a device of node `n` has, while the manufacturer code of `n` stays. -/
theorem C164_refuted (db : StdDB) (made : Nat → Obj) (ops : List ProgOp) (n m : Nat) (hne : m ≠ n) (c : GoUint) (i : Nat)
    (p : Ptr) (e : EProp) (hn : ((Prog.run db (Prog.init db made) ops).1.nodes n).devs[i]? = some p)
    (hm : p ∈ ((Prog.run db (Prog.init db made) ops).1.nodes m).devs)
    (he : ((Prog.run db (Prog.init db made) ops).1.objs p).props.lookup 0x8A = some e) :
    let before := (Prog.run db (Prog.init db made) ops).1.view n
    let after := (Prog.run db (Prog.init db made) (ops ++ [.setManufacturer m c])).1.view n
    after.manufacturer = before.manufacturer ∧
    (∃ o, before.devices[i]? = some o ∧ o.props.lookup 0x8A = some e) ∧
    ∃ o' e', after.devices[i]? = some o' ∧ o'.props.lookup 0x8A = some e' ∧ e'.data = beBytes 3 c.toNat := by
  intro before after
  have ha : after = ((Prog.run db (Prog.init db made) ops).1.setManufacturer m c).1.view n :=
    congrArg (fun w => Prog.view w n) (prog_run_snoc db ops (.setManufacturer m c) _)
  have hb : before = (Prog.run db (Prog.init db made) ops).1.view n := rfl
  clear_value before after
  generalize (Prog.run db (Prog.init db made) ops).1 = w at *
  subst ha hb
  have hs := setManufacturer_same w m c
  have hd : ((w.setManufacturer m c).1.view n).devices[i]? = some ((w.setManufacturer m c).1.objs p) := by
    show (((w.setManufacturer m c).1.nodes n).devs.map _)[i]? = _
    rw [hs.devs, List.getElem?_map, hn]
    rfl
  refine ⟨?_, ⟨w.objs p, ?_, he⟩, (w.setManufacturer m c).1.objs p, ?_⟩
  · show ((w.setManufacturer m c).1.nodes n).base.manufacturer = (w.nodes n).base.manufacturer
    unfold Prog.setManufacturer
    dsimp only
    rw [onPtrs_manufacturer]
    simp only [Prog.setNode, if_neg (Ne.symm hne)]
  · show ((w.nodes n).devs.map _)[i]? = _
    rw [List.getElem?_map, hn]
    rfl
  · obtain ⟨e', h1, h2⟩ := onPtrs_man c p ((w.nodes m).devs ++ (w.nodes m).profs)
      (w.setNode m { w.nodes m with base := { (w.nodes m).base with manufacturer := c } }) e he
    refine ⟨e', hd, ?_, h2 (.inl (List.mem_append.mpr (.inl hm)))⟩
    unfold Prog.setManufacturer
    dsimp only
    simp only [Prog.setNode, if_true]
    exact h1

/-! Examples: node 0 gets a device and a profile, node 1 a device; the device of node 1 is called before and after. -/

example : Exclusive 0 [.start 1 (some (true, ⟨"", 3610⟩)) true, .addDevice 0 (.made 0), .addProfile 0 (.made 1),
    .obj (.made 2) (.write 0x80 [0x31]), .addDevice 1 (.made 2), .obj (.made 0) (.write 0x80 [0x31]),
    .setManufacturer 1 5, .obj (.made 2) (.write 0x80 [0x30]), .setParent (.made 3) (some 1)] := by
  refine ⟨?_, by decide, ?_, ?_⟩
  · intro p hp
    simp only [addedTo, addsPtr, List.filterMap, List.filter, List.map] at hp
    simp at hp
    rcases hp with rfl | rfl <;> exact ⟨_, rfl⟩
  · intro m hm p hp
    have := mem_addedTo.mp hp
    simp [addsPtr] at this
    rcases this with ⟨rfl, rfl⟩ | ⟨rfl, rfl⟩ | ⟨rfl, rfl⟩
    · exact absurd rfl hm
    · exact absurd rfl hm
    · decide
  · intro p k h
    simp at h
    obtain ⟨rfl, rfl⟩ := h
    decide

example : concerning 0 [.start 1 (some (true, ⟨"", 3610⟩)) true, .addDevice 0 (.made 0), .addProfile 0 (.made 1),
    .obj (.made 2) (.write 0x80 [0x31]), .addDevice 1 (.made 2), .obj (.made 0) (.write 0x80 [0x31]),
    .setManufacturer 1 5, .obj (.made 2) (.write 0x80 [0x30]), .setParent (.made 3) (some 1)]
    = [.addDevice 0 (.made 0), .addProfile 0 (.made 1), .obj (.made 0) (.write 0x80 [0x31])] := by decide

/-- A device added to two nodes. -/
example : let w := (Prog.run stdDB (Prog.init stdDB (fun _ => Obj.newDevice stdDB))
      [.addDevice 0 (.made 0), .addDevice 1 (.made 0)]).1
    (w.nodes 0).devs[0]? = some (.made 0) ∧ Ptr.made 0 ∈ (w.nodes 1).devs ∧
    ((w.objs (.made 0)).props.lookup 0x8A).isSome := by
  decide +kernel

end Verif.Props
