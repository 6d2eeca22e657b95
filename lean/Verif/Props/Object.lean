import Verif.Spec.Object
import Verif.Lemmas.Object
import Verif.Props.Property

/-! # C23, C24: property maps of objects -/

namespace Verif.Props
open Verif Model Spec Lemmas

theorem integerData_eq (v n : GoUint) : EProp.integerData v n = (List.range n.toNat).map
    (fun i => BitVec.ofNat 8 (v.toNat / 256 ^ (n.toNat - 1 - i))) := by
  unfold EProp.integerData
  rw [integerToByte_eq, List.length_replicate]
  generalize n.toNat = k
  induction k with
  | zero => rfl
  | succ k ih =>
    rw [beBytes, ih, List.range_succ_eq_map, List.map_cons, List.map_map]
    congr 1
    apply List.map_congr_left
    intro i hi
    simp only [Function.comp, List.mem_range] at *
    congr 3
    omega

/-- All writes are `SetPropertyData` with the data of `ObjOp.target`. -/
theorem run_target (db : StdDB) (o : Obj) (op : ObjOp) (c : Byte) (d : Bytes)
    (h : op.target = some (c, d)) : op.run db o = o.setPropertyData c d := by
  cases op <;> simp only [ObjOp.target, Option.some.injEq, Prod.mk.injEq, reduceCtorEq] at h
  · obtain ⟨rfl, rfl⟩ := h; rfl
  · obtain ⟨rfl, rfl⟩ := h; rfl
  · obtain ⟨rfl, rfl⟩ := h
    show Obj.setPropertyInteger _ _ _ _ = _
    rw [setPropertyInteger_eq, integerData_eq]

theorem runPlain_target (o : Obj) (op : ObjOp) (c : Byte) (d : Bytes)
    (h : op.target = some (c, d)) :
    op.runPlain o = ((o.setPropertyData c d).1, (o.setPropertyData c d).2.2) := by
  cases op <;> simp only [ObjOp.target, Option.some.injEq, Prod.mk.injEq, reduceCtorEq] at h
  · obtain ⟨rfl, rfl⟩ := h; rfl
  · obtain ⟨rfl, rfl⟩ := h; rfl
  · obtain ⟨rfl, rfl⟩ := h
    rw [← integerData_eq, ← setPropertyInteger_eq]
    rfl

/-- One call on a plain object does what the abstract contents do. -/
theorem plain_step (o : Obj) (op : ObjOp) (c : Byte) :
    (op.runPlain o).1.props.lookup c = Contents.step o.props.lookup op c := by
  cases ht : op.target with
  | some cd =>
    obtain ⟨c', d⟩ := cd
    rw [runPlain_target o op c' d ht]
    simp only [setPropertyData_fst, lookup_update]
    cases op <;> simp only [ObjOp.target, reduceCtorEq] at ht <;>
      simp only [Contents.step, ObjOp.stores, ObjOp.target, Contents.write] <;>
      (simp only [Option.some.injEq, Prod.mk.injEq] at ht; obtain ⟨rfl, rfl⟩ := ht; rfl)
  | none =>
    cases op <;> simp only [ObjOp.target, reduceCtorEq] at ht <;> try rfl
    · exact lookup_add _ _ _
    · exact lookup_update _ _ _ _
    · exact lookup_add _ _ _

/-- C24. After any history of calls on a plain object, lookup returns what the abstract partial
map holds. -/
theorem C24_lookup (ops : List ObjOp) (c : Byte) :
    (ops.foldl (fun o op => (op.runPlain o).1) Obj.new).props.lookup c
      = ops.foldl Contents.step (fun _ => none) c := by
  suffices ∀ (o : Obj) (s : Contents), (∀ c, o.props.lookup c = s c) →
      (ops.foldl (fun o op => (op.runPlain o).1) o).props.lookup c = ops.foldl Contents.step s c from
    this Obj.new (fun _ => none) (fun _ => rfl)
  induction ops with
  | nil => intro o s h; exact h c
  | cons op ops ih =>
    intro o s h
    apply ih
    intro c
    rw [plain_step]
    have : o.props.lookup = s := funext h
    rw [this]

/-- The data last written under code `c`, `d` if there was no write. -/
def lastWritten (c : Byte) (d : Bytes) (ops : List ObjOp) : Bytes :=
  ops.foldl (fun d op => match op.stores with
    | some (c', d') => if c' = c then d' else d
    | none => d) d

/-- C24. The property returned is the one last added under the code, with the data of the last
write since then. -/
theorem C24_last_added (pre post : List ObjOp) (p : EProp)
    (hpost : ∀ op ∈ post, ∀ q, op = .add q ∨ op = .bareAdd q → q.code ≠ p.code) :
    ((pre ++ .add p :: post).foldl (fun o op => (op.runPlain o).1) Obj.new).props.lookup p.code
      = some { p with data := lastWritten p.code p.data post } := by
  rw [C24_lookup, List.foldl_append, List.foldl_cons]
  generalize pre.foldl Contents.step (fun _ => none) = s
  suffices ∀ (s : Contents) (d : Bytes), s p.code = some { p with data := d } →
      post.foldl Contents.step s p.code = some { p with data := lastWritten p.code d post } from
    this _ p.data (by simp [Contents.step, Contents.add])
  induction post with
  | nil => intro s d h; exact h
  | cons op post ih =>
    intro s d h
    rw [lastWritten, List.foldl_cons, List.foldl_cons, ← lastWritten]
    apply ih (fun op hop => hpost op (List.mem_cons_of_mem _ hop))
    cases ht : op.stores with
    | some cd =>
      obtain ⟨c, d'⟩ := cd
      have : s.step op = s.write c d' := by
        cases op <;> simp only [ObjOp.stores, ObjOp.target, reduceCtorEq, Option.some.injEq, Prod.mk.injEq] at ht <;>
          (obtain ⟨rfl, rfl⟩ := ht; rfl)
      rw [this]
      simp only [Contents.write]
      by_cases hc : c = p.code
      · rw [if_pos hc.symm, if_pos hc, hc, h]; rfl
      · rw [if_neg (Ne.symm hc), if_neg hc, h]
    | none =>
      by_cases hadd : ∃ q, op = .add q ∨ op = .bareAdd q
      · obtain ⟨q, hq⟩ := hadd
        have := hpost op List.mem_cons_self q hq
        rcases hq with rfl | rfl <;>
          (simp only [Contents.step, Contents.add, if_neg (Ne.symm this)]; exact h)
      · have : s.step op = s := by
          cases op <;> simp only [ObjOp.stores, ObjOp.target, reduceCtorEq] at ht <;> try rfl
          · exact absurd ⟨_, .inl rfl⟩ hadd
          · exact absurd ⟨_, .inr rfl⟩ hadd
        rw [this]
        exact h

/-- C24. A write fails exactly when the code is absent, with ErrNotFound, and then changes
nothing; a successful one changes the data of that property and nothing else. -/
theorem C24_write (db : StdDB) (o : Obj) (op : ObjOp) (c : Byte) (d : Bytes)
    (h : op.target = some (c, d)) :
    (o.props.lookup c = none → (op.run db o) = (o, [], some .notFound)) ∧
    (o.props.lookup c ≠ none → (op.run db o).2.2 = none ∧
      (∀ c', (op.run db o).1.props.lookup c' = Contents.write o.props.lookup c d c') ∧
      { (op.run db o).1 with props := o.props } = o) := by
  rw [run_target db o op c d h]
  constructor
  · intro hn
    rw [setPropertyData_eq, hn]
  · intro hs
    refine ⟨?_, ?_, ?_⟩
    · rw [setPropertyData_err, if_pos (Option.isSome_iff_ne_none.mpr hs)]
    · intro c'
      rw [setPropertyData_fst]
      exact lookup_update _ _ _ _
    · rw [setPropertyData_fst]

/-- Objects reached by any history of calls on a new device, profile or super object. -/
def Reached (db : StdDB) (o : Obj) : Prop := ∃ ops, o = ObjOp.runAll db (Obj.newSuper db) ops

/-- Objects reached by any history of calls on a plain object. -/
def ReachedPlain (o : Obj) : Prop :=
  ∃ ops : List ObjOp, o = ops.foldl (fun o op => (op.runPlain o).1) Obj.new

theorem owf_plain {o : Obj} (h : OWF o) (op : ObjOp) : OWF (op.runPlain o).1 := by
  cases ht : op.target with
  | some cd => rw [runPlain_target o op cd.1 cd.2 ht]; exact h.write _ _
  | none =>
    cases op <;> simp only [ObjOp.target, reduceCtorEq] at ht
    · exact h.addProperty _
    · exact h.setCode _
    · exact h.setCodes _
    · exact ⟨h.codes, h.uniq⟩
    · exact ⟨h.codes, h.uniq⟩
    · exact ⟨by simp [ObjOp.runPlain, Obj.setInstanceCode, h.codes], h.uniq⟩
    · exact ⟨by simp [ObjOp.runPlain, Obj.setClassGroupCode, h.codes], h.uniq⟩
    · exact ⟨by simp [ObjOp.runPlain, Obj.setClassCode, h.codes], h.uniq⟩
    · exact ⟨h.codes, h.uniq.update _ _⟩
    · exact h
    · exact h.addProperty _
    · exact h.setCode _
    · exact h.setCodes _

theorem ReachedPlain.owf {o : Obj} (h : ReachedPlain o) : OWF o := by
  obtain ⟨ops, rfl⟩ := h
  suffices ∀ o, OWF o → OWF (ops.foldl (fun o op => (op.runPlain o).1) o) from this _ OWF.new
  induction ops with
  | nil => exact fun _ h => h
  | cons op ops ih => exact fun o h => ih _ (owf_plain h op)

theorem owf_run {o : Obj} (h : OWF o) (db : StdDB) (op : ObjOp) : OWF (op.run db o).1 := by
  cases ht : op.target with
  | some cd => rw [run_target db o op cd.1 cd.2 ht]; exact h.write _ _
  | none =>
    cases op <;> simp only [ObjOp.target, reduceCtorEq] at ht
    · exact h.superAddProperty _
    · exact (h.setCode _).std db _
    · exact (h.setCodes _).std db _
    · exact ⟨h.codes, h.uniq⟩
    · exact ⟨h.codes, h.uniq⟩
    · exact ⟨by simp [ObjOp.run, Obj.setInstanceCode, h.codes], h.uniq⟩
    · exact ⟨by simp [ObjOp.run, Obj.setClassGroupCode, h.codes], h.uniq⟩
    · exact ⟨by simp [ObjOp.run, Obj.setClassCode, h.codes], h.uniq⟩
    · exact ⟨h.codes, h.uniq.update _ _⟩
    · exact h
    · exact h.addProperty _
    · exact h.setCode _
    · exact h.setCodes _

theorem owf_runAll {o : Obj} (h : OWF o) (db : StdDB) (ops : List ObjOp) :
    OWF (ObjOp.runAll db o ops) := by
  unfold ObjOp.runAll
  induction ops generalizing o with
  | nil => exact h
  | cons op ops ih => exact ih (owf_run h db op)

theorem Reached.owf {db : StdDB} {o : Obj} (h : Reached db o) : OWF o := by
  obtain ⟨ops, rfl⟩ := h
  exact owf_runAll (OWF.newSuper db) db ops

/-- All property codes in increasing order. -/
def allCodes : List Byte := (List.range 256).map (BitVec.ofNat 8)

theorem allCodes_sorted : allCodes.Pairwise (· < ·) := by
  unfold allCodes
  rw [List.pairwise_map]
  apply List.Pairwise.imp_of_mem (R := (· < ·)) _ (List.pairwise_lt_range (n := 256))
  intro a b ha hb hab
  simp only [List.mem_range] at ha hb
  rw [BitVec.lt_def, BitVec.toNat_ofNat, BitVec.toNat_ofNat]
  omega

theorem mem_allCodes (c : Byte) : c ∈ allCodes := by
  unfold allCodes
  rw [List.mem_map]
  exact ⟨c.toNat, by simp [c.isLt], by simp⟩

/-- C24. `PropertyCount` is the number of codes that lookup finds. -/
theorem C24_count (db : StdDB) (o : Obj) (h : ReachedPlain o ∨ Reached db o) :
    o.props.count = (allCodes.filter (fun c => (o.props.lookup c).isSome)).length := by
  have hw : OWF o := h.elim ReachedPlain.owf Reached.owf
  have : sortCodes (o.props.map (·.code)) = allCodes.filter (fun c => (o.props.lookup c).isSome) := by
    apply sorted_ext (sortCodes_strict hw.uniq) (allCodes_sorted.filter _)
    intro c
    rw [(sortCodes_perm _).mem_iff, List.mem_filter, lookup_isSome]
    simp [mem_allCodes]
  rw [← this, (sortCodes_perm _).length_eq, List.length_map]
  rfl

/-- C24. `Properties()` lists each property once, in increasing code order. -/
theorem C24_properties (db : StdDB) (o : Obj) (h : ReachedPlain o ∨ Reached db o) :
    o.props.properties.Pairwise (fun p q => p.code < q.code) ∧
    ∀ p, p ∈ o.props.properties ↔ o.props.lookup p.code = some p := by
  have hw : OWF o := h.elim ReachedPlain.owf Reached.owf
  exact ⟨properties_sorted hw.uniq, mem_properties _⟩

/-- C24. The iteration order of the map does not matter, for lookup and for `Properties()`. -/
theorem C24_iteration_order (db : StdDB) (o : Obj) (h : ReachedPlain o ∨ Reached db o) (m : PMap)
    (hm : m.Perm o.props) : (∀ c, m.lookup c = o.props.lookup c) ∧
      m.properties = o.props.properties := by
  have hw : OWF o := h.elim ReachedPlain.owf Reached.owf
  have hu : Uniq m := (hm.map _).nodup_iff.mpr hw.uniq
  have hl : ∀ c, m.lookup c = o.props.lookup c := by
    intro c
    cases hc : o.props.lookup c with
    | some p =>
      have := lookup_of_mem hu (hm.mem_iff.mpr (lookup_mem hc))
      rw [lookup_code hc] at this
      exact this
    | none =>
      cases hc' : m.lookup c with
      | none => rfl
      | some p =>
        have := lookup_of_mem hw.uniq (hm.mem_iff.mp (lookup_mem hc'))
        rw [lookup_code hc', hc] at this
        cases this
  exact ⟨hl, properties_congr hu hw.uniq hl⟩

/-- What a device, profile or super object should hold after a call, apart from the data of its
three property maps: as a plain object, but setting the code adds the standard properties of the
class, without data. -/
def superStep (db : StdDB) (o : Obj) (s : Contents) (op : ObjOp) : Contents :=
  match op with
  | .setCode c => fun x =>
      (((db.lookupObject (o.setCode c).code).bind (·.props.lookup x)).map (·.copy)).or (s x)
  | .setCodes cs => fun x =>
      (((db.lookupObject (o.setCodes cs).code).bind (·.props.lookup x)).map (·.copy)).or (s x)
  | op => s.step op

/-- C24. The same for devices and profiles: one call changes the contents as specified, for every
code that is not one of the three property maps. -/
theorem C24_super (db : StdDB) (o : Obj) (op : ObjOp) (c : Byte) (hc : ¬ IsMapCode c) :
    (op.run db o).1.props.lookup c = superStep db o o.props.lookup op c := by
  cases ht : op.target with
  | some cd =>
    obtain ⟨c', d⟩ := cd
    rw [run_target db o op c' d ht]
    simp only [setPropertyData_fst, lookup_update]
    cases op <;> simp only [ObjOp.target, reduceCtorEq] at ht <;>
      simp only [superStep, Contents.step, ObjOp.stores, ObjOp.target, Contents.write] <;>
      (simp only [Option.some.injEq, Prod.mk.injEq] at ht; obtain ⟨rfl, rfl⟩ := ht; rfl)
  | none =>
    cases op <;> simp only [ObjOp.target, reduceCtorEq] at ht <;> try rfl
    · exact superAddProperty_lookup_other _ _ _ hc
    · exact std_lookup_other db _ _ _ hc
    · exact std_lookup_other db _ _ _ hc
    · exact lookup_update _ _ _ _
    · exact lookup_add _ _ _

example : (ObjOp.runAll ⟨[]⟩ Obj.new [.add (EProp.make 0x80 "a" [] 1 1 1), .write 0x80 [0x30],
      .add (EProp.make 0xB0 "b" [7] 1 0 0), .write 0x81 [1]]).props.properties
    = [EProp.make 0x80 "a" [0x30] 1 1 1, EProp.make 0xB0 "b" [7] 1 0 0] := by decide

/-- The sorted list of the codes whose property passes the test. -/
def IsCodeList (o : Obj) (sel : EProp → Prop) (cs : List Byte) : Prop :=
  cs.Pairwise (· < ·) ∧ ∀ c, c ∈ cs ↔ ∃ q, o.props.lookup c = some q ∧ sel q

/-- The data the code writes for a list of codes. By C21 and C22 this is the standard
description, except that codes from 0xC0 on are lost when there are more than 15. -/
def Describes (d : Bytes) (cs : List Byte) : Prop := propertyMapBytes cs = .ok d

/-- A call that does not write one of the three property maps itself, and does not add a property to the inner object
behind the back of the device (C150). -/
def NoMapWrite (op : ObjOp) : Prop :=
  (∀ c d, op.stores = some (c, d) → ¬ IsMapCode c) ∧ ∀ p, op ≠ .bareAdd p

theorem mapsCurrent_run {o : Obj} (hw : OWF o) (h : MapsCurrent o) (db : StdDB) (op : ObjOp)
    (hop : NoMapWrite op) : MapsCurrent (op.run db o).1 := by
  cases ht : op.target with
  | some cd =>
    obtain ⟨c, d⟩ := cd
    rw [run_target db o op c d ht]
    have := hop.1 c d (by cases op <;> first | exact ht | cases ht)
    unfold IsMapCode at this
    exact h.write hw c d ⟨fun e => this (.inl e), fun e => this (.inr (.inl e)),
      fun e => this (.inr (.inr e))⟩
  | none =>
    cases op <;> simp only [ObjOp.target, reduceCtorEq] at ht
    · exact MapsCurrent.superAddProperty hw _
    · exact MapsCurrent.std (hw.setCode _) ⟨h.get, h.set, h.anno⟩ db _
    · exact MapsCurrent.std (hw.setCodes _) ⟨h.get, h.set, h.anno⟩ db _
    · exact ⟨h.get, h.set, h.anno⟩
    · exact ⟨h.get, h.set, h.anno⟩
    · exact ⟨h.get, h.set, h.anno⟩
    · exact ⟨h.get, h.set, h.anno⟩
    · exact ⟨h.get, h.set, h.anno⟩
    · next c =>
      have := hop.1 c [] rfl
      unfold IsMapCode at this
      have hc : c ≠ 0x9D ∧ c ≠ 0x9E ∧ c ≠ 0x9F := ⟨fun e => this (.inl e),
        fun e => this (.inr (.inl e)), fun e => this (.inr (.inr e))⟩
      have hr := h.write hw c [] hc
      rw [setPropertyData_fst] at hr
      exact hr
    · exact h
    · exact absurd rfl (hop.2 _)
    · exact ⟨h.get, h.set, h.anno⟩
    · exact ⟨h.get, h.set, h.anno⟩

/-- C23. After any history of calls on a device, profile or super object that does not write the
property maps itself, the property maps the object has describe exactly its readable, writable and
announceable codes. -/
theorem C23_maps_current (db : StdDB) (ops : List ObjOp) (hops : ∀ op ∈ ops, NoMapWrite op)
    (o : Obj) (ho : o = ObjOp.runAll db (Obj.newSuper db) ops) :
    (∀ p, o.props.lookup 0x9F = some p →
      ∃ cs, IsCodeList o (fun q => q.getAttr ≠ 0) cs ∧ Describes p.data cs) ∧
    (∀ p, o.props.lookup 0x9E = some p →
      ∃ cs, IsCodeList o (fun q => q.setAttr ≠ 0) cs ∧ Describes p.data cs) ∧
    (∀ p, o.props.lookup 0x9D = some p →
      ∃ cs, IsCodeList o (fun q => q.annoAttr ≠ 0) cs ∧ Describes p.data cs) := by
  have key : ∀ o : Obj, OWF o → MapsCurrent o → OWF (ObjOp.runAll db o ops) ∧
      MapsCurrent (ObjOp.runAll db o ops) := by
    clear ho o
    unfold ObjOp.runAll
    induction ops with
    | nil => exact fun o h1 h2 => ⟨h1, h2⟩
    | cons op ops ih =>
      intro o h1 h2
      exact ih (fun op hop => hops op (List.mem_cons_of_mem _ hop)) _ (owf_run h1 db op)
        (mapsCurrent_run h1 h2 db op (hops op List.mem_cons_self))
  obtain ⟨hw, hm⟩ := key _ (OWF.newSuper db) (MapsCurrent.newSuper db)
  rw [← ho] at hw hm
  have tr : ∀ (sel : EProp → Bool) (P : EProp → Prop) (p : EProp), (∀ q, sel q = true ↔ P q) →
      p.data = mapData (selCodes sel o.props) → ∃ cs, IsCodeList o P cs ∧ Describes p.data cs := by
    intro sel P p hsel hd
    refine ⟨selCodes sel o.props, ⟨selCodes_sorted sel hw.uniq, fun c => ?_⟩, ?_⟩
    · rw [mem_selCodes]
      constructor
      · rintro ⟨q, h1, h2⟩; exact ⟨q, h1, (hsel q).mp h2⟩
      · rintro ⟨q, h1, h2⟩; exact ⟨q, h1, (hsel q).mpr h2⟩
    · unfold Describes; rw [hd, propertyMapBytes_eq]
  refine ⟨fun p hp => tr _ _ p ?_ (hm.get p hp), fun p hp => tr _ _ p ?_ (hm.set p hp),
    fun p hp => tr _ _ p ?_ (hm.anno p hp)⟩
  · intro q; simp [EProp.isReadable, Attr.isProhibited, Attr.prohibited]
  · intro q; simp [EProp.isWritable, Attr.isProhibited, Attr.prohibited]
  · intro q; simp [EProp.isAnnounceable, Attr.isProhibited, Attr.prohibited]

/-- C23. With at most 15 such codes, or none above 0xBF, the data is the standard description. -/
theorem C23_standard (d : Bytes) (cs : List Byte) (h : Describes d cs) (hl : cs.length ≤ 255)
    (hc : cs.length ≤ 15 ∨ ∀ c ∈ cs, 0x80 ≤ c.toNat ∧ c.toNat < 0xC0) :
    d = Spec.propertyMap cs := by
  unfold Describes at h
  by_cases h15 : cs.length ≤ 15
  · obtain ⟨d', h1, h2, -⟩ := C21_round_trip (EProp.make 0x9F "" [] 0 0 0) (.inr (.inr rfl)) cs h15
    rw [h] at h1
    cases h1
    exact h2
  · obtain ⟨out, h1, -, -⟩ := C22_below_C0_partial (EProp.make 0x9F "" [] 0 0 0) (.inr (.inr rfl)) cs
      (by omega) hl (hc.resolve_left h15)
    rw [h] at h1
    exact Res.ok.inj h1

example : (ObjOp.runAll ⟨[]⟩ (Obj.newSuper ⟨[]⟩) [.add (EProp.make 0x9F "" [] 1 0 0),
      .add (EProp.make 0xE0 "" [] 1 1 0), .write 0xE0 [1]]).props.lookup 0x9F
    = some (EProp.make 0x9F "" [2, 0x9F, 0xE0] 1 0 0) := by decide

end Verif.Props
