import Verif.Model.StdDatabase
import Verif.Lemmas.Object

/-! Lemmas about the standard database. -/

namespace Verif.Lemmas
open Verif Model Spec

/-- The map access of the database. -/
def dbGet (db : StdDB) (k : ObjectCode) : Option Obj :=
  (db.objects.find? (fun e => e.1 == k)).map (·.2)

theorem dbGet_addObject (db : StdDB) (o : Obj) (k : ObjectCode) :
    dbGet (db.addObject o) k = if k = o.code then some o else dbGet db k := by
  unfold dbGet StdDB.addObject
  rw [List.find?_cons]
  by_cases h : k = o.code
  · simp [h]
  · simp only [beq_eq_false_iff_ne.mpr (Ne.symm h), if_neg h, List.find?_filter]
    congr 2
    funext e
    by_cases he : e.1 = k
    · simp [he, h]
    · simp [he]

theorem dbGet_init (t : List RawObj) (k : ObjectCode) :
    dbGet (StdDB.init t) k = (t.reverse.find? (fun r => r.build.code == k)).map RawObj.build := by
  suffices ∀ db : StdDB, dbGet (t.foldl (fun db r => db.addObject r.build) db) k
      = ((t.reverse.find? (fun r => r.build.code == k)).map RawObj.build).or (dbGet db k) by
    have h := this ⟨[]⟩
    rw [show dbGet ⟨[]⟩ k = none from rfl, Option.or_none] at h
    exact h
  induction t with
  | nil => intro db; rfl
  | cons r t ih =>
    intro db
    rw [List.foldl_cons, ih, dbGet_addObject, List.reverse_cons, List.find?_append]
    cases t.reverse.find? (fun r => r.build.code == k) with
    | some q => rfl
    | none =>
      by_cases h : k = r.build.code
      · simp [h]
      · simp [h, beq_eq_false_iff_ne.mpr (Ne.symm h)]

theorem build_fields (r : RawObj) : r.build.codes = [r.grpCode, r.clsCode, 0] ∧
    r.build.clsName = r.clsName := by
  unfold RawObj.build
  have : ∀ (ps : List RawProp) (o : Obj),
      (ps.foldl (fun o p => o.addProperty (newStandardProperty p)) o).codes = o.codes ∧
      (ps.foldl (fun o p => o.addProperty (newStandardProperty p)) o).clsName = o.clsName := by
    intro ps
    induction ps with
    | nil => intro o; exact ⟨rfl, rfl⟩
    | cons p ps ih => intro o; exact ih _
  exact this _ _

theorem build_code (r : RawObj) :
    r.build.code.toNat = r.grpCode.toNat * 65536 + r.clsCode.toNat * 256 := by
  unfold Obj.code
  rw [(build_fields r).1, byteToInteger_toNat]
  have h1 := r.grpCode.isLt
  have h2 := r.clsCode.isLt
  simp only [beNat, List.length_cons, List.length_nil]
  simp
  omega

theorem build_lookup (r : RawObj) (c : Byte) : r.build.props.lookup c
    = (r.props.reverse.find? (fun p => p.code == c)).map newStandardProperty := by
  unfold RawObj.build
  suffices ∀ (ps : List RawProp) (o : Obj),
      (ps.foldl (fun o p => o.addProperty (newStandardProperty p)) o).props.lookup c
        = ((ps.reverse.find? (fun p => p.code == c)).map newStandardProperty).or
          (o.props.lookup c) by
    rw [this]
    exact Option.or_none
  intro ps
  induction ps with
  | nil => intro o; rfl
  | cons p ps ih =>
    intro o
    rw [List.foldl_cons, ih, List.reverse_cons, List.find?_append]
    cases ps.reverse.find? (fun p => p.code == c) with
    | some q => rfl
    | none =>
      show (o.props.add (newStandardProperty p)).lookup c = _
      rw [lookup_add]
      have hcode : (newStandardProperty p).code = p.code := rfl
      by_cases h : c = p.code
      · simp [h, hcode]
      · simp [h, hcode, beq_eq_false_iff_ne.mpr (Ne.symm h)]

theorem mask_class (c : ObjectCode) :
    (c &&& 0xFFFF00).toNat = c.toNat / 256 % 65536 * 256 := by
  have : c &&& 0xFFFF00 = BitVec.ofNat 64 (c.toNat / 2 ^ 8 % 2 ^ 16 * 2 ^ 8) := by
    apply BitVec.eq_of_getLsbD_eq
    intro i hi
    rw [BitVec.getLsbD_and, BitVec.getLsbD_ofNat, Nat.testBit_mul_two_pow,
      Nat.testBit_mod_two_pow, Nat.testBit_div_two_pow]
    have key : ∀ i < 64, (0xFFFF00 : BitVec 64).getLsbD i = (decide (8 ≤ i) && decide (i < 24)) := by
      decide +kernel
    rw [key i hi]
    by_cases h8 : 8 ≤ i
    · have e : 8 + (i - 8) = i := by omega
      have e2 : (i - 8 < 16) ↔ i < 24 := by omega
      simp only [h8, decide_true, Bool.true_and, hi, e2, BitVec.getLsbD]
      rw [show i - 8 + 8 = i by omega, Bool.and_comm]
    · simp [h8]
  rw [this, BitVec.toNat_ofNat]
  have : c.toNat / 256 % 65536 * 256 < 2 ^ 64 := by omega
  omega

theorem lookupObject_eq (db : StdDB) (c : ObjectCode) :
    db.lookupObject c = dbGet db (c &&& 0xFFFF00) := rfl

/-- Lookup in a database built from a table with distinct classes. -/
theorem lookup_init (t : List RawObj)
    (hd : ∀ r ∈ t, ∀ s ∈ t, r.grpCode = s.grpCode → r.clsCode = s.clsCode → r = s)
    (c : ObjectCode) (o : Obj) :
    (StdDB.init t).lookupObject c = some o ↔
      ∃ r ∈ t, r.grpCode.toNat = c.toNat / 65536 % 256 ∧ r.clsCode.toNat = c.toNat / 256 % 256 ∧
        o = r.build := by
  rw [lookupObject_eq, dbGet_init]
  have hcls : ∀ r : RawObj, r.build.code = (c &&& 0xFFFF00) ↔
      (r.grpCode.toNat = c.toNat / 65536 % 256 ∧ r.clsCode.toNat = c.toNat / 256 % 256) := by
    intro r
    rw [← BitVec.toNat_inj, build_code, mask_class]
    have h1 := r.grpCode.isLt
    have h2 := r.clsCode.isLt
    omega
  constructor
  · intro h
    rw [Option.map_eq_some_iff] at h
    obtain ⟨r, hr, rfl⟩ := h
    have hm := List.mem_of_find?_eq_some hr
    have hc := (hcls r).mp (by simpa using List.find?_some hr)
    exact ⟨r, List.mem_reverse.mp hm, hc.1, hc.2, rfl⟩
  · rintro ⟨r, hr, h1, h2, rfl⟩
    have hs : (t.reverse.find? (fun r => r.build.code == (c &&& 0xFFFF00))).isSome := by
      rw [List.find?_isSome]
      exact ⟨r, List.mem_reverse.mpr hr, by simpa using (hcls r).mpr ⟨h1, h2⟩⟩
    obtain ⟨s, hs⟩ := Option.isSome_iff_exists.mp hs
    have hm := List.mem_reverse.mp (List.mem_of_find?_eq_some hs)
    have hc := (hcls s).mp (by simpa using List.find?_some hs)
    have : s = r := hd s hm r hr (BitVec.eq_of_toNat_eq (by omega)) (BitVec.eq_of_toNat_eq (by omega))
    rw [hs, this]
    rfl

theorem table_distinct : ∀ r ∈ Mra.table, ∀ s ∈ Mra.table,
    r.grpCode = s.grpCode → r.clsCode = s.clsCode → r = s := by
  have h : (Mra.table.map (fun r => (r.grpCode, r.clsCode))).Nodup := by decide +kernel
  intro r hr s hs h1 h2
  obtain ⟨i, hi, rfl⟩ := List.getElem_of_mem hr
  obtain ⟨j, hj, rfl⟩ := List.getElem_of_mem hs
  have := List.getElem_inj (i := i) (j := j) (h₀ := by simpa using hi) (h₁ := by simpa using hj) h
  rw [List.getElem_map, List.getElem_map] at this
  have e := this.mp (by rw [h1, h2])
  subst e
  rfl

end Verif.Lemmas
