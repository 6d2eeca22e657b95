import Verif.Model.SuperObject
import Verif.Lemmas.PropertyMap
import Verif.Lemmas.Fields

/-! Lemmas about property maps of objects. -/

namespace Verif.Lemmas
open Verif Model

/-- No code occurs twice. -/
def Uniq (m : PMap) : Prop := (m.map (·.code)).Nodup

theorem lookup_code {m : PMap} {c : Byte} {p : EProp} (h : m.lookup c = some p) : p.code = c := by
  have := List.find?_some h
  simpa using this

theorem lookup_mem {m : PMap} {c : Byte} {p : EProp} (h : m.lookup c = some p) : p ∈ m :=
  List.mem_of_find?_eq_some h

theorem lookup_isSome {m : PMap} {c : Byte} : (m.lookup c).isSome ↔ c ∈ m.map (·.code) := by
  unfold PMap.lookup
  rw [List.find?_isSome]
  simp

theorem lookup_of_mem {m : PMap} (hu : Uniq m) {p : EProp} (h : p ∈ m) :
    m.lookup p.code = some p := by
  induction m with
  | nil => simp at h
  | cons q m ih =>
    unfold Uniq at hu
    rw [List.map_cons, List.nodup_cons] at hu
    unfold PMap.lookup
    rw [List.find?_cons]
    rcases List.mem_cons.mp h with rfl | h
    · simp
    · have : q.code ≠ p.code := fun he => hu.1 (he ▸ List.mem_map_of_mem h)
      simp only [beq_eq_false_iff_ne.mpr this]
      exact ih hu.2 h

theorem lookup_append (m n : PMap) (c : Byte) :
    PMap.lookup (m ++ n) c = (m.lookup c).or (PMap.lookup n c) := by
  unfold PMap.lookup; rw [List.find?_append]

theorem lookup_map (m : PMap) (f : EProp → EProp) (hf : ∀ p, (f p).code = p.code) (c : Byte) :
    PMap.lookup (m.map f) c = (m.lookup c).map f := by
  unfold PMap.lookup
  rw [List.find?_map]
  congr 1
  congr 1
  funext p
  simp [hf]

theorem lookup_add (m : PMap) (p : EProp) (c : Byte) :
    (m.add p).lookup c = if c = p.code then some p else m.lookup c := by
  unfold PMap.add
  by_cases h : m.any (fun q => q.code == p.code) = true
  · rw [if_pos h, lookup_map _ _ (by intro q; split <;> simp_all)]
    by_cases hc : c = p.code
    · subst hc
      rw [if_pos rfl]
      obtain ⟨q, hq1, hq2⟩ := List.any_eq_true.mp h
      have : (m.lookup p.code).isSome := lookup_isSome.mpr (by
        rw [← eq_of_beq hq2]; exact List.mem_map_of_mem hq1)
      obtain ⟨r, hr⟩ := Option.isSome_iff_exists.mp this
      rw [hr, Option.map_some, if_pos (lookup_code hr)]
    · rw [if_neg hc]
      cases hl : m.lookup c with
      | none => rfl
      | some r =>
        rw [Option.map_some, if_neg (by rw [lookup_code hl]; exact hc)]
  · rw [if_neg h, lookup_append]
    by_cases hc : c = p.code
    · subst hc
      have : m.lookup p.code = none := by
        cases hl : m.lookup p.code with
        | none => rfl
        | some r =>
          exact absurd (List.any_eq_true.mpr ⟨r, lookup_mem hl, by simp [lookup_code hl]⟩) h
      rw [this, if_pos rfl]
      simp [PMap.lookup]
    · rw [if_neg hc]
      have : PMap.lookup [p] c = none := by
        unfold PMap.lookup
        simp [beq_eq_false_iff_ne.mpr (Ne.symm hc)]
      rw [this]
      cases m.lookup c <;> rfl

theorem codes_add (m : PMap) (p : EProp) :
    (m.add p).map (·.code) = if p.code ∈ m.map (·.code) then m.map (·.code)
      else m.map (·.code) ++ [p.code] := by
  unfold PMap.add
  have hiff : m.any (fun q => q.code == p.code) = true ↔ p.code ∈ m.map (·.code) := by
    simp [List.any_eq_true]
  by_cases h : p.code ∈ m.map (·.code)
  · rw [if_pos h, if_pos (hiff.mpr h), List.map_map]
    apply List.map_congr_left
    intro q _
    simp only [Function.comp]
    split <;> simp_all
  · rw [if_neg h, if_neg (fun h' => h (hiff.mp h')), List.map_append]
    rfl

theorem Uniq.add {m : PMap} (h : Uniq m) (p : EProp) : Uniq (m.add p) := by
  unfold Uniq
  rw [codes_add]
  split
  · exact h
  · next hn =>
    rw [List.nodup_append]
    exact ⟨h, by simp, by
      intro a ha b hb
      rw [List.mem_singleton] at hb
      subst hb
      exact fun he => hn (he ▸ ha)⟩

theorem codes_update (m : PMap) (c : Byte) (d : Bytes) :
    (m.update c d).map (·.code) = m.map (·.code) := by
  unfold PMap.update
  rw [List.map_map]
  apply List.map_congr_left
  intro p _
  simp only [Function.comp]
  split <;> rfl

theorem Uniq.update {m : PMap} (h : Uniq m) (c : Byte) (d : Bytes) : Uniq (m.update c d) := by
  unfold Uniq; rw [codes_update]; exact h

theorem lookup_update (m : PMap) (c : Byte) (d : Bytes) (c' : Byte) :
    (m.update c d).lookup c' = if c' = c then (m.lookup c).map (·.setData d) else m.lookup c' := by
  unfold PMap.update
  rw [lookup_map _ _ (by intro p; split <;> rfl)]
  by_cases h : c' = c
  · subst h
    rw [if_pos rfl]
    cases hl : m.lookup c' with
    | none => rfl
    | some p => rw [Option.map_some, Option.map_some, if_pos (lookup_code hl)]
  · rw [if_neg h]
    cases hl : m.lookup c' with
    | none => rfl
    | some p => rw [Option.map_some, if_neg (by rw [lookup_code hl]; exact h)]

/-! Sorting -/

theorem insertCode_perm (c : Byte) (l : List Byte) : (insertCode c l).Perm (c :: l) := by
  induction l with
  | nil => exact List.Perm.refl _
  | cons x xs ih =>
    unfold insertCode
    split
    · exact List.Perm.refl _
    · exact (ih.cons x).trans (List.Perm.swap c x xs)

theorem sortCodes_perm (l : List Byte) : (sortCodes l).Perm l := by
  induction l with
  | nil => exact List.Perm.refl _
  | cons c cs ih => exact (insertCode_perm c _).trans (ih.cons c)

theorem mem_insertCode {c x : Byte} {l : List Byte} : x ∈ insertCode c l ↔ x = c ∨ x ∈ l := by
  rw [(insertCode_perm c l).mem_iff, List.mem_cons]

theorem byte_le_trans {a b c : Byte} (h1 : a ≤ b) (h2 : b ≤ c) : a ≤ c := by
  rw [BitVec.le_def] at *; omega

theorem byte_le_total (a b : Byte) : a ≤ b ∨ b ≤ a := by
  simp only [BitVec.le_def]; omega

theorem insertCode_sorted (c : Byte) (l : List Byte) (h : l.Pairwise (· ≤ ·)) :
    (insertCode c l).Pairwise (· ≤ ·) := by
  induction l with
  | nil => simp [insertCode]
  | cons x xs ih =>
    unfold insertCode
    rw [List.pairwise_cons] at h
    split
    · next hc =>
      rw [List.pairwise_cons]
      refine ⟨?_, List.pairwise_cons.mpr h⟩
      intro y hy
      rcases List.mem_cons.mp hy with rfl | hy
      · exact hc
      · exact byte_le_trans hc (h.1 y hy)
    · next hc =>
      rw [List.pairwise_cons]
      refine ⟨?_, ih h.2⟩
      intro y hy
      rcases mem_insertCode.mp hy with rfl | hy
      · exact (byte_le_total x y).resolve_right hc
      · exact h.1 y hy

theorem sortCodes_sorted (l : List Byte) : (sortCodes l).Pairwise (· ≤ ·) := by
  induction l with
  | nil => exact List.Pairwise.nil
  | cons c cs ih => exact insertCode_sorted c _ ih

theorem sortCodes_strict {l : List Byte} (h : l.Nodup) : (sortCodes l).Pairwise (· < ·) := by
  have h1 := sortCodes_sorted l
  have h2 : (sortCodes l).Nodup := (sortCodes_perm l).nodup_iff.mpr h
  have := h1.and h2
  apply this.imp
  intro a b hab
  rw [BitVec.lt_def]
  have h3 := hab.1
  rw [BitVec.le_def] at h3
  have : a.toNat ≠ b.toNat := fun he => hab.2 (BitVec.eq_of_toNat_eq he)
  omega

/-- Strictly sorted lists with the same elements are equal. -/
theorem sorted_ext {l l' : List Byte} (h : l.Pairwise (· < ·)) (h' : l'.Pairwise (· < ·))
    (hm : ∀ c, c ∈ l ↔ c ∈ l') : l = l' := by
  induction l generalizing l' with
  | nil =>
    cases l' with
    | nil => rfl
    | cons y ys => exact absurd ((hm y).mpr List.mem_cons_self) (by simp)
  | cons x xs ih =>
    cases l' with
    | nil => exact absurd ((hm x).mp List.mem_cons_self) (by simp)
    | cons y ys =>
      rw [List.pairwise_cons] at h h'
      have hxy : x = y := by
        rcases List.mem_cons.mp ((hm x).mp List.mem_cons_self) with e | hx
        · exact e
        · rcases List.mem_cons.mp ((hm y).mpr List.mem_cons_self) with e | hy
          · exact e.symm
          · have h1 := h.1 y hy
            have h2 := h'.1 x hx
            rw [BitVec.lt_def] at h1 h2
            omega
      subst hxy
      congr 1
      apply ih h.2 h'.2
      intro c
      constructor
      · intro hc
        rcases List.mem_cons.mp ((hm c).mp (List.mem_cons_of_mem _ hc)) with e | h2
        · subst e; have := h.1 c hc; rw [BitVec.lt_def] at this; omega
        · exact h2
      · intro hc
        rcases List.mem_cons.mp ((hm c).mpr (List.mem_cons_of_mem _ hc)) with e | h2
        · subst e; have := h'.1 c hc; rw [BitVec.lt_def] at this; omega
        · exact h2

/-! The list of properties -/

theorem filterMap_lookup_codes (m : PMap) (l : List Byte) (h : ∀ c ∈ l, c ∈ m.map (·.code)) :
    (l.filterMap (fun c => m.lookup c)).map (·.code) = l := by
  induction l with
  | nil => rfl
  | cons c cs ih =>
    obtain ⟨p, hp⟩ := Option.isSome_iff_exists.mp (lookup_isSome.mpr (h c List.mem_cons_self))
    rw [List.filterMap_cons, hp]
    simp only [List.map_cons, lookup_code hp]
    rw [ih (fun c hc => h c (List.mem_cons_of_mem _ hc))]

theorem properties_codes (m : PMap) :
    m.properties.map (·.code) = sortCodes (m.map (·.code)) :=
  filterMap_lookup_codes m _ (fun _ hc => (sortCodes_perm _).mem_iff.mp hc)

theorem mem_properties (m : PMap) (p : EProp) : p ∈ m.properties ↔ m.lookup p.code = some p := by
  unfold PMap.properties
  rw [List.mem_filterMap]
  constructor
  · rintro ⟨c, -, hc⟩
    rw [lookup_code hc]; exact hc
  · intro h
    refine ⟨p.code, ?_, h⟩
    rw [(sortCodes_perm _).mem_iff]
    exact lookup_isSome.mp (by rw [h]; rfl)

theorem properties_sorted {m : PMap} (h : Uniq m) :
    m.properties.Pairwise (fun p q => p.code < q.code) := by
  have := sortCodes_strict h
  rw [← properties_codes, List.pairwise_map] at this
  exact this

theorem properties_length (m : PMap) : m.properties.length = m.length := by
  have := congrArg List.length (properties_codes m)
  rw [List.length_map, (sortCodes_perm _).length_eq, List.length_map] at this
  exact this

/-- `Properties()` depends only on what lookup returns, hence not on the iteration order. -/
theorem properties_congr {m n : PMap} (hm : Uniq m) (hn : Uniq n)
    (h : ∀ c, m.lookup c = n.lookup c) : m.properties = n.properties := by
  have hcodes : sortCodes (m.map (·.code)) = sortCodes (n.map (·.code)) := by
    apply sorted_ext (sortCodes_strict hm) (sortCodes_strict hn)
    intro c
    rw [(sortCodes_perm _).mem_iff, (sortCodes_perm _).mem_iff, ← lookup_isSome, ← lookup_isSome, h]
  unfold PMap.properties
  rw [hcodes]
  congr 1
  funext c
  exact h c

/-! Property map data -/

theorem propertyMapBytes_eq (cs : List Byte) : propertyMapBytes cs = .ok (mapData cs) := by
  unfold mapData
  by_cases h : cs.length ≤ 15
  · rw [propertyMapBytes_format1 cs h]
  · rw [propertyMapBytes_format2 cs (by omega)]

/-! Attributes and codes seen through lookup, without the data -/

/-- Everything but the data. -/
def skel (p : EProp) : EProp := p.clear

/-- Two maps agree up to data. -/
def SameSkel (m n : PMap) : Prop := ∀ c, (m.lookup c).map skel = (n.lookup c).map skel

theorem sameSkel_update (m : PMap) (c : Byte) (d : Bytes) : SameSkel (m.update c d) m := by
  intro c'
  rw [lookup_update]
  split
  · next h => subst h; cases m.lookup c' <;> rfl
  · rfl

/-- The codes of the properties selected by `sel`, in order. -/
def selCodes (sel : EProp → Bool) (m : PMap) : List Byte := (m.properties.filter sel).map (·.code)

theorem mem_selCodes (sel : EProp → Bool) (m : PMap) (c : Byte) :
    c ∈ selCodes sel m ↔ ∃ p, m.lookup c = some p ∧ sel p = true := by
  unfold selCodes
  simp only [List.mem_map, List.mem_filter, mem_properties]
  constructor
  · rintro ⟨p, ⟨h1, h2⟩, rfl⟩; exact ⟨p, h1, h2⟩
  · rintro ⟨p, h1, h2⟩
    have := lookup_code h1
    subst this
    exact ⟨p, ⟨h1, h2⟩, rfl⟩

theorem selCodes_sorted (sel : EProp → Bool) {m : PMap} (h : Uniq m) :
    (selCodes sel m).Pairwise (· < ·) := by
  unfold selCodes
  rw [List.pairwise_map]
  exact (properties_sorted h).filter _

theorem selCodes_congr (sel : EProp → Bool) (hsel : ∀ p, sel (skel p) = sel p) {m n : PMap}
    (hm : Uniq m) (hn : Uniq n) (h : SameSkel m n) : selCodes sel m = selCodes sel n := by
  apply sorted_ext (selCodes_sorted sel hm) (selCodes_sorted sel hn)
  intro c
  rw [mem_selCodes, mem_selCodes]
  have key : ∀ a b : Option EProp, a.map skel = b.map skel →
      (∃ p, a = some p ∧ sel p = true) → ∃ p, b = some p ∧ sel p = true := by
    intro a b hab
    rintro ⟨p, rfl, hp⟩
    cases b with
    | none => simp at hab
    | some q =>
      refine ⟨q, rfl, ?_⟩
      have : skel p = skel q := by simpa using hab
      rw [← hsel, ← this, hsel]; exact hp
  exact ⟨key _ _ (h c), key _ _ (h c).symm⟩

/-! Objects -/

/-- The code bytes of an object are three bytes, and no property code occurs twice. -/
structure OWF (o : Obj) : Prop where
  codes : o.codes.length = 3
  uniq : Uniq o.props

theorem OWF.setData {o : Obj} (h : OWF o) (p : EProp) (d : Bytes) : OWF (o.setPropData p d).1 :=
  ⟨h.codes, h.uniq.update _ _⟩

theorem setPropertyData_eq (o : Obj) (c : Byte) (d : Bytes) :
    o.setPropertyData c d = match o.props.lookup c with
      | none => (o, [], some .notFound)
      | some p => ({ o with props := o.props.update c d },
          if p.isAnnounceable then [⟨o.code, ⟨c, d⟩⟩] else [], none) := by
  unfold Obj.setPropertyData
  cases h : o.props.lookup c with
  | none => rfl
  | some p =>
    have := lookup_code h
    subst this
    rfl

theorem setPropertyByte_eq (o : Obj) (c b : Byte) :
    o.setPropertyByte c b = o.setPropertyData c [b] := rfl

theorem setPropertyInteger_eq (o : Obj) (c : Byte) (v n : GoUint) :
    o.setPropertyInteger c v n = o.setPropertyData c (EProp.integerData v n) := rfl

theorem update_absent {m : PMap} {c : Byte} (h : m.lookup c = none) (d : Bytes) :
    m.update c d = m := by
  unfold PMap.update
  conv => rhs; rw [← List.map_id m]
  apply List.map_congr_left
  intro p hp
  rw [if_neg]
  · rfl
  · intro he
    have : (m.lookup c).isSome := lookup_isSome.mpr (he ▸ List.mem_map_of_mem hp)
    rw [h] at this
    cases this

/-- In every case the object afterwards is the update. -/
theorem setPropertyData_fst (o : Obj) (c : Byte) (d : Bytes) :
    (o.setPropertyData c d).1 = { o with props := o.props.update c d } := by
  rw [setPropertyData_eq]
  cases h : o.props.lookup c with
  | none => rw [update_absent h]
  | some p => rfl

theorem setPropertyData_err (o : Obj) (c : Byte) (d : Bytes) :
    (o.setPropertyData c d).2.2 = if (o.props.lookup c).isSome then none else some .notFound := by
  rw [setPropertyData_eq]
  cases h : o.props.lookup c <;> rfl

theorem setPropertyMapProperty_eq (o : Obj) (mc : Byte) (cs : List Byte) :
    o.setPropertyMapProperty mc cs = o.setPropertyData mc (mapData cs) := by
  unfold Obj.setPropertyMapProperty
  cases h : o.props.lookup mc with
  | none => rw [setPropertyData_eq, h]; simp [PMap.has, h]
  | some p => simp [PMap.has, h]

/-- The state after `updatePropertyMap`. -/
theorem updatePropertyMap_fst (o : Obj) :
    o.updatePropertyMap.1 = { o with props := ((o.props.update 0x9F (mapData o.readableCodes)).update
      0x9E (mapData o.writableCodes)).update 0x9D (mapData o.announceableCodes) } := by
  unfold Obj.updatePropertyMap
  simp only [setPropertyMapProperty_eq, setPropertyData_fst]
  rfl

theorem updatePropertyMap_lookup (o : Obj) (c : Byte) :
    o.updatePropertyMap.1.props.lookup c = (o.props.lookup c).map (fun p =>
      if c = 0x9F then p.setData (mapData o.readableCodes)
      else if c = 0x9E then p.setData (mapData o.writableCodes)
      else if c = 0x9D then p.setData (mapData o.announceableCodes) else p) := by
  rw [updatePropertyMap_fst]
  simp only [lookup_update]
  by_cases h1 : c = 0x9D
  · subst h1; simp
  · by_cases h2 : c = 0x9E
    · subst h2; simp
    · by_cases h3 : c = 0x9F
      · subst h3; simp
      · simp only [h1, h2, h3, if_false]
        cases o.props.lookup c <;> rfl

theorem updatePropertyMap_sameSkel (o : Obj) : SameSkel o.updatePropertyMap.1.props o.props := by
  intro c
  rw [updatePropertyMap_lookup]
  cases o.props.lookup c with
  | none => rfl
  | some p =>
    simp only [Option.map_some]
    congr 1
    split
    · rfl
    · split
      · rfl
      · split <;> rfl

theorem OWF.updatePropertyMap {o : Obj} (h : OWF o) : OWF o.updatePropertyMap.1 := by
  rw [updatePropertyMap_fst]
  exact ⟨h.codes, ((h.uniq.update _ _).update _ _).update _ _⟩

/-- The three map properties describe the attributes of the properties the object has. -/
structure MapsCurrent (o : Obj) : Prop where
  get : ∀ p, o.props.lookup 0x9F = some p → p.data = mapData (selCodes (·.isReadable) o.props)
  set : ∀ p, o.props.lookup 0x9E = some p → p.data = mapData (selCodes (·.isWritable) o.props)
  anno : ∀ p, o.props.lookup 0x9D = some p → p.data = mapData (selCodes (·.isAnnounceable) o.props)

theorem MapsCurrent.updatePropertyMap {o : Obj} (h : OWF o) : MapsCurrent o.updatePropertyMap.1 := by
  have hs := updatePropertyMap_sameSkel o
  have hw := h.updatePropertyMap
  refine ⟨?_, ?_, ?_⟩ <;> intro p hp <;> rw [updatePropertyMap_lookup] at hp
  · rw [selCodes_congr _ (fun _ => rfl) hw.uniq h.uniq hs]
    cases hl : o.props.lookup 0x9F with
    | none => rw [hl] at hp; cases hp
    | some q => rw [hl] at hp; cases hp; rfl
  · rw [selCodes_congr _ (fun _ => rfl) hw.uniq h.uniq hs]
    cases hl : o.props.lookup 0x9E with
    | none => rw [hl] at hp; cases hp
    | some q => rw [hl] at hp; cases hp; rfl
  · rw [selCodes_congr _ (fun _ => rfl) hw.uniq h.uniq hs]
    cases hl : o.props.lookup 0x9D with
    | none => rw [hl] at hp; cases hp
    | some q => rw [hl] at hp; cases hp; rfl

theorem MapsCurrent.write {o : Obj} (hw : OWF o) (h : MapsCurrent o) (c : Byte) (d : Bytes)
    (hc : c ≠ 0x9D ∧ c ≠ 0x9E ∧ c ≠ 0x9F) : MapsCurrent (o.setPropertyData c d).1 := by
  rw [setPropertyData_fst]
  have hs := sameSkel_update o.props c d
  have hu := hw.uniq.update c d
  refine ⟨?_, ?_, ?_⟩ <;> intro p hp <;> simp only [lookup_update] at hp
  · rw [if_neg (Ne.symm hc.2.2)] at hp
    rw [h.get p hp]
    exact congrArg mapData (selCodes_congr _ (fun _ => rfl) hu hw.uniq hs).symm
  · rw [if_neg (Ne.symm hc.2.1)] at hp
    rw [h.set p hp]
    exact congrArg mapData (selCodes_congr _ (fun _ => rfl) hu hw.uniq hs).symm
  · rw [if_neg (Ne.symm hc.1)] at hp
    rw [h.anno p hp]
    exact congrArg mapData (selCodes_congr _ (fun _ => rfl) hu hw.uniq hs).symm

theorem OWF.write {o : Obj} (h : OWF o) (c : Byte) (d : Bytes) : OWF (o.setPropertyData c d).1 := by
  rw [setPropertyData_fst]; exact ⟨h.codes, h.uniq.update _ _⟩

theorem OWF.addProperty {o : Obj} (h : OWF o) (p : EProp) : OWF (o.addProperty p) :=
  ⟨h.codes, h.uniq.add p⟩

theorem OWF.superAddProperty {o : Obj} (h : OWF o) (p : EProp) : OWF (o.superAddProperty p).1 :=
  (h.addProperty p).updatePropertyMap

theorem MapsCurrent.superAddProperty {o : Obj} (h : OWF o) (p : EProp) :
    MapsCurrent (o.superAddProperty p).1 := MapsCurrent.updatePropertyMap (h.addProperty p)

theorem OWF.superAddProperties {o : Obj} (h : OWF o) (ps : List EProp) :
    OWF (o.superAddProperties ps).1 := by
  induction ps generalizing o with
  | nil => exact h
  | cons p ps ih => exact ih (h.superAddProperty p)

theorem MapsCurrent.superAddProperties {o : Obj} (hw : OWF o) (h : MapsCurrent o) (ps : List EProp) :
    MapsCurrent (o.superAddProperties ps).1 := by
  induction ps generalizing o with
  | nil => exact h
  | cons p ps ih => exact ih (hw.superAddProperty p) (MapsCurrent.superAddProperty hw p)

theorem OWF.std {o : Obj} (h : OWF o) (db : StdDB) (c : ObjectCode) :
    OWF (o.addStandardPropertiesWithCode db c).1 := by
  unfold Obj.addStandardPropertiesWithCode
  split
  · exact h
  · next std _ => exact OWF.superAddProperties (o := o.setClassName std.clsName) ⟨h.codes, h.uniq⟩ _

theorem MapsCurrent.std {o : Obj} (hw : OWF o) (h : MapsCurrent o) (db : StdDB) (c : ObjectCode) :
    MapsCurrent (o.addStandardPropertiesWithCode db c).1 := by
  unfold Obj.addStandardPropertiesWithCode
  split
  · exact h
  · next std _ =>
    exact MapsCurrent.superAddProperties (o := o.setClassName std.clsName) ⟨hw.codes, hw.uniq⟩
      ⟨h.get, h.set, h.anno⟩ _

theorem OWF.setCode {o : Obj} (h : OWF o) (c : ObjectCode) : OWF (o.setCode c) :=
  ⟨by show (integerToByte c o.codes).length = 3; rw [integerToByte_length, h.codes], h.uniq⟩

theorem OWF.setCodes {o : Obj} (h : OWF o) (cs : Bytes) : OWF (o.setCodes cs) := by
  refine ⟨?_, h.uniq⟩
  show (cs.take o.codes.length ++ o.codes.drop cs.length).length = 3
  have := h.codes
  simp only [List.length_append, List.length_take, List.length_drop]
  omega

theorem OWF.new : OWF Obj.new := ⟨rfl, List.nodup_nil⟩

theorem MapsCurrent.new : MapsCurrent Obj.new := by
  refine ⟨?_, ?_, ?_⟩ <;> intro p hp <;> cases hp

theorem OWF.newSuper (db : StdDB) : OWF (Obj.newSuper db) :=
  (((OWF.new.setCode _).std db _)).updatePropertyMap

theorem MapsCurrent.newSuper (db : StdDB) : MapsCurrent (Obj.newSuper db) :=
  MapsCurrent.updatePropertyMap ((OWF.new.setCode _).std db _)

/-! Adding the standard properties -/

def IsMap (c : Byte) : Prop := c = 0x9D ∨ c = 0x9E ∨ c = 0x9F

theorem updatePropertyMap_lookup_other (o : Obj) (c : Byte) (hc : ¬ IsMap c) :
    o.updatePropertyMap.1.props.lookup c = o.props.lookup c := by
  rw [updatePropertyMap_lookup]
  unfold IsMap at hc
  have h1 : c ≠ 0x9D := fun h => hc (.inl h)
  have h2 : c ≠ 0x9E := fun h => hc (.inr (.inl h))
  have h3 : c ≠ 0x9F := fun h => hc (.inr (.inr h))
  simp only [h1, h2, h3, if_false]
  cases o.props.lookup c <;> rfl

theorem superAddProperty_lookup (o : Obj) (p : EProp) (c : Byte) :
    ((o.superAddProperty p).1.props.lookup c).map skel
      = if c = p.code then some (skel p) else (o.props.lookup c).map skel := by
  unfold Obj.superAddProperty
  rw [updatePropertyMap_sameSkel]
  show ((o.props.add p).lookup c).map skel = _
  rw [lookup_add]
  split <;> rfl

theorem superAddProperty_lookup_other (o : Obj) (p : EProp) (c : Byte) (hc : ¬ IsMap c) :
    (o.superAddProperty p).1.props.lookup c = if c = p.code then some p else o.props.lookup c := by
  unfold Obj.superAddProperty
  rw [updatePropertyMap_lookup_other _ _ hc]
  exact lookup_add _ _ _

/-- Lookup in a list of properties added one after the other: the last one counts. -/
def lastOf (ps : List EProp) (c : Byte) : Option EProp := ps.reverse.find? (fun p => p.code == c)

theorem lastOf_cons (p : EProp) (ps : List EProp) (c : Byte) :
    lastOf (p :: ps) c = (lastOf ps c).or (if c = p.code then some p else none) := by
  unfold lastOf
  rw [List.reverse_cons, List.find?_append]
  congr 1
  by_cases h : c = p.code
  · simp [h]
  · simp [h, beq_eq_false_iff_ne.mpr (Ne.symm h)]

theorem superAddProperties_lookup (o : Obj) (ps : List EProp) (c : Byte) :
    ((o.superAddProperties ps).1.props.lookup c).map skel
      = ((lastOf ps c).or (o.props.lookup c)).map skel := by
  induction ps generalizing o with
  | nil => rfl
  | cons p ps ih =>
    show (((o.superAddProperty p).1.superAddProperties ps).1.props.lookup c).map skel = _
    rw [ih, lastOf_cons]
    cases h : lastOf ps c with
    | some q => rfl
    | none =>
      simp only [Option.none_or]
      rw [superAddProperty_lookup]
      split <;> rfl

theorem superAddProperties_lookup_other (o : Obj) (ps : List EProp) (c : Byte) (hc : ¬ IsMap c) :
    (o.superAddProperties ps).1.props.lookup c = (lastOf ps c).or (o.props.lookup c) := by
  induction ps generalizing o with
  | nil => rfl
  | cons p ps ih =>
    show ((o.superAddProperty p).1.superAddProperties ps).1.props.lookup c = _
    rw [ih, lastOf_cons]
    cases h : lastOf ps c with
    | some q => rfl
    | none =>
      simp only [Option.none_or]
      rw [superAddProperty_lookup_other _ _ _ hc]
      split <;> rfl

theorem lastOf_properties (m : PMap) (c : Byte) :
    lastOf (m.properties.map (·.copy)) c = (m.lookup c).map (·.copy) := by
  unfold lastOf
  cases h : m.lookup c with
  | none =>
    rw [List.find?_eq_none.mpr]
    · rfl
    · intro p hp
      rw [List.mem_reverse, List.mem_map] at hp
      obtain ⟨q, hq, rfl⟩ := hp
      rw [mem_properties] at hq
      intro hc
      have : q.code = c := by simpa [EProp.copy] using hc
      rw [this, h] at hq
      cases hq
  | some p =>
    have hp : p.copy ∈ (m.properties.map (·.copy)).reverse := by
      rw [List.mem_reverse]
      apply List.mem_map_of_mem
      rw [mem_properties, lookup_code h, h]
    have hs : ((m.properties.map (·.copy)).reverse.find? (fun p => p.code == c)).isSome := by
      rw [List.find?_isSome]
      exact ⟨_, hp, by simp [EProp.copy, lookup_code h]⟩
    obtain ⟨r, hr⟩ := Option.isSome_iff_exists.mp hs
    rw [hr]
    have hm := List.mem_of_find?_eq_some hr
    have hc := List.find?_some hr
    rw [List.mem_reverse, List.mem_map] at hm
    obtain ⟨q, hq, rfl⟩ := hm
    rw [mem_properties] at hq
    have : q.code = c := by simpa [EProp.copy] using hc
    rw [this, h] at hq
    cases hq
    rfl

/-- The lookup after `addStandardPropertiesWithCode`. -/
theorem std_lookup (db : StdDB) (o : Obj) (cd : ObjectCode) (c : Byte) :
    ((o.addStandardPropertiesWithCode db cd).1.props.lookup c).map skel
      = ((((db.lookupObject cd).bind (fun s => s.props.lookup c)).map (·.copy)).or
          (o.props.lookup c)).map skel := by
  unfold Obj.addStandardPropertiesWithCode
  cases db.lookupObject cd with
  | none => rfl
  | some std =>
    simp only [Option.bind_some]
    rw [superAddProperties_lookup, lastOf_properties]
    rfl

theorem std_lookup_other (db : StdDB) (o : Obj) (cd : ObjectCode) (c : Byte) (hc : ¬ IsMap c) :
    (o.addStandardPropertiesWithCode db cd).1.props.lookup c
      = (((db.lookupObject cd).bind (fun s => s.props.lookup c)).map (·.copy)).or
          (o.props.lookup c) := by
  unfold Obj.addStandardPropertiesWithCode
  cases db.lookupObject cd with
  | none => rfl
  | some std =>
    simp only [Option.bind_some]
    rw [superAddProperties_lookup_other _ _ _ hc, lastOf_properties]
    rfl

theorem superAddProperties_codes (o : Obj) (ps : List EProp) :
    (o.superAddProperties ps).1.codes = o.codes ∧ (o.superAddProperties ps).1.clsName = o.clsName ∧
    (o.superAddProperties ps).1.name = o.name := by
  induction ps generalizing o with
  | nil => exact ⟨rfl, rfl, rfl⟩
  | cons p ps ih =>
    have h := ih (o.superAddProperty p).1
    have e : (o.superAddProperty p).1.codes = o.codes ∧
        (o.superAddProperty p).1.clsName = o.clsName ∧ (o.superAddProperty p).1.name = o.name := by
      unfold Obj.superAddProperty
      rw [updatePropertyMap_fst]
      exact ⟨rfl, rfl, rfl⟩
    exact ⟨h.1.trans e.1, h.2.1.trans e.2.1, h.2.2.trans e.2.2⟩

theorem std_codes (db : StdDB) (o : Obj) (cd : ObjectCode) :
    (o.addStandardPropertiesWithCode db cd).1.codes = o.codes := by
  unfold Obj.addStandardPropertiesWithCode
  cases db.lookupObject cd with
  | none => rfl
  | some std => exact (superAddProperties_codes _ _).1

end Verif.Lemmas
