import Verif.Lemmas.Heap

/-! Helper lemmas: in every heap slices lie inside their arrays, and parsing on the heap agrees with parsing
on values. -/

namespace Verif.Lemmas.Mem
open Verif Model Spec Lemmas

/-- The slice lies inside its array. -/
def Valid (arrays : List Bytes) (s : Slice) : Prop :=
  s.arr < arrays.length ∧ s.off + s.len ≤ (arrays.getD s.arr []).length

/-- No array goes away or gets shorter. -/
def Grows (a a' : List Bytes) : Prop :=
  a.length ≤ a'.length ∧ ∀ i : Nat, (a.getD i []).length ≤ (a'.getD i []).length

theorem Grows.refl (a : List Bytes) : Grows a a := ⟨Nat.le_refl _, fun _ => Nat.le_refl _⟩

theorem Grows.trans {a b c : List Bytes} (g : Grows a b) (g' : Grows b c) : Grows a c :=
  ⟨Nat.le_trans g.1 g'.1, fun i => Nat.le_trans (g.2 i) (g'.2 i)⟩

theorem Valid.grows {a a' : List Bytes} {s : Slice} (v : Valid a s) (g : Grows a a') : Valid a' s :=
  ⟨Nat.lt_of_lt_of_le v.1 g.1, Nat.le_trans v.2 (g.2 _)⟩

theorem getD_append_left' (a e : List Bytes) (i : Nat) (hi : i < a.length) :
    (a ++ e).getD i [] = a.getD i [] := by
  simp [List.getD_eq_getElem?_getD, List.getElem?_append_left hi]

theorem getD_append_right' (a e : List Bytes) (k : Nat) : (a ++ e).getD (a.length + k) [] = e.getD k [] := by
  rw [List.getD_eq_getElem?_getD, List.getD_eq_getElem?_getD, List.getElem?_append_right (by omega)]
  congr 2
  omega

theorem grows_append (a e : List Bytes) : Grows a (a ++ e) := by
  refine ⟨by simp, fun i => ?_⟩
  by_cases hi : i < a.length
  · rw [getD_append_left' a e i hi]; exact Nat.le_refl _
  · rw [List.getD_eq_getElem?_getD, List.getElem?_eq_none (by omega)]; exact Nat.zero_le _

theorem grows_modify (a : List Bytes) (f : Bytes → Bytes) (hf : ∀ x, x.length ≤ (f x).length) (j : Nat) :
    Grows a (a.modify j f) := by
  refine ⟨by simp, fun i => ?_⟩
  rw [List.getD_eq_getElem?_getD, List.getD_eq_getElem?_getD, List.getElem?_modify]
  by_cases e : j = i
  · subst e
    cases h : a[j]? with
    | none => simp
    | some x => simpa using hf x
  · simp [e]

theorem grows_put {h h' : Heap} {s : Slice} {i : Nat} {b : Byte} (e : h.put s i b = .ok h') :
    Grows h.arrays h'.arrays ∧ h'.vars = h.vars ∧ h'.sock = h.sock ∧ h'.props = h.props ∧
      h'.msgs = h.msgs := by
  unfold Heap.put at e
  split at e
  · cases e; exact ⟨grows_modify _ _ (fun x => by simp) _, rfl, rfl, rfl, rfl⟩
  · cases e

theorem grows_fill (h : Heap) (s : Slice) (bs : Bytes) : Grows h.arrays (h.fill s bs).arrays := by
  refine grows_modify _ _ (fun x => ?_) _
  simp only [List.length_append, List.length_take, List.length_drop]
  omega

/-- The arrays of the header of the message are among the first `n`. -/
def HeaderIn (n : Nat) (m : HMsg) : Prop := m.tid.arr < n ∧ m.seoj.arr < n ∧ m.deoj.arr < n

theorem HeaderIn.mono {n n' : Nat} {m : HMsg} (hm : HeaderIn n m) (hn : n ≤ n') : HeaderIn n' m :=
  ⟨Nat.lt_of_lt_of_le hm.1 hn, Nat.lt_of_lt_of_le hm.2.1 hn, Nat.lt_of_lt_of_le hm.2.2 hn⟩

/-- Every slice a user or a property holds, and the read buffer, lies inside its array. -/
structure Good (h : Heap) : Prop where
  vars : ∀ v ∈ h.vars, Valid h.arrays v
  sock : Valid h.arrays h.sock
  props : ∀ q ∈ h.props, Valid h.arrays q.data
  msgs : ∀ m ∈ h.msgs, HeaderIn h.arrays.length m

theorem Good.grows {h h' : Heap} (g : Good h) (gr : Grows h.arrays h'.arrays) (ev : h'.vars = h.vars)
    (es : h'.sock = h.sock) (ep : h'.props = h.props) (em : h'.msgs = h.msgs) : Good h' :=
  ⟨fun v hv => (g.vars v (ev ▸ hv)).grows gr, es ▸ g.sock.grows gr, fun q hq => (g.props q (ep ▸ hq)).grows gr,
    fun m hm => (g.msgs m (em ▸ hm)).mono gr.1⟩

theorem good_make {h : Heap} (g : Good h) (n : Nat) : Good (h.make n).1 :=
  g.grows (grows_append _ _) rfl rfl rfl rfl

theorem valid_make (h : Heap) (n : Nat) : Valid (h.make n).1.arrays (h.make n).2 := by
  refine ⟨?_, ?_⟩
  · show h.arrays.length < (h.arrays ++ [_]).length
    simp
  · show 0 + n ≤ ((h.arrays ++ [List.replicate n 0]).getD h.arrays.length []).length
    have := getD_append_right' h.arrays [List.replicate n 0] 0
    rw [Nat.add_zero] at this
    rw [this]; simp

theorem good_fill {h : Heap} (g : Good h) (s : Slice) (bs : Bytes) : Good (h.fill s bs) :=
  g.grows (grows_fill h s bs) rfl rfl rfl rfl

theorem good_put {h h' : Heap} (g : Good h) {s : Slice} {i : Nat} {b : Byte} (e : h.put s i b = .ok h') :
    Good h' :=
  have p := grows_put e
  g.grows p.1 p.2.1 p.2.2.1 p.2.2.2.1 p.2.2.2.2

theorem good_addVar {h : Heap} (g : Good h) (s : Slice) (hs : Valid h.arrays s) :
    Good { h with vars := h.vars ++ [s] } := by
  refine ⟨fun v hv => ?_, g.sock, g.props, g.msgs⟩
  rcases List.mem_append.mp hv with hv | hv
  · exact g.vars v hv
  · rw [List.mem_singleton.mp hv]; exact hs

theorem good_msgs {h : Heap} (g : Good h) (ms : List HMsg) (hm : ∀ m ∈ ms, HeaderIn h.arrays.length m) :
    Good { h with msgs := ms } :=
  ⟨g.vars, g.sock, g.props, hm⟩

theorem good_addMsg {h : Heap} (g : Good h) (m : HMsg) (hm : HeaderIn h.arrays.length m) :
    Good { h with msgs := h.msgs ++ [m] } := by
  refine good_msgs g _ (fun x hx => ?_)
  rcases List.mem_append.mp hx with hx | hx
  · exact g.msgs x hx
  · rw [List.mem_singleton.mp hx]; exact hm

theorem good_newProperty {h : Heap} (g : Good h) : Good h.newProperty.1 := by
  have g' := good_make g 0
  refine ⟨g'.vars, g'.sock, fun q hq => ?_, g'.msgs⟩
  rcases List.mem_append.mp hq with hq | hq
  · exact g'.props q hq
  · rw [List.mem_singleton.mp hq]; exact valid_make h 0

theorem good_modify {h : Heap} (g : Good h) (p : Nat) (f : HProp → HProp)
    (hf : ∀ q ∈ h.props, Valid h.arrays (f q).data) : Good { h with props := h.props.modify p f } := by
  refine ⟨g.vars, g.sock, fun q hq => ?_, g.msgs⟩
  obtain ⟨i, hi⟩ := List.getElem?_of_mem hq
  rw [List.getElem?_modify] at hi
  cases hx : h.props[i]? with
  | none => rw [hx] at hi; cases hi
  | some x =>
    rw [hx] at hi
    have hm : x ∈ h.props := List.mem_of_getElem? hx
    by_cases e : p = i
    · simp only [if_pos e] at hi
      cases hi; exact hf x hm
    · simp only [if_neg e] at hi
      cases hi; exact g.props x hm

theorem good_setCode {h : Heap} (g : Good h) (p : Nat) (c : Byte) : Good (h.setCode p c) :=
  good_modify g p _ (fun q hq => g.props q hq)

theorem good_setData {h : Heap} (g : Good h) (p : Nat) (s : Slice) : Good (h.setData p s) := by
  have g1 := good_fill (good_make g s.len) (h.make s.len).2 ((h.make s.len).1.bytes s)
  exact good_modify g1 p _ (fun _ _ => (valid_make h s.len).grows (grows_fill _ _ _))

theorem good_copyProperty {h : Heap} (g : Good h) (p : Nat) : Good (h.copyProperty p).1 := by
  unfold Heap.copyProperty
  cases h.props[p]? with
  | none => exact g
  | some q => exact good_setData (good_setCode (good_newProperty g) _ _) _ _

theorem good_newMessage {h : Heap} (g : Good h) : Good h.newMessage.1 :=
  good_make (good_make (good_make g _) _) _

theorem good_newProperties (k : Nat) : ∀ {h : Heap}, Good h → Good (h.newProperties k).1 := by
  induction k with
  | zero => intro h g; exact g
  | succ k ih => intro h g; exact ih (good_newProperty g)

/-! ## Reading and writing -/

theorem bytes_length {h : Heap} {s : Slice} (v : Valid h.arrays s) : (h.bytes s).length = s.len := by
  unfold Heap.bytes
  have := v.2
  simp only [List.length_take, List.length_drop]
  omega

theorem bytes_congr {h h' : Heap} {s : Slice} (e : h'.arrays[s.arr]? = h.arrays[s.arr]?) :
    h'.bytes s = h.bytes s := by
  unfold Heap.bytes
  rw [List.getD_eq_getElem?_getD, List.getD_eq_getElem?_getD, e]

theorem bytes_append {h h' : Heap} {e : List Bytes} {s : Slice} (he : h'.arrays = h.arrays ++ e)
    (hs : s.arr < h.arrays.length) : h'.bytes s = h.bytes s :=
  bytes_congr (by rw [he, List.getElem?_append_left hs])

theorem get_eq (h : Heap) (s : Slice) (i : Nat) : h.get s i = rd (h.bytes s) i := by
  unfold Heap.get Heap.bytes
  by_cases hi : i < s.len
  · rw [if_pos hi]
    unfold rd
    rw [List.getElem?_take, if_pos hi, List.getElem?_drop]
  · rw [if_neg hi]
    unfold rd
    rw [List.getElem?_take, if_neg hi]

theorem sub_bytes {h : Heap} {s s' : Slice} {lo hi : Nat} (v : Valid h.arrays s)
    (e : Heap.sub s lo hi = .ok s') : Valid h.arrays s' ∧ slice (h.bytes s) lo hi = .ok (h.bytes s') := by
  unfold Heap.sub at e
  split at e
  · rename_i hl
    cases e
    refine ⟨⟨v.1, by have := v.2; simp only; omega⟩, ?_⟩
    rw [slice, if_pos (by rw [bytes_length v]; exact hl)]
    unfold Heap.bytes
    simp only
    congr 1
    rw [List.take_take, List.drop_take, List.drop_drop, Nat.min_eq_left hl.2]
  · cases e

theorem modify_append {α : Type} (a b : List α) (j : Nat) (f : α → α) :
    (a ++ b).modify (a.length + j) f = a ++ b.modify j f := by
  apply List.ext_getElem?
  intro i
  rw [List.getElem?_modify]
  by_cases hi : i < a.length
  · rw [List.getElem?_append_left hi, List.getElem?_append_left hi]
    simp [show a.length + j ≠ i by omega]
  · rw [List.getElem?_append_right (by omega), List.getElem?_append_right (by omega), List.getElem?_modify]
    by_cases e : j = i - a.length
    · simp only [if_pos e, if_pos (show a.length + j = i by omega)]
    · simp only [if_neg e, if_neg (show ¬ a.length + j = i by omega)]

/-- What `SetData` does to the arrays. -/
theorem setData_eq {h : Heap} {s : Slice} (v : Valid h.arrays s) (p : Nat) :
    h.setData p s = { h with
      arrays := h.arrays ++ [h.bytes s]
      props := h.props.modify p (fun q => { q with data := ⟨h.arrays.length, 0, s.len⟩ }) } := by
  have hb : Heap.bytes { h with arrays := h.arrays ++ [List.replicate s.len 0] } s = h.bytes s :=
    bytes_append rfl v.1
  have hl := bytes_length v
  unfold Heap.setData Heap.make Heap.fill
  simp only [hb]
  refine congrArg (fun a => Heap.mk a _ _ _ _) ?_
  rw [List.take_of_length_le (by omega), hl]
  have := modify_append h.arrays [List.replicate s.len (0 : Byte)] 0
  rw [Nat.add_zero] at this
  rw [this]
  simp

/-! ## Parsing -/

/-- The heap `h` extends `b` by arrays and by properties that show `vals` in the new arrays. -/
structure Rel (b h : Heap) (vals : List PProp) : Prop where
  arrays : ∃ e, h.arrays = b.arrays ++ e
  props : ∃ qs, h.props = b.props ++ qs ∧ qs.map (fun q => (⟨q.code, h.bytes q.data⟩ : PProp)) = vals ∧
    ∀ q ∈ qs, b.arrays.length ≤ q.data.arr ∧ Valid h.arrays q.data
  msgs : h.msgs = b.msgs
  vars : h.vars = b.vars
  sock : h.sock = b.sock

theorem map_modify_set {α β : Type} (l : List α) (j : Nat) (f : α → α) (g : α → β) (v : β)
    (hv : ∀ x, l[j]? = some x → g (f x) = v) : (l.modify j f).map g = (l.map g).set j v := by
  apply List.ext_getElem?
  intro i
  rw [List.getElem?_map, List.getElem?_modify, List.getElem?_set]
  by_cases e : j = i
  · subst e
    cases hx : l[j]? with
    | none =>
      have : l.length ≤ j := List.getElem?_eq_none_iff.mp hx
      simp [show ¬ j < l.length by omega]
    | some x =>
      have : j < l.length := (List.getElem?_eq_some_iff.mp hx).1
      simp [this, hv x hx]
  · simp [e]

theorem mem_modify {α : Type} {l : List α} {j : Nat} {f : α → α} {x : α} (hx : x ∈ l.modify j f) :
    x ∈ l ∨ ∃ y ∈ l, x = f y := by
  obtain ⟨i, hi⟩ := List.getElem?_of_mem hx
  rw [List.getElem?_modify] at hi
  cases hy : l[i]? with
  | none => rw [hy] at hi; cases hi
  | some y =>
    rw [hy] at hi
    have hm : y ∈ l := List.mem_of_getElem? hy
    by_cases e : j = i
    · simp only [if_pos e] at hi
      cases hi; exact Or.inr ⟨y, hm, rfl⟩
    · simp only [if_neg e] at hi
      cases hi; exact Or.inl hm

theorem rel_setCode {b h : Heap} {vals : List PProp} (r : Rel b h vals) (j : Nat) (p : PProp)
    (hp : vals[j]? = some p) (c : Byte) : Rel b (h.setCode (b.props.length + j) c) (vals.set j (p.setCode c)) := by
  obtain ⟨qs, hq, hv, hf⟩ := r.props
  refine ⟨r.arrays, ⟨qs.modify j (fun q => { q with code := c }), ?_, ?_, ?_⟩, r.msgs, r.vars, r.sock⟩
  · show (h.props.modify _ _) = _
    rw [hq, modify_append]
  · rw [map_modify_set qs j _ _ (p.setCode c)]
    · rw [← hv]; rfl
    · intro x hx
      rw [← hv, List.getElem?_map, hx] at hp
      cases hp; rfl
  · intro q hm
    rcases mem_modify hm with hm | ⟨y, hy, rfl⟩
    · exact hf q hm
    · exact hf y hy

theorem rel_setData {b h : Heap} {vals : List PProp} (r : Rel b h vals) (j : Nat) (p : PProp)
    (hp : vals[j]? = some p) (s : Slice) (v : Valid b.arrays s) :
    Rel b (h.setData (b.props.length + j) s) (vals.set j (p.setData (b.bytes s))) := by
  obtain ⟨e, he⟩ := r.arrays
  obtain ⟨qs, hq, hv, hf⟩ := r.props
  have v' : Valid h.arrays s := v.grows (he ▸ grows_append _ _)
  have hb : h.bytes s = b.bytes s := bytes_append he v.1
  rw [setData_eq v', hb]
  have hnew : Heap.bytes { h with
      arrays := h.arrays ++ [b.bytes s]
      props := h.props.modify (b.props.length + j) (fun q => { q with data := ⟨h.arrays.length, 0, s.len⟩ }) }
        ⟨h.arrays.length, 0, s.len⟩ = b.bytes s := by
    unfold Heap.bytes
    simp only
    have := getD_append_right' h.arrays [((b.arrays.getD s.arr []).drop s.off).take s.len] 0
    rw [Nat.add_zero] at this
    rw [this]
    have hl := bytes_length v
    unfold Heap.bytes at hl
    simp only [List.getD_cons_zero, List.drop_zero]
    rw [List.take_of_length_le (by omega)]
  refine ⟨⟨e ++ [b.bytes s], by simp [he]⟩, ⟨qs.modify j (fun q => { q with data := ⟨h.arrays.length, 0, s.len⟩ }),
    ?_, ?_, ?_⟩, r.msgs, r.vars, r.sock⟩
  · show (h.props.modify _ _) = _
    rw [hq, modify_append]
  · rw [map_modify_set qs j _ _ (p.setData (b.bytes s))]
    · rw [← hv]
      congr 1
      apply List.map_congr_left
      intro q hm
      rw [bytes_append (h := h) rfl (hf q hm).2.1]
    · intro x hx
      rw [← hv, List.getElem?_map, hx] at hp
      cases hp
      rw [hnew]; rfl
  · intro q hm
    have hlen : b.arrays.length ≤ h.arrays.length := by rw [he]; simp
    rcases mem_modify hm with hm | ⟨y, hy, rfl⟩
    · exact ⟨(hf q hm).1, (hf q hm).2.grows (grows_append _ _)⟩
    · refine ⟨hlen, by simp, ?_⟩
      have := getD_append_right' h.arrays [b.bytes s] 0
      rw [Nat.add_zero] at this
      simp only [this, List.getD_cons_zero]
      have := bytes_length v
      omega

theorem rel_bytes {b h : Heap} {vals : List PProp} (r : Rel b h vals) {s : Slice} (hs : s.arr < b.arrays.length) :
    h.bytes s = b.bytes s := by
  obtain ⟨e, he⟩ := r.arrays
  exact bytes_append he hs

theorem step_sim {b h : Heap} {vals : List PProp} (r : Rel b h vals) (s : Slice) (v : Valid b.arrays s)
    (ep : List (Option Nat)) (j off : Nat) (hj : j < vals.length)
    (hep : Heap.property ep j = some (b.props.length + j)) :
    ∃ (h' : Heap) (vals' : List PProp) (off' : Nat), Heap.parsePropertyStep ep s j (h, off) = .ok (h', off') ∧
      Message.parseFormat1PropertyStep (b.bytes s) j (vals.map some, off) = .ok (vals'.map some, off') ∧
      Rel b h' vals' ∧ vals'.length = vals.length := by
  have hl := bytes_length v
  obtain ⟨p, hp⟩ : ∃ p, vals[j]? = some p := ⟨vals[j], List.getElem?_eq_getElem hj⟩
  have hprop : Message.propAt (vals.map some) j = Res.ok (some p) := by
    rw [propAt_nat _ _ (by simpa using hj)]
    simp only [List.getElem_map]
    rw [List.getElem?_eq_getElem hj] at hp
    cases hp; rfl
  unfold Heap.parsePropertyStep Message.parseFormat1PropertyStep
  simp only [hep, hprop, Res.ok_bind, hl]
  by_cases h0 : (s.len : Int) - 1 < off
  · exact ⟨h, vals, off, by rw [if_pos h0], by rw [if_pos h0], r, rfl⟩
  · rw [if_neg h0, if_neg h0, get_eq, rel_bytes r v.1, rd_ok _ off (by omega)]
    simp only [Res.ok_bind]
    generalize (b.bytes s)[off]'(by omega) = c
    have r1 := rel_setCode r j p hp c
    have hset : ∀ x : PProp, (vals.map some).set j (some x) = (vals.set j x).map some := by
      intro x; rw [List.map_set]
    by_cases h1 : (s.len : Int) - 1 < (off + 1 : Nat)
    · exact ⟨_, _, off + 1, by rw [if_pos h1], by rw [if_pos h1, hset], r1, by simp⟩
    · rw [if_neg h1, if_neg h1, get_eq, rel_bytes r1 v.1, rd_ok _ (off + 1) (by omega)]
      simp only [Res.ok_bind]
      generalize ((b.bytes s)[off + 1]'(by omega)).toNat = n
      by_cases h2 : (s.len : Int) - 1 < (off + 1 + 1 : Nat) + (n : Int) - 1
      · exact ⟨_, _, off + 1 + 1, by rw [if_pos h2], by rw [if_pos h2, hset], r1, by simp⟩
      · rw [if_neg h2, if_neg h2]
        have hsub : Heap.sub s (off + 1 + 1) (off + 1 + 1 + n) = .ok ⟨s.arr, s.off + (off + 1 + 1), n⟩ := by
          rw [Heap.sub, if_pos (by omega)]
          congr 2
          omega
        obtain ⟨v2, hs2⟩ := sub_bytes (h := b) v hsub
        rw [hsub, hs2]
        simp only [Res.ok_bind]
        have r2 := rel_setData r1 j (p.setCode c) (by rw [List.getElem?_set_self hj]) _ v2
        refine ⟨_, _, _, rfl, ?_, r2, by simp⟩
        rw [List.map_set, List.map_set]

theorem loop_sim {b : Heap} (s : Slice) (v : Valid b.arrays s) (ep : List (Option Nat)) (k : Nat)
    (hep : ∀ j, j < k → Heap.property ep j = some (b.props.length + j)) : ∀ (cnt i off : Nat) (h : Heap)
    (vals : List PProp), Rel b h vals → vals.length = k → i + cnt ≤ k →
    ∃ (h' : Heap) (vals' : List PProp) (off' : Nat),
      forFrom (Heap.parsePropertyStep ep s) cnt i (h, off) = .ok (h', off') ∧
      forFrom (Message.parseFormat1PropertyStep (b.bytes s)) cnt i (vals.map some, off) =
        .ok (vals'.map some, off') ∧
      Rel b h' vals' ∧ vals'.length = k := by
  intro cnt
  induction cnt with
  | zero => intro i off h vals r hk _; exact ⟨h, vals, off, rfl, rfl, r, hk⟩
  | succ cnt ih =>
    intro i off h vals r hk hi
    obtain ⟨h1, vals1, off1, e1, e2, r1, hl⟩ := step_sim r s v ep i off (by omega) (hep i (by omega))
    obtain ⟨h2, vals2, off2, e3, e4, r2, hl2⟩ := ih (i + 1) off1 h1 vals1 r1 (by omega) (by omega)
    exact ⟨h2, vals2, off2, by simp only [forFrom, e1, Res.ok_bind, e3], by simp only [forFrom, e2, Res.ok_bind, e4],
      r2, hl2⟩

theorem newProperties_eq (k : Nat) : ∀ h : Heap, h.newProperties k =
    ({ h with arrays := h.arrays ++ List.replicate k []
              props := h.props ++ (List.range k).map (fun i => ⟨0, ⟨h.arrays.length + i, 0, 0⟩⟩) },
      (List.range k).map (fun i => some (h.props.length + i))) := by
  induction k with
  | zero => intro h; simp [Heap.newProperties]
  | succ k ih =>
    intro h
    simp only [Heap.newProperties, Heap.newProperty, Heap.make, ih, List.range_succ_eq_map]
    simp [List.replicate_succ, Nat.add_assoc, Nat.add_comm 1]

theorem rel_newProperties (h : Heap) (k : Nat) :
    Rel h (h.newProperties k).1 (List.replicate k PProp.new) := by
  rw [newProperties_eq]
  refine ⟨⟨_, rfl⟩, ⟨_, rfl, ?_, ?_⟩, rfl, rfl, rfl⟩
  · apply List.ext_getElem?
    intro i
    simp only [List.map_map, List.getElem?_map, List.getElem?_replicate]
    by_cases hi : i < k
    · simp [hi, Heap.bytes, PProp.new]
    · simp [hi]
  · intro q hq
    obtain ⟨i, hi, rfl⟩ := List.mem_map.mp hq
    have := List.mem_range.mp hi
    refine ⟨by simp, by simp only [List.length_append, List.length_replicate]; omega, by simp⟩

theorem property_range (n k j : Nat) (hj : j < k) :
    Heap.property ((List.range k).map (fun i => some (n + i))) j = some (n + j) := by
  unfold Heap.property
  rw [if_neg (by simp; omega)]
  simp [hj]

/-- A heap with more arrays. -/
def more (h : Heap) (l : List Bytes) : Heap := { h with arrays := h.arrays ++ l }

theorem put_more (h : Heap) (l : List Bytes) (k n i : Nat) (x : Byte) (hi : i < n) :
    (more h l).put ⟨h.arrays.length + k, 0, n⟩ i x = .ok (more h (l.modify k (fun a => a.set i x))) := by
  unfold Heap.put more
  rw [if_pos hi]
  simp only [modify_append, Nat.zero_add]

theorem get_more (h : Heap) (l : List Bytes) (s : Slice) (hs : s.arr < h.arrays.length) (i : Nat) :
    (more h l).get s i = rd (h.bytes s) i := by
  rw [get_eq, bytes_append (h := h) rfl hs]

/-- The message a parse begins with. -/
def blank (n : Nat) : HMsg :=
  { ehd1 := ehd1Echonet, ehd2 := ehd2Format1, tid := ⟨n + 0, 0, 2⟩, seoj := ⟨n + 1, 0, 3⟩, deoj := ⟨n + 2, 0, 3⟩,
    esv := 0, opc := 0, ep := [] }

theorem newMessage_eq (h : Heap) :
    h.newMessage = (more h [[0, 0], [0, 0, 0], [0, 0, 0]], blank h.arrays.length) := by
  simp [Heap.newMessage, Heap.make, more, blank, tidSize, eojSize, List.replicate_succ]

theorem frame_more (h : Heap) (s : Slice) (v : Valid h.arrays s) :
    (more h [[0, 0], [0, 0, 0], [0, 0, 0]]).parseFrameHeaderBytes (blank h.arrays.length) s =
      (Message.new.parseFrameHeaderBytes (h.bytes s)) >>= fun m =>
        .ok (more h [m.tid, [0, 0, 0], [0, 0, 0]]) := by
  have hl := bytes_length v
  unfold Heap.parseFrameHeaderBytes Message.parseFrameHeaderBytes
  rw [hl]
  by_cases h4 : s.len < frameHeaderSize
  · rw [if_pos h4, if_pos h4]; rfl
  · rw [if_neg h4, if_neg h4]
    have h4' : 4 ≤ s.len := by unfold frameHeaderSize at h4; omega
    rw [get_more h _ s v.1, get_more h _ s v.1, get_more h _ s v.1]
    rw [rd_ok _ 0 (by omega), rd_ok _ 1 (by omega), rd_ok _ 2 (by omega), rd_ok _ 3 (by omega)]
    simp only [Res.ok_bind]
    split
    · rfl
    · split
      · rfl
      · simp only [blank]
        rw [put_more h _ 0 2 0 _ (by omega)]
        simp only [Res.ok_bind]
        rw [get_more h _ s v.1, rd_ok _ 3 (by omega)]
        simp only [Res.ok_bind]
        rw [put_more h _ 0 2 1 _ (by omega)]
        simp [Message.new, tidSize, wr, List.replicate_succ]

theorem header_more (h : Heap) (s : Slice) (v : Valid h.arrays s) (s0 s1 s2 d0 d1 d2 esv opc : Byte)
    (tid rest : Bytes) (hb : h.bytes s = s0 :: s1 :: s2 :: d0 :: d1 :: d2 :: esv :: opc :: rest) :
    (more h [tid, [0, 0, 0], [0, 0, 0]]).parseFormat1HeaderBytes (blank h.arrays.length) s =
      .ok (((more h [tid, [s0, s1, s2], [d0, d1, d2]]).newProperties opc.toNat).1,
        { blank h.arrays.length with
            esv := esv, opc := opc
            ep := ((more h [tid, [s0, s1, s2], [d0, d1, d2]]).newProperties opc.toNat).2 }) := by
  have hl := bytes_length v
  rw [hb] at hl
  simp only [List.length_cons] at hl
  unfold Heap.parseFormat1HeaderBytes
  rw [if_neg (by unfold format1HeaderSize; omega)]
  simp [get_more h _ s v.1, hb, rd, blank, put_more, Heap.setOPC]

/-- A message has been parsed: the heap has more arrays and properties, and the message reaches only those. -/
structure Fresh (h h' : Heap) (m : HMsg) : Prop where
  arrays : ∃ e, h'.arrays = h.arrays ++ e
  props : ∃ qs, h'.props = h.props ++ qs ∧ ∀ q ∈ qs, h.arrays.length ≤ q.data.arr ∧ Valid h'.arrays q.data
  msgs : h'.msgs = h.msgs
  vars : h'.vars = h.vars
  sock : h'.sock = h.sock
  header : HeaderIn h'.arrays.length m
  tid : h.arrays.length ≤ m.tid.arr
  seoj : h.arrays.length ≤ m.seoj.arr
  deoj : h.arrays.length ≤ m.deoj.arr
  ep : ∀ r ∈ m.ep, ∃ p, r = some p ∧ h.props.length ≤ p ∧ p < h'.props.length
  all : ∀ p, h.props.length ≤ p → p < h'.props.length → some p ∈ m.ep

theorem parse_err {h : Heap} {s : Slice} (v : Valid h.arrays s) {e : Err}
    (he : Message.newWithBytes (h.bytes s) = .err e) : h.newMessageWithBytes s = .err e := by
  unfold Heap.newMessageWithBytes
  rw [newMessage_eq]
  simp only
  rw [frame_more h s v]
  unfold Message.newWithBytes Message.parseBytes at he
  cases hf : Message.new.parseFrameHeaderBytes (h.bytes s) with
  | err e' => rw [hf] at he; cases he; rfl
  | panic => rw [hf] at he; cases he
  | ok m1 =>
    rw [hf] at he
    simp only [Res.ok_bind] at he ⊢
    have h4 : 4 ≤ s.len := by
      rw [← bytes_length v]
      unfold Message.parseFrameHeaderBytes at hf
      split at hf
      · cases hf
      · rename_i hn; unfold frameHeaderSize at hn; omega
    have hsub : Heap.sub s frameHeaderSize s.len = .ok ⟨s.arr, s.off + 4, s.len - 4⟩ := by
      rw [Heap.sub, if_pos ⟨h4, Nat.le_refl _⟩]; rfl
    obtain ⟨v1, hb1⟩ := sub_bytes v hsub
    rw [hsub]
    simp only [Res.ok_bind]
    by_cases h8 : s.len - 4 < format1HeaderSize
    · have hs1 : sliceFrom (h.bytes s) frameHeaderSize = .ok ((h.bytes s).drop 4) := by
        rw [sliceFrom, if_pos (by rw [bytes_length v]; exact h4)]; rfl
      rw [hs1] at he
      simp only [Res.ok_bind] at he
      unfold Message.parseFormat1HeaderBytes at he
      rw [if_pos (by rw [List.length_drop, bytes_length v]; exact h8)] at he
      unfold Heap.parseFormat1HeaderBytes
      rw [if_pos h8]
      cases he; rfl
    · exfalso
      have hl := bytes_length v
      rcases newWithBytes_cases (h.bytes s) with ⟨t0, t1, s0, s1, s2, d0, d1, d2, esv, opc, rest, hb⟩ | ⟨hc, _⟩
      · have := newWithBytes_cons t0 t1 s0 s1 s2 d0 d1 d2 esv opc rest
        rw [← hb] at this
        unfold Message.newWithBytes Message.parseBytes at this
        rw [hf] at this
        simp only [Res.ok_bind] at this
        rw [he] at this; cases this
      · unfold format1HeaderSize at h8
        rcases hc with hc | hc | hc
        · omega
        · unfold Message.parseFrameHeaderBytes at hf
          rw [if_neg (by unfold frameHeaderSize; omega), rd_ok _ 0 (by omega)] at hf
          rw [List.getElem?_eq_getElem (by omega)] at hc
          simp only [Res.ok_bind] at hf
          rw [if_pos (show _ ≠ ehd1Echonet from fun e => hc (congrArg some e))] at hf
          cases hf
        · unfold Message.parseFrameHeaderBytes at hf
          rw [if_neg (by unfold frameHeaderSize; omega), rd_ok _ 0 (by omega), rd_ok _ 1 (by omega)] at hf
          rw [List.getElem?_eq_getElem (by omega)] at hc
          simp only [Res.ok_bind] at hf
          split at hf
          · cases hf
          · rw [if_pos (show _ ≠ ehd2Format1 from fun e => hc (congrArg some e))] at hf
            cases hf

theorem parse_ok {h : Heap} {s : Slice} (v : Valid h.arrays s) {vm : Message}
    (he : Message.newWithBytes (h.bytes s) = .ok vm) :
    ∃ h' m, h.newMessageWithBytes s = .ok (h', m) ∧ h'.message m = vm ∧ Fresh h h' m := by
  obtain ⟨t0, t1, s0, s1, s2, d0, d1, d2, esv, opc, rest, hb, rfl⟩ := newWithBytes_ok he
  have hl := bytes_length v
  rw [hb] at hl
  simp only [List.length_cons] at hl
  unfold Heap.newMessageWithBytes
  rw [newMessage_eq]
  simp only
  have hfr : Message.new.parseFrameHeaderBytes (h.bytes s) = .ok { Message.new with tid := [t0, t1] } := by
    rw [hb]
    simp [Message.parseFrameHeaderBytes, frameHeaderSize, rd, wr, ehd1Echonet, ehd2Format1,
      Message.new, tidSize, List.replicate_succ]
  rw [frame_more h s v, hfr]
  simp only [Res.ok_bind]
  have hsub : Heap.sub s frameHeaderSize s.len = .ok ⟨s.arr, s.off + 4, s.len - 4⟩ := by
    rw [Heap.sub, if_pos ⟨by unfold frameHeaderSize; omega, Nat.le_refl _⟩]; rfl
  obtain ⟨v1, hb1⟩ := sub_bytes v hsub
  have hsub2 : Heap.sub s format1MinSize s.len = .ok ⟨s.arr, s.off + 12, s.len - 12⟩ := by
    rw [Heap.sub, if_pos ⟨by unfold format1MinSize frameHeaderSize format1HeaderSize; omega, Nat.le_refl _⟩]; rfl
  obtain ⟨v2, hb2⟩ := sub_bytes v hsub2
  have full : ∀ lo, slice (h.bytes s) lo s.len = sliceFrom (h.bytes s) lo := by
    intro lo
    unfold slice sliceFrom
    have hlen := bytes_length v
    rw [hlen]
    by_cases hlo : lo ≤ s.len
    · rw [if_pos ⟨hlo, Nat.le_refl _⟩, if_pos hlo, List.take_of_length_le (by omega)]
    · rw [if_neg (fun h => hlo h.1), if_neg hlo]
  rw [full, hb] at hb1 hb2
  have hb1' : h.bytes ⟨s.arr, s.off + 4, s.len - 4⟩ = s0 :: s1 :: s2 :: d0 :: d1 :: d2 :: esv :: opc :: rest := by
    simp [sliceFrom, frameHeaderSize] at hb1
    exact hb1.symm
  have hb2' : h.bytes ⟨s.arr, s.off + 12, s.len - 12⟩ = rest := by
    simp [sliceFrom, format1MinSize, frameHeaderSize, format1HeaderSize] at hb2
    exact hb2.symm
  rw [hsub, hsub2]
  simp only [Res.ok_bind]
  rw [header_more h _ v1 s0 s1 s2 d0 d1 d2 esv opc [t0, t1] rest hb1']
  simp only [Res.ok_bind]
  generalize hbb : more h [[t0, t1], [s0, s1, s2], [d0, d1, d2]] = b
  have hba : b.arrays = h.arrays ++ [[t0, t1], [s0, s1, s2], [d0, d1, d2]] := by rw [← hbb]; rfl
  have hbp : b.props = h.props := by rw [← hbb]; rfl
  have r0 := rel_newProperties b opc.toNat
  have hep := newProperties_eq opc.toNat b
  have v2' : Valid b.arrays ⟨s.arr, s.off + 12, s.len - 12⟩ := v2.grows (hba ▸ grows_append _ _)
  have hb2b : b.bytes ⟨s.arr, s.off + 12, s.len - 12⟩ = rest := by
    rw [bytes_append hba v2.1, hb2']
  obtain ⟨h', vals, off, e1, e2, r, hk⟩ := loop_sim (b := b) ⟨s.arr, s.off + 12, s.len - 12⟩ v2'
    (b.newProperties opc.toNat).2 opc.toNat
    (by rw [hep]; intro j hj; exact property_range _ _ _ hj) opc.toNat 0 0 _ _ r0 (by simp) (by omega)
  rw [forRange, e1]
  simp only [Res.ok_bind]
  obtain ⟨e, hea⟩ := r.arrays
  obtain ⟨qs, hqs, hqv, hqf⟩ := r.props
  have hlen' : h.arrays.length + 3 ≤ h'.arrays.length := by rw [hea, hba]; simp
  have hql : qs.length = opc.toNat := by rw [← hk, ← hqv]; simp
  have hmap : (b.newProperties opc.toNat).2 = (List.range opc.toNat).map (fun i => some (h.props.length + i)) := by
    rw [hep, hbp]
  refine ⟨h', _, rfl, ?_, ⟨?_, ⟨qs, by rw [hqs, hbp], fun q hq => ⟨?_, (hqf q hq).2⟩⟩, ?_, ?_, ?_, ?_, ?_, ?_, ?_, ?_, ?_⟩⟩
  · -- what the message shows
    have hvals : vals.map some = (Spec.lenientProps opc.toNat rest).map (some ∘ ofWire) := by
      obtain ⟨off', hp⟩ := propLoop rest opc.toNat [] 0 (by omega)
      simp only [List.length_nil, List.nil_append, List.drop_zero] at hp
      rw [hb2b, List.map_replicate, hp] at e2
      simp only [Res.ok.injEq, Prod.mk.injEq] at e2
      exact e2.1.symm
    have ht : ∀ (k n : Nat) (x : Bytes), [[t0, t1], [s0, s1, s2], [d0, d1, d2]].getD k [] = x → x.length = n →
        k < 3 → h'.bytes ⟨h.arrays.length + k, 0, n⟩ = x := by
      intro k n x hx hn hk3
      rw [bytes_append (h := b) hea (by rw [hba]; simp; omega)]
      unfold Heap.bytes
      simp only
      rw [hba, getD_append_right', hx, List.drop_zero, List.take_of_length_le (by omega)]
    unfold Heap.message decoded blank
    simp only
    rw [ht 0 2 [t0, t1] rfl rfl (by omega), ht 1 3 [s0, s1, s2] rfl rfl (by omega),
      ht 2 3 [d0, d1, d2] rfl rfl (by omega)]
    refine congrArg (fun x => Message.mk _ _ _ _ _ _ _ x _ _ _) ?_
    rw [← hvals, hmap]
    apply List.ext_getElem?
    intro i
    by_cases hi : i < opc.toNat
    · have hlt : i < qs.length := by omega
      simp only [List.map_map, List.getElem?_map, ← hqv]
      rw [List.getElem?_range hi, List.getElem?_eq_getElem hlt]
      simp only [Option.map_some, Function.comp, Option.bind_some, Heap.propAt]
      rw [hqs, hbp, List.getElem?_append_right (by omega), Nat.add_sub_cancel_left, List.getElem?_eq_getElem hlt]
      rfl
    · rw [List.getElem?_eq_none (by simp; omega), List.getElem?_eq_none (by simp [← hqv]; omega)]
  · exact ⟨_, by rw [hea, hba, List.append_assoc]⟩
  · have := (hqf q hq).1
    rw [hba] at this
    simp at this
    omega
  · rw [r.msgs, ← hbb]; rfl
  · rw [r.vars, ← hbb]; rfl
  · rw [r.sock, ← hbb]; rfl
  · exact ⟨by simp only [blank]; omega, by simp only [blank]; omega, by simp only [blank]; omega⟩
  · simp only [blank]; omega
  · simp only [blank]; omega
  · simp only [blank]; omega
  · intro r' hr
    simp only [hmap] at hr
    obtain ⟨i, hi, rfl⟩ := List.mem_map.mp hr
    refine ⟨_, rfl, by omega, ?_⟩
    have := List.mem_range.mp hi
    rw [hqs, hbp, List.length_append]
    omega
  · intro p hp hp'
    rw [hqs, hbp, List.length_append] at hp'
    simp only [hmap]
    refine List.mem_map.mpr ⟨p - h.props.length, List.mem_range.mpr (by omega), ?_⟩
    congr 1
    omega

theorem newWithBytes_ne_panic (bs : Bytes) : Message.newWithBytes bs ≠ .panic := by
  rcases newWithBytes_cases bs with ⟨t0, t1, s0, s1, s2, d0, d1, d2, esv, opc, rest, rfl⟩ | ⟨_, h⟩
  · rw [newWithBytes_cons]; exact fun h => by cases h
  · rw [h]; exact fun h => by cases h

theorem good_fresh {h h' : Heap} {m : HMsg} (g : Good h) (f : Fresh h h' m) : Good h' := by
  obtain ⟨e, he⟩ := f.arrays
  obtain ⟨qs, hq, hf⟩ := f.props
  have gr : Grows h.arrays h'.arrays := he ▸ grows_append _ _
  refine ⟨fun v hv => (g.vars v (f.vars ▸ hv)).grows gr, f.sock ▸ g.sock.grows gr, fun q hm => ?_,
    fun x hx => (g.msgs x (f.msgs ▸ hx)).mono gr.1⟩
  rw [hq] at hm
  rcases List.mem_append.mp hm with hm | hm
  · exact (g.props q hm).grows gr
  · exact (hf q hm).2

theorem good_addParsed {h : Heap} (g : Good h) (s : Slice) (v : Valid h.arrays s) :
    Good (h.addParsed (h.newMessageWithBytes s)) := by
  cases e : Message.newWithBytes (h.bytes s) with
  | err _ => rw [parse_err v e]; exact g
  | panic => exact absurd e (newWithBytes_ne_panic _)
  | ok r =>
    obtain ⟨h', m, e', _, f⟩ := parse_ok v e
    rw [e']
    exact good_addMsg (good_fresh g f) m f.header

theorem valid_shorter {a : List Bytes} {s : Slice} (v : Valid a s) (n : Nat) :
    Valid a { s with len := min n s.len } := by
  refine ⟨v.1, ?_⟩
  have := v.2
  simp only
  omega

theorem good_buffer {h : Heap} (g : Good h) (bs : Bytes) : Good (h.step (.buffer bs)) :=
  good_addVar (good_fill (good_make g bs.length) _ _) _ ((valid_make h _).grows (grows_fill _ _ _))

theorem good_step {h : Heap} (g : Good h) (op : Heap.HOp) : Good (h.step op) := by
  cases op with
  | buffer bs => exact good_buffer g bs
  | sub v lo hi =>
    simp only [Heap.step]
    cases hv : h.vars[v]? with
    | none => exact g
    | some s =>
      simp only
      split
      · rename_i hl
        have vs := g.vars s (List.mem_of_getElem? hv)
        exact good_addVar g _ ⟨vs.1, by simp only; omega⟩
      · exact g
  | write v i b =>
    simp only [Heap.step]
    cases hv : h.vars[v]? with
    | none => exact g
    | some s =>
      simp only
      cases e : h.put s i b with
      | ok h' => exact good_put g e
      | err _ => exact g
      | panic => exact g
  | newProp c => exact good_setCode (good_newProperty g) _ _
  | setCode p c => exact good_setCode g p c
  | setData p v =>
    simp only [Heap.step]
    cases hv : h.vars[v]? with
    | none => exact g
    | some s => exact good_setData g p s
  | getData p =>
    simp only [Heap.step]
    cases hv : h.props[p]? with
    | none => exact g
    | some q => exact good_addVar g _ (g.props q (List.mem_of_getElem? hv))
  | copyProp p => exact good_copyProperty g p
  | newMsg =>
    refine good_addMsg (good_newMessage g) _ ?_
    rw [newMessage_eq]
    simp [HeaderIn, more]
  | setTID m v | setSEOJ m v | setDEOJ m v =>
    simp only [Heap.step]
    cases hv : h.msgs[m]? with
    | none => exact g
    | some x => exact good_fill g _ _
  | setESV m e =>
    refine good_msgs g _ (fun x hx => ?_)
    rcases mem_modify hx with hx | ⟨y, hy, rfl⟩
    · exact g.msgs x hx
    · exact g.msgs y hy
  | setOPC m n =>
    simp only [Heap.step]
    cases hv : h.msgs[m]? with
    | none => exact g
    | some x =>
      have g' : Good (h.setOPC x n).1 := good_newProperties _ g
      refine good_msgs g' _ (fun y hy => ?_)
      rcases List.mem_or_eq_of_mem_set hy with hy | rfl
      · exact g'.msgs y hy
      · refine HeaderIn.mono (g.msgs x (List.mem_of_getElem? hv)) ?_
        show h.arrays.length ≤ (h.newProperties (BitVec.ofInt 8 n).toNat).1.arrays.length
        rw [newProperties_eq]
        simp
  | addProp m p =>
    simp only [Heap.step]
    split
    · refine good_msgs g _ (fun x hx => ?_)
      rcases mem_modify hx with hx | ⟨y, hy, rfl⟩
      · exact g.msgs x hx
      · exact g.msgs y hy
    · exact g
  | msgBytes m =>
    simp only [Heap.step]
    cases hv : h.msgs[m]? with
    | none => exact g
    | some x =>
      simp only
      cases (h.message x).bytesRes with
      | ok bs => exact good_buffer g bs
      | err _ => exact g
      | panic => exact g
  | parse v =>
    simp only [Heap.step]
    cases hv : h.vars[v]? with
    | none => exact g
    | some s => exact good_addParsed g s (g.vars s (List.mem_of_getElem? hv))
  | receive d =>
    exact good_addParsed (good_fill g _ d) _ (valid_shorter (good_fill g _ d).sock _)

theorem good_init : Good Heap.init := by
  refine ⟨fun v hv => (by cases hv), ?_, fun q hq => (by cases hq), fun q hq => (by cases hq)⟩
  refine ⟨by decide, ?_⟩
  show 0 + maxPacketSize ≤ (List.replicate maxPacketSize (0 : Byte)).length
  simp

theorem good_run (ops : List Heap.HOp) : ∀ {h : Heap}, Good h → Good (h.run ops) := by
  induction ops with
  | nil => intro h g; exact g
  | cons op ops ih => intro h g; exact ih (good_step g op)

/-! ## What is owned after an operation -/

theorem own_setData {h : Heap} (g : Good h) {s : Slice} (v : Valid h.arrays s) {p : Nat}
    (hp : p < h.props.length) :
    Own (fun a => a = h.arrays.length) (fun x => x = p) none (h.setData p s) := by
  rw [setData_eq v]
  refine ⟨fun x hx => ?_, ?_, fun q x hx hq => ?_, fun m x hx _ => ?_, fun a ha => ?_, fun x hx => ?_,
    fun m hm => (by cases hm)⟩
  · have := (g.vars x hx).1; omega
  · have := g.sock.1; simp only; omega
  · simp only at hx hq
    rw [List.getElem?_modify] at hx
    have : p ≠ q := fun e => hq e.symm
    simp only [if_neg this] at hx
    cases hy : h.props[q]? with
    | none => rw [hy] at hx; cases hx
    | some y =>
      rw [hy] at hx; cases hx
      have := (g.props y (List.mem_of_getElem? hy)).1
      simp only; omega
  · obtain ⟨h1, h2, h3⟩ := g.msgs x (List.mem_of_getElem? hx)
    omega
  · simp [ha]
  · simpa [hx] using hp

theorem own_parsed {h h' : Heap} {m : HMsg} (g : Good h) (f : Fresh h h' m) :
    Own (fun a => h.arrays.length ≤ a ∧ a < h'.arrays.length) (fun p => some p ∈ m.ep) (some h.msgs.length)
      { h' with msgs := h'.msgs ++ [m] } := by
  obtain ⟨qs, hq, hf⟩ := f.props
  refine ⟨fun x hx => ?_, ?_, fun q x hx hq' => ?_, fun i x hx hi => ?_, fun a ha => ha.2, fun x hx => ?_,
    fun i hi => ?_⟩
  · have := (g.vars x (f.vars ▸ hx)).1; omega
  · have := g.sock.1; simp only [f.sock]; omega
  · simp only at hx
    rw [hq] at hx
    by_cases hl : q < h.props.length
    · rw [List.getElem?_append_left hl] at hx
      have := (g.props x (List.mem_of_getElem? hx)).1
      omega
    · refine absurd (f.all q (by omega) ?_) hq'
      rw [hq]
      exact (List.getElem?_eq_some_iff.mp hx).1
  · simp only at hx
    rw [f.msgs] at hx
    have hne : i ≠ h.msgs.length := fun e => hi (by rw [e])
    by_cases hl : i < h.msgs.length
    · rw [List.getElem?_append_left hl] at hx
      obtain ⟨h1, h2, h3⟩ := g.msgs x (List.mem_of_getElem? hx)
      omega
    · rw [List.getElem?_eq_none (by simp; omega)] at hx
      cases hx
  · obtain ⟨p, hp, _, h2⟩ := f.ep _ hx
    cases hp; exact h2
  · cases hi; simp [f.msgs]

/-- A message whose header and properties are kept shows the same. -/
theorem message_keeps {A P : Nat → Prop} {M : Option Nat} {h h' : Heap} (k : Keeps A P M h h') {m : HMsg}
    (ht : A m.tid.arr) (hs : A m.seoj.arr) (hd : A m.deoj.arr) (hp : ∀ p, some p ∈ m.ep → P p)
    (hq : ∀ p q, some p ∈ m.ep → h.props[p]? = some q → A q.data.arr) : h'.message m = h.message m := by
  unfold Heap.message
  rw [bytes_congr (k.arrays _ ht), bytes_congr (k.arrays _ hs), bytes_congr (k.arrays _ hd)]
  refine congrArg (fun x => Message.mk _ _ _ _ _ _ _ x _ _ _) ?_
  apply List.map_congr_left
  intro r hr
  cases r with
  | none => rfl
  | some p =>
    simp only [Option.bind_some, Heap.propAt]
    rw [k.props p (hp p hr)]
    cases hx : h.props[p]? with
    | none => rfl
    | some q => simp only [Option.map_some]; rw [bytes_congr (k.arrays _ (hq p q hr hx))]

theorem parsed_kept {h h' : Heap} {m : HMsg} (g : Good h) (f : Fresh h h' m) (ops : List Heap.HOp)
    (ha : ∀ op ∈ ops, Avoids (fun p => some p ∈ m.ep) (some h.msgs.length) op) :
    (Heap.run { h' with msgs := h'.msgs ++ [m] } ops).msgs[h.msgs.length]? = some m ∧
      (Heap.run { h' with msgs := h'.msgs ++ [m] } ops).message m = h'.message m := by
  have k := keeps_run ops (own_parsed g f) ha
  refine ⟨?_, ?_⟩
  · rw [k.msgs _ rfl]
    simp [f.msgs]
  · have := f.header
    refine (message_keeps k ⟨f.tid, this.1⟩ ⟨f.seoj, this.2.1⟩ ⟨f.deoj, this.2.2⟩ (fun _ hp => hp) ?_)
    intro p q hp hx
    obtain ⟨p', e, h1, h2⟩ := f.ep _ hp
    cases e
    obtain ⟨qs, hqs, hf⟩ := f.props
    simp only at hx
    rw [hqs, List.getElem?_append_right h1] at hx
    have := hf q (List.mem_of_getElem? hx)
    exact ⟨this.1, this.2.1⟩

theorem bytes_fill {h : Heap} {s : Slice} (v : Valid h.arrays s) (bs : Bytes) :
    (h.fill s bs).bytes { s with len := min bs.length s.len } = bs.take s.len := by
  unfold Heap.bytes Heap.fill
  simp only
  rw [List.getD_eq_getElem?_getD, List.getElem?_modify]
  simp only [if_pos]
  have hv := v.2
  rw [List.getD_eq_getElem?_getD] at hv
  rw [List.getElem?_eq_getElem v.1] at hv ⊢
  simp only [Option.getD_some, Option.map_eq_map, Option.map_some] at hv ⊢
  generalize h.arrays[s.arr]'v.1 = a at hv
  rw [List.append_assoc, List.drop_append_of_le_length (by simp; omega), List.drop_eq_nil_of_le (by simp; omega),
    List.nil_append, List.take_append_of_le_length (by simp; omega), List.take_of_length_le (by simp; omega)]

theorem sock_addParsed {h : Heap} (s : Slice) (v : Valid h.arrays s) :
    (h.addParsed (h.newMessageWithBytes s)).sock = h.sock := by
  cases e : Message.newWithBytes (h.bytes s) with
  | err _ => rw [parse_err v e]; rfl
  | panic => exact absurd e (newWithBytes_ne_panic _)
  | ok r =>
    obtain ⟨h', m, e', _, f⟩ := parse_ok v e
    rw [e']
    exact f.sock

theorem sock_step {h : Heap} (g : Good h) (op : Heap.HOp) : (h.step op).sock = h.sock := by
  cases op with
  | buffer bs => rfl
  | sub v lo hi => simp only [Heap.step]; split <;> (try split) <;> rfl
  | write v i b =>
    simp only [Heap.step]
    split
    · rfl
    · split
      · rename_i e; exact (grows_put e).2.2.1
      · rfl
  | newProp c => rfl
  | setCode p c => rfl
  | setData p v => simp only [Heap.step]; split <;> rfl
  | getData p => simp only [Heap.step]; split <;> rfl
  | copyProp p => simp only [Heap.step, Heap.copyProperty]; split <;> rfl
  | newMsg => rfl
  | setTID m v | setSEOJ m v | setDEOJ m v => simp only [Heap.step]; split <;> rfl
  | setESV m e => rfl
  | setOPC m n =>
    simp only [Heap.step]
    split
    · rfl
    · show (h.newProperties (BitVec.ofInt 8 n).toNat).1.sock = _
      rw [newProperties_eq]
  | addProp m p => simp only [Heap.step]; split <;> rfl
  | msgBytes m => simp only [Heap.step]; split <;> (try split) <;> rfl
  | parse v =>
    simp only [Heap.step]
    cases hv : h.vars[v]? with
    | none => rfl
    | some s => exact sock_addParsed s (g.vars s (List.mem_of_getElem? hv))
  | receive d => exact sock_addParsed (h := h.fill h.sock d) _ (valid_shorter (good_fill g _ d).sock _)

theorem sock_run (ops : List Heap.HOp) : ∀ {h : Heap}, Good h → (h.run ops).sock = h.sock := by
  induction ops with
  | nil => intro h _; rfl
  | cons op ops ih => intro h g; exact (ih (good_step g op)).trans (sock_step g op)

end Verif.Lemmas.Mem
