import Verif.Model.Heap
import Verif.Lemmas.Parser
import Verif.Spec.Heap

/-! Helper lemmas about the heap. -/

namespace Verif.Lemmas.Mem
open Verif Model Spec Lemmas

/-! ## What is kept by an operation that does not concern it -/

/-- The arrays in `A`, the properties in `P` and the message `M` are not reached from anywhere else. -/
structure Own (A P : Nat → Prop) (M : Option Nat) (h : Heap) : Prop where
  vars : ∀ v ∈ h.vars, ¬ A v.arr
  sock : ¬ A h.sock.arr
  props : ∀ q x, h.props[q]? = some x → ¬ P q → ¬ A x.data.arr
  msgs : ∀ m x, h.msgs[m]? = some x → M ≠ some m → ¬ A x.tid.arr ∧ ¬ A x.seoj.arr ∧ ¬ A x.deoj.arr
  arrLt : ∀ a, A a → a < h.arrays.length
  propLt : ∀ p, P p → p < h.props.length
  msgLt : ∀ m, M = some m → m < h.msgs.length

/-- They are the same in both heaps, and still not reached from elsewhere. -/
structure Keeps (A P : Nat → Prop) (M : Option Nat) (h h' : Heap) : Prop where
  own : Own A P M h'
  arrays : ∀ a : Nat, A a → h'.arrays[a]? = h.arrays[a]?
  props : ∀ p : Nat, P p → h'.props[p]? = h.props[p]?
  msgs : ∀ m : Nat, M = some m → h'.msgs[m]? = h.msgs[m]?

variable {A P : Nat → Prop} {M : Option Nat} {h h' h'' : Heap}

theorem Keeps.refl (o : Own A P M h) : Keeps A P M h h := ⟨o, fun _ _ => rfl, fun _ _ => rfl, fun _ _ => rfl⟩

theorem Keeps.trans (k : Keeps A P M h h') (k' : Keeps A P M h' h'') : Keeps A P M h h'' :=
  ⟨k'.own, fun a ha => (k'.arrays a ha).trans (k.arrays a ha), fun p hp => (k'.props p hp).trans (k.props p hp),
    fun m hm => (k'.msgs m hm).trans (k.msgs m hm)⟩

theorem keeps_arrays (o : Own A P M h) (f : Bytes → Bytes) (a : Nat) (ha : ¬ A a) :
    Keeps A P M h { h with arrays := h.arrays.modify a f } := by
  refine ⟨⟨o.vars, o.sock, o.props, o.msgs, fun b hb => by simpa using o.arrLt b hb, o.propLt, o.msgLt⟩,
    fun b hb => ?_, fun _ _ => rfl, fun _ _ => rfl⟩
  show (h.arrays.modify a f)[b]? = _
  rw [List.getElem?_modify]
  have : a ≠ b := fun e => ha (e ▸ hb)
  simp [this]

theorem keeps_make (o : Own A P M h) (n : Nat) : Keeps A P M h (h.make n).1 ∧ ¬ A (h.make n).2.arr := by
  refine ⟨⟨⟨o.vars, o.sock, o.props, o.msgs, fun b hb => ?_, o.propLt, o.msgLt⟩, fun b hb => ?_, fun _ _ => rfl,
    fun _ _ => rfl⟩, fun hA => ?_⟩
  · have := o.arrLt b hb
    show b < (h.arrays ++ [_]).length
    rw [List.length_append]; omega
  · exact List.getElem?_append_left (o.arrLt b hb)
  · have := o.arrLt _ hA
    exact absurd this (Nat.lt_irrefl _)

theorem keeps_fill (o : Own A P M h) (s : Slice) (bs : Bytes) (hs : ¬ A s.arr) :
    Keeps A P M h (h.fill s bs) := keeps_arrays o _ _ hs

theorem keeps_put (o : Own A P M h) (s : Slice) (i : Nat) (b : Byte) (hs : ¬ A s.arr)
    (e : h.put s i b = .ok h') : Keeps A P M h h' := by
  unfold Heap.put at e
  split at e
  · cases e; exact keeps_arrays o _ _ hs
  · cases e

theorem keeps_props (o : Own A P M h) (f : HProp → HProp) (p : Nat) (hp : ¬ P p)
    (hf : ∀ x, h.props[p]? = some x → ¬ A (f x).data.arr) :
    Keeps A P M h { h with props := h.props.modify p f } := by
  refine ⟨⟨o.vars, o.sock, fun q x hx hq => ?_, o.msgs, o.arrLt, fun b hb => by simpa using o.propLt b hb,
    o.msgLt⟩, fun _ _ => rfl, fun b hb => ?_, fun _ _ => rfl⟩
  · change (h.props.modify p f)[q]? = some x at hx
    rw [List.getElem?_modify] at hx
    by_cases e : p = q
    · subst e
      simp only [if_pos] at hx
      cases hq' : h.props[p]? with
      | none => rw [hq'] at hx; cases hx
      | some y => rw [hq'] at hx; cases hx; exact hf y hq'
    · simp only [if_neg e, id_map'] at hx
      refine o.props q x ?_ hq
      simpa using hx
  · show (h.props.modify p f)[b]? = _
    rw [List.getElem?_modify]
    have : p ≠ b := fun e => hp (e ▸ hb)
    simp [this]

theorem keeps_addProp (o : Own A P M h) (x : HProp) (hx : ¬ A x.data.arr) :
    Keeps A P M h { h with props := h.props ++ [x] } ∧ ¬ P h.props.length := by
  refine ⟨⟨⟨o.vars, o.sock, fun q y hy hq => ?_, o.msgs, o.arrLt, fun b hb => ?_, o.msgLt⟩, fun _ _ => rfl,
    fun b hb => List.getElem?_append_left (o.propLt b hb), fun _ _ => rfl⟩, fun hp => ?_⟩
  · change (h.props ++ [x])[q]? = some y at hy
    by_cases hl : q < h.props.length
    · rw [List.getElem?_append_left hl] at hy; exact o.props q y hy hq
    · rw [List.getElem?_append_right (by omega)] at hy
      have : y ∈ [x] := List.mem_of_getElem? hy
      rw [List.mem_singleton.mp this]; exact hx
  · have := o.propLt b hb
    show b < (h.props ++ [x]).length
    rw [List.length_append]; omega
  · exact absurd (o.propLt _ hp) (Nat.lt_irrefl _)

theorem keeps_newProperty (o : Own A P M h) : Keeps A P M h h.newProperty.1 ∧ ¬ P h.newProperty.2 := by
  have k := keeps_make o 0
  have k' := keeps_addProp k.1.own ⟨0, (h.make 0).2⟩ k.2
  exact ⟨k.1.trans k'.1, k'.2⟩

theorem keeps_setCode (o : Own A P M h) (p : Nat) (hp : ¬ P p) (c : Byte) : Keeps A P M h (h.setCode p c) :=
  keeps_props o _ p hp (fun x hx => o.props p x hx hp)

theorem keeps_setData (o : Own A P M h) (p : Nat) (hp : ¬ P p) (s : Slice) : Keeps A P M h (h.setData p s) := by
  have k := keeps_make o s.len
  have k' := keeps_fill k.1.own (h.make s.len).2 ((h.make s.len).1.bytes s) k.2
  exact (k.1.trans k').trans (keeps_props k'.own _ p hp (fun _ _ => k.2))

theorem keeps_copyProperty (o : Own A P M h) (p : Nat) : Keeps A P M h (h.copyProperty p).1 := by
  unfold Heap.copyProperty
  cases h.props[p]? with
  | none => exact Keeps.refl o
  | some q =>
    have k := keeps_newProperty o
    have k1 := keeps_setCode k.1.own h.newProperty.2 k.2 q.code
    exact (k.1.trans k1).trans (keeps_setData k1.own _ k.2 _)

theorem keeps_newMessage (o : Own A P M h) : Keeps A P M h h.newMessage.1 ∧
    ¬ A h.newMessage.2.tid.arr ∧ ¬ A h.newMessage.2.seoj.arr ∧ ¬ A h.newMessage.2.deoj.arr := by
  have k1 := keeps_make o tidSize
  have k2 := keeps_make k1.1.own eojSize
  have k3 := keeps_make k2.1.own eojSize
  exact ⟨(k1.1.trans k2.1).trans k3.1, k1.2, k2.2, k3.2⟩

theorem keeps_newProperties (k : Nat) : ∀ {h : Heap}, Own A P M h →
    Keeps A P M h (h.newProperties k).1 ∧ ∀ r ∈ (h.newProperties k).2, ∀ p, r = some p → ¬ P p := by
  induction k with
  | zero => intro h o; exact ⟨Keeps.refl o, fun r hr => by cases hr⟩
  | succ k ih =>
    intro h o
    have k1 := keeps_newProperty o
    have k2 := ih k1.1.own
    refine ⟨k1.1.trans k2.1, fun r hr p hp => ?_⟩
    rcases List.mem_cons.mp hr with rfl | hr
    · cases hp; exact k1.2
    · exact k2.2 r hr p hp

theorem keeps_setOPC (o : Own A P M h) (m : HMsg) (n : Int) : Keeps A P M h (h.setOPC m n).1 ∧
    (∀ r ∈ (h.setOPC m n).2.ep, ∀ p, r = some p → ¬ P p) ∧
    (h.setOPC m n).2.tid = m.tid ∧ (h.setOPC m n).2.seoj = m.seoj ∧ (h.setOPC m n).2.deoj = m.deoj := by
  have k := keeps_newProperties (A := A) (P := P) (M := M) (BitVec.ofInt 8 n).toNat o
  exact ⟨k.1, k.2, rfl, rfl, rfl⟩

theorem property_mem {ep : List (Option Nat)} {n p : Nat} (e : Heap.property ep n = some p) : some p ∈ ep := by
  unfold Heap.property at e
  split at e
  · cases e
  · exact List.mem_of_getElem? (Option.join_eq_some_iff.mp e)

theorem keeps_parsePropertyStep (o : Own A P M h) (ep : List (Option Nat))
    (hep : ∀ r ∈ ep, ∀ p, r = some p → ¬ P p) (data : Slice) (n off off' : Nat)
    (e : Heap.parsePropertyStep ep data n (h, off) = .ok (h', off')) : Keeps A P M h h' := by
  unfold Heap.parsePropertyStep at e
  simp only at e
  cases hp : Heap.property ep n with
  | none => rw [hp] at e; cases e; exact Keeps.refl o
  | some p =>
    have hP : ¬ P p := hep _ (property_mem hp) p rfl
    rw [hp] at e
    simp only at e
    split at e
    · cases e; exact Keeps.refl o
    · obtain ⟨b, _, e⟩ := Res.bind_eq_ok.mp e
      have k := keeps_setCode o p hP b
      split at e
      · cases e; exact k
      · obtain ⟨b', _, e⟩ := Res.bind_eq_ok.mp e
        split at e
        · cases e; exact k
        · obtain ⟨s, _, e⟩ := Res.bind_eq_ok.mp e
          cases e
          exact k.trans (keeps_setData k.own p hP s)

theorem keeps_loop (ep : List (Option Nat)) (hep : ∀ r ∈ ep, ∀ p, r = some p → ¬ P p) (data : Slice)
    (cnt : Nat) : ∀ {h h' : Heap} (i off off' : Nat), Own A P M h →
    forFrom (Heap.parsePropertyStep ep data) cnt i (h, off) = .ok (h', off') → Keeps A P M h h' := by
  induction cnt with
  | zero => intro h h' i off off' o e; cases e; exact Keeps.refl o
  | succ cnt ih =>
    intro h h' i off off' o e
    obtain ⟨⟨h1, off1⟩, e1, e2⟩ := Res.bind_eq_ok.mp e
    have k := keeps_parsePropertyStep o ep hep data i off off1 e1
    exact k.trans (ih _ _ _ k.own e2)

theorem keeps_newMessageWithBytes (o : Own A P M h) (s : Slice) (m : HMsg)
    (e : h.newMessageWithBytes s = .ok (h', m)) : Keeps A P M h h' ∧
      ¬ A m.tid.arr ∧ ¬ A m.seoj.arr ∧ ¬ A m.deoj.arr := by
  obtain ⟨k0, ht, hs, hd⟩ := keeps_newMessage o
  unfold Heap.newMessageWithBytes at e
  simp only at e
  generalize h.newMessage = hm at e k0 ht hs hd
  obtain ⟨h0, m0⟩ := hm
  simp only at e k0 ht hs hd
  obtain ⟨h1, e1, e⟩ := Res.bind_eq_ok.mp e
  have k1 : Keeps A P M h0 h1 := by
    unfold Heap.parseFrameHeaderBytes at e1
    split at e1
    · cases e1
    · obtain ⟨b, _, e1⟩ := Res.bind_eq_ok.mp e1
      split at e1
      · cases e1
      · obtain ⟨b, _, e1⟩ := Res.bind_eq_ok.mp e1
        split at e1
        · cases e1
        · obtain ⟨b, _, e1⟩ := Res.bind_eq_ok.mp e1
          obtain ⟨hx, ex, e1⟩ := Res.bind_eq_ok.mp e1
          obtain ⟨b', _, e1⟩ := Res.bind_eq_ok.mp e1
          have kx := keeps_put k0.own _ _ _ ht ex
          exact kx.trans (keeps_put kx.own _ _ _ ht e1)
  obtain ⟨s1, _, e⟩ := Res.bind_eq_ok.mp e
  obtain ⟨⟨h2, m2⟩, e2, e⟩ := Res.bind_eq_ok.mp e
  have k2 : Keeps A P M h1 h2 ∧ (∀ r ∈ m2.ep, ∀ p, r = some p → ¬ P p) ∧
      m2.tid = m0.tid ∧ m2.seoj = m0.seoj ∧ m2.deoj = m0.deoj := by
    unfold Heap.parseFormat1HeaderBytes at e2
    split at e2
    · cases e2
    · obtain ⟨_, _, e2⟩ := Res.bind_eq_ok.mp e2
      obtain ⟨ha, ea, e2⟩ := Res.bind_eq_ok.mp e2
      obtain ⟨_, _, e2⟩ := Res.bind_eq_ok.mp e2
      obtain ⟨hb, eb, e2⟩ := Res.bind_eq_ok.mp e2
      obtain ⟨_, _, e2⟩ := Res.bind_eq_ok.mp e2
      obtain ⟨hc, ec, e2⟩ := Res.bind_eq_ok.mp e2
      obtain ⟨_, _, e2⟩ := Res.bind_eq_ok.mp e2
      obtain ⟨hd', ed, e2⟩ := Res.bind_eq_ok.mp e2
      obtain ⟨_, _, e2⟩ := Res.bind_eq_ok.mp e2
      obtain ⟨he, ee, e2⟩ := Res.bind_eq_ok.mp e2
      obtain ⟨_, _, e2⟩ := Res.bind_eq_ok.mp e2
      obtain ⟨hf, ef, e2⟩ := Res.bind_eq_ok.mp e2
      obtain ⟨esv, _, e2⟩ := Res.bind_eq_ok.mp e2
      obtain ⟨opc, _, e2⟩ := Res.bind_eq_ok.mp e2
      have ka := keeps_put k1.own _ _ _ hs ea
      have kb := ka.trans (keeps_put ka.own _ _ _ hs eb)
      have kc := kb.trans (keeps_put kb.own _ _ _ hs ec)
      have kd := kc.trans (keeps_put kc.own _ _ _ hd ed)
      have ke := kd.trans (keeps_put kd.own _ _ _ hd ee)
      have kf := ke.trans (keeps_put ke.own _ _ _ hd ef)
      have ks := keeps_setOPC kf.own { m0 with esv := esv } opc.toNat
      rw [Res.ok.inj e2] at ks
      exact ⟨kf.trans ks.1, ks.2⟩
  obtain ⟨rest, _, e⟩ := Res.bind_eq_ok.mp e
  obtain ⟨⟨h3, off⟩, e3, e⟩ := Res.bind_eq_ok.mp e
  cases e
  have k3 := keeps_loop m2.ep k2.2.1 rest _ _ _ _ k2.1.own e3
  obtain ⟨k2, _, et, es, ed⟩ := k2
  exact ⟨(k0.trans k1).trans (k2.trans k3), et ▸ ht, es ▸ hs, ed ▸ hd⟩

theorem keeps_addVar (o : Own A P M h) (s : Slice) (hs : ¬ A s.arr) :
    Keeps A P M h { h with vars := h.vars ++ [s] } := by
  refine ⟨⟨fun v hv => ?_, o.sock, o.props, o.msgs, o.arrLt, o.propLt, o.msgLt⟩, fun _ _ => rfl, fun _ _ => rfl,
    fun _ _ => rfl⟩
  rcases List.mem_append.mp hv with hv | hv
  · exact o.vars v hv
  · rw [List.mem_singleton.mp hv]; exact hs

theorem keeps_addMsg (o : Own A P M h) (m : HMsg) (ht : ¬ A m.tid.arr) (hs : ¬ A m.seoj.arr)
    (hd : ¬ A m.deoj.arr) : Keeps A P M h { h with msgs := h.msgs ++ [m] } := by
  refine ⟨⟨o.vars, o.sock, o.props, fun i x hx hi => ?_, o.arrLt, o.propLt, fun i hi => ?_⟩, fun _ _ => rfl,
    fun _ _ => rfl, fun i hi => List.getElem?_append_left (o.msgLt i hi)⟩
  · change (h.msgs ++ [m])[i]? = some x at hx
    by_cases hl : i < h.msgs.length
    · rw [List.getElem?_append_left hl] at hx; exact o.msgs i x hx hi
    · rw [List.getElem?_append_right (by omega)] at hx
      have : x ∈ [m] := List.mem_of_getElem? hx
      rw [List.mem_singleton.mp this]; exact ⟨ht, hs, hd⟩
  · have := o.msgLt i hi
    show i < (h.msgs ++ [m]).length
    rw [List.length_append]; omega

theorem keeps_msgs (o : Own A P M h) (f : HMsg → HMsg) (m : Nat) (hm : M ≠ some m)
    (hf : ∀ x, (f x).tid = x.tid ∧ (f x).seoj = x.seoj ∧ (f x).deoj = x.deoj) :
    Keeps A P M h { h with msgs := h.msgs.modify m f } := by
  refine ⟨⟨o.vars, o.sock, o.props, fun i x hx hi => ?_, o.arrLt, o.propLt,
    fun i hi => by simpa using o.msgLt i hi⟩, fun _ _ => rfl, fun _ _ => rfl, fun i hi => ?_⟩
  · change (h.msgs.modify m f)[i]? = some x at hx
    rw [List.getElem?_modify] at hx
    by_cases e : m = i
    · subst e
      simp only [if_pos] at hx
      cases hq' : h.msgs[m]? with
      | none => rw [hq'] at hx; cases hx
      | some y =>
        rw [hq'] at hx; cases hx
        have := o.msgs m y hq' hi
        rwa [(hf y).1, (hf y).2.1, (hf y).2.2]
    · simp only [if_neg e, id_map'] at hx
      exact o.msgs i x hx hi
  · show (h.msgs.modify m f)[i]? = _
    rw [List.getElem?_modify]
    have : m ≠ i := fun e => hm (e ▸ hi)
    simp [this]

theorem keeps_addParsed (h1 : Heap) (k : Keeps A P M h h1) (s : Slice) :
    Keeps A P M h (h1.addParsed (h1.newMessageWithBytes s)) := by
  cases e : h1.newMessageWithBytes s with
  | err _ => exact k
  | panic => exact k
  | ok r =>
    obtain ⟨h2, m⟩ := r
    obtain ⟨k2, ht, hs, hd⟩ := keeps_newMessageWithBytes k.own s m e
    exact (k.trans k2).trans (keeps_addMsg k2.own m ht hs hd)

theorem keeps_buffer (o : Own A P M h) (bs : Bytes) : Keeps A P M h (h.step (.buffer bs)) := by
  have k := keeps_make o bs.length
  have k' := keeps_fill k.1.own (h.make bs.length).2 bs k.2
  exact (k.1.trans k').trans (keeps_addVar k'.own _ k.2)

theorem keeps_step (o : Own A P M h) (op : Heap.HOp) (ha : Avoids P M op) : Keeps A P M h (h.step op) := by
  cases op with
  | buffer bs => exact keeps_buffer o bs
  | sub v lo hi =>
    simp only [Heap.step]
    cases hv : h.vars[v]? with
    | none => exact Keeps.refl o
    | some s =>
      simp only
      split
      · exact keeps_addVar o _ (o.vars s (List.mem_of_getElem? hv))
      · exact Keeps.refl o
  | write v i b =>
    simp only [Heap.step]
    cases hv : h.vars[v]? with
    | none => exact Keeps.refl o
    | some s =>
      simp only
      cases e : h.put s i b with
      | ok h' => exact keeps_put o s i b (o.vars s (List.mem_of_getElem? hv)) e
      | err _ => exact Keeps.refl o
      | panic => exact Keeps.refl o
  | newProp c =>
    have k := keeps_newProperty o
    exact k.1.trans (keeps_setCode k.1.own _ k.2 c)
  | setCode p c => exact keeps_setCode o p ha c
  | setData p v =>
    simp only [Heap.step]
    cases hv : h.vars[v]? with
    | none => exact Keeps.refl o
    | some s => exact keeps_setData o p ha s
  | getData p =>
    simp only [Heap.step]
    cases hv : h.props[p]? with
    | none => exact Keeps.refl o
    | some q => exact keeps_addVar o _ (o.props p q hv ha)
  | copyProp p => exact keeps_copyProperty o p
  | newMsg =>
    obtain ⟨k, ht, hs, hd⟩ := keeps_newMessage o
    exact k.trans (keeps_addMsg k.own _ ht hs hd)
  | setTID m v =>
    simp only [Heap.step]
    cases hv : h.msgs[m]? with
    | none => exact Keeps.refl o
    | some x => exact keeps_fill o _ _ (o.msgs m x hv ha).1
  | setSEOJ m v =>
    simp only [Heap.step]
    cases hv : h.msgs[m]? with
    | none => exact Keeps.refl o
    | some x => exact keeps_fill o _ _ (o.msgs m x hv ha).2.1
  | setDEOJ m v =>
    simp only [Heap.step]
    cases hv : h.msgs[m]? with
    | none => exact Keeps.refl o
    | some x => exact keeps_fill o _ _ (o.msgs m x hv ha).2.2
  | setESV m e => exact keeps_msgs o _ m ha (fun _ => ⟨rfl, rfl, rfl⟩)
  | setOPC m n =>
    simp only [Heap.step]
    cases hv : h.msgs[m]? with
    | none => exact Keeps.refl o
    | some x =>
      simp only
      obtain ⟨k, _, et, es, ed⟩ := keeps_setOPC o x n
      have hx := o.msgs m x hv ha
      refine k.trans ?_
      have o' := k.own
      refine ⟨⟨o'.vars, o'.sock, o'.props, fun i y hy hi => ?_, o'.arrLt, o'.propLt,
        fun i hi => by simpa using o'.msgLt i hi⟩, fun _ _ => rfl, fun _ _ => rfl, fun i hi => ?_⟩
      · change ((h.setOPC x n).1.msgs.set m (h.setOPC x n).2)[i]? = some y at hy
        by_cases e : m = i
        · subst e
          rw [List.getElem?_set] at hy
          simp only [if_pos] at hy
          split at hy
          · cases hy
            rw [et, es, ed]
            exact hx
          · cases hy
        · rw [List.getElem?_set_ne e] at hy
          exact o'.msgs i y hy hi
      · exact List.getElem?_set_ne (fun e => ha (by rw [e]; exact hi))
  | addProp m p =>
    simp only [Heap.step]
    split
    · exact keeps_msgs o _ m ha (fun _ => ⟨rfl, rfl, rfl⟩)
    · exact Keeps.refl o
  | msgBytes m =>
    simp only [Heap.step]
    cases hv : h.msgs[m]? with
    | none => exact Keeps.refl o
    | some x =>
      simp only
      cases (h.message x).bytesRes with
      | ok bs => exact keeps_buffer o bs
      | err _ => exact Keeps.refl o
      | panic => exact Keeps.refl o
  | parse v =>
    simp only [Heap.step]
    cases hv : h.vars[v]? with
    | none => exact Keeps.refl o
    | some s => exact keeps_addParsed h (Keeps.refl o) s
  | receive d => exact keeps_addParsed _ (keeps_fill o _ d o.sock) _

theorem keeps_run (ops : List Heap.HOp) : ∀ {h : Heap}, Own A P M h → (∀ op ∈ ops, Avoids P M op) →
    Keeps A P M h (h.run ops) := by
  induction ops with
  | nil => intro h o _; exact Keeps.refl o
  | cons op ops ih =>
    intro h o ha
    have k := keeps_step o op (ha op (by simp))
    exact k.trans (ih k.own (fun x hx => ha x (by simp [hx])))

end Verif.Lemmas.Mem
