import Verif.Lemmas.Parser

/-! Helper lemmas about the stream parser. -/

namespace Verif.Lemmas
open Verif Model Spec

theorem readFull_ok {σ : Type} {r : Reader σ} {s s' : σ} {sz : Nat} {bs : Bytes}
    (h : Message.readFull r s sz = .ok (s', bs)) :
    r.read s sz = (s', bs, none) ∧ bs.length = sz := by
  unfold Message.readFull at h
  have hle := r.le s sz
  split at h
  · rename_i s1 b1 heq
    rw [heq] at hle
    by_cases hl : b1.length < sz
    · simp [hl] at h
    · rw [if_neg hl] at h
      injection h with h
      injection h with h1 h2
      subst h1 h2
      exact ⟨heq, by simp at hle; omega⟩
  · cases h

/-- Success of the header reads. -/
theorem parseFrameHeader_ok {m m' : Message} {data : Bytes}
    (hw : m.tid.length = 2) (h : m.parseFrameHeaderBytes data = .ok m') (hl : data.length = 4) :
    ∃ t0 t1, data = [0x10, 0x81, t0, t1] ∧ m' = { m with tid := [t0, t1] } := by
  match data, hl with
  | [e1, e2, t0, t1], _ =>
  match ht : m.tid, hw with
  | [a, b], _ =>
  simp only [Message.parseFrameHeaderBytes, frameHeaderSize, rd, wr, ehd1Echonet, ehd2Format1, ht,
    List.getElem?_cons_zero, List.getElem?_cons_succ, Res.ok_bind] at h
  simp at h
  by_cases h1 : e1 = 16#8
  · by_cases h2 : e2 = 129#8
    · simp [h1, h2] at h
      exact ⟨t0, t1, by simp [h1, h2], h.symm⟩
    · simp [h1, h2] at h
  · simp [h1] at h

theorem parseFormat1Header_ok {m m' : Message} {data : Bytes}
    (hs : m.seoj.length = 3) (hd : m.deoj.length = 3)
    (h : m.parseFormat1HeaderBytes data = .ok m') (hl : data.length = 8) :
    ∃ s0 s1 s2 d0 d1 d2 e o, data = [s0, s1, s2, d0, d1, d2, e, o] ∧
      m' = { m with
        seoj := [s0, s1, s2], deoj := [d0, d1, d2], esv := e, opc := o,
        ep := List.replicate o.toNat (some PProp.new) } := by
  match data, hl with
  | [s0, s1, s2, d0, d1, d2, e, o], _ =>
  match hs' : m.seoj, hs with
  | [_, _, _], _ =>
  match hd' : m.deoj, hd with
  | [_, _, _], _ =>
  refine ⟨s0, s1, s2, d0, d1, d2, e, o, rfl, ?_⟩
  simp [Message.parseFormat1HeaderBytes, format1HeaderSize, rd, wr, hs', hd', Message.setOPC] at h
  exact h.symm

/-- The property loop on success: the properties read, and the bytes used according to any
log `lg` of the bytes delivered that the reader state may carry. -/
theorem readLoop {σ : Type} (r : Reader σ) :
    ∀ (cnt : Nat) (done : List (Option PProp)) (s : σ) (s' : σ) (ep' : List (Option PProp)),
    forFrom (Message.parseFormat1PropertyReaderStep r) cnt done.length
      (s, done ++ List.replicate cnt (some PProp.new)) = .ok (s', ep') →
    ∃ ps : List PProp, ep' = done ++ ps.map some ∧ ps.length = cnt ∧
      (∀ p ∈ ps, p.data.length < 256) ∧
      (∀ lg : σ → Bytes, (∀ s n, lg (r.read s n).1 = lg s ++ (r.read s n).2.1) →
        lg s' = lg s ++ ps.flatMap encProp) := by
  intro cnt
  induction cnt with
  | zero =>
    intro done s s' ep' h
    simp [forFrom] at h
    exact ⟨[], by simp [h.2], rfl, by simp, by intro lg _; simp [h.1]⟩
  | succ c ih =>
    intro done s s' ep' h
    simp only [forFrom, Message.parseFormat1PropertyReaderStep] at h
    have hget : Message.propAt (done ++ List.replicate (c + 1) (some PProp.new)) done.length
        = Res.ok (some PProp.new) := by
      rw [propAt_nat _ _ (by simp)]
      simp
    rw [hget] at h
    simp only [Res.ok_bind] at h
    obtain ⟨st1, hstep, h⟩ := Res.bind_eq_ok.mp h
    obtain ⟨⟨s1, hdr⟩, hrd1, hstep⟩ := Res.bind_eq_ok.mp hstep
    obtain ⟨e1, l1⟩ := readFull_ok hrd1
    match hdr, l1 with
    | [c0, l0], _ =>
    simp only [rd, List.getElem?_cons_zero, List.getElem?_cons_succ, Res.ok_bind] at hstep
    obtain ⟨⟨s2, dat⟩, hrd2, hstep⟩ := Res.bind_eq_ok.mp hstep
    obtain ⟨e2, l2⟩ := readFull_ok hrd2
    injection hstep with hstep
    subst hstep
    have hset : ∀ p, (done ++ List.replicate (c + 1) (some PProp.new)).set done.length (some p)
        = (done ++ [some p]) ++ List.replicate c (some PProp.new) := by
      intro p; simp [List.replicate_succ]
    simp only [hset] at h
    have hl : done.length + 1 = (done ++ [some ((PProp.new.setCode c0).setData dat)]).length := by simp
    rw [hl] at h
    obtain ⟨ps, h1, h2, h3, h4⟩ := ih _ _ _ _ h
    refine ⟨(PProp.new.setCode c0).setData dat :: ps, by simp [h1], by simp [h2], ?_, ?_⟩
    · intro p hp
      rcases List.mem_cons.mp hp with rfl | hp
      · simp [PProp.setData, PProp.setCode, PProp.new, l2]
        exact l0.isLt
      · exact h3 p hp
    · intro lg hr
      have hs1 := hr s 2
      have hs2 := hr s1 l0.toNat
      rw [show format1PropertyHeaderSize = 2 from rfl] at e1
      rw [e1] at hs1
      rw [e2] at hs2
      rw [h4 lg hr]
      simp only at hs1 hs2
      rw [hs2, hs1]
      simp [encProp, PProp.setCode, PProp.setData, PProp.new, l2]

/-- The message a successful stream decoding yields. -/
theorem newWithReader_ok {σ : Type} {r : Reader σ} {s s' : σ} {m : Message}
    (h : Message.newWithReader r s = .ok (s', m)) :
    ∃ t0 t1 s0 s1 s2 d0 d1 d2 esv opc ps,
      m = { Message.new with
        tid := [t0, t1], seoj := [s0, s1, s2], deoj := [d0, d1, d2], esv := esv, opc := opc,
        ep := List.map some ps } ∧
      ps.length = opc.toNat ∧ (∀ p ∈ ps, p.data.length < 256) ∧
      (∀ lg : σ → Bytes, (∀ s n, lg (r.read s n).1 = lg s ++ (r.read s n).2.1) →
        lg s' = lg s ++ (0x10 :: 0x81 :: t0 :: t1 :: s0 :: s1 :: s2 :: d0 :: d1 :: d2 :: esv ::
          opc :: ps.flatMap encProp)) := by
  unfold Message.newWithReader Message.parseReader at h
  obtain ⟨⟨sa, fh⟩, hr1, h⟩ := Res.bind_eq_ok.mp h
  obtain ⟨e1, l1⟩ := readFull_ok hr1
  obtain ⟨m1, hm1, h⟩ := Res.bind_eq_ok.mp h
  obtain ⟨t0, t1, rfl, rfl⟩ := parseFrameHeader_ok rfl hm1 l1
  obtain ⟨⟨sb, gh⟩, hr2, h⟩ := Res.bind_eq_ok.mp h
  obtain ⟨e2, l2⟩ := readFull_ok hr2
  obtain ⟨m2, hm2, h⟩ := Res.bind_eq_ok.mp h
  obtain ⟨s0, s1, s2, d0, d1, d2, e, o, rfl, rfl⟩ := parseFormat1Header_ok rfl rfl hm2 l2
  unfold Message.parseFormat1PropertyReader at h
  obtain ⟨⟨sc, ep⟩, hl, h⟩ := Res.bind_eq_ok.mp h
  obtain ⟨ps, h1, h2, h3, h4⟩ := readLoop r o.toNat [] sb sc ep (by simpa [forRange] using hl)
  simp only [Res.ok.injEq, Prod.mk.injEq] at h
  obtain ⟨rfl, rfl⟩ := h
  refine ⟨t0, t1, s0, s1, s2, d0, d1, d2, e, o, ps, ?_, h2, h3, ?_⟩
  · simp [h1]
  · intro lg hr
    have hs1 := hr s frameHeaderSize
    have hs2 := hr sa format1HeaderSize
    rw [e1] at hs1
    rw [e2] at hs2
    simp only at hs1 hs2
    rw [h4 lg hr, hs2, hs1]
    simp

/-- The loop never panics, for any reader. -/
theorem readLoop_noPanic {σ : Type} (r : Reader σ) :
    ∀ (cnt : Nat) (done : List (Option PProp)) (s : σ),
    forFrom (Message.parseFormat1PropertyReaderStep r) cnt done.length
      (s, done ++ List.replicate cnt (some PProp.new)) ≠ .panic := by
  intro cnt
  induction cnt with
  | zero => intro done s h; simp [forFrom] at h
  | succ c ih =>
    intro done s h
    simp only [forFrom, Message.parseFormat1PropertyReaderStep] at h
    have hget : Message.propAt (done ++ List.replicate (c + 1) (some PProp.new)) done.length
        = Res.ok (some PProp.new) := by
      rw [propAt_nat _ _ (by simp)]
      simp
    rw [hget] at h
    simp only [Res.ok_bind] at h
    have hnp : ∀ s n, Message.readFull r s n ≠ .panic := by
      intro s n
      unfold Message.readFull
      split
      · split <;> simp
      · simp
    rcases Res.bind_eq_panic.mp h with h | ⟨st, h1, h⟩
    · rcases Res.bind_eq_panic.mp h with h | ⟨⟨s1, hdr⟩, hrd1, h⟩
      · exact hnp _ _ h
      · obtain ⟨_, l1⟩ := readFull_ok hrd1
        match hdr, l1 with
        | [c0, l0], _ =>
        simp only [rd, List.getElem?_cons_zero, List.getElem?_cons_succ, Res.ok_bind] at h
        rcases Res.bind_eq_panic.mp h with h | ⟨_, _, h⟩
        · exact hnp _ _ h
        · cases h
    · obtain ⟨⟨s1, hdr⟩, hrd1, h1⟩ := Res.bind_eq_ok.mp h1
      obtain ⟨_, l1⟩ := readFull_ok hrd1
      match hdr, l1 with
      | [c0, l0], _ =>
      simp only [rd, List.getElem?_cons_zero, List.getElem?_cons_succ, Res.ok_bind] at h1
      obtain ⟨⟨s2, dat⟩, hrd2, h1⟩ := Res.bind_eq_ok.mp h1
      injection h1 with h1
      subst h1
      have hset : ∀ p, (done ++ List.replicate (c + 1) (some PProp.new)).set done.length (some p)
          = (done ++ [some p]) ++ List.replicate c (some PProp.new) := by
        intro p; simp [List.replicate_succ]
      simp only [hset] at h
      have hl : done.length + 1 = (done ++ [some ((PProp.new.setCode c0).setData dat)]).length := by
        simp
      rw [hl] at h
      exact ih _ _ h

end Verif.Lemmas
