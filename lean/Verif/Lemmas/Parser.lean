import Verif.Lemmas.Message
import Verif.Spec.Lenient

/-! Helper lemmas about the byte parser. -/

namespace Verif.Lemmas
open Verif Model Spec

/-- Reading a wire property as a message property. -/
def ofWire (p : WireProp) : PProp := ⟨p.epc, p.edt⟩

theorem lenientProps_length (k : Nat) (bs : Bytes) : (lenientProps k bs).length = k := by
  induction k using Nat.strongRecOn generalizing bs with
  | _ k ih =>
    match k, bs with
    | 0, _ => rfl
    | k + 1, [] => simp [lenientProps, ih k]
    | k + 1, [c] => simp [lenientProps, ih k]
    | k + 1, c :: l :: rest =>
      simp only [lenientProps]
      split <;> simp [ih k]

theorem propLoop (data : Bytes) : ∀ (cnt : Nat) (done : List (Option PProp)) (off : Nat),
    off ≤ data.length →
    ∃ off', forFrom (Message.parseFormat1PropertyStep data) cnt done.length
      (done ++ List.replicate cnt (some PProp.new), off)
      = .ok (done ++ (lenientProps cnt (data.drop off)).map (some ∘ ofWire), off') := by
  intro cnt
  induction cnt with
  | zero => intro done off _; exact ⟨off, by simp [forFrom, lenientProps]⟩
  | succ c ih =>
    intro done off hoff
    have hget : Message.propAt (done ++ List.replicate (c + 1) (some PProp.new)) done.length
        = Res.ok (some PProp.new) := by
      rw [propAt_nat _ _ (by simp)]
      simp
    have hset : ∀ p, (done ++ List.replicate (c + 1) (some PProp.new)).set done.length (some p)
        = (done ++ [some p]) ++ List.replicate c (some PProp.new) := by
      intro p; simp [List.replicate_succ]
    -- continue the loop with one more finished property
    have cont : ∀ (p : WireProp) (off1 : Nat), off1 ≤ data.length →
        ∃ off', forFrom (Message.parseFormat1PropertyStep data) c (done.length + 1)
          ((done ++ [some (ofWire p)]) ++ List.replicate c (some PProp.new), off1)
          = .ok (done ++ (p :: lenientProps c (data.drop off1)).map (some ∘ ofWire), off') := by
      intro p off1 h1
      obtain ⟨off', h'⟩ := ih (done ++ [some (ofWire p)]) off1 h1
      refine ⟨off', ?_⟩
      rw [List.length_append, List.length_singleton] at h'
      rw [h']
      simp
    simp only [forFrom, Message.parseFormat1PropertyStep]
    rw [hget]
    simp only [Res.ok_bind]
    by_cases h0 : off = data.length
    · -- no byte left
      rw [if_pos (by omega)]
      simp only [Res.ok_bind]
      have hd : data.drop off = [] := by simp [h0]
      have := cont ⟨0, []⟩ off hoff
      rw [hd] at this ⊢
      simpa [lenientProps, ofWire, PProp.new, List.replicate_succ] using this
    · have hlt : off < data.length := by omega
      rw [if_neg (by omega), rd_ok data off hlt]
      simp only [Res.ok_bind, hset]
      by_cases h1 : off + 1 = data.length
      · rw [if_pos (by omega)]
        simp only [Res.ok_bind]
        have hd : data.drop off = [data[off]] := by
          rw [List.drop_eq_getElem_cons hlt, h1]; simp
        have hd1 : data.drop (off + 1) = [] := by simp [h1]
        have := cont ⟨data[off], []⟩ (off + 1) (by omega)
        rw [hd1] at this
        rw [hd]
        simpa [lenientProps, ofWire, PProp.new, PProp.setCode] using this
      · have hlt1 : off + 1 < data.length := by omega
        rw [if_neg (by omega), rd_ok data (off + 1) hlt1]
        simp only [Res.ok_bind]
        have hd : data.drop off = data[off] :: data[off + 1] :: data.drop (off + 1 + 1) := by
          rw [List.drop_eq_getElem_cons hlt, List.drop_eq_getElem_cons hlt1]
        rw [hd]
        simp only [lenientProps]
        by_cases h2 : data.length - (off + 1 + 1) < data[off + 1].toNat
        · rw [if_pos (by omega), if_pos (by simpa using h2)]
          simp only [Res.ok_bind]
          have := cont ⟨data[off], []⟩ (off + 1 + 1) (by omega)
          simpa [ofWire, PProp.new, PProp.setCode] using this
        · rw [if_neg (by omega), if_neg (by simpa using h2)]
          have hs : slice data (off + 1 + 1) (off + 1 + 1 + data[off + 1].toNat)
              = .ok ((data.drop (off + 1 + 1)).take data[off + 1].toNat) := by
            rw [slice, if_pos (by omega), List.drop_take]
            simp
          rw [hs]
          simp only [Res.ok_bind]
          have := cont ⟨data[off], (data.drop (off + 1 + 1)).take data[off + 1].toNat⟩
            (off + 1 + 1 + data[off + 1].toNat) (by omega)
          rw [List.drop_drop]
          simpa [ofWire, PProp.new, PProp.setCode, PProp.setData] using this

theorem parseProps_eq (m : Message) (data : Bytes)
    (h : m.ep = List.replicate m.opc.toNat (some PProp.new)) :
    m.parseFormat1PropertyBytes data =
      .ok { m with ep := (lenientProps m.opc.toNat data).map (some ∘ ofWire) } := by
  unfold Message.parseFormat1PropertyBytes
  obtain ⟨off', h'⟩ := propLoop data m.opc.toNat [] 0 (by omega)
  simp only [List.length_nil, List.nil_append, List.drop_zero] at h'
  rw [h, forRange, h']
  rfl

/-- The message obtained from the twelve header bytes and the rest. -/
def decoded (t0 t1 s0 s1 s2 d0 d1 d2 esv opc : Byte) (rest : Bytes) : Message where
  ehd1 := 0x10
  ehd2 := 0x81
  tid := [t0, t1]
  seoj := [s0, s1, s2]
  deoj := [d0, d1, d2]
  esv := esv
  opc := opc
  ep := (lenientProps opc.toNat rest).map (some ∘ ofWire)
  src := Message.new.src
  pktType := 0
  ifc := none

theorem ofInt_toNat (b : Byte) : BitVec.ofInt 8 (b.toNat : Int) = b := by
  apply BitVec.eq_of_toNat_eq
  have := b.isLt
  simp [BitVec.ofInt]
  omega

theorem newWithBytes_cons (t0 t1 s0 s1 s2 d0 d1 d2 esv opc : Byte) (rest : Bytes) :
    Message.newWithBytes (0x10 :: 0x81 :: t0 :: t1 :: s0 :: s1 :: s2 :: d0 :: d1 :: d2 :: esv ::
      opc :: rest) = .ok (decoded t0 t1 s0 s1 s2 d0 d1 d2 esv opc rest) := by
  have hf : Message.new.parseFrameHeaderBytes (0x10 :: 0x81 :: t0 :: t1 :: s0 :: s1 :: s2 :: d0 ::
      d1 :: d2 :: esv :: opc :: rest) = .ok { Message.new with tid := [t0, t1] } := by
    simp [Message.parseFrameHeaderBytes, frameHeaderSize, rd, wr, ehd1Echonet, ehd2Format1,
      Message.new, tidSize, List.replicate_succ]
  have h1 : Message.parseFormat1HeaderBytes { Message.new with tid := [t0, t1] }
      (s0 :: s1 :: s2 :: d0 :: d1 :: d2 :: esv :: opc :: rest) =
      .ok ({ Message.new with
        tid := [t0, t1], seoj := [s0, s1, s2], deoj := [d0, d1, d2], esv := esv }.setOPC opc.toNat) := by
    simp [Message.parseFormat1HeaderBytes, format1HeaderSize, rd, wr, Message.new,
      eojSize, List.replicate_succ]
  unfold Message.newWithBytes Message.parseBytes
  rw [hf, Res.ok_bind]
  have hs1 : sliceFrom (0x10 :: 0x81 :: t0 :: t1 :: s0 :: s1 :: s2 :: d0 ::
      d1 :: d2 :: esv :: opc :: rest) frameHeaderSize =
      .ok (s0 :: s1 :: s2 :: d0 :: d1 :: d2 :: esv :: opc :: rest) := by
    simp [sliceFrom, frameHeaderSize]
  have hs2 : sliceFrom (0x10 :: 0x81 :: t0 :: t1 :: s0 :: s1 :: s2 :: d0 ::
      d1 :: d2 :: esv :: opc :: rest) format1MinSize = .ok rest := by
    simp [sliceFrom, format1MinSize, frameHeaderSize, format1HeaderSize]
  rw [hs1, Res.ok_bind, h1, Res.ok_bind, hs2, Res.ok_bind, parseProps_eq]
  · simp only [Message.setOPC, ofInt_toNat]
    rfl
  · simp only [Message.setOPC, ofInt_toNat]

/-- Every input either has the shape above or is rejected. -/
theorem newWithBytes_cases (data : Bytes) :
    (∃ t0 t1 s0 s1 s2 d0 d1 d2 esv opc rest,
      data = 0x10 :: 0x81 :: t0 :: t1 :: s0 :: s1 :: s2 :: d0 :: d1 :: d2 :: esv :: opc :: rest) ∨
    ((data.length < 12 ∨ data[0]? ≠ some 0x10 ∨ data[1]? ≠ some 0x81) ∧
      Message.newWithBytes data = .err .invalid) := by
  by_cases h4 : data.length < 4
  · right
    refine ⟨Or.inl (by omega), ?_⟩
    simp [Message.newWithBytes, Message.parseBytes, Message.parseFrameHeaderBytes,
      frameHeaderSize, h4]
  · match data with
    | [] | [_] | [_, _] | [_, _, _] => simp at h4
    | e1 :: e2 :: t0 :: t1 :: rest =>
    by_cases hh : e1 = 0x10 ∧ e2 = 0x81
    · obtain ⟨rfl, rfl⟩ := hh
      by_cases h12 : rest.length < 8
      · right
        refine ⟨Or.inl (by simp; omega), ?_⟩
        have hf : Message.new.parseFrameHeaderBytes (0x10 :: 0x81 :: t0 :: t1 :: rest)
            = .ok { Message.new with tid := [t0, t1] } := by
          simp [Message.parseFrameHeaderBytes, frameHeaderSize, rd, wr, ehd1Echonet, ehd2Format1,
            Message.new, tidSize, List.replicate_succ]
        unfold Message.newWithBytes Message.parseBytes
        rw [hf]
        simp [sliceFrom, frameHeaderSize, Message.parseFormat1HeaderBytes, format1HeaderSize, h12]
      · left
        match rest with
        | s0 :: s1 :: s2 :: d0 :: d1 :: d2 :: esv :: opc :: rest =>
          exact ⟨t0, t1, s0, s1, s2, d0, d1, d2, esv, opc, rest, rfl⟩
        | [] | [_] | [_, _] | [_, _, _] | [_, _, _, _] | [_, _, _, _, _] | [_, _, _, _, _, _]
        | [_, _, _, _, _, _, _] => simp at h12
    · right
      refine ⟨?_, ?_⟩
      · right
        simp only [List.getElem?_cons_zero, List.getElem?_cons_succ, ne_eq, Option.some.injEq]
        by_cases h1 : e1 = 0x10
        · right; intro h2; exact hh ⟨h1, h2⟩
        · left; exact h1
      · unfold Message.newWithBytes Message.parseBytes Message.parseFrameHeaderBytes
        rw [if_neg (show ¬ _ < frameHeaderSize from h4)]
        simp only [rd, List.getElem?_cons_zero, List.getElem?_cons_succ, Res.ok_bind, ehd1Echonet,
          ehd2Format1]
        by_cases h1 : e1 = 0x10#8
        · have h2 : e2 ≠ 0x81#8 := fun h2 => hh ⟨h1, h2⟩
          simp [h1, h2]
        · simp [h1]

theorem newWithBytes_ok {data : Bytes} {m : Message} (h : Message.newWithBytes data = .ok m) :
    ∃ t0 t1 s0 s1 s2 d0 d1 d2 esv opc rest,
      data = 0x10 :: 0x81 :: t0 :: t1 :: s0 :: s1 :: s2 :: d0 :: d1 :: d2 :: esv :: opc :: rest ∧
      m = decoded t0 t1 s0 s1 s2 d0 d1 d2 esv opc rest := by
  rcases newWithBytes_cases data with ⟨t0, t1, s0, s1, s2, d0, d1, d2, esv, opc, rest, rfl⟩ | ⟨_, he⟩
  · rw [newWithBytes_cons] at h
    injection h with h
    exact ⟨t0, t1, s0, s1, s2, d0, d1, d2, esv, opc, rest, rfl, h.symm⟩
  · rw [he] at h; cases h

theorem decoded_wf (t0 t1 s0 s1 s2 d0 d1 d2 esv opc : Byte) (rest : Bytes) :
    WF (decoded t0 t1 s0 s1 s2 d0 d1 d2 esv opc rest) where
  tid := rfl
  seoj := rfl
  deoj := rfl
  opc := by
    have : opc.toNat < 256 := opc.isLt
    simp [decoded, lenientProps_length, Nat.mod_eq_of_lt this]

end Verif.Lemmas
