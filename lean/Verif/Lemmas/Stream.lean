import Verif.Lemmas.RoundTrip
import Verif.Spec.Stream

/-! Lemmas about decoding from segmented streams. -/

namespace Verif.Lemmas
open Verif Model Spec

theorem segNorm_flatten (s : List Bytes) : (segNorm s).flatten = s.flatten := by
  induction s with
  | nil => rfl
  | cons c s ih => cases c <;> simp [segNorm, ih]

theorem aligned_norm (n : Nat) (ps : List Nat) (s : List Bytes) :
    aligned ((n + 1) :: ps) ((segNorm s).map List.length)
      = aligned ((n + 1) :: ps) (s.map List.length) := by
  induction s with
  | nil => rfl
  | cons c s ih => cases c <;> simp [segNorm, aligned, ih]

theorem segNorm_head {s : List Bytes} {c : Bytes} {cs : List Bytes} (h : segNorm s = c :: cs) :
    c ≠ [] := by
  induction s with
  | nil => cases h
  | cons d s ih =>
    cases d with
    | nil => exact ih h
    | cons x d => simp [segNorm] at h; rw [← h.1]; simp

/-- One read of a piece. -/
theorem readFull_seg (n : Nat) (ps : List Nat) (s : List Bytes) (d rest : Bytes)
    (hf : s.flatten = d ++ rest) (hd : d.length = n) :
    (∃ s', Message.readFull segReader s n = .ok (s', d) ∧ s'.flatten = rest ∧
      aligned (n :: ps) (s.map List.length) = aligned ps (s'.map List.length)) ∨
    (aligned (n :: ps) (s.map List.length) = false ∧
      Message.readFull segReader s n = .err .invalid) := by
  cases n with
  | zero =>
    left
    have : d = [] := List.eq_nil_of_length_eq_zero hd
    subst this
    exact ⟨s, by simp [Message.readFull, segReader, segRead], by simpa using hf, by simp [aligned]⟩
  | succ n =>
    match hs : segNorm s with
    | [] =>
      have := segNorm_flatten s
      rw [hs, hf] at this
      simp at this
      simp [this.1] at hd
    | c :: cs =>
      have hfl := segNorm_flatten s
      rw [hs, hf] at hfl
      simp only [List.flatten_cons] at hfl
      have hne := segNorm_head hs
      have hcl : 0 < c.length := List.length_pos_iff.mpr hne
      obtain ⟨k, hk⟩ : ∃ k, c.length = k + 1 := ⟨c.length - 1, by omega⟩
      have hal : aligned ((n + 1) :: ps) (s.map List.length) =
          if n ≤ k then aligned ps ((k - n) :: cs.map List.length) else false := by
        rw [← aligned_norm, hs]
        simp [hk, aligned]
      by_cases hle : n + 1 ≤ c.length
      · left
        have htake : c.take (n + 1) = d := by
          have := congrArg (List.take (n + 1)) hfl
          rw [List.take_append_of_le_length hle, List.take_append_of_le_length (by omega),
            List.take_of_length_le (l := d) (by omega)] at this
          exact this
        refine ⟨c.drop (n + 1) :: cs, ?_, ?_, ?_⟩
        · simp only [Message.readFull, segReader, segRead, hs, Nat.add_one_ne_zero, if_false, htake, hd]
          simp
        · have := congrArg (List.drop (n + 1)) hfl
          rw [List.drop_append_of_le_length hle, List.drop_append_of_le_length (by omega),
            List.drop_of_length_le (l := d) (by omega)] at this
          simpa using this
        · rw [hal, if_pos (by omega)]
          simp [hk]
      · right
        refine ⟨by rw [hal, if_neg (by omega)], ?_⟩
        simp only [Message.readFull, segReader, segRead, hs, Nat.add_one_ne_zero, if_false]
        rw [if_pos (by simp; omega)]

theorem format1Header_eq (t0 t1 s0 s1 s2 d0 d1 d2 e o : Byte) :
    ({ Message.new with tid := [t0, t1] } : Message).parseFormat1HeaderBytes
      [s0, s1, s2, d0, d1, d2, e, o] = .ok { Message.new with
        tid := [t0, t1], seoj := [s0, s1, s2], deoj := [d0, d1, d2], esv := e, opc := o,
        ep := List.replicate o.toNat (some PProp.new) } := by
  simp [Message.parseFormat1HeaderBytes, format1HeaderSize, rd, wr, Message.new, eojSize,
    Message.setOPC]

theorem seg_loop (ps : List WireProp) : ∀ (done : List (Option PProp)) (s : List Bytes)
    (tail : Bytes), (∀ p ∈ ps, p.edt.length < 256) →
    s.flatten = ps.flatMap WireProp.encode ++ tail →
    (aligned (propPieces ps) (s.map List.length) = true ∧ ∃ s',
      forFrom (Message.parseFormat1PropertyReaderStep segReader) ps.length done.length
        (s, done ++ List.replicate ps.length (some PProp.new))
      = .ok (s', done ++ ps.map (fun p => some ⟨p.epc, p.edt⟩)) ∧ s'.flatten = tail) ∨
    (aligned (propPieces ps) (s.map List.length) = false ∧
      forFrom (Message.parseFormat1PropertyReaderStep segReader) ps.length done.length
        (s, done ++ List.replicate ps.length (some PProp.new)) = .err .invalid) := by
  induction ps with
  | nil =>
    intro done s tail _ hf
    left
    exact ⟨by simp [propPieces, aligned], s, by simp [forFrom], by simpa using hf⟩
  | cons p ps ih =>
    intro done s tail hl hf
    have hp := hl p (by simp)
    have hget : Message.propAt (done ++ List.replicate (ps.length + 1) (some PProp.new)) done.length
        = Res.ok (some PProp.new) := by
      rw [propAt_nat _ _ (by simp)]
      simp
    simp only [List.length_cons, forFrom, Message.parseFormat1PropertyReaderStep]
    rw [hget]
    simp only [Res.ok_bind]
    have hpc : propPieces (p :: ps) = 2 :: p.edt.length :: propPieces ps := rfl
    rw [hpc]
    rcases readFull_seg 2 (p.edt.length :: propPieces ps) s [p.epc, BitVec.ofNat 8 p.edt.length]
        (p.edt ++ (ps.flatMap WireProp.encode ++ tail))
        (by rw [hf]; simp [WireProp.encode]) rfl with ⟨s1, hr1, hf1, ha1⟩ | ⟨ha, hr⟩
    · rw [show format1PropertyHeaderSize = 2 from rfl, hr1, ha1]
      simp only [Res.ok_bind, rd, List.getElem?_cons_zero, List.getElem?_cons_succ]
      have hlen : (BitVec.ofNat 8 p.edt.length).toNat = p.edt.length := by simp; omega
      rw [hlen]
      rcases readFull_seg p.edt.length (propPieces ps) s1 p.edt _ hf1 rfl with
        ⟨s2, hr2, hf2, ha2⟩ | ⟨ha, hr⟩
      · rw [hr2, ha2]
        simp only [Res.ok_bind]
        have hset : (done ++ List.replicate (ps.length + 1) (some PProp.new)).set done.length
            (some ((PProp.new.setCode p.epc).setData p.edt))
            = (done ++ [some ⟨p.epc, p.edt⟩]) ++ List.replicate ps.length (some PProp.new) := by
          simp [List.replicate_succ, PProp.setCode, PProp.setData, PProp.new]
        rw [hset, show done.length + 1 = (done ++ [some (⟨p.epc, p.edt⟩ : PProp)]).length by simp]
        rcases ih (done ++ [some ⟨p.epc, p.edt⟩]) s2 tail (fun q hq => hl q (by simp [hq])) hf2
          with ⟨ha, s', he, hfl⟩ | ⟨ha, he⟩
        · left
          exact ⟨ha, s', by rw [he]; simp, hfl⟩
        · right
          exact ⟨ha, he⟩
      · right
        rw [ha, hr]
        exact ⟨rfl, rfl⟩
    · right
      rw [show format1PropertyHeaderSize = 2 from rfl, ha, hr]
      exact ⟨rfl, rfl⟩

/-- Decoding a frame from segments: it succeeds exactly when the pieces are aligned. -/
theorem seg_decode (f : Frame) (hv : f.Valid) (s : List Bytes) (tail : Bytes)
    (hf : s.flatten = f.encode ++ tail) :
    (aligned (pieces f) (s.map List.length) = true ∧ ∃ s' m,
      Message.newWithReader segReader s = .ok (s', m) ∧ s'.flatten = tail ∧
      Message.newWithBytes (f.encode ++ tail) = .ok m) ∨
    (aligned (pieces f) (s.map List.length) = false ∧
      Message.newWithReader segReader s = .err .invalid) := by
  obtain ⟨ht, hs, hd, hl, hp⟩ := hv
  obtain ⟨t0, t1, e2⟩ : ∃ a b, beBytes 2 f.tid = [a, b] := ⟨_, _, rfl⟩
  obtain ⟨s0, s1, s2, es⟩ : ∃ a b c, beBytes 3 f.seoj = [a, b, c] := ⟨_, _, _, rfl⟩
  obtain ⟨d0, d1, d2, ed⟩ : ∃ a b c, beBytes 3 f.deoj = [a, b, c] := ⟨_, _, _, rfl⟩
  have hopc : (BitVec.ofNat 8 f.props.length).toNat = f.props.length := by simp; omega
  have henc : f.encode ++ tail = 0x10 :: 0x81 :: t0 :: t1 :: s0 :: s1 :: s2 :: d0 :: d1 :: d2 ::
      f.esv :: BitVec.ofNat 8 f.props.length :: (f.props.flatMap WireProp.encode ++ tail) := by
    rw [Frame.encode, e2, es, ed]; simp
  have hdec : Message.newWithBytes (f.encode ++ tail) = .ok (decoded t0 t1 s0 s1 s2 d0 d1 d2 f.esv
      (BitVec.ofNat 8 f.props.length) (f.props.flatMap WireProp.encode ++ tail)) := by
    rw [henc, newWithBytes_cons]
  rw [henc] at hf
  unfold Message.newWithReader Message.parseReader
  rcases readFull_seg 4 (8 :: propPieces f.props) s [0x10, 0x81, t0, t1] _ (by rw [hf]; rfl) rfl with
    ⟨sa, hr1, hf1, ha1⟩ | ⟨ha, hr⟩
  · rw [show frameHeaderSize = 4 from rfl, hr1, pieces, ha1, Res.ok_bind]
    dsimp only
    rw [show Message.new.parseFrameHeaderBytes [0x10, 0x81, t0, t1]
      = .ok { Message.new with tid := [t0, t1] } from rfl, Res.ok_bind]
    rcases readFull_seg 8 (propPieces f.props) sa
        [s0, s1, s2, d0, d1, d2, f.esv, BitVec.ofNat 8 f.props.length]
        (f.props.flatMap WireProp.encode ++ tail) (by rw [hf1]; rfl) rfl with
      ⟨sb, hr2, hf2, ha2⟩ | ⟨ha, hr⟩
    · rw [show format1HeaderSize = 8 from rfl, hr2, ha2, Res.ok_bind]
      dsimp only
      rw [show ({ Message.new with tid := [t0, t1] } : Message).parseFormat1HeaderBytes
          [s0, s1, s2, d0, d1, d2, f.esv, BitVec.ofNat 8 f.props.length]
        = .ok { Message.new with
            tid := [t0, t1], seoj := [s0, s1, s2], deoj := [d0, d1, d2], esv := f.esv,
            opc := BitVec.ofNat 8 f.props.length,
            ep := List.replicate f.props.length (some PProp.new) } by
          rw [format1Header_eq, hopc], Res.ok_bind]
      unfold Message.parseFormat1PropertyReader
      dsimp only
      rw [hopc, forRange]
      rcases seg_loop f.props [] sb tail hp hf2 with ⟨ha, s', he, hfl⟩ | ⟨ha, he⟩
      · left
        refine ⟨ha, s', _, ?_, hfl, hdec⟩
        simp only [List.nil_append, List.length_nil] at he
        rw [he, Res.ok_bind]
        dsimp only
        congr 2
        unfold decoded
        rw [hopc, lenient_encode _ _ hp]
        rfl
      · right
        simp only [List.nil_append, List.length_nil] at he
        rw [he]
        exact ⟨ha, rfl⟩
    · right
      rw [show format1HeaderSize = 8 from rfl, ha, hr]
      exact ⟨rfl, rfl⟩
  · right
    rw [show frameHeaderSize = 4 from rfl, pieces, ha, hr]
    exact ⟨rfl, rfl⟩

end Verif.Lemmas
