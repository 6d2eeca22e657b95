import Verif.Lemmas.Stream
import Verif.Props.Wire

/-! # C08, C09: decoding from streams -/

namespace Verif.Props
open Verif Model Spec Lemmas

/-- C08. For every reader, a successful decoding consumed exactly the encoding of the message
returned, and the byte decoder gives the same message for the bytes consumed. -/
theorem C08_consumed {σ : Type} (r : Reader σ) (s s' : σ) (log : Bytes) (m : Message)
    (h : Message.newWithReader (logged r) (s, []) = .ok ((s', log), m)) :
    log = m.bytes ∧ Message.newWithBytes log = .ok m := by
  obtain ⟨t0, t1, s0, s1, s2, d0, d1, d2, esv, opc, ps, rfl, h1, h2, h3⟩ := newWithReader_ok h
  have hlog := h3 (fun s => s.2) (fun s n => rfl)
  simp only [List.nil_append] at hlog
  have hw : WF { Message.new with
        tid := [t0, t1], seoj := [s0, s1, s2], deoj := [d0, d1, d2], esv := esv, opc := opc,
        ep := List.map some ps } :=
    ⟨rfl, rfl, rfl, by simp [h1]; have := opc.isLt; omega⟩
  have hlt : ps.length < 256 := by rw [h1]; exact opc.isLt
  have hb := bytes_eq hw
  rw [(wireProps_some hw rfl hlt).1] at hb
  have e : log = Message.bytes { Message.new with
        tid := [t0, t1], seoj := [s0, s1, s2], deoj := [d0, d1, d2], esv := esv, opc := opc,
        ep := List.map some ps } := by rw [hb, hlog]; rfl
  refine ⟨e, ?_⟩
  have := newWithBytes_bytes hw rfl rfl rfl hlt h2 []
  rw [List.append_nil] at this
  rw [e, this]
  rfl

/-- C08. Decoding never panics, whatever the reader does. -/
theorem C08_no_panic {σ : Type} (r : Reader σ) (s : σ) : Message.newWithReader r s ≠ .panic := by
  have hnp : ∀ s n, Message.readFull r s n ≠ .panic := by
    intro s n
    unfold Message.readFull
    split
    · split <;> simp
    · simp
  intro h
  unfold Message.newWithReader Message.parseReader at h
  rcases Res.bind_eq_panic.mp h with h | ⟨⟨s1, fh⟩, hr1, h⟩
  · exact hnp _ _ h
  obtain ⟨-, l1⟩ := readFull_ok hr1
  rcases Res.bind_eq_panic.mp h with h | ⟨m1, hm1, h⟩
  · match fh, l1 with
    | [e1, e2, t0, t1], _ =>
    simp only [Message.parseFrameHeaderBytes, frameHeaderSize, rd, wr, Message.new,
      List.getElem?_cons_zero, List.getElem?_cons_succ, Res.ok_bind, tidSize] at h
    simp at h
    by_cases h1 : e1 = ehd1Echonet
    · by_cases h2 : e2 = ehd2Format1 <;> simp [h1, h2] at h
    · simp [h1] at h
  obtain ⟨t0, t1, rfl, rfl⟩ := parseFrameHeader_ok rfl hm1 l1
  rcases Res.bind_eq_panic.mp h with h | ⟨⟨s2, gh⟩, hr2, h⟩
  · exact hnp _ _ h
  obtain ⟨-, l2⟩ := readFull_ok hr2
  match gh, l2 with
  | [s0, s1, s2, d0, d1, d2, e, o], _ =>
  dsimp only at h
  rw [format1Header_eq, Res.ok_bind] at h
  unfold Message.parseFormat1PropertyReader at h
  rcases Res.bind_eq_panic.mp h with h | ⟨_, _, h⟩
  · have := readLoop_noPanic r o.toNat [] 
    simp only [List.nil_append, List.length_nil] at this
    exact this _ h
  · cases h

/-- C08. Remembering what was delivered does not change the decoding. -/
theorem C08_logged {σ : Type} (r : Reader σ) (s : σ) :
    (∃ s' m, Message.newWithReader r s = .ok (s', m) ∧
      ∃ log, Message.newWithReader (logged r) (s, []) = .ok ((s', log), m)) ∨
    (∃ e, Message.newWithReader r s = .err e ∧ Message.newWithReader (logged r) (s, []) = .err e) := by
  have hrd : ∀ s lg n, Message.readFull (logged r) (s, lg) n =
      match Message.readFull r s n with
      | .ok (s', b) => .ok ((s', lg ++ b), b)
      | .err e => .err e
      | .panic => .panic := by
    intro s lg n
    unfold Message.readFull
    simp only [logged]
    match r.read s n with
    | (s', bs, none) => dsimp only; split <;> rfl
    | (s', bs, some e) => rfl
  have hstep : ∀ i s lg ep, ∃ lg', Message.parseFormat1PropertyReaderStep (logged r) i ((s, lg), ep) =
      match Message.parseFormat1PropertyReaderStep r i (s, ep) with
      | .ok (s', ep') => .ok ((s', lg'), ep')
      | .err e => .err e
      | .panic => .panic := by
    intro i s lg ep
    unfold Message.parseFormat1PropertyReaderStep
    dsimp only
    match Message.propAt ep i with
    | .err e => exact ⟨[], rfl⟩
    | .panic => exact ⟨[], rfl⟩
    | .ok none => exact ⟨lg, rfl⟩
    | .ok (some p) =>
      simp only [Res.ok_bind]
      rw [hrd]
      match Message.readFull r s format1PropertyHeaderSize with
      | .err e => exact ⟨[], rfl⟩
      | .panic => exact ⟨[], rfl⟩
      | .ok (s1, hdr) =>
        simp only [Res.ok_bind]
        match rd hdr 0, rd hdr 1 with
        | .err e, _ => exact ⟨[], rfl⟩
        | .panic, _ => exact ⟨[], rfl⟩
        | .ok c, .err e => exact ⟨[], rfl⟩
        | .ok c, .panic => exact ⟨[], rfl⟩
        | .ok c, .ok l =>
          simp only [Res.ok_bind]
          rw [hrd]
          match Message.readFull r s1 l.toNat with
          | .err e => exact ⟨[], rfl⟩
          | .panic => exact ⟨[], rfl⟩
          | .ok (s2, dat) => exact ⟨_, rfl⟩
  have hloop : ∀ cnt i s lg ep, ∃ lg',
      forFrom (Message.parseFormat1PropertyReaderStep (logged r)) cnt i ((s, lg), ep) =
      match forFrom (Message.parseFormat1PropertyReaderStep r) cnt i (s, ep) with
      | .ok (s', ep') => .ok ((s', lg'), ep')
      | .err e => .err e
      | .panic => .panic := by
    intro cnt
    induction cnt with
    | zero => intro i s lg ep; exact ⟨lg, rfl⟩
    | succ c ih =>
      intro i s lg ep
      simp only [forFrom]
      obtain ⟨lg1, h1⟩ := hstep i s lg ep
      rw [h1]
      match Message.parseFormat1PropertyReaderStep r i (s, ep) with
      | .err e => exact ⟨[], rfl⟩
      | .panic => exact ⟨[], rfl⟩
      | .ok (s', ep') =>
        obtain ⟨lg2, h2⟩ := ih (i + 1) s' lg1 ep'
        exact ⟨lg2, h2⟩
  have hmain : ∃ lg', Message.newWithReader (logged r) (s, []) =
      match Message.newWithReader r s with
      | .ok (s', m) => .ok ((s', lg'), m)
      | .err e => .err e
      | .panic => .panic := by
    unfold Message.newWithReader Message.parseReader
    rw [hrd]
    match Message.readFull r s frameHeaderSize with
    | .err e => exact ⟨[], rfl⟩
    | .panic => exact ⟨[], rfl⟩
    | .ok (s1, b1) =>
      simp only [Res.ok_bind]
      match Message.new.parseFrameHeaderBytes b1 with
      | .err e => exact ⟨[], rfl⟩
      | .panic => exact ⟨[], rfl⟩
      | .ok m1 =>
        simp only [Res.ok_bind]
        rw [hrd]
        match Message.readFull r s1 format1HeaderSize with
        | .err e => exact ⟨[], rfl⟩
        | .panic => exact ⟨[], rfl⟩
        | .ok (s2, b2) =>
          simp only [Res.ok_bind]
          match m1.parseFormat1HeaderBytes b2 with
          | .err e => exact ⟨[], rfl⟩
          | .panic => exact ⟨[], rfl⟩
          | .ok m2 =>
            simp only [Res.ok_bind, Message.parseFormat1PropertyReader, forRange]
            obtain ⟨lg', h⟩ := hloop m2.opc.toNat 0 s2 ([] ++ b1 ++ b2) m2.ep
            rw [h]
            match forFrom (Message.parseFormat1PropertyReaderStep r) m2.opc.toNat 0 (s2, m2.ep) with
            | .err e => exact ⟨[], rfl⟩
            | .panic => exact ⟨[], rfl⟩
            | .ok (s', ep') => exact ⟨lg', rfl⟩
  obtain ⟨lg', h⟩ := hmain
  match hr : Message.newWithReader r s with
  | .ok (s', m) => left; exact ⟨s', m, rfl, lg', by rw [h, hr]⟩
  | .err e => right; exact ⟨e, rfl, by rw [h, hr]⟩
  | .panic => exact absurd hr (C08_no_panic r s)

example : ∃ s' m, Message.newWithReader (logged segReader)
    ([[0x10, 0x81, 0, 1], [5, 0xFF, 1, 1, 0x30, 1, 0x61, 1, 0x80, 1], [0x30, 0xFF]], []) =
      .ok ((s', [0x10, 0x81, 0, 1, 5, 0xFF, 1, 1, 0x30, 1, 0x61, 1, 0x80, 1, 0x30]), m) :=
  ⟨_, _, rfl⟩

/-- C08/C09, the part of segmentation independence that holds: a valid frame, followed by
anything, is decoded from a segmented stream exactly when every piece (4 bytes, 8 bytes, then 2
and PDC bytes per property) arrives within one segment; then the result is that of the byte
decoder and exactly the frame has been taken from the stream. -/
theorem C09_segmentation_partial (f : Frame) (hv : f.Valid) (segs : List Bytes) (tail : Bytes)
    (hs : segs.flatten = f.encode ++ tail) :
    (aligned (pieces f) (segs.map List.length) = true →
      ∃ rest m, Message.newWithReader segReader segs = .ok (rest, m) ∧ rest.flatten = tail ∧
        Message.newWithBytes (f.encode ++ tail) = .ok m ∧ Carries m f) ∧
    (aligned (pieces f) (segs.map List.length) = false →
      Message.newWithReader segReader segs = .err .invalid) := by
  rcases seg_decode f hv segs tail hs with ⟨ha, s', m, h1, h2, h3⟩ | ⟨ha, h⟩
  · refine ⟨fun _ => ⟨s', m, h1, h2, h3, ?_⟩, fun h => by simp [h] at ha⟩
    obtain ⟨m', h4, h5, _⟩ := C05_decode_encode f hv tail
    rw [h3] at h4
    injection h4 with h4
    rw [h4]
    exact h5
  · exact ⟨fun h => by simp [h] at ha, fun _ => h⟩

theorem aligned_one (ps : List Nat) (n : Nat) (h : ps.sum ≤ n) : aligned ps [n] = true := by
  induction ps generalizing n with
  | nil => simp [aligned]
  | cons p ps ih =>
    simp at h
    match p, n with
    | 0, n => simp [aligned]; exact ih n (by omega)
    | p + 1, 0 => omega
    | p + 1, n + 1 =>
      simp only [aligned]
      rw [if_pos (by omega)]
      exact ih _ (by omega)

/-- C09: in particular a frame arriving in one segment is decoded. -/
theorem C09_one_segment_partial (f : Frame) (hv : f.Valid) (tail : Bytes) :
    ∃ rest m, Message.newWithReader segReader [f.encode ++ tail] = .ok (rest, m) ∧
      rest.flatten = tail ∧ Carries m f := by
  have hlen : (pieces f).sum ≤ (f.encode ++ tail).length := by
    have : (propPieces f.props).sum = (f.props.flatMap WireProp.encode).length := by
      generalize f.props = ps
      induction ps with
      | nil => rfl
      | cons p ps ih =>
        simp only [propPieces, List.flatMap_cons, List.sum_append, List.length_append] at ih ⊢
        rw [← ih]
        simp [WireProp.encode]
        omega
    simp [pieces, this, Frame.encode, beBytes_length]
    omega
  obtain ⟨rest, m, h1, h2, _, h3⟩ := (C09_segmentation_partial f hv [f.encode ++ tail] tail
    (by simp)).1 (by simpa using aligned_one _ _ hlen)
  exact ⟨rest, m, h1, h2, h3⟩

/-- C09, refuted: the same bytes, cut inside the header, are rejected. -/
theorem C09_refuted :
    ¬ ∀ (f : Frame), f.Valid → ∀ segs : List Bytes, segs.flatten = f.encode →
      ∃ rest m, Message.newWithReader segReader segs = .ok (rest, m) := by
  intro h
  let f : Frame := ⟨1, 0x05FF01, 0x013001, 0x62, [⟨0x80, []⟩]⟩
  obtain ⟨rest, m, hm⟩ := h f (by simp [f, Frame.Valid]) [f.encode.take 3, f.encode.drop 3]
    (by simp)
  have := (C09_segmentation_partial f (by simp [f, Frame.Valid])
    [f.encode.take 3, f.encode.drop 3] [] (by simp)).2 (by
      simp [f, pieces, propPieces, Frame.encode, beBytes_length, aligned]
      intro h
      omega)
  rw [this] at hm
  cases hm

/-- C09, refuted in general: whatever the frame, cutting it inside any of its first twelve bytes
other than between the fourth and the fifth makes decoding fail. -/
theorem C09_refuted_every_frame (f : Frame) (hv : f.Valid) (k : Nat) (h0 : 0 < k) (h12 : k < 12)
    (h4 : k ≠ 4) :
    Message.newWithReader segReader [f.encode.take k, f.encode.drop k] = .err .invalid := by
  refine (C09_segmentation_partial f hv [f.encode.take k, f.encode.drop k] [] (by simp)).2 ?_
  have hlen : 12 ≤ f.encode.length := by simp [Frame.encode, beBytes_length]; omega
  obtain ⟨n, hn⟩ : ∃ n, f.encode.length = n + 12 := ⟨f.encode.length - 12, by omega⟩
  simp only [List.map_cons, List.map_nil, List.length_take, List.length_drop, hn, pieces]
  rw [show min k (n + 12) = k by omega]
  generalize propPieces f.props = ps
  match k, h0 with
  | 1, _ | 2, _ | 3, _ => simp [aligned]
  | 4, _ => omega
  | 5, _ | 6, _ | 7, _ | 8, _ | 9, _ | 10, _ | 11, _ => simp [aligned]

/-- C09, refuted: from a `bytes.Reader` a frame whose last property has no data (every read
request) is rejected with EOF, though the byte decoder accepts it. -/
theorem C09_refuted_bytesReader :
    let f : Frame := ⟨1, 0x05FF01, 0x013001, 0x62, [⟨0x80, []⟩]⟩
    Message.newWithReader bytesReader f.encode = .err eof ∧
    ∃ m, Message.newWithBytes f.encode = .ok m ∧ Carries m f := by
  refine ⟨by decide, ?_⟩
  obtain ⟨m, h1, h2, _⟩ := C05_decode_encode ⟨1, 0x05FF01, 0x013001, 0x62, [⟨0x80, []⟩]⟩
    (by simp [Frame.Valid]) []
  rw [List.append_nil] at h1
  exact ⟨m, h1, h2⟩

theorem readFull_bytes (d rest : Bytes) : Message.readFull bytesReader (d ++ rest) d.length =
    if d ++ rest = [] then .err eof else .ok (rest, d) := by
  unfold Message.readFull bytesReader
  dsimp only
  cases h : d ++ rest with
  | nil => rfl
  | cons c cs =>
    dsimp only
    rw [← h, List.take_left, List.drop_left, if_neg (by omega), if_neg (by rw [h]; exact List.cons_ne_nil _ _)]

/-- The properties of a frame read from a `bytes.Reader`. -/
theorem bytes_loop (ps : List WireProp) : ∀ (done : List (Option PProp)) (tail : Bytes),
    (∀ p ∈ ps, p.edt.length < 256) →
    forFrom (Message.parseFormat1PropertyReaderStep bytesReader) ps.length done.length
        (ps.flatMap WireProp.encode ++ tail, done ++ List.replicate ps.length (some PProp.new)) =
      if tail = [] ∧ (∃ l, ps.getLast? = some l ∧ l.edt = []) then .err eof
      else .ok (tail, done ++ ps.map (fun p => some ⟨p.epc, p.edt⟩)) := by
  induction ps with
  | nil => intro done tail _; simp [forFrom]
  | cons p ps ih =>
    intro done tail hl
    have hp := hl p (by simp)
    have hget : Message.propAt (done ++ List.replicate (ps.length + 1) (some PProp.new)) done.length
        = Res.ok (some PProp.new) := by
      rw [propAt_nat _ _ (by simp)]
      simp
    simp only [List.length_cons, forFrom, Message.parseFormat1PropertyReaderStep]
    rw [hget]
    simp only [Res.ok_bind]
    have e1 : (p :: ps).flatMap WireProp.encode ++ tail =
        [p.epc, BitVec.ofNat 8 p.edt.length] ++ (p.edt ++ (ps.flatMap WireProp.encode ++ tail)) := by
      simp [WireProp.encode]
    have r1 := readFull_bytes [p.epc, BitVec.ofNat 8 p.edt.length] (p.edt ++ (ps.flatMap WireProp.encode ++ tail))
    rw [if_neg (by simp)] at r1
    rw [e1, show format1PropertyHeaderSize = [p.epc, BitVec.ofNat 8 p.edt.length].length from rfl, r1]
    simp only [Res.ok_bind, rd, List.getElem?_cons_zero, List.getElem?_cons_succ]
    have hlen : (BitVec.ofNat 8 p.edt.length).toNat = p.edt.length := by simp; omega
    rw [hlen, readFull_bytes]
    by_cases he : p.edt ++ (ps.flatMap WireProp.encode ++ tail) = []
    · rw [if_pos he]
      obtain ⟨h1, h2⟩ := List.append_eq_nil_iff.mp he
      obtain ⟨h3, h4⟩ := List.append_eq_nil_iff.mp h2
      have hps : ps = [] := by
        cases ps with
        | nil => rfl
        | cons q qs => simp [WireProp.encode] at h3
      subst hps
      rw [if_pos ⟨h4, p, rfl, h1⟩]
      rfl
    · rw [if_neg he]
      simp only [Res.ok_bind]
      have hset : (done ++ List.replicate (ps.length + 1) (some PProp.new)).set done.length
          (some ((PProp.new.setCode p.epc).setData p.edt))
          = (done ++ [some ⟨p.epc, p.edt⟩]) ++ List.replicate ps.length (some PProp.new) := by
        simp [List.replicate_succ, PProp.setCode, PProp.setData, PProp.new]
      rw [hset, show done.length + 1 = (done ++ [some (⟨p.epc, p.edt⟩ : PProp)]).length by simp,
        ih (done ++ [some (⟨p.epc, p.edt⟩ : PProp)]) tail (fun q hq => hl q (by simp [hq]))]
      have hiff : (tail = [] ∧ (∃ l, ps.getLast? = some l ∧ l.edt = [])) ↔
          (tail = [] ∧ (∃ l, (p :: ps).getLast? = some l ∧ l.edt = [])) := by
        cases ps with
        | nil =>
          constructor
          · rintro ⟨_, l, h, _⟩; cases h
          · rintro ⟨ht, l, h, hl⟩
            cases h
            have hpe : p.edt = [] := hl
            exact absurd (by rw [hpe, ht]; rfl) he
        | cons q qs => rw [List.getLast?_cons_cons]
      by_cases hc : tail = [] ∧ (∃ l, ps.getLast? = some l ∧ l.edt = [])
      · rw [if_pos hc, if_pos (hiff.mp hc)]
      · rw [if_neg hc, if_neg (fun h => hc (hiff.mpr h))]
        simp

/-- C09 is false also for a `bytes.Reader`, and for it exactly in one case: a frame whose last property has no
data, as in every read request, is refused when nothing follows it, because a read of no bytes at the end reports
the end of input. Every other frame is decoded as by the byte decoder. -/
theorem C09_refuted_bytesReader_any (f : Frame) (hv : f.Valid) (tail : Bytes) :
    (tail = [] → (∃ ps c, f.props = ps ++ [⟨c, []⟩]) →
      Message.newWithReader bytesReader (f.encode ++ tail) = .err eof) ∧
    (¬ (tail = [] ∧ ∃ ps c, f.props = ps ++ [⟨c, []⟩]) →
      ∃ m, Message.newWithReader bytesReader (f.encode ++ tail) = .ok (tail, m) ∧
        Message.newWithBytes (f.encode ++ tail) = .ok m ∧ Carries m f) := by
  obtain ⟨m0, hm0, hcar, -⟩ := C05_decode_encode f hv tail
  obtain ⟨ht, hs, hd, hl, hp⟩ := hv
  obtain ⟨t0, t1, e2⟩ : ∃ a b, beBytes 2 f.tid = [a, b] := ⟨_, _, rfl⟩
  obtain ⟨s0, s1, s2, es⟩ : ∃ a b c, beBytes 3 f.seoj = [a, b, c] := ⟨_, _, _, rfl⟩
  obtain ⟨d0, d1, d2, ed⟩ : ∃ a b c, beBytes 3 f.deoj = [a, b, c] := ⟨_, _, _, rfl⟩
  have hopc : (BitVec.ofNat 8 f.props.length).toNat = f.props.length := by simp; omega
  have henc : f.encode ++ tail = [0x10, 0x81, t0, t1] ++ ([s0, s1, s2, d0, d1, d2,
      f.esv, BitVec.ofNat 8 f.props.length] ++ (f.props.flatMap WireProp.encode ++ tail)) := by
    rw [Frame.encode, e2, es, ed]; simp
  have hdec : Message.newWithBytes (f.encode ++ tail) = .ok (decoded t0 t1 s0 s1 s2 d0 d1 d2 f.esv
      (BitVec.ofNat 8 f.props.length) (f.props.flatMap WireProp.encode ++ tail)) := by
    rw [henc, ← newWithBytes_cons]; rfl
  have hlast : (∃ l, f.props.getLast? = some l ∧ l.edt = []) ↔ ∃ ps c, f.props = ps ++ [⟨c, []⟩] := by
    constructor
    · rintro ⟨l, h1, h2⟩
      obtain ⟨ps, h⟩ := List.getLast?_eq_some_iff.mp h1
      obtain ⟨c, d⟩ := l
      cases h2
      exact ⟨ps, c, h⟩
    · rintro ⟨ps, c, h⟩
      exact ⟨⟨c, []⟩, by rw [h, List.getLast?_concat], rfl⟩
  have key : Message.newWithReader bytesReader (f.encode ++ tail) =
      if tail = [] ∧ (∃ l, f.props.getLast? = some l ∧ l.edt = []) then .err eof
      else .ok (tail, decoded t0 t1 s0 s1 s2 d0 d1 d2 f.esv
        (BitVec.ofNat 8 f.props.length) (f.props.flatMap WireProp.encode ++ tail)) := by
    unfold Message.newWithReader Message.parseReader
    have r1 := readFull_bytes [(0x10 : Byte), 0x81, t0, t1] ([s0, s1, s2, d0, d1, d2,
      f.esv, BitVec.ofNat 8 f.props.length] ++ (f.props.flatMap WireProp.encode ++ tail))
    rw [if_neg (by simp)] at r1
    rw [henc, show frameHeaderSize = [(0x10 : Byte), 0x81, t0, t1].length from rfl, r1, Res.ok_bind]
    dsimp only
    rw [show Message.new.parseFrameHeaderBytes [0x10, 0x81, t0, t1]
      = .ok { Message.new with tid := [t0, t1] } from rfl, Res.ok_bind]
    have r2 := readFull_bytes [s0, s1, s2, d0, d1, d2, f.esv, BitVec.ofNat 8 f.props.length]
      (f.props.flatMap WireProp.encode ++ tail)
    rw [if_neg (by simp)] at r2
    rw [show format1HeaderSize = [s0, s1, s2, d0, d1, d2, f.esv, BitVec.ofNat 8 f.props.length].length from rfl, r2,
      Res.ok_bind]
    dsimp only
    rw [format1Header_eq, hopc, Res.ok_bind]
    unfold Message.parseFormat1PropertyReader
    dsimp only
    rw [hopc, forRange]
    have hb := bytes_loop f.props [] tail hp
    simp only [List.nil_append, List.length_nil] at hb
    rw [hb]
    by_cases hc : tail = [] ∧ (∃ l, f.props.getLast? = some l ∧ l.edt = [])
    · rw [if_pos hc, if_pos hc]; rfl
    · rw [if_neg hc, if_neg hc, Res.ok_bind]
      dsimp only
      congr 2
      unfold decoded
      rw [hopc, lenient_encode _ _ hp]
      rfl
  constructor
  · intro h1 h2
    rw [key, if_pos ⟨h1, hlast.mpr h2⟩]
  · intro h
    rw [key, if_neg (fun hc => h ⟨hc.1, hlast.mp hc.2⟩)]
    exact ⟨_, rfl, hdec, by rw [hm0] at hdec; rw [← Res.ok.inj hdec]; exact hcar⟩

/-- The frame of `C09_refuted_bytesReader`, and one that is decoded. -/
example : (∃ ps c, ([⟨0x80, []⟩] : List WireProp) = ps ++ [⟨c, []⟩]) ∧
    ¬ ∃ ps c, ([⟨0x80, [0x30]⟩] : List WireProp) = ps ++ [⟨c, []⟩] := by
  refine ⟨⟨[], 0x80, rfl⟩, ?_⟩
  rintro ⟨ps, c, h⟩
  have := congrArg List.getLast? h
  rw [List.getLast?_concat] at this
  cases this

example : aligned (pieces ⟨1, 0x05FF01, 0x013001, 0x62, [⟨0x80, []⟩, ⟨0x81, [1, 2, 3]⟩]⟩)
    [4, 8, 4, 3, 100] = true := by simp [pieces, propPieces, aligned]

end Verif.Props
