import Verif.Lemmas.RoundTrip

/-! # C02–C07, C11, C12: encoding and decoding of messages -/

namespace Verif.Props
open Verif Model Spec Lemmas

/-- `m` carries exactly the fields of the frame `f`, seen through the API getters. -/
structure Carries (m : Message) (f : Frame) : Prop where
  ehd1 : m.ehd1 = 0x10
  ehd2 : m.ehd2 = 0x81
  tid : m.getTID.toNat = f.tid
  seoj : m.getSEOJ.toNat = f.seoj
  deoj : m.getDEOJ.toNat = f.deoj
  esv : m.esv = f.esv
  opc : m.getOPC = f.props.length
  props : m.ep = f.props.map (fun p => some ⟨p.epc, p.edt⟩)

/-- A message built through the API that is within the limits of the format. -/
structure Fits (m : Message) : Prop where
  ehd1 : m.ehd1 = 0x10
  ehd2 : m.ehd2 = 0x81
  count : m.ep.length ≤ 255
  present : ∀ o ∈ m.ep, ∃ p, o = some p ∧ p.data.length ≤ 255

theorem Fits.props {m : Message} (h : Fits m) :
    ∃ ps : List PProp, m.ep = ps.map some ∧ ps.length < 256 ∧ ∀ p ∈ ps, p.data.length < 256 := by
  have hp := h.present
  have hc := h.count
  generalize m.ep = ep at hp hc
  have : ∃ ps : List PProp, ep = ps.map some ∧ ∀ p ∈ ps, p.data.length < 256 := by
    clear hc
    induction ep with
    | nil => exact ⟨[], rfl, by simp⟩
    | cons o ep ih =>
      obtain ⟨p, rfl, hpl⟩ := hp o (by simp)
      obtain ⟨ps, rfl, hps⟩ := ih (fun o ho => hp o (by simp [ho]))
      exact ⟨p :: ps, by simp, by
        intro q hq
        rcases List.mem_cons.mp hq with rfl | hq
        · omega
        · exact hps q hq⟩
  obtain ⟨ps, rfl, hps⟩ := this
  exact ⟨ps, rfl, by simp at hc; omega, hps⟩

/-- C02. Decoding the encoding of a message gives the message back (the transport
metadata, which does not travel, is reset), whatever follows it in the buffer. -/
theorem C02_roundtrip (m : Message) (hm : Built m) (hf : Fits m) (tail : Bytes) :
    Message.newWithBytes (m.bytes ++ tail) =
      .ok { m with src := Message.new.src, pktType := unknownPacket, ifc := none } := by
  obtain ⟨ps, h1, h2, h3⟩ := hf.props
  exact newWithBytes_bytes (Built.wf hm) hf.ehd1 hf.ehd2 h1 h2 h3 tail

/-- A concrete message with two properties meeting the hypotheses of C02. -/
def sampleMessage : Message :=
  ((((Message.new.setTID 0x1234).setSEOJ 0x05FF01).setDEOJ 0x013001).setESV 0x62).addProperties
    [some ⟨0x80, []⟩, some ⟨0xB0, [0x41, 0x42]⟩]

example : Built sampleMessage ∧ Fits sampleMessage ∧ sampleMessage.bytes =
    [0x10, 0x81, 0x12, 0x34, 0x05, 0xFF, 0x01, 0x01, 0x30, 0x01, 0x62, 0x02,
     0x80, 0x00, 0xB0, 0x02, 0x41, 0x42] := by
  refine ⟨?_, ⟨rfl, rfl, by decide, by decide⟩, by decide⟩
  exact .addProperty _ (.addProperty _ (.setESV _ (.setDEOJ _ (.setSEOJ _ (.setTID _ .new)))))

/-- C02. Two messages within the limits that encode alike are the same message up to
transport metadata: the encoding loses nothing. -/
theorem C02_injective (m₁ m₂ : Message) (h₁ : Built m₁) (h₂ : Built m₂) (f₁ : Fits m₁)
    (f₂ : Fits m₂) (h : m₁.bytes = m₂.bytes) :
    { m₁ with src := m₂.src, pktType := m₂.pktType, ifc := m₂.ifc } = m₂ := by
  have e₁ := C02_roundtrip m₁ h₁ f₁ []
  have e₂ := C02_roundtrip m₂ h₂ f₂ []
  rw [h, e₂] at e₁
  injection e₁ with e
  obtain ⟨a, b, c, d, e, f, g, ep, i, j, k⟩ := m₁
  obtain ⟨a', b', c', d', e', f', g', ep', i', j', k'⟩ := m₂
  simp only [Message.mk.injEq] at *
  simp_all

/-- C03. `Bytes()` of any message built through the API does not panic and has the
ECHONET Lite layout; `Size()` is its length. PDC is the data length modulo 256, and the
properties listed are the non-nil ones among the first OPC. -/
theorem C03_layout (m : Message) (hm : Built m) :
    m.bytesRes = .ok ([m.ehd1, m.ehd2] ++ beBytes 2 m.getTID.toNat ++ beBytes 3 m.getSEOJ.toNat ++
      beBytes 3 m.getDEOJ.toNat ++ [m.esv, BitVec.ofNat 8 m.getOPC] ++
      ((m.ep.take m.getOPC).filterMap id).flatMap
        (fun p => p.code :: BitVec.ofNat 8 p.data.length :: p.data)) ∧
    m.size = .ok m.bytes.length := by
  have hw := Built.wf hm
  constructor
  · rw [bytesRes_eq hw, getTID_toNat hw.tid, getSEOJ_toNat hw.seoj, getDEOJ_toNat hw.deoj]
    have h1 := beBytes_beNat m.tid
    have h2 := beBytes_beNat m.seoj
    have h3 := beBytes_beNat m.deoj
    rw [hw.tid] at h1
    rw [hw.seoj] at h2
    rw [hw.deoj] at h3
    rw [h1, h2, h3]
    have : BitVec.ofNat 8 m.getOPC = m.opc := by simp [Message.getOPC]
    rw [this]
    rfl
  · rw [size_eq hw, bytes_eq hw]
    simp [header, hw.tid, hw.seoj, hw.deoj]
    omega

/-- C03. A message that carries a frame encodes to the frame's specified bytes. -/
theorem C03_frame (m : Message) (hm : Built m) (f : Frame) (hc : Carries m f) :
    m.bytes = f.encode := by
  rw [Message.bytes, (C03_layout m hm).1]
  dsimp only
  rw [hc.ehd1, hc.ehd2, hc.tid, hc.seoj, hc.deoj, hc.esv, hc.opc, hc.props, Frame.encode,
    List.take_of_length_le (by simp)]
  have : (f.props.map (fun p => some (⟨p.epc, p.edt⟩ : PProp))).filterMap id
      = f.props.map (fun p => (⟨p.epc, p.edt⟩ : PProp)) := by
    rw [← filterMap_some (f.props.map (fun p => (⟨p.epc, p.edt⟩ : PProp))), List.map_map]; rfl
  rw [this, List.flatMap_map]
  rfl

example : Carries sampleMessage
    ⟨0x1234, 0x05FF01, 0x013001, 0x62, [⟨0x80, []⟩, ⟨0xB0, [0x41, 0x42]⟩]⟩ := by
  constructor <;> decide

/-- C04. Decoding never panics. -/
theorem C04_no_panic (data : Bytes) : Message.newWithBytes data ≠ .panic := by
  rcases newWithBytes_cases data with ⟨_, _, _, _, _, _, _, _, _, _, _, rfl⟩ | ⟨_, h⟩
  · rw [newWithBytes_cons]; simp
  · rw [h]; simp

/-- C04. Decoding fails exactly on inputs shorter than the fixed part or with another
header. -/
theorem C04_rejects (data : Bytes) :
    (∃ e, Message.newWithBytes data = .err e) ↔
      data.length < 12 ∨ data[0]? ≠ some 0x10 ∨ data[1]? ≠ some 0x81 := by
  rcases newWithBytes_cases data with ⟨_, _, _, _, _, _, _, _, _, _, rest, rfl⟩ | ⟨h, h'⟩
  · rw [newWithBytes_cons]
    simp
  · rw [h']
    exact ⟨fun _ => h, fun _ => ⟨_, rfl⟩⟩

example : (∃ m, Message.newWithBytes sampleMessage.bytes = .ok m) ∧
    Message.newWithBytes (sampleMessage.bytes.take 11) = .err .invalid ∧
    Message.newWithBytes [0x10, 0x82, 0, 0, 0, 0, 0, 0, 0, 0, 0, 0] = .err .invalid := by
  refine ⟨⟨_, rfl⟩, ?_, ?_⟩ <;> decide

/-- C05. Every valid frame followed by anything is decoded to a message carrying exactly
this frame, and re-encoding drops the trailing bytes. -/
theorem C05_decode_encode (f : Frame) (hv : f.Valid) (tail : Bytes) :
    ∃ m, Message.newWithBytes (f.encode ++ tail) = .ok m ∧ Carries m f ∧ m.bytes = f.encode := by
  obtain ⟨ht, hs, hd, hl, hp⟩ := hv
  obtain ⟨t0, t1, e2⟩ : ∃ a b, beBytes 2 f.tid = [a, b] := ⟨_, _, rfl⟩
  obtain ⟨s0, s1, s2, es⟩ : ∃ a b c, beBytes 3 f.seoj = [a, b, c] := ⟨_, _, _, rfl⟩
  obtain ⟨d0, d1, d2, ed⟩ : ∃ a b c, beBytes 3 f.deoj = [a, b, c] := ⟨_, _, _, rfl⟩
  have hopc : (BitVec.ofNat 8 f.props.length).toNat = f.props.length := by simp; omega
  have hdec : Message.newWithBytes (f.encode ++ tail) = .ok (decoded t0 t1 s0 s1 s2 d0 d1 d2 f.esv
      (BitVec.ofNat 8 f.props.length) (f.props.flatMap WireProp.encode ++ tail)) := by
    rw [← newWithBytes_cons, Frame.encode, e2, es, ed]
    simp
  refine ⟨_, hdec, ?_, ?_⟩
  · have hlp := lenient_encode f.props tail hp
    refine ⟨rfl, rfl, ?_, ?_, ?_, rfl, hopc, ?_⟩
    · rw [getTID_toNat rfl]
      show beNat [t0, t1] = _
      rw [← e2, beNat_beBytes, Nat.mod_eq_of_lt ht]
    · rw [getSEOJ_toNat rfl]
      show beNat [s0, s1, s2] = _
      rw [← es, beNat_beBytes, Nat.mod_eq_of_lt hs]
    · rw [getDEOJ_toNat rfl]
      show beNat [d0, d1, d2] = _
      rw [← ed, beNat_beBytes, Nat.mod_eq_of_lt hd]
    · simp only [decoded, hopc, hlp]
      rfl
  · rw [bytes_eq (decoded_wf ..), wireProps, header]
    have hlp := lenient_encode f.props tail hp
    simp only [decoded, hopc, hlp, Frame.encode, e2, es, ed]
    rw [List.take_of_length_le (by simp)]
    have : ((f.props.map (some ∘ ofWire)).filterMap id) = f.props.map ofWire := by
      rw [← filterMap_some (f.props.map ofWire), List.map_map]
    rw [this, List.flatMap_map]
    rfl

/-- C05. For any accepted input, decoding the re-encoded message gives the same message. -/
theorem C05_canonical (data : Bytes) (m : Message) (h : Message.newWithBytes data = .ok m) :
    Message.newWithBytes m.bytes = .ok m := by
  have hb := Built.decoded h
  obtain ⟨t0, t1, s0, s1, s2, d0, d1, d2, esv, opc, rest, rfl, rfl⟩ := newWithBytes_ok h
  have := newWithBytes_bytes (decoded_wf t0 t1 s0 s1 s2 d0 d1 d2 esv opc rest) rfl rfl
    (ps := (lenientProps opc.toNat rest).map ofWire)
    (by simp [decoded])
    (by simp [lenientProps_length]; exact opc.isLt)
    (by
      intro p hp
      obtain ⟨q, hq, rfl⟩ := List.mem_map.mp hp
      exact lenient_small _ _ q hq) []
  rw [List.append_nil] at this
  rw [this]
  rfl

example : (⟨0x1234, 0x05FF01, 0x013001, 0x62, [⟨0x80, []⟩, ⟨0xB0, [0x41, 0x42]⟩]⟩ : Frame).Valid := by
  simp [Frame.Valid]

/-- C06, refuted. Every strict prefix of a valid frame that still has the 12 bytes of the
fixed part is accepted, although its property section is incomplete. -/
theorem C06_refuted (f : Frame) (_hv : f.Valid) (n : Nat) (h12 : 12 ≤ n)
    (hn : n < f.encode.length) : ∃ m, Message.newWithBytes (f.encode.take n) = .ok m := by
  obtain ⟨t0, t1, e2⟩ : ∃ a b, beBytes 2 f.tid = [a, b] := ⟨_, _, rfl⟩
  obtain ⟨s0, s1, s2, es⟩ : ∃ a b c, beBytes 3 f.seoj = [a, b, c] := ⟨_, _, _, rfl⟩
  obtain ⟨d0, d1, d2, ed⟩ : ∃ a b c, beBytes 3 f.deoj = [a, b, c] := ⟨_, _, _, rfl⟩
  obtain ⟨k, rfl⟩ : ∃ k, n = k + 12 := ⟨n - 12, by omega⟩
  rw [Frame.encode, e2, es, ed]
  simp only [List.cons_append, List.nil_append, List.take_succ_cons]
  exact ⟨_, newWithBytes_cons ..⟩

/-- C06, refuted: the property as stated is false. -/
theorem C06_refuted_statement :
    ¬ ∀ (f : Frame), f.Valid → ∀ n < f.encode.length,
      ∃ e, Message.newWithBytes (f.encode.take n) = .err e := by
  intro h
  obtain ⟨e, he⟩ := h ⟨1, 0x05FF01, 0x013001, 0x61, [⟨0x80, [0x30]⟩]⟩ (by simp [Frame.Valid]) 14
    (by decide)
  obtain ⟨m, hm⟩ := C06_refuted ⟨1, 0x05FF01, 0x013001, 0x61, [⟨0x80, [0x30]⟩]⟩
    (by simp [Frame.Valid]) 14 (by decide) (by decide)
  rw [hm] at he
  cases he

/-- C06, refuted: the concrete damage. A `SetC` frame for two properties, the first 0xB0
with four data bytes of which three arrived (`80 01 31`), is accepted, and the second property
is read out of the data of the first: the receiver sees a write of 0x31 to property 0x80. -/
theorem C06_refuted_misread :
    Message.newWithBytes ([0x10, 0x81, 0, 1, 0x05, 0xFF, 0x01, 0x01, 0x30, 0x01, 0x61, 0x02] ++
      [0xB0, 0x04, 0x80, 0x01, 0x31]) =
    .ok ((((((Message.new.setTID 1).setSEOJ 0x05FF01).setDEOJ 0x013001).setESV 0x61).addProperty
      (some ⟨0xB0, []⟩)).addProperty (some ⟨0x80, [0x31]⟩)) := by decide

/-- C06, refuted, in general: a frame is cut inside the data of its first property. Whatever properties the data
that arrived happens to spell, as many as the frame has further properties, they are taken for the further
properties of the message, and the first one has no data. -/
theorem C06_refuted_misread_any (tid seoj deoj : Nat) (esv c : Byte) (d : Bytes) (rest qs : List WireProp)
    (hv : (⟨tid, seoj, deoj, esv, ⟨c, d⟩ :: rest⟩ : Frame).Valid) (more : Bytes) (hm : more ≠ [])
    (hd : d = qs.flatMap WireProp.encode ++ more) (hq : qs.length = rest.length) :
    ∃ m, Message.newWithBytes ((⟨tid, seoj, deoj, esv, ⟨c, d⟩ :: rest⟩ : Frame).encode.take
        (14 + (qs.flatMap WireProp.encode).length)) = .ok m ∧
      m.esv = esv ∧ m.getOPC = 1 + rest.length ∧
      m.ep = some ⟨c, []⟩ :: qs.map (fun q => some ⟨q.epc, q.edt⟩) := by
  obtain ⟨-, -, -, hl, hp⟩ := hv
  dsimp only at hl hp
  have hdl := hp ⟨c, d⟩ (by simp)
  dsimp only at hdl
  have hqs : ∀ q ∈ qs, q.edt.length < 256 := by
    intro q hq
    have h : q.encode.length ≤ (qs.flatMap WireProp.encode).length :=
      (List.sublist_flatten_of_mem (List.mem_map_of_mem hq)).length_le
    have : q.encode.length = q.edt.length + 2 := rfl
    rw [hd, List.length_append] at hdl
    omega
  obtain ⟨t0, t1, e2⟩ : ∃ a b, beBytes 2 tid = [a, b] := ⟨_, _, rfl⟩
  obtain ⟨s0, s1, s2, es⟩ : ∃ a b c, beBytes 3 seoj = [a, b, c] := ⟨_, _, _, rfl⟩
  obtain ⟨d0, d1, d2, ed⟩ : ∃ a b c, beBytes 3 deoj = [a, b, c] := ⟨_, _, _, rfl⟩
  have henc : (⟨tid, seoj, deoj, esv, ⟨c, d⟩ :: rest⟩ : Frame).encode.take
        (14 + (qs.flatMap WireProp.encode).length) =
      0x10 :: 0x81 :: t0 :: t1 :: s0 :: s1 :: s2 :: d0 :: d1 :: d2 :: esv :: BitVec.ofNat 8 (rest.length + 1) ::
        c :: BitVec.ofNat 8 d.length :: qs.flatMap WireProp.encode := by
    rw [Frame.encode, e2, es, ed, List.flatMap_cons]
    show List.take _ ([0x10, 0x81] ++ [t0, t1] ++ [s0, s1, s2] ++ [d0, d1, d2] ++ [esv,
      BitVec.ofNat 8 (rest.length + 1)] ++ ((c :: BitVec.ofNat 8 d.length :: d) ++ rest.flatMap WireProp.encode)) = _
    generalize BitVec.ofNat 8 d.length = n
    rw [hd]
    generalize qs.flatMap WireProp.encode = q
    rw [Nat.add_comm 14]
    simp
  have hopc : (BitVec.ofNat 8 (rest.length + 1)).toNat = rest.length + 1 := by
    rw [List.length_cons] at hl
    simp; omega
  refine ⟨_, by rw [henc]; exact newWithBytes_cons .., rfl, by show (BitVec.ofNat 8 (rest.length + 1)).toNat = _; omega, ?_⟩
  simp only [decoded, hopc]
  have hdn : (BitVec.ofNat 8 d.length).toNat = d.length := by simp; omega
  rw [lenientProps, hdn, if_pos (by
    rw [hd, List.length_append]
    have := List.length_pos_iff.mpr hm
    omega), ← hq]
  have := lenient_encode qs [] hqs
  rw [List.append_nil] at this
  rw [this, List.map_cons]
  rfl

/-- The hypotheses of `C06_refuted_misread_any` for the frame of `C06_refuted_misread`. -/
example : (⟨1, 0x05FF01, 0x013001, 0x61, [⟨0xB0, [0x80, 0x01, 0x31, 0x00]⟩, ⟨0xB1, [0]⟩]⟩ : Frame).Valid ∧
    ([0x80, 0x01, 0x31, 0x00] : Bytes) = [⟨0x80, [0x31]⟩].flatMap WireProp.encode ++ [0x00] := by
  refine ⟨by simp [Frame.Valid], by decide⟩

/-- C06, the part that holds: cuts inside the fixed part are rejected, and when the property
section is complete nothing is misread (C05); otherwise the properties are those of
`lenientProps`, of which the complete leading ones are right. -/
theorem C06_truncated_partial (f : Frame) (n : Nat) (h12 : n < 12) :
    Message.newWithBytes (f.encode.take n) = .err .invalid := by
  rcases newWithBytes_cases (f.encode.take n) with ⟨_, _, _, _, _, _, _, _, _, _, _, h⟩ | ⟨_, h⟩
  · have := congrArg List.length h
    simp at this
    omega
  · exact h

/-- C06. What is decoded from any accepted input, in closed form. -/
theorem C06_lenient (data : Bytes) (m : Message) (h : Message.newWithBytes data = .ok m) :
    m.ep = (lenientProps m.getOPC (data.drop 12)).map (fun p => some ⟨p.epc, p.edt⟩) := by
  obtain ⟨t0, t1, s0, s1, s2, d0, d1, d2, esv, opc, rest, rfl, rfl⟩ := newWithBytes_ok h
  rfl

/-- C07. A decoded message announces and holds as many properties as the OPC byte says, none
nil, each with at most 255 data bytes. -/
theorem C07_counts (data : Bytes) (m : Message) (h : Message.newWithBytes data = .ok m) :
    data[11]? = some m.opc ∧ m.ep.length = m.getOPC ∧
    ∀ o ∈ m.ep, ∃ p, o = some p ∧ p.data.length ≤ 255 := by
  obtain ⟨t0, t1, s0, s1, s2, d0, d1, d2, esv, opc, rest, rfl, rfl⟩ := newWithBytes_ok h
  refine ⟨rfl, by simp [decoded, lenientProps_length, Message.getOPC], ?_⟩
  intro o ho
  obtain ⟨p, hp, rfl⟩ := List.mem_map.mp ho
  have := lenient_small _ _ p hp
  exact ⟨ofWire p, rfl, by simp [ofWire]; omega⟩

/-- C06, the part that holds: the properties that arrived completely are decoded right,
wherever the frame is cut behind them. -/
theorem C06_complete_prefix_partial (f : Frame) (hv : f.Valid) (ps qs : List WireProp)
    (hps : f.props = ps ++ qs) (n : Nat) (hn : 12 + (ps.flatMap WireProp.encode).length ≤ n)
    (m : Message) (h : Message.newWithBytes (f.encode.take n) = .ok m) :
    m.getOPC = f.props.length ∧
    m.ep.take ps.length = ps.map (fun p => some ⟨p.epc, p.edt⟩) := by
  obtain ⟨_, _, _, hl, hp⟩ := hv
  obtain ⟨hdr, h12, henc⟩ : ∃ hdr : Bytes, hdr.length = 11 ∧ f.encode =
      hdr ++ (BitVec.ofNat 8 f.props.length :: (ps.flatMap WireProp.encode ++
        qs.flatMap WireProp.encode)) := by
    refine ⟨[0x10#8, 0x81#8] ++ beBytes 2 f.tid ++ beBytes 3 f.seoj ++ beBytes 3 f.deoj ++ [f.esv],
      by simp [beBytes_length], ?_⟩
    simp [Frame.encode, hps]
  obtain ⟨k, rfl⟩ : ∃ k, n = hdr.length + ((ps.flatMap WireProp.encode).length + k + 1) :=
    ⟨n - 12 - (ps.flatMap WireProp.encode).length, by omega⟩
  rw [henc, List.take_length_add_append, List.take_succ_cons, List.take_length_add_append] at h
  have h6 := C06_lenient _ m h
  have h7 := (C07_counts _ m h).1
  have hopc : m.getOPC = f.props.length := by
    rw [List.getElem?_append_right (by omega), h12] at h7
    simp at h7
    rw [Message.getOPC, ← h7]
    simp
    omega
  refine ⟨hopc, ?_⟩
  rw [h6, hopc, hps, List.length_append, List.drop_append, h12,
    List.drop_of_length_le (by omega)]
  simp only [List.nil_append, Nat.reduceSub, List.drop_succ_cons, List.drop_zero]
  rw [lenient_encode_add ps qs.length _ (fun p hp' => hp p (by rw [hps]; simp [hp']))]
  simp

theorem lenient_infix (k : Nat) (bs : Bytes) : ∀ p ∈ lenientProps k bs, p.edt ≠ [] →
    ∃ pre post, bs = pre ++ [p.epc, BitVec.ofNat 8 p.edt.length] ++ p.edt ++ post := by
  induction k generalizing bs with
  | zero => simp [lenientProps]
  | succ k ih =>
    match bs with
    | [] =>
      intro p hp hne
      simp only [lenientProps, List.mem_cons] at hp
      rcases hp with rfl | hp
      · simp at hne
      · exact ih [] p hp hne
    | [c] =>
      intro p hp hne
      simp only [lenientProps, List.mem_cons] at hp
      rcases hp with rfl | hp
      · simp at hne
      · obtain ⟨pre, post, h⟩ := ih [] p hp hne
        simp at h
    | c :: l :: rest =>
      intro p hp hne
      simp only [lenientProps] at hp
      split at hp
      · rcases List.mem_cons.mp hp with rfl | hp
        · simp at hne
        · obtain ⟨pre, post, h⟩ := ih _ p hp hne
          exact ⟨c :: l :: pre, post, by rw [h]; simp⟩
      · rename_i hlen
        rcases List.mem_cons.mp hp with rfl | hp
        · refine ⟨[], rest.drop l.toNat, ?_⟩
          have hl : (rest.take l.toNat).length = l.toNat := by simp; omega
          simp only [hl]
          simp
        · obtain ⟨pre, post, h⟩ := ih _ p hp hne
          refine ⟨c :: l :: rest.take l.toNat ++ pre, post, ?_⟩
          have e := List.take_append_drop l.toNat rest
          rw [h] at e
          simp only [List.cons_append, List.append_assoc] at e ⊢
          rw [e]

/-- C07. Data is never made up: any non-empty property data is a contiguous part of the
input, right behind its code and its length byte. -/
theorem C07_provenance (data : Bytes) (m : Message) (h : Message.newWithBytes data = .ok m)
    (p : PProp) (hp : some p ∈ m.ep) (hne : p.data ≠ []) :
    ∃ pre post, data = pre ++ [p.code, BitVec.ofNat 8 p.data.length] ++ p.data ++ post := by
  obtain ⟨t0, t1, s0, s1, s2, d0, d1, d2, esv, opc, rest, rfl, rfl⟩ := newWithBytes_ok h
  obtain ⟨q, hq, hqp⟩ := List.mem_map.mp hp
  injection hqp with hqp
  subst hqp
  obtain ⟨pre, post, h⟩ := lenient_infix _ _ q hq hne
  exact ⟨0x10 :: 0x81 :: t0 :: t1 :: s0 :: s1 :: s2 :: d0 :: d1 :: d2 :: esv :: opc :: pre, post,
    by rw [h]; simp [ofWire]⟩

/-- C11. OPC is the number of properties held modulo 256, and the fixed fields keep their
sizes, after any history of API calls. -/
theorem C11_opc (m : Message) (hm : Built m) :
    m.getOPC = m.ep.length % 256 ∧ m.tid.length = 2 ∧ m.seoj.length = 3 ∧ m.deoj.length = 3 := by
  have := Built.wf hm
  exact ⟨this.opc, this.tid, this.seoj, this.deoj⟩

/-- C11. `Property(n)`: the n-th property held; nil beyond the end; a negative index panics. -/
theorem C11_property (m : Message) :
    (∀ n : Nat, m.property n = .ok (m.ep[n]?.join)) ∧ (∀ n : Nat, m.property (-(n + 1 : Int)) = .panic) := by
  constructor
  · intro n
    by_cases h : n < m.ep.length
    · rw [property_nat m n h]; simp [h]
    · unfold Message.property Message.propAt
      rw [if_pos (by omega)]
      simp at h
      simp [h]
  · intro n
    unfold Message.property Message.propAt
    rw [if_neg (by omega), if_pos (by omega)]

/-- C11. `SetOPC(n)` leaves `n mod 256` empty properties; `AddProperty` appends. -/
theorem C11_setOPC_add (m : Message) (n : Nat) (p : Option PProp) :
    (m.setOPC n).ep = List.replicate (n % 256) (some ⟨0, []⟩) ∧ (m.setOPC n).getOPC = n % 256 ∧
    (m.addProperty p).ep = m.ep ++ [p] ∧ (m.addProperty p).getOPC = (m.getOPC + 1) % 256 := by
  have h : (BitVec.ofInt 8 (n : Int)).toNat = n % 256 := by
    simp [BitVec.ofInt]
    omega
  refine ⟨?_, ?_, rfl, ?_⟩
  · simp only [Message.setOPC, h]; rfl
  · simp only [Message.setOPC, Message.getOPC, h]
  · simp [Message.addProperty, Message.getOPC, BitVec.toNat_add]

example : ((Message.new.setOPC 300).addProperty (some ⟨0x80, [0x30]⟩)).getOPC = 45 := by decide

/-- C11. `HasProperty(c)` is true exactly when one of the properties held has the code. -/
theorem C11_hasProperty (m : Message) (ps : List PProp) (c : Byte) (h : m.ep = ps.map some) :
    ∃ b, m.hasProperty c = .ok b ∧ (b = true ↔ ∃ p ∈ ps, p.code = c) := by
  suffices H : ∀ ps : List PProp, ∃ b, Message.hasProperty.go c (ps.map some) = .ok b ∧
      (b = true ↔ ∃ p ∈ ps, p.code = c) by
    obtain ⟨b, hb⟩ := H ps
    exact ⟨b, by rw [Message.hasProperty, h]; exact hb.1, hb.2⟩
  intro ps
  induction ps with
  | nil => exact ⟨false, rfl, by simp⟩
  | cons p ps ih =>
    by_cases e : p.code = c
    · exact ⟨true, by simp [Message.hasProperty.go, e], by simp [e]⟩
    · obtain ⟨b, hb, hi⟩ := ih
      refine ⟨b, by simpa [Message.hasProperty.go, e] using hb, ?_⟩
      simp [e, hi]

example : ((Message.new.addProperty (some ⟨0x80, []⟩)).addProperty (some ⟨0xE0, [1]⟩)).hasProperty 0xE0 =
      .ok true ∧
    ((Message.new.addProperty (some ⟨0x80, []⟩)).addProperty (some ⟨0xE0, [1]⟩)).hasProperty 0xE1 =
      .ok false := by decide

/-- C12. `Equals` is equality of the encodings, hence reflexive, symmetric, transitive; it
is false for nil. -/
theorem C12_equals (a b c : Message) :
    (Message.equals (some a) (some b) = true ↔ a.bytes = b.bytes) ∧
    Message.equals (some a) (some a) = true ∧
    (Message.equals (some a) (some b) = Message.equals (some b) (some a)) ∧
    (Message.equals (some a) (some b) = true → Message.equals (some b) (some c) = true →
      Message.equals (some a) (some c) = true) ∧
    (∀ o, Message.equals none o = false ∧ Message.equals o none = false) := by
  refine ⟨by simp [Message.equals], by simp [Message.equals], ?_, ?_, ?_⟩
  · simp only [Message.equals]
    by_cases h : a.bytes = b.bytes
    · simp [h]
    · have h' : ¬ b.bytes = a.bytes := fun e => h e.symm
      simp [h, h']
  · simp only [Message.equals, decide_eq_true_eq]
    exact Eq.trans
  · intro o; cases o <;> simp [Message.equals]

/-- C12. A copy has every field of the original, hence is Equal to it. -/
theorem C12_copy (m : Message) (hm : Built m) (hf : Fits m) :
    Message.newWithMessage m = .ok m := by
  have hb : m.bytesRes = .ok m.bytes := by
    rw [Message.bytes, (C03_layout m hm).1]
  have := C02_roundtrip m hm hf []
  rw [List.append_nil] at this
  rw [Message.newWithMessage, hb, Res.ok_bind, this, Res.ok_bind]

/-- C12. Within the limits, Equal messages agree in every field that travels. -/
theorem C12_equals_fields (a b : Message) (ha : Built a) (hb : Built b) (fa : Fits a) (fb : Fits b)
    (h : Message.equals (some a) (some b) = true) :
    a.getTID = b.getTID ∧ a.getSEOJ = b.getSEOJ ∧ a.getDEOJ = b.getDEOJ ∧ a.esv = b.esv ∧
    a.ep = b.ep := by
  have e := C02_injective a b ha hb fa fb (by simpa [Message.equals] using h)
  rw [← e]
  exact ⟨rfl, rfl, rfl, rfl, rfl⟩

end Verif.Props
