import Verif.Model.ReadBuffer
import Verif.Props.Receive

/-!
# C179: the size of the read buffer
-/

namespace Verif.Props
open Verif Model Spec Lemmas

/-- A message cut off after `n` bytes is read with other properties. -/
theorem cut_differs (m : Message) (hm : Built m) (hf : Fits m) (n : Nat) (hn : 12 ≤ n) (hl : n < m.bytes.length)
    (hd : ∀ o ∈ m.ep, ∃ p, o = some p ∧ p.data ≠ []) :
    ∃ m', Message.newWithBytes (m.bytes.take n) = .ok m' ∧ m'.ep ≠ m.ep := by
  obtain ⟨ps, h1, h2, h3⟩ := hf.props
  have hw := Built.wf hm
  have he := bytes_eq hw
  have hopc : m.opc.toNat = ps.length := by rw [hw.opc, h1, List.length_map]; omega
  have hwp : wireProps m = ps := by
    unfold wireProps
    rw [h1, hopc, List.take_of_length_le (by simp)]
    exact filterMap_some ps
  have hhl : (header m).length = 12 := by simp [header, hw.tid, hw.seoj, hw.deoj]
  have hlen : ∀ ps : List PProp, (ps.flatMap encProp).length
      = (ps.map (fun p => p.data.length)).sum + 2 * ps.length := by
    intro ps
    induction ps with
    | nil => rfl
    | cons p ps ih =>
      rw [List.flatMap_cons, List.length_append, ih, List.map_cons, List.sum_cons, List.length_cons]
      simp only [encProp, List.length_cons]
      omega
  have hbl : m.bytes.length = 12 + ((ps.map (fun p => p.data.length)).sum + 2 * ps.length) := by
    rw [he, List.length_append, hhl, hwp, hlen]
  have h11 : (m.bytes.take n)[11]? = some m.opc := by
    rw [List.getElem?_take, if_pos (by omega), he, List.getElem?_append_left (by rw [hhl]; omega)]
    unfold header
    rw [List.getElem?_append_right (by simp [hw.tid, hw.seoj, hw.deoj])]
    simp [hw.tid, hw.seoj, hw.deoj]
  have hgood : ¬ Malformed (m.bytes.take n) := by
    rintro (h | h | h)
    · rw [List.length_take] at h; omega
    · rw [List.getElem?_take, if_pos (by omega)] at h
      exact h (by rw [he]; simp [header, hf.ehd1])
    · rw [List.getElem?_take, if_pos (by omega)] at h
      exact h (by rw [he]; simp [header, hf.ehd2])
  cases hx : Message.newWithBytes (m.bytes.take n) with
  | panic => exact absurd hx (C04_no_panic _)
  | err e => exact absurd ((C04_rejects _).mp ⟨e, hx⟩) hgood
  | ok m0 =>
    refine ⟨m0, rfl, ?_⟩
    · have hq := (C07_counts _ _ hx).1
      rw [h11, Option.some_inj] at hq
      have hlenient := C06_lenient _ _ hx
      intro hep
      rw [hep, h1] at hlenient
      have hps : ps = (lenientProps m0.getOPC ((m.bytes.take n).drop 12)).map (fun p => ⟨p.epc, p.edt⟩) := by
        have := congrArg (List.filterMap id) hlenient
        rw [filterMap_some, show (fun p : WireProp => some (⟨p.epc, p.edt⟩ : PProp))
          = some ∘ (fun p : WireProp => (⟨p.epc, p.edt⟩ : PProp)) from rfl, ← List.map_map,
          filterMap_some] at this
        exact this
      have hne : ∀ p ∈ lenientProps m0.getOPC ((m.bytes.take n).drop 12), p.edt ≠ [] := by
        intro p hp
        obtain ⟨q, hq1, hq2⟩ := hd (some ⟨p.epc, p.edt⟩) (by
          rw [h1, hps]
          exact List.mem_map.mpr ⟨_, List.mem_map.mpr ⟨p, hp, rfl⟩, rfl⟩)
        cases hq1
        exact hq2
      have htot := lenient_total _ _ hne
      have hk : m0.getOPC = ps.length := by
        show m0.opc.toNat = _
        rw [← hq, hopc]
      have hsum : ((lenientProps m0.getOPC ((m.bytes.take n).drop 12)).map (fun p => p.edt.length))
          = ps.map (fun p => p.data.length) := by
        conv => rhs; rw [hps]
        rw [List.map_map]
        rfl
      rw [hsum, hk, List.length_drop, List.length_take] at htot
      omega

theorem readMany_keeps (evs : List RecvEvent) (s : UdpSocket) :
    (s.readMany evs).readBuffer.length = s.readBuffer.length ∧ (s.readMany evs).conn = s.conn ∧
      (s.readMany evs).ifc = s.ifc := by
  induction evs generalizing s with
  | nil => exact ⟨rfl, rfl, rfl⟩
  | cons e evs ih =>
    have one : (s.readMessage e).1.readBuffer.length = s.readBuffer.length ∧ (s.readMessage e).1.conn = s.conn ∧
        (s.readMessage e).1.ifc = s.ifc := by
      cases hc : s.conn with
      | false => unfold UdpSocket.readMessage; rw [if_pos (by rw [hc]; rfl)]; exact ⟨rfl, hc, rfl⟩
      | true =>
        cases e with
        | failure => unfold UdpSocket.readMessage; rw [if_neg (by rw [hc]; decide)]; exact ⟨rfl, hc, rfl⟩
        | datagram d =>
          have h := readMessage_datagram s hc d
          exact ⟨h.2.2.2, h.2.1, h.2.2.1⟩
    have := ih (s.readMessage e).1
    exact ⟨this.1.trans one.1, this.2.1.trans one.2.1, this.2.2.trans one.2.2⟩

/-- **C179.** The size of the buffer of an open socket is set to `n`, and any number of datagrams is read. A message
whose properties have data is then read as it was sent, with the address of the sender, exactly if it has at most `n`
bytes. -/
theorem C179_exact (s : UdpSocket) (hc : s.conn = true) (n : Nat) (s' : UdpSocket)
    (hs : s.setReadBufferSize n = .ok s') (evs : List RecvEvent) (m : Message) (hm : Built m) (hf : Fits m)
    (hd : ∀ o ∈ m.ep, ∃ p, o = some p ∧ p.data ≠ []) (to src : Addr) :
    ((s'.readMany evs).readMessage (.datagram ⟨(UdpSocket.sendMessage to m).data, src⟩)).2
      = .ok { m with src := src, pktType := unknownPacket, ifc := s.ifc } ↔ m.bytes.length ≤ n := by
  unfold UdpSocket.setReadBufferSize at hs
  rw [if_neg (by omega)] at hs
  cases hs
  have k := readMany_keeps evs ⟨s.conn, List.replicate (n : Int).toNat 0, s.ifc⟩
  generalize UdpSocket.readMany _ evs = v at k
  obtain ⟨k1, k2, k3⟩ := k
  simp only [List.length_replicate, Int.toNat_natCast] at k1
  rw [(readMessage_datagram v (k2.trans hc) _).1, k1]
  show (Message.newWithBytes (m.bytes.take n) >>= _) = _ ↔ _
  constructor
  · intro h
    refine Nat.le_of_not_lt fun hl => ?_
    by_cases hn : 12 ≤ n
    · obtain ⟨m', h1, h2⟩ := cut_differs m hm hf n hn hl hd
      rw [h1] at h
      have h : Res.ok { m' with src := src, ifc := v.ifc } =
        Res.ok { m with src := src, pktType := unknownPacket, ifc := s.ifc } := h
      injection h with h
      have := congrArg Message.ep h
      exact h2 this
    · obtain ⟨e, he⟩ := (C04_rejects (m.bytes.take n)).2 (.inl (by rw [List.length_take]; omega))
      rw [he] at h
      cases h
  · intro hl
    have e := C02_roundtrip m hm hf []
    rw [List.append_nil] at e
    rw [List.take_of_length_le hl, e, ← k3]
    rfl

/-- **C179.** The size set is the size read back, whatever is read in between. A size below 0 is a panic, and there is
no other. -/
theorem C179_size (s : UdpSocket) (n : Int) :
    (s.setReadBufferSize n = .panic ↔ n < 0) ∧
    (0 ≤ n → ∃ s', s.setReadBufferSize n = .ok s' ∧ s'.conn = s.conn ∧ s'.ifc = s.ifc ∧
      ∀ (evs : List RecvEvent), (s'.readMany evs).readBufferSize = n) := by
  unfold UdpSocket.setReadBufferSize
  by_cases h : n < 0
  · rw [if_pos h]; exact ⟨by simp [h], fun h' => by omega⟩
  · rw [if_neg h]
    refine ⟨by simp [h], fun h' => ⟨_, rfl, rfl, rfl, fun evs => ?_⟩⟩
    unfold UdpSocket.readBufferSize
    rw [(readMany_keeps evs _).1, List.length_replicate]
    omega

/-- Writing 250 bytes to each of five properties takes 1272 bytes. -/
theorem bigMessage_size (x : Bytes) (hx : x.length = 250) :
    Built (bigMessage x) ∧ Fits (bigMessage x) ∧ (bigMessage x).bytes.length = 1272 ∧
    ∀ o ∈ (bigMessage x).ep, ∃ p, o = some p ∧ p.data ≠ [] := by
  have hb : Built (bigMessage x) :=
    .addProperty _ (.addProperty _ (.addProperty _ (.addProperty _ (.addProperty _
      (.setESV _ (.setTID _ .new))))))
  have hep : (bigMessage x).ep = [some ⟨0xB0, x⟩, some ⟨0xB1, x⟩, some ⟨0xB2, x⟩, some ⟨0xB3, x⟩,
    some ⟨0xB4, x⟩] := rfl
  have hx' : x ≠ [] := by intro h; rw [h] at hx; cases hx
  refine ⟨hb, ⟨rfl, rfl, by rw [hep]; simp, ?_⟩, ?_, ?_⟩
  · rw [hep]
    intro o ho
    simp only [List.mem_cons, List.not_mem_nil, or_false] at ho
    rcases ho with rfl | rfl | rfl | rfl | rfl <;> exact ⟨_, rfl, by show x.length ≤ 255; omega⟩
  · rw [bytes_eq (Built.wf hb)]
    have hw : wireProps (bigMessage x) = [⟨0xB0, x⟩, ⟨0xB1, x⟩, ⟨0xB2, x⟩, ⟨0xB3, x⟩, ⟨0xB4, x⟩] := rfl
    rw [hw]
    simp [encProp, header, (Built.wf hb).tid, (Built.wf hb).seoj, (Built.wf hb).deoj, hx]
  · rw [hep]
    intro o ho
    simp only [List.mem_cons, List.not_mem_nil, or_false] at ho
    rcases ho with rfl | rfl | rfl | rfl | rfl <;> exact ⟨_, rfl, hx'⟩

/-- The message of 1272 bytes that a new socket cuts off (C57) arrives whole with a buffer of 1500 bytes, though not with
one of 1271. -/
example (x : Bytes) (hx : x.length = 250) (evs : List RecvEvent) (to src : Addr) :
    let s := UdpSocket.new.bind "eth0"
    let m := bigMessage x
    let got := { m with src := src, pktType := unknownPacket, ifc := some "eth0" }
    (∃ s', s.setReadBufferSize 1500 = .ok s' ∧
      ((s'.readMany evs).readMessage (.datagram ⟨(UdpSocket.sendMessage to m).data, src⟩)).2 = .ok got) ∧
    (∃ s', s.setReadBufferSize 1271 = .ok s' ∧
      ((s'.readMany evs).readMessage (.datagram ⟨(UdpSocket.sendMessage to m).data, src⟩)).2 ≠ .ok got) := by
  dsimp only
  obtain ⟨hm, hf, hl, hd⟩ := bigMessage_size x hx
  refine ⟨⟨_, rfl, ?_⟩, ⟨_, rfl, fun h => ?_⟩⟩
  · exact (C179_exact (UdpSocket.new.bind "eth0") rfl 1500 _ rfl evs _ hm hf hd to src).2 (by omega)
  · have := (C179_exact (UdpSocket.new.bind "eth0") rfl 1271 _ rfl evs _ hm hf hd to src).1 h
    omega

end Verif.Props
