import Verif.Lemmas.Reader
import Verif.Model.Built

/-! Every message obtainable through the API is well formed. -/

namespace Verif.Lemmas
open Verif Model Spec

theorem wf_new : WF Message.new := ⟨rfl, rfl, rfl, rfl⟩

theorem WF.setTID {m : Message} (h : WF m) (v : GoUint) : WF (m.setTID v) :=
  ⟨by simp [Message.setTID, h.tid], h.seoj, h.deoj, h.opc⟩

theorem WF.setSEOJ {m : Message} (h : WF m) (c : ObjectCode) : WF (m.setSEOJ c) :=
  ⟨h.tid, by simp [Message.setSEOJ, integerToByte_length, h.seoj], h.deoj, h.opc⟩

theorem WF.setDEOJ {m : Message} (h : WF m) (c : ObjectCode) : WF (m.setDEOJ c) :=
  ⟨h.tid, h.seoj, by simp [Message.setDEOJ, integerToByte_length, h.deoj], h.opc⟩

theorem WF.setESV {m : Message} (h : WF m) (e : ESV) : WF (m.setESV e) :=
  ⟨h.tid, h.seoj, h.deoj, h.opc⟩

theorem WF.setOPC {m : Message} (h : WF m) (n : Int) : WF (m.setOPC n) := by
  refine ⟨h.tid, h.seoj, h.deoj, ?_⟩
  simp only [Message.setOPC, List.length_replicate]
  have := (BitVec.ofInt 8 n).isLt
  omega

theorem WF.addProperty {m : Message} (h : WF m) (p : Option PProp) : WF (m.addProperty p) := by
  refine ⟨h.tid, h.seoj, h.deoj, ?_⟩
  have := h.opc
  simp only [Message.addProperty, List.length_append, List.length_singleton, BitVec.toNat_add, this]
  show (m.ep.length % 256 + 1) % 256 = _
  omega

/-- Header part of the two response constructors. -/
def respBase (req : Message) : Message :=
  ((Message.new.setTID req.getTID).setSEOJ req.getDEOJ).setDEOJ req.getSEOJ

theorem respBase_wf (req : Message) : WF (respBase req) :=
  ((wf_new.setTID _).setSEOJ _).setDEOJ _

/-- ESV of the error response. -/
def impossibleESV (e : ESV) : ESV :=
  if e = ESV.writeRequest then ESV.writeRequestError
  else if e = ESV.writeRequestResponseRequired then ESV.writeRequestResponseRequiredError
  else if e = ESV.readRequest then ESV.readRequestError
  else if e = ESV.notificationRequest then ESV.notificationRequestError
  else if e = ESV.writeReadRequest then ESV.writeReadRequestError
  else if e = ESV.notificationResponseRequired then ESV.notificationRequestError
  else 0

/-- ESV of the normal response. -/
def responseESV (e : ESV) : ESV :=
  if e = ESV.writeRequestResponseRequired then ESV.writeResponse
  else if e = ESV.readRequest then ESV.readResponse
  else if e = ESV.notificationRequest then ESV.notification
  else if e = ESV.writeReadRequest then ESV.writeReadResponse
  else if e = ESV.notificationResponseRequired then ESV.notificationResponse
  else 0

theorem newResponse_eq (req : Message) :
    req.newResponse = { respBase req with esv := responseESV req.esv } := by
  unfold Message.newResponse responseESV
  simp only [Message.setESV]
  split
  · rfl
  · split
    · rfl
    · split
      · rfl
      · split
        · rfl
        · split <;> rfl

theorem impossible_loop (o : Nat) : ∀ (cnt i : Nat) (m : Message), i + cnt ≤ o →
    m.ep = List.replicate (o + i) (some PProp.new) →
    forFrom (fun n (m : Message) => do
      let reqProp ← m.property n
      .ok (m.addProperty reqProp)) cnt i m
    = .ok { m with
        opc := m.opc + BitVec.ofNat 8 cnt,
        ep := List.replicate (o + i + cnt) (some PProp.new) } := by
  intro cnt
  induction cnt with
  | zero =>
    intro i m _ h
    simp [forFrom, ← h]
  | succ c ih =>
    intro i m hle h
    simp only [forFrom]
    have hlen : i < m.ep.length := by rw [h]; simp; omega
    rw [property_nat m i hlen]
    simp only [Res.ok_bind]
    have hg : m.ep[i] = some PProp.new := by simp [h]
    rw [hg, ih (i + 1) _ (by omega)]
    · simp only [Message.addProperty, Res.ok.injEq, Message.mk.injEq, true_and, and_true]
      refine ⟨?_, ?_⟩
      · rw [BitVec.add_assoc]; congr 1
        apply BitVec.eq_of_toNat_eq
        simp [BitVec.toNat_add]; omega
      · congr 1; omega
    · simp [Message.addProperty, h, ← List.replicate_succ']; omega

theorem newImpossible_eq (req : Message) :
    req.newImpossible = .ok { respBase req with
      esv := impossibleESV req.esv,
      opc := BitVec.ofNat 8 (req.opc.toNat + req.opc.toNat),
      ep := List.replicate (req.opc.toNat + req.opc.toNat) (some PProp.new) } := by
  have key : ∀ m : Message, m.opc = req.opc →
      m.ep = List.replicate req.opc.toNat (some PProp.new) →
      forRange req.getOPC (fun n (m : Message) => do
        let reqProp ← m.property n
        .ok (m.addProperty reqProp)) m
      = .ok { m with
        opc := BitVec.ofNat 8 (req.opc.toNat + req.opc.toNat),
        ep := List.replicate (req.opc.toNat + req.opc.toNat) (some PProp.new) } := by
    intro m h1 h2
    have := impossible_loop req.opc.toNat req.opc.toNat 0 m (by omega) (by simpa using h2)
    rw [forRange, Message.getOPC, this, h1]
    congr 2
    apply BitVec.eq_of_toNat_eq
    simp [BitVec.toNat_add]
  unfold Message.newImpossible
  dsimp only
  rw [key _ (by simp [Message.setOPC, Message.getOPC])
    (by simp [Message.setOPC, Message.getOPC])]
  unfold impossibleESV
  congr 1
  split
  · rfl
  · split
    · rfl
    · split
      · rfl
      · split
        · rfl
        · split
          · rfl
          · split <;> rfl

theorem Built.wf {m : Message} (h : Built m) : WF m := by
  induction h with
  | new => exact wf_new
  | decoded h =>
    obtain ⟨t0, t1, s0, s1, s2, d0, d1, d2, esv, opc, rest, _, rfl⟩ := newWithBytes_ok h
    exact decoded_wf ..
  | read h =>
    obtain ⟨t0, t1, s0, s1, s2, d0, d1, d2, esv, opc, ps, rfl, h2, -, -⟩ := newWithReader_ok h
    exact ⟨rfl, rfl, rfl, by simp [h2]; have := opc.isLt; omega⟩
  | copied _ hc ih =>
    rw [Message.newWithMessage, bytesRes_eq ih, Res.ok_bind] at hc
    obtain ⟨c, hd, hc⟩ := Res.bind_eq_ok.mp hc
    obtain ⟨t0, t1, s0, s1, s2, d0, d1, d2, esv, opc, rest, _, rfl⟩ := newWithBytes_ok hd
    injection hc with hc
    subst hc
    have := decoded_wf t0 t1 s0 s1 s2 d0 d1 d2 esv opc rest
    exact ⟨this.tid, this.seoj, this.deoj, this.opc⟩
  | response _ ih =>
    rw [newResponse_eq]
    exact (((wf_new.setTID _).setSEOJ _).setDEOJ _).setESV _
  | impossible _ hr ih =>
    rw [newImpossible_eq] at hr
    injection hr with hr
    subst hr
    refine ⟨?_, ?_, ?_, by simp⟩
    · exact (respBase_wf _).tid
    · exact (respBase_wf _).seoj
    · exact (respBase_wf _).deoj
  | setEHD _ _ _ ih => exact ⟨ih.tid, ih.seoj, ih.deoj, ih.opc⟩
  | setFrom _ _ ih => exact ⟨ih.tid, ih.seoj, ih.deoj, ih.opc⟩
  | setPacketType _ _ ih => exact ⟨ih.tid, ih.seoj, ih.deoj, ih.opc⟩
  | setInterface _ _ ih => exact ⟨ih.tid, ih.seoj, ih.deoj, ih.opc⟩
  | setTID v _ ih => exact ih.setTID v
  | setSEOJ v _ ih => exact ih.setSEOJ v
  | setDEOJ v _ ih => exact ih.setDEOJ v
  | setESV v _ ih => exact ih.setESV v
  | setOPC v _ ih => exact ih.setOPC v
  | addProperty v _ ih => exact ih.addProperty v

end Verif.Lemmas
