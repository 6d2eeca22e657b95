import Verif.Lemmas.Built
import Verif.Spec.Esv
import Verif.Props.Wire
import Verif.Props.Codec

/-! # C14, C15, C16: service codes and responses -/

namespace Verif.Props
open Verif Model Spec Lemmas

instance decidableByteForall {p : Byte → Prop} [DecidablePred p] : Decidable (∀ b : Byte, p b) :=
  decidable_of_iff (∀ n : Fin 256, p (BitVec.ofFin n))
    ⟨fun h b => h b.toFin, fun h _ => h _⟩

/-- C14. For every byte: it is valid exactly when the specification lists it. -/
theorem C14_valid : ∀ e : Byte, ESV.isValid e = (Spec.Esv.find e).isSome := by decide +kernel

/-- C14. For every byte, the request, response and notification predicates agree with the
specification. -/
theorem C14_predicates : ∀ e : Byte,
    (ESV.isWriteRequest e = true ↔ ∃ s ∈ Spec.Esv.table, s.code = e ∧ s.kind = .request ∧ s.writes = true) ∧
    (ESV.isReadRequest e = true ↔ ∃ s ∈ Spec.Esv.table, s.code = e ∧ s.kind = .request ∧ s.reads = true) ∧
    (ESV.isNotificationRequest e = true ↔
      ∃ s ∈ Spec.Esv.table, s.code = e ∧ s.kind = .request ∧ s.writes = false ∧ s.reads = false) ∧
    (ESV.isWriteResponse e = true ↔ ∃ s ∈ Spec.Esv.table, s.code = e ∧ s.kind = .response ∧ s.writes = true) ∧
    (ESV.isReadResponse e = true ↔ ∃ s ∈ Spec.Esv.table, s.code = e ∧ s.kind = .response ∧ s.reads = true) ∧
    (ESV.isNotification e = true ↔ ∃ s ∈ Spec.Esv.table, s.code = e ∧ s.kind = .notification) ∧
    (ESV.isNotificationResponse e = true ↔
      ∃ s ∈ Spec.Esv.table, s.code = e ∧ s.kind = .response ∧ s.writes = false ∧ s.reads = false) := by
  decide +kernel

/-- C14. A response is required exactly for the services the specification answers. -/
theorem C14_required : ∀ e : Byte,
    (ESV.isResponseRequired e = true ↔ ∃ s ∈ Spec.Esv.table, s.code = e ∧ s.reply ≠ none) := by
  decide +kernel

/-- C14. Error responses are never requests, notifications or responses. -/
theorem C14_errors : ∀ s ∈ Spec.Esv.table, s.kind = .error →
    ESV.isWriteRequest s.code = false ∧ ESV.isReadRequest s.code = false ∧
    ESV.isNotificationRequest s.code = false ∧ ESV.isResponseRequired s.code = false ∧
    ESV.isWriteResponse s.code = false ∧ ESV.isReadResponse s.code = false ∧
    ESV.isNotification s.code = false ∧ ESV.isNotificationResponse s.code = false := by
  decide +kernel

theorem respBase_fields (req : Message) (h : Built req) :
    (respBase req).getTID = req.getTID ∧ (respBase req).getSEOJ = req.getDEOJ ∧
    (respBase req).getDEOJ = req.getSEOJ := by
  have hw := Built.wf h
  refine ⟨?_, ?_, ?_⟩
  · show (Message.new.setTID req.getTID).getTID = _
    apply BitVec.eq_of_toNat_eq
    rw [C10_tid _ .new, if_pos (C10_tid_le req h)]
  · show ((Message.new.setTID req.getTID).setSEOJ req.getDEOJ).getSEOJ = _
    apply BitVec.eq_of_toNat_eq
    rw [(C13_eoj _ (.setTID _ .new) _).1, Nat.mod_eq_of_lt]
    rw [getDEOJ_toNat hw.deoj]
    have := beNat_lt req.deoj
    rw [hw.deoj] at this
    omega
  · show (((Message.new.setTID req.getTID).setSEOJ req.getDEOJ).setDEOJ req.getSEOJ).getDEOJ = _
    apply BitVec.eq_of_toNat_eq
    rw [(C13_eoj _ (.setSEOJ _ (.setTID _ .new)) _).2.1, Nat.mod_eq_of_lt]
    rw [getSEOJ_toNat hw.seoj]
    have := beNat_lt req.seoj
    rw [hw.seoj] at this
    omega

/-- The reply code the specification pairs with a service, 0 if none. -/
def specReply (e : Byte) : Byte := ((Spec.Esv.find e).bind (·.reply)).getD 0

/-- C15. The response to a request keeps the TID, swaps the objects, carries the reply code the
specification pairs with the request, and has no properties. -/
theorem C15_response (req : Message) (h : Built req) :
    req.newResponse.getTID = req.getTID ∧ req.newResponse.getSEOJ = req.getDEOJ ∧
    req.newResponse.getDEOJ = req.getSEOJ ∧ req.newResponse.esv = specReply req.esv ∧
    req.newResponse.getOPC = 0 ∧ req.newResponse.ep = [] ∧
    req.newResponse.ehd1 = 0x10 ∧ req.newResponse.ehd2 = 0x81 := by
  rw [newResponse_eq]
  obtain ⟨h1, h2, h3⟩ := respBase_fields req h
  refine ⟨h1, h2, h3, ?_, rfl, rfl, rfl, rfl⟩
  show responseESV req.esv = specReply req.esv
  have : ∀ e : Byte, responseESV e = specReply e := by decide +kernel
  exact this _

example : sampleMessage.newResponse.getSEOJ = 0x013001 ∧
    sampleMessage.newResponse.getDEOJ = 0x05FF01 ∧ sampleMessage.newResponse.esv = 0x72 := by decide

/-- The refusal code the specification pairs with a service; the library uses 0x53 for
INFC, 0 for everything that is not a request. -/
def specRefusal (e : Byte) : Byte :=
  if e = 0x74 then 0x53 else ((Spec.Esv.find e).bind (·.refusal)).getD 0

/-- C16, the part that holds: the header of an error response is right. Its properties are
not: see `C16_refuted`. -/
theorem C16_header_partial (req : Message) (h : Built req) :
    ∃ r, req.newImpossible = .ok r ∧ r.getTID = req.getTID ∧ r.getSEOJ = req.getDEOJ ∧
      r.getDEOJ = req.getSEOJ ∧ r.esv = specRefusal req.esv ∧ r.ehd1 = 0x10 ∧ r.ehd2 = 0x81 := by
  refine ⟨_, newImpossible_eq req, ?_⟩
  obtain ⟨h1, h2, h3⟩ := respBase_fields req h
  refine ⟨h1, h2, h3, ?_, rfl, rfl⟩
  show impossibleESV req.esv = specRefusal req.esv
  have : ∀ e : Byte, impossibleESV e = specRefusal e := by decide +kernel
  exact this _

/-- C16, refuted for every request: an error response holds twice as many properties as the
request announces, all of them with code 0 and no data, and announces this number modulo 256. -/
theorem C16_refuted (req : Message) :
    ∃ r, req.newImpossible = .ok r ∧ r.ep = List.replicate (2 * req.getOPC) (some ⟨0, []⟩) ∧
      r.getOPC = 2 * req.getOPC % 256 := by
  refine ⟨_, newImpossible_eq req, ?_, ?_⟩
  · simp only [Message.getOPC, Nat.two_mul]
    rfl
  · simp [Message.getOPC, Nat.two_mul]

/-- C16, refuted: the property as stated is false. -/
theorem C16_refuted_statement :
    ¬ ∀ req : Message, Built req → ∃ r, req.newImpossible = .ok r ∧
      r.ep.map (Option.map (·.code)) = req.ep.map (Option.map (·.code)) := by
  intro h
  obtain ⟨r, h1, h2⟩ := h (Message.new.addProperty (some ⟨0x80, []⟩)) (.addProperty _ .new)
  obtain ⟨r', h3, h4, _⟩ := C16_refuted (Message.new.addProperty (some ⟨0x80, []⟩))
  rw [h1] at h3
  injection h3 with h3
  subst h3
  rw [h4] at h2
  revert h2
  decide

end Verif.Props
