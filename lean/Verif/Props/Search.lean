import Verif.Props.Codec
import Verif.Model.Controller

/-! # C68: searching for an object -/

namespace Verif.Props
open Verif Model Spec Lemmas

theorem announceMessage_running (n : Node) (m : Message) (h : n.running = true) :
    n.announceMessage m = (n.nextTID, [(m.setTID n.nextTID.lastTID).setDEOJ nodeProfileObjectCode], none) := by
  unfold Node.announceMessage
  rw [h]
  rfl

/-- C68 is false, in general: whatever object and service a running controller is asked to search
for, the one request multicast is addressed to the node profile object. -/
theorem C68_refuted (c : Ctrl) (h : c.node.running = true) (code : ObjectCode) (esv : ESV) :
    ∃ q, (c.searchObjectWithESV code esv).2 = ([q], none) ∧ q.getDEOJ = 0x0EF001 := by
  unfold Ctrl.searchObjectWithESV
  rw [announceMessage_running _ _ h]
  refine ⟨_, rfl, ?_⟩
  have hb : Built (((Ctrl.searchMessage.setESV esv).setDEOJ code).setTID c.node.nextTID.lastTID) :=
    .setTID _ (.setDEOJ _ (.setESV _ (.addProperty _ (.setDEOJ _ (.setSEOJ _ (.setESV _ .new))))))
  apply BitVec.eq_of_toNat_eq
  rw [(C13_eoj _ hb nodeProfileObjectCode).2.1]
  rfl

/-- C68 is false: searching for a light asks for no light. -/
theorem C68_refuted_statement : ¬ ∀ (c : Ctrl) (code : ObjectCode), c.node.running = true →
    code.toNat < 2 ^ 24 → ∃ q, (c.searchObjectWithESV code 0x62).2 = ([q], none) ∧ q.getDEOJ = code := by
  intro h
  obtain ⟨q, h1, h2⟩ := h ⟨{ Node.initial with running := true }, [], false, [], false⟩ 0x029001 rfl (by decide)
  obtain ⟨q', h3, h4⟩ := C68_refuted ⟨{ Node.initial with running := true }, [], false, [], false⟩ rfl
    0x029001 0x62
  rw [h1] at h3
  cases h3
  rw [h2] at h4
  revert h4
  decide

/-- C68, the part that holds: everything but the object. One request is multicast, with the service
asked for, a new identifier, from the node profile and for the instance list, and the next message
gets another identifier; a controller that is not running reports an error and sends nothing. Nothing
else of the controller changes. Missing: the object searched for. -/
theorem C68_request_partial (c : Ctrl) (code : ObjectCode) (esv : ESV) :
    (c.node.running = true → ∃ q, (c.searchObjectWithESV code esv).2 = ([q], none) ∧
      q.esv = esv ∧ q.getSEOJ = 0x0EF001 ∧ q.ep = [some ⟨0xD6, []⟩] ∧ q.getOPC = 1 ∧
      (c.node.lastTID.toNat ≤ 65535 → q.getTID.toNat = (c.node.lastTID.toNat + 1) % 65536 ∧
        (c.searchObjectWithESV code esv).1.node.lastTID = q.getTID)) ∧
    (c.node.running = false → (c.searchObjectWithESV code esv).2 = ([], some .invalid)) ∧
    ∃ t, (c.searchObjectWithESV code esv).1 = { c with node := { c.node with lastTID := t } } := by
  refine ⟨?_, ?_, ?_⟩
  · intro h
    unfold Ctrl.searchObjectWithESV
    rw [announceMessage_running _ _ h]
    refine ⟨_, rfl, rfl, ?_, rfl, rfl, ?_⟩
    · show byteToInteger 64 Ctrl.searchMessage.seoj = _
      decide
    · intro hl
      have hb : Built ((Ctrl.searchMessage.setESV esv).setDEOJ code) :=
        .setDEOJ _ (.setESV _ (.addProperty _ (.setDEOJ _ (.setSEOJ _ (.setESV _ .new)))))
      have ht : ∀ (m : Message) (x : ObjectCode), (m.setDEOJ x).getTID = m.getTID := fun _ _ => rfl
      rw [ht]
      have hn : c.node.nextTID.lastTID.toNat = (c.node.lastTID.toNat + 1) % 65536 := by
        unfold Node.nextTID
        by_cases hm : tidMax ≤ c.node.lastTID
        · rw [if_pos hm]
          have : 65535 ≤ c.node.lastTID.toNat := hm
          have e : c.node.lastTID.toNat = 65535 := by omega
          rw [e]
          rfl
        · rw [if_neg hm]
          have : ¬ 65535 ≤ c.node.lastTID.toNat := hm
          show (c.node.lastTID + 1).toNat = _
          rw [BitVec.toNat_add]
          show (c.node.lastTID.toNat + 1) % 2 ^ 64 = _
          omega
      have hq := C10_tid _ hb c.node.nextTID.lastTID
      rw [hn, if_pos (by omega)] at hq
      exact ⟨hq, BitVec.eq_of_toNat_eq (by rw [hq]; exact hn)⟩
  · intro h
    unfold Ctrl.searchObjectWithESV Node.announceMessage
    rw [h]
    rfl
  · cases h : c.node.running with
    | true =>
      unfold Ctrl.searchObjectWithESV
      rw [announceMessage_running _ _ h]
      refine ⟨c.node.nextTID.lastTID, ?_⟩
      show { c with node := c.node.nextTID } = _
      unfold Node.nextTID
      split <;> rfl
    | false =>
      unfold Ctrl.searchObjectWithESV Node.announceMessage
      rw [h]
      exact ⟨c.node.lastTID, rfl⟩

/-- A running controller searching for the lights with `INF_REQ`. -/
example :
    let c : Ctrl := ⟨{ Node.initial with running := true }, [], false, [], false⟩
    (c.searchObjectWithESV 0x029001 0x63).2.1.map Message.bytes =
      [[0x10, 0x81, 0, 1, 0x0E, 0xF0, 0x01, 0x0E, 0xF0, 0x01, 0x63, 1, 0xD6, 0]] := by decide +kernel

end Verif.Props
