import Verif.Lemmas.Fields

/-! Round trip lemmas. -/

namespace Verif.Lemmas
open Verif Model Spec

theorem encProp_ofWire (p : WireProp) : encProp (ofWire p) = p.encode := rfl

theorem lenient_encode_add (ps : List WireProp) (r : Nat) (tail : Bytes)
    (h : ∀ p ∈ ps, p.edt.length < 256) :
    lenientProps (ps.length + r) (ps.flatMap WireProp.encode ++ tail)
      = ps ++ lenientProps r tail := by
  induction ps with
  | nil => simp
  | cons p ps ih =>
    have hp := h p (by simp)
    have hl : (BitVec.ofNat 8 p.edt.length).toNat = p.edt.length := by
      simp; omega
    have ih' := ih (fun q hq => h q (by simp [hq]))
    rw [show (p :: ps).length + r = (ps.length + r) + 1 by simp; omega]
    simp only [List.flatMap_cons, WireProp.encode, List.cons_append,
      List.append_assoc, lenientProps, hl]
    rw [if_neg (by simp)]
    simp only [List.take_left', List.drop_left', ih']

theorem lenient_encode (ps : List WireProp) (tail : Bytes) (h : ∀ p ∈ ps, p.edt.length < 256) :
    lenientProps ps.length (ps.flatMap WireProp.encode ++ tail) = ps := by
  have := lenient_encode_add ps 0 tail h
  simpa [lenientProps] using this

theorem lenient_small (k : Nat) (bs : Bytes) : ∀ p ∈ lenientProps k bs, p.edt.length < 256 := by
  induction k generalizing bs with
  | zero => simp [lenientProps]
  | succ k ih =>
    match bs with
    | [] =>
      intro p hp
      simp only [lenientProps, List.mem_cons] at hp
      rcases hp with rfl | hp
      · simp
      · exact ih [] p hp
    | [c] =>
      intro p hp
      simp only [lenientProps, List.mem_cons] at hp
      rcases hp with rfl | hp
      · simp
      · exact ih [] p hp
    | c :: l :: rest =>
      intro p hp
      have hl : l.toNat < 256 := l.isLt
      simp only [lenientProps] at hp
      split at hp
      · rcases List.mem_cons.mp hp with rfl | hp
        · simp
        · exact ih _ p hp
      · rcases List.mem_cons.mp hp with rfl | hp
        · simp; omega
        · exact ih _ p hp

theorem filterMap_some {α : Type} (l : List α) : (l.map some).filterMap id = l := by
  induction l with
  | nil => rfl
  | cons a l ih => simp [ih]

theorem wireProps_some {m : Message} (h : WF m) {ps : List PProp} (hp : m.ep = ps.map some)
    (hl : ps.length < 256) : wireProps m = ps ∧ m.opc.toNat = ps.length := by
  have ho : m.opc.toNat = ps.length := by
    rw [h.opc, hp, List.length_map, Nat.mod_eq_of_lt hl]
  refine ⟨?_, ho⟩
  rw [wireProps, ho, hp, List.take_of_length_le (by simp), filterMap_some]

/-- A message whose properties are all present and fit is decoded from its encoding,
followed by anything. -/
theorem newWithBytes_bytes {m : Message} (h : WF m) (h1 : m.ehd1 = 0x10) (h2 : m.ehd2 = 0x81)
    {ps : List PProp} (hp : m.ep = ps.map some) (hl : ps.length < 256)
    (hd : ∀ p ∈ ps, p.data.length < 256) (tail : Bytes) :
    Message.newWithBytes (m.bytes ++ tail) =
      .ok { m with src := Message.new.src, pktType := 0, ifc := none } := by
  obtain ⟨hwp, ho⟩ := wireProps_some h hp hl
  rw [bytes_eq h, hwp]
  obtain ⟨t0, t1, ht⟩ : ∃ t0 t1, m.tid = [t0, t1] := by
    have := h.tid
    match hh : m.tid with
    | [a, b] => exact ⟨a, b, rfl⟩
    | [] | [_] | _ :: _ :: _ :: _ => simp [hh] at this
  obtain ⟨s0, s1, s2, hs⟩ : ∃ a b c, m.seoj = [a, b, c] := by
    have := h.seoj
    match hh : m.seoj with
    | [a, b, c] => exact ⟨a, b, c, rfl⟩
    | [] | [_] | [_, _] | _ :: _ :: _ :: _ :: _ => simp [hh] at this
  obtain ⟨d0, d1, d2, hdj⟩ : ∃ a b c, m.deoj = [a, b, c] := by
    have := h.deoj
    match hh : m.deoj with
    | [a, b, c] => exact ⟨a, b, c, rfl⟩
    | [] | [_] | [_, _] | _ :: _ :: _ :: _ :: _ => simp [hh] at this
  have hh : header m = [0x10, 0x81, t0, t1, s0, s1, s2, d0, d1, d2, m.esv, m.opc] := by
    simp [header, ht, hs, hdj, h1, h2]
  rw [hh]
  simp only [List.cons_append, List.nil_append]
  rw [newWithBytes_cons]
  have hw : lenientProps m.opc.toNat (ps.flatMap encProp ++ tail)
      = ps.map (fun p => (⟨p.code, p.data⟩ : WireProp)) := by
    have := lenient_encode (ps.map (fun p => (⟨p.code, p.data⟩ : WireProp))) tail
      (by intro p hp; obtain ⟨q, hq, rfl⟩ := List.mem_map.mp hp; exact hd q hq)
    rw [List.length_map, ← ho, List.flatMap_map] at this
    exact this
  unfold decoded
  rw [hw]
  congr 1
  obtain ⟨a, b, c, d, e, f, g, ep, i, j, k⟩ := m
  simp only at *
  subst h1 h2 ht hs hdj hp
  simp [ofWire]

end Verif.Lemmas
