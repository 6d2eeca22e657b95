import Verif.Spec.Controller
import Verif.Props.Device

/-! # Lemmas about instance lists -/

namespace Verif.Lemmas
open Verif Model Spec Props

theorem superSetCode_codes (db : StdDB) (o : Obj) (c : ObjectCode) :
    (o.superSetCode db c).1.codes = integerToByte c o.codes := by
  unfold Obj.superSetCode
  exact std_codes db _ _

theorem codeNumber_eq (c : Bytes) : codeNumber c = byteToInteger 64 c := by
  apply BitVec.eq_of_toNat_eq
  rw [byteToInteger_toNat]
  simp [codeNumber]

theorem codeNumber_bytes (c b : Bytes) (h : c.length = 3) (hb : b.length = 3) :
    integerToByte (codeNumber c) b = c := by
  rw [codeNumber_eq]
  apply C01_read_write
  · rw [h, hb]
  · rw [h]; decide

theorem device_codes {db : StdDB} {c : Bytes} (h : c.length = 3) {o : Obj}
    (ho : Obj.newDeviceWithCode db (codeNumber c) = .ok o) :
    o.codes = c ∧ Obj.newDeviceWithCode db o.code = .ok o := by
  have hc : o.codes = c := by
    unfold Obj.newDeviceWithCode Obj.withDeviceCode at ho
    cases hl : db.lookupObject (codeNumber c) with
    | none => rw [hl] at ho; cases ho
    | some s =>
      rw [hl] at ho
      rw [← Res.ok.inj ho, superSetCode_codes]
      exact codeNumber_bytes c _ h (by unfold Obj.newDevice; rw [newSuper_codes]; rfl)
  refine ⟨hc, ?_⟩
  rw [show o.code = codeNumber c by rw [codeNumber_eq, ← hc]; rfl]
  exact ho

theorem profile_codes (db : StdDB) (c : Bytes) (h : c.length = 3) :
    (Obj.newProfileWithCode db (codeNumber c)).codes = c := by
  unfold Obj.newProfileWithCode
  rw [superSetCode_codes]
  exact codeNumber_bytes c _ h (by rw [newSuper_codes]; rfl)

theorem nodeProfile_codes (db : StdDB) : (Obj.newNodeProfile db).codes = [0x0E, 0xF0, 0x01] := by
  unfold Obj.newNodeProfile Obj.newProfile Obj.newProfileWithCode
  rw [superSetCode_codes, superSetCode_codes, newSuper_codes]
  decide

theorem addInstance_eq (db : StdDB) (data : Bytes) (i : Nat) (n : RemoteNode) (c tail : Bytes)
    (hc : c.length = 3) (hi : i * 3 + 1 ≤ data.length) (hd : data.drop (i * 3 + 1) = c ++ tail) :
    RemoteNode.addInstance db data i n =
      if ofProfile c then .ok (n.addProfile (Obj.newProfileWithCode db (codeNumber c)))
      else Obj.newDeviceWithCode db (codeNumber c) >>= fun o => .ok (n.addDevice o) := by
  unfold RemoteNode.addInstance
  rw [show objectCodeSize = 3 from rfl, sliceFrom, if_pos hi, hd]
  match c, hc with
  | [a, b, d], _ =>
    have e : RemoteNode.copyBytes (List.replicate 3 0) ([a, b, d] ++ tail) = [a, b, d] := by
      simp [RemoteNode.copyBytes]
    simp only [Res.ok_bind, e]
    rw [show ObjectCode.fromBytes [a, b, d] = .ok (codeNumber [a, b, d]) by
      rw [codeNumber_eq]; rfl]
    rw [show rd [a, b, d] 0 = .ok a from rfl]
    have hp : ofProfile [a, b, d] = (a == 0x0E) := rfl
    rw [hp]
    simp only [Res.ok_bind]

/-- The loop over the listed codes. -/
theorem loop_eq (db : StdDB) (data rest : Bytes) (cs : List Bytes) : ∀ (i : Nat) (n : RemoteNode),
    (∀ c ∈ cs, c.length = 3) → i * 3 + 1 ≤ data.length →
    data.drop (i * 3 + 1) = cs.flatten ++ rest →
    (Known db cs → ∃ ds, forFrom (RemoteNode.addInstance db data) cs.length i n =
      .ok { n with devices := n.devices ++ ds,
                   profiles := n.profiles ++
                     (cs.filter ofProfile).map (fun c => Obj.newProfileWithCode db (codeNumber c)) } ∧
      ds.map (·.codes) = cs.filter (fun c => !ofProfile c) ∧
      ∀ o ∈ ds, Obj.newDeviceWithCode db o.code = .ok o) ∧
    (¬ Known db cs → forFrom (RemoteNode.addInstance db data) cs.length i n = .err .other) := by
  induction cs with
  | nil =>
    intro i n _ _ _
    refine ⟨fun _ => ⟨[], ?_, rfl, by simp⟩, fun h => absurd (by simp [Known]) h⟩
    simp [forFrom]
  | cons c cs ih =>
    intro i n hlen hi hd
    have hc := hlen c (List.mem_cons_self ..)
    have hd' : data.drop (i * 3 + 1) = c ++ (cs.flatten ++ rest) := by
      rw [hd]; simp
    have hi' : (i + 1) * 3 + 1 ≤ data.length := by
      have := congrArg List.length hd'
      simp only [List.length_drop, List.length_append] at this
      omega
    have hd2 : data.drop ((i + 1) * 3 + 1) = cs.flatten ++ rest := by
      rw [show (i + 1) * 3 + 1 = i * 3 + 1 + 3 by omega, ← List.drop_drop, hd', ← hc, List.drop_left]
    have hrec := fun n => ih (i + 1) n (fun x hx => hlen x (List.mem_cons_of_mem _ hx)) hi' hd2
    have hstep := addInstance_eq db data i n c _ hc hi hd'
    show _ ∧ (_ → forFrom _ (cs.length + 1) i n = _)
    simp only [List.length_cons, forFrom]
    rw [hstep]
    cases hp : ofProfile c with
    | true =>
      have hk : Known db (c :: cs) ↔ Known db cs := by
        simp [Known, hp]
      rw [hk]
      simp only [if_true, Res.ok_bind]
      obtain ⟨h1, h2⟩ := hrec (n.addProfile (Obj.newProfileWithCode db (codeNumber c)))
      refine ⟨fun h => ?_, h2⟩
      obtain ⟨ds, e1, e2, e3⟩ := h1 h
      refine ⟨ds, ?_, ?_, e3⟩
      · rw [e1]
        simp [RemoteNode.addProfile, hp]
      · rw [e2]; simp [hp]
    | false =>
      simp only [Bool.false_eq_true, if_false]
      cases hl : db.lookupObject (codeNumber c) with
      | none =>
        refine ⟨fun h => ?_, fun _ => ?_⟩
        · have := h c (List.mem_cons_self ..) hp
          rw [hl] at this; cases this
        · rw [(C25_succeeds db (codeNumber c)).2 hl]; rfl
      | some s =>
        obtain ⟨o, ho⟩ := (C25_succeeds db (codeNumber c)).1.mpr (by rw [hl]; rfl)
        rw [ho]
        have hk : Known db (c :: cs) ↔ Known db cs := by
          simp [Known, hl]
        rw [hk]
        simp only [Res.ok_bind]
        obtain ⟨h1, h2⟩ := hrec (n.addDevice o)
        refine ⟨fun h => ?_, h2⟩
        obtain ⟨ds, e1, e2, e3⟩ := h1 h
        obtain ⟨d1, d2⟩ := device_codes hc ho
        refine ⟨o :: ds, ?_, ?_, ?_⟩
        · rw [e1]
          simp [RemoteNode.addDevice, hp]
        · simp [d1, e2, hp]
        · intro x hx
          rcases List.mem_cons.mp hx with rfl | hx
          · exact d2
          · exact e3 x hx

/-- Cutting bytes into codes. -/
theorem split_codes (k : Nat) : ∀ d : Bytes, k * 3 ≤ d.length →
    ∃ cs rest, cs.length = k ∧ (∀ c ∈ cs, c.length = 3) ∧ d = List.flatten cs ++ rest := by
  induction k with
  | zero => intro d _; exact ⟨[], d, rfl, by simp, by simp⟩
  | succ k ih =>
    intro d hd
    obtain ⟨cs, rest, h1, h2, h3⟩ := ih (d.drop 3) (by rw [List.length_drop]; omega)
    refine ⟨d.take 3 :: cs, rest, by simp [h1], ?_, ?_⟩
    · intro c hc
      rcases List.mem_cons.mp hc with rfl | hc
      · rw [List.length_take]; omega
      · exact h2 c hc
    · rw [List.flatten_cons, List.append_assoc, ← h3, List.take_append_drop]

theorem lists_iff (d : Bytes) : (∃ cs, Lists d cs) ↔
    ∃ n t, d = n :: t ∧ n.toNat * 3 + 1 ≤ d.length := by
  constructor
  · rintro ⟨cs, h3, n, rest, rfl, hn⟩
    refine ⟨n, _, rfl, ?_⟩
    have : (List.flatten cs).length = cs.length * 3 := by
      clear hn
      induction cs with
      | nil => rfl
      | cons c cs ih =>
        rw [List.flatten_cons, List.length_append, h3 c (List.mem_cons_self ..),
          ih (fun x hx => h3 x (List.mem_cons_of_mem _ hx)), List.length_cons]
        omega
    rw [List.length_cons, List.length_append, this]
    omega
  · rintro ⟨n, t, rfl, h⟩
    rw [List.length_cons] at h
    obtain ⟨cs, rest, h1, h2, rfl⟩ := split_codes n.toNat t (by omega)
    exact ⟨cs, h2, n, rest, rfl, h1.symm⟩

end Verif.Lemmas
