import Verif.Model.Handler
import Verif.Lemmas.Object

/-! # Helper lemmas about nodes -/

namespace Verif.Lemmas
open Verif Model Spec

/-! Identifiers and announcements -/

/-- The identifier after `t`. -/
def nextId (t : GoUint) : GoUint := if tidMax ≤ t then tidMin else t + 1

theorem nextTID_eq (n : Node) : n.nextTID = { n with lastTID := nextId n.lastTID } := by
  unfold Node.nextTID nextId
  split <;> rfl

theorem nextId_toNat (t : GoUint) (h : t.toNat ≤ 65535) : (nextId t).toNat = (t.toNat + 1) % 65536 := by
  unfold nextId tidMax tidMin
  split
  · next h1 => simp [BitVec.le_def] at h1; rw [show (0 : GoUint).toNat = 0 from rfl]; omega
  · next h1 =>
    simp [BitVec.le_def] at h1
    rw [BitVec.toNat_add]
    have : (1 : GoUint).toNat = 1 := rfl
    rw [this]; omega

theorem nextId_le (t : GoUint) (h : t.toNat ≤ 65535) : (nextId t).toNat ≤ 65535 := by
  rw [nextId_toNat t h]; omega

/-- The message of an announcement with identifier `t`. -/
def infMessage (t : GoUint) (a : Ann) : Message :=
  ((((Message.new.setESV ESV.notification).setSEOJ a.seoj).addProperty (some a.prop)).setTID t).setDEOJ
    nodeProfileObjectCode

/-- The messages of announcements made when the last identifier is `t`, and the last identifier
afterwards. -/
def infs (t : GoUint) : List Ann → List Message
  | [] => []
  | a :: as => infMessage (nextId t) a :: infs (nextId t) as

def advance (t : GoUint) : Nat → GoUint
  | 0 => t
  | k + 1 => advance (nextId t) k

theorem emit_eq (n : Node) (as : List Ann) : n.emit as =
    if n.running then ({ n with lastTID := advance n.lastTID as.length }, infs n.lastTID as)
    else (n, []) := by
  induction as generalizing n with
  | nil => unfold Node.emit; split <;> rfl
  | cons a as ih =>
    unfold Node.emit Node.announceFrom
    by_cases h : n.running
    · simp only [h, Bool.not_true, Bool.false_eq_true, if_false, if_true,
        Node.announceProperty, Node.announceMessage, nextTID_eq, ih]
      rfl
    · simp only [Bool.not_eq_true] at h
      simp only [h, Bool.not_false, if_true, Bool.false_eq_true, if_false, ih]
      rfl

theorem emit_fst (n : Node) (as : List Ann) : ∃ t, (n.emit as).1 = { n with lastTID := t } := by
  rw [emit_eq]
  split
  · exact ⟨_, rfl⟩
  · exact ⟨n.lastTID, rfl⟩

/-- Two nodes that differ at most in the last identifier. -/
def SameBut (n n' : Node) : Prop := n' = { n with lastTID := n'.lastTID }

theorem SameBut.rfl' (n : Node) : SameBut n n := rfl

theorem sameBut_of {n n' : Node} {t : GoUint} (h : n' = { n with lastTID := t }) : SameBut n n' := by
  subst h; rfl

theorem emit_same (n : Node) (as : List Ann) : SameBut n (n.emit as).1 := by
  obtain ⟨t, h⟩ := emit_fst n as
  exact sameBut_of h

theorem SameBut.get {n n' : Node} (h : SameBut n n') (r : ObjRef) : n'.get r = n.get r := by
  rw [h]; cases r <;> rfl

/-! Objects of a node -/

theorem get_set (n : Node) (r r' : ObjRef) (o : Obj) (hr : (n.get r).isSome) :
    (n.set r o).get r' = if r' = r then some o else n.get r' := by
  cases r with
  | device i =>
    cases r' with
    | device j =>
      simp only [Node.get, Node.set, ObjRef.device.injEq] at *
      rw [List.getElem?_set]
      by_cases h : j = i
      · subst h; simp at hr ⊢; exact hr
      · simp [h, Ne.symm h]
    | profile j => simp [Node.get, Node.set]
  | profile i =>
    cases r' with
    | device j => simp [Node.get, Node.set]
    | profile j =>
      simp only [Node.get, Node.set, ObjRef.profile.injEq] at *
      rw [List.getElem?_set]
      by_cases h : j = i
      · subst h; simp at hr ⊢; exact hr
      · simp [h, Ne.symm h]

theorem onObj_get (n : Node) (r r' : ObjRef) (f : Obj → Obj × List Ann) :
    (n.onObj r f).1.get r' = if r' = r then (n.get r).map (fun o => (f o).1) else n.get r' := by
  unfold Node.onObj
  cases h : n.get r with
  | none =>
    simp only [Option.map_none]
    split
    · next e => rw [e, h]
    · rfl
  | some o =>
    simp only [Option.map_some]
    rw [(emit_same _ _).get, get_set n r r' _ (by rw [h]; rfl)]

/-- The parts of a node a call on an object does not change. -/
structure SameFrame (n n' : Node) : Prop where
  devices : n'.devices.length = n.devices.length
  profiles : n'.profiles.length = n.profiles.length
  manufacturer : n'.manufacturer = n.manufacturer
  running : n'.running = n.running
  selfMsg : n'.selfMsg = n.selfMsg
  addr : n'.addr = n.addr
  pending : n'.pending = n.pending

theorem SameFrame.refl (n : Node) : SameFrame n n := ⟨rfl, rfl, rfl, rfl, rfl, rfl, rfl⟩

theorem SameFrame.trans {a b c : Node} (h : SameFrame a b) (k : SameFrame b c) : SameFrame a c :=
  ⟨k.1.trans h.1, k.2.trans h.2, k.3.trans h.3, k.4.trans h.4, k.5.trans h.5, k.6.trans h.6,
   k.7.trans h.7⟩

theorem SameBut.frame {n n' : Node} (h : SameBut n n') : SameFrame n n' := by
  rw [h]; exact ⟨rfl, rfl, rfl, rfl, rfl, rfl, rfl⟩

theorem set_frame (n : Node) (r : ObjRef) (o : Obj) : SameFrame n (n.set r o) := by
  cases r <;> exact ⟨by simp [Node.set], by simp [Node.set], rfl, rfl, rfl, rfl, rfl⟩

theorem onObj_frame (n : Node) (r : ObjRef) (f : Obj → Obj × List Ann) :
    SameFrame n (n.onObj r f).1 := by
  unfold Node.onObj
  cases n.get r with
  | none => exact .refl n
  | some o => exact (set_frame n r _).trans (emit_same _ _).frame

theorem onObjs_frame (n : Node) (f : Obj → Obj × List Ann) (rs : List ObjRef) :
    SameFrame n (n.onObjs f rs).1 := by
  induction rs generalizing n with
  | nil => exact .refl n
  | cons r rs ih => exact (onObj_frame n r f).trans (ih _)

theorem onObjs_get (n : Node) (f : Obj → Obj × List Ann) (rs : List ObjRef) (hn : rs.Nodup)
    (r' : ObjRef) : (n.onObjs f rs).1.get r'
      = if r' ∈ rs then (n.get r').map (fun o => (f o).1) else n.get r' := by
  induction rs generalizing n with
  | nil => rfl
  | cons r rs ih =>
    rw [List.nodup_cons] at hn
    unfold Node.onObjs
    show ((n.onObj r f).1.onObjs f rs).1.get r' = _
    rw [ih _ hn.2, onObj_get]
    by_cases h : r' = r
    · subst h; simp [hn.1]
    · simp [h]

theorem mem_refs (n : Node) (r : ObjRef) : r ∈ n.refs ↔ (n.get r).isSome := by
  cases r <;> simp [Node.refs, Node.get]

theorem refs_nodup (n : Node) : n.refs.Nodup := by
  unfold Node.refs
  rw [List.nodup_append]
  refine ⟨?_, ?_, ?_⟩
  · exact List.Pairwise.map _ (fun a b h e => h (ObjRef.device.inj e)) List.nodup_range
  · exact List.Pairwise.map _ (fun a b h e => h (ObjRef.profile.inj e)) List.nodup_range
  · intro a ha b hb e
    simp only [List.mem_map, List.mem_range] at ha hb
    obtain ⟨i, -, rfl⟩ := ha
    obtain ⟨j, -, rfl⟩ := hb
    cases e

theorem setManufacturerCode_get (n : Node) (c : GoUint) (r : ObjRef) :
    (n.setManufacturerCode c).1.get r = (n.get r).map (fun o => (o.setManufacturerCode c).1) := by
  unfold Node.setManufacturerCode
  dsimp only
  rw [onObjs_get _ _ _ (refs_nodup _)]
  have e : ({ n with manufacturer := c } : Node).get r = n.get r := by cases r <;> rfl
  split
  · rw [e]; rfl
  · next h =>
    rw [mem_refs] at h
    rw [e] at h ⊢
    simp at h
    rw [h]; rfl

theorem setManufacturerCode_frame (n : Node) (c : GoUint) :
    SameFrame { n with manufacturer := c } (n.setManufacturerCode c).1 := onObjs_frame _ _ _

theorem nodeProfile_cases {n : Node} {r : ObjRef} (h : n.nodeProfile = some r) :
    ∃ i, r = .profile i ∧ (n.get r).isSome := by
  have key : ∀ c, n.lookupProfile c = some r → ∃ i, r = .profile i ∧ (n.get r).isSome := by
    intro c h
    unfold Node.lookupProfile at h
    rw [Option.map_eq_some_iff] at h
    obtain ⟨i, hi, rfl⟩ := h
    rw [List.findIdx?_eq_some_iff_getElem] at hi
    obtain ⟨hlt, -⟩ := hi
    exact ⟨i, rfl, by simp [Node.get, hlt]⟩
  unfold Node.nodeProfile at h
  split at h
  · next h' => cases h; exact key _ h'
  · exact key _ h

/-- What `updateNodeProfile` does to the node profile. -/
def profileWrites (devices : List Obj) (classes : List Cls) (o : Obj) : Obj :=
  ((((o.setInstanceCount (BitVec.ofNat 64 devices.length)).1.setClassCount
    (BitVec.ofNat 64 classes.length)).1.setInstanceList devices).1.setClassList classes).1

theorem updateNodeProfile_get (n : Node) (r : ObjRef) : (n.updateNodeProfile).1.get r
    = if n.nodeProfile = some r then (n.get r).map (profileWrites n.devices n.classes) else n.get r := by
  unfold Node.updateNodeProfile
  cases h : n.nodeProfile with
  | none => simp
  | some r0 =>
    dsimp only
    simp only [onObj_get, Option.some.injEq]
    by_cases e : r = r0
    · subst e
      simp only [if_true, Option.map_map]
      rfl
    · rw [if_neg e, if_neg e, if_neg e, if_neg e, if_neg (Ne.symm e)]

theorem updateNodeProfile_frame (n : Node) : SameFrame n (n.updateNodeProfile).1 := by
  unfold Node.updateNodeProfile
  cases n.nodeProfile with
  | none => exact .refl n
  | some r =>
    dsimp only
    refine SameFrame.trans ?_ (onObj_frame _ _ _)
    refine SameFrame.trans ?_ (onObj_frame _ _ _)
    refine SameFrame.trans ?_ (onObj_frame _ _ _)
    exact onObj_frame _ _ _

theorem cls_eq {o : Obj} (h : OWF o) : o.cls = .ok o.clsD ∧ o.codes.take 2 = o.clsD.bytes := by
  obtain ⟨cn, nm, codes, ps⟩ := o
  have := h.codes
  match codes, this with
  | [a, b, c], _ => exact ⟨rfl, rfl⟩

theorem devices_eq_of_get {n n' : Node} (h : ∀ i, n'.get (.device i) = n.get (.device i)) : n'.devices = n.devices := by
  apply List.ext_getElem? 
  exact h

end Verif.Lemmas
