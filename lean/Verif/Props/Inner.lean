import Verif.Props.Pointers
import Verif.Props.ObjectCodes
import Verif.Props.Announce

/-!
# C150: the object a handler gets

A device wraps an inner object. Request handlers and listeners get the inner object, and `Object()` of a property
returns it. `bareAdd`, `bareSetCode` and `bareSetCodes` are the calls on it that differ from those on the device.
-/

namespace Verif.Props
open Verif Model Spec Lemmas

/-- The same method, called on the inner object instead of the device. -/
def onInner : ObjOp → ObjOp
  | .add p => .bareAdd p
  | .setCode c => .bareSetCode c
  | .setCodes cs => .bareSetCodes cs
  | op => op

/-- A map of property codes starts with their number. -/
theorem describes_count {d : Bytes} {cs : List Byte} (h : Describes d cs) : d.head? = some (BitVec.ofNat 8 cs.length) := by
  unfold Describes at h
  by_cases hl : cs.length ≤ 15
  · rw [propertyMapBytes_format1 cs hl] at h
    cases h; rfl
  · rw [propertyMapBytes_format2 cs (by omega)] at h
    cases h; rfl

theorem count_differs (n : Nat) : BitVec.ofNat 8 n ≠ BitVec.ofNat 8 (n + 1) := by
  intro h
  have := congrArg BitVec.toNat h
  simp only [BitVec.toNat_ofNat] at this
  omega

theorem codeList_nodup {o : Obj} {sel : EProp → Prop} {cs : List Byte} (h : IsCodeList o sel cs) : cs.Nodup :=
  h.1.imp (fun hab e => by subst e; exact absurd hab (by simp))

/-- Two code lists of which the second has one code more are not described by the same data. -/
theorem one_more {d : Bytes} {cs cs' : List Byte} {x : Byte} (h : cs.Nodup) (h' : cs'.Nodup) (hx : x ∉ cs)
    (hm : ∀ c, c ∈ cs' ↔ c = x ∨ c ∈ cs) (hd : Describes d cs) (hd' : Describes d cs') : False := by
  have hp : cs'.Perm (x :: cs) := (List.perm_ext_iff_of_nodup h' (List.nodup_cons.mpr ⟨hx, h⟩)).mpr (fun c => by
    rw [hm, List.mem_cons])
  have e := describes_count hd
  rw [describes_count hd', hp.length_eq] at e
  exact count_differs cs.length (Option.some.inj e).symm

/-- One of the three maps, when a property is added to the inner object: it stays right exactly when the property
replaces one of the same kind, or is new and not of the kind the map lists. -/
theorem inner_map {o : Obj} {sel : EProp → Prop} {q p : EProp} {x : Byte} (hx : p.code ≠ x)
    (hq : o.props.lookup x = some q) (h : ∃ cs, IsCodeList o sel cs ∧ Describes q.data cs) :
    (o.addProperty p).props.lookup x = some q ∧
    ((∃ cs, IsCodeList (o.addProperty p) sel cs ∧ Describes q.data cs) ↔
      (sel p ↔ ∃ r, o.props.lookup p.code = some r ∧ sel r)) := by
  have hl : ∀ c, (o.addProperty p).props.lookup c = if c = p.code then some p else o.props.lookup c := fun c =>
    lookup_add o.props p c
  refine ⟨by rw [hl, if_neg (Ne.symm hx)]; exact hq, ?_⟩
  obtain ⟨cs, hc, hd⟩ := h
  have mem' : ∀ {cs'}, IsCodeList (o.addProperty p) sel cs' → ∀ c, c ∈ cs' ↔ if c = p.code then sel p else c ∈ cs := by
    intro cs' h' c
    rw [h'.2 c, hl]
    split
    · constructor
      · rintro ⟨r, e, hr⟩; cases e; exact hr
      · exact fun hp => ⟨p, rfl, hp⟩
    · exact (hc.2 c).symm
  constructor
  · rintro ⟨cs', hc', hd'⟩
    have hm := mem' hc'
    constructor
    · intro hp
      refine Classical.byContradiction fun hno => ?_
      have hx : p.code ∉ cs := fun hin => hno ((hc.2 _).mp hin)
      refine one_more (codeList_nodup hc) (codeList_nodup hc') hx (fun c => ?_) hd hd'
      rw [hm c]
      split
      · next e => exact ⟨fun _ => .inl e, fun _ => hp⟩
      · next e => exact ⟨.inr, fun h => h.resolve_left e⟩
    · intro hr
      refine Classical.byContradiction fun hno => ?_
      have hin : p.code ∈ cs := (hc.2 _).mpr hr
      have hnin : p.code ∉ cs' := fun h => hno (by have := (hm p.code).mp h; rwa [if_pos rfl] at this)
      refine one_more (codeList_nodup hc') (codeList_nodup hc) hnin (fun c => ?_) hd' hd
      rw [hm c]
      by_cases e : c = p.code
      · subst e; exact ⟨fun _ => .inl rfl, fun _ => hin⟩
      · rw [if_neg e]; exact ⟨.inr, fun h => h.resolve_left e⟩
  · intro hiff
    refine ⟨cs, ⟨hc.1, fun c => ?_⟩, hd⟩
    rw [hl, hc.2 c]
    split
    · next e =>
      subst e
      constructor
      · exact fun h => ⟨p, rfl, hiff.mpr h⟩
      · rintro ⟨r, e, hr⟩
        cases e
        exact hiff.mp hr
    · exact Iff.rfl

/-- C150. A property that is added to the inner object of a device with right property maps leaves the maps right exactly
when, for each map the device has, a property of the same kind was already there under its code, or it is of another
kind. -/
theorem C150_maps (db : StdDB) (o : Obj) (h : MapsDescribe o) (p : EProp) (hp : ¬ IsMapCode p.code) :
    MapsDescribe ((onInner (.add p)).run db o).1 ↔
      (o.props.lookup 0x9F ≠ none → (p.getAttr ≠ 0 ↔ ∃ r, o.props.lookup p.code = some r ∧ r.getAttr ≠ 0)) ∧
      (o.props.lookup 0x9E ≠ none → (p.setAttr ≠ 0 ↔ ∃ r, o.props.lookup p.code = some r ∧ r.setAttr ≠ 0)) ∧
      (o.props.lookup 0x9D ≠ none → (p.annoAttr ≠ 0 ↔ ∃ r, o.props.lookup p.code = some r ∧ r.annoAttr ≠ 0)) := by
  show MapsDescribe (o.addProperty p) ↔ _
  have one : ∀ (x : Byte) (sel : EProp → Prop), p.code ≠ x →
      (∀ q, o.props.lookup x = some q → ∃ cs, IsCodeList o sel cs ∧ Describes q.data cs) →
      ((∀ q, (o.addProperty p).props.lookup x = some q →
          ∃ cs, IsCodeList (o.addProperty p) sel cs ∧ Describes q.data cs) ↔
        (o.props.lookup x ≠ none → (sel p ↔ ∃ r, o.props.lookup p.code = some r ∧ sel r))) := by
    intro x sel hx hm
    cases hq : o.props.lookup x with
    | none =>
      have : (o.addProperty p).props.lookup x = none := by
        rw [show (o.addProperty p).props.lookup x = if x = p.code then some p else o.props.lookup x from
          lookup_add o.props p x, if_neg (Ne.symm hx)]
        exact hq
      rw [this]
      exact ⟨fun _ h => absurd rfl h, fun _ q h => by cases h⟩
    | some q =>
      obtain ⟨h1, h2⟩ := inner_map (sel := sel) hx hq (hm q hq)
      rw [h1]
      constructor
      · exact fun h _ => h2.mp (h q rfl)
      · intro h q' e
        cases e
        exact h2.mpr (h (by simp))
  unfold IsMapCode at hp
  obtain ⟨a, b, c⟩ : p.code ≠ 0x9D ∧ p.code ≠ 0x9E ∧ p.code ≠ 0x9F :=
    ⟨fun e => hp (.inl e), fun e => hp (.inr (.inl e)), fun e => hp (.inr (.inr e))⟩
  exact and_congr (one 0x9F (fun q => q.getAttr ≠ 0) c h.1) (and_congr (one 0x9E (fun q => q.setAttr ≠ 0) b h.2.1)
    (one 0x9D (fun q => q.annoAttr ≠ 0) a h.2.2))

/-- C150, refuted. Whatever a device went through, as long as its maps were left to it: if it has a map of the readable
properties, a new readable property that a handler adds to the object it was given is there, but the map does not list
it; the same call on the device keeps the maps right. -/
theorem C150_refuted_any (db : StdDB) (ops : List ObjOp) (hops : ∀ op ∈ ops, NoMapWrite op) (o : Obj)
    (ho : o = ObjOp.runAll db (Obj.newSuper db) ops) (hmap : o.props.lookup 0x9F ≠ none) (p : EProp)
    (hp : ¬ IsMapCode p.code) (hnew : o.props.lookup p.code = none) (hg : p.getAttr ≠ 0) :
    ((onInner (.add p)).run db o).1.props.lookup p.code = some p ∧
    ¬ MapsDescribe ((onInner (.add p)).run db o).1 ∧
    MapsDescribe ((ObjOp.add p).run db o).1 := by
  have h0 : MapsDescribe o := C23_maps_current db ops hops o ho
  refine ⟨?_, fun h => ?_, ?_⟩
  · exact (lookup_add o.props p p.code).trans (if_pos rfl)
  · obtain ⟨r, hr, -⟩ := (((C150_maps db o h0 p hp).mp h).1 hmap).mp hg
    rw [hnew] at hr
    cases hr
  · refine C23_maps_current db (ops ++ [.add p]) (fun op hop => ?_) _ (by
      unfold ObjOp.runAll at ho ⊢
      rw [List.foldl_append, ← ho]
      rfl)
    rcases List.mem_append.mp hop with hop | hop
    · exact hops op hop
    · cases List.mem_singleton.mp hop
      exact ⟨fun c d e => (by cases e), fun p e => (by cases e)⟩

/-- C150, refuted. A code of a standard class that is set on the inner object is the code of the device, but the
standard properties of the class that the device did not have are not there, and its class name stays; set on the device, it
brings them. -/
theorem C150_refuted_code (db : StdDB) (o : Obj) (hw : o.codes.length = 3) (c : ObjectCode) (hc : c.toNat < 2 ^ 24)
    (std : Obj) (hs : db.lookupObject c = some std) (x : Byte) (hx : ¬ IsMapCode x) (p : EProp)
    (hp : std.props.lookup x = some p) (hno : o.props.lookup x = none) :
    let inner := ((onInner (.setCode c)).run db o).1
    let outer := ((ObjOp.setCode c).run db o).1
    inner.code = c ∧ inner.props.lookup x = none ∧ inner.clsName = o.clsName ∧
    outer.code = c ∧ outer.props.lookup x = some p.copy := by
  intro inner outer
  have hcode : (o.setCode c).code = c := by
    apply BitVec.eq_of_toNat_eq
    show (byteToInteger 64 (integerToByte c o.codes)).toNat = _
    rw [C01_write_read, hw]
    exact Nat.mod_eq_of_lt (by simpa using hc)
  refine ⟨hcode, hno, rfl, ?_, ?_⟩
  · have : outer.codes = (o.setCode c).codes := run_codes db o (.setCode c)
    unfold Obj.code at hcode ⊢
    rw [this, hcode]
  · have := C24_super db o (.setCode c) x hx
    rw [show outer.props.lookup x = _ from this]
    unfold superStep
    dsimp only
    rw [hcode, hs]
    show ((std.props.lookup x).map (·.copy)).or _ = _
    rw [hp]
    rfl

/-- C150, the part that holds. Apart from the standard properties of a new code and the data of the property maps, a method
of the inner object does what it does on the device: the code of the device is the same afterwards, and so are all
its properties but the three maps, if the method does not set the code. -/
theorem C150_agree_partial (db : StdDB) (o : Obj) (op : ObjOp) :
    ((onInner op).run db o).1.codes = (op.run db o).1.codes ∧
    ((∀ c, op ≠ .setCode c) → (∀ cs, op ≠ .setCodes cs) → ∀ x, ¬ IsMapCode x →
      ((onInner op).run db o).1.props.lookup x = (op.run db o).1.props.lookup x) := by
  constructor
  · rw [run_codes, run_codes]
    cases op <;> rfl
  · intro h1 h2 x hx
    rw [C24_super db o _ x hx, C24_super db o _ x hx]
    cases op with
    | setCode c => exact absurd rfl (h1 c)
    | setCodes cs => exact absurd rfl (h2 cs)
    | _ => rfl

/-- C150, the part that holds. After every history of calls, on the device or its inner object and even with writes to
the maps, the next `AddProperty` on the device makes all its property maps right. -/
theorem C150_repaired_partial (db : StdDB) (ops : List ObjOp) (p : EProp) :
    MapsDescribe (ObjOp.runAll db (Obj.newSuper db) (ops ++ [.add p])) := by
  unfold ObjOp.runAll
  rw [List.foldl_append]
  have hw : OWF (ops.foldl (fun o op => (op.run db o).1) (Obj.newSuper db)) := Reached.owf ⟨ops, rfl⟩
  exact mapsCurrent_describe (hw.superAddProperty p) (MapsCurrent.superAddProperty hw p)

/-- C41. `Announce` of a property of an object of a running node multicasts one notification with the data it has,
whether it is announceable or not, and changes no object; there is none for a property the object does not have. -/
theorem C41_by_hand (db : StdDB) (n : Node) (hn : NodeReached db n) (hr : n.running = true)
    (r : ObjRef) (o : Obj) (ho : n.get r = some o) (c : Byte) :
    (∀ p, o.props.lookup c = some p →
      ∃ m, ((NodeOp.obj r (.announce c)).run db n).2 = [.multicast m] ∧
        IsNotification m ((n.lastTID.toNat + 1) % 65536) o.codes c p.data) ∧
    (o.props.lookup c = none → ((NodeOp.obj r (.announce c)).run db n).2 = []) ∧
    (∀ r', ((NodeOp.obj r (.announce c)).run db n).1.get r' = n.get r') := by
  have hrun : ((NodeOp.obj r (.announce c)).run db n).2 = (infs n.lastTID (o.announceProperty c)).map .multicast := by
    simp only [NodeOp.run, Node.onObj, ho, casts, Node.dropErr, ObjOp.run]
    rw [emit_eq, show ∀ x, (n.set r x).running = n.running by intro x; cases r <;> rfl, hr,
      show ∀ x, (n.set r x).lastTID = n.lastTID by intro x; cases r <;> rfl]
    rfl
  refine ⟨fun p hp => ?_, fun hp => ?_, fun r' => ?_⟩
  · rw [hrun]
    unfold Obj.announceProperty
    rw [hp]
    have hc : p.toProtocol = ⟨c, p.data⟩ := by
      rw [← lookup_code hp]
      rfl
    refine ⟨infMessage (nextId n.lastTID) ⟨o.code, ⟨c, p.data⟩⟩, by dsimp only; rw [hc]; rfl, ?_⟩
    have := infMessage_is (nextId n.lastTID) (nextId_le _ hn.tid) o (hn.owf r o ho) c p.data
    rw [nextId_toNat _ hn.tid] at this
    exact this
  · rw [hrun]
    unfold Obj.announceProperty
    rw [hp]
    rfl
  · show (n.onObj r _).1.get r' = _
    rw [onObj_get]
    split
    · next e => subst e; rw [ho]; rfl
    · rfl

/-- A handler of an air conditioner is given the inner object and adds the new readable property 0xF0. -/
example : let o := ObjOp.runAll stdDB (Obj.newSuper stdDB) [.setCode 0x013001]
    o.props.lookup 0x9F ≠ none ∧ o.props.lookup 0xF0 = none ∧ ¬ IsMapCode 0xF0 ∧
    (∀ op ∈ [ObjOp.setCode 0x013001], NoMapWrite op) ∧
    (EProp.make 0xF0 "" [] 1 0 0).getAttr ≠ 0 := by
  refine ⟨by decide +kernel, by decide +kernel, by unfold IsMapCode; decide, ?_, by decide⟩
  intro op hop
  cases List.mem_singleton.mp hop
  exact ⟨fun c d e => (by cases e), fun p e => (by cases e)⟩

/-- A new device and the class of air conditioners, which has property 0xB0. -/
example : (Obj.newSuper stdDB).codes.length = 3 ∧ (stdDB.lookupObject 0x013001).isSome = true ∧
    ((stdDB.lookupObject 0x013001).bind (·.props.lookup 0xB0)).isSome = true ∧
    (Obj.newSuper stdDB).props.lookup 0xB0 = none := by
  decide +kernel

end Verif.Props
