import Verif.Props.Program

/-!
# C165: adding a device a node has already

Objects are added by pointers (`Verif.Model.Program`), so a program can add the same device twice.
-/

namespace Verif.Props
open Verif Model Spec Lemmas

/-- What `updateNodeProfile` does to the objects. -/
theorem updated_objs (w : Prog) (n : Nat) (q : Ptr) : (w.updateNodeProfile n).1.objs q
    = if (w.view n).nodeProfile.bind (w.ptrAt n) = some q then
        profileWrites (w.view n).devices (w.view n).classes (w.objs q)
      else w.objs q := by
  unfold Prog.updateNodeProfile
  cases hr : (w.view n).nodeProfile.bind (w.ptrAt n) with
  | none => rfl
  | some p =>
    dsimp only
    by_cases hp : q = p
    · subst hp
      rw [if_pos rfl]
      simp only [onPtr_objs, if_true]
      rfl
    · rw [if_neg (fun e => hp (Option.some.inj e).symm)]
      rw [onPtr_objs, if_neg hp, onPtr_objs, if_neg hp, onPtr_objs, if_neg hp, onPtr_objs, if_neg hp]

theorem setPropertyData_codes (o : Obj) (c : Byte) (d : Bytes) : (o.setPropertyData c d).1.codes = o.codes := by
  rw [setPropertyData_fst]

theorem written_codes (ds : List Obj) (cs : List Cls) (o : Obj) : (profileWrites ds cs o).codes = o.codes := by
  unfold profileWrites Obj.setClassList
  rw [setPropertyData_codes]
  have h3 : ∀ o : Obj, (o.setInstanceList ds).1.codes = o.codes := by
    intro o
    unfold Obj.setInstanceList
    dsimp only
    split
    · next heq =>
      have := setPropertyData_codes o 0xD5 (Obj.instanceListData ds)
      rw [heq] at this; exact this
    · next o' as' heq =>
      have := setPropertyData_codes o 0xD5 (Obj.instanceListData ds)
      rw [heq] at this
      show (o'.setPropertyData _ _).1.codes = _
      rw [setPropertyData_codes]; exact this
  rw [h3]
  unfold Obj.setClassCount Obj.setInstanceCount
  rw [setPropertyInteger_eq, setPropertyData_codes, setPropertyInteger_eq, setPropertyData_codes]

/-- The program after a device was appended, before the node profile is brought up to date. -/
theorem addDevice_mid (w : Prog) (n : Nat) (p : Ptr) : ∃ v : Prog, (w.addDevice n p).1 = (v.updateNodeProfile n).1 ∧
    (v.nodes n).devs = (w.nodes n).devs ++ [p] ∧ (v.nodes n).profs = (w.nodes n).profs ∧
    ∀ q, v.objs q = if q = p then ((w.objs p).setManufacturerCode (w.nodes n).base.manufacturer).1 else w.objs q := by
  refine ⟨(added w n p { w.nodes n with devs := (w.nodes n).devs ++ [p] }).1, ?_, ?_, ?_, fun q => ?_⟩
  · rw [progAddDevice_eq]
  · rw [(added_nodes w n p _ n).1, if_pos rfl]
  · rw [(added_nodes w n p _ n).2, if_pos rfl]
  · have key : ∀ c : NodeCell, (added w n p c).1.objs q
        = if q = p then ((w.objs p).setManufacturerCode c.base.manufacturer).1 else w.objs q := by
      intro c
      show (Prog.onPtr (w.setNode n c) p
        (fun o => Node.dropErr (o.setManufacturerCode ((w.setNode n c).nodes n).base.manufacturer))).1.objs q = _
      rw [onPtr_objs]
      simp only [Prog.setNode, if_true]
      rfl
    exact key _

theorem addDevice_devs (w : Prog) (n : Nat) (p : Ptr) : ((w.addDevice n p).1.nodes n).devs = (w.nodes n).devs ++ [p] ∧
    ((w.addDevice n p).1.nodes n).profs = (w.nodes n).profs := by
  obtain ⟨v, h1, h2, h3, -⟩ := addDevice_mid w n p
  rw [h1, (updateNodeProfile_same v n).devs, (updateNodeProfile_same v n).profs]
  exact ⟨h2, h3⟩

theorem addDevice_code (w : Prog) (n : Nat) (p q : Ptr) : ((w.addDevice n p).1.objs q).code = (w.objs q).code := by
  obtain ⟨v, h1, -, -, h4⟩ := addDevice_mid w n p
  have hv : (v.objs q).code = (w.objs q).code := by
    rw [h4]
    split
    · next e => subst e; exact setMan_code _ _
    · rfl
  rw [h1, updated_objs, ← hv]
  split
  · unfold Obj.code; rw [written_codes]
  · rfl

/-- Looking up in a list of pointers. -/
theorem findIdx?_ptrs (objs : Ptr → Obj) (l : List Ptr) (c : ObjectCode) :
    (l.map objs).findIdx? (fun o => o.code == c) = l.findIdx? (fun p => (objs p).code == c) := by
  rw [List.findIdx?_map]
  rfl

theorem lookup_ptrs {w w' : Prog} {n : Nat} {p : Ptr} (hd : (w'.nodes n).devs = (w.nodes n).devs ++ [p])
    (hp : (w'.nodes n).profs = (w.nodes n).profs) (hm : p ∈ (w.nodes n).devs)
    (hc : ∀ q, (w'.objs q).code = (w.objs q).code) (c : ObjectCode) :
    ((w'.view n).lookupObject c).bind (w'.ptrAt n) = ((w.view n).lookupObject c).bind (w.ptrAt n) := by
  have e1 : (w.view n).devices.findIdx? (fun o => o.code == c) = _ := findIdx?_ptrs w.objs (w.nodes n).devs c
  have e2 : (w'.view n).devices.findIdx? (fun o => o.code == c) = _ := findIdx?_ptrs w'.objs (w'.nodes n).devs c
  have e3 : (w.view n).profiles.findIdx? (fun o => o.code == c) = _ := findIdx?_ptrs w.objs (w.nodes n).profs c
  have e4 : (w'.view n).profiles.findIdx? (fun o => o.code == c) = _ := findIdx?_ptrs w'.objs (w'.nodes n).profs c
  simp only [hc, hd, hp] at e2 e4
  unfold Node.lookupObject Node.lookupDevice Node.lookupProfile
  rw [e1, e2, e3, e4, List.findIdx?_append]
  cases h1 : (w.nodes n).devs.findIdx? (fun p => (w.objs p).code == c) with
  | some i =>
    obtain ⟨hi, -, -⟩ := List.findIdx?_eq_some_iff_getElem.mp h1
    simp [Prog.ptrAt, hd, List.getElem?_append_left hi]
  | none =>
    have := List.findIdx?_eq_none_iff.mp h1 p hm
    cases h2 : (w.nodes n).profs.findIdx? (fun p => (w.objs p).code == c) with
    | some i => simp [Prog.ptrAt, hp, List.findIdx?_cons, this]
    | none => simp [List.findIdx?_cons, this]

/-- C165 is false. Whatever happened before: adding a device that a node has already lists it once more, and the node
profile reports one instance more. -/
theorem C165_refuted (db : StdDB) (made : Nat → Obj) (ops : List ProgOp) (n : Nat) (p : Ptr)
    (hm : p ∈ ((Prog.run db (Prog.init db made) ops).1.nodes n).devs) (q : Ptr)
    (hq : ((Prog.run db (Prog.init db made) ops).1.view n).nodeProfile.bind
      ((Prog.run db (Prog.init db made) ops).1.ptrAt n) = some q)
    (hs : ∀ c ∈ [(0xD3 : Byte), 0xD4, 0xD5, 0xD6, 0xD7],
      (((Prog.run db (Prog.init db made) ops).1.objs q).props.lookup c).isSome) :
    let before := (Prog.run db (Prog.init db made) ops).1
    let after := (Prog.run db (Prog.init db made) (ops ++ [.addDevice n p])).1
    (after.nodes n).devs.count p = (before.nodes n).devs.count p + 1 ∧
    ∃ e, (after.objs q).props.lookup 0xD3 = some e ∧ e.data = beBytes 3 ((before.nodes n).devs.length + 1) := by
  intro before after
  have ha : after = (before.addDevice n p).1 := prog_run_snoc db ops (.addDevice n p) _
  have hb : before = (Prog.run db (Prog.init db made) ops).1 := rfl
  rw [← hb] at hm hq hs
  clear_value after before
  clear hb
  subst ha
  refine ⟨by rw [(addDevice_devs before n p).1, List.count_append, List.count_singleton_self], ?_⟩
  obtain ⟨v, h1, h2, h3, h4⟩ := addDevice_mid before n p
  have hcode : ∀ q, (v.objs q).code = (before.objs q).code := by
    intro q
    rw [h4]
    split
    · next e => subst e; exact setMan_code _ _
    · rfl
  have hprof : (v.view n).nodeProfile.bind (v.ptrAt n) = some q := by
    have key : ∀ c, (v.view n).lookupProfile c = (before.view n).lookupProfile c := by
      intro c
      have e3 : (before.view n).profiles.findIdx? (fun o => o.code == c) = _ :=
        findIdx?_ptrs before.objs (before.nodes n).profs c
      have e4 : (v.view n).profiles.findIdx? (fun o => o.code == c) = _ := findIdx?_ptrs v.objs (v.nodes n).profs c
      simp only [hcode, h3] at e4
      unfold Node.lookupProfile
      rw [e3, e4]
    have hn : (v.view n).nodeProfile = (before.view n).nodeProfile := by
      unfold Node.nodeProfile
      rw [key, key]
    rw [hn, ← hq]
    cases hr : (before.view n).nodeProfile with
    | none => rfl
    | some r =>
      cases r with
      | profile i => simp [Prog.ptrAt, h3]
      | device i =>
        exfalso
        unfold Node.nodeProfile Node.lookupProfile at hr
        split at hr
        · next e =>
          rw [hr] at e
          obtain ⟨_, _, hx⟩ := Option.map_eq_some_iff.mp e
          cases hx
        · obtain ⟨_, _, hx⟩ := Option.map_eq_some_iff.mp hr
          cases hx
  rw [h1, updated_objs, if_pos hprof]
  have hl : (v.view n).devices.length = (before.nodes n).devs.length + 1 := by
    show ((v.nodes n).devs.map _).length = _
    rw [h2]; simp
  obtain ⟨⟨e, a, b⟩, -⟩ := profileWrites_data (v.view n).devices (v.view n).classes (v.objs q) (fun c hc => by
    have := hs c hc
    rw [h4]
    split
    · next e =>
      subst e
      rw [setMan_fst, lookup_update]
      split
      · next e => rw [← e, Option.isSome_map]; exact this
      · exact this
    · exact this)
  refine ⟨e, a, b.trans ?_⟩
  unfold EProp.integerData
  rw [integerToByte_eq, hl, BitVec.toNat_ofNat]
  exact beBytes_mod 3 8 _ (by decide)

/-- C165. The same object is found as before for every code. -/
theorem C165_found_partial (db : StdDB) (made : Nat → Obj) (ops : List ProgOp) (n : Nat) (p : Ptr)
    (hm : p ∈ ((Prog.run db (Prog.init db made) ops).1.nodes n).devs) (c : ObjectCode) :
    let before := (Prog.run db (Prog.init db made) ops).1
    let after := (Prog.run db (Prog.init db made) (ops ++ [.addDevice n p])).1
    ((after.view n).lookupObject c).bind (after.ptrAt n) = ((before.view n).lookupObject c).bind (before.ptrAt n) := by
  intro before after
  have ha : after = (before.addDevice n p).1 := prog_run_snoc db ops (.addDevice n p) _
  clear_value after
  subst ha
  exact (lookup_ptrs (addDevice_devs _ n p).1 (addDevice_devs _ n p).2 hm (addDevice_code _ n p) c)

/-- A device that a node has, and its node profile. -/
example : let w := (Prog.run stdDB (Prog.init stdDB (fun _ => Obj.newDevice stdDB)) [.addDevice 0 (.made 0)]).1
    Ptr.made 0 ∈ (w.nodes 0).devs ∧ (w.view 0).nodeProfile.bind (w.ptrAt 0) = some (.own 0) ∧
    ∀ c ∈ [(0xD3 : Byte), 0xD4, 0xD5, 0xD6, 0xD7], ((w.objs (.own 0)).props.lookup c).isSome := by
  decide +kernel

end Verif.Props
