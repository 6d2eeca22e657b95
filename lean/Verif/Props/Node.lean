import Verif.Lemmas.Node
import Verif.Lemmas.Fields
import Verif.Props.Device

/-! # C29, C30, C31, C41: transaction identifiers, node profile, manufacturer code, announcements -/

namespace Verif.Props
open Verif Model Spec Lemmas

/-! ## C29 -/

/-- The identifiers returned by `k` successive calls of `NextTID`. -/
def issued (n : Node) : Nat → List Nat
  | 0 => []
  | k + 1 => n.nextTID.lastTID.toNat :: issued n.nextTID k

theorem ids_nodup (k t : Nat) (hk : k ≤ 65536) :
    ((List.range k).map (fun i => (t + 1 + i) % 65536)).Nodup := by
  unfold List.Nodup
  rw [List.pairwise_map]
  apply List.Pairwise.imp_of_mem (R := (· < ·)) _ List.pairwise_lt_range
  intro a b ha hb hab e
  rw [List.mem_range] at ha hb
  omega

/-- C29. From a node whose last identifier is in range (every node, see `C29_messages`), the
identifiers advance by one modulo 65536, stay in range, and up to 65536 consecutive ones are
pairwise distinct. -/
theorem C29_sequence (n : Node) (h : n.lastTID.toNat ≤ 65535) (k : Nat) :
    issued n k = (List.range k).map (fun i => (n.lastTID.toNat + 1 + i) % 65536) ∧
    (∀ t ∈ issued n k, t ≤ 65535) ∧ (k ≤ 65536 → (issued n k).Nodup) := by
  have e : issued n k = (List.range k).map (fun i => (n.lastTID.toNat + 1 + i) % 65536) := by
    induction k generalizing n with
    | zero => rfl
    | succ k ih =>
      rw [issued, ih]
      · rw [List.range_succ_eq_map, List.map_cons, List.map_map, nextTID_eq]
        simp only [nextId_toNat _ h]
        congr 1
        apply List.map_congr_left
        intro i _
        simp only [Function.comp]
        omega
      · rw [nextTID_eq]; exact nextId_le _ h
  refine ⟨e, ?_, ?_⟩
  · intro t ht
    rw [e, List.mem_map] at ht
    obtain ⟨i, -, rfl⟩ := ht
    omega
  · intro hk
    rw [e]
    exact ids_nodup k _ hk

/-- From last identifier `t` to last identifier `t'`, `k` identifiers were issued, and the messages
`ms` carry some of these, in this order. -/
def Numbered (t : GoUint) (ms : List Message) (t' : GoUint) (k : Nat) : Prop :=
  t'.toNat = (t.toNat + k) % 65536 ∧
  (ms.map (·.getTID.toNat)).Sublist ((List.range k).map (fun i => (t.toNat + 1 + i) % 65536))

theorem Numbered.append {t t' t'' : GoUint} {ms ms' : List Message} {k k' : Nat}
    (h : Numbered t ms t' k) (h' : Numbered t' ms' t'' k') : Numbered t (ms ++ ms') t'' (k + k') := by
  refine ⟨by rw [h'.1, h.1]; omega, ?_⟩
  rw [List.map_append, List.range_add, List.map_append]
  apply h.2.append
  rw [List.map_map]
  have e : (List.range k').map ((fun i => (t.toNat + 1 + i) % 65536) ∘ (fun x => k + x))
      = (List.range k').map (fun i => (t'.toNat + 1 + i) % 65536) := by
    apply List.map_congr_left
    intro i _
    simp only [Function.comp]
    rw [h.1]; omega
  rw [e]
  exact h'.2

theorem Numbered.nil (t : GoUint) (h : t.toNat ≤ 65535) : Numbered t [] t 0 :=
  ⟨by omega, List.Sublist.slnil⟩

theorem infMessage_tid (t : GoUint) (a : Ann) (h : t.toNat ≤ 65535) :
    (infMessage t a).getTID.toNat = t.toNat := by
  have := C10_tid (((Message.new.setESV ESV.notification).setSEOJ a.seoj).addProperty (some a.prop))
    (((Built.new.setESV _).setSEOJ _).addProperty _) t
  rw [if_pos h] at this
  exact this

theorem infs_numbered (t : GoUint) (h : t.toNat ≤ 65535) (as : List Ann) :
    Numbered t (infs t as) (advance t as.length) as.length := by
  induction as generalizing t with
  | nil => exact .nil t h
  | cons a as ih =>
    have h1 : Numbered t [infMessage (nextId t) a] (nextId t) 1 := by
      refine ⟨nextId_toNat t h, ?_⟩
      simp [infMessage_tid _ _ (nextId_le t h), nextId_toNat t h]
    have h2 := ih (nextId t) (nextId_le t h)
    have := h1.append h2
    rw [Nat.add_comm] at this
    exact this

/-- Some number of identifiers was issued. -/
def Counted (n : Node) (x : Node × List Message) : Prop :=
  n.lastTID.toNat ≤ 65535 → ∃ k, Numbered n.lastTID x.2 x.1.lastTID k

theorem Counted.le {n : Node} {x : Node × List Message} (h : Counted n x)
    (hn : n.lastTID.toNat ≤ 65535) : x.1.lastTID.toNat ≤ 65535 := by
  obtain ⟨k, hk⟩ := h hn
  rw [hk.1]; omega

theorem Counted.append {n n' : Node} {ms : List Message} {x : Node × List Message}
    (h : Counted n (n', ms)) (h' : Counted n' x) : Counted n (x.1, ms ++ x.2) := by
  intro hn
  obtain ⟨k, hk⟩ := h hn
  obtain ⟨k', hk'⟩ := h' (h.le hn)
  exact ⟨k + k', hk.append hk'⟩

theorem Counted.nil {n n' : Node} (e : n'.lastTID = n.lastTID) : Counted n (n', []) :=
  fun h => ⟨0, by rw [e]; exact .nil _ h⟩

theorem emit_counted (n : Node) (as : List Ann) : Counted n (n.emit as) := by
  rw [emit_eq]
  split
  · exact fun h => ⟨as.length, infs_numbered _ h _⟩
  · exact .nil rfl

theorem onObj_counted (n : Node) (r : ObjRef) (f : Obj → Obj × List Ann) : Counted n (n.onObj r f) := by
  unfold Node.onObj
  cases n.get r with
  | none => exact .nil rfl
  | some o =>
    have := emit_counted (n.set r (f o).1) (f o).2
    unfold Counted at this
    rw [show (n.set r (f o).1).lastTID = n.lastTID by cases r <;> rfl] at this
    exact this

theorem onObjs_counted (n : Node) (f : Obj → Obj × List Ann) (rs : List ObjRef) :
    Counted n (n.onObjs f rs) := by
  induction rs generalizing n with
  | nil => exact .nil rfl
  | cons r rs ih => exact (onObj_counted n r f).append (ih _)

theorem updateNodeProfile_counted (n : Node) : Counted n n.updateNodeProfile := by
  unfold Node.updateNodeProfile
  cases n.nodeProfile with
  | none => exact .nil rfl
  | some r =>
    dsimp only
    refine Counted.append (n' := _) ?_ (onObj_counted _ _ _)
    refine Counted.append (n' := _) ?_ (onObj_counted _ _ _)
    refine Counted.append (n' := _) ?_ (onObj_counted _ _ _)
    exact onObj_counted _ _ _

theorem announceProperty_counted (n : Node) (a : Ann) :
    Counted n ((n.announceProperty a).1, (n.announceProperty a).2.1) := by
  unfold Node.announceProperty Node.announceMessage
  split
  · exact .nil rfl
  · rw [nextTID_eq]
    intro h
    exact ⟨1, infs_numbered n.lastTID h [a]⟩

theorem announce_counted (n : Node) : Counted n (n.announce.1, n.announce.2.1) := by
  unfold Node.announce
  split
  · exact .nil rfl
  · split
    · exact .nil rfl
    · split
      · exact .nil rfl
      · exact announceProperty_counted _ _

/-- Messages given to `SendMessage` were built with the API. -/
def SendsBuilt : NodeOp → Prop
  | .send m => Built m
  | _ => True

theorem map_msg_casts (l : List Message) : (l.map Sent.multicast).map Sent.msg = l := by
  rw [List.map_map]; exact List.map_id l

theorem run_counted (db : StdDB) (n : Node) (op : NodeOp) (hop : SendsBuilt op) :
    Counted n ((op.run db n).1, (op.run db n).2.map Sent.msg) := by
  cases op with
  | addDevice o => 
    simp only [NodeOp.run, casts, map_msg_casts]
    exact updateNodeProfile_counted { n with devices := n.devices ++ [_] }
  | addProfile o =>
    simp only [NodeOp.run, casts, map_msg_casts]
    exact updateNodeProfile_counted { n with profiles := n.profiles ++ [_] }
  | setManufacturer c =>
    simp only [NodeOp.run, casts, map_msg_casts]
    exact onObjs_counted { n with manufacturer := c } _ _
  | setSelf b => exact .nil rfl
  | obj r op =>
    simp only [NodeOp.run, casts, map_msg_casts]
    exact onObj_counted _ _ _
  | start res stays =>
    simp only [NodeOp.run, casts, map_msg_casts]
    cases res with
    | none => exact .nil rfl
    | some x => exact announce_counted { n with running := x.1, addr := x.2 }
  | stop => exact .nil rfl
  | send m =>
    simp only [NodeOp.run, Node.sendMessage]
    intro h
    have hb : (m.setTID (nextId n.lastTID)).getTID.toNat = (nextId n.lastTID).toNat := by
      have := C10_tid m hop (nextId n.lastTID)
      rw [if_pos (nextId_le _ h)] at this
      exact this
    split
    · exact ⟨0, .nil _ h⟩
    · rw [nextTID_eq]
      split
      · exact ⟨1, nextId_toNat _ h, by simp⟩
      · split
        · exact ⟨1, nextId_toNat _ h, by simp⟩
        · refine ⟨1, nextId_toNat _ h, ?_⟩
          show ([((m.setTID (nextId n.lastTID)).setSEOJ _).getTID.toNat] : List Nat).Sublist _
          rw [show ∀ c, ((m.setTID (nextId n.lastTID)).setSEOJ c).getTID
            = (m.setTID (nextId n.lastTID)).getTID from fun _ => rfl, hb, nextId_toNat _ h]
          simp

theorem runAll_counted (db : StdDB) (n : Node) (ops : List NodeOp) (hops : ∀ op ∈ ops, SendsBuilt op) :
    Counted n ((NodeOp.runAll db n ops).1, (NodeOp.runAll db n ops).2.map Sent.msg) := by
  induction ops generalizing n with
  | nil => exact .nil rfl
  | cons op ops ih =>
    simp only [NodeOp.runAll, List.map_append]
    exact (run_counted db n op (hops op List.mem_cons_self)).append
      (ih _ (fun o ho => hops o (List.mem_cons_of_mem _ ho)))

theorem new_tid (db : StdDB) : (Node.new db).lastTID.toNat ≤ 65535 := by
  unfold Node.new
  exact (updateNodeProfile_counted _).le (by simp [tidMin, Node.initial])

/-- C29. In any history of calls on a new node, the messages it multicasts and sends carry
identifiers of the sequence 1, 2, … modulo 65536, in order and each identifier at most once: as
long as no more than 65536 were issued, they are pairwise distinct. -/
theorem C29_messages (db : StdDB) (ops : List NodeOp) (hops : ∀ op ∈ ops, SendsBuilt op) :
    ∃ k, (NodeOp.runAll db (Node.new db) ops).1.lastTID.toNat
        = ((Node.new db).lastTID.toNat + k) % 65536 ∧
      (((NodeOp.runAll db (Node.new db) ops).2.map (·.msg.getTID.toNat)).Sublist
        ((List.range k).map (fun i => ((Node.new db).lastTID.toNat + 1 + i) % 65536))) ∧
      (k ≤ 65536 → ((NodeOp.runAll db (Node.new db) ops).2.map (·.msg.getTID.toNat)).Nodup) := by
  obtain ⟨k, h1, h2⟩ := runAll_counted db (Node.new db) ops hops (new_tid db)
  rw [List.map_map] at h2
  exact ⟨k, h1, h2, fun hk => h2.nodup (ids_nodup k _ hk)⟩

example : issued { Node.new ⟨[]⟩ with lastTID := 65534 } 3 = [65535, 0, 1] := by decide

/-! ## C30 -/

/-- Calls that leave the code of the object alone. -/
def KeepsCode : ObjOp → Prop
  | .setCode _ | .setCodes _ | .bareSetCode _ | .bareSetCodes _ | .setInstance _ | .setGroup _ | .setClass _ => False
  | _ => True

/-- Calls that neither replace the property under code `c` nor change its data, nor change the
code of the object. -/
def Spares (op : ObjOp) (c : Byte) : Prop :=
  KeepsCode op ∧ (∀ c' d, op.stores = some (c', d) → c' ≠ c) ∧ (∀ p, op = .add p ∨ op = .bareAdd p → p.code ≠ c)

theorem keepsCode_codes (db : StdDB) (o : Obj) (op : ObjOp) (h : KeepsCode op) :
    (op.run db o).1.codes = o.codes := by
  cases ht : op.target with
  | some cd => rw [run_target db o op cd.1 cd.2 ht, setPropertyData_fst]
  | none =>
    cases op <;> simp only [ObjOp.target, reduceCtorEq] at ht <;> simp only [KeepsCode] at h
    · show ((o.addProperty _).updatePropertyMap).1.codes = _
      rw [updatePropertyMap_fst]; rfl
    all_goals rfl

theorem spares_lookup (db : StdDB) (o : Obj) (op : ObjOp) (c : Byte) (h : Spares op c)
    (hc : ¬ IsMapCode c) : (op.run db o).1.props.lookup c = o.props.lookup c := by
  rw [C24_super db o op c hc]
  obtain ⟨h1, h2, h3⟩ := h
  cases op <;> simp only [KeepsCode] at h1 <;>
    simp only [superStep, Contents.step, ObjOp.stores, ObjOp.target, Contents.write]
  · next p => simp [Contents.add, Ne.symm (h3 p (.inl rfl))]
  · next c' d => simp [Ne.symm (h2 c' d rfl)]
  · next c' d => simp [Ne.symm (h2 c' [d] rfl)]
  · next c' v k => simp [Ne.symm (h2 c' _ rfl)]
  · next c' => simp [Ne.symm (h2 c' [] rfl)]
  · next p => simp [Contents.add, Ne.symm (h3 p (.inr rfl))]

/-- The property under code `c` has data `d`. -/
def HasData (o : Obj) (c : Byte) (d : Bytes) : Prop := ∃ p, o.props.lookup c = some p ∧ p.data = d

/-- C30, the specification. The node profile (the object with code 0x0EF001) reports the number of
devices, the number of classes, the list of device codes and the list of classes of the node; a
class is the first two bytes of an object code. -/
def DescribesNode (n : Node) : Prop :=
  ∃ (r : ObjRef) (o : Obj) (cs : List Bytes),
    n.nodeProfile = some r ∧ n.get r = some o ∧ o.code = 0x0EF001 ∧
    cs.Nodup ∧ (∀ c, c ∈ cs ↔ ∃ x ∈ n.devices ++ n.profiles, c = x.codes.take 2) ∧
    HasData o 0xD3 (beBytes 3 n.devices.length) ∧
    HasData o 0xD4 (beBytes 2 cs.length) ∧
    HasData o 0xD5 (BitVec.ofNat 8 (min 255 n.devices.length) :: (n.devices.map (·.codes)).flatten) ∧
    HasData o 0xD6 (BitVec.ofNat 8 (min 255 n.devices.length) :: (n.devices.map (·.codes)).flatten) ∧
    HasData o 0xD7 (BitVec.ofNat 8 (min 255 cs.length) :: cs.flatten)

/-- The five properties of the node profile that describe the node. -/
def listCodes : List Byte := [0xD3, 0xD4, 0xD5, 0xD6, 0xD7]

/-- Calls on a node that leave object codes alone and do not write the five properties of a
profile directly. Objects added were obtained from the library. -/
def Ordinary (db : StdDB) : NodeOp → Prop
  | .addDevice o => Reached db o
  | .addProfile o => Reached db o
  | .obj (.device _) op => KeepsCode op
  | .obj (.profile _) op => ∀ c ∈ listCodes, Spares op c
  | _ => True

theorem addClass_nodup {cs : List Cls} (h : cs.Nodup) (c : Cls) : (addClass cs c).Nodup := by
  unfold addClass
  split
  · exact h
  · next hn =>
    rw [List.nodup_append]
    refine ⟨h, by simp, ?_⟩
    intro a ha b hb e
    simp only [List.mem_singleton] at hb
    subst hb; subst e
    apply hn
    rw [List.any_eq_true]
    exact ⟨a, ha, by simp [Cls.equals]⟩

theorem mem_addClass (cs : List Cls) (c x : Cls) : x ∈ addClass cs c ↔ x ∈ cs ∨ x = c := by
  unfold addClass
  split
  · next h =>
    rw [List.any_eq_true] at h
    obtain ⟨y, hy, he⟩ := h
    have : y = c := by
      cases y; cases c
      simp only [Cls.equals] at he
      split at he <;> simp_all
    subst this
    constructor
    · exact .inl
    · rintro (h | rfl)
      · exact h
      · exact hy
  · simp

theorem classes_spec (l : List Cls) : ((l.foldl addClass []).Nodup) ∧
    ∀ x, x ∈ l.foldl addClass [] ↔ x ∈ l := by
  suffices ∀ cs : List Cls, cs.Nodup → (l.foldl addClass cs).Nodup ∧
      ∀ x, x ∈ l.foldl addClass cs ↔ x ∈ cs ∨ x ∈ l by
    obtain ⟨h1, h2⟩ := this [] List.nodup_nil
    exact ⟨h1, fun x => by rw [h2]; simp⟩
  induction l with
  | nil => intro cs h; exact ⟨h, by simp⟩
  | cons c l ih =>
    intro cs h
    obtain ⟨h1, h2⟩ := ih _ (addClass_nodup h c)
    refine ⟨h1, fun x => ?_⟩
    rw [List.foldl_cons, h2, mem_addClass, List.mem_cons, or_assoc]

/-- What the induction carries: objects are well-formed, the first profile is the node profile and
has the five properties. -/
structure Base (n : Node) : Prop where
  wf : ∀ r o, n.get r = some o → OWF o
  prof : ∃ o, n.get (.profile 0) = some o ∧ o.code = 0x0EF001 ∧
    ∀ c ∈ listCodes, (o.props.lookup c).isSome

theorem Base.nodeProfile {n : Node} (h : Base n) : n.nodeProfile = some (.profile 0) := by
  obtain ⟨o, ho, hc, -⟩ := h.prof
  have : n.lookupProfile nodeProfileObjectCode = some (.profile 0) := by
    unfold Node.lookupProfile
    simp only [Node.get] at ho
    cases hp : n.profiles with
    | nil => rw [hp] at ho; cases ho
    | cons x xs =>
      rw [hp] at ho
      cases ho
      rw [List.findIdx?_cons, if_pos (by rw [hc]; rfl)]
      rfl
  unfold Node.nodeProfile
  rw [this]

/-- The lists as the code computes them, from the codes. -/
def Listed (n : Node) : Prop := ∀ o, n.get (.profile 0) = some o →
  HasData o 0xD3 (EProp.integerData (BitVec.ofNat 64 n.devices.length) 3) ∧
  HasData o 0xD4 (EProp.integerData (BitVec.ofNat 64 n.classes.length) 2) ∧
  HasData o 0xD5 (Obj.instanceListData n.devices) ∧
  HasData o 0xD6 (Obj.instanceListData n.devices) ∧
  HasData o 0xD7 (Obj.classListData n.classes)

theorem codes_of_get {n n' : Node} (h : ∀ r, (n'.get r).map (·.codes) = (n.get r).map (·.codes)) :
    n'.devices.map (·.codes) = n.devices.map (·.codes) ∧
    n'.profiles.map (·.codes) = n.profiles.map (·.codes) := by
  constructor
  · apply List.ext_getElem?
    intro i
    simpa [Node.get] using h (.device i)
  · apply List.ext_getElem?
    intro i
    simpa [Node.get] using h (.profile i)

/-- The class in an object code. -/
def clsB : Bytes → Cls
  | g :: c :: _ => ⟨g, c⟩
  | _ => ⟨0, 0⟩

theorem clsD_eq (o : Obj) : o.clsD = clsB o.codes := rfl

theorem lists_of_codes {n n' : Node} (h : n'.devices.map (·.codes) = n.devices.map (·.codes))
    (h' : n'.profiles.map (·.codes) = n.profiles.map (·.codes)) :
    n'.devices.length = n.devices.length ∧ n'.classes = n.classes ∧
    Obj.instanceListData n'.devices = Obj.instanceListData n.devices := by
  have hl : n'.devices.length = n.devices.length := by
    have := congrArg List.length h
    simpa using this
  refine ⟨hl, ?_, ?_⟩
  · unfold Node.classes
    have : ∀ m : Node, (m.devices ++ m.profiles).map Obj.clsD
        = (m.devices.map (·.codes) ++ m.profiles.map (·.codes)).map clsB := by
      intro m
      rw [← List.map_append, List.map_map]
      rfl
    rw [this, this, h, h']
  · unfold Obj.instanceListData
    rw [hl, h]

theorem setInstanceList_fst (o : Obj) (ds : List Obj) (h : (o.props.lookup 0xD5).isSome) :
    (o.setInstanceList ds).1 = { o with props :=
        (o.props.update 0xD5 (Obj.instanceListData ds)).update 0xD6 (Obj.instanceListData ds) } := by
  unfold Obj.setInstanceList
  have e := setPropertyData_err o 0xD5 (Obj.instanceListData ds)
  have f := setPropertyData_fst o 0xD5 (Obj.instanceListData ds)
  rw [if_pos h] at e
  dsimp only
  split
  · next heq => rw [heq] at e; cases e
  · next o' as' heq =>
    rw [heq] at f
    simp only at f
    show (o'.setPropertyData 0xD6 _).1 = _
    rw [setPropertyData_fst, f]

theorem profileWrites_eq (ds : List Obj) (cs : List Cls) (o : Obj) (h : (o.props.lookup 0xD5).isSome) :
    profileWrites ds cs o = { o with props :=
        ((((o.props.update 0xD3 (EProp.integerData (BitVec.ofNat 64 ds.length) 3)).update 0xD4
        (EProp.integerData (BitVec.ofNat 64 cs.length) 2)).update 0xD5 (Obj.instanceListData ds)).update
        0xD6 (Obj.instanceListData ds)).update 0xD7 (Obj.classListData cs) } := by
  have h1 : (o.setInstanceCount (BitVec.ofNat 64 ds.length)).1
      = { o with props := o.props.update 0xD3 (EProp.integerData (BitVec.ofNat 64 ds.length) 3) } := by
    unfold Obj.setInstanceCount
    rw [setPropertyInteger_eq, setPropertyData_fst]
  have h2 : ∀ o : Obj, (o.setClassCount (BitVec.ofNat 64 cs.length)).1
      = { o with props := o.props.update 0xD4 (EProp.integerData (BitVec.ofNat 64 cs.length) 2) } := by
    intro o
    unfold Obj.setClassCount
    rw [setPropertyInteger_eq, setPropertyData_fst]
  have h3 : ∀ o : Obj, (o.setClassList cs).1
      = { o with props := o.props.update 0xD7 (Obj.classListData cs) } := by
    intro o
    unfold Obj.setClassList
    rw [setPropertyData_fst]
  unfold profileWrites
  rw [h3, setInstanceList_fst, h2, h1]
  rw [h2, h1]
  simp only [lookup_update]
  simpa using h

theorem HasData.of_update {o : Obj} {c : Byte} (h : (o.props.lookup c).isSome) (d : Bytes) :
    ∃ p, (o.props.update c d).lookup c = some p ∧ p.data = d := by
  obtain ⟨p, hp⟩ := Option.isSome_iff_exists.mp h
  exact ⟨p.setData d, by rw [lookup_update, if_pos rfl, hp]; rfl, rfl⟩

theorem profileWrites_data (ds : List Obj) (cs : List Cls) (o : Obj)
    (h : ∀ c ∈ listCodes, (o.props.lookup c).isSome) :
    HasData (profileWrites ds cs o) 0xD3 (EProp.integerData (BitVec.ofNat 64 ds.length) 3) ∧
    HasData (profileWrites ds cs o) 0xD4 (EProp.integerData (BitVec.ofNat 64 cs.length) 2) ∧
    HasData (profileWrites ds cs o) 0xD5 (Obj.instanceListData ds) ∧
    HasData (profileWrites ds cs o) 0xD6 (Obj.instanceListData ds) ∧
    HasData (profileWrites ds cs o) 0xD7 (Obj.classListData cs) := by
  rw [profileWrites_eq ds cs o (h _ (by decide))]
  have key : ∀ c ∈ listCodes, ∃ p, o.props.lookup c = some p :=
    fun c hc => Option.isSome_iff_exists.mp (h c hc)
  unfold HasData
  simp only [lookup_update]
  obtain ⟨p3, e3⟩ := key 0xD3 (by decide)
  obtain ⟨p4, e4⟩ := key 0xD4 (by decide)
  obtain ⟨p5, e5⟩ := key 0xD5 (by decide)
  obtain ⟨p6, e6⟩ := key 0xD6 (by decide)
  obtain ⟨p7, e7⟩ := key 0xD7 (by decide)
  refine ⟨⟨p3.setData _, by
      rw [e3]; rfl, rfl⟩, ⟨p4.setData _, by
      rw [e4]; rfl, rfl⟩,
    ⟨p5.setData _, by
      rw [e5]; rfl, rfl⟩, ⟨p6.setData _, by
      rw [e6]; rfl, rfl⟩,
    ⟨p7.setData _, by
      rw [e7]; rfl, rfl⟩⟩

theorem profileWrites_codes (ds : List Obj) (cs : List Cls) (o : Obj)
    (h : (o.props.lookup 0xD5).isSome) : (profileWrites ds cs o).codes = o.codes := by
  rw [profileWrites_eq ds cs o h]

theorem profileWrites_owf (ds : List Obj) (cs : List Cls) {o : Obj} (hw : OWF o)
    (h : (o.props.lookup 0xD5).isSome) : OWF (profileWrites ds cs o) := by
  rw [profileWrites_eq ds cs o h]
  exact ⟨hw.codes, ((((hw.uniq.update _ _).update _ _).update _ _).update _ _).update _ _⟩

theorem profileWrites_lookup (ds : List Obj) (cs : List Cls) (o : Obj) (c : Byte)
    (h : (o.props.lookup 0xD5).isSome) (hc : c ∉ listCodes) :
    (profileWrites ds cs o).props.lookup c = o.props.lookup c := by
  rw [profileWrites_eq ds cs o h]
  simp only [listCodes, List.mem_cons, List.not_mem_nil, or_false, not_or] at hc
  obtain ⟨h3, h4, h5, h6, h7⟩ := hc
  simp only [lookup_update, if_neg h3, if_neg h4, if_neg h5, if_neg h6, if_neg h7]

/-- `updateNodeProfile` keeps the base and makes the lists right. -/
theorem update_establishes {n : Node} (h : Base n) :
    Base n.updateNodeProfile.1 ∧ Listed n.updateNodeProfile.1 := by
  have hp := h.nodeProfile
  obtain ⟨o, ho, hc, hs⟩ := h.prof
  have h5 := hs 0xD5 (by decide)
  have hget : ∀ r, n.updateNodeProfile.1.get r
      = if r = .profile 0 then some (profileWrites n.devices n.classes o) else n.get r := by
    intro r
    rw [updateNodeProfile_get, hp]
    simp only [Option.some.injEq]
    by_cases e : r = .profile 0
    · subst e; rw [if_pos rfl, if_pos rfl, ho]; rfl
    · rw [if_neg e, if_neg (Ne.symm e)]
  have hcodes : ∀ r, (n.updateNodeProfile.1.get r).map (·.codes) = (n.get r).map (·.codes) := by
    intro r
    rw [hget]
    split
    · next e => rw [e, ho]; simp [profileWrites_codes n.devices n.classes o h5]
    · rfl
  obtain ⟨l1, l2⟩ := codes_of_get hcodes
  obtain ⟨l3, l4, l5⟩ := lists_of_codes l1 l2
  have hd := profileWrites_data n.devices n.classes o hs
  constructor
  · refine ⟨?_, ?_⟩
    · intro r o' ho'
      rw [hget] at ho'
      split at ho'
      · cases ho'; exact profileWrites_owf _ _ (h.wf _ _ ho) h5
      · exact h.wf _ _ ho'
    · refine ⟨_, by rw [hget, if_pos rfl], ?_, ?_⟩
      · rw [Obj.code, profileWrites_codes _ _ _ h5]; exact hc
      · intro c hcm
        obtain ⟨⟨_, e3, -⟩, ⟨_, e4, -⟩, ⟨_, e5, -⟩, ⟨_, e6, -⟩, ⟨_, e7, -⟩⟩ := hd
        simp only [listCodes, List.mem_cons, List.not_mem_nil, or_false] at hcm
        rcases hcm with rfl | rfl | rfl | rfl | rfl
        · rw [e3]; rfl
        · rw [e4]; rfl
        · rw [e5]; rfl
        · rw [e6]; rfl
        · rw [e7]; rfl
  · intro o' ho'
    rw [hget, if_pos rfl] at ho'
    cases ho'
    rw [l3, l4, l5]
    exact hd

/-- A change of objects that keeps codes and the five properties of profiles. -/
theorem keep_both {n n' : Node} (f : ObjRef → Obj → Obj)
    (hget : ∀ r, n'.get r = (n.get r).map (f r))
    (hwf : ∀ r o, OWF o → OWF (f r o))
    (hcodes : ∀ r o, (f r o).codes = o.codes)
    (hl : ∀ i o, ∀ c ∈ listCodes, (f (.profile i) o).props.lookup c = o.props.lookup c) :
    (Base n → Base n') ∧ (Listed n → Listed n') := by
  have hcs : ∀ r, (n'.get r).map (·.codes) = (n.get r).map (·.codes) := by
    intro r
    rw [hget, Option.map_map]
    congr 1
    funext o
    exact hcodes r o
  obtain ⟨l1, l2⟩ := codes_of_get hcs
  obtain ⟨l3, l4, l5⟩ := lists_of_codes l1 l2
  constructor
  · intro h
    refine ⟨?_, ?_⟩
    · intro r o ho
      rw [hget, Option.map_eq_some_iff] at ho
      obtain ⟨o', h1, rfl⟩ := ho
      exact hwf _ _ (h.wf _ _ h1)
    · obtain ⟨o, ho, hc, hs⟩ := h.prof
      refine ⟨f _ o, by rw [hget, ho]; rfl, ?_, ?_⟩
      · rw [Obj.code, hcodes]; exact hc
      · intro c hcm
        rw [hl _ _ c hcm]
        exact hs c hcm
  · intro h o ho
    rw [hget, Option.map_eq_some_iff] at ho
    obtain ⟨o', h1, rfl⟩ := ho
    obtain ⟨a, b, c, d, e⟩ := h o' h1
    unfold HasData at *
    rw [l3, l4, l5, hl _ _ _ (by decide), hl _ _ _ (by decide), hl _ _ _ (by decide),
      hl _ _ _ (by decide), hl _ _ _ (by decide)]
    exact ⟨a, b, c, d, e⟩

theorem keep_frame {n n' : Node} (hget : ∀ r, n'.get r = n.get r) :
    (Base n → Base n') ∧ (Listed n → Listed n') :=
  keep_both (fun _ o => o) (fun r => by rw [hget]; simp) (fun _ _ h => h) (fun _ _ => rfl)
    (fun _ _ _ _ => rfl)

theorem setMan_fst (o : Obj) (c : GoUint) : (o.setManufacturerCode c).1
    = { o with props := o.props.update 0x8A (EProp.integerData c 3) } := by
  unfold Obj.setManufacturerCode
  rw [setPropertyInteger_eq, setPropertyData_fst]
  rfl

theorem setMan_owf {o : Obj} (h : OWF o) (c : GoUint) : OWF (o.setManufacturerCode c).1 := by
  rw [setMan_fst]; exact ⟨h.codes, h.uniq.update _ _⟩

theorem announce_same (n : Node) : SameBut n n.announce.1 := by
  unfold Node.announce
  split
  · rfl
  · split
    · rfl
    · split
      · rfl
      · unfold Node.announceProperty Node.announceMessage
        split
        · rfl
        · rw [nextTID_eq]; rfl

theorem sendMessage_same (n : Node) (m : Message) : SameBut n (n.sendMessage m).1 := by
  unfold Node.sendMessage
  split
  · rfl
  · rw [nextTID_eq]
    dsimp only
    split
    · rfl
    · split <;> rfl

theorem setMan_code (o : Obj) (c : GoUint) : (o.setManufacturerCode c).1.code = o.code := by
  rw [setMan_fst]; rfl

theorem setMan_lookup (o : Obj) (c : GoUint) (x : Byte) (hx : x ≠ 0x8A) :
    (o.setManufacturerCode c).1.props.lookup x = o.props.lookup x := by
  rw [setMan_fst, lookup_update, if_neg hx]

theorem base_append_device {n : Node} (h : Base n) {o : Obj} (ho : OWF o) :
    Base { n with devices := n.devices ++ [o] } := by
  refine ⟨?_, h.prof⟩
  intro r o' ho'
  cases r with
  | device i =>
    simp only [Node.get] at ho'
    rw [List.getElem?_append] at ho'
    split at ho'
    · exact h.wf (.device i) o' ho'
    · have := List.mem_of_getElem? ho'
      simp only [List.mem_singleton] at this
      subst this
      exact ho
  | profile i => exact h.wf (.profile i) o' ho'

theorem base_append_profile {n : Node} (h : Base n) {o : Obj} (ho : OWF o) :
    Base { n with profiles := n.profiles ++ [o] } := by
  refine ⟨?_, ?_⟩
  · intro r o' ho'
    cases r with
    | device i => exact h.wf (.device i) o' ho'
    | profile i =>
      simp only [Node.get] at ho'
      rw [List.getElem?_append] at ho'
      split at ho'
      · exact h.wf (.profile i) o' ho'
      · have := List.mem_of_getElem? ho'
        simp only [List.mem_singleton] at this
        subst this
        exact ho
  · obtain ⟨p, hp, hr⟩ := h.prof
    refine ⟨p, ?_, hr⟩
    simp only [Node.get] at hp ⊢
    rw [List.getElem?_append_left, hp]
    exact (List.getElem?_eq_some_iff.mp hp).1

theorem not_map_of_list {c : Byte} (h : c ∈ listCodes) : ¬ IsMapCode c := by
  unfold IsMapCode
  simp only [listCodes, List.mem_cons, List.not_mem_nil, or_false] at h
  rcases h with rfl | rfl | rfl | rfl | rfl <;> decide

theorem ordinary_keeps (db : StdDB) {n : Node} (h : Base n) (op : NodeOp)
    (hop : Ordinary db op) : Base (op.run db n).1 ∧ (Listed n → Listed (op.run db n).1) := by
  cases op with
  | addDevice o =>
    have k := update_establishes (base_append_device h (setMan_owf (Reached.owf hop) n.manufacturer))
    exact ⟨k.1, fun _ => k.2⟩
  | addProfile o =>
    have k := update_establishes (base_append_profile h (setMan_owf (Reached.owf hop) n.manufacturer))
    exact ⟨k.1, fun _ => k.2⟩
  | setManufacturer c =>
    have k := keep_both (n := n) (n' := (n.setManufacturerCode c).1)
      (fun _ o => (o.setManufacturerCode c).1) (setManufacturerCode_get n c)
      (fun _ _ ho => setMan_owf ho c) (fun _ o => by rw [setMan_fst])
      (fun i o x hx => by
        rw [setMan_fst]
        simp only [lookup_update]
        rw [if_neg]
        rintro rfl
        revert hx; decide)
    exact ⟨k.1 h, k.2⟩
  | setSelf b =>
    have k := keep_frame (n := n) (n' := { n with selfMsg := b }) (fun r => by cases r <;> rfl)
    exact ⟨k.1 h, k.2⟩
  | obj r op =>
    have k := keep_both (n := n) (n' := (n.onObj r (fun o => Node.dropErr (op.run db o))).1)
      (fun r' o => if r' = r then (op.run db o).1 else o)
      (fun r' => by
        rw [onObj_get]
        by_cases e : r' = r
        · subst e; simp [Node.dropErr]
        · simp [e])
      (fun r' o ho => by
        split
        · exact owf_run ho db op
        · exact ho)
      (fun r' o => by
        split
        · apply keepsCode_codes
          cases r with
          | device i => exact hop
          | profile i => exact (hop 0xD3 (by decide)).1
        · rfl)
      (fun i o c hc => by
        split
        · next e => subst e; exact spares_lookup db o op c (hop c hc) (not_map_of_list hc)
        · rfl)
    exact ⟨k.1 h, k.2⟩
  | start res stays =>
    have k := keep_frame (n := n) (n' := (NodeOp.run db n (.start res stays)).1) (fun r => by
      cases res with
      | none => cases r <;> rfl
      | some x =>
        show (Node.announce { n with running := x.1, addr := x.2 }).1.get r = _
        rw [(announce_same _).get]
        cases r <;> rfl)
    exact ⟨k.1 h, k.2⟩
  | stop =>
    have k := keep_frame (n := n) (n' := n.stop) (fun r => by cases r <;> rfl)
    exact ⟨k.1 h, k.2⟩
  | send m =>
    have k := keep_frame (n := n) (n' := (n.sendMessage m).1) (sendMessage_same n m).get
    exact ⟨k.1 h, k.2⟩

theorem ordinary_step (db : StdDB) {n : Node} (h : Base n) (h' : Listed n) (op : NodeOp)
    (hop : Ordinary db op) : Base (op.run db n).1 ∧ Listed (op.run db n).1 :=
  ⟨(ordinary_keeps db h op hop).1, (ordinary_keeps db h op hop).2 h'⟩

theorem ordinary_all (db : StdDB) {n : Node} (h : Base n) (h' : Listed n) (ops : List NodeOp)
    (hops : ∀ op ∈ ops, Ordinary db op) :
    Base (NodeOp.runAll db n ops).1 ∧ Listed (NodeOp.runAll db n ops).1 := by
  induction ops generalizing n with
  | nil => exact ⟨h, h'⟩
  | cons op ops ih =>
    obtain ⟨a, b⟩ := ordinary_step db h h' op (hops op List.mem_cons_self)
    exact ih a b (fun o ho => hops o (List.mem_cons_of_mem _ ho))

theorem newNodeProfile_reached (db : StdDB) : Reached db (Obj.newNodeProfile db) :=
  ⟨[.setCode nodeProfileObjectCode, .setCode nodeProfileObjectCode], rfl⟩

theorem nodeProfile_std : (Obj.newNodeProfile stdDB).code = 0x0EF001 ∧
    ∀ c ∈ listCodes, ((Obj.newNodeProfile stdDB).props.lookup c).isSome := by
  decide +kernel

theorem first_profile (n : Node) (p : Obj) (hd : n.devices = []) (hp : n.profiles = [])
    (hw : OWF p) (hc : p.code = 0x0EF001) (hl : ∀ c ∈ listCodes, (p.props.lookup c).isSome) :
    Base (n.addProfile p).1 ∧ Listed (n.addProfile p).1 := by
  apply update_establishes
  have hw' : OWF (p.setManufacturerCode n.manufacturer).1 := setMan_owf hw _
  refine ⟨?_, ?_⟩
  · intro r o ho
    cases r with
    | device i => simp [Node.get, hd] at ho
    | profile i =>
      simp only [Node.get, hp, List.nil_append] at ho
      have := List.mem_of_getElem? ho
      simp only [List.mem_singleton] at this
      subst this
      exact hw'
  · refine ⟨(p.setManufacturerCode n.manufacturer).1, by simp [Node.get, hp], ?_, ?_⟩
    · rw [setMan_code]; exact hc
    · intro c h
      rw [setMan_lookup]
      · exact hl c h
      · rintro rfl; revert h; decide

theorem new_std : Base (Node.new stdDB) ∧ Listed (Node.new stdDB) := by
  unfold Node.new
  exact first_profile _ _ rfl rfl (newNodeProfile_reached stdDB).owf nodeProfile_std.1 nodeProfile_std.2

theorem instanceListData_eq (ds : List Obj) : Obj.instanceListData ds
    = BitVec.ofNat 8 (min 255 ds.length) :: (ds.map (·.codes)).flatten := by
  unfold Obj.instanceListData
  congr 1
  split
  · rw [Nat.min_eq_right (by omega)]
  · rw [Nat.min_eq_left (by omega)]; rfl

theorem classListData_eq (cs : List Cls) : Obj.classListData cs
    = BitVec.ofNat 8 (min 255 (cs.map (·.bytes)).length) :: (cs.map (·.bytes)).flatten := by
  unfold Obj.classListData
  rw [List.length_map]
  congr 1
  split
  · rw [Nat.min_eq_right (by omega)]
  · rw [Nat.min_eq_left (by omega)]; rfl

theorem listed_describes {n : Node} (h : Base n) (h' : Listed n)
    (hlen : n.devices.length < 2 ^ 64 ∧ n.classes.length < 2 ^ 64) : DescribesNode n := by
  obtain ⟨o, ho, hc, -⟩ := h.prof
  obtain ⟨a, b, c, d, e⟩ := h' o ho
  have hspec := classes_spec ((n.devices ++ n.profiles).map Obj.clsD)
  have hwf : ∀ x ∈ n.devices ++ n.profiles, OWF x := by
    intro x hx
    rw [List.mem_append] at hx
    rcases hx with hx | hx
    · obtain ⟨i, hi⟩ := List.getElem?_of_mem hx
      exact h.wf (.device i) x hi
    · obtain ⟨i, hi⟩ := List.getElem?_of_mem hx
      exact h.wf (.profile i) x hi
  refine ⟨.profile 0, o, n.classes.map (·.bytes), h.nodeProfile, ho, hc, ?_, ?_, ?_, ?_, ?_, ?_, ?_⟩
  · apply List.Pairwise.map (R := fun a b => a ≠ b) _ _ hspec.1
    intro x y hxy e
    apply hxy
    cases x; cases y
    simpa [Cls.bytes] using e
  · intro x
    rw [List.mem_map]
    constructor
    · rintro ⟨k, hk, rfl⟩
      have := (hspec.2 k).mp hk
      rw [List.mem_map] at this
      obtain ⟨y, hy, rfl⟩ := this
      exact ⟨y, hy, (cls_eq (hwf y hy)).2.symm⟩
    · rintro ⟨y, hy, rfl⟩
      exact ⟨y.clsD, (hspec.2 _).mpr (List.mem_map.mpr ⟨y, hy, rfl⟩), (cls_eq (hwf y hy)).2.symm⟩
  · have e3 : EProp.integerData (BitVec.ofNat 64 n.devices.length) 3 = beBytes 3 n.devices.length := by
      unfold EProp.integerData
      rw [integerToByte_eq]
      simp only [BitVec.toNat_ofNat]
      rw [Nat.mod_eq_of_lt hlen.1]
      rfl
    rw [← e3]; exact a
  · have e4 : EProp.integerData (BitVec.ofNat 64 n.classes.length) 2 = beBytes 2 n.classes.length := by
      unfold EProp.integerData
      rw [integerToByte_eq]
      simp only [BitVec.toNat_ofNat]
      rw [Nat.mod_eq_of_lt hlen.2]
      rfl
    rw [List.length_map, ← e4]; exact b
  · rw [← instanceListData_eq]; exact c
  · rw [← instanceListData_eq]; exact d
  · rw [← classListData_eq]; exact e

theorem length_bound {n : Node} (hlen : n.devices.length + n.profiles.length < 2 ^ 63) :
    n.devices.length < 2 ^ 64 ∧ n.classes.length < 2 ^ 64 := by
  have hle : ∀ l cs : List Cls, (l.foldl addClass cs).length ≤ cs.length + l.length := by
    intro l
    induction l with
    | nil => intro cs; simp
    | cons c l ih =>
      intro cs
      rw [List.foldl_cons]
      have h1 := ih (addClass cs c)
      have h2 : (addClass cs c).length ≤ cs.length + 1 := by
        unfold addClass; split <;> simp
      simp only [List.length_cons]
      omega
  have := hle ((n.devices ++ n.profiles).map Obj.clsD) []
  unfold Node.classes
  simp only [List.length_map, List.length_append, List.length_nil] at this
  omega

/-- C30. After any history of ordinary calls on a new node, the node profile describes the node.
(The lengths are those of Go slices, which are below 2^63.) -/
theorem C30_node_profile (ops : List NodeOp) (hops : ∀ op ∈ ops, Ordinary stdDB op) (n : Node)
    (hn : n = (NodeOp.runAll stdDB (Node.new stdDB) ops).1)
    (hlen : n.devices.length + n.profiles.length < 2 ^ 63) : DescribesNode n := by
  obtain ⟨a, b⟩ := ordinary_all stdDB new_std.1 new_std.2 ops hops
  rw [← hn] at a b
  exact listed_describes a b (length_bound hlen)

/-- A device of the standard database. -/
def sampleDevice (c : ObjectCode) : Obj := ObjOp.runAll stdDB (Obj.newSuper stdDB) [.setCode c]

example : Obj.newDeviceWithCode stdDB 0x013001 = .ok (sampleDevice 0x013001) := by decide +kernel

/-- A node with an air conditioner, a second device and a renamed first one. -/
def sampleOps : List NodeOp :=
  [.addDevice (sampleDevice 0x013001), .start (some (true, ⟨"192.168.0.2", 3610⟩)) true,
   .addDevice (sampleDevice 0x029101), .obj (.device 0) (.writeByte 0x80 0x30)]

example : ∀ op ∈ sampleOps, Ordinary stdDB op := by
  intro op hop
  simp only [sampleOps, List.mem_cons, List.not_mem_nil, or_false] at hop
  rcases hop with rfl | rfl | rfl | rfl
  · exact ⟨_, rfl⟩
  · trivial
  · exact ⟨_, rfl⟩
  · trivial

end Verif.Props
