import Verif.Props.Node

/-! # C31, C41: manufacturer code and announcements -/

namespace Verif.Props
open Verif Model Spec Lemmas

/-! ## C31 -/

/-- Objects added were obtained from the library and the manufacturer code property (0x8A) of an
object is not written, added or reset directly. -/
def SparesMan (db : StdDB) : NodeOp → Prop
  | .addDevice o => Reached db o
  | .addProfile o => Reached db o
  | .obj _ op => Spares op 0x8A
  | _ => True

/-- The manufacturer code last given to `SetManufacturerCode`, `d` if there is none. -/
def lastManufacturer (d : GoUint) : List NodeOp → GoUint
  | [] => d
  | .setManufacturer c :: ops => lastManufacturer c ops
  | _ :: ops => lastManufacturer d ops

/-- Every object reports the code `c`. -/
def Uniform (n : Node) : Prop := ∀ r o p, n.get r = some o → o.props.lookup 0x8A = some p →
  p.data = EProp.integerData n.manufacturer 3

theorem uniform_map {n n' : Node} (f : ObjRef → Obj → Obj) (hget : ∀ r, n'.get r = (n.get r).map (f r))
    (hm : n'.manufacturer = n.manufacturer)
    (hl : ∀ r o, n.get r = some o → (f r o).props.lookup 0x8A = o.props.lookup 0x8A)
    (h : Uniform n) : Uniform n' := by
  intro r o p ho hp
  rw [hget, Option.map_eq_some_iff] at ho
  obtain ⟨o', h1, rfl⟩ := ho
  rw [hl r o' h1] at hp
  rw [hm]
  exact h r o' p h1 hp

theorem profileWrites_8A (ds : List Obj) (cs : List Cls) (o : Obj) :
    (profileWrites ds cs o).props.lookup 0x8A = o.props.lookup 0x8A := by
  have key : ∀ (o : Obj) (c : Byte) (d : Bytes), c ≠ 0x8A →
      (o.setPropertyData c d).1.props.lookup 0x8A = o.props.lookup 0x8A := by
    intro o c d hc
    rw [setPropertyData_fst, lookup_update, if_neg (Ne.symm hc)]
  unfold profileWrites Obj.setClassList
  rw [key _ _ _ (by decide)]
  have h3 : ∀ o : Obj, (o.setInstanceList ds).1.props.lookup 0x8A = o.props.lookup 0x8A := by
    intro o
    unfold Obj.setInstanceList
    dsimp only
    split
    · next heq =>
      have := key o 0xD5 (Obj.instanceListData ds) (by decide)
      rw [heq] at this; exact this
    · next o' as' heq =>
      have := key o 0xD5 (Obj.instanceListData ds) (by decide)
      rw [heq] at this
      show (o'.setPropertyData _ _).1.props.lookup _ = _
      rw [key _ _ _ (by decide)]; exact this
  rw [h3]
  unfold Obj.setClassCount Obj.setInstanceCount
  rw [setPropertyInteger_eq, key _ _ _ (by decide), setPropertyInteger_eq, key _ _ _ (by decide)]

theorem uniform_update {n : Node} (h : Uniform n) : Uniform n.updateNodeProfile.1 := by
  apply uniform_map (n := n)
    (fun r o => if n.nodeProfile = some r then profileWrites n.devices n.classes o else o) _
    (updateNodeProfile_frame n).manufacturer _ h
  · intro r
    rw [updateNodeProfile_get]
    split <;> simp [*]
  · intro r o _
    split
    · exact profileWrites_8A _ _ _
    · rfl

theorem setMan_data (o : Obj) (c : GoUint) (p : EProp)
    (hp : (o.setManufacturerCode c).1.props.lookup 0x8A = some p) : p.data = EProp.integerData c 3 := by
  rw [setMan_fst, lookup_update, if_pos rfl, Option.map_eq_some_iff] at hp
  obtain ⟨q, -, rfl⟩ := hp
  rfl

theorem uniform_append {n : Node} (h : Uniform n) (o : Obj) :
    Uniform { n with devices := n.devices ++ [(o.setManufacturerCode n.manufacturer).1] } ∧
    Uniform { n with profiles := n.profiles ++ [(o.setManufacturerCode n.manufacturer).1] } := by
  constructor
  · intro r o' p ho hp
    cases r with
    | device i =>
      simp only [Node.get] at ho
      rw [List.getElem?_append] at ho
      split at ho
      · exact h (.device i) o' p ho hp
      · have := List.mem_of_getElem? ho
        simp only [List.mem_singleton] at this
        subst this
        exact setMan_data o _ p hp
    | profile i => exact h (.profile i) o' p ho hp
  · intro r o' p ho hp
    cases r with
    | device i => exact h (.device i) o' p ho hp
    | profile i =>
      simp only [Node.get] at ho
      rw [List.getElem?_append] at ho
      split at ho
      · exact h (.profile i) o' p ho hp
      · have := List.mem_of_getElem? ho
        simp only [List.mem_singleton] at this
        subst this
        exact setMan_data o _ p hp

theorem start_same (db : StdDB) (n : Node) (res : Option (Bool × Addr)) (stays : Bool) :
    (∀ r, (NodeOp.run db n (.start res stays)).1.get r = n.get r) ∧
    (NodeOp.run db n (.start res stays)).1.manufacturer = n.manufacturer := by
  cases res with
  | none => exact ⟨fun r => by cases r <;> rfl, rfl⟩
  | some x =>
    have := announce_same { n with running := x.1, addr := x.2 }
    refine ⟨fun r => ?_, this.frame.manufacturer⟩
    show (Node.announce { n with running := x.1, addr := x.2 }).1.get r = _
    rw [this.get]
    cases r <;> rfl

theorem uniform_step (db : StdDB) {n : Node} (h : Uniform n) (op : NodeOp) (hop : SparesMan db op) :
    Uniform (op.run db n).1 ∧ (op.run db n).1.manufacturer = lastManufacturer n.manufacturer [op] := by
  cases op with
  | addDevice o =>
    exact ⟨uniform_update (uniform_append h o).1, (updateNodeProfile_frame _).manufacturer⟩
  | addProfile o =>
    exact ⟨uniform_update (uniform_append h o).2, (updateNodeProfile_frame _).manufacturer⟩
  | setManufacturer c =>
    have hm : (n.setManufacturerCode c).1.manufacturer = c := (setManufacturerCode_frame n c).manufacturer
    refine ⟨?_, hm⟩
    intro r o p ho hp
    show p.data = EProp.integerData (n.setManufacturerCode c).1.manufacturer 3
    rw [hm]
    have ho' : (n.setManufacturerCode c).1.get r = some o := ho
    rw [setManufacturerCode_get, Option.map_eq_some_iff] at ho'
    obtain ⟨o', -, rfl⟩ := ho'
    exact setMan_data o' c p hp
  | setSelf b =>
    exact ⟨uniform_map (n := n) (fun _ o => o) (fun r => by cases r <;> simp [NodeOp.run, Node.get]) rfl
      (fun _ _ _ => rfl) h, rfl⟩
  | obj r op =>
    have hm : (n.onObj r (fun o => Node.dropErr (op.run db o))).1.manufacturer = n.manufacturer :=
      (onObj_frame n r _).manufacturer
    refine ⟨?_, hm⟩
    apply uniform_map (n := n) (fun r' o => if r' = r then (op.run db o).1 else o) _ hm _ h
    · intro r'
      show (n.onObj r (fun o => Node.dropErr (op.run db o))).1.get r' = _
      rw [onObj_get]
      by_cases e : r' = r
      · subst e; simp [Node.dropErr]
      · simp [e]
    · intro r' o _
      split
      · exact spares_lookup db o op 0x8A hop (by unfold IsMapCode; decide)
      · rfl
  | start res stays =>
    obtain ⟨h1, h2⟩ := start_same db n res stays
    exact ⟨uniform_map (n := n) (fun _ o => o) (fun r => by rw [h1]; simp) h2 (fun _ _ _ => rfl) h, h2⟩
  | stop =>
    exact ⟨uniform_map (n := n) (fun _ o => o) (fun r => by cases r <;> simp [NodeOp.run, Node.stop, Node.get])
      rfl (fun _ _ _ => rfl) h, rfl⟩
  | send m =>
    have := sendMessage_same n m
    exact ⟨uniform_map (n := n) (fun _ o => o) (fun r => by
      show (n.sendMessage m).1.get r = _
      rw [this.get]; simp) this.frame.manufacturer (fun _ _ _ => rfl) h, this.frame.manufacturer⟩

theorem lastManufacturer_cons (d : GoUint) (op : NodeOp) (ops : List NodeOp) :
    lastManufacturer d (op :: ops) = lastManufacturer (lastManufacturer d [op]) ops := by
  cases op <;> rfl

theorem uniform_all (db : StdDB) {n : Node} (h : Uniform n) (ops : List NodeOp)
    (hops : ∀ op ∈ ops, SparesMan db op) :
    Uniform (NodeOp.runAll db n ops).1 ∧
    (NodeOp.runAll db n ops).1.manufacturer = lastManufacturer n.manufacturer ops := by
  induction ops generalizing n with
  | nil => exact ⟨h, rfl⟩
  | cons op ops ih =>
    obtain ⟨a, b⟩ := uniform_step db h op (hops op List.mem_cons_self)
    obtain ⟨c, d⟩ := ih a (fun o ho => hops o (List.mem_cons_of_mem _ ho))
    refine ⟨c, ?_⟩
    rw [lastManufacturer_cons, ← b]
    exact d

theorem first_uniform (n : Node) (o : Obj) (hd : n.devices = []) (hp : n.profiles = []) :
    Uniform (n.addProfile o).1 ∧ (n.addProfile o).1.manufacturer = n.manufacturer := by
  constructor
  · apply uniform_update
    refine (uniform_append (n := n) ?_ o).2
    intro r o p ho
    cases r <;> simp [Node.get, hd, hp] at ho
  · exact (updateNodeProfile_frame _).manufacturer

theorem new_uniform (db : StdDB) : Uniform (Node.new db) ∧ (Node.new db).manufacturer = 0xFFFFFF := by
  have h := first_uniform Node.initial (Obj.newNodeProfile db) rfl rfl
  unfold Node.new
  exact ⟨h.1, h.2.trans rfl⟩

/-- C31. After any history of calls on a new node that leaves the property 0x8A of its objects
alone, every device and profile having this property reports, in three bytes, the code last given
to `SetManufacturerCode` of the node, and 0xFFFFFF before the first such call. -/
theorem C31_uniform (db : StdDB) (ops : List NodeOp) (hops : ∀ op ∈ ops, SparesMan db op)
    (x : Obj) (n : Node) (hn : n = (NodeOp.runAll db (Node.new db) ops).1)
    (hx : x ∈ n.devices ++ n.profiles) (p : EProp) (hp : x.props.lookup 0x8A = some p) :
    p.data = beBytes 3 (lastManufacturer 0xFFFFFF ops).toNat ∧
    x.manufacturerCode = .ok (BitVec.ofNat 64 ((lastManufacturer 0xFFFFFF ops).toNat % 2 ^ 24)) := by
  obtain ⟨hu, hm⟩ := uniform_all db (new_uniform db).1 ops hops
  rw [← hn] at hu hm
  rw [(new_uniform db).2] at hm
  have hd : p.data = beBytes 3 (lastManufacturer 0xFFFFFF ops).toNat := by
    have : p.data = EProp.integerData n.manufacturer 3 := by
      rw [List.mem_append] at hx
      rcases hx with hx | hx
      · obtain ⟨i, hi⟩ := List.getElem?_of_mem hx
        exact hu (.device i) x p hi hp
      · obtain ⟨i, hi⟩ := List.getElem?_of_mem hx
        exact hu (.profile i) x p hi hp
    rw [this, hm]
    unfold EProp.integerData
    rw [integerToByte_eq]
    rfl
  refine ⟨hd, ?_⟩
  have hl : p.data.length ≠ 0 := by rw [hd, beBytes_length]; decide
  have e : x.manufacturerCode = p.asInteger := by
    unfold Obj.manufacturerCode Obj.lookupPropertyInteger objectManufacturerCode
    rw [hp]
  rw [e]
  unfold EProp.asInteger
  rw [if_neg hl, hd]
  generalize (lastManufacturer 0xFFFFFF ops).toNat = v
  refine congrArg Res.ok (BitVec.eq_of_toNat_eq ?_)
  rw [byteToInteger_toNat, beNat_beBytes, BitVec.toNat_ofNat]

example : ∀ op ∈ NodeOp.setManufacturer 0x000B :: sampleOps, SparesMan stdDB op := by
  intro op hop
  simp only [sampleOps, List.mem_cons, List.not_mem_nil, or_false] at hop
  rcases hop with rfl | rfl | rfl | rfl | rfl
  · trivial
  · exact ⟨_, rfl⟩
  · trivial
  · exact ⟨_, rfl⟩
  · exact ⟨trivial, (by rintro c d h rfl; cases h), (by rintro p (h | h) <;> cases h)⟩

example : ((sampleDevice 0x013001).props.lookup 0x8A).isSome := by decide +kernel

/-! ## C41 -/

/-- Objects added to the node were obtained from the library. -/
def FromLibrary (db : StdDB) : NodeOp → Prop
  | .addDevice o => Reached db o
  | .addProfile o => Reached db o
  | _ => True

/-- The nodes a program can have. -/
def NodeReached (db : StdDB) (n : Node) : Prop :=
  ∃ ops, (∀ op ∈ ops, FromLibrary db op) ∧ n = (NodeOp.runAll db (Node.new db) ops).1

def AllOWF (n : Node) : Prop := ∀ r o, n.get r = some o → OWF o

theorem profileWrites_owf' (ds : List Obj) (cs : List Cls) {o : Obj} (h : OWF o) :
    OWF (profileWrites ds cs o) := by
  have key : ∀ (o : Obj) (c : Byte) (d : Bytes), OWF o → OWF (o.setPropertyData c d).1 := by
    intro o c d h
    rw [setPropertyData_fst]
    exact ⟨h.codes, h.uniq.update _ _⟩
  unfold profileWrites Obj.setClassList
  apply key
  have h3 : ∀ o : Obj, OWF o → OWF (o.setInstanceList ds).1 := by
    intro o h
    unfold Obj.setInstanceList
    dsimp only
    split
    · next heq =>
      have := key o 0xD5 (Obj.instanceListData ds) h
      rw [heq] at this; exact this
    · next o' as' heq =>
      have := key o 0xD5 (Obj.instanceListData ds) h
      rw [heq] at this
      show OWF (o'.setPropertyData _ _).1
      exact key _ _ _ this
  apply h3
  unfold Obj.setClassCount Obj.setInstanceCount
  rw [setPropertyInteger_eq]
  apply key
  rw [setPropertyInteger_eq]
  exact key _ _ _ h

theorem allOWF_map {n n' : Node} (f : ObjRef → Obj → Obj) (hget : ∀ r, n'.get r = (n.get r).map (f r))
    (hf : ∀ r o, OWF o → OWF (f r o)) (h : AllOWF n) : AllOWF n' := by
  intro r o ho
  rw [hget, Option.map_eq_some_iff] at ho
  obtain ⟨o', h1, rfl⟩ := ho
  exact hf _ _ (h r o' h1)

theorem allOWF_same {n n' : Node} (hget : ∀ r, n'.get r = n.get r) (h : AllOWF n) : AllOWF n' :=
  allOWF_map (fun _ o => o) (fun r => by rw [hget]; simp) (fun _ _ h => h) h

theorem allOWF_update {n : Node} (h : AllOWF n) : AllOWF n.updateNodeProfile.1 := by
  refine allOWF_map (n := n)
    (fun r o => if n.nodeProfile = some r then profileWrites n.devices n.classes o else o) ?_ ?_ h
  · intro r
    rw [updateNodeProfile_get]
    split <;> simp [*]
  · intro r o ho
    split
    · exact profileWrites_owf' _ _ ho
    · exact ho

theorem allOWF_append {n : Node} (h : AllOWF n) {o : Obj} (ho : OWF o) :
    AllOWF { n with devices := n.devices ++ [o] } ∧ AllOWF { n with profiles := n.profiles ++ [o] } := by
  have key : ∀ (l : List Obj) (i : Nat) (x : Obj), (∀ (i : Nat) x, l[i]? = some x → OWF x) →
      (l ++ [o])[i]? = some x → OWF x := by
    intro l i x hl hx
    rw [List.getElem?_append] at hx
    split at hx
    · exact hl _ _ hx
    · have := List.mem_of_getElem? hx
      simp only [List.mem_singleton] at this
      subst this
      exact ho
  constructor
  · intro r x hx
    cases r with
    | device i => exact key n.devices i x (fun i x hx => h (.device i) x hx) hx
    | profile i => exact h (.profile i) x hx
  · intro r x hx
    cases r with
    | device i => exact h (.device i) x hx
    | profile i => exact key n.profiles i x (fun i x hx => h (.profile i) x hx) hx

theorem allOWF_step (db : StdDB) {n : Node} (h : AllOWF n) (op : NodeOp) (hop : FromLibrary db op) :
    AllOWF (op.run db n).1 := by
  cases op with
  | addDevice o => exact allOWF_update (allOWF_append h (setMan_owf (Reached.owf hop) _)).1
  | addProfile o => exact allOWF_update (allOWF_append h (setMan_owf (Reached.owf hop) _)).2
  | setManufacturer c =>
    exact allOWF_map (n := n) (fun _ o => (o.setManufacturerCode c).1) (setManufacturerCode_get n c)
      (fun _ _ ho => setMan_owf ho c) h
  | setSelf b => exact allOWF_same (n := n) (fun r => by cases r <;> rfl) h
  | obj r op =>
    refine allOWF_map (n := n) (fun r' o => if r' = r then (op.run db o).1 else o) ?_ ?_ h
    · intro r'
      show (n.onObj r (fun o => Node.dropErr (op.run db o))).1.get r' = _
      rw [onObj_get]
      by_cases e : r' = r
      · subst e; simp [Node.dropErr]
      · simp [e]
    · intro r' o ho
      split
      · exact owf_run ho db op
      · exact ho
  | start res stays => exact allOWF_same (start_same db n res stays).1 h
  | stop => exact allOWF_same (n := n) (fun r => by cases r <;> rfl) h
  | send m => exact allOWF_same (sendMessage_same n m).get h

theorem allOWF_all (db : StdDB) {n : Node} (h : AllOWF n) (ops : List NodeOp)
    (hops : ∀ op ∈ ops, FromLibrary db op) : AllOWF (NodeOp.runAll db n ops).1 := by
  induction ops generalizing n with
  | nil => exact h
  | cons op ops ih =>
    exact ih (allOWF_step db h op (hops op List.mem_cons_self))
      (fun o ho => hops o (List.mem_cons_of_mem _ ho))

theorem new_owf (db : StdDB) : AllOWF (Node.new db) := by
  unfold Node.new
  apply allOWF_update
  refine (allOWF_append (n := Node.initial) ?_ (setMan_owf (newNodeProfile_reached db).owf _)).2
  intro r o ho
  cases r <;> simp [Node.get, Node.initial] at ho

theorem NodeReached.owf {db : StdDB} {n : Node} (h : NodeReached db n) : AllOWF n := by
  obtain ⟨ops, h1, rfl⟩ := h
  exact allOWF_all db (new_owf db) ops h1

theorem NodeOp.noSend_counted (db : StdDB) (n : Node) (op : NodeOp) (hn : n.lastTID.toNat ≤ 65535) :
    (op.run db n).1.lastTID.toNat ≤ 65535 := by
  cases op with
  | send m =>
    simp only [NodeOp.run, Node.sendMessage]
    split
    · exact hn
    · rw [nextTID_eq]
      dsimp only
      split
      · exact nextId_le _ hn
      · split <;> exact nextId_le _ hn
  | addDevice o => exact (run_counted db n (.addDevice o) trivial).le hn
  | addProfile o => exact (run_counted db n (.addProfile o) trivial).le hn
  | setManufacturer c => exact (run_counted db n (.setManufacturer c) trivial).le hn
  | setSelf b => exact (run_counted db n (.setSelf b) trivial).le hn
  | obj r op => exact (run_counted db n (.obj r op) trivial).le hn
  | start res stays => exact (run_counted db n (.start res stays) trivial).le hn
  | stop  => exact (run_counted db n (.stop ) trivial).le hn

theorem NodeReached.tid {db : StdDB} {n : Node} (h : NodeReached db n) : n.lastTID.toNat ≤ 65535 := by
  obtain ⟨ops, -, rfl⟩ := h
  have : ∀ (ops : List NodeOp) (n : Node), n.lastTID.toNat ≤ 65535 →
      (NodeOp.runAll db n ops).1.lastTID.toNat ≤ 65535 := by
    intro ops
    induction ops with
    | nil => intro n h; exact h
    | cons op ops ih => intro n h; exact ih _ (NodeOp.noSend_counted db n op h)
  exact this ops _ (new_tid db)

/-- A notification (INF) with the node profile as destination and exactly one property. -/
structure IsNotification (m : Message) (tid : Nat) (source : Bytes) (c : Byte) (d : Bytes) : Prop where
  esv : m.esv = 0x73
  tid : m.getTID.toNat = tid
  seoj : m.seoj = source
  deoj : m.deoj = [0x0E, 0xF0, 0x01]
  opc : m.opc = 1
  props : m.ep = [some ⟨c, d⟩]

theorem infMessage_is (t : GoUint) (h : t.toNat ≤ 65535) (o : Obj) (hw : OWF o) (c : Byte) (d : Bytes) :
    IsNotification (infMessage t ⟨o.code, ⟨c, d⟩⟩) t.toNat o.codes c d := by
  refine ⟨rfl, infMessage_tid t _ h, ?_, ?_, rfl, rfl⟩
  rotate_left
  · show integerToByte nodeProfileObjectCode (List.replicate 3 0) = _
    decide
  show integerToByte o.code (List.replicate 3 0) = o.codes
  apply C01_read_write
  · rw [hw.codes]; rfl
  · rw [hw.codes]; decide

/-- C41. Writing a property of an object of a running node (with `SetPropertyData`,
`SetPropertyByte` or `SetPropertyInteger`; `op.target` is the code and the data written) multicasts
exactly one notification, with the object as source, the next transaction identifier and the new
data, if the property is announceable, and nothing if it is not or is missing. -/
theorem C41_write (db : StdDB) (n : Node) (hn : NodeReached db n) (hr : n.running = true)
    (r : ObjRef) (o : Obj) (ho : n.get r = some o) (op : ObjOp) (c : Byte) (d : Bytes)
    (hop : op.target = some (c, d)) :
    ((∃ p, o.props.lookup c = some p ∧ p.annoAttr ≠ 0) →
      ∃ m, ((NodeOp.obj r op).run db n).2 = [.multicast m] ∧
        IsNotification m ((n.lastTID.toNat + 1) % 65536) o.codes c d) ∧
    ((¬ ∃ p, o.props.lookup c = some p ∧ p.annoAttr ≠ 0) → ((NodeOp.obj r op).run db n).2 = []) := by
  have hrun : ((NodeOp.obj r op).run db n).2
      = (infs n.lastTID (o.setPropertyData c d).2.1).map .multicast := by
    simp only [NodeOp.run, Node.onObj, ho, casts, Node.dropErr]
    rw [run_target db o op c d hop, emit_eq]
    rw [show ∀ x, (n.set r x).running = n.running by intro x; cases r <;> rfl, hr]
    rw [show ∀ x, (n.set r x).lastTID = n.lastTID by intro x; cases r <;> rfl]
    rfl
  rw [hrun, setPropertyData_eq]
  constructor
  · rintro ⟨p, hp, ha⟩
    have hann : p.isAnnounceable = true := by
      unfold EProp.isAnnounceable Attr.isProhibited Attr.prohibited
      simpa using ha
    rw [hp]
    refine ⟨infMessage (nextId n.lastTID) ⟨o.code, ⟨c, d⟩⟩, ?_, ?_⟩
    · simp only [hann, if_true]; rfl
    · have := infMessage_is (nextId n.lastTID) (nextId_le _ hn.tid) o (hn.owf r o ho) c d
      rw [nextId_toNat _ hn.tid] at this
      exact this
  · intro hno
    cases hp : o.props.lookup c with
    | none => rfl
    | some p =>
      have hann : p.isAnnounceable = false := by
        unfold EProp.isAnnounceable Attr.isProhibited Attr.prohibited
        have : p.annoAttr = 0 := by
          rcases Decidable.em (p.annoAttr = 0) with h | h
          · exact h
          · exact absurd ⟨p, hp, h⟩ hno
        simp [this]
      simp [hann, infs]

/-- A node that runs, and a property of its first device that is announced: writing it sends a notification. -/
example : let n := (NodeOp.runAll stdDB (Node.new stdDB) sampleOps).1
    n.running = true ∧ (n.get (.device 0)).map (fun o => (o.props.lookup 0x80).map (·.annoAttr)) = some (some 1) ∧
    (ObjOp.write 0x80 [0x31]).target = some (0x80, [0x31]) ∧
    ((NodeOp.obj (.device 0) (.write 0x80 [0x31])).run stdDB n).2.length = 1 := by
  decide +kernel

/-- The set-up of the theorem: a running node with an air conditioner, whose property 0x80 is
announceable and whose property 0xD0 is not. -/
example : NodeReached stdDB (NodeOp.runAll stdDB (Node.new stdDB) sampleOps).1 :=
  ⟨sampleOps, by
    intro op hop
    simp only [sampleOps, List.mem_cons, List.not_mem_nil, or_false] at hop
    rcases hop with rfl | rfl | rfl | rfl
    · exact ⟨_, rfl⟩
    · trivial
    · exact ⟨_, rfl⟩
    · trivial, rfl⟩

example : ((sampleDevice 0x013001).props.lookup 0x80).map (·.annoAttr) = some 1 ∧
    ((sampleDevice 0x013001).props.lookup 0xD0).map (·.annoAttr) = some 0 := by decide +kernel

theorem infs_notify (t : GoUint) (as : List Ann) : ∀ m ∈ infs t as, ∃ t s c d, IsNotification m t s c d := by
  induction as generalizing t with
  | nil => intro m hm; cases hm
  | cons a as ih =>
    intro m hm
    unfold infs at hm
    rcases List.mem_cons.mp hm with rfl | hm
    · refine ⟨_, _, a.prop.code, a.prop.data, rfl, rfl, rfl, ?_, rfl, rfl⟩
      show integerToByte nodeProfileObjectCode (List.replicate 3 0) = _
      decide
    · exact ih _ m hm

/-- Only notifications, and none when stopped. -/
def Quiet (n : Node) (x : Node × List Message) : Prop :=
  (∀ m ∈ x.2, ∃ t s c d, IsNotification m t s c d) ∧ (n.running = false → x.2 = [] ∧ x.1.running = false)

theorem Quiet.append {n n' : Node} {ms : List Message} {x : Node × List Message}
    (h : Quiet n (n', ms)) (h' : Quiet n' x) : Quiet n (x.1, ms ++ x.2) := by
  refine ⟨?_, ?_⟩
  · intro m hm
    rcases List.mem_append.mp hm with hm | hm
    · exact h.1 m hm
    · exact h'.1 m hm
  · intro hr
    obtain ⟨a, b⟩ := h.2 hr
    obtain ⟨c, d⟩ := h'.2 b
    simp only at a
    exact ⟨by rw [a, c]; rfl, d⟩

theorem Quiet.nil {n n' : Node} (h : n'.running = n.running) : Quiet n (n', []) :=
  ⟨fun _ h => (List.not_mem_nil h).elim, fun h' => ⟨rfl, h.trans h'⟩⟩

theorem emit_quiet (n : Node) (as : List Ann) : Quiet n (n.emit as) := by
  rw [emit_eq]
  split
  · next h => exact ⟨infs_notify _ _, fun h' => by rw [h] at h'; cases h'⟩
  · exact .nil rfl

theorem onObj_quiet (n : Node) (r : ObjRef) (f : Obj → Obj × List Ann) : Quiet n (n.onObj r f) := by
  unfold Node.onObj
  cases n.get r with
  | none => exact .nil rfl
  | some o =>
    have := emit_quiet (n.set r (f o).1) (f o).2
    unfold Quiet at this
    rw [show (n.set r (f o).1).running = n.running by cases r <;> rfl] at this
    exact this

theorem onObjs_quiet (n : Node) (f : Obj → Obj × List Ann) (rs : List ObjRef) :
    Quiet n (n.onObjs f rs) := by
  induction rs generalizing n with
  | nil => exact .nil rfl
  | cons r rs ih => exact (onObj_quiet n r f).append (ih _)

theorem updateNodeProfile_quiet (n : Node) : Quiet n n.updateNodeProfile := by
  unfold Node.updateNodeProfile
  cases n.nodeProfile with
  | none => exact .nil rfl
  | some r =>
    dsimp only
    refine Quiet.append (n' := _) ?_ (onObj_quiet _ _ _)
    refine Quiet.append (n' := _) ?_ (onObj_quiet _ _ _)
    refine Quiet.append (n' := _) ?_ (onObj_quiet _ _ _)
    exact onObj_quiet _ _ _

theorem announce_quiet (n : Node) : Quiet n (n.announce.1, n.announce.2.1) := by
  unfold Node.announce
  split
  · exact .nil rfl
  · split
    · exact .nil rfl
    · split
      · exact .nil rfl
      · next p _ =>
        unfold Node.announceProperty Node.announceMessage
        split
        · exact .nil rfl
        · next h =>
          rw [nextTID_eq]
          refine ⟨?_, ?_⟩
          · exact infs_notify n.lastTID [_]
          · intro h'; simp [h'] at h

/-- C41. Whatever is called, a node multicasts nothing but notifications of one property each, to
the node profile object. -/
theorem C41_only_notifications (db : StdDB) (n : Node) (op : NodeOp) (m : Message)
    (hm : Sent.multicast m ∈ (op.run db n).2) : ∃ t s c d, IsNotification m t s c d := by
  have key : ∀ x : Node × List Message, Quiet n x → Sent.multicast m ∈ (casts x).2 →
      ∃ t s c d, IsNotification m t s c d := by
    intro x hx h
    simp only [casts, List.mem_map, Sent.multicast.injEq] at h
    obtain ⟨_, h, rfl⟩ := h
    exact hx.1 _ h
  cases op with
  | addDevice o => exact key _ (updateNodeProfile_quiet { n with devices := n.devices ++ [_] }) hm
  | addProfile o => exact key _ (updateNodeProfile_quiet { n with profiles := n.profiles ++ [_] }) hm
  | setManufacturer c => exact key _ (onObjs_quiet { n with manufacturer := c } _ _) hm
  | setSelf b => cases hm
  | obj r op => exact key _ (onObj_quiet _ _ _) hm
  | start res stays =>
    cases res with
    | none => cases hm
    | some x =>
      have := (announce_quiet { n with running := x.1, addr := x.2 }).1
      simp only [NodeOp.run, casts, List.mem_map, Sent.multicast.injEq] at hm
      obtain ⟨_, h, rfl⟩ := hm
      exact this _ h
  | stop => cases hm
  | send m' =>
    simp only [NodeOp.run, Option.mem_toList, Option.map_eq_some_iff, reduceCtorEq, and_false,
      exists_false] at hm

/-- A node that starts announces itself. -/
example : ((NodeOp.start (some (true, ⟨"192.168.0.2", 3610⟩)) true).run stdDB (Node.new stdDB)).2.length = 1 := by
  decide +kernel

/-- C41. A stopped node sends nothing at all until it is started, whatever is called. -/
theorem C41_stopped (db : StdDB) (n : Node) (hn : n.running = false) (ops : List NodeOp)
    (hops : ∀ op ∈ ops, ∀ res stays, op ≠ .start res stays) :
    (NodeOp.runAll db n ops).2 = [] ∧ (NodeOp.runAll db n ops).1.running = false := by
  induction ops generalizing n with
  | nil => exact ⟨rfl, hn⟩
  | cons op ops ih =>
    have step : (op.run db n).2 = [] ∧ (op.run db n).1.running = false := by
      have key : ∀ x : Node × List Message, Quiet n x → (casts x).2 = [] ∧ (casts x).1.running = false := by
        intro x hx
        obtain ⟨a, b⟩ := hx.2 hn
        simp only [casts, a]
        exact ⟨rfl, b⟩
      cases op with
      | addDevice o => exact key _ (updateNodeProfile_quiet { n with devices := n.devices ++ [_] })
      | addProfile o => exact key _ (updateNodeProfile_quiet { n with profiles := n.profiles ++ [_] })
      | setManufacturer c => exact key _ (onObjs_quiet { n with manufacturer := c } _ _)
      | setSelf b => exact ⟨rfl, hn⟩
      | obj r op => exact key _ (onObj_quiet _ _ _)
      | start res stays => exact absurd rfl (hops _ List.mem_cons_self res stays)
      | stop => exact ⟨rfl, rfl⟩
      | send m' =>
        simp [NodeOp.run, Node.sendMessage, hn]
    obtain ⟨a, b⟩ := step
    obtain ⟨c, d⟩ := ih _ b (fun o ho => hops o (List.mem_cons_of_mem _ ho))
    simp only [NodeOp.runAll, a, List.nil_append]
    exact ⟨c, d⟩

example : (Node.new stdDB).running = false := by decide +kernel

end Verif.Props
