import Verif.Model.Light
import Verif.Props.Handler
import Verif.Props.Device
import Verif.Props.NodeOptions
import Verif.Props.RoundTrip

/-! # C108: the example light -/

namespace Verif.Props
open Verif Model Spec Lemmas

/-! ## Specification -/

/-- The power state after the properties `ps` were written in order: only 30 (on) and 31 (off) for
the property 80 count. -/
def switched (v : Byte) (ps : List PProp) : Byte :=
  ps.foldl (fun v p => if p = ⟨0x80, [0x30]⟩ then 0x30 else if p = ⟨0x80, [0x31]⟩ then 0x31 else v) v

/-- The message is a write request to the light `d` which it can carry out: it has all the
properties, they can be written (and, with SetGet, read), and the sizes fit. -/
def WritesTo (d : Obj) (m : Message) : Prop :=
  m.getDEOJ = 0x029101 ∧ (m.esv = 0x60 ∨ m.esv = 0x61 ∨ m.esv = 0x6E) ∧
  ∀ p ∈ properties m, Permits d m.esv p

open Classical in
/-- The power state of the light `d` after one event. -/
noncomputable def powerAfter (d : Obj) (v : Byte) : Light.Event → Byte
  | .message m => if WritesTo d m then switched v (properties m) else v
  | _ => v

/-- The node has one device: `d`, with power state `v`. -/
def IsLight (d : Obj) (n : Node) (v : Byte) : Prop :=
  n.devices = [{ d with props := d.props.update 0x80 [v] }] ∧ n.selfMsg = true

/-- The light as it is made: a device of the class 0291 whose operation status (80) is 30, and can be
read, written and announced. -/
structure NewLight (d : Obj) : Prop where
  code : d.code = 0x029101
  power : ∃ q, d.props.lookup 0x80 = some q ∧ q.data = [0x30] ∧ q.getAttr ≠ 0 ∧ q.setAttr ≠ 0 ∧ q.annoAttr ≠ 0

/-! ## The light that is made -/

theorem light_std : (stdDB.lookupObject 0x029101).isSome = true ∧
    ((standardProperty stdDB 0x029101 0x80).map (fun q => (q.getAttr, q.setAttr, q.annoAttr))
      = some (1, 1, 1)) ∧ (standardProperty stdDB 0x029101 0x8A).isSome = true := by
  decide +kernel

theorem update_same {m : PMap} (hu : Uniq m) {c : Byte} {q : EProp} (h : m.lookup c = some q) :
    m.update c q.data = m := by
  unfold PMap.update
  conv => rhs; rw [← List.map_id m]
  apply List.map_congr_left
  intro p hp
  by_cases he : p.code = c
  · rw [if_pos he]
    have : p = q := by
      have h2 := lookup_of_mem hu hp
      rw [he, h] at h2
      exact (Option.some.inj h2).symm
    subst this
    rfl
  · rw [if_neg he]; rfl

theorem reached_write {db : StdDB} {o : Obj} (h : Reached db o) (c : Byte) (d : Bytes) :
    Reached db { o with props := o.props.update c d } := by
  obtain ⟨ops, rfl⟩ := h
  refine ⟨ops ++ [.write c d], ?_⟩
  unfold ObjOp.runAll
  rw [List.foldl_append, List.foldl_cons, List.foldl_nil, run_target db _ _ c d rfl, setPropertyData_fst]

theorem device_made (db : StdDB) (o : Obj) (h : Obj.newDeviceWithCode db 0x029101 = .ok o)
    (h8 : (o.props.lookup 0x8A).isSome = true) :
    Light.device db = .ok { o with props := (o.props.update 0x8A (EProp.integerData 0xFFFFFF 3)).update 0x80 [0x30] } := by
  have h' : (Obj.newDevice db).withDeviceCode db 0x029101 = .ok o := h
  have hm : o.setManufacturerCode 0xFFFFFF = ((withManufacturer 0xFFFFFF o), (o.setManufacturerCode 0xFFFFFF).2.1, none) := by
    obtain ⟨q, hq⟩ := Option.isSome_iff_exists.mp h8
    have e1 := setMan_with o 0xFFFFFF
    have e2 : (o.setManufacturerCode 0xFFFFFF).2.2 = none := by
      unfold Obj.setManufacturerCode
      rw [setPropertyInteger_eq, setPropertyData_eq]
      show (match o.props.lookup 0x8A with | none => _ | some p => _ : Obj × List Ann × Option Err).2.2 = none
      rw [hq]
    rw [← e1, ← e2]
  have hd : Obj.newDeviceWith db [.code Light.objectCode, .manufacturer 0xFFFFFF, .requestHandler]
      = .ok (withManufacturer 0xFFFFFF o) := by
    unfold Obj.newDeviceWith
    simp only [List.foldlM_cons, List.foldlM_nil, Obj.DeviceOption.apply]
    show (((Obj.newDevice db).withDeviceCode db 0x029101).bind _) = _
    rw [h']
    show ((match o.setManufacturerCode 0xFFFFFF with
      | (o, _, none) => .ok o
      | (_, _, some e) => .err e : Res Obj).bind _) = _
    rw [hm]
    rfl
  unfold Light.device
  rw [hd]
  dsimp only
  rw [setPropertyInteger_eq, setPropertyData_fst]
  rfl

theorem NodeReached.more {db : StdDB} {n : Node} (h : NodeReached db n) (ops : List NodeOp)
    (hops : ∀ op ∈ ops, FromLibrary db op) : NodeReached db (NodeOp.runAll db n ops).1 := by
  obtain ⟨ops', h1, rfl⟩ := h
  refine ⟨ops' ++ ops, ?_, (runAll_append db ops' ops _).symm⟩
  intro op hop
  rcases List.mem_append.mp hop with h | h
  · exact h1 op h
  · exact hops op h

/-- C108. The example makes a node with one light, which is on, whatever the manufacturer code
given. -/
theorem C108_start (man : GoUint) : ∃ n d, Light.program stdDB man = .ok n ∧ n.devices = [d] ∧ NewLight d ∧
    IsLight d n 0x30 ∧ n.running = false ∧ NodeReached stdDB n ∧
    ∃ q, d.props.lookup 0x8A = some q ∧ q.data = beBytes 3 man.toNat := by
  obtain ⟨s1, s2, s3⟩ := light_std
  obtain ⟨o, ho⟩ := (C25_succeeds stdDB 0x029101).1.mpr s1
  obtain ⟨c1, c2, c3, c4⟩ := C25_device stdDB _ o ho
  have h8 : (o.props.lookup 0x8A).isSome = true := by
    have := c2 0x8A (by unfold IsMapCode; decide)
    rw [this, Option.isSome_map, s3]
  have hdev := device_made stdDB o ho h8
  generalize hD : ({ o with props := (o.props.update 0x8A (EProp.integerData 0xFFFFFF 3)).update 0x80 [0x30] } : Obj)
    = dev at hdev
  have hR : Reached stdDB dev := by
    rw [← hD]
    exact reached_write (reached_write c4 0x8A (EProp.integerData 0xFFFFFF 3)) 0x80 [0x30]
  obtain ⟨q, hq, hq'⟩ : ∃ q, o.props.lookup 0x80 = some q ∧ q.getAttr = 1 ∧ q.setAttr = 1 ∧ q.annoAttr = 1 := by
    have := c2 0x80 (by unfold IsMapCode; decide)
    obtain ⟨q, hq, e⟩ := Option.map_eq_some_iff.mp s2
    rw [hq] at this
    refine ⟨_, this, ?_⟩
    simpa using e
  obtain ⟨-, hrun, -, hself, hman, -, hlen, hall⟩ := C104_options stdDB [.devices [dev]] _ rfl
  obtain ⟨-, hreach, -⟩ := C104_described [.devices [dev]] (by
    intro d hd
    have : d = dev := by simpa [allDevices] using hd
    rw [this]; exact hR) (by simp [allDevices]) _ rfl
  generalize hN : (Making.newLocalNode stdDB [.devices [dev]]).node = n at *
  have hnode : Light.node stdDB = .ok n := by
    unfold Light.node
    rw [hdev, ← hN]
    rfl
  obtain ⟨d', hd', mk1, mk2, mk3, mk4, mk5⟩ := hall 0 dev (by simp [allDevices])
  have hdevs : n.devices = [d'] := by
    have : n.devices.length = 1 := by rw [hlen]; simp [allDevices]
    obtain ⟨x, hx⟩ := List.length_eq_one_iff.mp this
    rw [hx] at hd' ⊢
    simpa using hd'
  have hprog : Light.program stdDB man = .ok ((NodeOp.setManufacturer man).run stdDB n).1 := by
    unfold Light.program
    rw [hnode]
    rfl
  have hf := setManufacturerCode_frame n man
  have hdevs' : (n.setManufacturerCode man).1.devices = [withManufacturer man d'] := by
    have hl := hf.devices
    rw [show ({ n with manufacturer := man } : Node).devices = [d'] from hdevs] at hl
    obtain ⟨x, hx⟩ := List.length_eq_one_iff.mp hl
    have := setMan_get n man (.device 0)
    show _ = _
    rw [hx]
    have h1 : (n.setManufacturerCode man).1.get (.device 0) = some x := by
      show (n.setManufacturerCode man).1.devices[0]? = _
      rw [hx]; rfl
    have h2 : n.get (.device 0) = some d' := by
      show n.devices[0]? = _
      rw [hdevs]; rfl
    rw [h1, h2] at this
    rw [Option.some.inj this]
  have hlook : (withManufacturer man d').props.lookup 0x80 = some (q.setData [0x30]) := by
    rw [(marked_with man d').2.2.2.1 _ (by decide), mk4 _ (by decide), ← hD]
    show ((o.props.update 0x8A _).update 0x80 _).lookup 0x80 = _
    rw [lookup_update, if_pos rfl, lookup_update, if_neg (by decide), hq]
    rfl
  have hcode : (withManufacturer man d').code = 0x029101 := by
    have e : (withManufacturer man d').code = o.code := by
      unfold Obj.code
      rw [(marked_with man d').1, mk1, ← hD]
    rw [e]
    apply BitVec.eq_of_toNat_eq
    rw [c1]
    rfl
  refine ⟨_, withManufacturer man d', hprog, hdevs', ⟨hcode, _, hlook, rfl, ?_, ?_, ?_⟩, ⟨?_, ?_⟩, ?_, ?_, ?_⟩
  · show q.getAttr ≠ 0
    rw [hq'.1]; decide
  · show q.setAttr ≠ 0
    rw [hq'.2.1]; decide
  · show q.annoAttr ≠ 0
    rw [hq'.2.2]; decide
  · rw [show ((NodeOp.setManufacturer man).run stdDB n).1.devices = _ from hdevs']
    have hreach' := hreach.more [.setManufacturer man] (by simp [FromLibrary])
    have howf := hreach'.owf (.device 0) (withManufacturer man d') (by
      show (n.setManufacturerCode man).1.devices[0]? = _
      rw [hdevs']; rfl)
    have hsame := update_same howf.uniq hlook
    show [withManufacturer man d'] = [({ withManufacturer man d' with
      props := (withManufacturer man d').props.update 0x80 [0x30] } : Obj)]
    rw [show (withManufacturer man d').props.update 0x80 [0x30] = (withManufacturer man d').props from hsame]
  · exact hf.selfMsg.trans hself
  · exact hf.running.trans hrun
  · exact hreach.more [.setManufacturer man] (by simp [FromLibrary])
  · have := (marked_with man d').2.2.2.2
    rw [mk5, ← hD] at this
    have e : ((o.props.update 0x8A (EProp.integerData 0xFFFFFF 3)).update 0x80 [0x30]).lookup 0x8A
        = (o.props.lookup 0x8A).map (·.setData (EProp.integerData 0xFFFFFF 3)) := by
      rw [lookup_update, if_neg (by decide), lookup_update, if_pos rfl]
    obtain ⟨x, hx⟩ := Option.isSome_iff_exists.mp h8
    simp only [e, hx, Option.map_some] at this
    exact ⟨_, this, rfl⟩

/-! ## Messages -/

/-- The light `d` with power state `v`. -/
def lightAt (d : Obj) (v : Byte) : Obj := { d with props := d.props.update 0x80 [v] }

theorem permits_at {d : Obj} (hd : NewLight d) (v : Byte) (e : Byte) (p : PProp) :
    Permits (lightAt d v) e p ↔ Permits d e p := by
  obtain ⟨q, hq, h1, h2, h3, h4⟩ := hd.power
  unfold Permits lightAt
  dsimp only
  rw [lookup_update]
  by_cases hc : p.code = 0x80
  · rw [if_pos hc, hc, hq]
    simp [EProp.setData, h1]
  · rw [if_neg hc]

theorem lightAt_power {d : Obj} (hd : NewLight d) (v : Byte) :
    ∃ q, (lightAt d v).props.lookup 0x80 = some q ∧ q.data = [v] ∧ q.getAttr ≠ 0 ∧ q.setAttr ≠ 0 ∧ q.annoAttr ≠ 0 := by
  obtain ⟨q, hq, h1, h2, h3, h4⟩ := hd.power
  refine ⟨q.setData [v], ?_, rfl, h2, h3, h4⟩
  unfold lightAt
  dsimp only
  rw [lookup_update, if_pos rfl, hq]
  rfl

theorem write_at (d : Obj) (v w : Byte) :
    ({ lightAt d v with props := (lightAt d v).props.update 0x80 [w] } : Obj) = lightAt d w := by
  unfold lightAt
  dsimp only
  rw [update_twice]

theorem light_addressed {d : Obj} (hd : NewLight d) {n : Node} {v : Byte} (h : IsLight d n v) :
    Addressed n 0x029101 (.device 0) (lightAt d v) := by
  refine ⟨?_, hd.code, fun j hj => absurd hj (by omega)⟩
  rw [h.1]; rfl

/-- What the handler does with one property of a write request. -/
theorem handler_write {d : Obj} (hd : NewLight d) (e : Byte) (he : e = 0x60 ∨ e = 0x61 ∨ e = 0x6E) (p : PProp)
    (hp : Permits d e p) :
    (∃ w, (w = 0x30 ∨ w = 0x31) ∧ p = ⟨0x80, [w]⟩ ∧
      Light.onRequest (.device 0) e p = ([.obj (.device 0) (.write 0x80 [w])], none)) ∨
    (p ≠ ⟨0x80, [0x30]⟩ ∧ p ≠ ⟨0x80, [0x31]⟩ ∧
      Light.onRequest (.device 0) e p = ([], some (.user 1))) := by
  have hw : ESV.isWriteRequest e = true := by rcases he with rfl | rfl | rfl <;> decide
  obtain ⟨q, hq, h1, h2, h3, h4⟩ := hd.power
  obtain ⟨c, dat⟩ := p
  unfold Light.onRequest Light.powerCode
  rw [if_neg (by simp [hw])]
  by_cases hc : c = 0x80
  · subst hc
    rw [if_pos rfl]
    obtain ⟨q', hq', k1, -⟩ := hp
    dsimp only at hq' k1
    rw [hq] at hq'
    cases hq'
    have hl : dat.length = 1 := by rw [(k1 he).2, h1]; rfl
    obtain ⟨w, rfl⟩ := List.length_eq_one_iff.mp hl
    have hb : PProp.asByte ⟨0x80, [w]⟩ = .ok w := rfl
    rw [hb]
    dsimp only
    by_cases hx : w = 0x30 ∨ w = 0x31
    · rw [if_pos hx]
      exact .inl ⟨w, hx, rfl, rfl⟩
    · rw [if_neg hx]
      refine .inr ⟨fun h => hx (.inl ?_), fun h => hx (.inr ?_), rfl⟩
      · injection h with _ h; injection h
      · injection h with _ h; injection h
  · rw [if_neg hc]
    refine .inr ⟨fun h => hc ?_, fun h => hc ?_, rfl⟩
    · injection h
    · injection h

/-- A write at the light. -/
theorem write_light {d : Obj} {n : Node} {v : Byte} (h : n.devices = [lightAt d v]) (w : Byte) :
    let n' := (NodeOp.runAll stdDB n [.obj (.device 0) (.write 0x80 [w])]).1
    SameFrame n n' ∧ n'.devices = [lightAt d w] ∧ n'.profiles = n.profiles := by
  have hg : ∀ r', (NodeOp.runAll stdDB n [.obj (.device 0) (.write 0x80 [w])]).1.get r'
      = if r' = .device 0 then some (lightAt d w) else n.get r' := by
    intro r'
    show (n.onObj (.device 0) (fun o => Node.dropErr ((ObjOp.write 0x80 [w]).run stdDB o))).1.get r' = _
    have hn : n.get (.device 0) = some (lightAt d v) := by
      show n.devices[0]? = _
      rw [h]; rfl
    rw [onObj_get, hn]
    congr 1
    show some ((ObjOp.write 0x80 [w]).run stdDB (lightAt d v)).1 = _
    rw [run_target stdDB (lightAt d v) _ 0x80 [w] rfl, setPropertyData_fst, write_at]
  have hf : SameFrame n (NodeOp.runAll stdDB n [.obj (.device 0) (.write 0x80 [w])]).1 := onObj_frame n _ _
  refine ⟨hf, ?_, ?_⟩
  · apply List.ext_getElem?
    intro i
    have := hg (.device i)
    show (NodeOp.runAll stdDB n [.obj (.device 0) (.write 0x80 [w])]).1.get (.device i) = _
    rw [this]
    cases i with
    | zero => rfl
    | succ i =>
      rw [if_neg (by simp)]
      show n.devices[i + 1]? = _
      rw [h]; rfl
  · apply List.ext_getElem?
    intro i
    have := hg (.profile i)
    show (NodeOp.runAll stdDB n [.obj (.device 0) (.write 0x80 [w])]).1.get (.profile i) = _
    rw [this, if_neg (by simp)]
    rfl

theorem switched_cons (v : Byte) (p : PProp) (ps : List PProp) : switched v (p :: ps)
    = switched (if p = ⟨0x80, [0x30]⟩ then 0x30 else if p = ⟨0x80, [0x31]⟩ then 0x31 else v) ps := rfl

theorem light_effects {d : Obj} (hd : NewLight d) (e : Byte) (he : e = 0x60 ∨ e = 0x61 ∨ e = 0x6E)
    (l : List PProp) : ∀ (n n' : Node) (v : Byte) (done : List Call) (ms : List Sent) (rs : List (Option Err)),
      n.devices = [lightAt d v] → NodeReached stdDB n → (∀ p ∈ l, Permits d e p) →
      Effects Light.env stdDB n done (l.map (fun p => Call.handler (.device 0) e p)) n' ms rs →
      SameFrame n n' ∧ n'.devices = [lightAt d (switched v l)] ∧ n'.profiles = n.profiles ∧
      NodeReached stdDB n' := by
  induction l with
  | nil =>
    intro n n' v done ms rs hn hr _ h
    cases h
    exact ⟨.refl n, hn, rfl, hr⟩
  | cons p l ih =>
    intro n n' v done ms rs hn hr hp h
    rw [List.map_cons] at h
    cases h with
    | @cons _ _ _ _ _ ms rs h =>
      have hb : Light.env.behave n done (.handler (.device 0) e p) = Light.onRequest (.device 0) e p := rfl
      rw [hb] at h
      rcases handler_write hd e he p (hp p List.mem_cons_self) with ⟨w, hw, rfl, hx⟩ | ⟨h30, h31, hx⟩
      · rw [hx] at h
        obtain ⟨f1, f2, f3⟩ := write_light (d := d) hn w
        have hr' := hr.more [.obj (.device 0) (.write 0x80 [w])] (by simp [FromLibrary])
        obtain ⟨i1, i2, i3, i4⟩ := ih _ n' w _ _ _ f2 hr' (fun p hp' => hp p (List.mem_cons_of_mem _ hp')) h
        refine ⟨f1.trans i1, ?_, i3.trans f3, i4⟩
        rw [i2, switched_cons]
        rcases hw with rfl | rfl
        · rw [if_pos rfl]
        · rw [if_neg (by decide), if_pos rfl]
      · rw [hx] at h
        obtain ⟨i1, i2, i3, i4⟩ := ih n n' v _ _ _ hn hr (fun p hp' => hp p (List.mem_cons_of_mem _ hp')) h
        refine ⟨i1, ?_, i3, i4⟩
        rw [i2, switched_cons, if_neg h30, if_neg h31]

theorem effects_none {env : Env} {db : StdDB} {n n' : Node} {done : List Call} {ms : List Sent}
    {rs : List (Option Err)} (h : Effects env db n done [] n' ms rs) : n' = n ∧ ms = [] ∧ rs = [] := by
  cases h; exact ⟨rfl, rfl, rfl⟩

theorem effects_one {env : Env} {db : StdDB} {n n' : Node} {done : List Call} {c : Call} {ms : List Sent}
    {rs : List (Option Err)} (h : Effects env db n done [c] n' ms rs) :
    n' = (NodeOp.runAll db n (env.behave n done c).1).1 ∧
    ms = (NodeOp.runAll db n (env.behave n done c).1).2 ∧ rs = [(env.behave n done c).2] := by
  cases h with
  | cons h =>
    obtain ⟨rfl, rfl, rfl⟩ := effects_none h
    exact ⟨rfl, by simp, rfl⟩

theorem light_calls (r : ObjRef) (m : Message) : expectedCalls Light.env r m
    = if r = .device 0 then (properties m).map (fun p => Call.handler (.device 0) m.esv p) else [] := by
  unfold expectedCalls
  have h1 : Light.env.listener = false := rfl
  have h2 : Light.env.objListener r = false := rfl
  rw [h1, h2]
  by_cases hr : r = .device 0
  · subst hr
    have h3 : Light.env.reqHandler (.device 0) = true := rfl
    rw [h3, if_pos rfl]
    simp only [Bool.false_eq_true, if_false, if_true, List.nil_append]
    induction properties m with
    | nil => rfl
    | cons p ps ih => rw [List.flatMap_cons, ih]; rfl
  · have h3 : Light.env.reqHandler r = false := by
      show decide (r = .device 0) = false
      simp [hr]
    rw [h3, if_neg hr]
    simp

theorem quiet_effects (e : Byte) (he : ESV.isWriteRequest e = false) (l : List PProp) :
    ∀ (n n' : Node) (done : List Call) (ms : List Sent) (rs : List (Option Err)),
      Effects Light.env stdDB n done (l.map (fun p => Call.handler (.device 0) e p)) n' ms rs →
      n' = n ∧ ms = [] ∧ NoErr rs := by
  induction l with
  | nil => intro n n' done ms rs h; cases h; exact ⟨rfl, rfl, fun _ h => absurd h List.not_mem_nil⟩
  | cons p l ih =>
    intro n n' done ms rs h
    rw [List.map_cons] at h
    cases h with
    | @cons _ _ _ _ _ ms rs h =>
      have hb : Light.env.behave n done (.handler (.device 0) e p) = ([], none) := by
        show Light.onRequest (.device 0) e p = _
        unfold Light.onRequest
        rw [if_pos (by simp [he])]
      rw [hb] at h ⊢
      obtain ⟨i1, i2, i3⟩ := ih n n' _ _ _ h
      refine ⟨i1, by rw [i2]; rfl, ?_⟩
      intro x hx
      rcases List.mem_cons.mp hx with hx | hx
      · exact hx
      · exact i3 x hx

theorem light_hears {d : Obj} {n : Node} {v : Byte} (h : IsLight d n v) (m : Message) : ¬ Ignored n m := by
  intro hi
  have := hi.1
  rw [h.2] at this
  cases this

theorem powerAfter_writes {d : Obj} {m : Message} (h : WritesTo d m) (v : Byte) :
    powerAfter d v (.message m) = switched v (properties m) := by
  unfold powerAfter
  dsimp only
  rw [if_pos h]

theorem powerAfter_other {d : Obj} {m : Message} (h : ¬ WritesTo d m) (v : Byte) :
    powerAfter d v (.message m) = v := by
  unfold powerAfter
  dsimp only
  rw [if_neg h]

theorem writes_accepted {d : Obj} (hd : NewLight d) {n : Node} {v : Byte} (h : IsLight d n v) {m : Message}
    (hm : WritesTo d m) : Accepts n m := by
  refine ⟨.device 0, lightAt d v, by rw [hm.1]; exact light_addressed hd h, ?_, fun _ p hp =>
    (permits_at hd v _ p).mpr (hm.2.2 p hp)⟩
  have key : ∀ e : Byte, e = 0x60 ∨ e = 0x61 ∨ e = 0x6E → ∃ s ∈ Esv.table, s.code = e := by
    rintro e (rfl | rfl | rfl) <;> decide
  exact key _ hm.2.1

/-- C108. Handling any message leaves the light as it is, except for the power state, which becomes
what the message says. Nothing else of the node's devices and profiles changes. -/
theorem C108_message (d : Obj) (hd : NewLight d) (n : Node) (hn : NodeReached stdDB n) (v : Byte)
    (h : IsLight d n v) (m : Message) :
    ∃ out, n.received Light.env stdDB m = .ok out ∧ IsLight d out.node (powerAfter d v (.message m)) ∧
      out.node.profiles = n.profiles ∧ out.node.running = n.running ∧ NodeReached stdDB out.node := by
  have hi := light_hears h m
  have hdev : n.devices = [lightAt d v] := h.1
  by_cases ha : Accepts n m
  · obtain ⟨r, o, ho, hs, hperm⟩ := id ha
    obtain ⟨out, rs, h1, h2, h3, -⟩ := received_accepted Light.env stdDB n m hi ha r o ho
    rw [h2, light_calls] at h3
    by_cases hw : WritesTo d m
    · obtain ⟨rfl, rfl⟩ := addressed_unique (by rw [hw.1]; exact light_addressed hd h) ho
      rw [if_pos rfl] at h3
      obtain ⟨i1, i2, i3, i4⟩ := light_effects hd m.esv hw.2.1 _ _ _ v _ _ _ hdev hn hw.2.2 h3
      refine ⟨out, h1, ⟨?_, i1.selfMsg.trans h.2⟩, i3, i1.running, i4⟩
      rw [powerAfter_writes hw]
      exact i2
    · have hsame : out.node = n := by
        by_cases hr : r = .device 0
        · subst hr
          rw [if_pos rfl] at h3
          have hcode : m.getDEOJ = 0x029101 := by
            obtain ⟨k1, k2, -⟩ := ho
            rw [hdev] at k1
            cases k1
            rw [← k2]
            exact hd.code
          obtain ⟨-, rfl⟩ := addressed_unique (by rw [hcode]; exact light_addressed hd h) ho
          have he : ESV.isWriteRequest m.esv = false := by
            rw [← Bool.not_eq_true]
            intro hx
            have key : ∀ e : Byte, ESV.isWriteRequest e = true → e = 0x60 ∨ e = 0x61 ∨ e = 0x6E := by
              decide +kernel
            have hx' := key _ hx
            exact hw ⟨hcode, hx', fun p hp => (permits_at hd v _ p).mp (hperm (by
              rcases hx' with e | e | e <;> simp [e]) p hp)⟩
          exact (quiet_effects m.esv he _ _ _ _ _ _ h3).1
        · rw [if_neg hr] at h3
          exact (effects_none h3).1
      refine ⟨out, h1, ?_⟩
      rw [powerAfter_other hw, hsame]
      exact ⟨h, rfl, rfl, hn⟩
  · obtain ⟨r, -, h1⟩ := received_rejected Light.env stdDB n m hi ha
    refine ⟨_, h1, ?_⟩
    rw [powerAfter_other (fun hw => ha (writes_accepted hd h hw))]
    exact ⟨h, rfl, rfl, hn⟩

theorem light_step (d : Obj) (hd : NewLight d) (n : Node) (hn : NodeReached stdDB n) (v : Byte)
    (h : IsLight d n v) (e : Light.Event) :
    ∃ n', Light.step stdDB n e = .ok n' ∧ IsLight d n' (powerAfter d v e) ∧ n'.profiles = n.profiles ∧
      NodeReached stdDB n' := by
  cases e with
  | start res stays =>
    have hs := (start_same stdDB n res stays).1
    have hself : ((NodeOp.start res stays).run stdDB n).1.selfMsg = n.selfMsg := by
      cases res with
      | none => rfl
      | some x => exact (announce_same { n with running := x.1, addr := x.2 }).frame.selfMsg
    refine ⟨_, rfl, ⟨(devices_eq_of_get (fun i => hs (.device i))).trans h.1, hself.trans h.2⟩, ?_, ?_⟩
    · exact List.ext_getElem? (fun i => hs (.profile i))
    · exact hn.more [.start res stays] (by simp [FromLibrary])
  | stop => exact ⟨_, rfl, h, rfl, hn.more [.stop] (by simp [FromLibrary])⟩
  | message m =>
    obtain ⟨out, h1, h2, h3, -, h4⟩ := C108_message d hd n hn v h m
    refine ⟨out.node, ?_, h2, h3, h4⟩
    show (n.received Light.env stdDB m).bind (fun out => .ok out.node) = _
    rw [h1]
    rfl

theorem switched_on (ps : List PProp) : ∀ v, v = 0x30 ∨ v = 0x31 → switched v ps = 0x30 ∨ switched v ps = 0x31 := by
  induction ps with
  | nil => exact fun v h => h
  | cons p ps ih =>
    intro v h
    rw [switched_cons]
    apply ih
    split
    · exact .inl rfl
    · split
      · exact .inr rfl
      · exact h

theorem powerAfter_on (d : Obj) (es : List Light.Event) : ∀ v, v = 0x30 ∨ v = 0x31 →
    es.foldl (powerAfter d) v = 0x30 ∨ es.foldl (powerAfter d) v = 0x31 := by
  induction es with
  | nil => exact fun v h => h
  | cons e es ih =>
    intro v h
    apply ih
    cases e with
    | start => exact h
    | stop => exact h
    | message m =>
      by_cases hw : WritesTo d m
      · rw [powerAfter_writes hw]
        exact switched_on _ _ h
      · rw [powerAfter_other hw]
        exact h

theorem light_run (d : Obj) (hd : NewLight d) (es : List Light.Event) : ∀ (n : Node) (v : Byte),
    NodeReached stdDB n → IsLight d n v → ∃ n', Light.run stdDB n es = .ok n' ∧
      IsLight d n' (es.foldl (powerAfter d) v) ∧ n'.profiles = n.profiles ∧ NodeReached stdDB n' := by
  induction es with
  | nil => intro n v hn h; exact ⟨n, rfl, h, rfl, hn⟩
  | cons e es ih =>
    intro n v hn h
    obtain ⟨n1, a1, a2, a3, a4⟩ := light_step d hd n hn v h e
    obtain ⟨n2, b1, b2, b3, b4⟩ := ih n1 _ a4 a2
    refine ⟨n2, ?_, b2, b3.trans a3, b4⟩
    unfold Light.run
    rw [a1]
    exact b1

/-- C108. Whatever messages arrive, from anyone, and however often the program is started and stopped,
it never fails, its device keeps everything but the power state, and the power state is on (30) or
off (31), as the last write it could carry out says. -/
theorem C108_history (man : GoUint) (es : List Light.Event) :
    ∃ n0 d n, Light.program stdDB man = .ok n0 ∧ n0.devices = [d] ∧ NewLight d ∧ Light.run stdDB n0 es = .ok n ∧
      IsLight d n (es.foldl (powerAfter d) 0x30) ∧ n.profiles = n0.profiles ∧
      (es.foldl (powerAfter d) 0x30 = 0x30 ∨ es.foldl (powerAfter d) 0x30 = 0x31) := by
  obtain ⟨n0, d, h1, h2, h3, h4, -, h5, -⟩ := C108_start man
  obtain ⟨n, a1, a2, a3, -⟩ := light_run d h3 es n0 0x30 h5 h4
  exact ⟨n0, d, n, h1, h2, h3, a1, a2, a3, powerAfter_on d es _ (.inl rfl)⟩

/-! ## What is answered -/

theorem replyProps_one {o : Obj} {c : Byte} {q : EProp} (h : o.props.lookup c = some q) (x : Bytes) :
    replyProps o [⟨c, x⟩] = [⟨c, q.data⟩] := by
  simp [replyProps, h]

/-- C108. Switching the light on or off with a request of one property is carried out, announced to
the group with one notification, and answered if the service has an answer. -/
theorem C108_switch (d : Obj) (hd : NewLight d) (n : Node) (hn : NodeReached stdDB n) (hr : n.running = true)
    (v : Byte) (h : IsLight d n v) (m : Message) (hm : Built m) (hw : m.getDEOJ = 0x029101) (w : Byte)
    (hon : w = 0x30 ∨ w = 0x31) (hp : properties m = [⟨0x80, [w]⟩]) (s : Esv.Service)
    (hs : s = ⟨0x60, .request, true, false, none, some 0x50⟩ ∨ s = ⟨0x61, .request, true, false, some 0x71, some 0x51⟩ ∨
      s = ⟨0x6E, .request, true, true, some 0x7E, some 0x5E⟩) (hes : m.esv = s.code) :
    ∃ out x, n.received Light.env stdDB m = .ok out ∧ IsLight d out.node w ∧ out.error = none ∧
      out.sent = [.multicast x] ∧ IsNotification x ((n.lastTID.toNat + 1) % 65536) d.codes 0x80 [w] ∧
      (s.reply = none → out.reply = none) ∧
      (∀ code, s.reply = some code → ∃ res, out.reply = some res ∧ res.getTID = m.getTID ∧ res.getSEOJ = m.getDEOJ ∧
        res.getDEOJ = m.getSEOJ ∧ res.esv = code ∧ res.ep = [some ⟨0x80, [w]⟩]) := by
  have hwr : m.esv = 0x60 ∨ m.esv = 0x61 ∨ m.esv = 0x6E := by
    rw [hes]; rcases hs with rfl | rfl | rfl <;> simp
  obtain ⟨q, hq, q1, q2, q3, q4⟩ := hd.power
  have hpe : Permits d m.esv ⟨0x80, [w]⟩ := ⟨q, hq, fun _ => ⟨q3, by rw [q1]; rfl⟩, fun _ => q2⟩
  have hW : WritesTo d m := ⟨hw, hwr, fun p hp' => by
    rw [hp, List.mem_singleton] at hp'; rw [hp']; exact hpe⟩
  have hi := light_hears h m
  have ha := writes_accepted hd h hW
  have hA : Addressed n m.getDEOJ (.device 0) (lightAt d v) := by rw [hw]; exact light_addressed hd h
  obtain ⟨out, rs, h1, h2, h3, -, -, h4, -⟩ := received_accepted Light.env stdDB n m hi ha _ _ hA
  have h3' := h3
  rw [h2, light_calls, if_pos rfl, hp] at h3
  have hx : Light.onRequest (.device 0) m.esv ⟨0x80, [w]⟩ = ([.obj (.device 0) (.write 0x80 [w])], none) := by
    rcases handler_write hd m.esv hwr _ hpe with ⟨w', -, e, hx⟩ | ⟨e1, e2, -⟩
    · injection e with _ e
      injection e with e
      rw [e]; rw [← e]
      rw [← e] at hx
      exact hx
    · rcases hon with rfl | rfl
      · exact absurd rfl e1
      · exact absurd rfl e2
  have hrun := write_light (d := d) h.1 w
  rw [List.map_cons, List.map_nil] at h3
  obtain ⟨e1, e2, e3⟩ := effects_one h3
  have hb : Light.env.behave n [] (.handler (.device 0) m.esv ⟨0x80, [w]⟩)
      = ([.obj (.device 0) (.write 0x80 [w])], none) := hx
  rw [hb] at e1 e2 e3
  dsimp only at e1 e2 e3
  have hne : NoErr rs := by rw [e3]; intro e he; exact List.mem_singleton.mp he
  have hget : n.get (.device 0) = some (lightAt d v) := by
    show n.devices[0]? = _
    rw [h.1]; rfl
  obtain ⟨x, hx1, hx2⟩ := (C41_write stdDB n hn hr (.device 0) (lightAt d v) hget (.write 0x80 [w]) 0x80 [w] rfl).1
    (by obtain ⟨q, a, -, -, -, b⟩ := lightAt_power hd v; exact ⟨q, a, b⟩)
  have hlight : IsLight d out.node w := by
    rw [e1]; exact ⟨hrun.2.1, hrun.1.selfMsg.trans h.2⟩
  have hsent : out.sent = [.multicast x] := by
    rw [e2, ← hx1]
    show ((NodeOp.obj (.device 0) (.write 0x80 [w])).run stdDB n).2 ++ [] = _
    rw [List.append_nil]
  by_cases hrep : s.reply = none
  · have hnr : ESV.isResponseRequired m.esv = false := by
      rcases hs with rfl | rfl | rfl
      · rw [hes]; decide
      · cases hrep
      · cases hrep
    obtain ⟨k1, k2⟩ := h4 hne hnr
    refine ⟨out, x, h1, hlight, k2, hsent, hx2, fun _ => k1, fun code hcode => ?_⟩
    rw [hrep] at hcode; cases hcode
  · obtain ⟨code, hcode⟩ := Option.ne_none_iff_exists'.mp hrep
    have hst : s ∈ Esv.table := by
      rcases hs with rfl | rfl | rfl <;> decide
    have hA' : Addressed out.node m.getDEOJ (.device 0) (lightAt d w) := by
      rw [hw]; exact light_addressed hd hlight
    obtain ⟨res, r1, r2, r3, r4, r5, r6, -, r7⟩ := C35_response Light.env stdDB n m hm hi ha out h1 rs h3' hne s hst
      hes.symm code hcode (.device 0) _ hA'
    refine ⟨out, x, h1, hlight, r2, hsent, hx2, fun hx => absurd hx hrep, fun code' hc' => ?_⟩
    rw [hcode] at hc'
    cases hc'
    refine ⟨res, r1, r3, r4, r5, r6, ?_⟩
    obtain ⟨q, a, b, -⟩ := lightAt_power hd w
    rw [r7, hp, replyProps_one a, b]
    rfl

/-- C108. A request of one property that would set anything else, or set the power to anything but on and
off, changes nothing, is not announced, and gets no answer at all; the node reports an error. -/
theorem C108_refused (d : Obj) (hd : NewLight d) (n : Node) (v : Byte) (h : IsLight d n v) (m : Message)
    (hw : WritesTo d m) (p : PProp) (hp : properties m = [p]) (hoff : p ≠ ⟨0x80, [0x30]⟩ ∧ p ≠ ⟨0x80, [0x31]⟩) :
    ∃ out, n.received Light.env stdDB m = .ok out ∧ out.node = n ∧ out.sent = [] ∧ out.reply = none ∧
      out.error ≠ none := by
  have hi := light_hears h m
  have ha := writes_accepted hd h hw
  have hA : Addressed n m.getDEOJ (.device 0) (lightAt d v) := by rw [hw.1]; exact light_addressed hd h
  obtain ⟨out, rs, h1, h2, h3, -, h4, -⟩ := received_accepted Light.env stdDB n m hi ha _ _ hA
  rw [h2, light_calls, if_pos rfl, hp, List.map_cons, List.map_nil] at h3
  obtain ⟨e1, e2, e3⟩ := effects_one h3
  have hb : Light.env.behave n [] (.handler (.device 0) m.esv p) = ([], some (.user 1)) := by
    rcases handler_write hd m.esv hw.2.1 p (hw.2.2 p (by rw [hp]; simp)) with ⟨w, hon, e, -⟩ | ⟨-, -, hx⟩
    · rcases hon with rfl | rfl
      · exact absurd e hoff.1
      · exact absurd e hoff.2
    · exact hx
  rw [hb] at e1 e2 e3
  have hne : ¬ NoErr rs := by
    intro hx
    have := hx (some (.user 1)) (by rw [e3]; simp)
    cases this
  obtain ⟨k1, k2⟩ := h4 hne
  exact ⟨out, h1, e1, e2, k1, k2⟩

/-- C108. Whoever asks for the power state is told it. -/
theorem C108_read (d : Obj) (hd : NewLight d) (n : Node) (v : Byte) (h : IsLight d n v) (m : Message) (hm : Built m)
    (hw : m.getDEOJ = 0x029101) (he : m.esv = 0x62) (hp : properties m = [⟨0x80, []⟩]) :
    ∃ out res, n.received Light.env stdDB m = .ok out ∧ out.node = n ∧ out.sent = [] ∧ out.reply = some res ∧
      out.error = none ∧ res.getTID = m.getTID ∧ res.getSEOJ = 0x029101 ∧ res.getDEOJ = m.getSEOJ ∧ res.esv = 0x72 ∧
      res.ep = [some ⟨0x80, [v]⟩] := by
  have hi := light_hears h m
  have hA : Addressed n m.getDEOJ (.device 0) (lightAt d v) := by rw [hw]; exact light_addressed hd h
  obtain ⟨q, hq, q1, q2, q3, q4⟩ := lightAt_power hd v
  have ha : Accepts n m := by
    refine ⟨_, _, hA, by rw [he]; decide, fun _ p hp' => ?_⟩
    rw [hp, List.mem_singleton] at hp'
    rw [hp', he]
    exact ⟨q, hq, fun hx => absurd hx (by decide), fun _ => q2⟩
  obtain ⟨out, rs, h1, h2, h3, -⟩ := received_accepted Light.env stdDB n m hi ha _ _ hA
  have h3' := h3
  rw [h2, light_calls, if_pos rfl, he] at h3
  obtain ⟨e1, e2, e3⟩ := quiet_effects 0x62 (by decide) _ _ _ _ _ _ h3
  obtain ⟨res, r1, r2, r3, r4, r5, r6, -, r7⟩ := C35_response Light.env stdDB n m hm hi ha out h1 rs h3' e3
    ⟨0x62, .request, false, true, some 0x72, some 0x52⟩ (by decide) he.symm 0x72 rfl (.device 0) _ (by rw [e1]; exact hA)
  refine ⟨out, res, h1, e1, e2, r1, r2, r3, by rw [r4, hw], r5, r6, ?_⟩
  rw [r7, hp, replyProps_one hq, q1]
  rfl

/-- A message to the light. -/
def toLight (e : Byte) (ps : List PProp) : Message :=
  (((Message.new.setTID 7).setSEOJ 0x05FF01).setDEOJ 0x029101 |>.setESV e).addProperties (ps.map some)

/-- A light that was switched off by one message and sent a refused value by the next is off. -/
example (d : Obj) (hd : NewLight d) :
    WritesTo d (toLight 0x61 [⟨0x80, [0x31]⟩]) ∧ WritesTo d (toLight 0x60 [⟨0x80, [0x42]⟩]) ∧
    [Light.Event.start none false, .message (toLight 0x61 [⟨0x80, [0x31]⟩]),
      .message (toLight 0x60 [⟨0x80, [0x42]⟩])].foldl (powerAfter d) 0x30 = 0x31 := by
  obtain ⟨q, hq, q1, q2, q3, q4⟩ := hd.power
  have key : ∀ (m : Message) (w : Byte), m.getDEOJ = 0x029101 → (m.esv = 0x60 ∨ m.esv = 0x61 ∨ m.esv = 0x6E) →
      properties m = [⟨0x80, [w]⟩] → WritesTo d m := by
    intro m w h1 h2 h3
    refine ⟨h1, h2, fun p hp => ?_⟩
    rw [h3, List.mem_singleton] at hp
    rw [hp]
    exact ⟨q, hq, fun _ => ⟨q3, by rw [q1]; rfl⟩, fun _ => q2⟩
  have p1 : properties (toLight 0x61 [⟨0x80, [0x31]⟩]) = [⟨0x80, [0x31]⟩] := by decide +kernel
  have p2 : properties (toLight 0x60 [⟨0x80, [0x42]⟩]) = [⟨0x80, [0x42]⟩] := by decide +kernel
  have k1 := key (toLight 0x61 [⟨0x80, [0x31]⟩]) 0x31 (by decide +kernel) (by decide +kernel) p1
  have k2 := key (toLight 0x60 [⟨0x80, [0x42]⟩]) 0x42 (by decide +kernel) (by decide +kernel) p2
  refine ⟨k1, k2, ?_⟩
  rw [List.foldl_cons, List.foldl_cons, List.foldl_cons, List.foldl_nil, powerAfter_writes k2, powerAfter_writes k1,
    p1, p2]
  show switched (switched 0x30 [⟨0x80, [0x31]⟩]) [⟨0x80, [0x42]⟩] = 0x31
  decide

/-- The light that the program makes, once it runs: switched on by a request, and read. -/
example (man : GoUint) : ∃ n d, NewLight d ∧ NodeReached stdDB n ∧ n.running = true ∧ IsLight d n 0x30 ∧
    (∃ out, n.received Light.env stdDB (toLight 0x61 [⟨0x80, [0x31]⟩]) = .ok out ∧ IsLight d out.node 0x31) ∧
    ∃ out, n.received Light.env stdDB (toLight 0x62 [⟨0x80, []⟩]) = .ok out ∧ out.node = n := by
  obtain ⟨n, d, -, -, hd, hl, -, hr, -⟩ := C108_start man
  have hb : ∀ e p, Built (toLight e [p]) := fun e p =>
    .addProperty _ (.setESV _ (.setDEOJ _ (.setSEOJ _ (.setTID _ .new))))
  have hm := hr.more [.start (some (true, ⟨"192.168.0.2", 3610⟩)) true] (by
    intro op h
    rw [List.mem_singleton] at h
    rw [h]
    trivial)
  have hs := announce_same { n with running := true, addr := ⟨"192.168.0.2", 3610⟩ }
  generalize hn : (NodeOp.runAll stdDB n [.start (some (true, ⟨"192.168.0.2", 3610⟩)) true]).1 = n' at hm
  have e : n' = (Node.announce { n with running := true, addr := ⟨"192.168.0.2", 3610⟩ }).1 := hn.symm
  have hl' : IsLight d n' 0x30 := by rw [e, hs]; exact hl
  have hr' : n'.running = true := by rw [e, hs]
  obtain ⟨out, x, h1, h2, -⟩ := C108_switch d hd n' hm hr' 0x30 hl'
    (toLight 0x61 [⟨0x80, [0x31]⟩]) (hb _ _) (by decide +kernel) 0x31 (.inr rfl) (by decide +kernel) _ (.inr (.inl rfl)) rfl
  obtain ⟨out', res, g1, g2, -⟩ := C108_read d hd n' 0x30 hl' (toLight 0x62 [⟨0x80, []⟩]) (hb _ _)
    (by decide +kernel) rfl (by decide +kernel)
  exact ⟨n', d, hd, hm, hr', hl', ⟨out, h1, h2⟩, out', g1, g2⟩

end Verif.Props
