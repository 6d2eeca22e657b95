import Verif.Model.AddRace
import Verif.Props.ListMem
import Verif.Props.AddTwice

/-!
# C170, C171: adding devices to a node that is in use

`AddDevice` is not protected by a lock (`Verif.Model.AddRace`).
-/

namespace Verif.Props
open Verif Model Spec Lemmas

/-! ## Specification -/

/-- The state shows the devices and the node profile of the node `n`. -/
structure IsNode (s : JoinSt) (n : Node) : Prop where
  inside : Inside s.cells s.field
  noNil : s.cells.shows s.field = s.listed.map some
  devices : n.devices = s.listed.map s.devs
  profiles : n.profiles = [s.prof]
  man : n.manufacturer = s.man
  profile : n.nodeProfile = some (.profile 0)
  props : ∀ c ∈ listCodes, (s.prof.props.lookup c).isSome

/-- The node as a request finds it that is handled now. -/
def seenNow (s : JoinSt) (n : Node) : Node :=
  ⟨s.listed.map s.devs, [s.prof], n.manufacturer, n.lastTID, n.running, n.selfMsg, n.addr, n.pending⟩

/-- The calls of `AddDevice` for the devices `ds` are made one after the other, whichever goroutines make them. -/
inductive OneByOne (room : Nat → Nat → Nat) : JoinSt → List Nat → JoinSt → Prop
  | nil (s : JoinSt) : OneByOne room s [] s
  | cons {s s' : JoinSt} {i d : Nat} {todo ds : List Nat} : s.adders[i]? = some (.idle (d :: todo)) →
      OneByOne room (s.run room (List.replicate 13 i)) ds s' → OneByOne room s (d :: ds) s'

/-! ## Steps -/

variable {room : Nat → Nat → Nat}

theorem act_of {s : JoinSt} {i : Nat} {p : JoinPc} (h : s.adders[i]? = some p) : s.step room i = s.act room i p := by
  unfold JoinSt.step; rw [h]

theorem joinRun_cons (s : JoinSt) (i : Nat) (is : List Nat) : s.run room (i :: is) = (s.step room i).run room is := rfl

theorem joinRun_append (s : JoinSt) (is js : List Nat) : s.run room (is ++ js) = (s.run room is).run room js :=
  List.foldl_append

theorem adder_set {l : List JoinPc} {i : Nat} {p q : JoinPc} (h : l[i]? = some p) : (l.set i q)[i]? = some q :=
  List.getElem?_set_self (List.getElem?_eq_some_iff.mp h).1

/-- The last five writes, with the values the goroutine has read before. -/
def lastWrites (o : Obj) (cs : List Cls) (k : Nat) (ds : List Obj) : Obj :=
  ((((o.setInstanceCount (BitVec.ofNat 64 k)).1.setClassCount (BitVec.ofNat 64 cs.length)).1.setInstanceList ds).1.setClassList
    cs).1

theorem count_props (o : Obj) (k : GoUint) :
    (o.setInstanceCount k).1 = { o with props := o.props.update 0xD3 (EProp.integerData k 3) } := by
  unfold Obj.setInstanceCount; rw [setPropertyInteger_eq, setPropertyData_fst]

theorem classCount_props (o : Obj) (k : GoUint) :
    (o.setClassCount k).1 = { o with props := o.props.update 0xD4 (EProp.integerData k 2) } := by
  unfold Obj.setClassCount; rw [setPropertyInteger_eq, setPropertyData_fst]

theorem update_some {m : PMap} {c c' : Byte} {d : Bytes} (h : (m.lookup c').isSome) : ((m.update c d).lookup c').isSome := by
  rw [lookup_update]
  split
  · next e => subst e; rw [Option.isSome_map]; exact h
  · exact h

theorem list_writes (o : Obj) (ds : List Obj) (h : (o.props.lookup 0xD5).isSome) : (o.setInstanceList ds).1
    = ((o.setPropertyData 0xD5 (Obj.instanceListData ds)).1.setPropertyData 0xD6 (Obj.instanceListData ds)).1 := by
  unfold Obj.setInstanceList
  have he := setPropertyData_err o 0xD5 (Obj.instanceListData ds)
  rw [if_pos h] at he
  dsimp only
  split
  · next e heq => rw [heq] at he; cases he
  · next heq => rw [heq]

/-- The last six steps of a call. -/
theorem finish_count (s : JoinSt) (i : Nat) (cs : List Cls) (k : Nat) (todo : List Nat)
    (h : s.adders[i]? = some (.setCount cs k todo)) (h5 : (s.prof.props.lookup 0xD5).isSome) :
    s.run room (List.replicate 6 i) = ⟨s.cells, s.field, s.devs, s.joined, s.man,
      lastWrites s.prof cs k (s.listed.map s.devs), s.adders.set i (.idle todo)⟩ := by
  have at_i : ∀ q, (s.adders.set i q)[i]? = some q := fun q => adder_set h
  have h5' : ((((s.prof.setInstanceCount (BitVec.ofNat 64 k)).1.setClassCount (BitVec.ofNat 64 cs.length)).1).props.lookup
      0xD5).isSome := by
    rw [classCount_props, count_props]
    exact update_some (update_some h5)
  rw [show List.replicate 6 i = [i, i, i, i, i, i] from rfl, joinRun_cons, act_of h]
  simp only [JoinSt.act, JoinSt.write]
  rw [joinRun_cons, act_of (at_i _)]
  simp only [JoinSt.act, JoinSt.write, List.set_set]
  rw [joinRun_cons, act_of (at_i _)]
  simp only [JoinSt.act, JoinSt.goto, List.set_set]
  rw [joinRun_cons, act_of (at_i _)]
  simp only [JoinSt.act, JoinSt.write, List.set_set]
  have he := setPropertyData_err ((s.prof.setInstanceCount (BitVec.ofNat 64 k)).1.setClassCount (BitVec.ofNat 64 cs.length)).1
    0xD5 (Obj.instanceListData (s.listed.map s.devs))
  rw [if_pos h5'] at he
  unfold lastWrites
  rw [list_writes _ _ h5']
  unfold JoinSt.listed at he ⊢
  rw [he]
  dsimp only
  rw [joinRun_cons, act_of (at_i _)]
  simp only [JoinSt.act, JoinSt.write, List.set_set]
  rw [joinRun_cons, act_of (at_i _)]
  simp only [JoinSt.act, JoinSt.write, List.set_set]
  rfl

/-! ## A call of one goroutine alone -/

/-- The device with the manufacturer code of the node. -/
def devsAfter (s : JoinSt) (d : Nat) : Nat → Obj :=
  fun x => if x = d then ((s.devs d).setManufacturerCode s.man).1 else s.devs x

/-- The devices after the call. -/
def devicesAfter (s : JoinSt) (d : Nat) : List Obj := (s.listed ++ [d]).map (devsAfter s d)

/-- The classes after the call. -/
def classesAfter (s : JoinSt) (d : Nat) : List Cls := ((devicesAfter s d ++ [s.prof]).map Obj.clsD).foldl addClass []

/-- Where the goroutine is after `t` steps. -/
def callPc (room : Nat → Nat → Nat) (s : JoinSt) (d : Nat) (todo : List Nat) : Nat → JoinPc
  | 0 => .idle (d :: todo)
  | 1 => .put d s.field todo
  | 2 => .store d (s.cells.append room s.field d).2 todo
  | 3 => .man d todo
  | 4 => .parent d todo
  | 5 => .classes todo
  | 6 => .count (classesAfter s d) todo
  | 7 => .setCount (classesAfter s d) (s.listed.length + 1) todo
  | 8 => .setClassCount (classesAfter s d) todo
  | 9 => .list (classesAfter s d) todo
  | 10 => .setD5 (classesAfter s d) (Obj.instanceListData (devicesAfter s d)) todo
  | 11 => .setD6 (classesAfter s d) (Obj.instanceListData (devicesAfter s d)) todo
  | 12 => .setClasses (classesAfter s d) todo
  | _ => .idle todo

/-- The node profile after `t` steps. -/
def callProf (s : JoinSt) (d : Nat) (t : Nat) : Obj :=
  let o1 := (s.prof.setInstanceCount (BitVec.ofNat 64 (s.listed.length + 1))).1
  let o2 := (o1.setClassCount (BitVec.ofNat 64 (classesAfter s d).length)).1
  let o3 := (o2.setPropertyData 0xD5 (Obj.instanceListData (devicesAfter s d))).1
  let o4 := (o3.setPropertyData 0xD6 (Obj.instanceListData (devicesAfter s d))).1
  if t < 8 then s.prof else if t < 9 then o1 else if t < 11 then o2 else if t < 12 then o3 else if t < 13 then o4
  else (o4.setClassList (classesAfter s d)).1

/-- The state after `t` steps. -/
def callState (room : Nat → Nat → Nat) (s : JoinSt) (i d : Nat) (todo : List Nat) (t : Nat) : JoinSt :=
  ⟨if t < 2 then s.cells else (s.cells.append room s.field d).1,
    if t < 3 then s.field else (s.cells.append room s.field d).2,
    if t < 4 then s.devs else devsAfter s d,
    if t < 5 then s.joined else fun x => if x = d then true else s.joined x,
    s.man, callProf s d t, s.adders.set i (callPc room s d todo t)⟩

theorem callState_listed (s : JoinSt) (i d : Nat) (todo : List Nat) (hin : Inside s.cells s.field)
    (t : Nat) : (callState room s i d todo t).listed = if t < 3 then s.listed else s.listed ++ [d] := by
  unfold JoinSt.listed callState
  dsimp only
  by_cases h2 : t < 2
  · rw [if_pos h2, if_pos (by omega), if_pos (by omega)]
  · rw [if_neg h2]
    by_cases h3 : t < 3
    · rw [if_pos h3, if_pos h3, append_shows _ _ _ _ hin (fun _ => Nat.le_refl _)]
    · rw [if_neg h3, if_neg h3, append_shown _ _ _ hin, List.filterMap_append]
      rfl

theorem callState_step (s : JoinSt) (i d : Nat) (todo : List Nat) (hin : Inside s.cells s.field)
    (h5 : (s.prof.props.lookup 0xD5).isSome) (hi : s.adders[i]? = some (.idle (d :: todo))) (t : Nat) (ht : t < 13) :
    (callState room s i d todo t).step room i = callState room s i d todo (t + 1) := by
  have at_i : (callState room s i d todo t).adders[i]? = some (callPc room s d todo t) := adder_set hi
  have hl := callState_listed (room := room) s i d todo hin t
  rw [act_of at_i]
  match t, ht with
  | 0, _ => simp [callPc, JoinSt.act, JoinSt.goto, callState, callProf]
  | 1, _ => simp [callPc, JoinSt.act, callState, callProf]
  | 2, _ => simp [callPc, JoinSt.act, callState, callProf]
  | 3, _ =>
    simp only [callPc, JoinSt.act]
    simp [callPc, callState, callProf]
    rfl
  | 4, _ => simp [callPc, JoinSt.act, callState, callProf]
  | 5, _ =>
    have : (callState room s i d todo 5).classesNow = classesAfter s d := by
      unfold JoinSt.classesNow
      rw [hl]
      rfl
    simp only [callPc, JoinSt.act, JoinSt.goto, this]
    simp [callPc, callState, callProf]
  | 6, _ =>
    simp only [callPc, JoinSt.act, JoinSt.goto, hl]
    simp [callPc, callState, callProf]
  | 7, _ => simp [callPc, JoinSt.act, JoinSt.write, callState, callProf]
  | 8, _ => simp [callPc, JoinSt.act, JoinSt.write, callState, callProf]
  | 9, _ =>
    simp only [callPc, JoinSt.act, JoinSt.goto, hl]
    simp [callPc, callState, callProf, devicesAfter]
  | 10, _ =>
    have hp : ((callState room s i d todo 10).prof.props.lookup 0xD5).isSome := by
      show ((callProf s d 10).props.lookup 0xD5).isSome
      simp only [callProf]
      rw [if_neg (by decide), if_neg (by decide), if_pos (by decide), classCount_props, count_props]
      exact update_some (update_some h5)
    have he := setPropertyData_err (callState room s i d todo 10).prof 0xD5 (Obj.instanceListData (devicesAfter s d))
    rw [if_pos hp] at he
    simp only [callPc, JoinSt.act, he]
    simp [callPc, JoinSt.write, callState, callProf]
  | 11, _ => simp [callPc, JoinSt.act, JoinSt.write, callState, callProf]
  | 12, _ => simp [callPc, JoinSt.act, JoinSt.write, callState, callProf]

theorem run_call (s : JoinSt) (i d : Nat) (todo : List Nat) (hin : Inside s.cells s.field)
    (h5 : (s.prof.props.lookup 0xD5).isSome) (hi : s.adders[i]? = some (.idle (d :: todo))) (t : Nat) (ht : t ≤ 13) :
    s.run room (List.replicate t i) = callState room s i d todo t := by
  induction t with
  | zero =>
    show s = _
    unfold callState
    have : s.adders.set i (.idle (d :: todo)) = s.adders := by
      obtain ⟨h1, h2⟩ := List.getElem?_eq_some_iff.mp hi
      rw [← h2, List.set_getElem_self]
    simp [callProf, callPc, this]
  | succ t ih =>
    rw [List.replicate_succ', joinRun_append, ih (by omega)]
    exact callState_step s i d todo hin h5 hi t (by omega)

theorem one_entry {α : Type} {l : List α} {x : α} (h : l.length = 1) (h0 : l[0]? = some x) : l = [x] := by
  match l, h with
  | [y], _ => rw [← Option.some.inj h0]

/-- What the call of `Verif.Model.Node` does. -/
theorem node_added {s : JoinSt} {n : Node} (h : IsNode s n) (d : Nat) (hd : d ∉ s.listed) :
    (n.addDevice (s.devs d)).1.devices = devicesAfter s d ∧
    (n.addDevice (s.devs d)).1.profiles = [callProf s d 13] ∧
    (n.addDevice (s.devs d)).1.manufacturer = s.man ∧
    (n.addDevice (s.devs d)).1.nodeProfile = some (.profile 0) := by
  have hdev : n.devices ++ [((s.devs d).setManufacturerCode n.manufacturer).1] = devicesAfter s d := by
    rw [h.devices, h.man]
    unfold devicesAfter
    rw [List.map_append]
    congr 1
    · refine List.map_congr_left (fun x hx => ?_)
      unfold devsAfter
      have hne : x ≠ d := fun e => hd (e ▸ hx)
      rw [if_neg hne]
    · simp [devsAfter]
  have hadd : (n.addDevice (s.devs d)).1
      = (Node.updateNodeProfile { n with devices := devicesAfter s d }).1 := by
    unfold Node.addDevice; dsimp only; rw [hdev]
  have hp : ({ n with devices := devicesAfter s d } : Node).nodeProfile = some (.profile 0) := h.profile
  have hfr := updateNodeProfile_frame { n with devices := devicesAfter s d }
  have hget := updateNodeProfile_get { n with devices := devicesAfter s d }
  have hcl : ({ n with devices := devicesAfter s d } : Node).classes = classesAfter s d := by
    unfold Node.classes classesAfter; rw [h.profiles]
  have hlen : (devicesAfter s d).length = s.listed.length + 1 := by
    unfold devicesAfter; rw [List.length_map, List.length_append]; rfl
  have hprof : (Node.updateNodeProfile { n with devices := devicesAfter s d }).1.profiles = [callProf s d 13] := by
    have h0 := hget (.profile 0)
    rw [if_pos hp] at h0
    have h1 : (Node.updateNodeProfile { n with devices := devicesAfter s d }).1.profiles[0]?
        = (n.profiles[0]?).map (profileWrites (devicesAfter s d) (classesAfter s d)) := by rw [← hcl]; exact h0
    have h2 : (Node.updateNodeProfile { n with devices := devicesAfter s d }).1.profiles.length = 1 :=
      hfr.profiles.trans (by show n.profiles.length = 1; rw [h.profiles]; rfl)
    have h3 : n.profiles[0]? = some s.prof := by rw [h.profiles]; rfl
    rw [h3] at h1
    refine one_entry h2 (h1.trans ?_)
    have h5 := h.props 0xD5 (by decide)
    simp only [Option.map_some]
    congr 1
    unfold profileWrites callProf
    rw [hlen, list_writes]
    · rfl
    · rw [classCount_props, count_props]
      exact update_some (update_some h5)
  rw [hadd]
  refine ⟨?_, hprof, hfr.manufacturer.trans h.man, ?_⟩
  · refine List.ext_getElem? (fun j => ?_)
    have := hget (.device j)
    rw [if_neg (by rw [hp]; exact fun e => by cases e)] at this
    exact this
  · have hcode : (callProf s d 13).code = s.prof.code := by
      have e : (callProf s d 13).codes = s.prof.codes := by
        unfold callProf
        simp [setPropertyData_codes, count_props, classCount_props, Obj.setClassList]
      unfold Obj.code; rw [e]
    have hold := h.profile
    unfold Node.nodeProfile Node.lookupProfile at hold ⊢
    rw [h.profiles] at hold
    rw [hprof]
    simp only [List.findIdx?_cons, List.findIdx?_nil, hcode] at hold ⊢
    exact hold

/-- A whole call. -/
theorem whole_call {s : JoinSt} {n : Node} (h : IsNode s n) {i d : Nat} {todo : List Nat}
    (hi : s.adders[i]? = some (.idle (d :: todo))) (hd : d ∉ s.listed) :
    let s' := s.run room (List.replicate 13 i)
    IsNode s' (n.addDevice (s.devs d)).1 ∧ s'.listed = s.listed ++ [d] ∧
    s'.devs = devsAfter s d ∧ s'.adders = s.adders.set i (.idle todo) ∧ s'.joined d = true := by
  intro s'
  have hs' : s' = callState room s i d todo 13 := run_call s i d todo h.inside (h.props _ (by decide)) hi 13 (Nat.le_refl _)
  have hl : s'.listed = s.listed ++ [d] := by
    rw [hs', callState_listed _ _ _ _ h.inside, if_neg (by decide)]
  obtain ⟨a1, a2, a3, a4⟩ := node_added h d hd
  rw [hs'] at hl ⊢
  refine ⟨⟨append_fits _ _ _ h.inside, ?_, ?_, a2, a3, a4, fun c hc => ?_⟩, hl, rfl, rfl, if_pos rfl⟩
  · rw [hl, List.map_append, ← h.noNil]
    exact append_shown _ _ _ h.inside
  · rw [a1, hl]; rfl
  · have := h.props c hc
    show ((callProf s d 13).props.lookup c).isSome
    simp only [callProf]
    rw [if_neg (by decide), if_neg (by decide), if_neg (by decide), if_neg (by decide), if_neg (by decide)]
    unfold Obj.setClassList
    rw [setPropertyData_fst, setPropertyData_fst, setPropertyData_fst, classCount_props, count_props]
    exact update_some (update_some (update_some (update_some (update_some this))))

theorem count_bytes (k : Nat) : EProp.integerData (BitVec.ofNat 64 k) 3 = beBytes 3 k := by
  unfold EProp.integerData
  rw [integerToByte_eq]
  simp only [BitVec.toNat_ofNat]
  exact beBytes_mod 3 8 k (by decide)

theorem beBytes_next (k : Nat) : beBytes 3 (k + 1) ≠ beBytes 3 k := by
  intro e
  have := congrArg beNat e
  rw [beNat_beBytes, beNat_beBytes] at this
  omega

/-- A node with one profile has no other node profile. -/
theorem only_profile {n : Node} {p o : Obj} {r : ObjRef} (hp : n.profiles = [p]) (hr : n.nodeProfile = some r)
    (ho : n.get r = some o) : o = p := by
  obtain ⟨i, rfl, -⟩ := nodeProfile_cases hr
  have : n.profiles[i]? = some o := ho
  rw [hp] at this
  match i with
  | 0 => exact (Option.some.inj this).symm
  | i + 1 => cases this

theorem hasData_unique {o : Obj} {c : Byte} {x y : Bytes} (hx : HasData o c x) (hy : HasData o c y) : x = y := by
  obtain ⟨p, hp, rfl⟩ := hx
  obtain ⟨q, hq, rfl⟩ := hy
  rw [hp] at hq
  cases hq
  rfl

theorem man_codes (o : Obj) (k : GoUint) : (o.setManufacturerCode k).1.codes = o.codes := by
  unfold Obj.setManufacturerCode
  rw [setPropertyInteger_eq, setPropertyData_fst]

/-! ## C171 -/

/-- After how many steps of a call a property of the node profile is written. -/
def turnOf (c : Byte) : Nat :=
  if c = 0xD3 then 8 else if c = 0xD4 then 9 else if c = 0xD5 then 11 else if c = 0xD6 then 12 else 13

theorem callProf_lookup (s : JoinSt) (d t : Nat) (c : Byte) :
    (callProf s d t).props.lookup c = if t < turnOf c then s.prof.props.lookup c else (callProf s d 13).props.lookup c := by
  have key : ∀ t, (callProf s d t).props.lookup c
      = if c = 0xD3 then if t < 8 then s.prof.props.lookup c else
          (s.prof.props.lookup c).map (·.setData (EProp.integerData (BitVec.ofNat 64 (s.listed.length + 1)) 3))
        else if c = 0xD4 then if t < 9 then s.prof.props.lookup c else
          (s.prof.props.lookup c).map (·.setData (EProp.integerData (BitVec.ofNat 64 (classesAfter s d).length) 2))
        else if c = 0xD5 then if t < 11 then s.prof.props.lookup c else
          (s.prof.props.lookup c).map (·.setData (Obj.instanceListData (devicesAfter s d)))
        else if c = 0xD6 then if t < 12 then s.prof.props.lookup c else
          (s.prof.props.lookup c).map (·.setData (Obj.instanceListData (devicesAfter s d)))
        else if c = 0xD7 then if t < 13 then s.prof.props.lookup c else
          (s.prof.props.lookup c).map (·.setData (Obj.classListData (classesAfter s d)))
        else s.prof.props.lookup c := by
    intro t
    unfold callProf Obj.setClassList
    simp only [setPropertyData_fst, classCount_props, count_props]
    by_cases h3 : c = 0xD3
    · subst h3
      rw [if_pos rfl]
      repeat' split
      all_goals first | omega | simp [lookup_update]
    · by_cases h4 : c = 0xD4
      · subst h4
        rw [if_neg (show ¬ ((0xD4 : Byte) = 0xD3) by decide), if_pos rfl]
        repeat' split
        all_goals first | omega | simp [lookup_update]
      · by_cases h5 : c = 0xD5
        · subst h5
          rw [if_neg (show ¬ ((0xD5 : Byte) = 0xD3) by decide), if_neg (show ¬ ((0xD5 : Byte) = 0xD4) by decide), if_pos rfl]
          repeat' split
          all_goals first | omega | simp [lookup_update]
        · by_cases h6 : c = 0xD6
          · subst h6
            rw [if_neg (show ¬ ((0xD6 : Byte) = 0xD3) by decide), if_neg (show ¬ ((0xD6 : Byte) = 0xD4) by decide), if_neg (show ¬ ((0xD6 : Byte) = 0xD5) by decide), if_pos rfl]
            repeat' split
            all_goals first | omega | simp [lookup_update]
          · by_cases h7 : c = 0xD7
            · subst h7
              rw [if_neg (show ¬ ((0xD7 : Byte) = 0xD3) by decide), if_neg (show ¬ ((0xD7 : Byte) = 0xD4) by decide), if_neg (show ¬ ((0xD7 : Byte) = 0xD5) by decide), if_neg (show ¬ ((0xD7 : Byte) = 0xD6) by decide), if_pos rfl]
              repeat' split
              all_goals first | omega | simp [lookup_update]
            · rw [if_neg h3, if_neg h4, if_neg h5, if_neg h6, if_neg h7]
              repeat' split
              all_goals simp only [lookup_update, if_neg h3, if_neg h4, if_neg h5, if_neg h6, if_neg h7]
  rw [key t, key 13]
  unfold turnOf
  by_cases h3 : c = 0xD3
  · simp [h3]
  · by_cases h4 : c = 0xD4
    · simp [h4]
    · by_cases h5 : c = 0xD5
      · simp [h5]
      · by_cases h6 : c = 0xD6
        · simp [h6]
        · by_cases h7 : c = 0xD7
          · simp [h7]
          · simp only [if_neg h3, if_neg h4, if_neg h5, if_neg h6, if_neg h7, ite_self]

/-- C171, what holds: when a call runs alone, the device is listed at its third step, gets the manufacturer code at the
fourth and its node at the fifth; then the five properties of the node profile change one after the other, each at once,
from what they were to what the call leaves, and nothing else changes. -/
theorem C171_moments_partial {s : JoinSt} {n : Node} (h : IsNode s n) {i d : Nat} {todo : List Nat}
    (hi : s.adders[i]? = some (.idle (d :: todo))) (hd : d ∉ s.listed) (t : Nat) (ht : t ≤ 13) :
    let u := s.run room (List.replicate t i)
    u.listed = (if t < 3 then s.listed else s.listed ++ [d]) ∧
    u.devs d = (if t < 4 then s.devs d else ((s.devs d).setManufacturerCode n.manufacturer).1) ∧
    (∀ x, x ≠ d → u.devs x = s.devs x ∧ u.joined x = s.joined x) ∧
    u.joined d = (if t < 5 then s.joined d else true) ∧
    ∃ p, (n.addDevice (s.devs d)).1.profiles = [p] ∧
      ∀ c, u.prof.props.lookup c = if t < turnOf c then s.prof.props.lookup c else p.props.lookup c := by
  intro u
  have hu : u = callState room s i d todo t := run_call s i d todo h.inside (h.props _ (by decide)) hi t ht
  rw [hu]
  refine ⟨callState_listed _ _ _ _ h.inside t, ?_, fun x hx => ⟨?_, ?_⟩, ?_, _, (node_added h d hd).2.1,
    fun c => callProf_lookup s d t c⟩
  · show (if t < 4 then s.devs else devsAfter s d) d = _
    rw [h.man]
    split
    · rfl
    · simp [devsAfter]
  · show (if t < 4 then s.devs else devsAfter s d) x = _
    split
    · rfl
    · simp [devsAfter, hx]
  · show (if t < 5 then s.joined else fun x => if x = d then true else s.joined x) x = _
    split
    · rfl
    · simp [hx]
  · show (if t < 5 then s.joined else fun x => if x = d then true else s.joined x) d = _
    split
    · rfl
    · simp

/-- **C171 refuted**, for every node and every device that is new to it: from the third step of the call to the
eleventh, the node has the device and its node profile does not describe the node; at first the device has neither
its node nor the manufacturer code; and at the eighth step the node profile counts the device that it does not list. -/
theorem C171_refuted {s : JoinSt} {n : Node} (h : IsNode s n) (hn : DescribesNode n) {i d : Nat} {todo : List Nat}
    (hi : s.adders[i]? = some (.idle (d :: todo))) (hd : d ∉ s.listed) (hc : (s.devs d).codes ≠ []) :
    (∀ t, 3 ≤ t → t < 12 → (s.run room (List.replicate t i)).listed = s.listed ++ [d] ∧
      ¬ DescribesNode (seenNow (s.run room (List.replicate t i)) n)) ∧
    (s.run room (List.replicate 3 i)).devs d = s.devs d ∧
    (s.run room (List.replicate 3 i)).joined d = s.joined d ∧
    HasData (s.run room (List.replicate 8 i)).prof 0xD3 (beBytes 3 (s.listed.length + 1)) ∧
    HasData (s.run room (List.replicate 8 i)).prof 0xD6
      (BitVec.ofNat 8 (min 255 s.listed.length) :: (s.listed.map (fun x => (s.devs x).codes)).flatten) := by
  obtain ⟨r, o, cs, h1, h2, -, -, -, h3, -, -, h6, -⟩ := hn
  have ho : o = s.prof := only_profile h.profiles h1 h2
  rw [ho, h.devices, List.length_map] at h3 h6
  rw [List.map_map] at h6
  refine ⟨fun t ht ht' => ?_, ?_, ?_, ?_, ?_⟩
  · obtain ⟨a, b, b', -, p, -, c⟩ := C171_moments_partial (room := room) h hi hd t (by omega)
    rw [if_neg (by omega)] at a
    refine ⟨a, ?_⟩
    rintro ⟨r', o', cs', g1, g2, -, -, -, -, -, -, g6, -⟩
    have ho' : o' = (s.run room (List.replicate t i)).prof := only_profile rfl g1 g2
    rw [ho'] at g6
    have g6' : HasData s.prof 0xD6 (BitVec.ofNat 8 (min 255 (((s.run room (List.replicate t i)).listed.map
        (s.run room (List.replicate t i)).devs).length)) :: ((((s.run room (List.replicate t i)).listed.map
        (s.run room (List.replicate t i)).devs).map (·.codes)).flatten)) := by
      obtain ⟨q, hq, hq'⟩ := g6
      rw [c, if_pos (show t < turnOf 0xD6 from ht')] at hq
      exact ⟨q, hq, hq'⟩
    have e := List.tail_eq_of_cons_eq (hasData_unique h6 g6')
    rw [a, List.map_append, List.map_append, List.flatten_append, List.map_map] at e
    have e1 : (s.listed.map ((fun x => x.codes) ∘ (s.run room (List.replicate t i)).devs))
        = s.listed.map ((fun x => x.codes) ∘ s.devs) := by
      refine List.map_congr_left (fun x hx => ?_)
      have hne : x ≠ d := fun e => hd (e ▸ hx)
      simp only [Function.comp, (b' x hne).1]
    rw [e1] at e
    have e2 := List.self_eq_append_right.mp e
    simp only [List.map_cons, List.map_nil, List.flatten_cons, List.flatten_nil, List.append_nil] at e2
    rw [b] at e2
    split at e2
    · exact hc e2
    · rw [man_codes] at e2; exact hc e2
  · obtain ⟨-, b, -, -, -⟩ := C171_moments_partial (room := room) h hi hd 3 (by decide)
    exact b
  · obtain ⟨-, -, -, b, -⟩ := C171_moments_partial (room := room) h hi hd 3 (by decide)
    exact b
  · rw [run_call s i d todo h.inside (h.props _ (by decide)) hi 8 (by decide)]
    obtain ⟨q, hq, -⟩ := h3
    refine ⟨q.setData (beBytes 3 (s.listed.length + 1)), ?_, rfl⟩
    show (callProf s d 8).props.lookup 0xD3 = _
    simp only [callProf]
    rw [if_neg (by decide), if_pos (by decide), count_props]
    dsimp only
    rw [lookup_update, if_pos rfl, hq, count_bytes]
    rfl
  · rw [run_call s i d todo h.inside (h.props _ (by decide)) hi 8 (by decide)]
    obtain ⟨q, hq, hq'⟩ := h6
    refine ⟨q, ?_, hq'⟩
    show (callProf s d 8).props.lookup 0xD6 = _
    rw [callProf_lookup, if_pos (by decide)]
    exact hq

/-! ## C170 -/

/-- The goroutine has returned from all its calls. -/
def AllBack (s : JoinSt) : Prop := ∀ p ∈ s.adders, p = .idle []

/-- The last ten steps of a call, which do not touch the list of devices. -/
theorem finish_man (s : JoinSt) (i d : Nat) (todo : List Nat) (h : s.adders[i]? = some (.man d todo))
    (h5 : (s.prof.props.lookup 0xD5).isSome) :
    let u := s.run room (List.replicate 10 i)
    u.cells = s.cells ∧ u.field = s.field ∧ u.adders = s.adders.set i (.idle todo) ∧
    (u.prof.props.lookup 0xD5).isSome ∧ u.joined = (fun x => if x = d then true else s.joined x) := by
  have at_i : ∀ q, (s.adders.set i q)[i]? = some q := fun q => adder_set h
  intro u
  have hu : u = (s.run room [i, i, i, i]).run room (List.replicate 6 i) := by
    rw [← joinRun_append]
    rfl
  clear_value u
  rw [joinRun_cons, act_of h] at hu
  simp only [JoinSt.act] at hu
  rw [joinRun_cons, act_of (at_i _)] at hu
  simp only [JoinSt.act, List.set_set] at hu
  rw [joinRun_cons, act_of (at_i _)] at hu
  simp only [JoinSt.act, JoinSt.goto, List.set_set] at hu
  rw [joinRun_cons, act_of (at_i _)] at hu
  simp only [JoinSt.act, JoinSt.goto, List.set_set] at hu
  rw [show ∀ x : JoinSt, x.run room [] = x from fun _ => rfl] at hu
  generalize JoinSt.classesNow _ = cs at hu
  generalize List.length _ = k at hu
  rw [finish_count ⟨s.cells, s.field, fun x => if x = d then ((s.devs d).setManufacturerCode s.man).1 else s.devs x,
    fun x => if x = d then true else s.joined x, s.man, s.prof, s.adders.set i (.setCount cs k todo)⟩ i cs k todo
    (at_i _) h5] at hu
  rw [hu]
  refine ⟨rfl, rfl, by simp only [List.set_set], ?_, rfl⟩
  dsimp only
  unfold lastWrites Obj.setClassList
  rw [list_writes]
  · rw [setPropertyData_fst, setPropertyData_fst, setPropertyData_fst, classCount_props, count_props]
    exact update_some (update_some (update_some (update_some (update_some h5))))
  · rw [classCount_props, count_props]
    exact update_some (update_some h5)

/-- **C170 refuted**, a device gets lost: whenever two goroutines are about to add devices, there is a schedule after
which both calls have returned and the first device has its node, but the node has only the second one. -/
theorem C170_refuted_lost {s : JoinSt} (hin : Inside s.cells s.field) (h5 : (s.prof.props.lookup 0xD5).isSome) {i j d e : Nat}
    {ti tj : List Nat} (hij : i ≠ j) (hi : s.adders[i]? = some (.idle (d :: ti))) (hj : s.adders[j]? = some (.idle (e :: tj)))
    (hd : d ∉ s.listed) (hde : d ≠ e) :
    ∃ is, let u := s.run room is
      u.adders = (s.adders.set i (.idle ti)).set j (.idle tj) ∧ u.listed = s.listed ++ [e] ∧ d ∉ u.listed ∧
      u.joined d = true ∧ u.joined e = true := by
  refine ⟨[i, j, i, j, i, j] ++ (List.replicate 10 i ++ List.replicate 10 j), ?_⟩
  have at_j : ∀ l : List JoinPc, ∀ p q : JoinPc, l[j]? = some p → (l.set i q)[j]? = some p := by
    intro l p q hl; rw [List.getElem?_set_ne hij]; exact hl
  have at_i : ∀ l : List JoinPc, ∀ p q : JoinPc, l[i]? = some p → (l.set j q)[i]? = some p := by
    intro l p q hl; rw [List.getElem?_set_ne (Ne.symm hij)]; exact hl
  have hi1 : s.adders[i]? = _ := hi
  rw [joinRun_append, joinRun_append, joinRun_cons, act_of hi]
  simp only [JoinSt.act, JoinSt.goto]
  rw [joinRun_cons, act_of (at_j _ _ _ hj)]
  simp only [JoinSt.act, JoinSt.goto]
  rw [joinRun_cons, act_of (at_i _ _ _ (adder_set hi))]
  simp only [JoinSt.act]
  rw [joinRun_cons, act_of (at_j _ _ _ (adder_set (at_j _ _ _ hj)))]
  simp only [JoinSt.act]
  rw [joinRun_cons, act_of (at_i _ _ _ (adder_set (at_i _ _ _ (adder_set hi))))]
  simp only [JoinSt.act]
  rw [joinRun_cons, act_of (at_j _ _ _ (adder_set (at_j _ _ _ (adder_set (at_j _ _ _ hj)))))]
  simp only [JoinSt.act]
  rw [show ∀ x : JoinSt, x.run room [] = x from fun _ => rfl]
  have sets : ((((((s.adders.set i (.put d s.field ti)).set j (.put e s.field tj)).set i
      (.store d (s.cells.append room s.field d).2 ti)).set j
      (.store e ((s.cells.append room s.field d).1.append room s.field e).2 tj)).set i (.man d ti)).set j (.man e tj))
      = (s.adders.set i (.man d ti)).set j (.man e tj) := by
    refine List.ext_getElem? (fun k => ?_)
    simp only [List.getElem?_set, List.length_set]
    repeat' split
    all_goals first | rfl | omega
  rw [sets]
  have hin1 := append_keeps (room := room) s.cells s.field d s.field hin
  have hshow : ((s.cells.append room s.field d).1.append room s.field e).1.shows
      ((s.cells.append room s.field d).1.append room s.field e).2 = s.cells.shows s.field ++ [some e] := by
    rw [append_shown _ _ _ hin1, append_shows _ _ _ _ hin (fun _ => Nat.le_refl _)]
  generalize ((s.cells.append room s.field d).1.append room s.field e).1 = c at hshow ⊢
  generalize ((s.cells.append room s.field d).1.append room s.field e).2 = f at hshow ⊢
  obtain ⟨a1, a2, a3, a4, a5⟩ := finish_man (room := room)
    ⟨c, f, s.devs, s.joined, s.man, s.prof, (s.adders.set i (.man d ti)).set j (.man e tj)⟩ i d ti
    (at_i _ _ _ (adder_set hi)) h5
  generalize JoinSt.run room _ (List.replicate 10 i) = v at a1 a2 a3 a4 a5 ⊢
  have hv : v.adders[j]? = some (.man e tj) := by
    rw [a3]; exact at_j _ _ _ (adder_set (at_j _ _ _ hj))
  obtain ⟨b1, b2, b3, b4, b5⟩ := finish_man (room := room) v j e tj hv a4
  generalize v.run room (List.replicate 10 j) = w at b1 b2 b3 b4 b5 ⊢
  have hl : w.listed = s.listed ++ [e] := by
    unfold JoinSt.listed
    rw [b1, b2, a1, a2, hshow, List.filterMap_append]
    rfl
  refine ⟨?_, hl, ?_, ?_, ?_⟩
  · rw [b3, a3]
    refine List.ext_getElem? (fun k => ?_)
    simp only [List.getElem?_set, List.length_set]
    repeat' split
    all_goals first | rfl | omega
  · rw [hl, List.mem_append, List.mem_singleton]
    rintro (h | h)
    · exact hd h
    · exact hde h
  · rw [b5, a5]; simp
  · rw [b5]; simp

/-- **C170 refuted**, the node profile stays wrong: whenever two goroutines are about to add devices to a node, there is
a schedule after which both calls have returned and the node has both devices, but its node profile counts one less. -/
theorem C170_refuted_profile {s : JoinSt} {n : Node} (h : IsNode s n) {i j d e : Nat}
    {ti tj : List Nat} (hij : i ≠ j) (hi : s.adders[i]? = some (.idle (d :: ti))) (hj : s.adders[j]? = some (.idle (e :: tj))) :
    ∃ is, let u := s.run room is
      u.adders = (s.adders.set i (.idle ti)).set j (.idle tj) ∧ u.listed = s.listed ++ [d, e] ∧
      HasData u.prof 0xD3 (beBytes 3 (s.listed.length + 1)) ∧ ¬ DescribesNode (seenNow u n) := by
  refine ⟨List.replicate 7 i ++ (List.replicate 13 j ++ List.replicate 6 i), ?_⟩
  have h5 := h.props 0xD5 (by decide)
  have h3 := h.props 0xD3 (by decide)
  rw [joinRun_append, joinRun_append, run_call s i d ti h.inside h5 hi 7 (by decide)]
  have hl := callState_listed (room := room) s i d ti h.inside 7
  have hp : (callState room s i d ti 7).prof = s.prof := rfl
  have hin : Inside (callState room s i d ti 7).cells (callState room s i d ti 7).field := append_fits _ _ _ h.inside
  have had : (callState room s i d ti 7).adders = s.adders.set i (.setCount (classesAfter s d) (s.listed.length + 1) ti) := rfl
  generalize callState room s i d ti 7 = v at hl hp hin had ⊢
  rw [if_neg (by decide)] at hl
  have hvj : v.adders[j]? = some (.idle (e :: tj)) := by
    rw [had, List.getElem?_set_ne hij]; exact hj
  rw [run_call v j e tj hin (by rw [hp]; exact h5) hvj 13 (by decide)]
  have hl2 := callState_listed (room := room) v j e tj hin 13
  rw [if_neg (by decide), hl] at hl2
  have hp2 : ∀ c, (s.prof.props.lookup c).isSome → ((callState room v j e tj 13).prof.props.lookup c).isSome := by
    intro c hc
    show ((callProf v e 13).props.lookup c).isSome
    simp only [callProf]
    rw [if_neg (by decide), if_neg (by decide), if_neg (by decide), if_neg (by decide), if_neg (by decide)]
    unfold Obj.setClassList
    rw [setPropertyData_fst, setPropertyData_fst, setPropertyData_fst, classCount_props, count_props, hp]
    exact update_some (update_some (update_some (update_some (update_some hc))))
  have had2 : (callState room v j e tj 13).adders = v.adders.set j (.idle tj) := rfl
  generalize callState room v j e tj 13 = w at hl2 hp2 had2 ⊢
  have hwi : w.adders[i]? = some (.setCount (classesAfter s d) (s.listed.length + 1) ti) := by
    rw [had2, List.getElem?_set_ne (Ne.symm hij), had]
    exact adder_set hi
  rw [finish_count w i _ _ _ hwi (hp2 _ h5)]
  have hD3 : HasData (lastWrites w.prof (classesAfter s d) (s.listed.length + 1) (w.listed.map w.devs)) 0xD3
      (beBytes 3 (s.listed.length + 1)) := by
    obtain ⟨q, hq⟩ := Option.isSome_iff_exists.mp (hp2 _ h3)
    refine ⟨q.setData (beBytes 3 (s.listed.length + 1)), ?_, rfl⟩
    unfold lastWrites Obj.setClassList
    rw [list_writes, setPropertyData_fst, setPropertyData_fst, setPropertyData_fst, classCount_props, count_props]
    · dsimp only
      rw [lookup_update, if_neg (by decide), lookup_update, if_neg (by decide), lookup_update, if_neg (by decide),
        lookup_update, if_neg (by decide), lookup_update, if_pos rfl, hq, count_bytes]
      rfl
    · rw [classCount_props, count_props]
      exact update_some (update_some (hp2 _ h5))
  have hlw : w.listed = s.listed ++ [d, e] := by rw [hl2, List.append_assoc]; rfl
  refine ⟨?_, hlw, hD3, ?_⟩
  · dsimp only
    rw [had2, had]
    refine List.ext_getElem? (fun k => ?_)
    simp only [List.getElem?_set, List.length_set]
    repeat' split
    all_goals first | rfl | omega
  · rintro ⟨r', o', cs', g1, g2, -, -, -, g3, -⟩
    have ho' := only_profile rfl g1 g2
    rw [ho'] at g3
    have e := hasData_unique hD3 g3
    have hlen : (seenNow ⟨w.cells, w.field, w.devs, w.joined, w.man,
        lastWrites w.prof (classesAfter s d) (s.listed.length + 1) (w.listed.map w.devs), w.adders.set i (.idle ti)⟩ n).devices.length
        = s.listed.length + 1 + 1 := by
      show (w.listed.map w.devs).length = _
      rw [List.length_map, hlw, List.length_append]; rfl
    rw [hlen] at e
    exact beBytes_next _ e.symm

/-- C170, when no two calls overlap: whichever goroutines make them, the node gets the devices in this order, and it is
the node after as many calls of `AddDevice` in `Verif.Model.Node`. -/
theorem C170_apart_partial {s s' : JoinSt} {ds : List Nat} (hr : OneByOne room s ds s') {n : Node} (h : IsNode s n)
    (hnd : ds.Nodup) (hnew : ∀ d ∈ ds, d ∉ s.listed) (db : StdDB) :
    s'.listed = s.listed ++ ds ∧ IsNode s' (NodeOp.runAll db n (ds.map (fun d => .addDevice (s.devs d)))).1 := by
  induction hr generalizing n with
  | nil s => exact ⟨(List.append_nil _).symm, h⟩
  | @cons s s' i d todo ds hi hr ih =>
    obtain ⟨hd, hnd'⟩ := List.nodup_cons.mp hnd
    obtain ⟨a1, a2, a3, -⟩ := whole_call (room := room) h hi (hnew d List.mem_cons_self)
    obtain ⟨b1, b2⟩ := ih a1 hnd' (fun e he => by
      rw [a2, List.mem_append, List.mem_singleton]
      rintro (g | g)
      · exact hnew e (List.mem_cons_of_mem _ he) g
      · exact hd (g ▸ he))
    refine ⟨by rw [b1, a2, List.append_assoc]; rfl, ?_⟩
    have e1 : ds.map (fun d' => NodeOp.addDevice ((s.run room (List.replicate 13 i)).devs d'))
        = ds.map (fun d' => NodeOp.addDevice (s.devs d')) := by
      refine List.map_congr_left (fun x hx => ?_)
      have hne : x ≠ d := fun e => hd (e ▸ hx)
      rw [a3]
      simp only [devsAfter, if_neg hne]
    rw [e1] at b2
    exact b2

end Verif.Props
