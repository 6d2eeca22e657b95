import Verif.Props.Pointers
import Verif.Props.Device

/-!
# C144: what a program does to the entries of the standard database

`SharedStandardDatabase().LookupObject` gives a program the entry itself, not a copy. Data and names the program
stores in an entry do not reach the devices made later; names of classes and attributes of properties do.
-/

namespace Verif.Props
open Verif Model Spec Lemmas

/-! ## Specification -/

/-- What a device of code `c` shows that is made now: `NewDevice`, then `SetCode`, on a new object. -/
def madeNow (m : Mem) (c : ObjectCode) : Obj :=
  shows (after m [.newSuper, .call m.nobjs (.setCode c)]) m.nobjs

/-- Calls that store data or names, or change code bytes, on any object, also one of the standard database, and on
any property. -/
def Stores : MemOp → Prop
  | .call _ (.write _ _) => True
  | .call _ (.writeByte _ _) => True
  | .call _ (.writeInt _ _ _) => True
  | .call _ (.clear _) => True
  | .call _ (.setName _) => True
  | .call _ (.setInstance _) => True
  | .call _ (.setGroup _) => True
  | .call _ (.setClass _) => True
  | .setData _ _ => True
  | .clear _ => True
  | _ => False

/-- Calls that do not change names of classes, and names and attributes of properties, of the database. -/
def Mild (m : Mem) (op : MemOp) : Prop := Tidy m op ∨ Stores op

/-! ## Proofs -/

/-- Two memories that differ in data, names of objects and code bytes only. -/
structure OnlyStored (m m' : Mem) : Prop where
  db : m'.db = m.db
  nobjs : m'.nobjs = m.nobjs
  nprops : m'.nprops = m.nprops
  map : ∀ x, (m'.obj x).map = (m.obj x).map
  cls : ∀ x, (m'.obj x).clsName = (m.obj x).clsName
  len : ∀ x, (m'.obj x).codes.length = (m.obj x).codes.length
  prop : ∀ r, (m'.prop r).prop.copy = (m.prop r).prop.copy
  parent : ∀ r, (m'.prop r).parent = (m.prop r).parent

private theorem copy_code {p q : EProp} (h : p.copy = q.copy) : p.code = q.code := by
  have := congrArg EProp.code h
  exact this

theorem OnlyStored.refl (m : Mem) : OnlyStored m m :=
  ⟨rfl, rfl, rfl, fun _ => rfl, fun _ => rfl, fun _ => rfl, fun _ => rfl, fun _ => rfl⟩

theorem OnlyStored.owned {m m' : Mem} (h : OnlyStored m m') (hm : Owned m) : Owned m' := by
  refine ⟨fun o e he => ?_, fun o e he => ?_, fun o e he => ?_, fun o => ?_, fun e he => ?_, fun o => ?_⟩
  · rw [h.map] at he
    rw [copy_code (h.prop e.2)]
    exact hm.key o e he
  · rw [h.map] at he
    rw [h.parent]
    exact hm.back o e he
  · rw [h.map] at he
    rw [h.nprops]
    exact hm.old o e he
  · rw [h.map]
    exact hm.nodup o
  · rw [h.db] at he
    rw [h.nobjs]
    exact hm.db e he
  · rw [h.len]
    exact hm.three o

/-- An entry of the database without data, name and code bytes. -/
private def bare (o : Obj) : String × List EProp := (o.clsName, o.props.map (·.copy))

private def bareDB (db : StdDB) : List (ObjectCode × String × List EProp) := db.objects.map (fun e => (e.1, bare e.2))

theorem OnlyStored.bareDB {m m' : Mem} (h : OnlyStored m m') : bareDB (showsDB m') = Props.bareDB (showsDB m) := by
  unfold Props.bareDB Spec.showsDB
  dsimp only
  rw [h.db, List.map_map, List.map_map]
  apply List.map_congr_left
  intro e _
  show (e.1, bare (shows m' e.2)) = (e.1, bare (shows m e.2))
  unfold bare Spec.shows
  dsimp only
  rw [h.cls, h.map, List.map_map, List.map_map]
  congr 2
  apply List.map_congr_left
  intro x _
  exact h.prop x.2

private theorem properties_copy (l : PMap) :
    (l.properties.map (·.copy)) = PMap.properties (l.map (·.copy)) := by
  unfold PMap.properties
  rw [List.map_map, List.map_filterMap]
  have : (List.map ((fun x => x.code) ∘ fun x => x.copy) l) = l.map (·.code) := rfl
  rw [this]
  congr 1
  funext c
  unfold PMap.lookup
  rw [List.find?_map]
  rfl

private theorem lookup_bare (db : StdDB) (c : ObjectCode) :
    (db.lookupObject c).map bare = ((bareDB db).find? (fun e => e.1 == (c &&& 0xFFFF00))).map (·.2) := by
  unfold StdDB.lookupObject bareDB
  rw [List.find?_map, Option.map_map, Option.map_map]
  rfl

private theorem standard_bare {db db' : StdDB} (h : bareDB db = bareDB db') (o : Obj) (c : ObjectCode) :
    o.addStandardPropertiesWithCode db c = o.addStandardPropertiesWithCode db' c := by
  have e : (db.lookupObject c).map bare = (db'.lookupObject c).map bare := by rw [lookup_bare, lookup_bare, h]
  unfold Obj.addStandardPropertiesWithCode
  cases h1 : db.lookupObject c with
  | none =>
    cases h2 : db'.lookupObject c with
    | none => rfl
    | some s => rw [h1, h2] at e; cases e
  | some s =>
    cases h2 : db'.lookupObject c with
    | none => rw [h1, h2] at e; cases e
    | some s' =>
      rw [h1, h2] at e
      have e := Option.some.inj e
      unfold bare at e
      rw [Prod.mk.injEq] at e
      dsimp only
      rw [e.1, properties_copy, properties_copy, e.2]

private theorem made_bare {db db' : StdDB} (h : bareDB db = bareDB db') (c : ObjectCode) :
    (Obj.superSetCode db (Obj.newSuper db) c).1 = (Obj.superSetCode db' (Obj.newSuper db') c).1 := by
  unfold Obj.superSetCode Obj.newSuper
  dsimp only
  rw [standard_bare h, standard_bare h]

theorem made_eq {m : Mem} (hm : Owned m) (c : ObjectCode) :
    madeNow m c = (Obj.superSetCode (showsDB m) (Obj.newSuper (showsDB m)) c).1 := by
  obtain ⟨h1, -, h3, h4, h5, -, h7⟩ := newSuper_sim hm
  have ho : ∀ e ∈ m.newSuper.1.db, e.2 ≠ m.nobjs := by
    rw [h4]
    exact fun e he => Nat.ne_of_lt (hm.db e he)
  obtain ⟨-, e⟩ := call_sim h1 m.nobjs ho (.setCode c)
  have e' : shows (m.newSuper.1.call m.nobjs (.setCode c)).1 m.nobjs
      = (ObjOp.run (showsDB m.newSuper.1) (shows m.newSuper.1 m.nobjs) (.setCode c)).1 := congrArg Prod.fst e
  have run : ∀ db o, (ObjOp.run db o (.setCode c)).1 = (Obj.superSetCode db o c).1 := fun _ _ => rfl
  rw [h5, h7, run] at e'
  rw [← e']
  rfl

private theorem onProp_stored (m : Mem) (r : Nat) (f : PCell → PCell)
    (hc : (f (m.prop r)).prop.copy = (m.prop r).prop.copy) (hp : (f (m.prop r)).parent = (m.prop r).parent) :
    OnlyStored m (m.onProp r f) := by
  refine ⟨rfl, rfl, rfl, fun _ => rfl, fun _ => rfl, fun _ => rfl, fun x => ?_, fun x => ?_⟩
  · unfold Mem.onProp
    dsimp only
    by_cases h : x = r
    · rw [if_pos h, h]; exact hc
    · rw [if_neg h]
  · unfold Mem.onProp
    dsimp only
    by_cases h : x = r
    · rw [if_pos h, h]; exact hp
    · rw [if_neg h]

private theorem onObj_stored (m : Mem) (o : Nat) (f : OCell → OCell)
    (hm : (f (m.obj o)).map = (m.obj o).map) (hc : (f (m.obj o)).clsName = (m.obj o).clsName)
    (hl : (f (m.obj o)).codes.length = (m.obj o).codes.length) :
    OnlyStored m (m.onObj o f) := by
  refine ⟨rfl, rfl, rfl, fun x => ?_, fun x => ?_, fun x => ?_, fun _ => rfl, fun _ => rfl⟩ <;>
  · unfold Mem.onObj
    dsimp only
    by_cases h : x = o
    · rw [if_pos h, h]; assumption
    · rw [if_neg h]

private theorem write_stored (m : Mem) (o : Nat) (c : Byte) (d : Bytes) :
    OnlyStored m (m.setPropertyData o c d).1 := by
  unfold Mem.setPropertyData
  cases m.look o c with
  | none => exact OnlyStored.refl m
  | some r => exact onProp_stored m r (fun x => { x with prop := x.prop.setData d }) rfl rfl

theorem stores_step (m : Mem) (op : MemOp) (h : Stores op) : OnlyStored m (op.run m).1 := by
  cases op with
  | call o q =>
    cases q with
    | write c d => exact write_stored m o c d
    | writeByte c b => exact write_stored m o c [b]
    | writeInt c v n => exact write_stored m o c _
    | clear c =>
      show OnlyStored m (m.call o (.clear c)).1
      unfold Mem.call
      dsimp only
      cases m.look o c with
      | none => exact OnlyStored.refl m
      | some r => exact onProp_stored m r (fun x => { x with prop := x.prop.clear }) rfl rfl
    | setName s => exact onObj_stored m o (fun x => { x with name := s }) rfl rfl rfl
    | setInstance b => exact onObj_stored m o (fun x => { x with codes := x.codes.set 2 b }) rfl rfl List.length_set
    | setGroup b => exact onObj_stored m o (fun x => { x with codes := x.codes.set 0 b }) rfl rfl List.length_set
    | setClass b => exact onObj_stored m o (fun x => { x with codes := x.codes.set 1 b }) rfl rfl List.length_set
    | _ => exact absurd h id
  | setData r d => exact onProp_stored m r (fun x => { x with prop := x.prop.setData d }) rfl rfl
  | clear r => exact onProp_stored m r (fun x => { x with prop := x.prop.clear }) rfl rfl
  | _ => exact absurd h id

private theorem mild_after (ops : List MemOp) : ∀ {m : Mem}, Owned m → Always Mild m ops →
    Owned (after m ops) ∧ bareDB (showsDB (after m ops)) = bareDB (showsDB m) := by
  induction ops with
  | nil => exact fun hm _ => ⟨hm, rfl⟩
  | cons op ops ih =>
    intro m hm h
    have hs : Owned (op.run m).1 ∧ bareDB (showsDB (op.run m).1) = bareDB (showsDB m) := by
      rcases h.1 with ht | ht
      · obtain ⟨a, -, -, d⟩ := tidy_step hm op ht
        exact ⟨a, by rw [d]⟩
      · have := stores_step m op ht
        exact ⟨this.owned hm, this.bareDB⟩
    obtain ⟨a, b⟩ := ih hs.1 h.2
    exact ⟨a, b.trans hs.2⟩

/-! ## C144 -/

/-- C144, the part that holds. After every history of calls that keep to the objects of the program or store data,
names and code bytes, also in the entries of the standard database, a device made of any code is the one a fresh
program makes of it. Missing: calls that change, in the database, names of classes, attributes and names of
properties, or add properties. -/
theorem C144_later_devices_partial (t : List RawObj) (ops : List MemOp) (h : Always Mild (Mem.load t) ops)
    (c : ObjectCode) (o : Obj) (ho : Obj.newDeviceWithCode (StdDB.init t) c = .ok o) :
    madeNow (after (Mem.load t) ops) c = o := by
  obtain ⟨hm, hd⟩ := load_sim t
  obtain ⟨hm', hb⟩ := mild_after ops hm h
  rw [hd] at hb
  rw [made_eq hm', made_bare hb]
  unfold Obj.newDeviceWithCode Obj.withDeviceCode at ho
  cases hl : (StdDB.init t).lookupObject c with
  | none => rw [hl] at ho; cases ho
  | some s => rw [hl] at ho; exact Res.ok.inj ho

/-- C144 is false for attributes: for every table and history, when a program finds an entry of the database by the
code of a class and sets the attributes of a property it finds in the entry, every device of the class made from then
on has these attributes. -/
theorem C144_refuted_attributes (t : List RawObj) (ops : List MemOp) (h : Always Mild (Mem.load t) ops)
    (c : ObjectCode) (s r : Nat) (x : Byte) (g w a : Attr)
    (hs : (after (Mem.load t) ops).lookupObject c = some s)
    (hr : (after (Mem.load t) ops).look s x = some r) :
    ∃ p, (madeNow (after (Mem.load t) (ops ++ [.setAttrs r g w a])) c).props.lookup x = some p ∧
      p.getAttr = g ∧ p.setAttr = w ∧ p.annoAttr = a := by
  obtain ⟨hm, -⟩ := mild_after ops (load_sim t).1 h
  have hsplit : after (Mem.load t) (ops ++ [.setAttrs r g w a])
      = (after (Mem.load t) ops).onProp r
          (fun x => { x with prop := { x.prop with getAttr := g, setAttr := w, annoAttr := a } }) := by
    unfold after
    rw [List.foldl_append]
    rfl
  rw [hsplit]
  generalize after (Mem.load t) ops = m at *
  have hb := onProp_beside hm r s
    (fun x => { x with prop := { x.prop with getAttr := g, setAttr := w, annoAttr := a } })
    (fun y hy => by rw [hm.back s _ (look_mem hr)] at hy; exact (Option.some.inj hy).symm) rfl rfl
  generalize hm' : m.onProp r
    (fun x => { x with prop := { x.prop with getAttr := g, setAttr := w, annoAttr := a } }) = m' at *
  have hs' : m'.lookupObject c = some s := by rw [← hm']; exact hs
  have hr' : m'.look s x = some r := by rw [← hm']; exact hr
  have hp : (m'.prop r).prop = { (m.prop r).prop with getAttr := g, setAttr := w, annoAttr := a } := by
    rw [← hm']
    unfold Mem.onProp
    dsimp only
    rw [if_pos rfl]
  have hl : (showsDB m').lookupObject c = some (shows m' s) := by rw [lookupObject_shows, hs']; rfl
  have hx : (shows m' s).props.lookup x = some (m'.prop r).prop := by rw [← look_shows hb.owned, hr']; rfl
  have hd : Obj.newDeviceWithCode (showsDB m') c = .ok (madeNow m' c) := by
    rw [made_eq hb.owned]
    unfold Obj.newDeviceWithCode Obj.withDeviceCode
    rw [hl]
    rfl
  have hq := (C25_device _ c _ hd).2.2.1 x
  unfold standardProperty at hq
  rw [hl, Option.bind_some, hx] at hq
  cases hf : (madeNow m' c).props.lookup x with
  | none => rw [hf] at hq; cases hq
  | some p =>
    rw [hf] at hq
    have hq : ({ p with data := [] } : EProp) = { (m'.prop r).prop with data := [] } := Option.some.inj hq
    rw [hp] at hq
    exact ⟨p, rfl, congrArg EProp.getAttr hq, congrArg EProp.setAttr hq, congrArg EProp.annoAttr hq⟩

/-- C144 is false for names of classes: for every table and history, when a program finds an entry of the database by
the code of a class and names its class, every device of the class made from then on has this name of its class. -/
theorem C144_refuted_class_name (t : List RawObj) (ops : List MemOp) (h : Always Mild (Mem.load t) ops)
    (c : ObjectCode) (s : Nat) (name : String)
    (hs : (after (Mem.load t) ops).lookupObject c = some s) :
    (madeNow (after (Mem.load t) (ops ++ [.call s (.setClassName name)])) c).clsName = name := by
  obtain ⟨hm, -⟩ := mild_after ops (load_sim t).1 h
  have hsplit : after (Mem.load t) (ops ++ [.call s (.setClassName name)])
      = (after (Mem.load t) ops).onObj s (fun x => { x with clsName := name }) := by
    unfold after
    rw [List.foldl_append]
    rfl
  rw [hsplit]
  generalize after (Mem.load t) ops = m at *
  have hb := onObj_beside hm s (fun x => { x with clsName := name }) rfl rfl
  generalize hm' : m.onObj s (fun x => { x with clsName := name }) = m' at *
  have hs' : m'.lookupObject c = some s := by rw [← hm']; exact hs
  have hn : (shows m' s).clsName = name := by
    rw [← hm']
    unfold Spec.shows Mem.onObj
    dsimp only
    rw [if_pos rfl]
  have hl : (showsDB m').lookupObject c = some (shows m' s) := by rw [lookupObject_shows, hs']; rfl
  rw [made_eq hb.owned]
  generalize showsDB m' = db at *
  have hcode : ((Obj.newSuper db).setCode c).code.toNat = c.toNat % 2 ^ 24 :=
    setCode_code (by rw [newSuper_codes]; rfl) c
  unfold Obj.superSetCode
  dsimp only
  unfold Obj.addStandardPropertiesWithCode
  rw [lookupObject_mod db c _ hcode, hl]
  dsimp only
  rw [(superAddProperties_codes _ _).2.1]
  exact hn

private theorem finds_entry {m : Mem} (hm : Owned m) (c : ObjectCode) (x : Byte)
    (h : (((showsDB m).lookupObject c).bind (fun o => o.props.lookup x)).isSome = true) :
    ∃ s r, (after m []).lookupObject c = some s ∧ (after m []).look s x = some r := by
  show ∃ s r, m.lookupObject c = some s ∧ m.look s x = some r
  rw [lookupObject_shows] at h
  cases hs : m.lookupObject c with
  | none => rw [hs] at h; cases h
  | some s =>
    rw [hs] at h
    have h2 : ((shows m s).props.lookup x).isSome = true := h
    rw [← look_shows hm] at h2
    cases hr : m.look s x with
    | none => rw [hr] at h2; cases h2
    | some r => exact ⟨s, r, rfl, hr⟩

private theorem mild_history {m : Mem} (hm : Owned m) (c : ObjectCode) (d : Bytes) : Always Mild m
    [.newSuper, .call m.nobjs (.setCode c), .call 0 (.write 0x80 d)] := by
  obtain ⟨-, -, h3, h4, -⟩ := newSuper_sim hm
  refine ⟨.inl trivial, .inl ⟨?_, ?_⟩, .inr trivial, trivial⟩
  · show m.nobjs < m.newSuper.1.nobjs
    omega
  · intro e he
    exact Nat.ne_of_lt (hm.db e (by rw [← h4]; exact he))

/-- In the standard database a program finds the entry of lamps and in it the light level. -/
example : ∃ s r, (after (Mem.load Mra.table) []).lookupObject 0x029001 = some s ∧
    (after (Mem.load Mra.table) []).look s 0xB0 = some r := by
  obtain ⟨hm, hd⟩ := load_sim Mra.table
  have h : (((StdDB.init Mra.table).lookupObject 0x029001).bind (fun o => o.props.lookup 0xB0)).isSome = true := by
    decide +kernel
  rw [← hd] at h
  exact finds_entry hm 0x029001 0xB0 h

/-- A history with a device of the program and with data stored in an entry of the database. -/
example : Always Mild (Mem.load Mra.table)
    [.newSuper, .call (Mem.load Mra.table).nobjs (.setCode 0x029001), .call 0 (.write 0x80 [(0x30 : Byte)])] :=
  mild_history (load_sim Mra.table).1 _ _

end Verif.Props
