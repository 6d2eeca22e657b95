import Verif.Lemmas.Controller
import Verif.Props.Exchange

/-! # C44, C46 to C49: controllers -/

namespace Verif.Props
open Verif Model Spec Lemmas

/-! ## C47 -/

/-- C47. What a message lists is determined by the message. -/
theorem C47_unique (m : Message) (cs cs' : List Bytes) (h : InstanceList m cs)
    (h' : InstanceList m cs') : cs = cs' := by
  obtain ⟨-, p, hp, -, h3, n, rest, hd, hn⟩ := h
  obtain ⟨-, p', hp', -, h3', n', rest', hd', hn'⟩ := h'
  rw [hp] at hp'
  injection hp' with hp'
  injection hp' with hp'
  subst hp'
  rw [hd] at hd'
  injection hd' with e1 e2
  subst e1
  have hlen : cs.length = cs'.length := by rw [← hn, ← hn']
  clear hd hn hn' hp
  induction cs generalizing cs' with
  | nil =>
    cases cs' with
    | nil => rfl
    | cons _ _ => simp at hlen
  | cons c cs ih =>
    cases cs' with
    | nil => simp at hlen
    | cons c' cs' =>
      simp only [List.flatten_cons, List.append_assoc] at e2
      have hc : c.length = c'.length := by
        rw [h3 c (List.mem_cons_self ..), h3' c' (List.mem_cons_self ..)]
      obtain ⟨a, b⟩ := List.append_inj e2 hc
      rw [a, ih cs' (fun x hx => h3 x (List.mem_cons_of_mem _ hx))
        (fun x hx => h3' x (List.mem_cons_of_mem _ hx)) b (by simpa using hlen)]

/-- What the decoder of instance lists does. -/
theorem ofInstanceList_eq (db : StdDB) (m : Message) :
    (∀ cs, InstanceList m cs → Known db cs → ∃ n, RemoteNode.ofInstanceList db m = .ok n ∧
      n.port = m.src.port ∧ Described db false m.src cs { n with port := 3610 }) ∧
    ((¬ ∃ cs, InstanceList m cs ∧ Known db cs) → ∃ e, RemoteNode.ofInstanceList db m = .err e) := by
  have hopc : m.getOPC < 1 ↔ m.opc = 0 := by
    unfold Message.getOPC
    constructor
    · intro h
      apply BitVec.eq_of_toNat_eq
      simp; omega
    · rintro h; rw [h]; decide
  have hprop : m.property (0 : Nat) = .ok (m.ep[0]?.join) := (C11_property m).1 0
  unfold RemoteNode.ofInstanceList
  by_cases h0 : m.opc = 0
  · rw [if_pos (hopc.mpr h0)]
    exact ⟨fun cs h => absurd h0 h.1, fun _ => ⟨_, rfl⟩⟩
  rw [if_neg (fun h => h0 (hopc.mp h))]
  rw [show m.property 0 = .ok (m.ep[0]?.join) from hprop, Res.ok_bind]
  cases hp : m.ep[0]?.join with
  | none =>
    refine ⟨fun cs h => ?_, fun _ => ⟨_, rfl⟩⟩
    obtain ⟨-, p, h1, -⟩ := h
    rw [h1] at hp; cases hp
  | some p =>
    have hp0 : m.ep[0]? = some (some p) := by
      cases hq : m.ep[0]? with
      | none => rw [hq] at hp; cases hp
      | some q => rw [hq] at hp; exact congrArg some hp
    have hinst : ∀ cs, InstanceList m cs ↔ (p.code = 0xD5 ∨ p.code = 0xD6) ∧ Lists p.data cs := by
      intro cs
      constructor
      · rintro ⟨-, q, hq, h2⟩
        rw [hp0] at hq
        injection hq with hq
        injection hq with hq
        rw [hq]; exact h2
      · intro h; exact ⟨h0, p, hp0, h⟩
    dsimp only
    by_cases hcode : p.code ≠ instanceListNotification ∧ p.code ≠ selfNodeInstanceListS
    · rw [if_pos hcode]
      refine ⟨fun cs h => ?_, fun _ => ⟨_, rfl⟩⟩
      rcases ((hinst cs).mp h).1 with h | h
      · exact absurd h hcode.1
      · exact absurd h hcode.2
    rw [if_neg hcode]
    have hcode' : p.code = 0xD5 ∨ p.code = 0xD6 := by
      rcases Decidable.em (p.code = 0xD5) with h | h
      · exact .inl h
      · refine .inr (Decidable.byContradiction fun h' => hcode ⟨h, h'⟩)
    cases hd : p.data with
    | nil =>
      rw [if_pos List.length_nil]
      refine ⟨fun cs h => ?_, fun _ => ⟨_, rfl⟩⟩
      obtain ⟨-, -, n, rest, e, -⟩ := (hinst cs).mp h
      rw [hd] at e; cases e
    | cons k t =>
      rw [if_neg (by simp)]
      rw [show rd (k :: t) 0 = .ok k from rfl, Res.ok_bind]
      rw [show objectCodeSize = 3 from rfl]
      by_cases hs : (k :: t).length < k.toNat * 3 + 1
      · rw [if_pos hs]
        refine ⟨fun cs h => ?_, fun _ => ⟨_, rfl⟩⟩
        obtain ⟨n, t', e, hle⟩ := (lists_iff p.data).mp ⟨cs, ((hinst cs).mp h).2⟩
        rw [hd] at e hle
        injection e with e _
        subst e
        omega
      · rw [if_neg hs]
        have hkey : ∀ cs, Lists p.data cs → ∀ n : RemoteNode,
            (Known db cs → ∃ ds, forRange k.toNat (RemoteNode.addInstance db (k :: t)) n =
              .ok { n with devices := n.devices ++ ds,
                           profiles := n.profiles ++ (cs.filter ofProfile).map
                             (fun c => Obj.newProfileWithCode db (codeNumber c)) } ∧
              ds.map (·.codes) = cs.filter (fun c => !ofProfile c) ∧
              ∀ o ∈ ds, Obj.newDeviceWithCode db o.code = .ok o) ∧
            (¬ Known db cs → forRange k.toNat (RemoteNode.addInstance db (k :: t)) n = .err .other) := by
          rintro cs ⟨h3, n', rest, e, hn⟩ n
          rw [hd] at e
          injection e with e1 e2
          subst e1
          unfold forRange
          rw [hn]
          exact loop_eq db (k :: t) rest cs 0 n h3 (by simp) (by simpa using e2)
        obtain ⟨cs0, hcs0⟩ := (lists_iff p.data).mpr ⟨k, t, hd, by rw [hd]; omega⟩
        constructor
        · intro cs h hk
          obtain ⟨ds, e1, e2, e3⟩ := (hkey cs ((hinst cs).mp h).2
            ({ RemoteNode.new with address := m.src.ip, port := m.src.port }.addProfile
              (Obj.newNodeProfile db))).1 hk
          rw [e1, Res.ok_bind]
          refine ⟨_, rfl, rfl, rfl, rfl, ?_, ?_, ?_⟩
          · show ([] ++ ds).map _ = _
            rw [List.nil_append]; exact e2
          · show ∀ o ∈ [] ++ ds, _
            rw [List.nil_append]; exact e3
          · show (([] ++ [Obj.newNodeProfile db]) ++ (cs.filter ofProfile).map
              (fun c => Obj.newProfileWithCode db (codeNumber c)) ++ [Obj.newNodeProfile db]).map _ = _
            rw [List.nil_append, List.map_append, List.map_append, List.map_map]
            simp only [List.map_cons, List.map_nil, nodeProfile_codes]
            congr 2
            rw [show cs.filter ofProfile = (cs.filter ofProfile).map id from (List.map_id _).symm,
              List.map_map]
            apply List.map_congr_left
            intro c hc
            exact profile_codes db c (((hinst cs).mp h).2.1 c (List.mem_filter.mp hc).1)
        · intro h
          refine ⟨.other, ?_⟩
          rw [(hkey cs0 hcs0 _).2 (fun hk => h ⟨cs0, (hinst cs0).mpr ⟨hcode', hcs0⟩, hk⟩)]
          rfl

/-- C47. A message that lists object codes whose device classes are in the database gives the node
it describes. -/
theorem C47_decoded (db : StdDB) (autoPort : Bool) (m : Message) (cs : List Bytes)
    (h : InstanceList m cs) (hk : Known db cs) :
    ∃ n, RemoteNode.ofInstanceListAndConfig db autoPort m = .ok n ∧
      Described db autoPort m.src cs n := by
  obtain ⟨n, e, hp, d⟩ := (ofInstanceList_eq db m).1 cs h hk
  unfold RemoteNode.ofInstanceListAndConfig
  rw [e, Res.ok_bind]
  cases autoPort with
  | false => exact ⟨_, rfl, d⟩
  | true => exact ⟨n, rfl, d.address, hp, d.devices, d.made, d.profiles⟩

/-- C47. Every other message is refused with an error (and no panic). -/
theorem C47_refused (db : StdDB) (autoPort : Bool) (m : Message)
    (h : ¬ ∃ cs, InstanceList m cs ∧ Known db cs) :
    ∃ e, RemoteNode.ofInstanceListAndConfig db autoPort m = .err e := by
  obtain ⟨e, he⟩ := (ofInstanceList_eq db m).2 h
  exact ⟨e, by unfold RemoteNode.ofInstanceListAndConfig; rw [he]; rfl⟩

/-- C47. What it means that a message lists nothing: no property, another first property, or too
little data. -/
theorem C47_reasons (m : Message) : (¬ ∃ cs, InstanceList m cs) ↔
    (m.opc = 0 ∨ (¬ ∃ p, m.ep[0]? = some (some p)) ∨
      ∃ p, m.ep[0]? = some (some p) ∧ ((p.code ≠ 0xD5 ∧ p.code ≠ 0xD6) ∨ p.data = [] ∨
        ∃ k t, p.data = k :: t ∧ p.data.length < k.toNat * 3 + 1)) := by
  constructor
  · intro h
    rcases Decidable.em (m.opc = 0) with h0 | h0
    · exact .inl h0
    refine .inr ?_
    rcases Classical.em (∃ p, m.ep[0]? = some (some p)) with ⟨p, hp⟩ | hp
    · refine .inr ⟨p, hp, ?_⟩
      rcases Decidable.em (p.code = 0xD5 ∨ p.code = 0xD6) with hc | hc
      · refine .inr ?_
        cases hd : p.data with
        | nil => exact .inl rfl
        | cons k t =>
          refine .inr ⟨k, t, rfl, ?_⟩
          rcases Nat.lt_or_ge (k :: t).length (k.toNat * 3 + 1) with hl | hl
          · exact hl
          · exfalso
            obtain ⟨cs, hcs⟩ := (lists_iff p.data).mpr ⟨k, t, hd, by rw [hd]; omega⟩
            exact h ⟨cs, h0, p, hp, hc, hcs⟩
      · exact .inl ⟨fun e => hc (.inl e), fun e => hc (.inr e)⟩
    · exact .inl hp
  · rintro h ⟨cs, h0, p, hp, hc, hl⟩
    rcases h with h | h | ⟨q, hq, h⟩
    · exact h0 h
    · exact h ⟨p, hp⟩
    · rw [hp] at hq
      injection hq with hq
      injection hq with hq
      subst hq
      obtain ⟨n, t, e, hle⟩ := (lists_iff p.data).mp ⟨cs, hl⟩
      rcases h with h | h | ⟨k, t', e', hlt⟩
      · rcases hc with hc | hc
        · exact h.1 hc
        · exact h.2 hc
      · rw [h] at e; cases e
      · rw [e] at e'
        injection e' with e' _
        subst e'
        omega

/-- C47. Decoding never panics. -/
theorem C47_no_panic (db : StdDB) (autoPort : Bool) (m : Message) :
    RemoteNode.ofInstanceListAndConfig db autoPort m ≠ .panic := by
  rcases Classical.em (∃ cs, InstanceList m cs ∧ Known db cs) with ⟨cs, h, hk⟩ | h
  · obtain ⟨n, e, -⟩ := C47_decoded db autoPort m cs h hk
    rw [e]; simp
  · obtain ⟨e, he⟩ := C47_refused db autoPort m h
    rw [he]; simp

/-- A notification of an instance list from `a`. -/
def listMessage (a : Addr) (d : Bytes) : Message :=
  { ((Message.new.setESV 0x73).setSEOJ 0x0EF001 |>.setDEOJ 0x0EF001 |>.addProperty
      (some ⟨0xD5, d⟩)) with src := a }

/-- Two air conditioners, a profile and one byte too many. -/
example : InstanceList (listMessage ⟨"10.0.0.2", 4000⟩ [3, 1, 0x30, 1, 0x0E, 0xF0, 1, 1, 0x30, 2, 9])
    [[1, 0x30, 1], [0x0E, 0xF0, 1], [1, 0x30, 2]] ∧
    Known stdDB [[1, 0x30, 1], [0x0E, 0xF0, 1], [1, 0x30, 2]] ∧
    (∃ n, RemoteNode.ofInstanceListAndConfig stdDB true
      (listMessage ⟨"10.0.0.2", 4000⟩ [3, 1, 0x30, 1, 0x0E, 0xF0, 1, 1, 0x30, 2, 9]) = .ok n ∧
      n.devices.map (·.codes) = [[1, 0x30, 1], [1, 0x30, 2]] ∧ n.port = 4000) := by
  have h : InstanceList (listMessage ⟨"10.0.0.2", 4000⟩ [3, 1, 0x30, 1, 0x0E, 0xF0, 1, 1, 0x30, 2, 9])
      [[1, 0x30, 1], [0x0E, 0xF0, 1], [1, 0x30, 2]] :=
    ⟨by decide, ⟨0xD5, _⟩, rfl, .inl rfl, by decide, 3, [9], rfl, rfl⟩
  have hk : Known stdDB [[1, 0x30, 1], [0x0E, 0xF0, 1], [1, 0x30, 2]] := by
    unfold Known; decide +kernel
  obtain ⟨n, e, d⟩ := C47_decoded stdDB true _ _ h hk
  exact ⟨h, hk, n, e, by rw [d.devices]; decide, d.port⟩

/-- An unknown class (0x0132) and a list cut short are refused. -/
example : ¬ Known stdDB [[1, 0x30, 1], [1, 0x32, 1]] ∧
    ¬ ∃ cs, InstanceList (listMessage ⟨"10.0.0.2", 4000⟩ [2, 1, 0x30, 1, 1, 0x30]) cs := by
  refine ⟨by unfold Known; decide +kernel, ?_⟩
  rw [C47_reasons]
  exact .inr (.inr ⟨⟨0xD5, _⟩, rfl, .inr (.inr ⟨2, _, rfl, by decide⟩)⟩)

/-! ## C44 -/

theorem equals_iff (a b : RemoteNode) :
    a.equals b = true ↔ a.address = b.address ∧ a.port = b.port := by
  unfold RemoteNode.equals
  by_cases h : a.port = b.port <;> by_cases h' : a.address = b.address <;> simp [h, h']

/-- The message comes from the controller itself, which is not to handle its own messages. -/
def Own (c : Ctrl) (m : Message) : Prop := c.node.selfMsg = false ∧ m.src ∈ c.servers

theorem own_iff (c : Ctrl) (m : Message) :
    (!c.node.selfMsg && c.isSelfMessage m) = true ↔ Own c m := by
  unfold Own Ctrl.isSelfMessage
  rw [Bool.and_eq_true, List.any_eq_true]
  constructor
  · rintro ⟨a, x, hx, h⟩
    refine ⟨by simpa using a, ?_⟩
    simp at h
    have : m.src = x := by
      cases hm : m.src; cases x
      rw [hm] at h
      simp_all
    rw [this]; exact hx
  · rintro ⟨a, b⟩
    exact ⟨by simp [a], m.src, b, by simp⟩

/-- `n` is a new node for the controller. -/
def Fresh (c : Ctrl) (n : RemoteNode) : Prop :=
  ∀ x ∈ c.found, ¬ (x.address = n.address ∧ x.port = n.port)

theorem addNode_cases (c : Ctrl) (n : RemoteNode) :
    (Fresh c n → c.addNode n = ({ c with found := c.found ++ [n] },
      if c.listener then [.newNode n] else [])) ∧
    (¬ Fresh c n → c.addNode n = (c, [])) := by
  have : c.found.any n.equals = true ↔ ¬ Fresh c n := by
    rw [List.any_eq_true]
    unfold Fresh
    constructor
    · rintro ⟨x, hx, h⟩ hf
      have := (equals_iff n x).mp h
      exact hf x hx ⟨this.1.symm, this.2.symm⟩
    · intro h
      refine Classical.byContradiction fun hn => h fun x hx hxn => hn ⟨x, hx, ?_⟩
      exact (equals_iff n x).mpr ⟨hxn.1.symm, hxn.2.symm⟩
  unfold Ctrl.addNode
  constructor
  · intro h
    rw [if_neg (fun h' => this.mp h' h)]
  · intro h
    rw [if_pos (this.mpr h)]

/-- The message tells the controller of the node `n`: it is a notification (INF, INFC) or the answer
to a read (Get_Res, SetGet_Res) for the node profile object and decodes to `n`. -/
def Announces (db : StdDB) (autoPort : Bool) (m : Message) (n : RemoteNode) : Prop :=
  (m.esv = 0x73 ∨ m.esv = 0x74 ∨ m.esv = 0x72 ∨ m.esv = 0x7E) ∧
  (m.getDEOJ = 0x0EF001 ∨ m.getDEOJ = 0x0EF002) ∧
  RemoteNode.ofInstanceListAndConfig db autoPort m = .ok n

theorem nodeProfileMessage_iff (m : Message) : Ctrl.isNodeProfileMessage m = true ↔
    (m.esv = 0x73 ∨ m.esv = 0x74 ∨ m.esv = 0x72 ∨ m.esv = 0x7E) ∧
    (m.getDEOJ = 0x0EF001 ∨ m.getDEOJ = 0x0EF002) := by
  have h1 : ∀ e : Byte, (!ESV.isNotification e && !ESV.isReadResponse e) = false ↔
      (e = 0x73 ∨ e = 0x74 ∨ e = 0x72 ∨ e = 0x7E) := by decide +kernel
  have h2 : Obj.isNodeProfileObjectCode m.getDEOJ = true ↔
      (m.getDEOJ = 0x0EF001 ∨ m.getDEOJ = 0x0EF002) := by
    unfold Obj.isNodeProfileObjectCode nodeProfileObjectCode nodeProfileObjectReadOnlyCode
    by_cases h : m.getDEOJ = 0x0EF001 <;> by_cases h' : m.getDEOJ = 0x0EF002 <;> simp [h, h']
  rw [← h1, ← h2]
  unfold Ctrl.isNodeProfileMessage
  cases (!ESV.isNotification m.esv && !ESV.isReadResponse m.esv) <;>
    cases Obj.isNodeProfileObjectCode m.getDEOJ <;> simp

/-- What `OnMessage` does. -/
theorem onMessage_cases (db : StdDB) (c : Ctrl) (m : Message) :
    (Own c m → c.onMessage db m = .ok (c, [])) ∧
    (¬ Own c m → (¬ ∃ n, Announces db c.autoPort m n ∧ Fresh c n) →
      c.onMessage db m = .ok (c, if c.listener then [.message m] else [])) ∧
    (¬ Own c m → ∀ n, Announces db c.autoPort m n → Fresh c n →
      c.onMessage db m = .ok ({ c with found := c.found ++ [n] },
        if c.listener then [.newNode n, .message m] else [])) := by
  unfold Ctrl.onMessage
  refine ⟨fun h => by rw [if_pos ((own_iff c m).mpr h)], fun h hn => ?_, fun h n hn hf => ?_⟩
  · rw [if_neg (fun h' => h ((own_iff c m).mp h'))]
    by_cases hp : Ctrl.isNodeProfileMessage m = true
    · rw [if_pos hp]
      unfold Ctrl.parseNodeProfileMessage
      rw [if_neg (fun h' => h ((own_iff c m).mp h'))]
      cases hx : RemoteNode.ofInstanceListAndConfig db c.autoPort m with
      | panic => exact absurd hx (C47_no_panic db c.autoPort m)
      | err e => rfl
      | ok n =>
        have : ¬ Fresh c n := fun hf => hn ⟨n, ⟨((nodeProfileMessage_iff m).mp hp).1,
          ((nodeProfileMessage_iff m).mp hp).2, hx⟩, hf⟩
        simp only
        rw [(addNode_cases c n).2 this]
        rfl
    · rw [if_neg hp]
      rfl
  · rw [if_neg (fun h' => h ((own_iff c m).mp h'))]
    rw [if_pos ((nodeProfileMessage_iff m).mpr ⟨hn.1, hn.2.1⟩)]
    unfold Ctrl.parseNodeProfileMessage
    rw [if_neg (fun h' => h ((own_iff c m).mp h')), hn.2.2]
    simp only
    rw [(addNode_cases c n).1 hf]
    simp only [Res.ok_bind]
    cases c.listener <;> rfl

/-- The controller handles the message: its node neither ignores nor rejects it, and it is not the
controller's own. -/
def Handles (c : Ctrl) (m : Message) : Prop := ¬ Ignored c.node m ∧ Accepts c.node m ∧ ¬ Own c m

/-- What a received message does to a controller. -/
theorem received_cases (db : StdDB) (e : Env) (c : Ctrl) (m : Message) :
    ∃ out, c.node.received (Ctrl.env e) db m = .ok out ∧
    (¬ Handles c m → c.received db e m = .ok ({ c with node := out.node }, [], out)) ∧
    (Handles c m → (¬ ∃ n, Announces db c.autoPort m n ∧ Fresh c n) →
      c.received db e m = .ok ({ c with node := out.node },
        (if c.listener then [.message m] else []), out)) ∧
    (Handles c m → ∀ n, Announces db c.autoPort m n → Fresh c n →
      c.received db e m = .ok ({ c with node := out.node, found := c.found ++ [n] },
        (if c.listener then [.newNode n, .message m] else []), out)) := by
  obtain ⟨h1, h2, h3⟩ := onMessage_cases db c m
  by_cases hi : Ignored c.node m
  · have hr : c.node.received (Ctrl.env e) db m = .ok ⟨c.node, [], [], false, none, none⟩ := by
      unfold Node.received
      rw [if_pos ((ignored_iff c.node m).mpr hi)]
    refine ⟨_, hr, fun _ => ?_, fun h => absurd hi h.1, fun h => absurd hi h.1⟩
    unfold Ctrl.received
    rw [hr]; rfl
  · obtain ⟨out, hr, ha, hn⟩ := C43_valid_partial (Ctrl.env e) db c.node m hi rfl
    refine ⟨out, hr, ?_⟩
    unfold Ctrl.received
    rw [hr]
    simp only [Res.ok_bind]
    by_cases hacc : Accepts c.node m
    · have hc : out.calls.contains (.message m) = true := by
        rw [List.contains_iff_mem]
        exact List.mem_of_mem_head? (by rw [(ha hacc).1]; rfl)
      rw [if_pos hc]
      by_cases ho : Own c m
      · rw [h1 ho]
        exact ⟨fun _ => rfl, fun h => absurd ho h.2.2, fun h => absurd ho h.2.2⟩
      · refine ⟨fun h => absurd ⟨hi, hacc, ho⟩ h, fun _ h => ?_, fun _ n h hf => ?_⟩
        · rw [h2 ho h]; rfl
        · rw [h3 ho n h hf]; rfl
    · have hc : out.calls.contains (.message m) = false := by
        rw [hn hacc]; rfl
      rw [if_neg (by rw [hc]; simp)]
      exact ⟨fun _ => rfl, fun h => absurd h.2.1 hacc, fun h => absurd h.2.1 hacc⟩

/-- An event other than `Start` and `Clear`. -/
def Keeps : CtrlOp → Prop
  | .start .. => False
  | .clear => False
  | _ => True

/-- What an event does to the nodes found, and which nodes are reported. -/
theorem step_found (db : StdDB) (c : Ctrl) (op : CtrlOp) (hk : Keeps op) :
    ((op.run db c).1.found = c.found ∧ reported (op.run db c).2 = []) ∨
    ∃ n, (op.run db c).1.found = c.found ++ [n] ∧ Fresh c n ∧
      reported (op.run db c).2 = if c.listener then [n] else [] := by
  cases op with
  | received e m =>
    obtain ⟨out, hr, h1, h2, h3⟩ := received_cases db e c m
    simp only [CtrlOp.run]
    by_cases hh : Handles c m
    · by_cases hn : ∃ n, Announces db c.autoPort m n ∧ Fresh c n
      · obtain ⟨n, ha, hf⟩ := hn
        rw [h3 hh n ha hf]
        refine .inr ⟨n, rfl, hf, ?_⟩
        dsimp only
        cases c.listener <;> rfl
      · rw [h2 hh hn]
        refine .inl ⟨rfl, ?_⟩
        dsimp only
        cases c.listener <;> rfl
    · rw [h1 hh]
      exact .inl ⟨rfl, rfl⟩
  | start => exact hk.elim
  | stop => exact .inl ⟨rfl, rfl⟩
  | clear => exact hk.elim
  | search => exact .inl ⟨rfl, rfl⟩
  | setListener b => exact .inl ⟨rfl, rfl⟩
  | configure s a => exact .inl ⟨rfl, rfl⟩
  | node op => exact .inl ⟨rfl, rfl⟩

theorem distinct_append {ns : List RemoteNode} {n : RemoteNode} (h : Distinct ns)
    (hf : ∀ x ∈ ns, ¬ (x.address = n.address ∧ x.port = n.port)) : Distinct (ns ++ [n]) := by
  unfold Distinct
  rw [List.pairwise_append]
  exact ⟨h, List.pairwise_singleton _ _, by simpa using hf⟩

/-- C44. Whatever happens to a controller, its nodes have different addresses or ports. -/
theorem C44_unique (db : StdDB) (ops : List CtrlOp) :
    Distinct (CtrlOp.runAll db (Ctrl.new db) ops).1.found := by
  suffices ∀ c : Ctrl, Distinct c.found → Distinct (CtrlOp.runAll db c ops).1.found from
    this _ List.Pairwise.nil
  induction ops with
  | nil => intro c h; exact h
  | cons op ops ih =>
    intro c h
    show Distinct (CtrlOp.runAll db (op.run db c).1 ops).1.found
    refine ih (op.run db c).1 ?_
    by_cases hk : Keeps op
    · rcases step_found db c op hk with ⟨e, -⟩ | ⟨n, e, hf, -⟩
      · rw [e]; exact h
      · rw [e]; exact distinct_append h hf
    · cases op with
      | start => exact List.Pairwise.nil
      | clear => exact List.Pairwise.nil
      | _ => exact absurd trivial hk

/-! ## C46 -/

/-- The listener of the controller is not replaced. -/
def KeepsListener : CtrlOp → Prop
  | .setListener _ => False
  | _ => True

theorem step_listener (db : StdDB) (c : Ctrl) (op : CtrlOp) (h : KeepsListener op) :
    (op.run db c).1.listener = c.listener := by
  cases op with
  | received e m =>
    obtain ⟨out, hr, h1, h2, h3⟩ := received_cases db e c m
    simp only [CtrlOp.run]
    by_cases hh : Handles c m
    · by_cases hn : ∃ n, Announces db c.autoPort m n ∧ Fresh c n
      · obtain ⟨n, ha, hf⟩ := hn
        rw [h3 hh n ha hf]
      · rw [h2 hh hn]
    · rw [h1 hh]
  | setListener b => exact h.elim
  | _ => rfl

/-- C46. After a start (or `Clear`), up to the next one, the nodes reported to the listener are
exactly those the controller holds, each once and in the order of discovery. -/
theorem C46_reported (db : StdDB) (c : Ctrl) (op : CtrlOp) (hop : ¬ Keeps op) (ops : List CtrlOp)
    (hl : c.listener = true) (hk : ∀ op ∈ ops, Keeps op ∧ KeepsListener op) :
    reported (CtrlOp.runAll db c (op :: ops)).2 = (CtrlOp.runAll db c (op :: ops)).1.found ∧
    (reported (CtrlOp.runAll db c (op :: ops)).2).Nodup := by
  have key : ∀ (ops : List CtrlOp) (c : Ctrl), c.listener = true →
      (∀ op ∈ ops, Keeps op ∧ KeepsListener op) →
      (CtrlOp.runAll db c ops).1.found = c.found ++ reported (CtrlOp.runAll db c ops).2 ∧
      (Distinct c.found → Distinct (CtrlOp.runAll db c ops).1.found) := by
    intro ops
    induction ops with
    | nil => intro c _ _; exact ⟨by simp [CtrlOp.runAll, reported], id⟩
    | cons op ops ih =>
      intro c hl hk
      obtain ⟨k1, k2⟩ := hk op (List.mem_cons_self ..)
      have hl' : (op.run db c).1.listener = true := by rw [step_listener db c op k2]; exact hl
      obtain ⟨i1, i2⟩ := ih (op.run db c).1 hl' (fun x hx => hk x (List.mem_cons_of_mem _ hx))
      have hrep : reported (CtrlOp.runAll db c (op :: ops)).2 = reported (op.run db c).2 ++
          reported (CtrlOp.runAll db (op.run db c).1 ops).2 := by
        unfold reported
        rw [← List.filterMap_append]; rfl
      rw [hrep]
      show (CtrlOp.runAll db (op.run db c).1 ops).1.found = _ ∧
        (_ → Distinct (CtrlOp.runAll db (op.run db c).1 ops).1.found)
      rcases step_found db c op k1 with ⟨e, r⟩ | ⟨n, e, hf, r⟩
      · rw [i1, e, r]
        refine ⟨by simp, fun h => ?_⟩
        rw [e] at i2 i1
        rw [← i1]; exact i2 h
      · rw [hl] at r
        refine ⟨by rw [i1, e, r]; simp, fun h => i2 ?_⟩
        rw [e]; exact distinct_append h hf
  have hs : (op.run db c).1.found = [] ∧ (op.run db c).1.listener = true ∧ (op.run db c).2 = [] := by
    cases op with
    | start => exact ⟨rfl, hl, rfl⟩
    | clear => exact ⟨rfl, hl, rfl⟩
    | _ => exact absurd trivial hop
  obtain ⟨k1, k2⟩ := key ops (op.run db c).1 hs.2.1 hk
  rw [hs.1, List.nil_append] at k1
  have e2 : (CtrlOp.runAll db c (op :: ops)).2 = (CtrlOp.runAll db (op.run db c).1 ops).2 := by
    show (op.run db c).2 ++ (CtrlOp.runAll db (op.run db c).1 ops).2 = _
    rw [hs.2.2, List.nil_append]
  have e1 : (CtrlOp.runAll db c (op :: ops)).1 = (CtrlOp.runAll db (op.run db c).1 ops).1 := rfl
  rw [e2, e1, ← k1]
  refine ⟨rfl, ?_⟩
  have := k2 (by rw [hs.1]; exact List.Pairwise.nil)
  exact this.imp (fun {a b} hab e => hab (by rw [e]; exact ⟨rfl, rfl⟩))

/-- C46. A message the controller handles is passed to the listener exactly once, after a node it
makes known has been reported; any other message is not passed on. -/
theorem C46_passed (db : StdDB) (e : Env) (c : Ctrl) (m : Message) (hl : c.listener = true) :
    (Handles c m → passed ((CtrlOp.received e m).run db c).2 = [m] ∧
      ((CtrlOp.received e m).run db c).2.getLast? = some (.message m)) ∧
    (¬ Handles c m → ((CtrlOp.received e m).run db c).2 = []) := by
  obtain ⟨out, hr, h1, h2, h3⟩ := received_cases db e c m
  simp only [CtrlOp.run]
  constructor
  · intro hh
    by_cases hn : ∃ n, Announces db c.autoPort m n ∧ Fresh c n
    · obtain ⟨n, ha, hf⟩ := hn
      rw [h3 hh n ha hf, hl]
      exact ⟨rfl, rfl⟩
    · rw [h2 hh hn, hl]
      exact ⟨rfl, rfl⟩
  · intro hh
    rw [h1 hh]

/-- C46. No other event passes a message on. -/
theorem C46_only_received (db : StdDB) (c : Ctrl) (op : CtrlOp) (h : ∀ e m, op ≠ .received e m) :
    (op.run db c).2 = [] := by
  cases op with
  | received e m => exact absurd rfl (h e m)
  | _ => rfl

/-- C46. A new controller has no listener: whatever happens before one is set, no call is made. -/
theorem C46_no_listener (db : StdDB) (ops : List CtrlOp) (h : ∀ op ∈ ops, op ≠ .setListener true) :
    (CtrlOp.runAll db (Ctrl.new db) ops).2 = [] := by
  have key : ∀ (ops : List CtrlOp) (c : Ctrl), c.listener = false → (∀ op ∈ ops, op ≠ .setListener true) →
      (CtrlOp.runAll db c ops).2 = [] := by
    intro ops
    induction ops with
    | nil => intro c _ _; rfl
    | cons op ops ih =>
      intro c hc hop
      have hl : (op.run db c).1.listener = false := by
        cases op with
        | setListener b =>
          cases b with
          | false => rfl
          | true => exact absurd rfl (hop _ List.mem_cons_self)
        | _ => rw [step_listener db c _ (by trivial)]; exact hc
      have h2 : (op.run db c).2 = [] := by
        cases op with
        | received e m =>
          obtain ⟨out, hr, h1, h2, h3⟩ := received_cases db e c m
          simp only [hc, Bool.false_eq_true, if_false] at h2 h3
          simp only [CtrlOp.run]
          by_cases hh : Handles c m
          · by_cases hn : ∃ n, Announces db c.autoPort m n ∧ Fresh c n
            · obtain ⟨n, hn, hf⟩ := hn
              rw [h3 hh n hn hf]
            · rw [h2 hh hn]
          · rw [h1 hh]
        | _ => rfl
      show (op.run db c).2 ++ (CtrlOp.runAll db (op.run db c).1 ops).2 = []
      rw [h2, ih _ hl (fun op ho => hop op (List.mem_cons_of_mem _ ho))]
      rfl
  exact key ops _ rfl h

/-- The hypotheses of `C46_reported`: a controller with a listener is started, hears of two nodes, of one of them
twice, and tells the listener of each once. -/
example : let ops : List CtrlOp := [.received ⟨false, fun _ => false, fun _ => false, fun _ _ _ => ([], none)⟩ (listMessage ⟨"10.0.0.2", 3610⟩ [1, 1, 0x30, 1]),
      .received ⟨false, fun _ => false, fun _ => false, fun _ _ _ => ([], none)⟩ (listMessage ⟨"10.0.0.3", 3610⟩ [1, 1, 0x30, 1]),
      .received ⟨false, fun _ => false, fun _ => false, fun _ _ _ => ([], none)⟩ (listMessage ⟨"10.0.0.2", 3610⟩ [1, 1, 0x30, 1])]
    let c := (CtrlOp.runAll stdDB (Ctrl.new stdDB) [.setListener true]).1
    c.listener = true ∧ (∀ op ∈ ops, Keeps op ∧ KeepsListener op) ∧
    (reported (CtrlOp.runAll stdDB c (.start (some (true, ⟨"10.0.0.9", 3610⟩)) true [] :: ops)).2).map (·.address) =
      ["10.0.0.2", "10.0.0.3"] := by
  refine ⟨rfl, ?_, by decide +kernel⟩
  intro op hop
  simp only [List.mem_cons, List.not_mem_nil, or_false] at hop
  rcases hop with rfl | rfl | rfl <;> exact ⟨trivial, trivial⟩

end Verif.Props
