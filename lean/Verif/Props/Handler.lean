import Verif.Lemmas.Handler
import Verif.Props.Announce

/-! # C32–C40, C42, C43: handling of received messages -/

namespace Verif.Props
open Verif Model Spec Lemmas

/-- Self messages are disabled and the message comes from the node's own address and port. -/
def Ignored (n : Node) (m : Message) : Prop := n.selfMsg = false ∧ m.src = n.addr

theorem ignored_iff (n : Node) (m : Message) :
    (!n.selfMsg && n.isSelfMessage m) = true ↔ Ignored n m := by
  unfold Ignored Node.isSelfMessage
  have e : m.src = n.addr ↔ m.src.port = n.addr.port ∧ m.src.ip = n.addr.ip := by
    generalize m.src = a
    generalize n.addr = b
    cases a; cases b; simp [and_comm]
  rw [e]
  by_cases h1 : m.src.port = n.addr.port <;> by_cases h2 : m.src.ip = n.addr.ip <;> simp [h1, h2]

/-- A node with one small device: a readable and writable property 0x80 and a readable 0xB0. -/
def smallNode : Node :=
  { Node.initial with devices := [⟨"", "", [0x01, 0x30, 0x01],
      [⟨"", 0x80, [0x30], 1, 1, 0⟩, ⟨"", 0xB0, [0x41], 1, 0, 0⟩]⟩] }

/-- No callbacks. -/
def noEnv : Env := ⟨false, fun _ => false, fun _ => false, fun _ _ _ => ([], none)⟩

/-- A program with a listener on every object that answers a write request by storing the data, and
refuses requests concerning the property 0xB0. -/
def storingEnv : Env := ⟨true, fun _ => true, fun _ => false, fun _ _ c => match c with
  | .request r e p =>
    if p.code = 0xB0 then ([], some .other)
    else if e = 0x61 then ([.obj r (.write p.code p.data)], none) else ([], none)
  | _ => ([], none)⟩

/-- A request to the device of `smallNode`. -/
def request (e : Byte) (ps : List PProp) : Message :=
  (((Message.new.setTID 7).setSEOJ 0x05FF01).setDEOJ 0x013001 |>.setESV e).addProperties (ps.map some)

/-- C32. The node accepts a message exactly when it should. -/
theorem C32_acceptance (n : Node) (m : Message) : n.validateReceivedMessage m = true ↔ Accepts n m :=
  validate_iff n m

example : Accepts smallNode (request 0x61 [⟨0x80, [0x31]⟩]) ∧ Accepts smallNode (request 0x62 [⟨0x80, []⟩, ⟨0xB0, []⟩]) ∧
    ¬ Accepts smallNode (request 0x61 [⟨0x80, [0x31, 0x32]⟩]) ∧ ¬ Accepts smallNode (request 0x61 [⟨0xB0, [0x31]⟩]) ∧
    ¬ Accepts smallNode (request 0x62 [⟨0x81, []⟩]) := by
  simp only [← validate_iff]
  decide +kernel

theorem received_rejected (env : Env) (db : StdDB) (n : Node) (m : Message) (hi : ¬ Ignored n m)
    (ha : ¬ Accepts n m) : ∃ r, m.newImpossible = .ok r ∧
      n.received env db m = .ok ⟨n, [], [], n.isResponseMessage m, some r, none⟩ := by
  refine ⟨_, newImpossible_eq m, ?_⟩
  unfold Node.received
  rw [if_neg (fun h => hi ((ignored_iff n m).mp h))]
  dsimp only
  rw [if_pos (by simpa [Bool.not_eq_true] using (fun h => ha ((validate_iff n m).mp h))), newImpossible_eq]
  rfl

/-- What handling an accepted message amounts to. -/
theorem received_accepted (env : Env) (db : StdDB) (n : Node) (m : Message) (hi : ¬ Ignored n m)
    (ha : Accepts n m) (r : ObjRef) (o : Obj) (ho : Addressed n m.getDEOJ r o) :
    ∃ out rs, n.received env db m = .ok out ∧ out.calls = expectedCalls env r m ∧
      Effects env db n [] out.calls out.node out.sent rs ∧
      out.delivered = n.isResponseMessage m ∧
      (¬ NoErr rs → out.reply = none ∧ out.error ≠ none) ∧
      (NoErr rs → ESV.isResponseRequired m.esv = false → out.reply = none ∧ out.error = none) ∧
      (NoErr rs → ESV.isResponseRequired m.esv = true →
        out.reply = (out.node.createResponse m).1 ∧ out.error = (out.node.createResponse m).2) := by
  obtain ⟨rs, ⟨h1, ms, h2, h3⟩, h4⟩ := execute_ran env db m ⟨n, [], []⟩ r o ho
  unfold Node.received
  rw [if_neg (fun h => hi ((ignored_iff n m).mp h))]
  dsimp only
  rw [if_neg (by simp [(validate_iff n m).mpr ha])]
  simp only [List.nil_append] at h1 h2
  cases hx : Node.executeMessageListeners env db m ⟨n, [], []⟩ with
  | mk s e =>
    rw [hx] at h1 h2 h3 h4
    dsimp only at h1 h2 h3 h4
    rw [← h1, ← h2] at h3
    cases e with
    | some e =>
      have hne : ¬ NoErr rs := fun h => by cases h4.mpr h
      exact ⟨_, rs, rfl, h1, h3, rfl, fun _ => ⟨rfl, by simp⟩, fun h => absurd h hne,
        fun h => absurd h hne⟩
    | none =>
      have hne : NoErr rs := h4.mp rfl
      cases hr : m.esv.isResponseRequired with
      | false =>
        exact ⟨_, rs, rfl, h1, h3, rfl, fun h => absurd hne h, fun _ _ => ⟨rfl, rfl⟩,
          (fun _ h => by cases h)⟩
      | true =>
        exact ⟨_, rs, rfl, h1, h3, rfl, fun h => absurd hne h, (fun _ h => by cases h),
          fun _ _ => ⟨rfl, rfl⟩⟩

/-- C33. A rejected message calls nothing and changes nothing; the reply is the error response. -/
theorem C33_rejected (env : Env) (db : StdDB) (n : Node) (m : Message) (hm : Built m)
    (hi : ¬ Ignored n m) (ha : ¬ Accepts n m) :
    ∃ out r, n.received env db m = .ok out ∧ out.node = n ∧ out.calls = [] ∧ out.sent = [] ∧
      out.reply = some r ∧ out.error = none ∧ r.getTID = m.getTID ∧ r.getSEOJ = m.getDEOJ ∧
      r.getDEOJ = m.getSEOJ ∧ r.esv = specRefusal m.esv := by
  obtain ⟨r, h1, h2⟩ := received_rejected env db n m hi ha
  obtain ⟨r', k1, k2, k3, k4, k5, -⟩ := C16_header_partial m hm
  rw [h1] at k1
  cases k1
  exact ⟨_, r, h2, rfl, rfl, rfl, rfl, rfl, k2, k3, k4, k5⟩

/-- C34. An accepted message reaches the node listener once, then for each property in message
order the listener and the request handler of the addressed object once, with the service and the
property received; nothing else is called. -/
theorem C34_handlers (env : Env) (db : StdDB) (n : Node) (m : Message) (hi : ¬ Ignored n m)
    (ha : Accepts n m) (r : ObjRef) (o : Obj) (ho : Addressed n m.getDEOJ r o) :
    ∃ out, n.received env db m = .ok out ∧ out.calls = expectedCalls env r m := by
  obtain ⟨out, rs, h1, h2, -⟩ := received_accepted env db n m hi ha r o ho
  exact ⟨out, h1, h2⟩

/-! ## C35–C37: replies -/

/-- `rs` are the results of the callbacks called while the message was handled. -/
def Results (env : Env) (db : StdDB) (n : Node) (out : Outcome) (rs : List (Option Err)) : Prop :=
  Effects env db n [] out.calls out.node out.sent rs

theorem effects_unique {env : Env} {db : StdDB} {n n1 n2 : Node} {done cs : List Call}
    {ms1 ms2 : List Sent} {rs1 rs2 : List (Option Err)} (h1 : Effects env db n done cs n1 ms1 rs1)
    (h2 : Effects env db n done cs n2 ms2 rs2) : n1 = n2 ∧ ms1 = ms2 ∧ rs1 = rs2 := by
  induction h1 generalizing n2 ms2 rs2 with
  | nil => cases h2; exact ⟨rfl, rfl, rfl⟩
  | cons _ ih =>
    cases h2 with
    | cons h2 =>
      obtain ⟨rfl, rfl, rfl⟩ := ih h2
      exact ⟨rfl, rfl, rfl⟩

/-- The properties of a reply: those requested that the object has, with its current data. -/
def replyProps (o : Obj) (ps : List PProp) : List PProp :=
  ps.filterMap (fun p => (o.props.lookup p.code).map (fun q => ⟨p.code, q.data⟩))

theorem addAll_eq (o : Obj) (ps : List PProp) (m : Message) (f : Message → PProp → Message)
    (hf : ∀ res p, f res p = (match o.props.lookup p.code with
        | none => res
        | some prop => res.addProperty (some prop.toProtocol))) :
    ps.foldl f m
      = { m with ep := m.ep ++ (replyProps o ps).map some,
                 opc := m.opc + BitVec.ofNat 8 (replyProps o ps).length } := by
  induction ps generalizing m with
  | nil => simp [replyProps]
  | cons p ps ih =>
    rw [List.foldl_cons, ih, hf]
    unfold replyProps
    rw [List.filterMap_cons]
    cases h : o.props.lookup p.code with
    | none => rfl
    | some q =>
      have hq : q.toProtocol = ⟨p.code, q.data⟩ := by
        rw [← lookup_code h]; rfl
      simp only [Option.map_some, Message.addProperty, hq, List.map_cons, List.append_assoc,
        List.singleton_append, List.length_cons]
      congr 1
      rw [BitVec.add_assoc]
      congr 1
      apply BitVec.eq_of_toNat_eq
      simp [BitVec.toNat_add]
      omega

theorem properties_length (m : Message) : (properties m).length ≤ 255 := by
  unfold properties
  have h1 := List.length_filterMap_le id (m.ep.take m.opc.toNat)
  have h2 : (m.ep.take m.opc.toNat).length ≤ m.opc.toNat := by simp; omega
  have := m.opc.isLt
  omega

/-- C35. If no callback reports an error and the service asks for a response, the reply keeps the
TID, swaps the objects, carries the response code the specification pairs with the service, and
holds in request order each requested property the object has, with its data after all callbacks
ran (`o'` is the addressed object then). -/
theorem C35_response (env : Env) (db : StdDB) (n : Node) (m : Message) (hm : Built m)
    (hi : ¬ Ignored n m) (ha : Accepts n m) (out : Outcome) (hout : n.received env db m = .ok out)
    (rs : List (Option Err)) (hrs : Results env db n out rs) (hne : ∀ e ∈ rs, e = none)
    (s : Esv.Service) (hs : s ∈ Esv.table) (hc : s.code = m.esv) (code : Byte)
    (hr : s.reply = some code)
    (r' : ObjRef) (o' : Obj) (ho' : Addressed out.node m.getDEOJ r' o') :
    ∃ res, out.reply = some res ∧ out.error = none ∧ res.getTID = m.getTID ∧
      res.getSEOJ = m.getDEOJ ∧ res.getDEOJ = m.getSEOJ ∧ res.esv = code ∧
      res.getOPC = (replyProps o' (properties m)).length ∧
      res.ep = (replyProps o' (properties m)).map some := by
  obtain ⟨r, o, ho, -⟩ := id ha
  obtain ⟨out', rs', h1, h2, h3, -, -, -, h5⟩ := received_accepted env db n m hi ha r o ho
  rw [hout] at h1
  cases h1
  obtain ⟨-, -, rfl⟩ := effects_unique hrs h3
  have hreq : m.esv.isResponseRequired = true :=
    (C14_required m.esv).mpr ⟨s, hs, hc, by rw [hr]; simp⟩
  obtain ⟨e1, e2⟩ := h5 hne hreq
  have hcode : specReply m.esv = code := by
    have : ∀ s ∈ Esv.table, ∀ c, s.reply = some c → specReply s.code = c := by
      have : ∀ s ∈ Esv.table, s.reply ≠ none → some (specReply s.code) = s.reply := by decide +kernel
      intro s hs c hc
      have := this s hs (by rw [hc]; simp)
      rw [hc] at this
      exact Option.some.inj this
    rw [← hc]; exact this s hs code hr
  obtain ⟨q1, q2, q3, q4, q5, q6, -⟩ := C15_response m hm
  have hcr : out.node.createResponse m = (some { m.newResponse with
      ep := (replyProps o' (properties m)).map some,
      opc := BitVec.ofNat 8 (replyProps o' (properties m)).length }, none) := by
    unfold Node.createResponse
    obtain ⟨a, b⟩ := addressed_lookup ho'
    rw [a]
    simp only [b]
    rw [requested_eq]
    refine (congrArg (fun x => (some x, none)) (addAll_eq o' _ _ _ (fun res p => by
      cases o'.props.lookup p.code <;> rfl))).trans ?_
    rw [q6]
    have : m.newResponse.opc = 0 := BitVec.eq_of_toNat_eq q5
    rw [this]
    simp
  rw [hcr] at e1 e2
  refine ⟨_, e1, e2, q1, q2, q3, q4.trans hcode, ?_, rfl⟩
  have hl := List.length_filterMap_le
    (fun p : PProp => (o'.props.lookup p.code).map (fun q => (⟨p.code, q.data⟩ : PProp))) (properties m)
  have := properties_length m
  show (BitVec.ofNat 8 (replyProps o' (properties m)).length).toNat = _
  rw [BitVec.toNat_ofNat, Nat.mod_eq_of_lt]
  unfold replyProps
  omega

/-- C36. There is no reply to an accepted message whose service asks for none. -/
theorem C36_no_reply (env : Env) (db : StdDB) (n : Node) (m : Message) (hi : ¬ Ignored n m)
    (ha : Accepts n m) (hs : ∀ s ∈ Esv.table, s.code = m.esv → s.reply = none) :
    ∃ out, n.received env db m = .ok out ∧ out.reply = none := by
  obtain ⟨r, o, ho, -⟩ := id ha
  obtain ⟨out, rs, h1, h2, h3, -, h4, h5, -⟩ := received_accepted env db n m hi ha r o ho
  refine ⟨out, h1, ?_⟩
  by_cases hne : NoErr rs
  · apply (h5 hne _).1
    rw [← Bool.not_eq_true, C14_required]
    rintro ⟨s, a, b, c⟩
    exact c (hs s a b)
  · exact (h4 hne).1

/-- C36, C37. If any callback reports an error, whichever property it concerns, there is no
reply. -/
theorem C37_error (env : Env) (db : StdDB) (n : Node) (m : Message) (hi : ¬ Ignored n m)
    (ha : Accepts n m) (out : Outcome) (hout : n.received env db m = .ok out)
    (rs : List (Option Err)) (hrs : Results env db n out rs) (e : Err) (he : some e ∈ rs) :
    out.reply = none ∧ out.error ≠ none := by
  obtain ⟨r, o, ho, -⟩ := id ha
  obtain ⟨out', rs', h1, h2, h3, -, h4, -, -⟩ := received_accepted env db n m hi ha r o ho
  rw [hout] at h1
  cases h1
  obtain ⟨-, -, rfl⟩ := effects_unique hrs h3
  exact h4 (fun h => by cases h _ he)

/-- What is observable of handling a message. -/
def observe (x : Res Outcome) : Option (List Call × Option (Byte × List (Option PProp))) :=
  match x with
  | .ok out => some (out.calls, out.reply.map (fun r => (r.esv, r.ep)))
  | _ => none

/-- A write request that the object listener carries out: the reply has the new data. -/
example : observe (smallNode.received storingEnv stdDB (request 0x61 [⟨0x80, [0x31]⟩]))
    = some ([.message (request 0x61 [⟨0x80, [0x31]⟩]), .request (.device 0) 0x61 ⟨0x80, [0x31]⟩],
      some (0x71, [some ⟨0x80, [0x31]⟩])) := by decide +kernel

/-- A read request for two properties, of which the listener refuses the first: no reply. -/
example : observe (smallNode.received storingEnv stdDB (request 0x62 [⟨0xB0, []⟩, ⟨0x80, []⟩]))
    = some ([.message (request 0x62 [⟨0xB0, []⟩, ⟨0x80, []⟩]), .request (.device 0) 0x62 ⟨0xB0, []⟩,
      .request (.device 0) 0x62 ⟨0x80, []⟩], none) := by decide +kernel

/-- A write request of the wrong size: nothing is called. -/
example : observe (smallNode.received storingEnv stdDB (request 0x61 [⟨0x80, [0x31, 0x32]⟩]))
    = some ([], some (0x51, [some ⟨0, []⟩, some ⟨0, []⟩])) := by decide +kernel

/-- A notification: no reply. -/
example : observe (smallNode.received storingEnv stdDB (request 0x73 [⟨0x80, [0x31]⟩]))
    = some ([.message (request 0x73 [⟨0x80, [0x31]⟩]), .request (.device 0) 0x73 ⟨0x80, [0x31]⟩],
      none) := by decide +kernel

/-! ## C39, C42, C43 -/

/-- C39. Handling a message changes the node and sends messages only through the callbacks: the
node afterwards is what the calls made by them, one after the other, make of it. -/
theorem C39_only_callbacks (env : Env) (db : StdDB) (n : Node) (m : Message) :
    ∃ out rs, n.received env db m = .ok out ∧ Results env db n out rs := by
  by_cases hi : Ignored n m
  · refine ⟨⟨n, [], [], false, none, none⟩, [], ?_, .nil _ _⟩
    unfold Node.received
    rw [if_pos ((ignored_iff n m).mpr hi)]
  · by_cases ha : Accepts n m
    · obtain ⟨r, o, ho, -⟩ := id ha
      obtain ⟨out, rs, h1, -, h3, -⟩ := received_accepted env db n m hi ha r o ho
      exact ⟨out, rs, h1, h3⟩
    · obtain ⟨r, -, h2⟩ := received_rejected env db n m hi ha
      exact ⟨_, [], h2, .nil _ _⟩

/-- C39. Without callbacks, or with callbacks that make no calls on the node, the node is
unchanged, whatever is received (in particular a write request). -/
theorem C39_unchanged (env : Env) (db : StdDB) (n : Node) (m : Message)
    (henv : (env.listener = false ∧ (∀ r, env.objListener r = false ∧ env.reqHandler r = false)) ∨
      ∀ n cs c, (env.behave n cs c).1 = []) :
    ∃ out, n.received env db m = .ok out ∧ out.node = n ∧ out.sent = [] := by
  obtain ⟨out, rs, h1, h2⟩ := C39_only_callbacks env db n m
  refine ⟨out, h1, ?_⟩
  rcases henv with ⟨hl, ho⟩ | hb
  · by_cases hi : Ignored n m
    · unfold Node.received at h1
      rw [if_pos ((ignored_iff n m).mpr hi)] at h1
      cases h1; exact ⟨rfl, rfl⟩
    · by_cases ha : Accepts n m
      · obtain ⟨r, o, hr, -⟩ := id ha
        obtain ⟨out', rs', k1, k2, -⟩ := received_accepted env db n m hi ha r o hr
        rw [h1] at k1
        cases k1
        have : out.calls = [] := by
          rw [k2]
          unfold expectedCalls
          rw [hl, (ho r).1, (ho r).2]
          simp
        unfold Results at h2
        rw [this] at h2
        generalize out.node = x at h2 ⊢
        generalize out.sent = y at h2 ⊢
        cases h2
        exact ⟨rfl, rfl⟩
      · obtain ⟨r, -, k⟩ := received_rejected env db n m hi ha
        rw [h1] at k
        cases k; exact ⟨rfl, rfl⟩
  · have : ∀ {n done cs n' ms rs}, Effects env db n done cs n' ms rs → n' = n ∧ ms = [] := by
      intro n done cs n' ms rs h
      induction h with
      | nil => exact ⟨rfl, rfl⟩
      | cons _ ih =>
        rw [hb] at ih
        rw [hb]
        obtain ⟨a, b⟩ := ih
        exact ⟨a, by rw [b]; rfl⟩
    exact this h2

example : ∃ out, smallNode.received noEnv stdDB (request 0x61 [⟨0x80, [0x31]⟩]) = .ok out ∧ out.node = smallNode ∧
    out.sent = [] := C39_unchanged _ _ _ _ (.inl ⟨rfl, fun _ => ⟨rfl, rfl⟩⟩)

/-- C42. With self messages disabled, a message from the node's own address and port has no effect
at all: no callback, no reply, nothing sent, no change, and no pending request gets it. -/
theorem C42_own_messages (env : Env) (db : StdDB) (n : Node) (m : Message) (hs : n.selfMsg = false)
    (hm : m.src = n.addr) :
    n.received env db m = .ok ⟨n, [], [], false, none, none⟩ := by
  unfold Node.received
  rw [if_pos ((ignored_iff n m).mpr ⟨hs, hm⟩)]

example : let m := { request 0x62 [⟨0x80, []⟩] with src := smallNode.addr }
    (observe (Node.received storingEnv stdDB { smallNode with selfMsg := false } m)) = some ([], none) ∧
    (observe (smallNode.received storingEnv stdDB m)).isSome := by decide +kernel

/-- C42. Every other message is handled. -/
theorem C42_others (env : Env) (db : StdDB) (n : Node) (m : Message)
    (h : n.selfMsg = true ∨ m.src ≠ n.addr) : ∃ out, n.received env db m = .ok out ∧
      out.delivered = n.isResponseMessage m := by
  have hi : ¬ Ignored n m := by
    rintro ⟨a, b⟩
    rcases h with h | h
    · rw [a] at h; cases h
    · exact h b
  by_cases ha : Accepts n m
  · obtain ⟨r, o, ho, -⟩ := id ha
    obtain ⟨out, rs, h1, -, -, h4, -⟩ := received_accepted env db n m hi ha r o ho
    exact ⟨out, h1, h4⟩
  · obtain ⟨r, -, h2⟩ := received_rejected env db n m hi ha
    exact ⟨_, h2, rfl⟩

/-- C43, the part that holds: the node listener gets every valid message exactly once and first;
the object callbacks get valid messages only. Missing: the listener should get invalid messages
too (`C43_refuted`). -/
theorem C43_valid_partial (env : Env) (db : StdDB) (n : Node) (m : Message) (hi : ¬ Ignored n m)
    (hl : env.listener = true) :
    ∃ out, n.received env db m = .ok out ∧
      (Accepts n m → out.calls.head? = some (.message m) ∧ out.calls.count (.message m) = 1) ∧
      (¬ Accepts n m → out.calls = []) := by
  by_cases ha : Accepts n m
  · obtain ⟨r, o, ho, -⟩ := id ha
    obtain ⟨out, rs, h1, h2, -⟩ := received_accepted env db n m hi ha r o ho
    refine ⟨out, h1, fun _ => ?_, fun h => absurd ha h⟩
    rw [h2]
    unfold expectedCalls
    rw [hl]
    refine ⟨rfl, ?_⟩
    simp only [if_true, List.singleton_append, List.count_cons_self]
    have : List.count (Call.message m) ((properties m).flatMap (fun p =>
        (if env.objListener r then [.request r m.esv p] else []) ++
        (if env.reqHandler r then [.handler r m.esv p] else []))) = 0 := by
      rw [List.count_eq_zero]
      intro hmem
      rw [List.mem_flatMap] at hmem
      obtain ⟨p, -, hp⟩ := hmem
      rw [List.mem_append] at hp
      rcases hp with hp | hp
      · split at hp <;> simp at hp
      · split at hp <;> simp at hp
    omega
  · obtain ⟨r, -, h2⟩ := received_rejected env db n m hi ha
    exact ⟨_, h2, fun h => absurd h ha, fun _ => rfl⟩

end Verif.Props
