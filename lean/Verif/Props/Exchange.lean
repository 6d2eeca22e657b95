import Verif.Props.Handler

/-! # C38, C40, C43: exchanges between nodes -/

namespace Verif.Props
open Verif Model Spec Lemmas

/-! ## C38 -/

/-- Any message with the usual header arrives with its header fields intact. -/
theorem arrives {r : Message} (h : WF r) (h1 : r.ehd1 = 0x10) (h2 : r.ehd2 = 0x81) :
    ∃ d, Message.newWithBytes r.bytes = .ok d ∧ d.tid = r.tid ∧ d.seoj = r.seoj ∧ d.deoj = r.deoj ∧
      d.esv = r.esv ∧ d.opc = r.opc := by
  obtain ⟨e1, e2, tid, seoj, deoj, esv, opc, ep, src, pk, ifc⟩ := r
  dsimp only at h1 h2
  subst h1 h2
  have ht := h.tid
  have hs := h.seoj
  have hd := h.deoj
  rw [bytes_eq h]
  dsimp only at ht hs hd
  match tid, ht, seoj, hs, deoj, hd with
  | [t0, t1], _, [s0, s1, s2], _, [d0, d1, d2], _ =>
    refine ⟨_, newWithBytes_cons t0 t1 s0 s1 s2 d0 d1 d2 esv opc _, rfl, rfl, rfl, rfl, rfl⟩

/-- Two nodes, each with the callbacks of its program and the address it sends from. -/
structure Party where
  env : Env
  node : Node
  addr : Addr

/-- What `b` receives when `a` gets the message `m` and replies to it: nothing if there is no
reply, else the reply as encoded, sent, decoded and marked with the address of `a`. -/
def answer (db : StdDB) (a : Party) (m : Message) : Option Message :=
  match a.node.received a.env db m with
  | .ok out =>
    match out.reply with
    | none => none
    | some r =>
      match Message.newWithBytes r.bytes with
      | .ok d => some { d with src := a.addr }
      | _ => none
  | _ => none

/-- The messages of an exchange: `m` is received by `a`, the answer by `b`, and so on; the nodes
are those after handling the earlier messages. `none` when the exchange has ended. -/
def volley (db : StdDB) (a b : Party) (m : Message) : Nat → Option Message
  | 0 => some m
  | k + 1 =>
    match answer db a m with
    | none => none
    | some r =>
      volley db b { a with node := match a.node.received a.env db m with
        | .ok out => out.node
        | _ => a.node } r k

/-- The service code of the message is not one of ECHONET Lite. -/
def Undefined (m : Message) : Prop := ∀ s ∈ Esv.table, s.code ≠ m.esv

theorem undefined_rejected {n : Node} {m : Message} (h : Undefined m) : ¬ Accepts n m := by
  rintro ⟨_, _, _, ⟨s, hs, e⟩, _⟩
  exact h s hs e

theorem undefined_refusal : ∀ e : Byte, (∀ s ∈ Esv.table, s.code ≠ e) →
    specRefusal e = 0 := by decide +kernel

/-- C38, refuted for every node and every message with an undefined service code: it is answered,
with the undefined service code 0. -/
theorem C38_refuted (env : Env) (db : StdDB) (n : Node) (m : Message) (hm : Built m)
    (hi : ¬ Ignored n m) (hu : Undefined m) :
    ∃ out r, n.received env db m = .ok out ∧ out.node = n ∧ out.reply = some r ∧ r.esv = 0 := by
  obtain ⟨out, r, h1, h2, -, -, h5, -, -, -, -, h6⟩ :=
    C33_rejected env db n m hm hi (undefined_rejected hu)
  exact ⟨out, r, h1, h2, h5, h6.trans (undefined_refusal _ hu)⟩

/-- The party does not ignore what comes from address `a`. -/
def Listens (p : Party) (a : Addr) : Prop := p.node.selfMsg = true ∨ a ≠ p.node.addr

theorem not_ignored {p : Party} {a : Addr} (h : Listens p a) {m : Message} (hm : m.src = a) :
    ¬ Ignored p.node m := by
  rintro ⟨h1, h2⟩
  rcases h with h | h
  · rw [h1] at h; cases h
  · exact h (hm.symm.trans h2)

theorem undefined_zero {m : Message} (h : m.esv = 0) : Undefined m := by
  intro s hs
  rw [h]
  revert s hs
  decide

theorem answer_undefined (db : StdDB) (a : Party) (m : Message) (hm : Built m)
    (hi : ¬ Ignored a.node m) (hu : Undefined m) :
    ∃ d out, answer db a m = some d ∧ a.node.received a.env db m = .ok out ∧ out.node = a.node ∧
      Built d ∧ Undefined d ∧ d.src = a.addr := by
  obtain ⟨r, h1, h2⟩ := received_rejected a.env db a.node m hi (undefined_rejected hu)
  obtain ⟨r', k1, -, -, -, k5, k6, k7⟩ := C16_header_partial m hm
  rw [h1] at k1
  cases k1
  have hb : Built r := .impossible hm h1
  obtain ⟨d, e1, -, -, -, e5, -⟩ := arrives (Built.wf hb) k6 k7
  refine ⟨{ d with src := a.addr }, _, ?_, h2, rfl, .setFrom _ (.decoded e1), ?_, rfl⟩
  · unfold answer
    rw [h2]
    dsimp only
    rw [e1]
  · apply undefined_zero
    show d.esv = 0
    rw [e5, k5]
    exact undefined_refusal _ hu

/-- C38, refuted: an exchange between any two nodes that starts with a message with an undefined
service code never ends, whatever the message holds. -/
theorem C38_refuted_endless (db : StdDB) (k : Nat) (a b : Party) (m : Message) (hm : Built m)
    (hu : Undefined m) (hsrc : m.src = b.addr) (hab : Listens a b.addr) (hba : Listens b a.addr) :
    (volley db a b m k).isSome := by
  induction k generalizing a b m with
  | zero => rfl
  | succ k ih =>
    obtain ⟨d, out, h1, h2, h3, h4, h5, h6⟩ := answer_undefined db a m hm (not_ignored hab hsrc) hu
    unfold volley
    rw [h1, h2]
    dsimp only
    rw [h3]
    exact ih b a d h4 h5 h6 hba hab

/-- Two nodes and a first message as in `C38_refuted_endless`. -/
example : ∃ (a b : Party) (m : Message), Built m ∧ Undefined m ∧ m.src = b.addr ∧
    Listens a b.addr ∧ Listens b a.addr ∧ a.node.devices ≠ [] := by
  let a : Party := ⟨⟨false, fun _ => false, fun _ => false, fun _ _ _ => ([], none)⟩,
    { (Node.initial) with devices := [Obj.newSuper stdDB] }, ⟨"192.168.0.2", 3610⟩⟩
  let b : Party := ⟨a.env, Node.initial, ⟨"192.168.0.3", 3610⟩⟩
  exact ⟨a, b, { Message.new with src := b.addr }, .setFrom _ .new, undefined_zero rfl, rfl,
    .inl rfl, .inl rfl, by simp [a]⟩

/-- C38, the part that holds: no reply to a message that the node accepts and whose service asks
for none, so none to responses, notifications without confirmation and error responses. Missing:
messages it does not accept. -/
theorem C38_accepted_partial (env : Env) (db : StdDB) (n : Node) (m : Message) (hi : ¬ Ignored n m)
    (ha : Accepts n m) (s : Esv.Service) (hs : s ∈ Esv.table) (hc : s.code = m.esv)
    (hk : s.kind = .response ∨ s.kind = .error ∨ s.code = 0x73) :
    ∃ out, n.received env db m = .ok out ∧ out.reply = none := by
  apply C36_no_reply env db n m hi ha
  intro s' hs' hc'
  have key : ∀ s ∈ Esv.table, (s.kind = .response ∨ s.kind = .error ∨ s.code = 0x73) →
      ∀ s' ∈ Esv.table, s'.code = s.code → s'.reply = none := by decide
  exact key s hs hk s' hs' (hc'.trans hc.symm)

/-- A response that a node accepts: nobody answers it. -/
example : ¬ Ignored smallNode (sampleMessage.setESV 0x72) ∧
    (⟨0x72, .response, false, true, none, none⟩ : Esv.Service) ∈ Esv.table := by
  refine ⟨by unfold Ignored; decide +kernel, by decide⟩

/-- The codes a reply to a defined request can have. -/
theorem reply_codes : ∀ s ∈ Esv.table, (s.kind = .request ∨ s.code = 0x74) → ∀ e : Byte,
    (e = specRefusal s.code ∨ s.reply = some e) →
    (∃ t ∈ Esv.table, t.code = e) ∧ (∀ t ∈ Esv.table, t.code = e → t.reply = none) ∧
    ¬ (e = 0x60 ∨ e = 0x61 ∨ e = 0x62 ∨ e = 0x6E) := by decide +kernel

theorem newResponse_built (m : Message) (hm : Built m) (ps : List (Option PProp)) :
    Built (ps.foldl Message.addProperty m.newResponse) := by
  have : ∀ x : Message, Built x → Built (ps.foldl Message.addProperty x) := by
    induction ps with
    | nil => intro x hx; exact hx
    | cons p ps ih => intro x hx; exact ih _ (.addProperty _ hx)
  exact this _ (.response hm)

theorem addProperties_eq (ps : List (Option PProp)) (m : Message) :
    ps.foldl Message.addProperty m
      = { m with ep := m.ep ++ ps, opc := m.opc + BitVec.ofNat 8 ps.length } := by
  induction ps generalizing m with
  | nil => simp
  | cons p ps ih =>
    rw [List.foldl_cons, ih]
    simp only [Message.addProperty, List.append_assoc, List.singleton_append, List.length_cons]
    congr 1
    rw [BitVec.add_assoc]
    congr 1
    apply BitVec.eq_of_toNat_eq
    simp [BitVec.toNat_add]
    omega

/-- Any reply is built through the API, keeps the usual header, is addressed to the sending object
of the request and has one of the codes of the table. -/
theorem reply_shape (env : Env) (db : StdDB) (n : Node) (m : Message) (hm : Built m)
    (out : Outcome) (hout : n.received env db m = .ok out) (r : Message) (hr : out.reply = some r) :
    Built r ∧ r.ehd1 = 0x10 ∧ r.ehd2 = 0x81 ∧ r.getDEOJ = m.getSEOJ ∧
      (r.esv = specRefusal m.esv ∨
        (∃ s ∈ Esv.table, s.code = m.esv ∧ s.reply = some r.esv)) := by
  by_cases hi : Ignored n m
  · rw [C42_own_messages env db n m hi.1 hi.2] at hout
    cases hout; cases hr
  by_cases ha : Accepts n m
  · obtain ⟨q, o, ho, -⟩ := id ha
    obtain ⟨out', rs, h1, -, -, -, h4, h5, h6⟩ := received_accepted env db n m hi ha q o ho
    rw [hout] at h1
    cases h1
    by_cases hne : NoErr rs
    · cases hreq : ESV.isResponseRequired m.esv with
      | false => rw [(h5 hne hreq).1] at hr; cases hr
      | true =>
        obtain ⟨s, hs, hc, hsr⟩ := (C14_required m.esv).mp hreq
        rw [(h6 hne hreq).1] at hr
        unfold Node.createResponse at hr
        split at hr
        · cases hr
        · split at hr
          · cases hr
          · next o' _ =>
            simp only [Option.some.injEq] at hr
            have e := addAll_eq o' m.requested m.newResponse _ (fun res p => rfl)
            have hr' := e.symm.trans (Eq.trans (by congr 1) hr)
            obtain ⟨q1, q2, q3, q4, q5, q6, q7, q8⟩ := C15_response m hm
            have hb : Built r := by
              have := newResponse_built m hm ((replyProps o' m.requested).map some)
              rw [addProperties_eq, List.length_map] at this
              rw [← hr']
              exact this
            rw [← hr']
            refine ⟨hr' ▸ hb, q7, q8, q3, .inr ⟨s, hs, hc, ?_⟩⟩
            show s.reply = some m.newResponse.esv
            rw [q4, ← hc]
            have : ∀ s ∈ Esv.table, s.reply ≠ none → s.reply = some (specReply s.code) := by
              decide +kernel
            exact this s hs hsr
    · rw [(h4 hne).1] at hr; cases hr
  · obtain ⟨r', h1, h2⟩ := received_rejected env db n m hi ha
    rw [hout] at h2
    cases h2
    cases hr
    obtain ⟨x, k1, -, -, k4, k5, k6, k7⟩ := C16_header_partial m hm
    rw [h1] at k1
    cases k1
    exact ⟨.impossible hm h1, k6, k7, k4, .inl k5⟩

/-- C38, the part that holds: a request (or a notification to be confirmed) of an object that the
requesting node `a` has is answered by at most one message, which `a` does not answer: the exchange
ends. Missing: requests of objects `a` does not have, and other messages. -/
theorem C38_ends_partial (db : StdDB) (a b : Party) (m : Message) (hm : Built m)
    (s : Esv.Service) (hs : s ∈ Esv.table) (hc : s.code = m.esv)
    (hk : s.kind = .request ∨ s.code = 0x74)
    (q : ObjRef) (o : Obj) (ho : Addressed a.node m.getSEOJ q o) :
    volley db b a m 2 = none := by
  have key : ∀ d, answer db b m = some d → answer db a d = none := by
    intro d hd
    unfold answer at hd
    split at hd
    · next out hout =>
      split at hd
      · cases hd
      · next r hr =>
        obtain ⟨h1, h2, h3, h4, h5⟩ := reply_shape b.env db b.node m hm out hout r hr
        obtain ⟨d', e1, -, -, e4, e5, -⟩ := arrives (Built.wf h1) h2 h3
        rw [e1] at hd
        simp only [Option.some.injEq] at hd
        subst hd
        have h5' : r.esv = specRefusal s.code ∨ s.reply = some r.esv := by
          rw [hc]
          rcases h5 with h5 | ⟨s', hs', hc', hr'⟩
          · exact .inl h5
          · have : ∀ s ∈ Esv.table, ∀ s' ∈ Esv.table, s'.code = s.code → s' = s := by decide
            rw [this s hs s' hs' (hc'.trans hc.symm)] at hr'
            exact .inr hr'
        obtain ⟨k1, k2, k3⟩ := reply_codes s hs hk r.esv h5'
        have hdeoj : d'.getDEOJ = m.getSEOJ := by
          rw [← h4]; unfold Message.getDEOJ; rw [e4]
        unfold answer
        by_cases hi : Ignored a.node { d' with src := b.addr }
        · rw [C42_own_messages _ _ _ _ hi.1 hi.2]
        · have hacc : Accepts a.node { d' with src := b.addr } := by
            refine ⟨q, o, ?_, ?_, ?_⟩
            · show Addressed a.node d'.getDEOJ q o
              rw [hdeoj]; exact ho
            · show ∃ s ∈ Esv.table, s.code = d'.esv
              rw [e5]; exact k1
            · show d'.esv = _ ∨ _ → _
              intro h
              exfalso
              apply k3
              rw [← e5]
              exact h
          obtain ⟨out', f1, f2⟩ := C36_no_reply a.env db a.node _ hi hacc (by
            show ∀ s ∈ Esv.table, s.code = d'.esv → _
            rw [e5]; exact k2)
          rw [f1]
          dsimp only
          rw [f2]
    · cases hd
  unfold volley
  cases h : answer db b m with
  | none => rfl
  | some d =>
    dsimp only
    unfold volley
    rw [key d h]

/-- A request from a node's profile to another node's: the exchange ends. -/
example : ∃ (a b : Party) (m : Message) (q : ObjRef) (o : Obj), Built m ∧ m.esv = 0x62 ∧
    Addressed a.node m.getSEOJ q o ∧ ¬ Ignored b.node m ∧ volley stdDB b a m 2 = none := by
  let a : Party := ⟨⟨false, fun _ => false, fun _ => false, fun _ _ _ => ([], none)⟩,
    smallNode, ⟨"192.168.0.2", 3610⟩⟩
  have ho : Addressed a.node ((sampleMessage.setSEOJ 0x013001)).getSEOJ (.device 0) (smallNode.devices.head (by decide +kernel)) :=
    ⟨by decide +kernel, by decide +kernel, by decide +kernel⟩
  have hb : Built (sampleMessage.setSEOJ 0x013001) := .setSEOJ _
    (.addProperty _ (.addProperty _ (.setESV _ (.setDEOJ _ (.setSEOJ _ (.setTID _ .new))))))
  exact ⟨a, a, sampleMessage.setSEOJ 0x013001, _, _, hb, rfl, ho, by unfold Ignored; decide +kernel,
    C38_ends_partial stdDB a a _ hb ⟨0x62, .request, false, true, some 0x72, some 0x52⟩ (by decide) rfl (.inl rfl) _ _ ho⟩

/-- C38 is not limited to undefined codes: a request of an object the requester does not have, for
an object that `b` does not have either, is followed by an endless exchange. -/
theorem C38_refuted_request (db : StdDB) (k : Nat) (a b : Party) (m : Message) (hm : Built m)
    (s : Esv.Service) (hs : s ∈ Esv.table) (hc : s.code = m.esv) (hk : s.kind = .request)
    (hna : ∀ q o, ¬ Addressed a.node m.getSEOJ q o) (hnb : ∀ q o, ¬ Addressed b.node m.getDEOJ q o)
    (hsrc : m.src = a.addr) (hab : Listens a b.addr) (hba : Listens b a.addr) :
    (volley db b a m k).isSome := by
  match k with
  | 0 => rfl
  | 1 | k + 2 =>
    have hrej : ¬ Accepts b.node m := by rintro ⟨q, o, h, -⟩; exact hnb q o h
    obtain ⟨r, h1, h2⟩ := received_rejected b.env db b.node m (not_ignored hba hsrc) hrej
    obtain ⟨r', k1, -, -, k4, k5, k6, k7⟩ := C16_header_partial m hm
    rw [h1] at k1
    cases k1
    have hb : Built r := .impossible hm h1
    obtain ⟨d, e1, -, -, e4, e5, -⟩ := arrives (Built.wf hb) k6 k7
    have ha : answer db b m = some { d with src := b.addr } := by
      unfold answer
      rw [h2]
      dsimp only
      rw [e1]
    have hd : ¬ Accepts a.node { d with src := b.addr } := by
      rintro ⟨q, o, h, -⟩
      have : d.getDEOJ = m.getSEOJ := by
        rw [← k4]; unfold Message.getDEOJ; rw [e4]
      have h' : Addressed a.node d.getDEOJ q o := h
      rw [this] at h'
      exact hna q o h'
    have hbd : Built { d with src := b.addr } := .setFrom _ (.decoded e1)
    obtain ⟨r2, g1, g2⟩ := received_rejected a.env db a.node _ (not_ignored hab rfl) hd
    obtain ⟨r2', j1, -, -, -, j5, j6, j7⟩ := C16_header_partial _ hbd
    rw [g1] at j1
    cases j1
    have hb2 : Built r2 := .impossible hbd g1
    obtain ⟨d2, i1, -, -, -, i5, -⟩ := arrives (Built.wf hb2) j6 j7
    have ha2 : answer db a { d with src := b.addr } = some { d2 with src := a.addr } := by
      unfold answer
      rw [g2]
      dsimp only
      rw [i1]
    unfold volley
    rw [ha, h2]
    dsimp only
    unfold volley
    try rw [ha2, g2]
    first
    | rfl
    | refine C38_refuted_endless db k b a _ (.setFrom _ (.decoded i1)) (undefined_zero ?_) rfl hba hab
      show d2.esv = 0
      rw [i5, j5]
      show specRefusal d.esv = 0
      rw [e5, k5, ← hc]
      have : ∀ s ∈ Esv.table, s.kind = .request → specRefusal (specRefusal s.code) = 0 := by
        decide +kernel
      exact this s hs hk

/-- Such nodes and such a request (a read request of a controller object, as made by a program
that does not register one). -/
example : ∃ (a b : Party) (m : Message), Built m ∧ m.esv = 0x62 ∧ m.src = a.addr ∧
    (∀ q o, ¬ Addressed a.node m.getSEOJ q o) ∧ (∀ q o, ¬ Addressed b.node m.getDEOJ q o) ∧
    Listens a b.addr ∧ Listens b a.addr := by
  let a : Party := ⟨⟨false, fun _ => false, fun _ => false, fun _ _ _ => ([], none)⟩,
    Node.new stdDB, ⟨"192.168.0.2", 3610⟩⟩
  let b : Party := ⟨a.env, Node.new stdDB, ⟨"192.168.0.3", 3610⟩⟩
  refine ⟨a, b, { sampleMessage with src := a.addr }, .setFrom _ 
    (.addProperty _ (.addProperty _ (.setESV _ (.setDEOJ _ (.setSEOJ _ (.setTID _ .new)))))), rfl, rfl, ?_, ?_,
    .inl (by decide +kernel), .inl (by decide +kernel)⟩
  · exact fun q o => lookupObject_none (by decide +kernel) q o
  · exact fun q o => lookupObject_none (by decide +kernel) q o

/-! ## C43 -/

/-- C43, refuted for every node: with a listener set, a message to an existing object that is
refused does not reach the listener (here: any undefined service code). -/
theorem C43_refuted (env : Env) (db : StdDB) (n : Node) (m : Message) (hi : ¬ Ignored n m)
    (hu : Undefined m) : ∃ out, n.received env db m = .ok out ∧ Call.message m ∉ out.calls := by
  obtain ⟨r, -, h2⟩ := received_rejected env db n m hi (undefined_rejected hu)
  exact ⟨_, h2, by simp⟩

end Verif.Props
