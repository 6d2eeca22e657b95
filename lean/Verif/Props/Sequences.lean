import Verif.Props.Codes

/-!
# C118–C123: the basic sequences of the standard

`doc/device_inside.md` lists the basic sequences of the ECHONET Lite specification (part 2, section 4.2) as
supported. These properties compare what a node does with them.
-/

namespace Verif.Props
open Verif Model Spec Lemmas

/-- What a reply to an accepted message holds. -/
theorem reply_props (env : Env) (db : StdDB) (n : Node) (m : Message) (hm : Built m) (hi : ¬ Ignored n m)
    (ha : Accepts n m) (out : Outcome) (hout : n.received env db m = .ok out) (res : Message)
    (hres : out.reply = some res) :
    ∃ r' o', Addressed out.node m.getDEOJ r' o' ∧ res.ep = (replyProps o' (properties m)).map some ∧
      res.esv = specReply m.esv := by
  obtain ⟨r, o, ho, -⟩ := id ha
  obtain ⟨out', rs, h1, -, h3, -, h4, h5, h6⟩ := received_accepted env db n m hi ha r o ho
  rw [hout] at h1
  cases h1
  by_cases hne : NoErr rs
  · cases hr : ESV.isResponseRequired m.esv with
    | false => rw [(h5 hne hr).1] at hres; cases hres
    | true =>
      obtain ⟨s, hs, hc, hrep⟩ := (C14_required m.esv).mp hr
      obtain ⟨code, hcode⟩ := Option.ne_none_iff_exists'.mp hrep
      have e := (h6 hne hr).1
      cases hl : out.node.lookupObject m.getDEOJ with
      | none =>
        have : out.node.createResponse m = (none, some .notFound) := by
          unfold Node.createResponse; rw [hl]
        rw [this] at e
        rw [e] at hres; cases hres
      | some r' =>
        obtain ⟨o', ho', -⟩ := lookupObject_some hl
        obtain ⟨res', k1, -, -, -, -, k5, -, k6⟩ := C35_response env db n m hm hi ha out hout rs h3 hne s hs hc code
          hcode r' o' ho'
        rw [hres] at k1
        cases k1
        refine ⟨r', o', ho', k6, ?_⟩
        rw [k5, ← hc]
        have : ∀ s ∈ Esv.table, s.reply ≠ none → some (specReply s.code) = s.reply := by decide +kernel
        have := this s hs hrep
        rw [hcode] at this
        exact (Option.some.inj this).symm
  · rw [(h4 hne).1] at hres; cases hres

/-- What a reply to a message that was not accepted holds. -/
theorem refusal_props (env : Env) (db : StdDB) (n : Node) (m : Message) (hi : ¬ Ignored n m)
    (ha : ¬ Accepts n m) (out : Outcome) (hout : n.received env db m = .ok out) :
    out.node = n ∧ out.calls = [] ∧ ∃ res, out.reply = some res ∧ ∀ x, some x ∈ res.ep → x.data = [] := by
  obtain ⟨r, h1, h2⟩ := received_rejected env db n m hi ha
  rw [hout] at h2
  cases h2
  obtain ⟨r', k1, k2, -⟩ := C16_refuted m
  rw [h1] at k1
  cases k1
  refine ⟨rfl, rfl, r, rfl, fun x hx => ?_⟩
  rw [k2] at hx
  cases List.eq_of_mem_replicate hx
  rfl

/-- A node without callbacks answers each message it accepts that asks for a response. -/
theorem plain_answer (db : StdDB) (n : Node) (m : Message) (hm : Built m) (hi : ¬ Ignored n m) (ha : Accepts n m)
    (hreq : ESV.isResponseRequired m.esv = true) (r : ObjRef) (o : Obj) (ho : Addressed n m.getDEOJ r o) :
    ∃ out res, n.received noEnv db m = .ok out ∧ out.node = n ∧ out.reply = some res ∧ res.esv = specReply m.esv ∧
      res.ep = (replyProps o (properties m)).map some := by
  obtain ⟨out, rs, h1, h2, h3, -, -, -, h6⟩ := received_accepted noEnv db n m hi ha r o ho
  have hcalls : expectedCalls noEnv r m = [] := by simp [expectedCalls, noEnv]
  rw [h2, hcalls] at h3
  have hno : NoErr rs ∧ out.node = n := by
    generalize out.node = a, out.sent = b at h3
    cases h3
    exact ⟨by intro e he; exact absurd he List.not_mem_nil, rfl⟩
  have hrep := (h6 hno.1 hreq).1
  rw [hno.2] at hrep
  have hcr : ∃ x, (n.createResponse m).1 = some x := by
    unfold Node.createResponse
    rw [(addressed_lookup ho).1]
    simp only [(addressed_lookup ho).2]
    exact ⟨_, rfl⟩
  obtain ⟨res, hres⟩ := hcr
  rw [hres] at hrep
  obtain ⟨r', o', k1, k2, k3⟩ := reply_props noEnv db n m hm hi ha out h1 res hrep
  rw [hno.2] at k1
  obtain ⟨rfl, rfl⟩ := addressed_unique ho k1
  exact ⟨out, res, h1, hno.2, hrep, k3, k2⟩

/-! ## C118: the controlled object does not exist -/

/-- **C118 refuted**: a message for an object the node does not have is not discarded. Every such message is
answered, whatever its service. -/
theorem C118_refuted (env : Env) (db : StdDB) (n : Node) (m : Message) (hm : Built m) (hi : ¬ Ignored n m)
    (ho : ∀ x ∈ n.devices ++ n.profiles, x.code ≠ m.getDEOJ) :
    ∃ r, n.onMessageUDP env db m = .ok (n, [UdpSocket.sendMessage m.src r]) ∧ r.getTID = m.getTID ∧
      r.getSEOJ = m.getDEOJ ∧ r.esv = specRefusal m.esv := by
  have ha : ¬ Accepts n m := by
    rintro ⟨r, o, h, -⟩
    obtain ⟨h1, h2, -⟩ := (addressed_iff _ _ _ _).mp h
    refine ho o (List.mem_append.mpr ?_) h2
    cases r with
    | device i => exact .inl (List.mem_of_getElem? h1)
    | profile i => exact .inr (List.mem_of_getElem? h1)
  obtain ⟨out, r, h1, h2, -, -, h3, h4, h5, h6, -, h7⟩ := C33_rejected env db n m hm hi ha
  refine ⟨r, ?_, h5, h6, h7⟩
  unfold Node.onMessageUDP
  rw [h1]
  rw [Res.ok_bind, h3, h4, h2]

/-- **C118**, what holds: such a message reaches no callback and changes nothing, and with self messages off the
node's own messages are not answered. -/
theorem C118_partial (env : Env) (db : StdDB) (n : Node) (m : Message)
    (ho : ∀ x ∈ n.devices ++ n.profiles, x.code ≠ m.getDEOJ) (out : Outcome)
    (hout : n.received env db m = .ok out) :
    out.node = n ∧ out.calls = [] ∧ out.sent = [] ∧ (Ignored n m → out.reply = none) := by
  by_cases hi : Ignored n m
  · rw [C42_own_messages env db n m hi.1 hi.2] at hout
    cases hout
    exact ⟨rfl, rfl, rfl, fun _ => rfl⟩
  · have ha : ¬ Accepts n m := by
      rintro ⟨r, o, h, -⟩
      obtain ⟨h1, h2, -⟩ := (addressed_iff _ _ _ _).mp h
      refine ho o (List.mem_append.mpr ?_) h2
      cases r with
      | device i => exact .inl (List.mem_of_getElem? h1)
      | profile i => exact .inr (List.mem_of_getElem? h1)
    obtain ⟨r, -, h2⟩ := received_rejected env db n m hi ha
    rw [hout] at h2
    cases h2
    exact ⟨rfl, rfl, rfl, fun h => absurd h hi⟩

/-! ## C119: requests that can be processed in part -/

/-- The message with one property only. -/
def only (m : Message) (p : PProp) : Message := { m with ep := [some p], opc := 1 }

/-- The four services that write or read. -/
def Controls (e : Byte) : Prop := e = 0x60 ∨ e = 0x61 ∨ e = 0x62 ∨ e = 0x6E

/-- **C119 refuted**: when one property of a request can not be processed, none is: no callback is called and the
reply holds no data, although the other properties would have been accepted one by one. -/
theorem C119_refuted (env : Env) (db : StdDB) (n : Node) (m : Message) (hi : ¬ Ignored n m) (hc : Controls m.esv)
    (r : ObjRef) (o : Obj) (ho : Addressed n m.getDEOJ r o) (p q : PProp) (hp : Permits o m.esv p)
    (hq : q ∈ properties m) (hnq : ¬ Permits o m.esv q) :
    Accepts n (only m p) ∧
    ∃ out, n.received env db m = .ok out ∧ out.node = n ∧ out.calls = [] ∧
      ∃ res, out.reply = some res ∧ ∀ x, some x ∈ res.ep → x.data = [] := by
  constructor
  · refine ⟨r, o, ho, ?_, fun _ x hx => ?_⟩
    · show ∃ s ∈ Esv.table, s.code = m.esv
      rcases hc with h | h | h | h <;> rw [h] <;> decide
    · rw [List.mem_singleton.mp (show x ∈ [p] from hx)]
      exact hp
  · have ha : ¬ Accepts n m := by
      rintro ⟨r', o', h1, -, h3⟩
      obtain ⟨rfl, rfl⟩ := addressed_unique ho h1
      exact hnq (h3 hc q hq)
    obtain ⟨out, hout⟩ := received_returns env db n m
    exact ⟨out, hout, refusal_props env db n m hi ha out hout⟩

/-- **C119**, what holds: a message is processed completely or not at all. -/
theorem C119_partial (env : Env) (db : StdDB) (n : Node) (m : Message) (out : Outcome)
    (hout : n.received env db m = .ok out) :
    (out.node = n ∧ out.calls = []) ∨
      ∃ r o, Addressed n m.getDEOJ r o ∧ out.calls = expectedCalls env r m ∧
        (Controls m.esv → ∀ p ∈ properties m, Permits o m.esv p) := by
  by_cases hi : Ignored n m
  · rw [C42_own_messages env db n m hi.1 hi.2] at hout
    cases hout
    exact .inl ⟨rfl, rfl⟩
  · by_cases ha : Accepts n m
    · obtain ⟨r, o, ho, -, hall⟩ := id ha
      obtain ⟨out', h1, h2⟩ := C34_handlers env db n m hi ha r o ho
      rw [hout] at h1
      cases h1
      exact .inr ⟨r, o, ho, h2, hall⟩
    · obtain ⟨h1, h2, -⟩ := refusal_props env db n m hi ha out hout
      exact .inl ⟨h1, h2⟩

/-! ## C120: responses to writes and notifications -/

/-- **C120 refuted**: the response to a write request, or to a notification that asks for one, holds the data of
the properties: of each requested property, what the object holds when the callbacks have run. -/
theorem C120_refuted (env : Env) (db : StdDB) (n : Node) (m : Message) (hm : Built m) (hi : ¬ Ignored n m)
    (ha : Accepts n m) (out : Outcome) (hout : n.received env db m = .ok out) (res : Message)
    (hres : out.reply = some res) (r : ObjRef) (o : Obj) (ho : Addressed out.node m.getDEOJ r o)
    (p : PProp) (hp : p ∈ properties m) (q : EProp) (hq : o.props.lookup p.code = some q) :
    some ⟨p.code, q.data⟩ ∈ res.ep := by
  obtain ⟨r', o', h1, h2, -⟩ := reply_props env db n m hm hi ha out hout res hres
  obtain ⟨rfl, rfl⟩ := addressed_unique ho h1
  rw [h2]
  exact List.mem_map.mpr ⟨_, List.mem_filterMap.mpr ⟨p, hp, by rw [hq]; rfl⟩, rfl⟩

/-- A node without callbacks answers every write request it accepts with the data it had before, of the size of
the data in the request. -/
theorem C120_refuted_plain (db : StdDB) (n : Node) (m : Message) (hm : Built m) (hi : ¬ Ignored n m)
    (ha : Accepts n m) (he : m.esv = 0x61) (p : PProp) (hp : p ∈ properties m) (hd : p.data ≠ []) :
    ∃ out res, n.received noEnv db m = .ok out ∧ out.reply = some res ∧ res.esv = 0x71 ∧
      ∃ d, some ⟨p.code, d⟩ ∈ res.ep ∧ d.length = p.data.length ∧ d ≠ [] := by
  obtain ⟨r, o, ho, -, hall⟩ := id ha
  obtain ⟨q, hq, hw, -⟩ := hall (.inr (.inl he)) p hp
  have hlen := (hw (.inr (.inl he))).2
  obtain ⟨out, res, h1, h2, h3, h4, h5⟩ := plain_answer db n m hm hi ha (by rw [he]; decide) r o ho
  refine ⟨out, res, h1, h3, by rw [h4, he]; decide, q.data, ?_, hlen.symm, ?_⟩
  · rw [h5]
    exact List.mem_map.mpr ⟨_, List.mem_filterMap.mpr ⟨p, hp, by rw [hq]; rfl⟩, rfl⟩
  · intro e
    rw [e] at hlen
    exact hd (List.eq_nil_of_length_eq_zero hlen)

/-- **C120**, what holds: the response names the properties of the request, in order and each as often as the
request does, as long as the object has them. -/
theorem C120_partial (env : Env) (db : StdDB) (n : Node) (m : Message) (hm : Built m) (hi : ¬ Ignored n m)
    (ha : Accepts n m) (out : Outcome) (hout : n.received env db m = .ok out) (res : Message)
    (hres : out.reply = some res) (r : ObjRef) (o : Obj) (ho : Addressed out.node m.getDEOJ r o)
    (hall : ∀ p ∈ properties m, (o.props.lookup p.code).isSome) :
    res.ep.map (Option.map (·.code)) = (properties m).map (fun p => some p.code) := by
  obtain ⟨r', o', h1, h2, -⟩ := reply_props env db n m hm hi ha out hout res hres
  obtain ⟨rfl, rfl⟩ := addressed_unique ho h1
  rw [h2, replyProps]
  generalize properties m = ps at hall
  induction ps with
  | nil => rfl
  | cons p ps ih =>
    obtain ⟨q, hq⟩ := Option.isSome_iff_exists.mp (hall p List.mem_cons_self)
    rw [List.filterMap_cons, hq]
    simp only [Option.map_some, List.map_cons]
    rw [ih (fun x hx => hall x (List.mem_cons_of_mem _ hx))]

/-! ## C121: properties that may not be read -/

theorem accepts_inf {n : Node} {m : Message} (he : m.esv = 0x63) {r : ObjRef} {o : Obj}
    (ho : Addressed n m.getDEOJ r o) : Accepts n m := by
  refine ⟨r, o, ho, by rw [he]; decide, fun h => ?_⟩
  rw [he] at h
  exact absurd h (by decide)

/-- **C121 refuted**: a request for a notification gets the data of any property of the object, also of one that
may not be read. -/
theorem C121_refuted (db : StdDB) (n : Node) (m : Message) (hm : Built m) (hi : ¬ Ignored n m) (he : m.esv = 0x63)
    (r : ObjRef) (o : Obj) (ho : Addressed n m.getDEOJ r o) (p : PProp) (hp : p ∈ properties m) (q : EProp)
    (hq : o.props.lookup p.code = some q) :
    ∃ out res, n.received noEnv db m = .ok out ∧ out.reply = some res ∧ some ⟨p.code, q.data⟩ ∈ res.ep := by
  obtain ⟨out, res, h1, h2, h3, h4, h5⟩ :=
    plain_answer db n m hm hi (accepts_inf he ho) (by rw [he]; decide) r o ho
  refine ⟨out, res, h1, h3, ?_⟩
  rw [h5]
  exact List.mem_map.mpr ⟨_, List.mem_filterMap.mpr ⟨p, hp, by rw [hq]; rfl⟩, rfl⟩

/-- **C121 refuted** for the other services that are answered: the confirmation of a write (SetC) and the
acknowledgement of a notification (INFC) also hold the data of every property named that the object has, whether
it may be read or not. -/
theorem C121_refuted_any (db : StdDB) (n : Node) (m : Message) (hm : Built m) (hi : ¬ Ignored n m)
    (he : m.esv = 0x61 ∨ m.esv = 0x63 ∨ m.esv = 0x74) (ha : Accepts n m) (r : ObjRef) (o : Obj)
    (ho : Addressed n m.getDEOJ r o) (p : PProp) (hp : p ∈ properties m) (q : EProp)
    (hq : o.props.lookup p.code = some q) :
    ∃ out res, n.received noEnv db m = .ok out ∧ out.reply = some res ∧ res.esv = specReply m.esv ∧
      some ⟨p.code, q.data⟩ ∈ res.ep := by
  obtain ⟨out, res, h1, h2, h3, h4, h5⟩ :=
    plain_answer db n m hm hi ha (by rcases he with he | he | he <;> rw [he] <;> decide) r o ho
  refine ⟨out, res, h1, h3, h4, ?_⟩
  rw [h5]
  exact List.mem_map.mpr ⟨_, List.mem_filterMap.mpr ⟨p, hp, by rw [hq]; rfl⟩, rfl⟩

/-- A property that may only be written: a write of it is confirmed with its data. -/
example : ∃ n r o m p q, ¬ Ignored n m ∧ m.esv = 0x61 ∧ Accepts n m ∧ Addressed n m.getDEOJ r o ∧
    p ∈ properties m ∧ o.props.lookup p.code = some q ∧ q.getAttr = 0 ∧ q.data ≠ [] := by
  refine ⟨{ Node.initial with devices := [⟨"", "", [0x01, 0x30, 0x01], [⟨"", 0xB0, [0x41], 0, 1, 0⟩]⟩] },
    .device 0, ⟨"", "", [0x01, 0x30, 0x01], [⟨"", 0xB0, [0x41], 0, 1, 0⟩]⟩, request 0x61 [⟨0xB0, [0x42]⟩],
    ⟨0xB0, [0x42]⟩, ⟨"", 0xB0, [0x41], 0, 1, 0⟩, fun h => absurd h.1 (by decide), rfl, ?_,
    ⟨rfl, by decide, fun j hj => absurd hj (by omega)⟩, by decide, rfl, rfl, by decide⟩
  refine (C32_acceptance _ _).mp ?_
  decide +kernel

/-- **C121**, what holds: the answer to a read request, or to a request to write and read, holds data only of
properties which the object addressed had and which could be read when the request came. -/
theorem C121_partial (env : Env) (db : StdDB) (n : Node) (m : Message) (hm : Built m)
    (he : m.esv = 0x62 ∨ m.esv = 0x6E) (out : Outcome) (hout : n.received env db m = .ok out) (res : Message)
    (hres : out.reply = some res) (x : PProp) (hx : some x ∈ res.ep) (hd : x.data ≠ []) :
    ∃ r o q, Addressed n m.getDEOJ r o ∧ o.props.lookup x.code = some q ∧ q.getAttr ≠ 0 := by
  by_cases hi : Ignored n m
  · rw [C42_own_messages env db n m hi.1 hi.2] at hout
    cases hout
    cases hres
  · by_cases ha : Accepts n m
    · obtain ⟨r', o', -, h2, -⟩ := reply_props env db n m hm hi ha out hout res hres
      rw [h2] at hx
      obtain ⟨y, hy, e⟩ := List.mem_map.mp hx
      cases e
      obtain ⟨p, hp, e⟩ := List.mem_filterMap.mp hy
      obtain ⟨q', -, rfl⟩ := Option.map_eq_some_iff.mp e
      obtain ⟨r, o, ho, -, hall⟩ := id ha
      obtain ⟨q, hq, -, hg⟩ := hall (by rcases he with h | h <;> simp [h]) p hp
      exact ⟨r, o, q, ho, hq, hg he⟩
    · obtain ⟨-, -, res', h1, h2⟩ := refusal_props env db n m hi ha out hout
      rw [hres] at h1
      cases h1
      exact absurd (h2 x hx) hd

/-! ## C122: requests to write and read -/

/-- A frame of the service `SetGet`, with the properties to write and those to read (ECHONET Lite specification,
part 2, section 3.2.4). -/
def setGetFrame (tid seoj deoj : Nat) (sets gets : List WireProp) : Bytes :=
  Frame.encode ⟨tid, seoj, deoj, 0x6E, sets⟩ ++ (BitVec.ofNat 8 gets.length :: gets.flatMap WireProp.encode)

/-- **C122 refuted**: of a request to write and read, only what is to be written is seen. Requests that differ in
the properties to read are the same message, and so get the same answer. -/
theorem C122_refuted (tid seoj deoj : Nat) (sets gets : List WireProp)
    (hv : Frame.Valid ⟨tid, seoj, deoj, 0x6E, sets⟩) :
    ∃ m, Message.newWithBytes (setGetFrame tid seoj deoj sets gets) = .ok m ∧
      Carries m ⟨tid, seoj, deoj, 0x6E, sets⟩ ∧
      ∀ gets', Message.newWithBytes (setGetFrame tid seoj deoj sets gets') = .ok m := by
  obtain ⟨m, h1, h2, h3⟩ := C05_decode_encode _ hv (BitVec.ofNat 8 gets.length :: gets.flatMap WireProp.encode)
  refine ⟨m, h1, h2, fun gets' => ?_⟩
  obtain ⟨m', k1, -, k3⟩ := C05_decode_encode _ hv (BitVec.ofNat 8 gets'.length :: gets'.flatMap WireProp.encode)
  have e1 := C05_canonical _ _ h1
  have e2 := C05_canonical _ _ k1
  rw [h3] at e1
  rw [k3, e1] at e2
  cases e2
  exact k1

/-- **C122**, what holds: what is to be written arrives as it was sent. -/
theorem C122_partial (tid seoj deoj : Nat) (sets gets : List WireProp)
    (hv : Frame.Valid ⟨tid, seoj, deoj, 0x6E, sets⟩) (m : Message)
    (h : Message.newWithBytes (setGetFrame tid seoj deoj sets gets) = .ok m) :
    properties m = sets.map (fun p => ⟨p.epc, p.edt⟩) := by
  obtain ⟨m', h1, h2, -⟩ := C122_refuted tid seoj deoj sets gets hv
  rw [h] at h1
  cases h1
  have ho : m.opc.toNat = sets.length := h2.opc
  unfold properties
  rw [ho, h2.props]
  simp only
  rw [List.take_of_length_le (by rw [List.length_map]; exact Nat.le_refl _), List.filterMap_map, ← List.filterMap_eq_map]
  rfl

/-- **C122 refuted**, for sending: no message has the bytes of such a request. -/
theorem C122_refuted_send (tid seoj deoj : Nat) (sets gets : List WireProp)
    (hv : Frame.Valid ⟨tid, seoj, deoj, 0x6E, sets⟩) (m : Message) (hm : Built m) (hf : Fits m) :
    m.bytes ≠ setGetFrame tid seoj deoj sets gets := by
  intro e
  obtain ⟨m', h1, -, h3⟩ := C05_decode_encode _ hv (BitVec.ofNat 8 gets.length :: gets.flatMap WireProp.encode)
  have h2 := C02_roundtrip m hm hf []
  rw [List.append_nil, e] at h2
  unfold setGetFrame at h2 e
  rw [h1] at h2
  cases h2
  have hb : Message.bytes { m with src := Message.new.src, pktType := unknownPacket, ifc := none } = m.bytes := rfl
  rw [hb, e] at h3
  have := congrArg List.length h3
  simp at this

/-! ## C123: requests for notifications -/

/-- **C123 refuted**: a request for a notification is never refused when the object exists. A property which the
object does not have, or does not announce, is left out or notified all the same. -/
theorem C123_refuted (db : StdDB) (n : Node) (m : Message) (hm : Built m) (hi : ¬ Ignored n m) (he : m.esv = 0x63)
    (r : ObjRef) (o : Obj) (ho : Addressed n m.getDEOJ r o) :
    ∃ out res, n.received noEnv db m = .ok out ∧ out.reply = some res ∧ res.esv = 0x73 ∧
      res.ep = (replyProps o (properties m)).map some := by
  obtain ⟨out, res, h1, h2, h3, h4, h5⟩ :=
    plain_answer db n m hm hi (accepts_inf he ho) (by rw [he]; decide) r o ho
  exact ⟨out, res, h1, h3, by rw [h4, he]; decide, h5⟩

/-- **C123**, what holds: a request for an object which the node does not have is refused with the code for
this, and properties the object has are notified with their data. -/
theorem C123_partial (env : Env) (db : StdDB) (n : Node) (m : Message) (hm : Built m) (hi : ¬ Ignored n m)
    (he : m.esv = 0x63) (out : Outcome) (hout : n.received env db m = .ok out) :
    ((∀ r o, ¬ Addressed n m.getDEOJ r o) → ∃ res, out.reply = some res ∧ res.esv = 0x53) ∧
    (∀ res r o, out.reply = some res → (∃ r o, Addressed n m.getDEOJ r o) → Addressed out.node m.getDEOJ r o →
      ∀ p ∈ properties m, ∀ q, o.props.lookup p.code = some q → some ⟨p.code, q.data⟩ ∈ res.ep) := by
  constructor
  · intro hno
    obtain ⟨out', res, h1, -, -, -, h5, -, -, -, -, h6⟩ :=
      C33_rejected env db n m hm hi (fun ⟨r, o, h, _⟩ => hno r o h)
    rw [hout] at h1
    cases h1
    exact ⟨res, h5, by rw [h6, he]; decide⟩
  · rintro res r o hres ⟨r0, o0, h0⟩ ho p hp q hq
    exact C120_refuted env db n m hm hi (accepts_inf he h0) out hout res hres r o ho p hp q hq

/-! Concrete cases -/

/-- A device with a property that may only be written. -/
def secretNode : Node :=
  { Node.initial with devices := [⟨"", "", [0x01, 0x30, 0x01],
      [⟨"", 0x80, [0x30], 1, 1, 1⟩, ⟨"", 0xE0, [0x12, 0x34], 0, 1, 0⟩]⟩] }

/-- The node answers for an object it does not have. -/
example : let m := request 0x62 [⟨0x80, []⟩] |>.setDEOJ 0x029101
    (∀ x ∈ smallNode.devices ++ smallNode.profiles, x.code ≠ m.getDEOJ) ∧
    (observe (smallNode.received noEnv stdDB m)).isSome ∧
    (observe (smallNode.received noEnv stdDB m)).bind (·.2) = some (0x52, [some ⟨0, []⟩, some ⟨0, []⟩]) := by
  decide +kernel

/-- One of two properties can be written, and neither is. -/
example : observe (smallNode.received storingEnv stdDB (request 0x61 [⟨0x80, [0x31]⟩, ⟨0xB0, [0x42]⟩]))
      = some ([], some (0x51, [some ⟨0, []⟩, some ⟨0, []⟩, some ⟨0, []⟩, some ⟨0, []⟩])) ∧
    observe (smallNode.received storingEnv stdDB (request 0x61 [⟨0x80, [0x31]⟩]))
      = some ([.message (request 0x61 [⟨0x80, [0x31]⟩]), .request (.device 0) 0x61 ⟨0x80, [0x31]⟩],
        some (0x71, [some ⟨0x80, [0x31]⟩])) := by
  constructor <;> decide +kernel

theorem smallNode_addressed : Addressed smallNode 0x013001 (.device 0)
    ⟨"", "", [0x01, 0x30, 0x01], [⟨"", 0x80, [0x30], 1, 1, 0⟩, ⟨"", 0xB0, [0x41], 1, 0, 0⟩]⟩ :=
  ⟨rfl, by decide, fun j hj => absurd hj (Nat.not_lt_zero j)⟩

example : let o : Obj := ⟨"", "", [0x01, 0x30, 0x01], [⟨"", 0x80, [0x30], 1, 1, 0⟩, ⟨"", 0xB0, [0x41], 1, 0, 0⟩]⟩
    Permits o 0x61 ⟨0x80, [0x31]⟩ ∧ ¬ Permits o 0x61 ⟨0xB0, [0x42]⟩ := by
  refine ⟨⟨⟨"", 0x80, [0x30], 1, 1, 0⟩, by decide, by decide, by decide⟩, ?_⟩
  rintro ⟨q, hq, hw, -⟩
  have : q = ⟨"", 0xB0, [0x41], 1, 0, 0⟩ := by
    have e : some q = some (⟨"", 0xB0, [0x41], 1, 0, 0⟩ : EProp) := hq.symm.trans (by decide)
    exact Option.some.inj e
  subst this
  exact (hw (.inr (.inl rfl))).1 (by decide)

/-- A read request for the property that may only be written is refused; a request for a notification gets it. -/
example : (observe (secretNode.received noEnv stdDB (request 0x62 [⟨0xE0, []⟩]))).bind (·.2)
      = some (0x52, [some ⟨0, []⟩, some ⟨0, []⟩]) ∧
    (observe (secretNode.received noEnv stdDB (request 0x63 [⟨0xE0, []⟩]))).bind (·.2)
      = some (0x73, [some ⟨0xE0, [0x12, 0x34]⟩]) ∧
    (observe (secretNode.received noEnv stdDB (request 0x63 [⟨0xF0, []⟩, ⟨0x80, []⟩]))).bind (·.2)
      = some (0x73, [some ⟨0x80, [0x30]⟩]) := by decide +kernel

/-- A request to write one property and read another. -/
example : setGetFrame 1 0x05FF01 0x013001 [⟨0x80, [0x31]⟩] [⟨0xB0, []⟩] =
      [0x10, 0x81, 0, 1, 5, 0xFF, 1, 1, 0x30, 1, 0x6E, 1, 0x80, 1, 0x31, 1, 0xB0, 0] ∧
    Frame.Valid ⟨1, 0x05FF01, 0x013001, 0x6E, [⟨0x80, [0x31]⟩]⟩ := by
  refine ⟨by decide, ?_⟩
  simp [Frame.Valid]

end Verif.Props
