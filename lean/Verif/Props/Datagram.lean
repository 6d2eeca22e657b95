import Verif.Props.Receive
import Verif.Props.Handler

/-!
# C70: requests over UDP, from the bytes of the request to the bytes of the answer
-/

namespace Verif.Props
open Verif Model Spec Lemmas

/-- The properties of the answer: those asked for that the object has, with its data. -/
def answers (o : Obj) (ps : List WireProp) : List WireProp :=
  ps.filterMap (fun p => (o.props.lookup p.epc).map (fun q => ⟨p.epc, q.data⟩))

theorem response_built {m : Message} (hm : Built m) :
    Built m.newResponse ∧ m.newResponse.ehd1 = 0x10 ∧ m.newResponse.ehd2 = 0x81 := by
  refine ⟨.response hm, ?_⟩
  unfold Message.newResponse
  dsimp only
  repeat' split
  all_goals exact ⟨rfl, rfl⟩

theorem createResponse_built {n : Node} {m r : Message} (hm : Built m)
    (h : (n.createResponse m).1 = some r) : Built r ∧ r.ehd1 = 0x10 ∧ r.ehd2 = 0x81 := by
  have fold : ∀ (f : Message → PProp → Message), (∀ x p, (Built x ∧ x.ehd1 = 0x10 ∧ x.ehd2 = 0x81) →
      (Built (f x p) ∧ (f x p).ehd1 = 0x10 ∧ (f x p).ehd2 = 0x81)) → ∀ (ps : List PProp) (x : Message),
      (Built x ∧ x.ehd1 = 0x10 ∧ x.ehd2 = 0x81) →
      (Built (ps.foldl f x) ∧ (ps.foldl f x).ehd1 = 0x10 ∧ (ps.foldl f x).ehd2 = 0x81) := by
    intro f hf ps
    induction ps with
    | nil => exact fun x hx => hx
    | cons p ps ih => exact fun x hx => ih _ (hf x p hx)
  unfold Node.createResponse at h
  cases h1 : n.lookupObject m.getDEOJ with
  | none => simp only [h1] at h; cases h
  | some q =>
    simp only [h1] at h
    cases h2 : n.get q with
    | none => simp only [h2] at h; cases h
    | some o =>
      simp only [h2] at h
      rw [← Option.some.inj h]
      refine fold _ (fun x p hx => ?_) _ _ (response_built hm)
      cases o.props.lookup p.code with
      | none => exact hx
      | some e => exact ⟨.addProperty _ hx.1, hx.2⟩

/-- C70. Whatever is received, at most one datagram is written, and it goes to the sender. -/
theorem C70_to_sender (env : Env) (db : StdDB) (n : Node) (m : Message) :
    ∃ n' ds, n.onMessageUDP env db m = .ok (n', ds) ∧ ds.length ≤ 1 ∧ ∀ d ∈ ds, d.peer = m.src := by
  obtain ⟨out, rs, h, -⟩ := C39_only_callbacks env db n m
  unfold Node.onMessageUDP
  rw [h]
  simp only [Res.ok_bind]
  split
  · exact ⟨_, _, rfl, Nat.le_refl _, fun d hd => by rw [List.mem_singleton.mp hd]; rfl⟩
  · exact ⟨_, _, rfl, Nat.zero_le _, fun d hd => by cases hd⟩

/-- What the server hands to the node for a datagram with a valid frame. -/
theorem C70_request (k : ServerKind) (ifi : String) (f : Frame) (hv : f.Valid)
    (hl : f.encode.length ≤ 1024) (tail : Bytes) (a : Addr) :
    ∃ m, ((UdpServer.started k ifi).run [.datagram ⟨f.encode ++ tail, a⟩]).handled = [m] ∧
      Built m ∧ Carries m f ∧ m.src = a ∧ m.pktType = k.packetType := by
  obtain ⟨m, h1, h2, -⟩ := C05_decode_encode f hv (tail.take (1024 - f.encode.length))
  have ht : (f.encode ++ tail).take 1024 = f.encode ++ tail.take (1024 - f.encode.length) := by
    rw [List.take_append, List.take_of_length_le hl]
  have hm : ¬ Malformed (f.encode ++ tail) := by
    rw [← malformed_take, ht]
    exact fun hm => by
      obtain ⟨e, he⟩ := (C04_rejects _).mpr hm
      rw [h1] at he
      cases he
  obtain ⟨-, k2, k3⟩ := C56_wellformed_partial k ifi [⟨f.encode ++ tail, a⟩] (by
    intro d hd
    rw [List.mem_singleton.mp hd]
    exact hm)
  obtain ⟨m', q1, q2⟩ := k3 0 _ rfl
  have q1' : Message.newWithBytes ((f.encode ++ tail).take 1024) = .ok m' := q1
  rw [ht, h1] at q1'
  cases q1'
  refine ⟨_, ?_, .setFrom a (.setInterface (some ifi) (.setPacketType k.packetType (.decoded h1))),
    ⟨h2.ehd1, h2.ehd2, h2.tid, h2.seoj, h2.deoj, h2.esv, h2.opc, h2.props⟩, rfl, rfl⟩
  have key : ∀ (l : List Message) (x : Message), l.length = 1 → l[0]? = some x → l = [x] := by
    intro l x h h'
    match l, h with
    | [y], _ => rw [List.getElem?_cons_zero] at h'; rw [Option.some.inj h']
  exact key _ _ k2 q2

/-- The answer to a message that carries a frame, however it was received. -/
theorem answer_frame (f : Frame) (hv : f.Valid) (m : Message) (h2 : Built m) (h3 : Carries m f)
    (env : Env) (db : StdDB) (n : Node) (hi : ¬ Ignored n m) (ha : Accepts n m) (out : Outcome)
    (hout : n.received env db m = .ok out) (rs : List (Option Err)) (hrs : Results env db n out rs)
    (hne : ∀ e ∈ rs, e = none) (s : Esv.Service) (hs : s ∈ Esv.table) (hc : s.code = f.esv) (code : Byte)
    (hr : s.reply = some code) (r' : ObjRef) (o' : Obj) (ho' : Addressed out.node m.getDEOJ r' o')
    (hdata : ∀ q ∈ o'.props, q.data.length ≤ 255) :
    (⟨f.tid, f.deoj, f.seoj, code, answers o' f.props⟩ : Frame).Valid ∧ out.error = none ∧
    ∃ res, out.reply = some res ∧
      res.bytes = Frame.encode ⟨f.tid, f.deoj, f.seoj, code, answers o' f.props⟩ := by
  obtain ⟨res, e1, e2, e3, e4, e5, e6, e7, e8⟩ := C35_response env db n m h2 hi ha out hout rs hrs hne s hs
    (hc.trans h3.esv.symm) code hr r' o' ho'
  obtain ⟨r, o, ho, -⟩ := id ha
  obtain ⟨out', rs', k1, -, k3, -, -, -, k5⟩ := received_accepted env db n m hi ha r o ho
  rw [hout] at k1
  cases k1
  obtain ⟨-, -, rfl⟩ := effects_unique hrs k3
  have hreq : m.esv.isResponseRequired = true :=
    (C14_required m.esv).mpr ⟨s, hs, hc.trans h3.esv.symm, by rw [hr]; simp⟩
  obtain ⟨k6, -⟩ := k5 hne hreq
  rw [e1] at k6
  obtain ⟨b1, b2, b3⟩ := createResponse_built h2 k6.symm
  have hp : properties m = f.props.map (fun p => ⟨p.epc, p.edt⟩) := by
    unfold properties
    have := h3.opc
    unfold Message.getOPC at this
    rw [this, h3.props, List.take_of_length_le (by simp)]
    rw [← filterMap_some (f.props.map (fun p => (⟨p.epc, p.edt⟩ : PProp))), List.map_map]
    rfl
  have hrep : replyProps o' (properties m) = (answers o' f.props).map (fun p => ⟨p.epc, p.edt⟩) := by
    rw [hp]
    unfold replyProps answers
    rw [List.filterMap_map, List.map_filterMap]
    apply congrArg (fun g => List.filterMap g f.props)
    funext p
    simp only [Function.comp]
    cases o'.props.lookup p.epc <;> rfl
  have hcar : Carries res ⟨f.tid, f.deoj, f.seoj, code, answers o' f.props⟩ := by
    refine ⟨b2, b3, ?_, ?_, ?_, e6, ?_, ?_⟩
    · rw [e3]; exact h3.tid
    · rw [e4]; exact h3.deoj
    · rw [e5]; exact h3.seoj
    · rw [e7, hrep, List.length_map]
    · rw [e8, hrep, List.map_map]; rfl
  refine ⟨?_, e2, res, e1, C03_frame res b1 _ hcar⟩
  obtain ⟨v1, v2, v3, v4, v5⟩ := hv
  refine ⟨v1, v3, v2, Nat.lt_of_le_of_lt (List.length_filterMap_le ..) v4, ?_⟩
  intro p hp'
  obtain ⟨x, -, hx⟩ := List.mem_filterMap.mp hp'
  obtain ⟨q, hq, rfl⟩ := Option.map_eq_some_iff.mp hx
  have := hdata q (lookup_mem hq)
  show q.data.length < 256
  omega

/-- C70. A datagram with a request the node accepts, whose service asks for a response, is answered
(if no callback reports an error) by one datagram, to the address and port it came from: the frame
with the same identifier, the objects swapped, the response code of the service, and each property
asked for with the data it has after the callbacks ran. Properties hold at most 255 bytes here, more
do not fit the format. -/
theorem C70_answer (k : ServerKind) (ifi : String) (f : Frame) (hv : f.Valid)
    (hl : f.encode.length ≤ 1024) (tail : Bytes) (a : Addr) :
    ∃ m, ((UdpServer.started k ifi).run [.datagram ⟨f.encode ++ tail, a⟩]).handled = [m] ∧
      ∀ (env : Env) (db : StdDB) (n : Node), ¬ Ignored n m → Accepts n m →
      ∀ out, n.received env db m = .ok out →
      ∀ rs, Results env db n out rs → (∀ e ∈ rs, e = none) →
      ∀ s ∈ Esv.table, s.code = f.esv → ∀ code, s.reply = some code →
      ∀ r' o', Addressed out.node m.getDEOJ r' o' → (∀ q ∈ o'.props, q.data.length ≤ 255) →
      (⟨f.tid, f.deoj, f.seoj, code, answers o' f.props⟩ : Frame).Valid ∧
      n.onMessageUDP env db m = .ok (out.node,
        [⟨Frame.encode ⟨f.tid, f.deoj, f.seoj, code, answers o' f.props⟩, a⟩]) := by
  obtain ⟨m, h1, h2, h3, h4, -⟩ := C70_request k ifi f hv hl tail a
  refine ⟨m, h1, ?_⟩
  intro env db n hi ha out hout rs hrs hne s hs hc code hr r' o' ho' hdata
  obtain ⟨v, e2, res, e1, e3⟩ := answer_frame f hv m h2 h3 env db n hi ha out hout rs hrs hne s hs hc
    code hr r' o' ho' hdata
  refine ⟨v, ?_⟩
  unfold Node.onMessageUDP
  rw [hout]
  simp only [Res.ok_bind, e2, e1]
  rw [UdpSocket.sendMessage, e3, h4]

/-- C70. A datagram with a request the node does not accept is answered by one datagram with the
error response, to the sender. -/
theorem C70_refusal (k : ServerKind) (ifi : String) (f : Frame) (hv : f.Valid)
    (hl : f.encode.length ≤ 1024) (tail : Bytes) (a : Addr) :
    ∃ m, ((UdpServer.started k ifi).run [.datagram ⟨f.encode ++ tail, a⟩]).handled = [m] ∧
      ∀ (env : Env) (db : StdDB) (n : Node), ¬ Ignored n m → ¬ Accepts n m →
      ∃ r : Message, n.onMessageUDP env db m = .ok (n, [⟨r.bytes, a⟩]) ∧
        r.getTID.toNat = f.tid ∧ r.getSEOJ.toNat = f.deoj ∧ r.getDEOJ.toNat = f.seoj ∧
        r.esv = specRefusal f.esv := by
  obtain ⟨m, h1, h2, h3, h4, -⟩ := C70_request k ifi f hv hl tail a
  refine ⟨m, h1, ?_⟩
  intro env db n hi ha
  obtain ⟨out, r, e1, e2, e3, e4, e5, e6, e7, e8, e9, e10⟩ := C33_rejected env db n m h2 hi ha
  refine ⟨r, ?_, by rw [e7]; exact h3.tid, by rw [e8]; exact h3.deoj, by rw [e9]; exact h3.seoj,
    by rw [e10, h3.esv]⟩
  unfold Node.onMessageUDP
  rw [e1]
  simp only [Res.ok_bind, e6, e5]
  rw [e2, UdpSocket.sendMessage, h4]

/-- A frame asking `smallNode` for a property, and what it answers, in bytes. -/
example :
    let f : Frame := ⟨7, 0x05FF01, 0x013001, 0x62, [⟨0x80, []⟩]⟩
    f.Valid ∧ f.encode.length ≤ 1024 ∧
    (((UdpServer.started .unicast "eth0").run [.datagram ⟨f.encode, ⟨"10.0.0.2", 3611⟩⟩]).handled.map
      (fun m => match smallNode.onMessageUDP noEnv stdDB m with
        | .ok (_, ds) => ds
        | _ => [])) =
      [[⟨[0x10, 0x81, 0, 7, 0x01, 0x30, 0x01, 0x05, 0xFF, 0x01, 0x72, 1, 0x80, 1, 0x30],
        ⟨"10.0.0.2", 3611⟩⟩]] := by
  refine ⟨by simp [Frame.Valid], by decide, by decide +kernel⟩

end Verif.Props
