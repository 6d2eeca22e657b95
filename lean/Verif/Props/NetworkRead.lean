import Verif.Props.RoundTrip
import Verif.Props.NodePost
import Verif.Model.Network

/-!
# C158, C159: posts over a network that loses, delays, repeats and reorders datagrams
-/

namespace Verif.Props
open Verif Model Spec Lemmas

/-! ## Single datagrams -/

/-- What a datagram is handled as. -/
theorem arriving_some {ifi : String} {a : Addr} {b : Bytes} {m : Message} (h : arriving ifi a b = some m) :
    ∃ m0, Message.newWithBytes (b.take 1024) = .ok m0 ∧
      m = { m0 with src := a, ifc := some ifi, pktType := udpUnicastPacket } := by
  obtain ⟨r1, -, -, -⟩ := readMessage_datagram (UdpSocket.new.bind ifi) rfl ⟨b, a⟩
  unfold arriving UdpServer.run at h
  simp only [List.foldl_cons, List.foldl_nil, UdpServer.step, UdpServer.started] at h
  rw [show (UdpSocket.new.bind ifi).readBuffer.length = 1024 from List.length_replicate ..] at r1
  cases hx : (UdpSocket.new.bind ifi).readMessage (.datagram ⟨b, a⟩) with
  | mk sock r =>
    rw [hx] at r1 h
    have r1' : r = _ := r1
    cases hn : Message.newWithBytes (b.take 1024) with
    | ok m0 =>
      rw [hn] at r1'
      have r2 : r = .ok { m0 with src := a, ifc := some ifi } := r1'
      subst r2
      exact ⟨m0, rfl, (Option.some.inj h).symm⟩
    | err e =>
      rw [hn] at r1'
      have r2 : r = .err e := r1'
      subst r2
      cases h
    | panic => exact absurd hn (C04_no_panic _)

/-- The identifier and the service of a message survive, even if the datagram is cut. -/
theorem header_kept {r m0 : Message} (hr : Built r) (h : Message.newWithBytes (r.bytes.take 1024) = .ok m0) :
    m0.getTID = r.getTID ∧ m0.esv = r.esv := by
  obtain ⟨x0, x1, s0, s1, s2, d0, d1, d2, esv, opc, rest, hb, rfl⟩ := newWithBytes_ok h
  have hw := Lemmas.Built.wf hr
  rw [bytes_eq hw, header] at hb
  obtain ⟨t0, t1, ht⟩ : ∃ t0 t1, r.tid = [t0, t1] := by
    have := hw.tid
    match hh : r.tid with
    | [a, b] => exact ⟨a, b, rfl⟩
    | [] | [_] | _ :: _ :: _ :: _ => simp [hh] at this
  obtain ⟨u0, u1, u2, hs⟩ : ∃ a b c, r.seoj = [a, b, c] := by
    have := hw.seoj
    match hh : r.seoj with
    | [a, b, c] => exact ⟨a, b, c, rfl⟩
    | [] | [_] | [_, _] | _ :: _ :: _ :: _ :: _ => simp [hh] at this
  obtain ⟨v0, v1, v2, hd⟩ : ∃ a b c, r.deoj = [a, b, c] := by
    have := hw.deoj
    match hh : r.deoj with
    | [a, b, c] => exact ⟨a, b, c, rfl⟩
    | [] | [_] | [_, _] | _ :: _ :: _ :: _ :: _ => simp [hh] at this
  rw [ht, hs, hd] at hb
  simp only [List.cons_append, List.nil_append, List.take_succ_cons, List.cons.injEq] at hb
  obtain ⟨-, -, rfl, rfl, -, -, -, -, -, -, rfl, -⟩ := hb
  refine ⟨?_, rfl⟩
  unfold Message.getTID
  rw [ht]
  rfl

theorem arriving_header {ifi : String} {a : Addr} {r m : Message} (hr : Built r)
    (h : arriving ifi a r.bytes = some m) : Built m ∧ m.getTID = r.getTID ∧ m.esv = r.esv ∧ m.src = a := by
  obtain ⟨m0, h1, rfl⟩ := arriving_some h
  exact ⟨.setFrom a (.setInterface (some ifi) (.setPacketType udpUnicastPacket (.decoded h1))),
    (header_kept hr h1).1, (header_kept hr h1).2, rfl⟩

/-- A datagram that holds a frame, and fits the buffer, is handled as a message that carries it. -/
theorem arriving_frame {ifi : String} {a : Addr} {f : Frame} (hv : f.Valid) (hl : f.encode.length ≤ 1024) :
    ∃ m, arriving ifi a f.encode = some m ∧ Built m ∧ Carries m f ∧ m.src = a := by
  obtain ⟨m, h1, h2, h3, h4, -⟩ := C70_request .unicast ifi f hv hl [] a
  rw [List.append_nil] at h1
  exact ⟨m, by unfold arriving; rw [h1]; rfl, h2, h3, h4⟩

/-! ## Replies -/

/-- Where a reply comes from: it has the identifier of the request, and is the refusal of a request that
is not accepted or the response to one that is. -/
theorem reply_origin (env : Env) (db : StdDB) (n : Node) (m : Message) (hm : Built m) (out : Outcome)
    (ho : n.received env db m = .ok out) (r : Message) (hr : out.reply = some r) :
    Built r ∧ r.getTID = m.getTID ∧ ¬ Ignored n m ∧
    ((¬ Accepts n m ∧ out.node = n ∧ r.esv = specRefusal m.esv) ∨
      (Accepts n m ∧ r.esv = specReply m.esv ∧ m.esv.isResponseRequired = true ∧
        (∃ rs, Results env db n out rs ∧ ∀ e ∈ rs, e = none) ∧
        ∃ r' o', Addressed out.node m.getDEOJ r' o')) := by
  have hi : ¬ Ignored n m := by
    intro hi
    unfold Node.received at ho
    rw [if_pos ((ignored_iff n m).mpr hi)] at ho
    cases ho
    cases hr
  by_cases ha : Accepts n m
  · obtain ⟨ro, o, hadd, -⟩ := id ha
    obtain ⟨out', rs, h1, -, h3, -, h4, h5, h6⟩ := received_accepted env db n m hi ha ro o hadd
    rw [ho] at h1
    cases h1
    have hne : NoErr rs := Classical.byContradiction fun h => by rw [(h4 h).1] at hr; cases hr
    have hq : m.esv.isResponseRequired = true := by
      cases h : m.esv.isResponseRequired with
      | true => rfl
      | false => rw [(h5 hne h).1] at hr; cases hr
    obtain ⟨k1, -⟩ := h6 hne hq
    rw [k1] at hr
    obtain ⟨b1, -, -⟩ := createResponse_built hm hr
    obtain ⟨q1, q2, q3, q4, q5, q6, -⟩ := C15_response m hm
    have hfold : r.getTID = m.newResponse.getTID ∧ r.esv = m.newResponse.esv ∧
        ∃ r' o', Addressed out.node m.getDEOJ r' o' := by
      unfold Node.createResponse at hr
      cases hl : out.node.lookupObject m.getDEOJ with
      | none => rw [hl] at hr; cases hr
      | some x =>
        rw [hl] at hr
        dsimp only at hr
        cases hg : out.node.get x with
        | none => rw [hg] at hr; cases hr
        | some o' =>
          rw [hg] at hr
          have := addAll_eq o' m.requested m.newResponse _ (fun res p => rfl)
          have hr' := Option.some.inj hr
          have h' := this.symm.trans hr'
          rw [← h']
          obtain ⟨o'', y, -⟩ := lookupObject_some hl
          exact ⟨rfl, rfl, x, o'', y⟩
    exact ⟨b1, hfold.1.trans q1, hi, .inr ⟨ha, hfold.2.1.trans q4, hq, ⟨rs, h3, hne⟩, hfold.2.2⟩⟩
  · obtain ⟨out', r', e1, e2, e3, e4, e5, e6, e7, e8, e9, e10⟩ := C33_rejected env db n m hm hi ha
    rw [ho] at e1
    cases e1
    have hb : Built r := by
      unfold Node.received at ho
      rw [if_neg (fun h => hi ((ignored_iff n m).mp h))] at ho
      dsimp only at ho
      rw [if_pos (by
        cases h : n.validateReceivedMessage m with
        | false => rfl
        | true => exact absurd ((validate_iff n m).mp h) ha)] at ho
      obtain ⟨x, hx, -⟩ := C16_header_partial m hm
      rw [hx] at ho
      cases ho
      cases hr
      exact .impossible hm hx
    rw [e5] at hr
    cases hr
    exact ⟨hb, e7, hi, .inl ⟨ha, e2, e10⟩⟩

/-- The one datagram written as a reply. -/
theorem reply_sent {env : Env} {db : StdDB} {n n' : Node} {m : Message} {b : Bytes} {a : Addr}
    (h : n.onMessageUDP env db m = .ok (n', [⟨b, a⟩])) :
    ∃ out r, n.received env db m = .ok out ∧ out.error = none ∧ out.reply = some r ∧ b = r.bytes ∧
      n' = out.node := by
  unfold Node.onMessageUDP at h
  cases hx : n.received env db m with
  | err e => rw [hx] at h; cases h
  | panic => rw [hx] at h; cases h
  | ok out =>
    rw [hx] at h
    simp only [Res.ok_bind] at h
    cases he : out.error with
    | some e =>
      rw [he] at h
      injection h with h
      injection h with _ h
      cases h
    | none =>
      cases hr : out.reply with
      | none =>
        rw [he, hr] at h
        injection h with h
        injection h with _ h
        cases h
      | some r =>
        rw [he, hr] at h
        injection h with h
        injection h with h1 h2
        injection h2 with h2 _
        injection h2 with h2 _
        exact ⟨out, r, rfl, he, hr, h2.symm, h1.symm⟩

/-! ## Histories -/

/-- The state after the first `t` of the steps. -/
abbrev netAt (L : Link) (c n : Node) (acts : List NetAct) (t : Nat) : Net :=
  (Net.init c n).run L (acts.take t)

theorem netAt_succ (L : Link) (c n : Node) (acts : List NetAct) (t : Nat) (a : NetAct)
    (h : acts[t]? = some a) : netAt L c n acts (t + 1) = (netAt L c n acts t).step L a := by
  unfold netAt Net.run
  rw [List.take_add_one, h]
  simp [List.foldl_append]

theorem netAt_end (L : Link) (c n : Node) (acts : List NetAct) (t : Nat) (h : acts[t]? = none) :
    netAt L c n acts (t + 1) = netAt L c n acts t := by
  unfold netAt
  rw [List.take_add_one, h]
  simp

/-- A post that is made and sends its request `q`. -/
def Issued (s : Net) (objCode : ObjectCode) (esv : ESV) (ps : List EProp) (q : Message) : Prop :=
  s.waiting = none ∧ (s.client.sendRequest objCode esv ps).2.1 = some q

/-- A call that uses an identifier of the posting node. -/
def usesId : NetAct → Bool
  | .post .. => true
  | .other => true
  | _ => false

/-- Everything a step may do. -/
theorem step_cases (L : Link) (s : Net) (a : NetAct) :
    ((s.step L a).client = s.client ∨ (usesId a = true ∧ (s.step L a).client = s.client.nextTID)) ∧
    ((s.step L a).requests = s.requests ∨ ∃ objCode esv ps q, a = .post objCode esv ps ∧
      Issued s objCode esv ps q ∧ (s.step L a).requests = s.requests ++ [q.bytes] ∧
      (s.step L a).waiting = some q ∧ (s.step L a).client = s.client.nextTID) ∧
    ((s.step L a).waiting = s.waiting ∨ (s.step L a).waiting = none ∨ ∃ objCode esv ps q,
      a = .post objCode esv ps ∧ Issued s objCode esv ps q ∧ (s.step L a).waiting = some q ∧
      (s.step L a).requests = s.requests ++ [q.bytes]) ∧
    ((s.step L a).replies = s.replies ∨ ∃ k b m r, a = .serve k ∧ s.requests[k]? = some b ∧
      arriving L.toIf L.from_ b = some m ∧
      s.server.onMessageUDP L.env L.db m = .ok ((s.step L a).server, [⟨r, L.from_⟩]) ∧
      (s.step L a).replies = s.replies ++ [r]) ∧
    ((s.step L a).returned = s.returned ∨ ∃ k b m q, a = .deliver k ∧ s.replies[k]? = some b ∧
      arriving L.fromIf L.to_ b = some m ∧ s.waiting = some q ∧ m.getTID = q.getTID ∧
      (s.step L a).returned = s.returned ++ [m]) := by
  have hans : ∀ m back, (s.answer L m back).client = s.client ∧ (s.answer L m back).requests = s.requests ∧
      (s.answer L m back).waiting = s.waiting ∧ (s.answer L m back).returned = s.returned := by
    intro m back
    unfold Net.answer
    cases s.server.onMessageUDP L.env L.db m <;> exact ⟨rfl, rfl, rfl, rfl⟩
  cases a with
  | post objCode esv ps =>
    show (((s.post objCode esv ps).client = _ ∨ _ ∧ (s.post objCode esv ps).client = _) ∧ _)
    simp only [Net.step]
    unfold Net.post
    cases hw : s.waiting with
    | some q => exact ⟨.inl rfl, .inl rfl, .inl hw, .inl rfl, .inl rfl⟩
    | none =>
      dsimp only
      have hc : (s.client.sendRequest objCode esv ps).1 = s.client ∨
          (s.client.sendRequest objCode esv ps).1 = s.client.nextTID := by
        unfold Node.sendRequest Node.sendMessage
        split
        · exact .inl rfl
        · dsimp only
          split
          · exact .inr rfl
          · split <;> exact .inr rfl
      have hc2 : (s.client.sendRequest objCode esv ps).2.1 ≠ none →
          (s.client.sendRequest objCode esv ps).1 = s.client.nextTID := by
        unfold Node.sendRequest Node.sendMessage
        split
        · exact fun h => absurd rfl h
        · dsimp only
          split
          · exact fun h => absurd rfl h
          · split
            · exact fun h => absurd rfl h
            · exact fun _ => rfl
      cases hs : s.client.sendRequest objCode esv ps with
      | mk c' rest =>
        cases rest with
        | mk q e =>
          rw [hs] at hc hc2
          dsimp only at hc hc2
          cases q with
          | none =>
            refine ⟨?_, .inl rfl, .inl rfl, .inl rfl, .inl rfl⟩
            rcases hc with h | h
            · exact .inl h
            · exact .inr ⟨rfl, h⟩
          | some q =>
            have h := hc2 (by simp)
            have hi : Issued s objCode esv ps q := ⟨hw, by rw [hs]⟩
            exact ⟨.inr ⟨rfl, h⟩, .inr ⟨objCode, esv, ps, q, rfl, hi, rfl, rfl, h⟩,
              .inr (.inr ⟨objCode, esv, ps, q, rfl, hi, rfl, rfl⟩), .inl rfl, .inl rfl⟩
  | other => exact ⟨.inr ⟨rfl, rfl⟩, .inl rfl, .inl rfl, .inl rfl, .inl rfl⟩
  | timeout => exact ⟨.inl rfl, .inl rfl, .inr (.inl rfl), .inl rfl, .inl rfl⟩
  | change op => exact ⟨.inl rfl, .inl rfl, .inl rfl, .inl rfl, .inl rfl⟩
  | message m =>
    obtain ⟨h1, h2, h3, h4⟩ := hans m false
    refine ⟨.inl h1, .inl h2, .inl h3, .inl ?_, .inl h4⟩
    show (s.answer L m false).replies = _
    unfold Net.answer
    cases s.server.onMessageUDP L.env L.db m with
    | ok x => exact List.append_nil _
    | err e => rfl
    | panic => rfl
  | serve k =>
    simp only [Net.step]
    unfold Net.serve
    cases hk : s.requests[k]? with
    | none => exact ⟨.inl rfl, .inl rfl, .inl rfl, .inl rfl, .inl rfl⟩
    | some b =>
      dsimp only
      cases hm : arriving L.toIf L.from_ b with
      | none => exact ⟨.inl rfl, .inl rfl, .inl rfl, .inl rfl, .inl rfl⟩
      | some m =>
        dsimp only
        obtain ⟨h1, h2, h3, h4⟩ := hans m true
        refine ⟨.inl h1, .inl h2, .inl h3, ?_, .inl h4⟩
        obtain ⟨n', ds, e1, e2, e3⟩ := C70_to_sender L.env L.db s.server m
        obtain ⟨m0, -, hm0⟩ := arriving_some hm
        have hsrc : m.src = L.from_ := by rw [hm0]
        have hx : s.answer L m true = ⟨s.client, n', s.requests, s.replies ++ ds.map (·.data), s.waiting,
            s.returned⟩ := by
          unfold Net.answer
          rw [e1]
          rfl
        rw [hx]
        match ds, e1, e2, e3 with
        | [], _, _, _ => exact .inl (List.append_nil _)
        | [d], e1, _, e3 =>
          refine .inr ⟨k, b, m, d.data, rfl, hk, hm, ?_, rfl⟩
          rw [e1, ← hsrc, ← e3 d (List.mem_singleton.mpr rfl)]
        | _ :: _ :: _, _, e2, _ => simp at e2
  | deliver k =>
    simp only [Net.step]
    unfold Net.deliver
    cases hk : s.replies[k]? with
    | none => exact ⟨.inl rfl, .inl rfl, .inl rfl, .inl rfl, .inl rfl⟩
    | some b =>
      dsimp only
      cases hm : arriving L.fromIf L.to_ b with
      | none => exact ⟨.inl rfl, .inl rfl, .inl rfl, .inl rfl, .inl rfl⟩
      | some m =>
        dsimp only
        split
        · next ht =>
          refine ⟨.inl rfl, .inl rfl, .inr (.inl rfl), .inl rfl, .inr ?_⟩
          unfold Node.isResponseMessage at ht
          dsimp only at ht
          cases hw : s.waiting with
          | none => rw [hw] at ht; cases ht
          | some q =>
            rw [hw] at ht
            dsimp only at ht
            refine ⟨k, b, m, q, rfl, hk, hm, rfl, ?_, rfl⟩
            split at ht
            · cases ht
            · split at ht
              · cases ht
              · next h => exact Classical.byContradiction h
        · exact ⟨.inl rfl, .inl rfl, .inl rfl, .inl rfl, .inl rfl⟩


section
variable (L : Link) (c n : Node) (acts : List NetAct)

theorem requests_origin (t : Nat) : ∀ (k : Nat) (b : Bytes), (netAt L c n acts t).requests[k]? = some b →
    ∃ i objCode esv ps q, i < t ∧ acts[i]? = some (.post objCode esv ps) ∧
      Issued (netAt L c n acts i) objCode esv ps q ∧ q.bytes = b ∧
      (netAt L c n acts (i + 1)).client = (netAt L c n acts i).client.nextTID := by
  induction t with
  | zero => intro k b h; simp [netAt, Net.run, Net.init] at h
  | succ t ih =>
    intro k b h
    cases ha : acts[t]? with
    | none =>
      rw [netAt_end _ _ _ _ _ ha] at h
      obtain ⟨i, o, e, ps, q, h1, h2⟩ := ih k b h
      exact ⟨i, o, e, ps, q, by omega, h2⟩
    | some a =>
      have hs := netAt_succ L c n acts t a ha
      rcases (step_cases L (netAt L c n acts t) a).2.1 with h' | ⟨o, e, ps, q, rfl, hi, h', -, hc⟩
      · rw [hs, h'] at h
        obtain ⟨i, o, e, ps, q, h1, h2⟩ := ih k b h
        exact ⟨i, o, e, ps, q, by omega, h2⟩
      · rw [hs, h', List.getElem?_append] at h
        split at h
        · obtain ⟨i, o, e, ps, q, h1, h2⟩ := ih k b h
          exact ⟨i, o, e, ps, q, by omega, h2⟩
        · rw [List.getElem?_singleton] at h
          split at h
          · exact ⟨t, o, e, ps, q, by omega, ha, hi, Option.some.inj h, by rw [hs]; exact hc⟩
          · cases h

theorem waiting_origin (t : Nat) : ∀ q, (netAt L c n acts t).waiting = some q →
    ∃ i objCode esv ps, i < t ∧ acts[i]? = some (.post objCode esv ps) ∧
      Issued (netAt L c n acts i) objCode esv ps q ∧
      (netAt L c n acts (i + 1)).client = (netAt L c n acts i).client.nextTID ∧
      ∀ u, i < u → u ≤ t → (netAt L c n acts u).waiting = some q := by
  induction t with
  | zero => intro q h; simp [netAt, Net.run, Net.init] at h
  | succ t ih =>
    intro q h
    have old : (netAt L c n acts t).waiting = some q → ∃ i objCode esv ps, i < t + 1 ∧
        acts[i]? = some (.post objCode esv ps) ∧ Issued (netAt L c n acts i) objCode esv ps q ∧
        (netAt L c n acts (i + 1)).client = (netAt L c n acts i).client.nextTID ∧
        ∀ u, i < u → u ≤ t + 1 → (netAt L c n acts u).waiting = some q := by
      intro h'
      obtain ⟨i, o, e, ps, h1, h2, h3, h4, h5⟩ := ih q h'
      refine ⟨i, o, e, ps, by omega, h2, h3, h4, fun u hu1 hu2 => ?_⟩
      by_cases hu : u = t + 1
      · rw [hu]; exact h
      · exact h5 u hu1 (by omega)
    cases ha : acts[t]? with
    | none =>
      rw [netAt_end _ _ _ _ _ ha] at h
      exact old h
    | some a =>
      have hs := netAt_succ L c n acts t a ha
      obtain ⟨-, hr, hw, -⟩ := step_cases L (netAt L c n acts t) a
      rcases hw with h' | h' | ⟨o, e, ps, q', rfl, hi, h', hrq⟩
      · exact old (by rw [← h', ← hs]; exact h)
      · rw [hs, h'] at h; cases h
      · rw [hs, h'] at h
        cases h
        rcases hr with hr | ⟨-, -, -, -, -, -, -, -, hc⟩
        · rw [hrq] at hr
          have := congrArg List.length hr
          simp at this
        · refine ⟨t, o, e, ps, by omega, ha, hi, by rw [hs]; exact hc, fun u hu1 hu2 => ?_⟩
          rw [show u = t + 1 by omega, hs]
          exact h'

theorem replies_origin (t : Nat) : ∀ (k : Nat) (r : Bytes), (netAt L c n acts t).replies[k]? = some r →
    ∃ w j b m, w < t ∧ acts[w]? = some (.serve j) ∧ (netAt L c n acts w).requests[j]? = some b ∧
      arriving L.toIf L.from_ b = some m ∧
      (netAt L c n acts w).server.onMessageUDP L.env L.db m =
        .ok ((netAt L c n acts (w + 1)).server, [⟨r, L.from_⟩]) := by
  induction t with
  | zero => intro k b h; simp [netAt, Net.run, Net.init] at h
  | succ t ih =>
    intro k b h
    cases ha : acts[t]? with
    | none =>
      rw [netAt_end _ _ _ _ _ ha] at h
      obtain ⟨i, o, e, ps, h1, h2⟩ := ih k b h
      exact ⟨i, o, e, ps, by omega, h2⟩
    | some a =>
      have hs := netAt_succ L c n acts t a ha
      rcases (step_cases L (netAt L c n acts t) a).2.2.2.1 with h' | ⟨j, b', m, r, rfl, hj, hm, ho, h'⟩
      · rw [hs, h'] at h
        obtain ⟨i, o, e, ps, h1, h2⟩ := ih k b h
        exact ⟨i, o, e, ps, by omega, h2⟩
      · rw [hs, h', List.getElem?_append] at h
        split at h
        · obtain ⟨i, o, e, ps, h1, h2⟩ := ih k b h
          exact ⟨i, o, e, ps, by omega, h2⟩
        · rw [List.getElem?_singleton] at h
          split at h
          · refine ⟨t, j, b', m, by omega, ha, hj, hm, ?_⟩
            rw [hs, ← Option.some.inj h]
            exact ho
          · cases h

/-- The number of identifiers used in the first `t` steps. -/
def idCount : Nat → Nat
  | 0 => 0
  | t + 1 => idCount t +
      if (netAt L c n acts (t + 1)).client.lastTID = (netAt L c n acts t).client.lastTID then 0 else 1

theorem nextTID_differs (x : Node) (h : x.lastTID.toNat ≤ 65535) : x.nextTID.lastTID ≠ x.lastTID := by
  rw [nextTID_eq]
  intro e
  have := congrArg BitVec.toNat e
  rw [show ({ x with lastTID := nextId x.lastTID } : Node).lastTID = nextId x.lastTID from rfl,
    nextId_toNat _ h] at this
  omega

theorem idCount_spec (hc : c.lastTID.toNat ≤ 65535) (t : Nat) :
    (netAt L c n acts t).client.lastTID.toNat = (c.lastTID.toNat + idCount L c n acts t) % 65536 ∧
    idCount L c n acts t ≤ ((acts.take t).filter usesId).length ∧
    (∃ l, (netAt L c n acts t).client = { c with lastTID := l }) := by
  induction t with
  | zero =>
    refine ⟨?_, Nat.le_refl _, c.lastTID, rfl⟩
    show c.lastTID.toNat = _
    unfold idCount
    omega
  | succ t ih =>
    obtain ⟨i1, i2, l, i3⟩ := ih
    have hle : (netAt L c n acts t).client.lastTID.toNat ≤ 65535 := by omega
    have hf : ((acts.take t).filter usesId).length ≤ ((acts.take (t + 1)).filter usesId).length := by
      rw [List.take_add_one, List.filter_append, List.length_append]; omega
    cases ha : acts[t]? with
    | none =>
      have hs := netAt_end L c n acts t ha
      unfold idCount
      rw [hs, if_pos rfl]
      exact ⟨i1, by omega, l, i3⟩
    | some a =>
      have hs := netAt_succ L c n acts t a ha
      rcases (step_cases L (netAt L c n acts t) a).1 with h' | ⟨hu, h'⟩
      · unfold idCount
        rw [hs, h', if_pos rfl]
        exact ⟨i1, by omega, l, i3⟩
      · unfold idCount
        rw [hs, h', if_neg (nextTID_differs _ hle)]
        refine ⟨?_, ?_, nextId l, ?_⟩
        · rw [nextTID_eq]
          show (nextId _).toNat = _
          rw [nextId_toNat _ hle, i1]
          omega
        · rw [List.take_add_one, ha, List.filter_append, List.length_append]
          simp only [Option.toList_some, List.filter_cons, hu, if_true, List.filter_nil, List.length_cons,
            List.length_nil]
          omega
        · rw [nextTID_eq, i3]

theorem idCount_mono {t t' : Nat} (h : t ≤ t') : idCount L c n acts t ≤ idCount L c n acts t' := by
  induction t' with
  | zero => rw [Nat.le_zero.mp h]; exact Nat.le_refl _
  | succ t' ih =>
    by_cases e : t = t' + 1
    · rw [e]; exact Nat.le_refl _
    · refine Nat.le_trans (ih (by omega)) ?_
      show _ ≤ idCount L c n acts t' + _
      omega

end

/-- The request of a post: a message that was built, with the next identifier. -/
theorem issued_built {s : Net} {objCode : ObjectCode} {esv : ESV} {ps : List EProp} {q : Message}
    (h : Issued s objCode esv ps q) (hl : s.client.lastTID.toNat ≤ 65535) :
    Built q ∧ q.getTID.toNat = (s.client.lastTID.toNat + 1) % 65536 := by
  have h2 := h.2
  obtain ⟨b1, -⟩ := C88_options [.deoj objCode, .esv esv, .props ps]
  unfold Node.sendRequest Node.sendMessage requestOf at h2
  split at h2
  · cases h2
  · dsimp only at h2
    split at h2
    · cases h2
    · split at h2
      · cases h2
      · have e := Option.some.inj h2
        rw [← e]
        refine ⟨.setSEOJ _ (.setTID _ b1), ?_⟩
        exact tcpRequest_tid s.client _ b1 hl

/-- Two posts whose requests have the same identifier are the same, as long as no more identifiers are
used than there are. -/
theorem issued_once (L : Link) (c n : Node) (acts : List NetAct) (hc : c.lastTID.toNat ≤ 65535)
    (hn : (acts.filter usesId).length ≤ 65536) (i i' : Nat) (o o' : ObjectCode) (e e' : ESV)
    (ps ps' : List EProp) (q q' : Message)
    (h : Issued (netAt L c n acts i) o e ps q) (h' : Issued (netAt L c n acts i') o' e' ps' q')
    (hs : (netAt L c n acts (i + 1)).client = (netAt L c n acts i).client.nextTID)
    (hs' : (netAt L c n acts (i' + 1)).client = (netAt L c n acts i').client.nextTID)
    (ht : q.getTID = q'.getTID) : i = i' := by
  have key : ∀ (j : Nat) (x : Net), x = netAt L c n acts j → x.client.lastTID.toNat ≤ 65535 := by
    intro j x hx
    have := (idCount_spec L c n acts hc j).1
    rw [hx]; omega
  have up : ∀ j : Nat, (netAt L c n acts (j + 1)).client = (netAt L c n acts j).client.nextTID →
      idCount L c n acts (j + 1) = idCount L c n acts j + 1 := by
    intro j hj
    show idCount L c n acts j + _ = _
    rw [hj, if_neg (nextTID_differs _ (key j _ rfl))]
  have most : ∀ j, idCount L c n acts j ≤ 65536 := by
    intro j
    refine Nat.le_trans (idCount_spec L c n acts hc j).2.1 (Nat.le_trans ?_ hn)
    exact (List.Sublist.filter _ (List.take_sublist _ _)).length_le
  have t1 := (issued_built h (key i _ rfl)).2
  have t2 := (issued_built h' (key i' _ rfl)).2
  rw [(idCount_spec L c n acts hc i).1] at t1
  rw [(idCount_spec L c n acts hc i').1] at t2
  have ht' := congrArg BitVec.toNat ht
  rw [t1, t2] at ht'
  have u1 := up i hs
  have u2 := up i' hs'
  have m1 := most (i + 1)
  have m2 := most (i' + 1)
  rcases Nat.lt_trichotomy i i' with h | h | h
  · have := idCount_mono L c n acts (show i + 1 ≤ i' by omega)
    omega
  · exact h
  · have := idCount_mono L c n acts (show i' + 1 ≤ i by omega)
    omega


/-! ## C158 -/

/-- C158, the part that holds. As long as the posting node uses each identifier once, a response that a
post returns is the answer to its own request, made between the call and the return: whatever is lost,
delayed, repeated or overtaken, there are a step `i` at which the post was made with request `q`, which
waits ever since, and a later step `w` at which a datagram with this request arrived at the node asked;
that node, as it was then, replied with one datagram, and the message returned is this datagram
received. -/
theorem C158_answered_partial (L : Link) (c n : Node) (acts : List NetAct) (hc : c.lastTID.toNat ≤ 65535)
    (hn : (acts.filter usesId).length ≤ 65536) (t : Nat) (res : Message)
    (ht : (netAt L c n acts (t + 1)).returned = (netAt L c n acts t).returned ++ [res]) :
    ∃ i w j objCode esv ps q m b, i < w ∧ w < t ∧ acts[i]? = some (.post objCode esv ps) ∧
      Issued (netAt L c n acts i) objCode esv ps q ∧
      (∀ u, i < u → u ≤ t → (netAt L c n acts u).waiting = some q) ∧
      acts[w]? = some (.serve j) ∧ (netAt L c n acts w).requests[j]? = some q.bytes ∧
      arriving L.toIf L.from_ q.bytes = some m ∧
      (netAt L c n acts w).server.onMessageUDP L.env L.db m =
        .ok ((netAt L c n acts (w + 1)).server, [⟨b, L.from_⟩]) ∧
      b ∈ (netAt L c n acts t).replies ∧ arriving L.fromIf L.to_ b = some res := by
  have hle : ∀ j : Nat, (netAt L c n acts j).client.lastTID.toNat ≤ 65535 := by
    intro j
    have := (idCount_spec L c n acts hc j).1
    omega
  cases ha : acts[t]? with
  | none =>
    rw [netAt_end _ _ _ _ _ ha] at ht
    have := congrArg List.length ht
    simp at this
  | some a =>
    have hs := netAt_succ L c n acts t a ha
    rcases (step_cases L (netAt L c n acts t) a).2.2.2.2 with h' | ⟨k, b, m, q, rfl, hk, hm, hw, htid, h'⟩
    · rw [hs, h'] at ht
      have := congrArg List.length ht
      simp at this
    · rw [hs, h'] at ht
      have hres : m = res := by
        have := List.append_cancel_left ht
        simpa using this
      subst hres
      obtain ⟨i, o, e, ps, i1, i2, i3, i4, i5⟩ := waiting_origin L c n acts t q hw
      obtain ⟨w, j, rb, m', w1, w2, w3, w4, w5⟩ := replies_origin L c n acts t k b hk
      obtain ⟨i', o', e', ps', q', j1, j2, j3, j4, j5⟩ := requests_origin L c n acts w j rb w3
      obtain ⟨bq, -⟩ := issued_built j3 (hle i')
      -- the identifier of the reply is that of the request it answers
      have htids : m.getTID = q'.getTID := by
        rw [← j4] at w4
        obtain ⟨a1, a2, -, -⟩ := arriving_header bq w4
        obtain ⟨out, r, hx, -, hr, rfl, -⟩ := reply_sent w5
        obtain ⟨r1, r2, -⟩ := reply_origin L.env L.db _ m' a1 out hx r hr
        obtain ⟨-, x2, -⟩ := arriving_header r1 hm
        exact x2.trans (r2.trans a2)
      have hi : i = i' := issued_once L c n acts hc hn i i' o o' e e' ps ps' q q' i3 j3 i4 j5
        (htid.symm.trans htids)
      subst hi
      rw [i2] at j2
      cases j2
      have hq : q = q' := by
        have := i3.2.symm.trans j3.2
        exact Option.some.inj this
      subst hq
      rw [← j4] at w3 w4
      exact ⟨i, w, j, o, e, ps, q, m', b, j1, w1, i2, i3, i5, w2, w3, w4, w5,
        List.mem_of_getElem? hk, hm⟩

/-- C158, for reads. When a post for the properties with codes `cs` of an object returns, there is a
moment between its call (step `i`) and its return (step `t`) such that either the response holds, for each
code that the object addressed had at this moment, exactly the data it had then, or the response is a
refusal, and at this moment the node asked did not accept the request. So all values are of one and the
same moment, and none is older than the call. Properties are at most 255 bytes and the response at most
1024 bytes long; longer ones are misread (C05, C06). -/
theorem C158_read_partial (L : Link) (c n : Node) (hb : Base c) (hr : c.running = true)
    (acts : List NetAct) (hc : c.lastTID.toNat ≤ 65535) (hn : (acts.filter usesId).length ≤ 65536)
    (t : Nat) (res : Message)
    (ht : (netAt L c n acts (t + 1)).returned = (netAt L c n acts t).returned ++ [res])
    (hdata : ∀ u r o, (netAt L c n acts u).server.get r = some o → ∀ p ∈ o.props, p.data.length ≤ 255)
    (hfit : ∀ b ∈ (netAt L c n acts t).replies, b.length ≤ 1024) :
    ∃ i objCode esv ps q, i < t ∧ acts[i]? = some (.post objCode esv ps) ∧
      Issued (netAt L c n acts i) objCode esv ps q ∧
      (∀ u, i < u → u ≤ t → (netAt L c n acts u).waiting = some q) ∧
      ∀ cs, esv = 0x62 → ps = asking cs → cs.length ≤ 255 → objCode.toNat < 2 ^ 24 →
        ∃ w m, i < w ∧ w < t ∧ arriving L.toIf L.from_ q.bytes = some m ∧
          ((res.esv = 0x72 ∧ Accepts (netAt L c n acts w).server m ∧
              ∃ r o, Addressed (netAt L c n acts (w + 1)).server objCode r o ∧
              ∃ vs, res.clientProperties = .ok vs ∧ vs.map (fun p => (p.code, p.data)) =
                cs.filterMap (fun x => (o.props.lookup x).map (fun p => (x, p.data)))) ∨
            (res.esv = 0x52 ∧ ¬ Accepts (netAt L c n acts w).server m ∧
              (netAt L c n acts (w + 1)).server = (netAt L c n acts w).server)) := by
  obtain ⟨i, w, j, objCode, esv, ps, q, m, b, h1, h2, h3, h4, h5, h6, h7, h8, h9, h10, h11⟩ :=
    C158_answered_partial L c n acts hc hn t res ht
  refine ⟨i, objCode, esv, ps, q, by omega, h3, h4, h5, ?_⟩
  rintro cs rfl rfl hl ho
  refine ⟨w, m, h1, h2, h8, ?_⟩
  -- the request
  obtain ⟨e1, -, l, e2⟩ := idCount_spec L c n acts hc i
  have hbi : Base (netAt L c n acts i).client := by
    rw [e2]
    exact ⟨fun r o h => hb.wf r o (by cases r <;> exact h), hb.prof⟩
  obtain ⟨q', k1, k2, k3, k4, k5⟩ := C88_wire (netAt L c n acts i).client hbi (by rw [e2]; exact hr)
    (by omega) objCode ho 0x62 (asking cs) (by rw [asking, List.length_map]; exact hl)
    (fun p hp => by
      obtain ⟨x, -, rfl⟩ := List.mem_map.mp hp
      show (0 : Nat) ≤ 255
      omega)
  have hq : q = q' := by
    have := h4.2
    rw [k1] at this
    exact (Option.some.inj this).symm
  subst hq
  generalize hf : requestFrame (netAt L c n acts i).client.lastTID.toNat objCode 0x62 (asking cs) = f
    at k3 k4 k5
  have fprops : f.props = cs.map (fun x => ⟨x, []⟩) := by
    rw [← hf]
    show (asking cs).map _ = _
    rw [asking, List.map_map]; rfl
  have hlen : f.encode.length ≤ 1024 := by
    rw [encode_length, fprops, List.map_map]
    have : ∀ l : List Byte, (l.map ((fun p : WireProp => 2 + p.edt.length) ∘ fun x => ⟨x, []⟩)).sum
        = 2 * l.length := by
      intro l
      induction l with
      | nil => rfl
      | cons x l ih =>
        rw [List.map_cons, List.sum_cons, ih, List.length_cons]
        show 2 + 0 + _ = _
        omega
    rw [this]
    omega
  obtain ⟨m', m1, m2, m3, -⟩ := arriving_frame (ifi := L.toIf) (a := L.from_) k3 hlen
  rw [k5, m1] at h8
  cases h8
  have hesv : m.esv = 0x62 := by rw [m3.esv, ← hf]; rfl
  have hdeoj : m.getDEOJ = objCode := by
    apply BitVec.eq_of_toNat_eq
    rw [m3.deoj, ← hf]; rfl
  -- the reply
  obtain ⟨out, r, o1, o2, o3, rfl, o5⟩ := reply_sent h9
  obtain ⟨r1, r2, r3, r4⟩ := reply_origin L.env L.db _ m m2 out o1 r o3
  rw [o5]
  obtain ⟨-, -, x3, -⟩ := arriving_header r1 h11
  rcases r4 with ⟨s1, s2, s3⟩ | ⟨s1, s2, s3, ⟨rs, s4, s5⟩, ro, o, s6⟩
  · refine .inr ⟨?_, s1, s2⟩
    rw [x3, s3, hesv]; rfl
  · refine .inl ⟨by rw [x3, s2, hesv]; rfl, s1, ro, o, by rw [← hdeoj]; exact s6, ?_⟩
    have hd : ∀ p ∈ o.props, p.data.length ≤ 255 :=
      hdata (w + 1) ro o (by rw [o5]; exact (addressed_lookup s6).2)
    obtain ⟨v1, -, r', v3, v4⟩ := answer_frame f k3 m m2 m3 L.env L.db _ r3 s1 out o1 rs s4 s5
      ⟨0x62, .request, false, true, some 0x72, some 0x52⟩ (by decide) (by rw [← hf]; rfl) 0x72 rfl ro o s6 hd
    rw [o3] at v3
    cases v3
    have hfr := hfit _ h10
    rw [v4] at hfr h11
    obtain ⟨z, z1, -, z3, -⟩ := arriving_frame (ifi := L.fromIf) (a := L.to_) v1 hfr
    rw [z1] at h11
    cases h11
    obtain ⟨vs, p1, p2, -⟩ := C88_properties _ _ z3
    refine ⟨vs, p1, ?_⟩
    rw [p2]
    show (answers o f.props).map _ = _
    rw [fprops, answers, List.filterMap_map, List.map_filterMap]
    apply congrArg (fun g => List.filterMap g cs)
    funext x
    simp only [Function.comp]
    cases o.props.lookup x <;> rfl

theorem run_others (L : Link) (k : Nat) : ∀ s : Net, s.client.lastTID.toNat ≤ 65535 →
    ∃ l : GoUint, s.run L (List.replicate k .other) =
        ⟨{ s.client with lastTID := l }, s.server, s.requests, s.replies, s.waiting, s.returned⟩ ∧
      l.toNat = (s.client.lastTID.toNat + k) % 65536 := by
  induction k with
  | zero => intro s h; exact ⟨s.client.lastTID, rfl, by omega⟩
  | succ k ih =>
    intro s h
    rw [List.replicate_succ]
    obtain ⟨l, h1, h2⟩ := ih ⟨s.client.nextTID, s.server, s.requests, s.replies, s.waiting, s.returned⟩
      (by rw [nextTID_eq]; exact nextId_le _ h)
    refine ⟨l, ?_, ?_⟩
    · show Net.run L ⟨s.client.nextTID, s.server, s.requests, s.replies, s.waiting, s.returned⟩ _ = _
      rw [h1, nextTID_eq]
    · rw [h2, nextTID_eq]
      show ((nextId s.client.lastTID).toNat + k) % 65536 = _
      rw [nextId_toNat _ h]
      omega

/-- C158 is false once identifiers are used again. A post for properties of an object is answered, but
the answer is late and the post gives up. The object is then changed by any call `op`, and 65535 other
messages are sent. The next post for the same properties returns, if the late answer arrives first, the
data from before the change, although the change was made long before this post was called. -/
theorem C158_refuted_any (L : Link) (c : Node) (hb : Base c) (hr : c.running = true)
    (ht : c.lastTID.toNat ≤ 65535) (n : Node) (r : ObjRef) (o : Obj) (objCode : ObjectCode)
    (hc : objCode.toNat < 2 ^ 24) (ho : Addressed n objCode r o) (cs : List Byte) (hl : cs.length ≤ 255)
    (hread : ∀ x ∈ cs, ∃ p, o.props.lookup x = some p ∧ p.getAttr ≠ 0)
    (hdata : ∀ q ∈ o.props, q.data.length ≤ 255)
    (hfit : 12 + (cs.map (fun x => 2 + (stored o x).length)).sum ≤ 1024)
    (he : Passive L.env 0x62) (hac : n.selfMsg = true ∨ L.from_ ≠ n.addr) (op : NodeOp) :
    let s := (Net.init c n).run L ([.post objCode 0x62 (asking cs), .serve 0, .timeout, .change op] ++
      List.replicate 65535 .other)
    let s1 := s.run L [.post objCode 0x62 (asking cs)]
    let s2 := s1.run L [.deliver 0]
    s.waiting = none ∧ s.returned = [] ∧ s.server = (op.run L.db n).1 ∧ s1.server = (op.run L.db n).1 ∧
    s2.server = (op.run L.db n).1 ∧
    ∃ res, s2.returned = [res] ∧ res.esv = 0x72 ∧ res.getSEOJ = objCode ∧
      ∃ vs, res.clientProperties = .ok vs ∧
        vs.map (fun p => (p.code, p.data)) = cs.map (fun x => (x, stored o x)) := by
  obtain ⟨q, m, reply, res, h1, h2, h3, h4, h5⟩ := C89_read c hb hr ht n r o objCode hc ho cs hl hread hdata
    hfit L.env he L.db L.from_ L.to_ hac L.fromIf L.toIf
  have hq : c.sendRequest objCode 0x62 (asking cs) = (c.nextTID, some q, none) := h1
  have a1 : arriving L.toIf L.from_ q.bytes = some m := by unfold arriving; rw [h2]; rfl
  have a2 : arriving L.fromIf L.to_ reply = some res := by unfold arriving; rw [h4]; rfl
  have p1 : (Net.init c n).post objCode 0x62 (asking cs) = ⟨c.nextTID, n, [q.bytes], [], some q, []⟩ := by
    show (match c.sendRequest objCode 0x62 (asking cs) with
      | (c, some q, _) => _
      | (c, none, _) => _) = _
    rw [hq]; rfl
  have p2 : (⟨c.nextTID, n, [q.bytes], [], some q, []⟩ : Net).serve L 0
      = ⟨c.nextTID, n, [q.bytes], [reply], some q, []⟩ := by
    show (match arriving L.toIf L.from_ q.bytes with
      | none => _
      | some m => _) = _
    rw [a1]
    show Net.answer L _ m true = _
    unfold Net.answer
    rw [h3]; rfl
  have hle : c.nextTID.lastTID.toNat ≤ 65535 := by rw [nextTID_eq]; exact nextId_le _ ht
  obtain ⟨l, g1, g2⟩ := run_others L 65535 ⟨c.nextTID, (op.run L.db n).1, [q.bytes], [reply], none, []⟩ hle
  have hback : ({ c.nextTID with lastTID := l } : Node) = c := by
    have : l = c.lastTID := by
      apply BitVec.eq_of_toNat_eq
      rw [g2, nextTID_eq]
      show ((nextId c.lastTID).toNat + 65535) % 65536 = _
      rw [nextId_toNat _ ht]
      omega
    rw [this, nextTID_eq]
  dsimp only at g1
  rw [hback] at g1
  have hs : (Net.init c n).run L ([.post objCode 0x62 (asking cs), .serve 0, .timeout, .change op] ++
      List.replicate 65535 .other) = ⟨c, (op.run L.db n).1, [q.bytes], [reply], none, []⟩ := by
    rw [← g1]
    unfold Net.run
    rw [List.foldl_append]
    simp only [List.foldl_cons, List.foldl_nil, Net.step]
    rw [p1, p2]
  intro s
  have hs' : s = ⟨c, (op.run L.db n).1, [q.bytes], [reply], none, []⟩ := hs
  clear_value s
  subst hs'
  have p3 : (⟨c, (op.run L.db n).1, [q.bytes], [reply], none, []⟩ : Net).post objCode 0x62 (asking cs)
      = ⟨c.nextTID, (op.run L.db n).1, [q.bytes, q.bytes], [reply], some q, []⟩ := by
    show (match c.sendRequest objCode 0x62 (asking cs) with
      | (c, some q, _) => _
      | (c, none, _) => _) = _
    rw [hq]; rfl
  have p4 : (⟨c.nextTID, (op.run L.db n).1, [q.bytes, q.bytes], [reply], some q, []⟩ : Net).deliver L 0
      = ⟨c.nextTID, (op.run L.db n).1, [q.bytes, q.bytes], [reply], none, [res]⟩ := by
    show (match arriving L.fromIf L.to_ reply with
      | none => _
      | some m => _) = _
    rw [a2]
    show (if Node.isResponseMessage { c.nextTID with pending := some q } res then _ else _) = _
    rw [if_pos (h5.taken c.nextTID)]
    rfl
  intro s1
  have hs1 : s1 = ⟨c.nextTID, (op.run L.db n).1, [q.bytes, q.bytes], [reply], some q, []⟩ := p3
  clear_value s1
  subst hs1
  intro s2
  have hs2 : s2 = ⟨c.nextTID, (op.run L.db n).1, [q.bytes, q.bytes], [reply], none, [res]⟩ := p4
  clear_value s2
  subst hs2
  exact ⟨rfl, rfl, rfl, rfl, rfl, res, rfl, h5.service, h5.object, h5.props⟩

/-- A network for examples. -/
def aLink : Link := ⟨noEnv, stdDB, ⟨"10.0.0.1", 3610⟩, ⟨"10.0.0.2", 3610⟩, "eth0", "eth0"⟩

/-- A node that posts, for examples. -/
def aClient : Node := { Node.new stdDB with running := true, lastTID := 7 }

theorem base_started {n : Node} (h : Base n) (t : GoUint) : Base { n with running := true, lastTID := t } :=
  ⟨fun r o hg => h.wf r o (by cases r <;> exact hg), h.prof⟩

theorem aClient_base : Base aClient := base_started new_std.1 7

/-- A read that is answered late and given up, a change, a second read: the late answer to the first is
not taken, the answer to the second holds the new data. -/
def aRead : List NetAct :=
  [.post 0x013001 0x62 (asking [0x80]), .serve 0, .timeout, .change (.obj (.device 0) (.write 0x80 [0x31])),
    .post 0x013001 0x62 (asking [0x80]), .deliver 0, .serve 1, .deliver 1]

theorem first_returned {l l' : List Message} {t : GoUint} {ep : List (Option PProp)}
    (h : l = [] ∧ l'.map (fun m => (m.getTID, m.ep)) = [(t, ep)]) :
    ∃ res, l' = l ++ [res] ∧ res.getTID = t ∧ res.ep = ep := by
  match l, l', h with
  | [], [m], ⟨_, h2⟩ =>
    injection h2 with h2 _
    injection h2 with h3 h4
    exact ⟨m, rfl, h3, h4⟩

/-- The hypotheses of the theorems on posts are met by it, and what it returns. -/
example : Base aClient ∧ aClient.running = true ∧ aClient.lastTID.toNat ≤ 65535 ∧
    (aRead.filter usesId).length ≤ 65536 ∧
    (∃ res, (netAt aLink aClient smallNode aRead 8).returned =
      (netAt aLink aClient smallNode aRead 7).returned ++ [res] ∧ res.getTID = 9 ∧
      res.ep = [some ⟨0x80, [0x31]⟩]) ∧
    (∀ u r o, (netAt aLink aClient smallNode aRead u).server.get r = some o →
      ∀ p ∈ o.props, p.data.length ≤ 255) ∧
    (∀ b ∈ (netAt aLink aClient smallNode aRead 7).replies, b.length ≤ 1024) := by
  refine ⟨aClient_base, rfl, by decide, by decide, first_returned (by decide +kernel), ?_, by decide +kernel⟩
  · have key : ∀ n : Node, (∀ o ∈ n.devices ++ n.profiles, ∀ p ∈ o.props, p.data.length ≤ 255) →
        ∀ r o, n.get r = some o → ∀ p ∈ o.props, p.data.length ≤ 255 := by
      intro n h r o hg
      refine h o ?_
      cases r with
      | device i => exact List.mem_append.mpr (.inl (List.mem_of_getElem? hg))
      | profile i => exact List.mem_append.mpr (.inr (List.mem_of_getElem? hg))
    intro u
    apply key
    have small : ∀ v < 9, ∀ o ∈ (netAt aLink aClient smallNode aRead v).server.devices ++
        (netAt aLink aClient smallNode aRead v).server.profiles, ∀ p ∈ o.props, p.data.length ≤ 255 := by
      decide +kernel
    by_cases hu : u < 9
    · exact small u hu
    · have : netAt aLink aClient smallNode aRead u = netAt aLink aClient smallNode aRead 8 := by
        unfold netAt
        rw [List.take_of_length_le (by show 8 ≤ u; omega), List.take_of_length_le (Nat.le_refl 8)]
      rw [this]
      exact small 8 (by omega)

/-- The hypotheses of the refutation are met, and the change is one. -/
example : (∃ o, Addressed smallNode 0x013001 (.device 0) o ∧ o.props.lookup 0x80 = some ⟨"", 0x80, [0x30], 1, 1, 0⟩ ∧
      (∀ q ∈ o.props, q.data.length ≤ 255) ∧ stored o 0x80 = [0x30]) ∧
    Passive aLink.env 0x62 ∧ (smallNode.selfMsg = true ∨ aLink.from_ ≠ smallNode.addr) ∧
    (((NodeOp.obj (.device 0) (.write 0x80 [0x31])).run stdDB smallNode).1.get (.device 0)).map
      (fun o => stored o 0x80) = some [0x31] := by
  refine ⟨⟨smallNode.devices.head (by decide +kernel), ⟨by decide +kernel, by decide +kernel, by
    decide +kernel⟩, by decide +kernel, by decide +kernel, by decide +kernel⟩,
    Silent.passive ⟨rfl, fun _ => rfl, fun _ => rfl⟩ _, by decide +kernel, by decide +kernel⟩

end Verif.Props
