import Verif.Props.NetworkRead
import Verif.Props.ServeOrder

/-!
# C159: writes over a network that loses, delays, repeats and reorders datagrams
-/

namespace Verif.Props
open Verif Model Spec Lemmas

/-- The object lets the properties be written: it has them, writable, with data of the same size. -/
def Writable (o : Obj) (ps : List EProp) : Prop :=
  ∀ p ∈ ps, ∃ q, o.props.lookup p.code = some q ∧ q.setAttr ≠ 0 ∧ p.data.length = q.data.length

/-- A write over UDP to a node whose program stores what is written, and what becomes of the node. -/
theorem write_exchange (L : Link) (c : Node) (hb : Base c) (hr : c.running = true)
    (ht : c.lastTID.toNat ≤ 65535) (n : Node) (r : ObjRef) (o : Obj) (objCode : ObjectCode)
    (hc : objCode.toNat < 2 ^ 24) (ho : Addressed n objCode r o) (hdata : ∀ q ∈ o.props, q.data.length ≤ 255)
    (ps : List EProp) (hl : ps.length ≤ 255) (hsize : 12 + (ps.map (fun p => 2 + p.data.length)).sum ≤ 1024)
    (hwrite : Writable o ps) (he : Keeping L.env) (hac : n.selfMsg = true ∨ L.from_ ≠ n.addr) :
    ∃ q m n' reply res, SameFrame n n' ∧
      n'.get r = some (writeAll o (ps.map (fun p => ⟨p.code, p.data⟩))) ∧
      Addressed n' objCode r (writeAll o (ps.map (fun p => ⟨p.code, p.data⟩))) ∧ c.sendRequest objCode 0x61 ps = (c.nextTID, some q, none) ∧
      arriving L.toIf L.from_ q.bytes = some m ∧
      n.onMessageUDP L.env L.db m = .ok (n', [⟨reply, L.from_⟩]) ∧
      arriving L.fromIf L.to_ reply = some res ∧
      (∀ c : Node, Node.isResponseMessage { c with pending := some q } res = true) ∧ res.esv = 0x71 := by
  have hd : ∀ p ∈ ps, p.data.length ≤ 255 := by
    intro p hp
    obtain ⟨q, h1, -, h3⟩ := hwrite p hp
    rw [h3]
    exact hdata q (lookup_mem h1)
  have hrw := rewritten o hdata ps hwrite
  obtain ⟨hcodes, hsizes, hstored, hlook, hlen, hsome⟩ := id hrw
  generalize ho' : writeAll o (ps.map (fun p => ⟨p.code, p.data⟩)) = o'
    at hcodes hsizes hstored hlook hlen hrw ⊢
  obtain ⟨q, m, n', reply, res, ⟨hn1, hn2⟩, h1, h2, h3, h4, h5⟩ := exchange c hb hr ht n r o objCode hc ho
    ⟨0x61, .request, true, false, some 0x71, some 0x51⟩ (by decide) 0x71 rfl (by decide) ps hl hd hsize
    (fun p hp => by
      obtain ⟨y, hy, hs, hz⟩ := hwrite p hp
      refine ⟨y, hy, fun _ => ⟨hs, hz⟩, fun h => ?_⟩
      simp at h)
    L.env L.db (fun n' => SameFrame n n' ∧ ∀ r', n'.get r' = if r' = r then some o' else n.get r') o'
    (keeping_received n r o objCode ho L.env he L.db ps o' ho')
    (fun n' h => addressed_written ho hcodes h.2)
    (fun p hp => by
      obtain ⟨q, h1⟩ := Option.isSome_iff_exists.mp (hsome p hp)
      obtain ⟨q', h2, -⟩ := hlook _ q h1
      rw [h2]; rfl)
    hsizes (by
      have : ps.map (fun p => 2 + (stored o' p.code).length) = ps.map (fun p => 2 + p.data.length) := by
        apply List.map_congr_left
        intro p hp
        obtain ⟨q, h1, -, h3⟩ := hwrite p hp
        rw [hlen _ (hsome p hp), h3]
        unfold stored
        rw [h1]; rfl
      rw [this]; exact hsize) L.from_ L.to_ hac L.fromIf L.toIf
  refine ⟨q, m, n', reply, res, hn1, by rw [hn2, if_pos rfl], addressed_written ho hcodes hn2, h1,
    ?_, h3, ?_, h5.taken, h5.service⟩
  · unfold arriving; rw [h2]; rfl
  · unfold arriving; rw [h4]; rfl

/-- Writing properties leaves others writable as before. -/
theorem writable_after (o : Obj) (hdata : ∀ q ∈ o.props, q.data.length ≤ 255) (ps ps' : List EProp)
    (h : Writable o ps) (h' : Writable o ps') :
    Writable (writeAll o (ps.map (fun p => ⟨p.code, p.data⟩))) ps' := by
  intro p hp
  obtain ⟨q, h1, h2, h3⟩ := h' p hp
  obtain ⟨q', k1, -, k3⟩ := (rewritten o hdata ps h).look p.code q h1
  refine ⟨q', k1, ?_, h3.trans k3.symm⟩
  have hw := writeAll_lookup (ps.map (fun p => (⟨p.code, p.data⟩ : PProp))) o p.code
  rw [k1, h1] at hw
  rw [Option.some.inj hw]
  exact h2

/-- The data written last do not depend on what was there before. -/
theorem afterWrites_same (o o' : Obj) (ps : List EProp) (p : EProp) (hp : p ∈ ps) :
    afterWrites o ps p.code = afterWrites o' ps p.code := by
  unfold afterWrites
  cases h : (ps.filter (fun x => x.code = p.code)).getLast? with
  | some x => rfl
  | none =>
    rw [List.getLast?_eq_none_iff, List.filter_eq_nil_iff] at h
    exact absurd (by simp) (h p hp)


theorem serve_eq (L : Link) (s : Net) (k : Nat) (q m : Message) (n' : Node) (reply : Bytes)
    (h1 : s.requests[k]? = some q.bytes) (h2 : arriving L.toIf L.from_ q.bytes = some m)
    (h3 : s.server.onMessageUDP L.env L.db m = .ok (n', [⟨reply, L.from_⟩])) :
    s.step L (.serve k) = ⟨s.client, n', s.requests, s.replies ++ [reply], s.waiting, s.returned⟩ := by
  show s.serve L k = _
  unfold Net.serve
  rw [h1]
  dsimp only
  rw [h2]
  dsimp only
  unfold Net.answer
  rw [h3]
  rfl

theorem deliver_eq (L : Link) (s : Net) (k : Nat) (q res : Message) (b : Bytes)
    (h1 : s.replies[k]? = some b) (h2 : arriving L.fromIf L.to_ b = some res) (h3 : s.waiting = some q)
    (h4 : ∀ c : Node, Node.isResponseMessage { c with pending := some q } res = true) :
    s.step L (.deliver k) = ⟨s.client, s.server, s.requests, s.replies, none, s.returned ++ [res]⟩ := by
  show s.deliver L k = _
  unfold Net.deliver
  rw [h1]
  dsimp only
  rw [h2]
  dsimp only
  rw [h3, if_pos (h4 s.client)]

theorem post_eq (L : Link) (s : Net) (objCode : ObjectCode) (esv : ESV) (ps : List EProp) (q : Message)
    (c' : Node) (h1 : s.waiting = none) (h2 : s.client.sendRequest objCode esv ps = (c', some q, none)) :
    s.step L (.post objCode esv ps)
      = ⟨c', s.server, s.requests ++ [q.bytes], s.replies, some q, s.returned⟩ := by
  show s.post objCode esv ps = _
  unfold Net.post
  rw [h1]
  dsimp only
  rw [h2]

/-- C159 is false. A write `ps1` is posted and given up, because its datagram is late. A second write `ps2`
to the same object is posted, carried out and confirmed: the post returns the response, and the object
has the data of `ps2`. Then the late datagram arrives: the object has the data of `ps1` again, though no
post was made and no program called anything. -/
theorem C159_refuted_late_any (L : Link) (c : Node) (hb : Base c) (hr : c.running = true)
    (ht : c.lastTID.toNat ≤ 65535) (n : Node) (r : ObjRef) (o : Obj) (objCode : ObjectCode)
    (hc : objCode.toNat < 2 ^ 24) (ho : Addressed n objCode r o) (hdata : ∀ q ∈ o.props, q.data.length ≤ 255)
    (ps1 ps2 : List EProp) (hl1 : ps1.length ≤ 255) (hl2 : ps2.length ≤ 255)
    (hs1 : 12 + (ps1.map (fun p => 2 + p.data.length)).sum ≤ 1024)
    (hs2 : 12 + (ps2.map (fun p => 2 + p.data.length)).sum ≤ 1024)
    (hw1 : Writable o ps1) (hw2 : Writable o ps2) (he : Keeping L.env)
    (hac : n.selfMsg = true ∨ L.from_ ≠ n.addr) :
    let s := (Net.init c n).run L [.post objCode 0x61 ps1, .timeout, .post objCode 0x61 ps2, .serve 1,
      .deliver 0]
    let s' := s.run L [.serve 0]
    (∃ res, s.returned = [res] ∧ res.esv = 0x71) ∧
    (∃ o', s.server.get r = some o' ∧ ∀ p ∈ ps2, stored o' p.code = afterWrites o ps2 p.code) ∧
    (∃ o', s'.server.get r = some o' ∧ ∀ p ∈ ps1, stored o' p.code = afterWrites o ps1 p.code) := by
  have hb2 := base_nextTID hb
  have hr2 : c.nextTID.running = true := by rw [nextTID_eq]; exact hr
  have ht2 : c.nextTID.lastTID.toNat ≤ 65535 := by rw [nextTID_eq]; exact nextId_le _ ht
  have rw2 := rewritten o hdata ps2 hw2
  obtain ⟨q2, m2, n2, b2, res2, x1, x2, x3, x4, x5, x6, x7, x8, x9⟩ := write_exchange L c.nextTID hb2 hr2 ht2
    n r o objCode hc ho hdata ps2 hl2 hs2 hw2 he hac
  obtain ⟨q1, m1, n3, b1, res1, y1, y2, y3, y4, y5, y6, -⟩ := write_exchange L c hb hr ht
    n2 r _ objCode hc x3 rw2.sizes ps1 hl1 hs1 (writable_after o hdata ps2 ps1 hw2 hw1) he
    (by rw [x1.selfMsg, x1.addr]; exact hac)
  have rw1 := rewritten _ rw2.sizes ps1 (writable_after o hdata ps2 ps1 hw2 hw1)
  have e : (Net.init c n).run L [.post objCode 0x61 ps1, .timeout, .post objCode 0x61 ps2, .serve 1,
      .deliver 0] = ⟨c.nextTID.nextTID, n2, [q1.bytes, q2.bytes], [b2], none, [res2]⟩ := by
    unfold Net.run
    simp only [List.foldl_cons, List.foldl_nil]
    rw [post_eq L _ objCode 0x61 ps1 q1 _ rfl y4]
    rw [show ∀ a b d e f g, (⟨a, b, d, e, f, g⟩ : Net).step L .timeout = ⟨a, b, d, e, none, g⟩ from
      fun _ _ _ _ _ _ => rfl]
    rw [post_eq L _ objCode 0x61 ps2 q2 _ rfl x4]
    rw [serve_eq L _ 1 q2 m2 n2 b2 rfl x5 x6]
    rw [deliver_eq L _ 0 q2 res2 b2 rfl x7 rfl x8]
    rfl
  intro s
  have hs : s = _ := e
  clear_value s
  subst hs
  intro s'
  have hs' : s' = _ := serve_eq L ⟨c.nextTID.nextTID, n2, [q1.bytes, q2.bytes], [b2], none, [res2]⟩ 0 q1 m1
    n3 b1 rfl y5 y6
  clear_value s'
  subst hs'
  refine ⟨⟨res2, rfl, x9⟩, ⟨_, x2, fun p hp => ?_⟩, ⟨_, y2, fun p hp => ?_⟩⟩
  · exact rw2.stored _ (rw2.some p hp)
  · rw [rw1.stored _ (rw1.some p hp)]
    exact afterWrites_same _ _ _ p hp

/-- C159 is false even if no post gives up: a datagram that the network delivers a second time is handled
a second time. Both writes are confirmed, the second one last, and yet the object has the data of the
first one in the end. -/
theorem C159_refuted_twice_any (L : Link) (c : Node) (hb : Base c) (hr : c.running = true)
    (ht : c.lastTID.toNat ≤ 65535) (n : Node) (r : ObjRef) (o : Obj) (objCode : ObjectCode)
    (hc : objCode.toNat < 2 ^ 24) (ho : Addressed n objCode r o) (hdata : ∀ q ∈ o.props, q.data.length ≤ 255)
    (ps1 ps2 : List EProp) (hl1 : ps1.length ≤ 255) (hl2 : ps2.length ≤ 255)
    (hs1 : 12 + (ps1.map (fun p => 2 + p.data.length)).sum ≤ 1024)
    (hs2 : 12 + (ps2.map (fun p => 2 + p.data.length)).sum ≤ 1024)
    (hw1 : Writable o ps1) (hw2 : Writable o ps2) (he : Keeping L.env)
    (hac : n.selfMsg = true ∨ L.from_ ≠ n.addr) :
    let s := (Net.init c n).run L [.post objCode 0x61 ps1, .serve 0, .deliver 0, .post objCode 0x61 ps2,
      .serve 1, .deliver 1]
    let s' := s.run L [.serve 0]
    (∃ res1 res2, s.returned = [res1, res2] ∧ res1.esv = 0x71 ∧ res2.esv = 0x71) ∧
    (∃ o', s.server.get r = some o' ∧ ∀ p ∈ ps2, stored o' p.code = afterWrites o ps2 p.code) ∧
    (∃ o', s'.server.get r = some o' ∧ ∀ p ∈ ps1, stored o' p.code = afterWrites o ps1 p.code) := by
  have hb2 := base_nextTID hb
  have hr2 : c.nextTID.running = true := by rw [nextTID_eq]; exact hr
  have ht2 : c.nextTID.lastTID.toNat ≤ 65535 := by rw [nextTID_eq]; exact nextId_le _ ht
  have rw1 := rewritten o hdata ps1 hw1
  obtain ⟨q1, m1, n1, b1, res1, x1, x2, x3, x4, x5, x6, x7, x8, x9⟩ := write_exchange L c hb hr ht
    n r o objCode hc ho hdata ps1 hl1 hs1 hw1 he hac
  have hac1 : n1.selfMsg = true ∨ L.from_ ≠ n1.addr := by rw [x1.selfMsg, x1.addr]; exact hac
  have w12 := writable_after o hdata ps1 ps2 hw1 hw2
  have w11 := writable_after o hdata ps1 ps1 hw1 hw1
  have rw2 := rewritten _ rw1.sizes ps2 w12
  obtain ⟨q2, m2, n2, b2, res2, y1, y2, y3, y4, y5, y6, y7, y8, y9⟩ := write_exchange L c.nextTID hb2 hr2 ht2
    n1 r _ objCode hc x3 rw1.sizes ps2 hl2 hs2 w12 he hac1
  have w21 := writable_after _ rw1.sizes ps2 ps1 w12 w11
  obtain ⟨q1', m1', n3, b3, res3, z1, z2, z3, z4, z5, z6, -⟩ := write_exchange L c hb hr ht
    n2 r _ objCode hc y3 rw2.sizes ps1 hl1 hs1 w21 he (by rw [y1.selfMsg, y1.addr]; exact hac1)
  have rw3 := rewritten _ rw2.sizes ps1 w21
  have hq : q1' = q1 := by
    rw [z4] at x4
    injection x4 with _ x4
    injection x4 with x4 _
    exact Option.some.inj x4
  subst hq
  have e : (Net.init c n).run L [.post objCode 0x61 ps1, .serve 0, .deliver 0, .post objCode 0x61 ps2,
      .serve 1, .deliver 1]
      = ⟨c.nextTID.nextTID, n2, [q1'.bytes, q2.bytes], [b1, b2], none, [res1, res2]⟩ := by
    unfold Net.run
    simp only [List.foldl_cons, List.foldl_nil]
    rw [post_eq L _ objCode 0x61 ps1 q1' _ rfl x4]
    rw [serve_eq L _ 0 q1' m1 n1 b1 rfl x5 x6]
    rw [deliver_eq L _ 0 q1' res1 b1 rfl x7 rfl x8]
    rw [post_eq L _ objCode 0x61 ps2 q2 _ rfl y4]
    rw [serve_eq L _ 1 q2 m2 n2 b2 rfl y5 y6]
    rw [deliver_eq L _ 1 q2 res2 b2 rfl y7 rfl y8]
    rfl
  intro s
  have hs : s = _ := e
  clear_value s
  subst hs
  intro s'
  have hs' : s' = _ := serve_eq L
    ⟨c.nextTID.nextTID, n2, [q1'.bytes, q2.bytes], [b1, b2], none, [res1, res2]⟩ 0 q1' m1' n3 b3 rfl z5 z6
  clear_value s'
  subst hs'
  refine ⟨⟨res1, res2, rfl, x9, y9⟩, ⟨_, y2, fun p hp => ?_⟩, ⟨_, z2, fun p hp => ?_⟩⟩
  · rw [rw2.stored _ (rw2.some p hp)]
    exact afterWrites_same _ _ _ p hp
  · rw [rw3.stored _ (rw3.some p hp)]
    exact afterWrites_same _ _ _ p hp

/-- C159, the part that holds: a write takes effect within its call. When a post that writes `ps` to an
object of a node, whose program stores what is written, returns the confirmation, there is a moment
between its call (step `i`) and its return (step `t`) at which the object addressed took over the data:
each property of it has the data written last by `ps`, or is as it was. -/
theorem C159_write_partial (L : Link) (c n : Node) (hb : Base c) (hr : c.running = true)
    (acts : List NetAct) (hc : c.lastTID.toNat ≤ 65535) (hn : (acts.filter usesId).length ≤ 65536)
    (he : Keeping L.env) (t : Nat) (res : Message)
    (ht : (netAt L c n acts (t + 1)).returned = (netAt L c n acts t).returned ++ [res])
    (hdata : ∀ u r o, (netAt L c n acts u).server.get r = some o → ∀ p ∈ o.props, p.data.length ≤ 255) :
    ∃ i objCode esv ps q, i < t ∧ acts[i]? = some (.post objCode esv ps) ∧
      Issued (netAt L c n acts i) objCode esv ps q ∧
      (∀ u, i < u → u ≤ t → (netAt L c n acts u).waiting = some q) ∧
      (esv = 0x61 → ps.length ≤ 255 → (∀ p ∈ ps, p.data.length ≤ 255) →
        12 + (ps.map (fun p => 2 + p.data.length)).sum ≤ 1024 → objCode.toNat < 2 ^ 24 → res.esv = 0x71 →
        ∃ w r o o', i < w ∧ w < t ∧ Addressed (netAt L c n acts w).server objCode r o ∧ Writable o ps ∧
          Addressed (netAt L c n acts (w + 1)).server objCode r o' ∧
          ∀ x, (o.props.lookup x).isSome → stored o' x = afterWrites o ps x) := by
  obtain ⟨i, w, j, objCode, esv, ps, q, m, b, h1, h2, h3, h4, h5, h6, h7, h8, h9, h10, h11⟩ :=
    C158_answered_partial L c n acts hc hn t res ht
  refine ⟨i, objCode, esv, ps, q, by omega, h3, h4, h5, ?_⟩
  rintro rfl hl hd hsize ho hres
  obtain ⟨e1, -, l, e2⟩ := idCount_spec L c n acts hc i
  have hbi : Base (netAt L c n acts i).client := by
    rw [e2]
    exact ⟨fun r o h => hb.wf r o (by cases r <;> exact h), hb.prof⟩
  obtain ⟨q', k1, k2, k3, k4, k5⟩ := C88_wire (netAt L c n acts i).client hbi (by rw [e2]; exact hr)
    (by omega) objCode ho 0x61 ps hl hd
  have hq : q = q' := by
    have := h4.2
    rw [k1] at this
    exact (Option.some.inj this).symm
  subst hq
  generalize hf : requestFrame (netAt L c n acts i).client.lastTID.toNat objCode 0x61 ps = f at k3 k4 k5
  have fprops : f.props = ps.map (fun p => ⟨p.code, p.data⟩) := by rw [← hf]; rfl
  have hlen : f.encode.length ≤ 1024 := by
    rw [encode_length, fprops, List.map_map]
    exact hsize
  obtain ⟨m', m1, m2, m3, -⟩ := arriving_frame (ifi := L.toIf) (a := L.from_) k3 hlen
  rw [k5, m1] at h8
  cases h8
  have hesv : m.esv = 0x61 := by rw [m3.esv, ← hf]; rfl
  have hdeoj : m.getDEOJ = objCode := by
    apply BitVec.eq_of_toNat_eq
    rw [m3.deoj, ← hf]; rfl
  have hmp : properties m = ps.map (fun p => ⟨p.code, p.data⟩) := by
    unfold properties
    have := m3.opc
    unfold Message.getOPC at this
    rw [this, m3.props, List.take_of_length_le (by simp), fprops, List.map_map,
      ← filterMap_some (ps.map (fun p => (⟨p.code, p.data⟩ : PProp))), List.map_map]
    rfl
  obtain ⟨out, r, o1, o2, o3, rfl, o5⟩ := reply_sent h9
  obtain ⟨r1, r2, r3, r4⟩ := reply_origin L.env L.db _ m m2 out o1 r o3
  obtain ⟨-, -, x3, -⟩ := arriving_header r1 h11
  rcases r4 with ⟨s1, s2, s3⟩ | ⟨s1, s2, s3, -, -⟩
  · rw [hres, s3, hesv] at x3
    exact absurd x3 (by decide)
  · obtain ⟨ro, o, a1, -, a3⟩ := id s1
    rw [hdeoj] at a1
    have hw : Writable o ps := by
      intro p hp
      obtain ⟨y, y1, y2, -⟩ := a3 (.inr (.inl hesv)) ⟨p.code, p.data⟩ (by
        rw [hmp]; exact List.mem_map.mpr ⟨p, hp, rfl⟩)
      exact ⟨y, y1, y2 (.inr (.inl hesv))⟩
    have hdo := hdata w ro o (addressed_lookup a1).2
    have hrw := rewritten o hdo ps hw
    obtain ⟨out', rs, b1, ⟨-, b2⟩, -⟩ := keeping_received _ ro o objCode a1 L.env he L.db ps _ rfl m hesv hmp
      hdeoj r3 s1
    rw [o1] at b1
    cases b1
    exact ⟨w, ro, o, _, h1, h2, a1, hw, by rw [o5]; exact addressed_written a1 hrw.codes b2, hrw.stored⟩

/-- A post ends by a timeout or by returning a response. -/
theorem post_ended (L : Link) (s : Net) (a : NetAct) (q : Message) (h : s.waiting = some q)
    (h' : (s.step L a).waiting ≠ some q) :
    a = .timeout ∨ ∃ res, (s.step L a).returned = s.returned ++ [res] := by
  have hans : ∀ m back, (s.answer L m back).waiting = s.waiting := by
    intro m back
    unfold Net.answer
    cases s.server.onMessageUDP L.env L.db m <;> rfl
  cases a with
  | post objCode esv ps =>
    refine absurd ?_ h'
    show (s.post objCode esv ps).waiting = _
    unfold Net.post
    rw [h]
    exact h
  | other => exact absurd h h'
  | timeout => exact .inl rfl
  | change op => exact absurd h h'
  | message m => exact absurd ((hans m false).trans h) h'
  | serve k =>
    refine absurd ?_ h'
    show (s.serve L k).waiting = _
    unfold Net.serve
    split
    · exact h
    · split
      · exact h
      · exact (hans _ true).trans h
  | deliver k =>
    revert h'
    show (s.deliver L k).waiting ≠ some q → _ ∨ ∃ res, (s.deliver L k).returned = _
    unfold Net.deliver
    split
    · exact fun h' => absurd h h'
    · split
      · exact fun h' => absurd h h'
      · split
        · exact fun _ => .inr ⟨_, rfl⟩
        · exact fun h' => absurd h h'

theorem bytes_tid {a b : Message} (ha : Built a) (hb : Built b) (h : a.bytes = b.bytes) :
    a.getTID = b.getTID := by
  have key : ∀ m : Message, Built m → ∃ x y t0 t1 rest, m.tid = [t0, t1] ∧
      m.bytes = x :: y :: t0 :: t1 :: rest := by
    intro m hm
    have hw := Lemmas.Built.wf hm
    obtain ⟨t0, t1, ht⟩ : ∃ t0 t1, m.tid = [t0, t1] := by
      have := hw.tid
      match hh : m.tid with
      | [a, b] => exact ⟨a, b, rfl⟩
      | [] | [_] | _ :: _ :: _ :: _ => simp [hh] at this
    refine ⟨m.ehd1, m.ehd2, t0, t1, m.bytes.drop 4, ht, ?_⟩
    rw [bytes_eq hw, header, ht]
    rfl
  obtain ⟨x, y, t0, t1, rest, h1, h2⟩ := key a ha
  obtain ⟨x', y', t0', t1', rest', h1', h2'⟩ := key b hb
  rw [h2, h2'] at h
  injection h with _ h
  injection h with _ h
  injection h with e1 h
  injection h with e2 _
  unfold Message.getTID
  rw [h1, h1', e1, e2]

/-- The post that made the `j`-th request. -/
theorem request_index (L : Link) (c n : Node) (acts : List NetAct) (t : Nat) :
    ∀ (j : Nat) (b : Bytes), (netAt L c n acts t).requests[j]? = some b →
    ∃ i objCode esv ps q, i < t ∧ acts[i]? = some (.post objCode esv ps) ∧
      Issued (netAt L c n acts i) objCode esv ps q ∧ q.bytes = b ∧
      (netAt L c n acts i).requests.length = j ∧ (netAt L c n acts (i + 1)).waiting = some q ∧
      (netAt L c n acts (i + 1)).client = (netAt L c n acts i).client.nextTID := by
  induction t with
  | zero => intro k b h; simp [netAt, Net.run, Net.init] at h
  | succ t ih =>
    intro k b h
    cases ha : acts[t]? with
    | none =>
      rw [netAt_end _ _ _ _ _ ha] at h
      obtain ⟨i, o, e, ps, q, h1, h2⟩ := ih k b h
      exact ⟨i, o, e, ps, q, by omega, h2⟩
    | some a =>
      have hs := netAt_succ L c n acts t a ha
      rcases (step_cases L (netAt L c n acts t) a).2.1 with h' | ⟨o, e, ps, q, rfl, hi, h', hw, hc⟩
      · rw [hs, h'] at h
        obtain ⟨i, o, e, ps, q, h1, h2⟩ := ih k b h
        exact ⟨i, o, e, ps, q, by omega, h2⟩
      · rw [hs, h', List.getElem?_append] at h
        split at h
        · obtain ⟨i, o, e, ps, q, h1, h2⟩ := ih k b h
          exact ⟨i, o, e, ps, q, by omega, h2⟩
        · next hk =>
          rw [List.getElem?_singleton] at h
          split at h
          · next h0 =>
            exact ⟨t, o, e, ps, q, by omega, ha, hi, Option.some.inj h, by omega, by rw [hs]; exact hw,
              by rw [hs]; exact hc⟩
          · cases h

/-- C159, the part that holds: if no post gives up and the network delivers no datagram twice, requests
take effect in the order of the posts. Of two requests handled by the node asked, the one handled later
was posted later; a request handled has been handled for good. -/
theorem C159_order_partial (L : Link) (c n : Node) (acts : List NetAct) (hc : c.lastTID.toNat ≤ 65535)
    (hn : (acts.filter usesId).length ≤ 65536) (hto : NetAct.timeout ∉ acts)
    (honce : ∀ w w' j : Nat, acts[w]? = some (.serve j) → acts[w']? = some (.serve j) → w = w')
    (w w' j j' : Nat) (hlt : w < w') (hw : acts[w]? = some (.serve j)) (hw' : acts[w']? = some (.serve j'))
    (hj : j < (netAt L c n acts w).requests.length) (hj' : j' < (netAt L c n acts w').requests.length) :
    j < j' := by
  have hle : ∀ j : Nat, (netAt L c n acts j).client.lastTID.toNat ≤ 65535 := by
    intro j
    have := (idCount_spec L c n acts hc j).1
    omega
  refine Classical.byContradiction fun hx => ?_
  have hne : j ≠ j' := by
    intro e
    subst e
    have := honce w w' j hw hw'
    omega
  obtain ⟨i, o, e, ps, q, i1, i2, i3, i4, i5, i6, i7⟩ := request_index L c n acts w j _
    (List.getElem?_eq_getElem hj)
  obtain ⟨i', o', e', ps', q', k1, k2, k3, k4, k5, k6, k7⟩ := request_index L c n acts i j' _
    (List.getElem?_eq_getElem (show j' < (netAt L c n acts i).requests.length by omega))
  -- the step that ends the post
  have hend : ∀ d : Nat, (netAt L c n acts (i' + 1 + d)).waiting = some q' ∨
      ∃ u, i' < u ∧ u < i' + 1 + d ∧ (netAt L c n acts u).waiting = some q' ∧
        (netAt L c n acts (u + 1)).waiting ≠ some q' := by
    intro d
    induction d with
    | zero => exact .inl k6
    | succ d ih =>
      rcases ih with ih | ⟨u, u1, u2, u3, u4⟩
      · by_cases hq : (netAt L c n acts (i' + 1 + (d + 1))).waiting = some q'
        · exact .inl hq
        · exact .inr ⟨i' + 1 + d, by omega, by omega, ih, hq⟩
      · exact .inr ⟨u, u1, by omega, u3, u4⟩
  obtain ⟨u, u1, u2, u3, u4⟩ : ∃ u, i' < u ∧ u < i ∧ (netAt L c n acts u).waiting = some q' ∧
      (netAt L c n acts (u + 1)).waiting ≠ some q' := by
    have := hend (i - (i' + 1))
    rw [show i' + 1 + (i - (i' + 1)) = i by omega] at this
    rcases this with h | h
    · rw [i3.1] at h; cases h
    · exact h
  cases ha : acts[u]? with
  | none => rw [netAt_end _ _ _ _ _ ha] at u4; exact u4 u3
  | some a =>
    have hs := netAt_succ L c n acts u a ha
    rw [hs] at u4
    rcases post_ended L _ a q' u3 u4 with rfl | ⟨res, hres⟩
    · exact hto (List.mem_of_getElem? ha)
    · rw [← hs] at hres
      obtain ⟨i0, w0, j0, o0, e0, ps0, q0, m0, b0, z1, z2, z3, z4, z5, z6, z7, -⟩ :=
        C158_answered_partial L c n acts hc hn u res hres
      have hq0 : q0 = q' := by
        have := z5 u (by omega) (Nat.le_refl _)
        rw [u3] at this
        exact (Option.some.inj this).symm
      subst hq0
      obtain ⟨i2', o2, e2, ps2, q2, y1, y2, y3, y4, y5, y6, y7⟩ := request_index L c n acts w0 j0 _ z7
      have hii : i' = i2' := issued_once L c n acts hc hn i' i2' o' o2 e' e2 ps' ps2 q0 q2 k3 y3 k7 y7
        (bytes_tid (issued_built k3 (hle _)).1 (issued_built y3 (hle _)).1 y4.symm)
      subst hii
      have hjj : j0 = j' := by omega
      subst hjj
      have := honce w0 w' j0 z6 hw'
      omega

/-- Two writes and a read: each request is handled once and no post gives up; the read returns what was
written last. Datagrams of other posts that arrive late do no harm. -/
def aWrite : List NetAct :=
  [.post 0x013001 0x61 [⟨"", 0x80, [0x32], 0, 0, 0⟩], .serve 0, .deliver 0,
    .post 0x013001 0x61 [⟨"", 0x80, [0x33], 0, 0, 0⟩], .deliver 0, .serve 1, .deliver 1,
    .post 0x013001 0x62 (asking [0x80]), .deliver 1, .serve 2, .deliver 2]

theorem aWrite_once (w w' j : Nat) (h : aWrite[w]? = some (.serve j)) (h' : aWrite[w']? = some (.serve j)) :
    w = w' := by
  let number : Option NetAct → Option Nat := fun a => match a with
    | some (NetAct.serve k) => some k
    | _ => none
  have key : ∀ w < 11, ∀ w' < 11, (number aWrite[w]?).isSome → number aWrite[w]? = number aWrite[w']? →
      w = w' := by decide +kernel
  have hlt : ∀ v : Nat, aWrite[v]? = some (.serve j) → v < 11 := fun v hv => (List.getElem?_eq_some_iff.mp hv).1
  exact key w (hlt w h) w' (hlt w' h') (by rw [h]; rfl) (by rw [h, h'])

/-- The hypotheses of the theorems above are met. -/
example : (aWrite.filter usesId).length ≤ 65536 ∧ NetAct.timeout ∉ aWrite ∧
    (∀ w w' j : Nat, aWrite[w]? = some (.serve j) → aWrite[w']? = some (.serve j) → w = w') ∧
    ((netAt { aLink with env := keepingEnv } aClient smallNode aWrite 11).returned.map
      (fun m => (m.getTID, m.esv, m.ep))) = [(8, 0x71, [some ⟨0x80, [0x32]⟩]),
        (9, 0x71, [some ⟨0x80, [0x33]⟩]), (10, 0x72, [some ⟨0x80, [0x33]⟩])] ∧
    Keeping keepingEnv ∧
    Writable (smallNode.devices.head (by decide +kernel)) [⟨"", 0x80, [0x32], 0, 0, 0⟩] := by
  refine ⟨by decide, ?_, aWrite_once, by decide +kernel, keepingEnv_keeping, ?_⟩
  · intro h
    simp [aWrite] at h
  · intro p hp
    rw [List.mem_singleton.mp hp]
    exact ⟨⟨"", 0x80, [0x30], 1, 1, 0⟩, by decide +kernel, by decide, rfl⟩

end Verif.Props
