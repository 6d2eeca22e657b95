import Verif.Props.Request
import Verif.Props.Discovery
import Verif.Props.Post

/-!
# C89: reading a property of another node, from the call to the data returned
-/

namespace Verif.Props
open Verif Model Spec Lemmas

/-- What a program gives to `PostRequest` to ask for the properties with these codes. -/
def asking (cs : List Byte) : List EProp :=
  cs.map (fun c => EProp.make c "" [] .prohibited .prohibited .prohibited)

/-- The data an object stores for a code. -/
def stored (o : Obj) (c : Byte) : Bytes := ((o.props.lookup c).map (·.data)).getD []

/-- The callbacks that are set do nothing when a message with service `e` arrives. -/
structure Passive (env : Env) (e : Byte) : Prop where
  message : env.listener = true → ∀ n cs m, m.esv = e → env.behave n cs (.message m) = ([], none)
  request : ∀ r, env.objListener r = true → ∀ n cs p, env.behave n cs (.request r e p) = ([], none)
  handler : ∀ r, env.reqHandler r = true → ∀ n cs p, env.behave n cs (.handler r e p) = ([], none)

theorem Silent.passive {env : Env} (h : Silent env) (e : Byte) : Passive env e :=
  ⟨fun hl => absurd hl (by rw [h.1]; decide), fun r hl => absurd hl (by rw [h.2.1 r]; decide),
    fun r hl => absurd hl (by rw [h.2.2 r]; decide)⟩

theorem effects_passive {env : Env} {db : StdDB} {n n' : Node} {done cs : List Call} {ms : List Sent}
    {rs : List (Option Err)} (h : Effects env db n done cs n' ms rs)
    (hp : ∀ x ∈ cs, ∀ n ds, env.behave n ds x = ([], none)) :
    n' = n ∧ ms = [] ∧ ∀ e ∈ rs, e = none := by
  induction h with
  | nil => exact ⟨rfl, rfl, fun _ h => by cases h⟩
  | @cons n done c cs n'' ms rs _ ih =>
    have hb := hp c (List.mem_cons_self ..) n done
    rw [hb] at ih ⊢
    obtain ⟨h1, h2, h3⟩ := ih (fun x hx => hp x (List.mem_cons_of_mem _ hx))
    refine ⟨h1, by rw [h2]; rfl, fun e he => ?_⟩
    rcases List.mem_cons.mp he with he | he
    · exact he
    · exact h3 e he

/-- Callbacks that do nothing: a message the node accepts does not change it. -/
theorem passive_received (env : Env) (db : StdDB) (n : Node) (m : Message) (he : Passive env m.esv)
    (hi : ¬ Ignored n m) (ha : Accepts n m) :
    ∃ out rs, n.received env db m = .ok out ∧ out.node = n ∧ Results env db n out rs ∧
      ∀ e ∈ rs, e = none := by
  obtain ⟨r, o, ho, -⟩ := id ha
  obtain ⟨out, rs, r1, r2, r3, -, -, -, -⟩ := received_accepted env db n m hi ha r o ho
  obtain ⟨p1, -, p3⟩ := effects_passive r3 (by
    rw [r2]
    intro x hx n cs
    unfold expectedCalls at hx
    rcases List.mem_append.mp hx with hx | hx
    · split at hx
      · next hl => rw [List.mem_singleton.mp hx]; exact he.message hl n cs m rfl
      · cases hx
    · obtain ⟨p, -, hx⟩ := List.mem_flatMap.mp hx
      rcases List.mem_append.mp hx with hx | hx
      · split at hx
        · next hl => rw [List.mem_singleton.mp hx]; exact he.request r hl n cs p
        · cases hx
      · split at hx
        · next hl => rw [List.mem_singleton.mp hx]; exact he.handler r hl n cs p
        · cases hx)
  exact ⟨out, rs, r1, p1, r3, p3⟩

theorem encode_length (f : Frame) :
    f.encode.length = 12 + (f.props.map (fun p => 2 + p.edt.length)).sum := by
  unfold Frame.encode
  simp only [List.length_append, List.length_cons, List.length_nil, List.length_flatMap]
  have : ∀ p : WireProp, p.encode.length = 2 + p.edt.length := by
    intro p; unfold WireProp.encode; simp; omega
  simp only [this]
  show 2 + (beBytes 2 f.tid).length + (beBytes 3 f.seoj).length + (beBytes 3 f.deoj).length + 2 + _ = _
  rw [show (beBytes 2 f.tid).length = 2 from rfl, show (beBytes 3 f.seoj).length = 3 from rfl,
    show (beBytes 3 f.deoj).length = 3 from rfl]

/-- The frame of a response as it should be received: identifier, object, service and the properties
with the data the object has. -/
structure Answered (q res : Message) (objCode : ObjectCode) (code : Byte) (an : Addr)
    (props : List (Byte × Bytes)) : Prop where
  /-- the post that waits with request `q` takes it for the response -/
  taken : ∀ c : Node, Node.isResponseMessage { c with pending := some q } res = true
  src : res.src = an
  object : res.getSEOJ = objCode
  service : res.esv = code
  props : ∃ ps, res.clientProperties = .ok ps ∧ ps.map (fun p => (p.code, p.data)) = props

/-- An exchange, however the bytes travel: the node asked turns into a node with property `P`, in which
the object is `o'`. -/
theorem exchange_frames (c : Node) (hb : Base c) (hr : c.running = true) (ht : c.lastTID.toNat ≤ 65535)
    (n : Node) (r : ObjRef) (o : Obj) (objCode : ObjectCode) (hc : objCode.toNat < 2 ^ 24)
    (ho : Addressed n objCode r o) (s : Esv.Service) (hs : s ∈ Esv.table) (code : Byte)
    (hcode : s.reply = some code) (hdiff : code ≠ s.code) (ps : List EProp) (hl : ps.length ≤ 255)
    (hd : ∀ p ∈ ps, p.data.length ≤ 255)
    (hperm : ∀ p ∈ ps, Permits o s.code ⟨p.code, p.data⟩)
    (env : Env) (db : StdDB) (P : Node → Prop) (o' : Obj)
    (hcb : ∀ m, m.esv = s.code → properties m = ps.map (fun p => ⟨p.code, p.data⟩) → m.getDEOJ = objCode →
      ¬ Ignored n m → Accepts n m → ∃ out rs, n.received env db m = .ok out ∧ P out.node ∧
        Results env db n out rs ∧ ∀ e ∈ rs, e = none)
    (ho' : ∀ n', P n' → Addressed n' objCode r o')
    (hhas : ∀ p ∈ ps, (o'.props.lookup p.code).isSome)
    (hdata : ∀ q ∈ o'.props, q.data.length ≤ 255)
    (ac an : Addr) (hac : n.selfMsg = true ∨ ac ≠ n.addr) :
    ∃ q f g, c.sendRequest objCode s.code ps = (c.nextTID, some q, none) ∧
      f.Valid ∧ g.Valid ∧ q.bytes = f.encode ∧
      f.encode.length = 12 + (ps.map (fun p => 2 + p.data.length)).sum ∧
      g.encode.length = 12 + (ps.map (fun p => 2 + (stored o' p.code).length)).sum ∧
      (∀ m, Built m → Carries m f → m.src = ac → ∃ out res, n.received env db m = .ok out ∧ P out.node ∧
        out.error = none ∧ out.reply = some res ∧ res.bytes = g.encode) ∧
      (∀ res, Built res → Carries res g → res.src = an →
        Answered q res objCode code an (ps.map (fun p => (p.code, stored o' p.code)))) := by
  obtain ⟨q, h1, h2, h3, h4, h5⟩ := C88_wire c hb hr ht objCode hc s.code ps hl hd
  generalize hf : requestFrame c.lastTID.toNat objCode s.code ps = f at h3 h4 h5
  have fprops : f.props = ps.map (fun p => ⟨p.code, p.data⟩) := by rw [← hf]; rfl
  have fdeoj : f.deoj = objCode.toNat := by rw [← hf]; rfl
  have fesv : f.esv = s.code := by rw [← hf]; rfl
  have hlen : f.encode.length = 12 + (ps.map (fun p => 2 + p.data.length)).sum := by
    rw [encode_length, fprops, List.map_map]; rfl
  have hans : answers o' f.props = ps.map (fun p => ⟨p.code, stored o' p.code⟩) := by
    rw [fprops]
    unfold answers
    rw [List.filterMap_map]
    have : ∀ l : List EProp, (∀ x ∈ l, (o'.props.lookup x.code).isSome) →
        List.filterMap ((fun p : WireProp => (o'.props.lookup p.epc).map
          (fun q => (⟨p.epc, q.data⟩ : WireProp))) ∘ fun p : EProp => ⟨p.code, p.data⟩) l
          = l.map (fun p => ⟨p.code, stored o' p.code⟩) := by
      intro l
      induction l with
      | nil => intro _; rfl
      | cons x l ih =>
        intro h
        obtain ⟨p, hp⟩ := Option.isSome_iff_exists.mp (h x (List.mem_cons_self ..))
        rw [List.filterMap_cons, ih (fun y hy => h y (List.mem_cons_of_mem _ hy))]
        simp only [Function.comp, hp, Option.map_some, List.map_cons, stored, Option.getD_some]
    exact this ps hhas
  generalize hg : (⟨f.tid, f.deoj, f.seoj, code, ps.map (fun p => ⟨p.code, stored o' p.code⟩)⟩ : Frame) = g
  have glen : g.encode.length = 12 + (ps.map (fun p => 2 + (stored o' p.code).length)).sum := by
    rw [encode_length, ← hg]
    show 12 + ((ps.map _).map _).sum = _
    rw [List.map_map]; rfl
  have hgv : g.Valid := by
    obtain ⟨v1, v2, v3, v4, v5⟩ := h3
    rw [← hg]
    refine ⟨v1, v3, v2, ?_, ?_⟩
    · show (ps.map _).length < 256
      rw [List.length_map]; omega
    · intro p hp
      obtain ⟨x, hx, rfl⟩ := List.mem_map.mp hp
      obtain ⟨y, hy⟩ := Option.isSome_iff_exists.mp (hhas x hx)
      have := hdata y (lookup_mem hy)
      show (stored o' x.code).length < 256
      unfold stored
      rw [hy]
      show y.data.length < 256
      omega
  refine ⟨q, f, g, h1, h3, hgv, h5, hlen, glen, ?_, ?_⟩
  · intro m k2 k3 k4
    have hmd : m.getDEOJ = objCode := BitVec.eq_of_toNat_eq (by rw [k3.deoj, fdeoj])
    have hi : ¬ Ignored n m := by
      rintro ⟨x, y⟩
      rcases hac with h | h
      · rw [x] at h; cases h
      · rw [k4] at y; exact h y
    have hmp : properties m = ps.map (fun p => ⟨p.code, p.data⟩) := by
      unfold properties
      have := k3.opc
      unfold Message.getOPC at this
      rw [this, k3.props, List.take_of_length_le (by simp), fprops, List.map_map,
        ← filterMap_some (ps.map (fun p => (⟨p.code, p.data⟩ : PProp))), List.map_map]
      rfl
    have hesv : m.esv = s.code := k3.esv.trans fesv
    have ha : Accepts n m := by
      refine ⟨r, o, by rw [hmd]; exact ho, ⟨s, hs, hesv.symm⟩, fun _ x hx => ?_⟩
      rw [hmp] at hx
      obtain ⟨y, hy, rfl⟩ := List.mem_map.mp hx
      rw [hesv]
      exact hperm y hy
    obtain ⟨out, rs, o1, o2, o3, o4⟩ := hcb m hesv hmp hmd hi ha
    obtain ⟨-, e2, res, e1, e3⟩ := answer_frame f h3 m k2 k3 env db n hi ha out o1 rs o3 o4 s hs fesv.symm
      code hcode r o' (by rw [hmd]; exact ho' _ o2) hdata
    rw [hans, hg] at e3
    exact ⟨out, res, o1, o2, e2, e1, e3⟩
  · intro res s2 s3 s4
    obtain ⟨ps', p1, p2, -⟩ := C88_properties res g s3
    refine ⟨?_, s4, ?_, ?_, ps', p1, ?_⟩
    · intro c'
      have hne : res.bytes ≠ q.bytes := by
        intro h
        have e1 := C03_frame res s2 g s3
        have hgq : Message.newWithBytes (g.encode ++ []) = Message.newWithBytes (f.encode ++ []) := by
          rw [← e1, h, h5]
        obtain ⟨x, x1, x2, -⟩ := C05_decode_encode g hgv []
        obtain ⟨y, y1, y2, -⟩ := C05_decode_encode f h3 []
        rw [x1, y1] at hgq
        cases hgq
        have := x2.esv.symm.trans y2.esv
        rw [fesv, ← hg] at this
        exact hdiff this
      have htid : res.getTID = q.getTID := by
        apply BitVec.eq_of_toNat_eq
        rw [s3.tid, h4.tid, ← hg]
      unfold Node.isResponseMessage
      dsimp only
      rw [if_neg (by
        intro h
        exact hne (((C12_equals res q q).1).mp h)), if_neg (by rw [htid]; simp)]
    · apply BitVec.eq_of_toNat_eq
      rw [s3.seoj, ← hg]
      exact fdeoj
    · rw [s3.esv, ← hg]
    · rw [p2, ← hg]
      show (ps.map _).map _ = _
      rw [List.map_map]
      rfl

/-- An exchange over UDP: the node asked turns into a node with property `P`, in which the object is
`o'`. -/
theorem exchange (c : Node) (hb : Base c) (hr : c.running = true) (ht : c.lastTID.toNat ≤ 65535)
    (n : Node) (r : ObjRef) (o : Obj) (objCode : ObjectCode) (hc : objCode.toNat < 2 ^ 24)
    (ho : Addressed n objCode r o) (s : Esv.Service) (hs : s ∈ Esv.table) (code : Byte)
    (hcode : s.reply = some code) (hdiff : code ≠ s.code) (ps : List EProp) (hl : ps.length ≤ 255)
    (hd : ∀ p ∈ ps, p.data.length ≤ 255) (hsize : 12 + (ps.map (fun p => 2 + p.data.length)).sum ≤ 1024)
    (hperm : ∀ p ∈ ps, Permits o s.code ⟨p.code, p.data⟩)
    (env : Env) (db : StdDB) (P : Node → Prop) (o' : Obj)
    (hcb : ∀ m, m.esv = s.code → properties m = ps.map (fun p => ⟨p.code, p.data⟩) → m.getDEOJ = objCode →
      ¬ Ignored n m → Accepts n m → ∃ out rs, n.received env db m = .ok out ∧ P out.node ∧
        Results env db n out rs ∧ ∀ e ∈ rs, e = none)
    (ho' : ∀ n', P n' → Addressed n' objCode r o')
    (hhas : ∀ p ∈ ps, (o'.props.lookup p.code).isSome)
    (hdata : ∀ q ∈ o'.props, q.data.length ≤ 255)
    (hfit : 12 + (ps.map (fun p => 2 + (stored o' p.code).length)).sum ≤ 1024)
    (ac an : Addr) (hac : n.selfMsg = true ∨ ac ≠ n.addr) (ic ia : String) :
    ∃ q m n' reply res, P n' ∧ c.sendRequest objCode s.code ps = (c.nextTID, some q, none) ∧
      ((UdpServer.started .unicast ia).run [.datagram ⟨q.bytes, ac⟩]).handled = [m] ∧
      n.onMessageUDP env db m = .ok (n', [⟨reply, ac⟩]) ∧
      ((UdpServer.started .unicast ic).run [.datagram ⟨reply, an⟩]).handled = [res] ∧
      Answered q res objCode code an (ps.map (fun p => (p.code, stored o' p.code))) := by
  obtain ⟨q, f, g, h1, h2, h3, h4, h5, h6, h7, h8⟩ := exchange_frames c hb hr ht n r o objCode hc ho s hs
    code hcode hdiff ps hl hd hperm env db P o' hcb ho' hhas hdata ac an hac
  obtain ⟨m, m1, m2, m3, m4, -⟩ := C70_request .unicast ia f h2 (by omega) [] ac
  obtain ⟨out, r1, k1, k2, k3, k4, k5⟩ := h7 m m2 m3 m4
  obtain ⟨res, s1, s2, s3, s4, -⟩ := C70_request .unicast ic g h3 (by omega) [] an
  rw [List.append_nil] at m1 s1
  refine ⟨q, m, out.node, g.encode, res, k2, h1, by rw [h4]; exact m1, ?_, s1, h8 res s2 s3 s4⟩
  unfold Node.onMessageUDP
  rw [k1]
  simp only [Res.ok_bind, k3, k4]
  rw [UdpSocket.sendMessage, k5, m4]

/-- C89. `PostRequest` of a running node `c` for properties of an object of another node `n`, all of
them readable, over UDP: the datagram it sends makes `n` write one datagram to `c`, and the message
`c` receives by it is taken for the response (same identifier, not the request), comes from the
object asked, and its properties are exactly the codes asked, in order, with the data `n` stores.
Nothing changes in `n`, if its callbacks do nothing. The answer has to fit the receive buffer of 1024
bytes. -/
theorem C89_read (c : Node) (hb : Base c) (hr : c.running = true) (ht : c.lastTID.toNat ≤ 65535)
    (n : Node) (r : ObjRef) (o : Obj) (objCode : ObjectCode) (hc : objCode.toNat < 2 ^ 24)
    (ho : Addressed n objCode r o) (cs : List Byte) (hl : cs.length ≤ 255)
    (hread : ∀ x ∈ cs, ∃ p, o.props.lookup x = some p ∧ p.getAttr ≠ 0)
    (hdata : ∀ q ∈ o.props, q.data.length ≤ 255)
    (hfit : 12 + (cs.map (fun x => 2 + (stored o x).length)).sum ≤ 1024)
    (env : Env) (he : Passive env 0x62) (db : StdDB) (ac an : Addr)
    (hac : n.selfMsg = true ∨ ac ≠ n.addr) (ic ia : String) :
    ∃ q m reply res, c.sendRequest objCode 0x62 (asking cs) = (c.nextTID, some q, none) ∧
      ((UdpServer.started .unicast ia).run [.datagram ⟨q.bytes, ac⟩]).handled = [m] ∧
      n.onMessageUDP env db m = .ok (n, [⟨reply, ac⟩]) ∧
      ((UdpServer.started .unicast ic).run [.datagram ⟨reply, an⟩]).handled = [res] ∧
      Answered q res objCode 0x72 an (cs.map (fun x => (x, stored o x))) := by
  have hmem : ∀ p ∈ asking cs, p.code ∈ cs ∧ p.data = [] := by
    intro p hp
    obtain ⟨x, hx, rfl⟩ := List.mem_map.mp hp
    exact ⟨hx, rfl⟩
  have sum2 : ∀ l : List Byte, ((asking l).map (fun p => 2 + p.data.length)).sum = 2 * l.length := by
    intro l
    induction l with
    | nil => rfl
    | cons x l ih =>
      show 2 + 0 + ((asking l).map _).sum = _
      rw [ih, List.length_cons]; omega
  obtain ⟨q, m, _, reply, res, rfl, h1, h2, h3, h4, h5⟩ := exchange c hb hr ht n r o objCode hc ho
    ⟨0x62, .request, false, true, some 0x72, some 0x52⟩ (by decide) 0x72 rfl (by decide) (asking cs)
    (by rw [asking, List.length_map]; exact hl)
    (fun p hp => by rw [(hmem p hp).2]; show (0 : Nat) ≤ 255; omega)
    (by rw [sum2]; omega)
    (fun p hp => by
      obtain ⟨y, hy, hg⟩ := hread p.code (hmem p hp).1
      refine ⟨y, hy, ?_, fun _ => hg⟩
      intro h; simp at h)
    env db (· = n) o
    (fun m hm _ _ hi ha => passive_received env db n m (by rw [hm]; exact he) hi ha)
    (fun _ e => by rw [e]; exact ho)
    (fun p hp => by
      obtain ⟨y, hy, -⟩ := hread p.code (hmem p hp).1
      rw [hy]; rfl)
    hdata (by rw [asking, List.map_map]; exact hfit) ac an hac ic ia
  refine ⟨q, m, reply, res, h1, h2, h3, h4, ?_⟩
  have e : (asking cs).map (fun p => (p.code, stored o p.code)) = cs.map (fun x => (x, stored o x)) := by
    rw [asking, List.map_map]; rfl
  rw [e] at h5
  exact h5

/-- C89. A message that arrives while a post waits, and is a response to it (same identifier, not the
request itself), is what the post returns if it is handled before anything else happens and before
the timeout, whatever happened earlier. -/
theorem C89_returned (acts : List PostAct) (i : Nat) (p : Poster) (res : Message)
    (hc : (PostSt.init.run acts).crashed = false)
    (hp : (PostSt.init.run acts).posters[i]? = some p) (hw : p.pc = .wait)
    (ht : res.getTID = p.msg.getTID) (hne : res.bytes ≠ p.msg.bytes) :
    let h := (PostSt.init.run acts).handlers.length
    let s := (PostSt.init.run acts).run
      (.arrive res :: handling h ++ [.receive i h, .own i, .own i, .own i, .own i])
    s.crashed = false ∧ s.posters[i]? = some { p with pc := .done (.ok res) } ∧
    s.mutex = none ∧ s.ch = none ∧ s.req = none := by
  have h := pinv_run pinv_init acts
  generalize PostSt.init.run acts = s at *
  have hlt : i < s.posters.length := (List.getElem?_eq_some_iff.mp hp).1
  obtain ⟨h1, h2, h3, h4⟩ : s.mutex = some i ∧ s.ch = some i ∧ s.req = some i ∧ i ∉ s.closed := by
    have := h.shape i p hp
    rw [hw] at this
    exact this
  obtain ⟨mutex, ch, req, closed, posters, handlers, crashed⟩ := s
  simp only at hc hp hlt h1 h2 h3 h4
  subst hc h1 h2 h3
  obtain ⟨_, he⟩ := List.getElem?_eq_some_iff.mp hp
  subst he
  have heq : Message.equals (some res) (some posters[i].msg) = false := by
    cases hx : Message.equals (some res) (some posters[i].msg) with
    | false => rfl
    | true => exact absurd (((C12_equals res _ res).1).mp hx) hne
  simp [handling, List.replicate, PostSt.run, PostSt.step, hw, PostSt.setPoster, PostSt.setHandler,
    PostSt.stepOwn, PostSt.stepHandler, PostSt.stepReceive, PostSt.reqMsg, hlt, h4, heq, ht]

/-! ## C90: writing, and reading back -/

/-- A program whose object listeners store what SetC requests write, and do nothing else. -/
structure Keeping (env : Env) : Prop where
  message : env.listener = true → ∀ n cs m, env.behave n cs (.message m) = ([], none)
  listens : ∀ r, env.objListener r = true
  stores : ∀ n cs r p, env.behave n cs (.request r 0x61 p) = ([.obj r (.write p.code p.data)], none)
  reads : ∀ n cs r p, env.behave n cs (.request r 0x62 p) = ([], none)
  handler : ∀ r, env.reqHandler r = false

/-- The data of the object for `c` after the properties `ps` were written in order: those written last,
else those of before. -/
def afterWrites (o : Obj) (ps : List EProp) (c : Byte) : Bytes :=
  (((ps.filter (fun p => p.code = c)).getLast?).map (·.data)).getD (stored o c)

/-- Writes carried out one after the other. -/
def writeAll (o : Obj) : List PProp → Obj
  | [] => o
  | p :: ps => writeAll { o with props := o.props.update p.code p.data } ps

theorem keeping_effects (env : Env) (he : Keeping env) (db : StdDB) (r : ObjRef) (l : List PProp) :
    ∀ (n n' : Node) (o : Obj) (done : List Call) (ms : List Sent) (rs : List (Option Err)),
      n.get r = some o →
      Effects env db n done (l.map (fun p => Call.request r 0x61 p)) n' ms rs →
      SameFrame n n' ∧ (∀ e ∈ rs, e = none) ∧
      ∀ r', n'.get r' = if r' = r then some (writeAll o l) else n.get r' := by
  induction l with
  | nil =>
    intro n n' o done ms rs hn h
    cases h
    refine ⟨.refl n, fun _ h => absurd h (by simp), fun r' => ?_⟩
    split
    · next e => rw [e, hn]; rfl
    · rfl
  | cons p l ih =>
    intro n n' o done ms rs hn h
    rw [List.map_cons] at h
    cases h with
    | @cons _ _ _ _ _ ms rs h =>
      rw [he.stores] at h ⊢
      have hg : ∀ r', (NodeOp.runAll db n [.obj r (.write p.code p.data)]).1.get r'
          = if r' = r then some { o with props := o.props.update p.code p.data } else n.get r' := by
        intro r'
        show (n.onObj r (fun o => Node.dropErr ((ObjOp.write p.code p.data).run db o))).1.get r' = _
        rw [onObj_get, hn]
        congr 1
        show some ((ObjOp.write p.code p.data).run db o).1 = _
        rw [run_target db o _ p.code p.data rfl, setPropertyData_fst]
      obtain ⟨i1, i2, i3⟩ := ih _ n' { o with props := o.props.update p.code p.data } _ ms rs
        (by rw [hg, if_pos rfl]) h
      refine ⟨?_, ?_, fun r' => ?_⟩
      · exact SameFrame.trans (b := (NodeOp.runAll db n [.obj r (.write p.code p.data)]).1)
          (onObj_frame n r _) i1
      · intro e hx
        rcases List.mem_cons.mp hx with hx | hx
        · exact hx
        · exact i2 e hx
      · rw [i3 r', hg r']
        split <;> rfl

theorem writeAll_codes (l : List PProp) : ∀ o : Obj, (writeAll o l).codes = o.codes := by
  induction l with
  | nil => intro o; rfl
  | cons p l ih => intro o; rw [writeAll, ih]

/-- What is in the object after writes that fit: the same properties with the same attributes and
sizes. -/
theorem writeAll_lookup (l : List PProp) : ∀ (o : Obj) (c : Byte),
    (writeAll o l).props.lookup c = (o.props.lookup c).map (fun q =>
      q.setData ((((l.filter (fun p => p.code = c)).getLast?).map (·.data)).getD q.data)) := by
  induction l with
  | nil =>
    intro o c
    cases h : o.props.lookup c with
    | none => simp [writeAll, h]
    | some q => simp [writeAll, h, EProp.setData]
  | cons p l ih =>
    intro o c
    rw [writeAll, ih, lookup_update]
    by_cases hc : p.code = c
    · subst hc
      rw [if_pos rfl]
      cases h : o.props.lookup p.code with
      | none => rfl
      | some q =>
        simp only [Option.map_some, List.filter_cons, decide_true, if_true, List.getLast?_cons]
        cases hx : (l.filter (fun x => x.code = p.code)).getLast? <;> simp [EProp.setData]
    · rw [if_neg (fun h => hc h.symm), List.filter_cons, if_neg (by simpa using hc)]

theorem update_sizes (m : PMap) (c : Byte) (d : Bytes) (hd : d.length ≤ 255)
    (h : ∀ q ∈ m, q.data.length ≤ 255) : ∀ q ∈ m.update c d, q.data.length ≤ 255 := by
  intro q hq
  unfold PMap.update at hq
  obtain ⟨x, hx, rfl⟩ := List.mem_map.mp hq
  split
  · exact hd
  · exact h x hx

theorem writeAll_sizes (l : List PProp) : ∀ o : Obj, (∀ p ∈ l, p.data.length ≤ 255) →
    (∀ q ∈ o.props, q.data.length ≤ 255) → ∀ q ∈ (writeAll o l).props, q.data.length ≤ 255 := by
  induction l with
  | nil => intro o _ h; exact h
  | cons p l ih =>
    intro o hl h
    exact ih _ (fun x hx => hl x (List.mem_cons_of_mem _ hx))
      (update_sizes _ _ _ (hl p (List.mem_cons_self ..)) h)

theorem filter_codes (ps : List EProp) (c : Byte) :
    ((((ps.map (fun p => (⟨p.code, p.data⟩ : PProp))).filter (fun p => p.code = c)).getLast?).map (·.data))
      = (((ps.filter (fun p => p.code = c)).getLast?).map (·.data)) := by
  rw [List.filter_map, List.getLast?_map, Option.map_map]
  rfl

theorem stored_writeAll (o : Obj) (ps : List EProp) (c : Byte) (h : (o.props.lookup c).isSome) :
    stored (writeAll o (ps.map (fun p => ⟨p.code, p.data⟩))) c = afterWrites o ps c := by
  obtain ⟨q, hq⟩ := Option.isSome_iff_exists.mp h
  unfold stored afterWrites
  rw [writeAll_lookup, filter_codes, hq]
  simp [EProp.setData, stored, hq]

theorem addressed_written {n n' : Node} {code : ObjectCode} {r : ObjRef} {o o' : Obj}
    (h : Addressed n code r o) (hc : o'.codes = o.codes)
    (hg : ∀ r', n'.get r' = if r' = r then some o' else n.get r') : Addressed n' code r o' := by
  have hcode : o'.code = o.code := by unfold Obj.code; rw [hc]
  cases r with
  | device i =>
    obtain ⟨h1, h2, h3⟩ := h
    refine ⟨?_, hcode.trans h2, fun j hj x hx => ?_⟩
    · have := hg (.device i)
      rw [if_pos rfl] at this
      exact this
    · have := hg (.device j)
      rw [if_neg (by intro e; cases e; omega)] at this
      exact h3 j hj x (this.symm.trans hx)
  | profile i =>
    obtain ⟨h0, h1, h2, h3⟩ := h
    refine ⟨fun x hx => ?_, ?_, hcode.trans h2, fun j hj x hx => ?_⟩
    · obtain ⟨j, hj⟩ := List.mem_iff_getElem?.mp hx
      have := hg (.device j)
      rw [if_neg (by intro e; cases e)] at this
      exact h0 x (List.mem_of_getElem? ((show n'.devices[j]? = n.devices[j]? from this).symm.trans hj))
    · have := hg (.profile i)
      rw [if_pos rfl] at this
      exact this
    · have := hg (.profile j)
      rw [if_neg (by intro e; cases e; omega)] at this
      exact h3 j hj x (this.symm.trans hx)

/-- The object after writes that fit. -/
structure Rewritten (o : Obj) (ps : List EProp) (o' : Obj) : Prop where
  codes : o'.codes = o.codes
  sizes : ∀ q ∈ o'.props, q.data.length ≤ 255
  stored : ∀ x, (o.props.lookup x).isSome → stored o' x = afterWrites o ps x
  look : ∀ x q, o.props.lookup x = some q → ∃ q', o'.props.lookup x = some q' ∧
    q'.getAttr = q.getAttr ∧ q'.data.length = q.data.length
  len : ∀ x, (o.props.lookup x).isSome → (Props.stored o' x).length = (Props.stored o x).length
  some : ∀ p ∈ ps, (o.props.lookup p.code).isSome

theorem rewritten (o : Obj) (hdata : ∀ q ∈ o.props, q.data.length ≤ 255) (ps : List EProp)
    (hwrite : ∀ p ∈ ps, ∃ q, o.props.lookup p.code = some q ∧ q.setAttr ≠ 0 ∧
      p.data.length = q.data.length) :
    Rewritten o ps (writeAll o (ps.map (fun p => ⟨p.code, p.data⟩))) := by
  have hd : ∀ p ∈ ps, p.data.length ≤ 255 := by
    intro p hp
    obtain ⟨q, h1, -, h3⟩ := hwrite p hp
    rw [h3]
    exact hdata q (lookup_mem h1)
  generalize ho' : writeAll o (ps.map (fun p => ⟨p.code, p.data⟩)) = o'
  have hcodes : o'.codes = o.codes := by rw [← ho', writeAll_codes]
  have hsizes : ∀ q ∈ o'.props, q.data.length ≤ 255 := by
    rw [← ho']
    refine writeAll_sizes _ o (fun p hp => ?_) hdata
    obtain ⟨x, hx, rfl⟩ := List.mem_map.mp hp
    exact hd x hx
  have hstored : ∀ x, (o.props.lookup x).isSome → stored o' x = afterWrites o ps x := by
    intro x hx
    rw [← ho', stored_writeAll o ps x hx]
  have hlook : ∀ x q, o.props.lookup x = some q → ∃ q', o'.props.lookup x = some q' ∧
      q'.getAttr = q.getAttr ∧ q'.data.length = q.data.length := by
    intro x q hq
    have hw := writeAll_lookup (ps.map (fun p => (⟨p.code, p.data⟩ : PProp))) o x
    rw [ho', filter_codes, hq, Option.map_some] at hw
    refine ⟨_, hw, rfl, ?_⟩
    show ((((ps.filter (fun p => p.code = x)).getLast?).map (·.data)).getD q.data).length = _
    cases hx : (ps.filter (fun p => p.code = x)).getLast? with
    | none => rfl
    | some p =>
      obtain ⟨hp, hpc⟩ := List.mem_filter.mp (List.mem_of_getLast? hx)
      obtain ⟨q', h1, -, h3⟩ := hwrite p hp
      have : p.code = x := by simpa using hpc
      rw [this, hq] at h1
      cases h1
      exact h3
  have hlen : ∀ x, (o.props.lookup x).isSome → (stored o' x).length = (stored o x).length := by
    intro x hx
    obtain ⟨q, hq⟩ := Option.isSome_iff_exists.mp hx
    obtain ⟨q', h1, -, h3⟩ := hlook x q hq
    unfold stored
    rw [h1, hq]
    exact h3
  have hsome : ∀ p ∈ ps, (o.props.lookup p.code).isSome := by
    intro p hp
    obtain ⟨q, h1, -⟩ := hwrite p hp
    rw [h1]; rfl
  exact ⟨hcodes, hsizes, hstored, hlook, hlen, hsome⟩

/-- A program that stores what is written: what a write does to the node. -/
theorem keeping_received (n : Node) (r : ObjRef) (o : Obj) (objCode : ObjectCode)
    (ho : Addressed n objCode r o) (env : Env) (he : Keeping env) (db : StdDB) (ps : List EProp)
    (o' : Obj) (ho' : writeAll o (ps.map (fun p => ⟨p.code, p.data⟩)) = o')
    (m : Message) (hm : m.esv = 0x61) (hp : properties m = ps.map (fun p => ⟨p.code, p.data⟩))
    (hdeoj : m.getDEOJ = objCode) (hi : ¬ Ignored n m) (ha : Accepts n m) :
    ∃ out rs, n.received env db m = .ok out ∧ (SameFrame n out.node ∧
      ∀ r', out.node.get r' = if r' = r then some o' else n.get r') ∧
      Results env db n out rs ∧ ∀ e ∈ rs, e = none := by
  obtain ⟨out, rs, r1, r2, r3, -, -, -, -⟩ := received_accepted env db n m hi ha r o
    (by rw [hdeoj]; exact ho)
  have hcalls : out.calls = (if env.listener then [Call.message m] else []) ++
      (ps.map (fun p => (⟨p.code, p.data⟩ : PProp))).map (fun p => Call.request r 0x61 p) := by
    rw [r2]
    unfold expectedCalls
    rw [hp, hm]
    congr 1
    generalize ps.map (fun p => (⟨p.code, p.data⟩ : PProp)) = l
    induction l with
    | nil => rfl
    | cons p l ih =>
      rw [List.flatMap_cons, ih, List.map_cons, he.listens, he.handler]
      rfl
  have key : SameFrame n out.node ∧ (∀ e ∈ rs, e = none) ∧
      ∀ r', out.node.get r' = if r' = r then some o' else n.get r' := by
    rw [← ho']
    have hget := (addressed_lookup (by rw [← hdeoj] at ho; exact ho)).2
    generalize hcs : out.calls = calls at hcalls r3
    rw [hcalls] at r3
    by_cases hlis : env.listener = true
    · rw [if_pos hlis, List.singleton_append] at r3
      generalize out.sent = sent at r3
      generalize out.node = nd at r3 ⊢
      cases r3 with
      | @cons _ _ _ _ _ ms rs h =>
        rw [he.message hlis] at h ⊢
        obtain ⟨k1, k2, k3⟩ := keeping_effects env he db r _ _ nd o _ ms rs hget h
        refine ⟨k1, fun e hx => ?_, k3⟩
        rcases List.mem_cons.mp hx with hx | hx
        · exact hx
        · exact k2 e hx
    · rw [if_neg hlis, List.nil_append] at r3
      exact keeping_effects env he db r _ n out.node o _ out.sent rs hget r3
  exact ⟨out, rs, r1, ⟨key.1, key.2.2⟩, r3, key.2.1⟩

/-- C90. `PostRequest` of a running node `c` that writes properties of an object of another node `n`
(SetC), all of them writable, with data of the right size, over UDP: if the object listener of `n`
stores what is written, `c` gets a response with the data now stored. If then `c`, or any other
running node `c'`, reads properties of the object, it gets the data written, for each property the
last one, and the former data for the properties not written. -/
theorem C90_write_read (c : Node) (hb : Base c) (hr : c.running = true) (ht : c.lastTID.toNat ≤ 65535)
    (n : Node) (r : ObjRef) (o : Obj) (objCode : ObjectCode) (hc : objCode.toNat < 2 ^ 24)
    (ho : Addressed n objCode r o) (hdata : ∀ q ∈ o.props, q.data.length ≤ 255)
    (ps : List EProp) (hl : ps.length ≤ 255)
    (hsize : 12 + (ps.map (fun p => 2 + p.data.length)).sum ≤ 1024)
    (hwrite : ∀ p ∈ ps, ∃ q, o.props.lookup p.code = some q ∧ q.setAttr ≠ 0 ∧ p.data.length = q.data.length)
    (env : Env) (he : Keeping env) (db : StdDB) (ac an : Addr)
    (hac : n.selfMsg = true ∨ ac ≠ n.addr) (ic ia : String) :
    ∃ q m n' reply res, c.sendRequest objCode 0x61 ps = (c.nextTID, some q, none) ∧
      ((UdpServer.started .unicast ia).run [.datagram ⟨q.bytes, ac⟩]).handled = [m] ∧
      n.onMessageUDP env db m = .ok (n', [⟨reply, ac⟩]) ∧
      ((UdpServer.started .unicast ic).run [.datagram ⟨reply, an⟩]).handled = [res] ∧
      Answered q res objCode 0x71 an (ps.map (fun p => (p.code, afterWrites o ps p.code))) ∧
      ∀ (c' : Node), Base c' → c'.running = true → c'.lastTID.toNat ≤ 65535 →
      ∀ (cs : List Byte), cs.length ≤ 255 →
        (∀ x ∈ cs, ∃ p, o.props.lookup x = some p ∧ p.getAttr ≠ 0) →
        12 + (cs.map (fun x => 2 + (stored o x).length)).sum ≤ 1024 →
      ∀ (ac' : Addr), (n.selfMsg = true ∨ ac' ≠ n.addr) →
      ∃ q' m' reply' res', c'.sendRequest objCode 0x62 (asking cs) = (c'.nextTID, some q', none) ∧
        ((UdpServer.started .unicast ia).run [.datagram ⟨q'.bytes, ac'⟩]).handled = [m'] ∧
        n'.onMessageUDP env db m' = .ok (n', [⟨reply', ac'⟩]) ∧
        ((UdpServer.started .unicast ic).run [.datagram ⟨reply', an⟩]).handled = [res'] ∧
        Answered q' res' objCode 0x72 an (cs.map (fun x => (x, afterWrites o ps x))) := by
  have hd : ∀ p ∈ ps, p.data.length ≤ 255 := by
    intro p hp
    obtain ⟨q, h1, -, h3⟩ := hwrite p hp
    rw [h3]
    exact hdata q (lookup_mem h1)
  obtain ⟨hcodes, hsizes, hstored, hlook, hlen, hsome⟩ := rewritten o hdata ps hwrite
  generalize ho' : writeAll o (ps.map (fun p => ⟨p.code, p.data⟩)) = o' at hcodes hsizes hstored hlook hlen
  obtain ⟨q, m, n', reply, res, ⟨hn1, hn2⟩, h1, h2, h3, h4, h5⟩ := exchange c hb hr ht n r o objCode hc ho
    ⟨0x61, .request, true, false, some 0x71, some 0x51⟩ (by decide) 0x71 rfl (by decide) ps hl hd hsize
    (fun p hp => by
      obtain ⟨y, hy, hs, hz⟩ := hwrite p hp
      refine ⟨y, hy, fun _ => ⟨hs, hz⟩, fun h => ?_⟩
      simp at h)
    env db (fun n' => SameFrame n n' ∧ ∀ r', n'.get r' = if r' = r then some o' else n.get r') o'
    (keeping_received n r o objCode ho env he db ps o' ho')
    (fun n' h => addressed_written ho hcodes h.2)
    (fun p hp => by
      obtain ⟨q, h1⟩ := Option.isSome_iff_exists.mp (hsome p hp)
      obtain ⟨q', h2, -⟩ := hlook _ q h1
      rw [h2]; rfl)
    hsizes (by
      have : ps.map (fun p => 2 + (stored o' p.code).length) = ps.map (fun p => 2 + p.data.length) := by
        apply List.map_congr_left
        intro p hp
        obtain ⟨q, h1, -, h3⟩ := hwrite p hp
        rw [hlen _ (hsome p hp), h3]
        unfold stored
        rw [h1]; rfl
      rw [this]; exact hsize) ac an hac ic ia
  have e : ps.map (fun p => (p.code, stored o' p.code)) = ps.map (fun p => (p.code, afterWrites o ps p.code)) := by
    apply List.map_congr_left
    intro p hp
    rw [hstored _ (hsome p hp)]
  rw [e] at h5
  refine ⟨q, m, n', reply, res, h1, h2, h3, h4, h5, ?_⟩
  intro c' hb' hr' ht' cs hl' hread hfit ac' hac'
  have hcs : ∀ x ∈ cs, (o.props.lookup x).isSome := by
    intro x hx
    obtain ⟨p, hp, -⟩ := hread x hx
    rw [hp]; rfl
  obtain ⟨q', m', reply', res', g1, g2, g3, g4, g5⟩ := C89_read c' hb' hr' ht' n' r o' objCode hc
    (addressed_written ho hcodes hn2) cs hl' (fun x hx => by
      obtain ⟨p, hp, hg⟩ := hread x hx
      obtain ⟨p', hp', ha, -⟩ := hlook x p hp
      exact ⟨p', hp', by rw [ha]; exact hg⟩) hsizes (by
      have : cs.map (fun x => 2 + (stored o' x).length) = cs.map (fun x => 2 + (stored o x).length) := by
        apply List.map_congr_left
        intro x hx
        rw [hlen x (hcs x hx)]
      rw [this]; exact hfit) env
    ⟨fun h n cs m _ => he.message h n cs m, fun r _ n cs p => he.reads n cs r p,
      fun r h => absurd h (by rw [he.handler r]; decide)⟩ db ac' an
    (by rw [hn1.selfMsg, hn1.addr]; exact hac') ic ia
  refine ⟨q', m', reply', res', g1, g2, g3, g4, ?_⟩
  have e : cs.map (fun x => (x, stored o' x)) = cs.map (fun x => (x, afterWrites o ps x)) := by
    apply List.map_congr_left
    intro x hx
    rw [hstored x (hcs x hx)]
  rw [e] at g5
  exact g5

/-- The hypotheses of these theorems are met: a node asking `smallNode` for properties and writing one,
and a post that waits. -/
example : (∃ c : Node, Base c ∧ c.running = true ∧ c.lastTID.toNat ≤ 65535) ∧
    (∃ o, Addressed smallNode 0x013001 (.device 0) o ∧
      (∀ x ∈ [0x80, 0x80], ∃ p, o.props.lookup x = some p ∧ p.getAttr ≠ 0) ∧
      (∀ q ∈ o.props, q.data.length ≤ 255) ∧ stored o 0x80 = [0x30] ∧
      12 + ([(0x80 : Byte), 0x80].map (fun x => 2 + (stored o x).length)).sum ≤ 1024) ∧
    Passive noEnv 0x62 ∧
    (∃ o q, Addressed smallNode 0x013001 (.device 0) o ∧ o.props.lookup 0x80 = some q ∧ q.setAttr ≠ 0 ∧
      [(0x31 : Byte)].length = q.data.length) ∧
    (∃ env, Keeping env) ∧
    ∃ p, (PostSt.init.run (goodRun.take 8)).posters = [p] ∧ p.pc = .wait ∧
      (aResponse 7 "10.0.0.2").getTID = p.msg.getTID ∧ (aResponse 7 "10.0.0.2").bytes ≠ p.msg.bytes := by
  refine ⟨?_, ⟨smallNode.devices.head (by decide +kernel), ⟨by decide +kernel, by decide +kernel, by
    decide +kernel⟩, ?_, by decide +kernel, by decide +kernel, by decide +kernel⟩,
    Silent.passive ⟨rfl, fun _ => rfl, fun _ => rfl⟩ _,
    ⟨_, _, ⟨rfl, by decide +kernel, by decide +kernel⟩, rfl, by decide +kernel, by decide +kernel⟩,
    ⟨⟨true, fun _ => true, fun _ => false, fun _ _ c => match c with
      | .request r e p => if e = 0x61 then ([.obj r (.write p.code p.data)], none) else ([], none)
      | _ => ([], none)⟩, fun _ _ _ _ => rfl, fun _ => rfl, fun _ _ _ _ => rfl, fun _ _ _ _ => rfl,
      fun _ => rfl⟩, ?_⟩
  · obtain ⟨n, hn⟩ : ∃ n : Node, Base n := ⟨_, new_std.1⟩
    exact ⟨{ n with running := true, lastTID := 7 }, ⟨fun r o h => hn.wf r o (by cases r <;> exact h),
      hn.prof⟩, rfl, by show (7 : GoUint).toNat ≤ 65535; decide⟩
  · intro x hx
    have : x = 0x80 := by simpa using hx
    subst this
    exact ⟨_, by rfl, by decide +kernel⟩
  · exact ⟨⟨⟨"10.0.0.2", 3610⟩, false, (aRequest.setTID 7).setSEOJ 0x0EF001, false, .wait⟩,
      by decide +kernel, rfl, by decide, by decide +kernel⟩

end Verif.Props
