import Verif.Props.Handler
import Verif.Props.Tcp

/-! # C115: how a message came -/

namespace Verif.Props
open Verif Model Spec Lemmas

/-- The ways a message can come. -/
inductive Way where
  | multicast
  | udp
  | tcp
deriving DecidableEq, Repr

/-- The four questions about a message are answered as they should for this way. -/
structure Tells (m : Message) (w : Way) : Prop where
  multicast : m.isMulticastPacket = true ↔ w = .multicast
  unicast : m.isUnicastPacket = true ↔ w = .udp ∨ w = .tcp
  udp : m.isUDPUnicastPacket = true ↔ w = .udp
  tcp : m.isTCPUnicastPacket = true ↔ w = .tcp

/-- The way messages come to a server. -/
def wayOf : ServerKind → Way
  | .unicast => .udp
  | .multicast => .multicast

theorem tells_kind (m : Message) (k : ServerKind) (h : m.pktType = k.packetType) : Tells m (wayOf k) := by
  cases k <;> constructor <;>
    simp [Message.isMulticastPacket, Message.isUnicastPacket, Message.isUDPUnicastPacket, Message.isTCPUnicastPacket,
      Message.isPacketType, h, ServerKind.packetType, wayOf, multicastPacket, unicastPacket, udpUnicastPacket,
      tcpUnicastPacket]

theorem tells_tcp (m : Message) (h : m.pktType = tcpUnicastPacket) : Tells m .tcp := by
  constructor <;>
    simp [Message.isMulticastPacket, Message.isUnicastPacket, Message.isUDPUnicastPacket, Message.isTCPUnicastPacket,
      Message.isPacketType, h, multicastPacket, unicastPacket, udpUnicastPacket, tcpUnicastPacket]

/-- **C115**, datagrams: whatever a server receives, each message it hands over tells how it came, with the
address of its sender and the interface of the server. -/
theorem C115_udp (k : ServerKind) (ifi : String) (evs : List RecvEvent) (m : Message)
    (h : m ∈ ((UdpServer.started k ifi).run evs).handled) :
    Tells m (wayOf k) ∧ m.ifc = some ifi ∧ ∃ d, .datagram d ∈ evs ∧ m.src = d.peer := by
  suffices H : ∀ (s : UdpServer), s.kind = k → s.sock.ifc = some ifi →
      (∀ m ∈ s.handled, m.pktType = k.packetType ∧ m.ifc = some ifi ∧ ∃ d, .datagram d ∈ evs ∧ m.src = d.peer) →
      ∀ es, (∀ e ∈ es, e ∈ evs) → ∀ m ∈ (s.run es).handled,
        m.pktType = k.packetType ∧ m.ifc = some ifi ∧ ∃ d, .datagram d ∈ evs ∧ m.src = d.peer by
    obtain ⟨a, b⟩ := H (UdpServer.started k ifi) rfl rfl (fun m hm => absurd hm List.not_mem_nil) evs (fun _ h => h) m h
    exact ⟨tells_kind m k a, b⟩
  intro s hk hi hh es hes
  induction es generalizing s with
  | nil => exact hh
  | cons e es ih =>
    have key : (s.step e).kind = k ∧ (s.step e).sock.ifc = some ifi ∧ ∀ m ∈ (s.step e).handled,
        m.pktType = k.packetType ∧ m.ifc = some ifi ∧ ∃ d, .datagram d ∈ evs ∧ m.src = d.peer := by
      unfold UdpServer.step
      split
      · exact ⟨hk, hi, hh⟩
      · have hr : (s.sock.readMessage e).1.ifc = some ifi ∧ ∀ m, (s.sock.readMessage e).2 = .ok m →
            m.ifc = some ifi ∧ ∃ d, e = .datagram d ∧ m.src = d.peer := by
          unfold UdpSocket.readMessage
          split
          · exact ⟨hi, fun m h => by cases h⟩
          · split
            · exact ⟨hi, fun m h => by cases h⟩
            · rename_i d
              refine ⟨hi, fun m h => ?_⟩
              obtain ⟨x, hx, hm⟩ := Res.bind_eq_ok.mp h
              obtain ⟨y, hy, hm⟩ := Res.bind_eq_ok.mp hm
              cases hm
              exact ⟨hi, d, rfl, rfl⟩
        split
        · rename_i sock m hm
          rw [hm] at hr
          refine ⟨hk, hr.1, fun x hx => ?_⟩
          rcases List.mem_append.mp hx with hx | hx
          · exact hh x hx
          · rw [List.mem_singleton.mp hx]
            obtain ⟨a, d, rfl, b⟩ := hr.2 m rfl
            exact ⟨by rw [hk], a, d, hes _ List.mem_cons_self, b⟩
        · rename_i sock r hm
          rw [hm] at hr
          split
          · exact ⟨hk, hr.1, hh⟩
          · exact ⟨hk, hr.1, hh⟩
    exact ih _ key.1 key.2.1 key.2.2 (fun x hx => hes x (List.mem_cons_of_mem _ hx))

/-- The calls made for a message: none, or those of an accepted message. -/
theorem received_calls (env : Env) (db : StdDB) (n : Node) (m : Message) (out : Outcome)
    (h : n.received env db m = .ok out) :
    out.calls = [] ∨ ∃ r o, Addressed n m.getDEOJ r o ∧ out.calls = expectedCalls env r m := by
  by_cases hi : Ignored n m
  · unfold Node.received at h
    rw [if_pos ((ignored_iff n m).mpr hi)] at h
    cases h
    exact .inl rfl
  · by_cases ha : Accepts n m
    · obtain ⟨r, o, ho, -⟩ := id ha
      obtain ⟨out', h1, h2⟩ := C34_handlers env db n m hi ha r o ho
      rw [h] at h1
      cases h1
      exact .inr ⟨r, o, ho, h2⟩
    · obtain ⟨r, -, h1⟩ := received_rejected env db n m hi ha
      rw [h] at h1
      cases h1
      exact .inl rfl

/-- **C115**, listeners: the node listener gets the message as it was received, so that all of this can be
asked there. -/
theorem C115_listener (env : Env) (db : StdDB) (n : Node) (m : Message) (out : Outcome)
    (h : n.received env db m = .ok out) (x : Message) (hx : .message x ∈ out.calls) : x = m := by
  rcases received_calls env db n m out h with e | ⟨r, o, -, e⟩
  · rw [e] at hx; exact absurd hx List.not_mem_nil
  · rw [e, expectedCalls, List.mem_append] at hx
    rcases hx with hx | hx
    · split at hx
      · cases List.mem_singleton.mp hx; rfl
      · exact absurd hx List.not_mem_nil
    · obtain ⟨p, -, hp⟩ := List.mem_flatMap.mp hx
      rcases List.mem_append.mp hp with hp | hp
      · split at hp
        · cases List.mem_singleton.mp hp
        · exact absurd hp List.not_mem_nil
      · split at hp
        · cases List.mem_singleton.mp hp
        · exact absurd hp List.not_mem_nil

/-- **C115**, connections: a message the node listener gets for a connection tells that it came over TCP, with
the address of the peer. -/
theorem C115_tcp (env : Env) (db : StdDB) (n : Node) (c : Conn) (out : ConnOutcome) (o : Outcome)
    (h : n.onConnection env db c = .ok out) (ho : out.handled = some o) (m : Message) (hm : .message m ∈ o.calls) :
    Tells m .tcp ∧ m.src = c.peer := by
  unfold Node.onConnection at h
  split at h
  · cases h
  · cases h; cases ho
  · rename_i x hx
    obtain ⟨o', ho', h⟩ := Res.bind_eq_ok.mp h
    have hsrc : x.src = c.peer := by
      unfold Conn.readMessage at hx
      obtain ⟨y, -, hy⟩ := Res.bind_eq_ok.mp hx
      cases hy; rfl
    have e : o' = o := by
      split at h <;> (cases h; cases ho; rfl)
    subst e
    rw [C115_listener env db n _ o' ho' m hm]
    exact ⟨tells_tcp _ rfl, hsrc⟩

/-- **C115**, other messages: one that was decoded from bytes, and not received, tells nothing. -/
theorem C115_made (bs : Bytes) (m : Message) (h : Message.newWithBytes bs = .ok m) :
    m.isMulticastPacket = false ∧ m.isUnicastPacket = false ∧ m.isUDPUnicastPacket = false ∧
      m.isTCPUnicastPacket = false := by
  have h0 : m.pktType = 0 := by
    rcases newWithBytes_cases bs with ⟨t0, t1, s0, s1, s2, d0, d1, d2, esv, opc, rest, rfl⟩ | ⟨-, e⟩
    · rw [newWithBytes_cons] at h
      cases h; rfl
    · rw [e] at h; cases h
  simp [Message.isMulticastPacket, Message.isUnicastPacket, Message.isUDPUnicastPacket, Message.isTCPUnicastPacket,
    Message.isPacketType, h0]

/-! Concrete cases -/

/-- A read request, as bytes. -/
def askStatus : Bytes := [0x10, 0x81, 0x00, 0x07, 0x05, 0xFF, 0x01, 0x01, 0x30, 0x01, 0x62, 0x01, 0x80, 0x00]

example : ((UdpServer.started .multicast "eth0").run
      [.datagram ⟨askStatus, ⟨"192.168.0.9", 3610⟩⟩]).handled.map
        (fun m => (m.isMulticastPacket, m.isUnicastPacket, m.src.ip, m.ifc))
    = [(true, false, "192.168.0.9", some "eth0")] := by decide +kernel

example : ((UdpServer.started .unicast "eth0").run
      [.datagram ⟨askStatus, ⟨"192.168.0.9", 3610⟩⟩]).handled.map
        (fun m => (m.isMulticastPacket, m.isUDPUnicastPacket, m.isTCPUnicastPacket, m.src.ip))
    = [(false, true, false, "192.168.0.9")] := by decide +kernel

/-- A connection with this request reaches the listener. -/
example : (match smallNode.onConnection storingEnv stdDB ⟨[askStatus], eof, ⟨"192.168.0.9", 50000⟩⟩ with
    | .ok ⟨some o, _, _⟩ => o.calls.head?.map (fun c => match c with
      | .message m => (m.isTCPUnicastPacket, m.isUnicastPacket, m.isUDPUnicastPacket, m.isMulticastPacket, m.src.port)
      | _ => (false, false, false, false, 0))
    | _ => none) = some (true, true, false, false, 50000) := by decide +kernel

example : ∃ m, Message.newWithBytes askStatus = .ok m := ⟨_, newWithBytes_cons ..⟩

end Verif.Props
