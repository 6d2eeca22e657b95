import Verif.Model.Request
import Verif.Props.NodePost
import Verif.Props.Datagram

/-!
# C88: requests are sent as asked, responses are read as received
-/

namespace Verif.Props
open Verif Model Spec Lemmas

/-- The destinations among the options. -/
def optDeojs (opts : List MsgOpt) : List ObjectCode :=
  opts.filterMap (fun | .deoj c => some c | _ => none)

/-- The services among the options. -/
def optEsvs (opts : List MsgOpt) : List ESV :=
  opts.filterMap (fun | .esv e => some e | _ => none)

/-- The properties among the options, in the order given. -/
def optProps (opts : List MsgOpt) : List EProp :=
  opts.flatMap (fun | .props ps => ps | _ => [])

theorem addEProps_spec (ps : List EProp) (m : Message) (hm : Built m) :
    Built (m.addEProps ps) ∧
    { m.addEProps ps with opc := m.opc, ep := m.ep } = m ∧
    (m.addEProps ps).ep = m.ep ++ ps.map (fun p => some ⟨p.code, p.data⟩) := by
  induction ps generalizing m with
  | nil => exact ⟨hm, rfl, by simp [Message.addEProps]⟩
  | cons p ps ih =>
    obtain ⟨h1, h2, h3⟩ := ih (m.addProperty (some p.toProtocol)) (.addProperty _ hm)
    refine ⟨h1, ?_, ?_⟩
    · show { Message.addEProps (m.addProperty (some p.toProtocol)) ps with opc := m.opc, ep := m.ep } = m
      have : { Message.addEProps (m.addProperty (some p.toProtocol)) ps with
          opc := m.opc, ep := m.ep } = { m.addProperty (some p.toProtocol) with
          opc := m.opc, ep := m.ep } := by
        conv => rhs; rw [← h2]
      rw [this]
      rfl
    · show (Message.addEProps (m.addProperty (some p.toProtocol)) ps).ep = _
      rw [h3, List.map_cons]
      show (m.ep ++ [some p.toProtocol]) ++ _ = _
      rw [List.append_assoc]
      rfl

theorem foldl_apply (opts : List MsgOpt) (m : Message) (hm : Built m) :
    Built (opts.foldl Message.apply m) ∧
    (opts.foldl Message.apply m).getDEOJ.toNat
      = (((optDeojs opts).map (fun c => c.toNat % 2 ^ 24)).getLast?).getD m.getDEOJ.toNat ∧
    (opts.foldl Message.apply m).esv = ((optEsvs opts).getLast?).getD m.esv ∧
    (opts.foldl Message.apply m).ep = m.ep ++ (optProps opts).map (fun p => some ⟨p.code, p.data⟩) ∧
    (opts.foldl Message.apply m).ehd1 = m.ehd1 ∧ (opts.foldl Message.apply m).ehd2 = m.ehd2 ∧
    (opts.foldl Message.apply m).tid = m.tid ∧ (opts.foldl Message.apply m).seoj = m.seoj := by
  have last : ∀ {α : Type} (x d : α) (l : List α), ((x :: l).getLast?).getD d = (l.getLast?).getD x := by
    intro α x d l
    rw [List.getLast?_cons]
    rfl
  induction opts generalizing m with
  | nil => exact ⟨hm, rfl, rfl, by simp [optProps], rfl, rfl, rfl, rfl⟩
  | cons o opts ih =>
    cases o with
    | deoj c =>
      obtain ⟨h1, h2, h3, h4, h5⟩ := ih (m.setDEOJ c) (.setDEOJ c hm)
      refine ⟨h1, ?_, h3, h4, h5⟩
      rw [List.foldl_cons]
      refine h2.trans ?_
      rw [(C13_eoj m hm c).2.1]
      exact (last _ _ _).symm
    | esv e =>
      obtain ⟨h1, h2, h3, h4, h5⟩ := ih (m.setESV e) (.setESV e hm)
      exact ⟨h1, h2, h3.trans (last _ _ _).symm, h4, h5⟩
    | props ps =>
      obtain ⟨a1, a2, a3⟩ := addEProps_spec ps m hm
      obtain ⟨h1, h2, h3, h4, h5, h6, h7, h8⟩ := ih (m.addEProps ps) a1
      have f1 := congrArg Message.getDEOJ a2
      have f2 := congrArg Message.esv a2
      have f3 := congrArg Message.ehd1 a2
      have f4 := congrArg Message.ehd2 a2
      have f5 := congrArg Message.tid a2
      have f6 := congrArg Message.seoj a2
      refine ⟨h1, ?_, ?_, ?_, h5.trans f3, h6.trans f4, h7.trans f5, h8.trans f6⟩
      · refine h2.trans ?_
        rw [show (m.addEProps ps).getDEOJ = m.getDEOJ from f1]
        rfl
      · refine h3.trans ?_
        rw [show (m.addEProps ps).esv = m.esv from f2]
        rfl
      · refine h4.trans ?_
        rw [a3, List.append_assoc, ← List.map_append]
        rfl

/-- C88. `NewMessage` with any options in any order: the destination and the service are those given
last (the destination as a code of three bytes), the properties all those given, in order. -/
theorem C88_options (opts : List MsgOpt) :
    Built (Message.build opts) ∧
    (Message.build opts).getDEOJ.toNat
      = (((optDeojs opts).map (fun c => c.toNat % 2 ^ 24)).getLast?).getD 0 ∧
    (Message.build opts).esv = ((optEsvs opts).getLast?).getD 0 ∧
    (Message.build opts).ep = (optProps opts).map (fun p => some ⟨p.code, p.data⟩) ∧
    (Message.build opts).getOPC = (optProps opts).length % 256 ∧
    (Message.build opts).ehd1 = 0x10 ∧ (Message.build opts).ehd2 = 0x81 := by
  obtain ⟨h1, h2, h3, h4, h5, h6, -⟩ := foldl_apply opts Message.new .new
  refine ⟨h1, h2.trans ?_, h3, h4, ?_, h5, h6⟩
  · rw [show Message.new.getDEOJ.toNat = 0 by decide]
  · have := (C11_opc _ h1).1
    refine this.trans ?_
    rw [h4]
    show (([] : List (Option PProp)) ++ _).length % 256 = _
    simp

/-- The frame a request should be: the identifier after the last one, from the node profile, to the
object asked, with the service and the properties asked. -/
def requestFrame (last : Nat) (objCode : ObjectCode) (esv : ESV) (ps : List EProp) : Frame :=
  ⟨(last + 1) % 65536, 0x0EF001, objCode.toNat, esv, ps.map (fun p => ⟨p.code, p.data⟩)⟩

/-- C88. What `SendRequest` and `PostRequest` of a running node put on the wire: exactly the frame
asked for. More than 255 properties or more than 255 bytes of one do not fit the format. -/
theorem C88_wire (n : Node) (hb : Base n) (hr : n.running = true) (ht : n.lastTID.toNat ≤ 65535)
    (objCode : ObjectCode) (hc : objCode.toNat < 2 ^ 24) (esv : ESV) (ps : List EProp)
    (hl : ps.length ≤ 255) (hd : ∀ p ∈ ps, p.data.length ≤ 255) :
    ∃ q, n.sendRequest objCode esv ps = (n.nextTID, some q, none) ∧ Built q ∧
      (requestFrame n.lastTID.toNat objCode esv ps).Valid ∧
      Carries q (requestFrame n.lastTID.toNat objCode esv ps) ∧
      q.bytes = (requestFrame n.lastTID.toNat objCode esv ps).encode := by
  obtain ⟨b1, b2, b3, b4, b5, b6, b7⟩ := C88_options [.deoj objCode, .esv esv, .props ps]
  have hp : optProps [.deoj objCode, .esv esv, .props ps] = ps := by simp [optProps]
  rw [hp] at b4 b5
  have hq : Built ((Message.build [.deoj objCode, .esv esv, .props ps]).setTID n.nextTID.lastTID
      |>.setSEOJ 0x0EF001) := .setSEOJ _ (.setTID _ b1)
  have hcar : Carries ((Message.build [.deoj objCode, .esv esv, .props ps]).setTID n.nextTID.lastTID
      |>.setSEOJ 0x0EF001) (requestFrame n.lastTID.toNat objCode esv ps) := by
    refine ⟨b6, b7, tcpRequest_tid n _ b1 ht, ?_, ?_, b3, ?_, ?_⟩
    · rw [(C13_eoj _ (.setTID _ b1) _).1]; rfl
    · refine b2.trans ?_
      show objCode.toNat % 2 ^ 24 = _
      rw [Nat.mod_eq_of_lt hc]; rfl
    · refine b5.trans ?_
      show ps.length % 256 = (ps.map _).length
      rw [List.length_map]; omega
    · refine b4.trans ?_
      show _ = (ps.map _).map _
      rw [List.map_map]; rfl
  refine ⟨_, sendMessage_running hb hr _, hq, ?_, hcar, C03_frame _ hq _ hcar⟩
  refine ⟨Nat.mod_lt _ (by omega), by show 0x0EF001 < 256 ^ 3; decide, hc, ?_, ?_⟩
  · show (ps.map _).length < 256
    rw [List.length_map]; omega
  · intro p hp
    obtain ⟨x, hx, rfl⟩ := List.mem_map.mp hp
    have := hd x hx
    show x.data.length < 256
    omega

/-- C88. `Properties()` and `Property(n)` of a message that carries a frame give exactly the
properties of the frame: code and data, in order; an index out of range, also a negative one, gives
nothing. -/
theorem C88_properties (m : Message) (f : Frame) (hm : Carries m f) :
    ∃ ps, m.clientProperties = .ok ps ∧ ps.map (fun p => (p.code, p.data)) = f.props.map (fun p => (p.epc, p.edt)) ∧
      ∀ n : Int, m.clientProperty n = .ok (if 0 ≤ n then ps[n.toNat]? else none) := by
  have key : ∀ l : List WireProp, ∃ ps, Message.clientProps (l.map (fun p => some ⟨p.epc, p.edt⟩)) = .ok ps ∧
      ps.map (fun p => (p.code, p.data)) = l.map (fun p => (p.epc, p.edt)) := by
    intro l
    induction l with
    | nil => exact ⟨[], rfl, rfl⟩
    | cons p l ih =>
      obtain ⟨ps, h1, h2⟩ := ih
      refine ⟨_, by rw [List.map_cons, Message.clientProps, h1]; rfl, ?_⟩
      rw [List.map_cons, List.map_cons, h2]
      rfl
  obtain ⟨ps, h1, h2⟩ := key f.props
  have h3 : m.clientProperties = .ok ps := by
    unfold Message.clientProperties
    rw [hm.props]; exact h1
  refine ⟨ps, h3, h2, fun n => ?_⟩
  unfold Message.clientProperty
  rw [h3, Res.ok_bind]
  by_cases h0 : 0 ≤ n
  · rw [if_pos h0]
    by_cases h1 : (ps.length : Int) ≤ n
    · rw [if_pos (.inr h1), List.getElem?_eq_none (by omega)]
    · rw [if_neg (by omega)]
  · rw [if_neg h0, if_pos (.inl (by omega))]

/-- A running node, and a request with two options given twice. -/
example : (∃ n : Node, Base n ∧ n.running = true ∧ n.lastTID.toNat ≤ 65535) ∧
    (Message.build [.esv 0x62, .deoj 0x013001, .props [EProp.make 0x80 "" [] .prohibited .prohibited .prohibited],
      .esv 0x61, .props [EProp.make 0xB0 "" [0x41] .prohibited .prohibited .prohibited]]).bytes =
    [0x10, 0x81, 0, 0, 0, 0, 0, 0x01, 0x30, 0x01, 0x61, 2, 0x80, 0, 0xB0, 1, 0x41] := by
  constructor
  · obtain ⟨n, hn⟩ : ∃ n : Node, Base n := ⟨_, new_std.1⟩
    exact ⟨{ n with running := true, lastTID := 7 }, ⟨fun r o h => hn.wf r o (by cases r <;> exact h),
      hn.prof⟩, rfl, by show (7 : GoUint).toNat ≤ 65535; decide⟩
  · decide +kernel

end Verif.Props
