import Verif.Model.Socket
import Verif.Props.Address

/-!
# C145: status of a socket
-/

namespace Verif.Props
open Verif Model Spec Lemmas

/-! ## Specification -/

/-- The port a socket is bound to: multicast sockets always use 3610. -/
def portOf (k : SockKind) (p : Int) : Int := if k = .multicast then 3610 else p

/-- What a call changes of this: a `Bind` without an error gives its interface, address and port. -/
def boundBy (k : SockKind) (b : Option (Str × Str × Int)) : SockOp → Option Err → Option (Str × Str × Int)
  | .bind _ i a p, none => some (i, a, portOf k p)
  | _, _ => b

/-- Interface, address and port of the last `Bind` of a history that returned no error. -/
def lastBound (k : SockKind) : SocketState → List SockOp → Option (Str × Str × Int) → Option (Str × Str × Int)
  | _, [], b => b
  | s, op :: ops, b => lastBound k (op.run k s).1 ops (boundBy k b op (op.run k s).2)

/-- A socket reports that it is bound to `b`. -/
def Reports (s : SocketState) (i a : Str) (p : Int) : Prop :=
  s.isBound = true ∧ s.getPort = .ok p ∧ s.getAddress = .ok a ∧ s.getInterface = .ok (some i) ∧
    s.ipAddr = .ok (joinHostPort a (itoa p))

/-- A socket reports that it is not bound: everything else is an error. -/
def ReportsNothing (s : SocketState) : Prop :=
  s.isBound = false ∧ (∃ e, s.getPort = .err e) ∧ (∃ e, s.getAddress = .err e) ∧ (∃ e, s.getInterface = .err e) ∧
    ∃ e, s.ipAddr = .err e

/-- The options of a multicast socket can be set. -/
def OptionsSet : SockOp → Prop
  | .bind os _ _ _ => os.raw = none ∧ os.reuse = none ∧ os.loop = none
  | .close _ => True

/-! ## Proofs -/

/-- The status of a socket without its connection. -/
private def status (s : SocketState) : Option Str × Str × Int := (s.ifi, s.addr, s.port)

private def statusOf : Option (Str × Str × Int) → Option Str × Str × Int
  | none => (none, [], 0)
  | some (i, a, p) => (some i, a, p)

private theorem close_status (k : SockKind) (os : SockOs) (s : SocketState) : status (s.close k os).1 = status s := by
  unfold SocketState.close
  cases s.conn with
  | none => rfl
  | some n =>
    cases k with
    | tcp => dsimp only; cases os.close <;> rfl
    | _ => rfl

private theorem run_status (k : SockKind) (s : SocketState) (op : SockOp) (h : k = .multicast → OptionsSet op)
    (b : Option (Str × Str × Int)) (hb : status s = statusOf b) :
    status (op.run k s).1 = statusOf (boundBy k b op (op.run k s).2) := by
  cases op with
  | close os => exact (close_status k os s).trans hb
  | bind os i a p =>
    show status (s.bind k os i a p).1 = statusOf (boundBy k b (.bind os i a p) (s.bind k os i a p).2)
    have hc := (close_status k os s).trans hb
    cases k with
    | unicast =>
      unfold SocketState.bind SocketState.bindUnicast
      dsimp only
      cases hs : s.close .unicast os with
      | mk s' e =>
        rw [hs] at hc
        cases e with
        | some e => exact hc
        | none =>
          dsimp only
          cases os.resolve with
          | some e => exact hc
          | none =>
            dsimp only
            cases os.listen with
            | inr e => exact hc
            | inl n =>
              dsimp only
              cases os.raw with
              | some e => dsimp only; rw [close_status]; exact hc
              | none =>
                dsimp only
                cases os.reuse with
                | some e => dsimp only; rw [close_status]; exact hc
                | none => rfl
    | tcp =>
      unfold SocketState.bind SocketState.bindTcp
      dsimp only
      cases hs : s.close .tcp os with
      | mk s' e =>
        rw [hs] at hc
        cases e with
        | some e => exact hc
        | none =>
          dsimp only
          cases os.resolve with
          | some e => exact hc
          | none =>
            dsimp only
            cases os.listen with
            | inr e => exact hc
            | inl n =>
              dsimp only
              cases os.raw with
              | some e => exact hc
              | none =>
                dsimp only
                cases os.reuse with
                | some e => exact hc
                | none => rfl
    | multicast =>
      obtain ⟨h1, h2, h3⟩ := h rfl
      unfold SocketState.bind SocketState.bindMulticast
      dsimp only
      cases hs : s.close .multicast os with
      | mk s' e =>
        rw [hs] at hc
        cases e with
        | some e => exact hc
        | none =>
          dsimp only
          by_cases ha : (!(isIPv4Address a) && !(isIPv6Address a)) = true
          · rw [if_pos ha]; exact hc
          · rw [if_neg ha]
            cases os.resolve with
            | some e => exact hc
            | none =>
              dsimp only
              cases os.listen with
              | inr e => exact hc
              | inl n => rw [h1, h2, h3]; rfl

private theorem runAll_status (k : SockKind) (ops : List SockOp) : ∀ (s : SocketState) (b : Option (Str × Str × Int)),
    (k = .multicast → ∀ op ∈ ops, OptionsSet op) → status s = statusOf b →
    status (SockOp.runAll k s ops) = statusOf (lastBound k s ops b) := by
  induction ops with
  | nil => exact fun _ _ _ h => h
  | cons op ops ih =>
    intro s b ho h
    refine ih (op.run k s).1 _ (fun hk x hx => ho hk x (List.mem_cons_of_mem _ hx)) ?_
    exact run_status k s op (fun hk => ho hk op List.mem_cons_self) b h

private theorem reports_of {s : SocketState} {i a : Str} {p : Int} (h : status s = (some i, a, p)) (hp : p ≠ 0) :
    Reports s i a p := by
  obtain ⟨c, si, sa, sp⟩ := s
  unfold status at h
  rw [Prod.mk.injEq, Prod.mk.injEq] at h
  obtain ⟨rfl, rfl, rfl⟩ := h
  have hb : (SocketState.mk c (some i) sa sp).isBound = true := by unfold SocketState.isBound; simp [hp]
  have h1 : (SocketState.mk c (some i) sa sp).getPort = .ok sp := by unfold SocketState.getPort; rw [hb]; rfl
  have h2 : (SocketState.mk c (some i) sa sp).getAddress = .ok sa := by unfold SocketState.getAddress; rw [hb]; rfl
  refine ⟨hb, h1, h2, by unfold SocketState.getInterface; rw [hb]; rfl, ?_⟩
  unfold SocketState.ipAddr
  rw [h1, h2]
  rfl

private theorem nothing_of {s : SocketState} (h : s.port = 0) : ReportsNothing s := by
  have hb : s.isBound = false := by unfold SocketState.isBound; rw [h]; rfl
  have h1 : s.getPort = .err .other := by unfold SocketState.getPort; rw [hb]; rfl
  refine ⟨hb, ⟨_, h1⟩, ⟨.other, by unfold SocketState.getAddress; rw [hb]; rfl⟩,
    ⟨.other, by unfold SocketState.getInterface; rw [hb]; rfl⟩, .other, ?_⟩
  unfold SocketState.ipAddr
  rw [h1]
  rfl

/-! ## C145 -/

/-- C145 is false: after `Close` without error the connection of every socket that was bound is gone, and the socket
still reports that it is bound, with the interface, the address and the port it had. -/
theorem C145_refuted_close (k : SockKind) (s : SocketState) (i a : Str) (p : Int) (os : SockOs) (ho : s.conn.isSome)
    (hr : Reports s i a p) (hc : os.close = none) :
    (s.close k os).2 = none ∧ (s.close k os).1.conn = none ∧ Reports (s.close k os).1 i a p := by
  obtain ⟨n, hn⟩ := Option.isSome_iff_exists.mp ho
  have e : s.close k os = ({ s with conn := none }, none) := by
    unfold SocketState.close
    rw [hn]
    cases k <;> simp [hc]
  rw [e]
  exact ⟨rfl, rfl, hr⟩

/-- C145 is false: when a socket that was bound is bound again and this fails before the new connection, it reports
the old interface, address and port without a connection. -/
theorem C145_refuted_rebind (k : SockKind) (s : SocketState) (i a i' a' : Str) (p p' : Int) (os : SockOs) (e : Err)
    (ho : s.conn.isSome) (hr : Reports s i a p) (hc : os.close = none) (hl : os.listen = .inr e) :
    (s.bind k os i' a' p').2 ≠ none ∧ (s.bind k os i' a' p').1.conn = none ∧
    Reports (s.bind k os i' a' p').1 i a p := by
  obtain ⟨n, hn⟩ := Option.isSome_iff_exists.mp ho
  have e' : ∀ k, s.close k os = ({ s with conn := none }, none) := by
    intro k
    unfold SocketState.close
    rw [hn]
    cases k <;> simp [hc]
  cases k with
  | unicast =>
    unfold SocketState.bind SocketState.bindUnicast
    rw [e', hl]
    dsimp only
    cases os.resolve with
    | some x => exact ⟨by simp, rfl, hr⟩
    | none => exact ⟨by simp, rfl, hr⟩
  | tcp =>
    unfold SocketState.bind SocketState.bindTcp
    rw [e', hl]
    dsimp only
    cases os.resolve with
    | some x => exact ⟨by simp, rfl, hr⟩
    | none => exact ⟨by simp, rfl, hr⟩
  | multicast =>
    unfold SocketState.bind SocketState.bindMulticast
    rw [e', hl]
    dsimp only
    split
    · exact ⟨by simp, rfl, hr⟩
    · cases os.resolve with
      | some x => exact ⟨by simp, rfl, hr⟩
      | none => exact ⟨by simp, rfl, hr⟩

/-- C145 is false: a socket bound to port 0, a free port, is open and reports that it is not bound. -/
theorem C145_refuted_free_port (k : SockKind) (hk : k ≠ .multicast) (s : SocketState) (i a : Str) (os : SockOs) (n : Nat)
    (hc : os.close = none) (h1 : os.resolve = none) (h2 : os.listen = .inl n) (h3 : os.raw = none)
    (h4 : os.reuse = none) :
    (s.bind k os i a 0).2 = none ∧ (s.bind k os i a 0).1.conn = some n ∧ ReportsNothing (s.bind k os i a 0).1 := by
  have e' : ∀ k, s.close k os = ({ s with conn := none }, none) := by
    intro k
    obtain ⟨c, _, _, _⟩ := s
    unfold SocketState.close
    cases c with
    | none => rfl
    | some n => cases k <;> simp [hc]
  cases k with
  | multicast => exact absurd rfl hk
  | unicast =>
    unfold SocketState.bind SocketState.bindUnicast
    rw [e', h1, h2, h3, h4]
    exact ⟨rfl, rfl, nothing_of rfl⟩
  | tcp =>
    unfold SocketState.bind SocketState.bindTcp
    rw [e', h1, h2, h3, h4]
    exact ⟨rfl, rfl, nothing_of rfl⟩

/-- C145 is false: when the options of a listening TCP socket cannot be set, `Bind` returns an error and the listener
stays open. -/
theorem C145_refuted_listener (s : SocketState) (i a : Str) (p : Int) (os : SockOs) (n : Nat) (e : Err)
    (hc : os.close = none) (h1 : os.resolve = none) (h2 : os.listen = .inl n) (h3 : os.raw = none)
    (h4 : os.reuse = some e) :
    (s.bind .tcp os i a p).2 = some e ∧ (s.bind .tcp os i a p).1.conn = some n := by
  have e' : s.close .tcp os = ({ s with conn := none }, none) := by
    obtain ⟨c, _, _, _⟩ := s
    unfold SocketState.close
    cases c with
    | none => rfl
    | some n => simp [hc]
  unfold SocketState.bind SocketState.bindTcp
  rw [e', h1, h2, h3, h4]
  exact ⟨rfl, rfl⟩

/-- C145, the part that holds: after every history of `Bind` and `Close`, whatever the operating system answers, a
socket reports exactly the interface, the address and the port of the last `Bind` that succeeded, unless this port is
0; and before a `Bind` succeeded it reports that it is not bound. For multicast sockets the options can be set.
Missing: `Close` and a failed `Bind` do not take back what an earlier `Bind` reported, and port 0. -/
theorem C145_reports_partial (k : SockKind) (ops : List SockOp) (ho : k = .multicast → ∀ op ∈ ops, OptionsSet op) :
    (∀ i a p, lastBound k .new ops none = some (i, a, p) → p ≠ 0 → Reports (SockOp.runAll k .new ops) i a p) ∧
    (lastBound k .new ops none = none → ReportsNothing (SockOp.runAll k .new ops)) := by
  have h := runAll_status k ops .new none ho rfl
  constructor
  · intro i a p hb hp
    rw [hb] at h
    exact reports_of h hp
  · intro hb
    rw [hb] at h
    exact nothing_of (congrArg (fun x => x.2.2) h)

/-- C145, the part that holds: whatever came before and whatever the operating system answers, a unicast socket is
open exactly after a `Bind` without error: every `Bind` with an error and every `Close` leaves it closed. Missing: the
other kinds. -/
theorem C145_open_partial (s : SocketState) (op : SockOp) :
    (op.run .unicast s).1.conn.isSome = true ↔
      (∃ os i a p, op = .bind os i a p) ∧ (op.run .unicast s).2 = none := by
  have hc : ∀ os (s : SocketState), (s.close .unicast os).1.conn = none := by
    intro os s
    unfold SocketState.close
    cases hn : s.conn with
    | none => exact hn
    | some n => rfl
  cases op with
  | close os =>
    show (s.close .unicast os).1.conn.isSome = true ↔ _
    rw [hc]
    constructor
    · intro h; cases h
    · rintro ⟨⟨_, _, _, _, h⟩, -⟩; cases h
  | bind os i a p =>
    have hex : (∃ os' i' a' p', SockOp.bind os i a p = .bind os' i' a' p') ↔ True :=
      ⟨fun _ => trivial, fun _ => ⟨os, i, a, p, rfl⟩⟩
    rw [hex, true_and]
    show (s.bindUnicast os i a p).1.conn.isSome = true ↔ (s.bindUnicast os i a p).2 = none
    unfold SocketState.bindUnicast
    have hn := hc os s
    cases hs : s.close .unicast os with
    | mk s' e =>
      rw [hs] at hn
      have h0 : s'.conn = none := hn
      clear hn
      cases e with
      | some e => simp [h0]
      | none =>
        dsimp only
        cases os.resolve with
        | some e => simp [h0]
        | none =>
          dsimp only
          cases os.listen with
          | inr e => simp
          | inl n =>
            dsimp only
            cases os.raw with
            | some e => simp [hc]
            | none =>
              dsimp only
              cases os.reuse with
              | some e => simp [hc]
              | none => simp [SocketState.setBoundStatus]

/-- C145, the part that holds: after a `Bind` without error a socket of each kind is open, with the connection the
operating system gave, and reports the interface, the address and the port it was bound to, unless the port is 0. -/
theorem C145_bound_partial (k : SockKind) (s : SocketState) (os : SockOs) (i a : Str) (p : Int)
    (h : (s.bind k os i a p).2 = none) :
    (∃ n, os.listen = .inl n ∧ (s.bind k os i a p).1.conn = some n) ∧
    (portOf k p ≠ 0 → Reports (s.bind k os i a p).1 i a (portOf k p)) := by
  suffices hs : ∃ n, os.listen = .inl n ∧ (s.bind k os i a p).1 = ⟨some n, some i, a, portOf k p⟩ by
    obtain ⟨n, h1, h2⟩ := hs
    rw [h2]
    exact ⟨⟨n, h1, rfl⟩, fun hp => reports_of rfl hp⟩
  cases k with
  | unicast =>
    unfold SocketState.bind SocketState.bindUnicast at *
    dsimp only at *
    cases hs : s.close .unicast os with
    | mk s' e =>
      rw [hs] at h
      cases e with
      | some e => cases h
      | none =>
        dsimp only at *
        cases h1 : os.resolve with
        | some e => rw [h1] at h; cases h
        | none =>
          rw [h1] at h
          cases h2 : os.listen with
          | inr e => rw [h2] at h; cases h
          | inl n =>
            rw [h2] at h
            cases h3 : os.raw with
            | some e => rw [h3] at h; cases h
            | none =>
              rw [h3] at h
              cases h4 : os.reuse with
              | some e => rw [h4] at h; cases h
              | none => exact ⟨n, rfl, rfl⟩
  | tcp =>
    unfold SocketState.bind SocketState.bindTcp at *
    dsimp only at *
    cases hs : s.close .tcp os with
    | mk s' e =>
      rw [hs] at h
      cases e with
      | some e => cases h
      | none =>
        dsimp only at *
        cases h1 : os.resolve with
        | some e => rw [h1] at h; cases h
        | none =>
          rw [h1] at h
          cases h2 : os.listen with
          | inr e => rw [h2] at h; cases h
          | inl n =>
            rw [h2] at h
            cases h3 : os.raw with
            | some e => rw [h3] at h; cases h
            | none =>
              rw [h3] at h
              cases h4 : os.reuse with
              | some e => rw [h4] at h; cases h
              | none => exact ⟨n, rfl, rfl⟩
  | multicast =>
    unfold SocketState.bind SocketState.bindMulticast at *
    dsimp only at *
    cases hs : s.close .multicast os with
    | mk s' e =>
      rw [hs] at h
      cases e with
      | some e => cases h
      | none =>
        dsimp only at *
        by_cases ha : (!(isIPv4Address a) && !(isIPv6Address a)) = true
        · rw [if_pos ha] at h; cases h
        · rw [if_neg ha] at h ⊢
          cases h1 : os.resolve with
          | some e => rw [h1] at h; cases h
          | none =>
            rw [h1] at h
            cases h2 : os.listen with
            | inr e => rw [h2] at h; cases h
            | inl n =>
              rw [h2] at h
              cases h3 : os.raw with
              | some e => rw [h3] at h; cases h
              | none =>
                rw [h3] at h
                cases h4 : os.reuse with
                | some e => rw [h4] at h; cases h
                | none =>
                  rw [h4] at h
                  cases h5 : os.loop with
                  | some e => rw [h5] at h; cases h
                  | none => exact ⟨n, rfl, rfl⟩

/-- A socket is bound, then closed, and another `Bind` fails: it still reports the first one. -/
example :
    let ok : SockOs := { listen := .inl 7 }
    let ops : List SockOp := [.bind ok "eth0".toList "192.168.0.2".toList 3610, .close ok,
      .bind { listen := .inr .other } "eth1".toList "10.0.0.2".toList 3611]
    lastBound .unicast .new ops none = some ("eth0".toList, "192.168.0.2".toList, 3610) ∧
    (SockOp.runAll .unicast .new ops).conn = none := by decide

end Verif.Props
