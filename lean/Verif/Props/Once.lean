import Verif.Props.Shutdown
import Verif.Props.Receive

/-!
# C132: each datagram is handled once

About the sockets and goroutines of a running node (`Verif.Model.Shutdown`), in every schedule.
-/

namespace Verif.Props
open Verif Model Spec Lemmas Lemmas.Shut

section
variable (answer : List Message → Message → Option Message)

/-- The datagram which reaches the socket of server `i` in a step, if it is open. -/
def reaches (i : Nat) (s : RunSt) : RunAct → List Datagram
  | .arrive j d => if j = i ∧ s.hasOpen i = true then [d] else []
  | _ => []

/-- The datagrams which reach the socket of server `i` during a run, while it is open. -/
def reached (i : Nat) : RunSt → List RunAct → List Datagram
  | _, [] => []
  | s, a :: acts => if s.crashed then [] else reaches i s a ++ reached i (s.step answer a) acts

/-- The messages for which server `i` has started a goroutine, or is about to, oldest first. -/
def takenBy (s : RunSt) (i : Nat) : List Message :=
  (s.replying.filter (fun x => x.server = i)).map (·.msg) ++ (inHand s i).toList

/-- `m` is what the datagram says: its first 1024 bytes as a message, with the sender and the way it came. -/
def ReadFrom (k : ServerKind) (d : Datagram) (m : Message) : Prop :=
  ∃ m₀, Message.newWithBytes (d.data.take 1024) = .ok m₀ ∧ m = { m₀ with src := d.peer, pktType := k.packetType }

/-- Each message is the one of the datagram at the same place. -/
def EachRead (k : ServerKind) (ds : List Datagram) (ms : List Message) : Prop :=
  ms.length = ds.length ∧ ∀ (j : Nat) d m, ds[j]? = some d → ms[j]? = some m → ReadFrom k d m

theorem eachRead_snoc {k : ServerKind} {ds : List Datagram} {ms : List Message} {d : Datagram} {m : Message}
    (h : EachRead k ds ms) (hd : ReadFrom k d m) : EachRead k (ds ++ [d]) (ms ++ [m]) := by
  refine ⟨by simp [h.1], fun j d' m' h1 h2 => ?_⟩
  rcases Nat.lt_trichotomy j ds.length with hj | hj | hj
  · rw [List.getElem?_append_left hj] at h1
    rw [List.getElem?_append_left (by rw [h.1]; exact hj)] at h2
    exact h.2 j d' m' h1 h2
  · rw [List.getElem?_append_right (by omega), hj, Nat.sub_self] at h1
    rw [List.getElem?_append_right (by rw [h.1]; omega), hj, h.1, Nat.sub_self] at h2
    cases h1
    cases h2
    exact hd
  · rw [List.getElem?_eq_none (by simp; omega)] at h1
    cases h1

theorem readFrom_decode {k : ServerKind} {d : Datagram} {m : Message} : RunSt.decode k d = some m ↔ ReadFrom k d m := by
  unfold RunSt.decode ReadFrom
  constructor
  · intro h
    split at h
    · next m₀ hm => cases h; exact ⟨m₀, hm, rfl⟩
    · cases h
  · rintro ⟨m₀, hm, rfl⟩
    rw [show maxPacketSize = 1024 from rfl, hm]

theorem decode_none {k : ServerKind} {d : Datagram} : RunSt.decode k d = none ↔ Malformed d.data := by
  rw [← malformed_take]
  unfold Malformed
  rw [← C04_rejects]
  unfold RunSt.decode
  rw [show maxPacketSize = 1024 from rfl]
  cases h : Message.newWithBytes (d.data.take 1024) with
  | ok m => simp
  | err e => simp
  | panic => exact absurd h (C04_no_panic _)

/-- The receive goroutine is in its loop. -/
def Looping : LoopPc → Prop
  | .select | .check | .load | .read _ | .got _ => True
  | _ => False

/-- What a step does to server `i`. -/
inductive ServerStep (i : Nat) (s : RunSt) (a : RunAct) (v : Live) : Live → List Datagram → List Message → Prop
  | arrive (d : Datagram) : a = .arrive i d → v.isOpen = true → ServerStep i s a v { v with queue := v.queue ++ [d] } [d] []
  | loop : a = .loop i → ServerStep i s a v (RunSt.stepLoop v).1 [] (RunSt.stepLoop v).2.toList
  | call (k : Nat) (v' : Live) (x rest) : a = .call k → s.calls[k]? = some (x :: rest) → v'.pc = v.pc → v'.kind = v.kind →
      (v'.isOpen = true → v'.queue = v.queue ∧ v.isOpen = true) →
      ((∃ a b, x = .link a b) → v'.conn = v.conn ∧ v'.isOpen = v.isOpen ∧ v'.stopped = v.stopped) →
      ServerStep i s a v v' [] []
  | other : a ≠ .loop i → ServerStep i s a v v [] []

theorem exec_server (s : RunSt) (rest x) (i : Nat) (v : Live) (hv : s.servers[i]? = some v) :
    ∃ v', (s.exec rest x).1.servers[i]? = some v' ∧ v'.pc = v.pc ∧ v'.kind = v.kind ∧
      (v'.isOpen = true → v'.queue = v.queue ∧ v.isOpen = true) ∧
      ((∃ a b, x = .link a b) → v'.conn = v.conn ∧ v'.isOpen = v.isOpen ∧ v'.stopped = v.stopped) := by
  have on : ∀ (n : Nat) (g : Live → Live), (g v).pc = v.pc → (g v).kind = v.kind →
      ((g v).isOpen = true → (g v).queue = v.queue ∧ v.isOpen = true) →
      ((∃ a b, x = .link a b) → (g v).conn = v.conn ∧ (g v).isOpen = v.isOpen ∧ (g v).stopped = v.stopped) →
      ∃ v', (s.onServer n g).servers[i]? = some v' ∧ v'.pc = v.pc ∧ v'.kind = v.kind ∧
        (v'.isOpen = true → v'.queue = v.queue ∧ v.isOpen = true) ∧
        ((∃ a b, x = .link a b) → v'.conn = v.conn ∧ v'.isOpen = v.isOpen ∧ v'.stopped = v.stopped) := by
    intro n g h1 h2 h3 h4
    rw [get_onServer, hv, Option.map_some]
    refine ⟨_, rfl, ?_⟩
    split
    · exact ⟨h1, h2, h3, h4⟩
    · exact ⟨rfl, rfl, fun h => ⟨rfl, h⟩, fun _ => ⟨rfl, rfl, rfl⟩⟩
  have same : ∃ v', s.servers[i]? = some v' ∧ v'.pc = v.pc ∧ v'.kind = v.kind ∧
      (v'.isOpen = true → v'.queue = v.queue ∧ v.isOpen = true) ∧
      ((∃ a b, x = .link a b) → v'.conn = v.conn ∧ v'.isOpen = v.isOpen ∧ v'.stopped = v.stopped) :=
    ⟨v, hv, rfl, rfl, fun h => ⟨rfl, h⟩, fun _ => ⟨rfl, rfl, rfl⟩⟩
  cases x
  case halt n =>
    simp only [RunSt.exec]
    split
    · exact same
    · exact on _ _ rfl rfl (fun h => ⟨rfl, h⟩) (fun ⟨_, _, h⟩ => nomatch h)
  case haltTcp n =>
    simp only [RunSt.exec]
    split
    · exact same
    · exact on _ _ rfl rfl (fun h => ⟨rfl, h⟩) (fun ⟨_, _, h⟩ => nomatch h)
  case clear n => exact on _ _ rfl rfl (fun h => ⟨rfl, h⟩) (fun ⟨_, _, h⟩ => nomatch h)
  case shut n => exact on _ _ rfl rfl (fun h => nomatch h) (fun ⟨_, _, h⟩ => nomatch h)
  case shutTcp n => exact on _ _ rfl rfl (fun h => ⟨rfl, h⟩) (fun ⟨_, _, h⟩ => nomatch h)
  case link n m => exact on _ _ rfl rfl (fun h => ⟨rfl, h⟩) (fun _ => ⟨rfl, rfl, rfl⟩)
  all_goals exact same

/-- The messages handed over by server `i`. -/
def handedBy (s : RunSt) (i : Nat) : List Message := (s.replying.filter (fun x => x.server = i)).map (·.msg)

theorem handedBy_stepReply (s : RunSt) (h : Nat) (x : Replying) (hx : s.replying[h]? = some x) (i : Nat) :
    handedBy (s.stepReply answer h x) i = handedBy s i := by
  have key : ∀ (l : List Replying) (h : Nat) (pc : ReplyPc), l[h]? = some x →
      ((l.set h { x with pc := pc }).filter (fun x => x.server = i)).map (·.msg) =
        (l.filter (fun x => x.server = i)).map (·.msg) := by
    intro l
    induction l with
    | nil => intro h pc hx; cases hx
    | cons y l ih =>
      intro h pc hx
      cases h with
      | zero =>
        cases hx
        rw [List.set_cons_zero, List.filter_cons, List.filter_cons]
        by_cases e : x.server = i <;> simp [e]
      | succ h =>
        rw [List.set_cons_succ, List.filter_cons, List.filter_cons]
        by_cases e : y.server = i
        · simp only [e, decide_true, if_true, List.map_cons]
          rw [ih h pc hx]
        · simp only [e, decide_false, Bool.false_eq_true, if_false]
          exact ih h pc hx
  have k := fun pc => key s.replying h pc hx
  unfold handedBy RunSt.stepReply
  split <;> first | exact k _ | rfl | (split <;> exact k _)

theorem step_server (s : RunSt) (a : RunAct) (i : Nat) (v : Live) (hv : s.servers[i]? = some v) :
    ∃ v' ds ms, (s.step answer a).servers[i]? = some v' ∧ ServerStep i s a v v' ds ms ∧
      reaches i s a = ds ∧
      handedBy (s.step answer a) i = handedBy s i ++ ms := by
  have ho : s.hasOpen i = v.isOpen := by unfold RunSt.hasOpen; rw [hv]; rfl
  cases a with
  | arrive j d =>
    by_cases hj : j = i
    · subst hj
      cases hopen : v.isOpen with
      | true =>
        refine ⟨{ v with queue := v.queue ++ [d] }, [d], [], ?_, .arrive d rfl hopen, ?_, ?_⟩
        · simp only [RunSt.step]
          rw [if_pos (by rw [ho]; exact hopen), get_onServer, hv, Option.map_some, if_pos rfl]
        · exact if_pos ⟨rfl, by rw [ho]; exact hopen⟩
        · simp only [RunSt.step]
          rw [if_pos (by rw [ho]; exact hopen), List.append_nil]
          rfl
      | false =>
        refine ⟨v, [], [], ?_, .other (by simp), ?_, ?_⟩
        · simp only [RunSt.step]
          rw [if_neg (by rw [ho, hopen]; decide)]
          exact hv
        · exact if_neg (by rw [ho, hopen]; simp)
        · simp only [RunSt.step]
          rw [if_neg (by rw [ho, hopen]; decide), List.append_nil]
    · refine ⟨v, [], [], ?_, .other (by simp), ?_, ?_⟩
      · simp only [RunSt.step]
        split
        · rw [get_onServer, hv, Option.map_some, if_neg hj]
        · exact hv
      · exact if_neg (fun h => hj h.1)
      · simp only [RunSt.step]
        rw [List.append_nil]
        split <;> rfl
  | loop j =>
    by_cases hj : j = i
    · subst hj
      refine ⟨_, [], _, ?_, .loop rfl, rfl, ?_⟩
      · simp only [RunSt.step]
        rw [hv]
        exact List.getElem?_set_self (List.getElem?_eq_some_iff.mp hv).1
      · simp only [RunSt.step]
        rw [hv]
        unfold handedBy
        dsimp only
        cases (RunSt.stepLoop v).2 with
        | none => simp
        | some m => simp
    · refine ⟨v, [], [], ?_, .other (by simpa using hj), rfl, ?_⟩
      · simp only [RunSt.step]
        cases hs : s.servers[j]? with
        | none => exact hv
        | some w =>
          dsimp only
          rw [List.getElem?_set_ne hj]
          exact hv
      · simp only [RunSt.step]
        cases hs : s.servers[j]? with
        | none => simp
        | some w =>
          unfold handedBy
          dsimp only
          cases (RunSt.stepLoop w).2 with
          | none => simp
          | some m => simp [hj]
  | reply h =>
    refine ⟨v, [], [], ?_, .other (by simp), rfl, ?_⟩
    · simp only [RunSt.step]
      split
      · exact hv
      · rw [(stepReply_servers s h _).1]; exact hv
    · simp only [RunSt.step]
      rw [List.append_nil]
      split
      · rfl
      · next x hx => exact handedBy_stepReply answer s h x hx i
  | accept j =>
    refine ⟨v, [], [], ?_, .other (by simp), rfl, ?_⟩ <;> simp only [RunSt.step] <;> split <;> simp [hv, handedBy]
  | request c m =>
    refine ⟨v, [], [], ?_, .other (by simp), rfl, ?_⟩ <;> simp only [RunSt.step] <;> split <;> simp [hv, handedBy]
  | answer c =>
    refine ⟨v, [], [], ?_, .other (by simp), rfl, ?_⟩ <;> simp only [RunSt.step] <;> split <;> simp [hv, handedBy]
  | stop => exact ⟨v, [], [], hv, .other (by simp), rfl, by simp [RunSt.step, handedBy]⟩
  | call k =>
    rcases step_call (answer := answer) s k with ⟨x, rest, hk, e⟩ | ⟨-, e⟩
    · obtain ⟨v', h1, h2, h3, h4, h5⟩ := exec_server s rest x i v hv
      refine ⟨v', [], [], by rw [e]; exact h1, .call k v' x rest rfl hk h2 h3 h4 h5, rfl, ?_⟩
      · rw [e, List.append_nil]
        unfold handedBy
        dsimp only
        rw [(exec_frame s rest x).2.1]
    · exact ⟨v, [], [], by rw [e]; exact hv, .other (by simp), rfl, by rw [e, List.append_nil]⟩

/-- What a step of the receive goroutine takes and hands over. -/
theorem stepLoop_takes (v : Live) :
    (RunSt.stepLoop v).1.kind = v.kind ∧
    ((∃ m, v.pc = .got m ∧ (RunSt.stepLoop v).1 = { v with pc := .select } ∧ (RunSt.stepLoop v).2 = some m) ∨
    ((RunSt.stepLoop v).2 = none ∧ (∀ m, v.pc ≠ .got m) ∧
      ((∃ d ds m, v.isOpen = true ∧ v.pc = .read true ∧ v.queue = d :: ds ∧ RunSt.decode v.kind d = some m ∧
          (RunSt.stepLoop v).1 = { v with queue := ds, pc := .got m }) ∨
       ((∀ m, (RunSt.stepLoop v).1.pc ≠ .got m) ∧
        ((RunSt.stepLoop v).1.isOpen = true → Looping (RunSt.stepLoop v).1.pc →
          v.isOpen = true ∧ Looping v.pc ∧ (RunSt.stepLoop v).1.queue = v.queue))))) := by
  have hleave : ∀ w : Live, (RunSt.leave w).kind = w.kind ∧ (∀ m, (RunSt.leave w).pc ≠ .got m) ∧ ¬ Looping (RunSt.leave w).pc := by
    intro w
    unfold RunSt.leave
    split <;> exact ⟨rfl, fun m => by simp, fun h => h⟩
  cases hp : v.pc with
  | select =>
    unfold RunSt.stepLoop
    rw [hp]
    dsimp only
    split
    · exact ⟨(hleave v).1, .inr ⟨rfl, by simp, .inr ⟨(hleave v).2.1, fun _ h => absurd h (hleave v).2.2⟩⟩⟩
    · exact ⟨rfl, .inr ⟨rfl, by simp, .inr ⟨by simp, fun h _ => ⟨h, trivial, rfl⟩⟩⟩⟩
  | check =>
    unfold RunSt.stepLoop
    rw [hp]
    dsimp only
    split
    · exact ⟨rfl, .inr ⟨rfl, by simp, .inr ⟨by simp, fun h _ => ⟨h, trivial, rfl⟩⟩⟩⟩
    · exact ⟨(hleave v).1, .inr ⟨rfl, by simp, .inr ⟨(hleave v).2.1, fun _ h => absurd h (hleave v).2.2⟩⟩⟩
  | load =>
    unfold RunSt.stepLoop
    rw [hp]
    exact ⟨rfl, .inr ⟨rfl, by simp, .inr ⟨by simp, fun h _ => ⟨h, trivial, rfl⟩⟩⟩⟩
  | read held =>
    unfold RunSt.stepLoop
    rw [hp]
    dsimp only
    split
    · exact ⟨(hleave v).1, .inr ⟨rfl, by simp, .inr ⟨(hleave v).2.1, fun _ h => absurd h (hleave v).2.2⟩⟩⟩
    · next hh =>
      rw [Bool.or_eq_true, not_or] at hh
      have h1 : held = true := by cases held <;> simp_all
      have h2 : v.isOpen = true := by cases ho : v.isOpen <;> simp_all
      subst h1
      cases hq : v.queue with
      | nil => exact ⟨rfl, .inr ⟨rfl, by simp, .inr ⟨by simp [hp], fun h _ => ⟨h, trivial, hq⟩⟩⟩⟩
      | cons d ds =>
        dsimp only
        cases hd : RunSt.decode v.kind d with
        | some m => exact ⟨rfl, .inr ⟨rfl, by simp, .inl ⟨d, ds, m, h2, rfl, rfl, hd, rfl⟩⟩⟩
        | none =>
          have := hleave { v with queue := ds }
          exact ⟨this.1, .inr ⟨rfl, by simp, .inr ⟨this.2.1, fun _ h => absurd h this.2.2⟩⟩⟩
  | got m =>
    unfold RunSt.stepLoop
    rw [hp]
    exact ⟨rfl, .inl ⟨m, rfl, rfl, rfl⟩⟩
  | closing =>
    unfold RunSt.stepLoop
    rw [hp]
    dsimp only
    split <;> exact ⟨rfl, .inr ⟨rfl, by simp, .inr ⟨by simp, fun _ h => absurd h (fun h => h)⟩⟩⟩
  | clearing =>
    unfold RunSt.stepLoop
    rw [hp]
    exact ⟨rfl, .inr ⟨rfl, by simp, .inr ⟨by simp, fun _ h => absurd h (fun h => h)⟩⟩⟩
  | shutting =>
    unfold RunSt.stepLoop
    rw [hp]
    exact ⟨rfl, .inr ⟨rfl, by simp, .inr ⟨by simp, fun _ h => absurd h (fun h => h)⟩⟩⟩
  | ended =>
    unfold RunSt.stepLoop
    rw [hp]
    exact ⟨rfl, .inr ⟨rfl, by simp, .inr ⟨by simp [hp], fun _ h => absurd h (by rw [hp]; exact fun h => h)⟩⟩⟩

theorem takenBy_eq (s : RunSt) (i : Nat) (v : Live) (hv : s.servers[i]? = some v) :
    takenBy s i = handedBy s i ++ (match v.pc with | .got m => [m] | _ => []) := by
  unfold takenBy inHand handedBy
  rw [hv, Option.map_some]
  cases v.pc <;> rfl

/-- What server `i` has taken are the messages of the first datagrams that reached it; while it loops with its socket
open, the rest is waiting. -/
structure Taken (arr : List Datagram) (s : RunSt) (i : Nat) (v : Live) : Prop where
  get : s.servers[i]? = some v
  split : ∃ good rest, arr = good ++ rest ∧ EachRead v.kind good (takenBy s i) ∧
    (v.isOpen = true → Looping v.pc → rest = v.queue)

theorem taken_step {arr : List Datagram} {s : RunSt} {a : RunAct} {i : Nat} {v v' : Live} {ds : List Datagram}
    {ms : List Message} (h : Taken arr s i v) (hv' : (s.step answer a).servers[i]? = some v')
    (hs : ServerStep i s a v v' ds ms) (hh : handedBy (s.step answer a) i = handedBy s i ++ ms) :
    v'.kind = v.kind ∧ Taken (arr ++ ds) (s.step answer a) i v' := by
  obtain ⟨hg, good, rest, e, hr, hq⟩ := h
  rw [takenBy_eq s i v hg] at hr
  cases hs with
  | arrive d _ ho =>
    refine ⟨rfl, hv', good, rest ++ [d], by rw [e, List.append_assoc], ?_, fun h1 h2 => by rw [hq h1 h2]⟩
    rw [takenBy_eq _ i _ hv', hh, List.append_nil]
    exact hr
  | loop _ =>
    obtain ⟨hk, ⟨m, h1, h2, h3⟩ | ⟨h1, h2, ⟨d, ds, m, k1, k2, k3, k4, k5⟩ | ⟨k1, k2⟩⟩⟩ := stepLoop_takes v
    · refine ⟨hk, hv', good, rest, by rw [List.append_nil]; exact e, ?_, ?_⟩
      · rw [takenBy_eq _ i _ hv', hh, h3, h2]
        rw [h1] at hr
        simpa using hr
      · rw [h2]
        exact fun a _ => hq a (by rw [h1]; trivial)
    · refine ⟨hk, hv', good ++ [d], ds, ?_, ?_, ?_⟩
      · rw [List.append_nil, e, hq k1 (by rw [k2]; trivial), k3, List.append_assoc]; rfl
      · rw [takenBy_eq _ i _ hv', hh, h1, k5]
        rw [k2] at hr
        simp only [List.append_nil, Option.toList_none] at hr ⊢
        exact eachRead_snoc hr (readFrom_decode.mp k4)
      · rw [k5]
        exact fun _ _ => rfl
    · refine ⟨hk, hv', good, rest, by rw [List.append_nil]; exact e, ?_, ?_⟩
      · rw [takenBy_eq _ i _ hv', hh, h1, hk]
        have e1 : (match (RunSt.stepLoop v).1.pc with | .got m => [m] | _ => ([] : List Message)) = [] := by
          split
          · next m hm => exact absurd hm (k1 m)
          · rfl
        have e2 : (match v.pc with | .got m => [m] | _ => ([] : List Message)) = [] := by
          split
          · next m hm => exact absurd hm (h2 m)
          · rfl
        rw [e1]
        rw [e2] at hr
        simpa using hr
      · intro a b
        obtain ⟨c1, c2, c3⟩ := k2 a b
        rw [c3]
        exact hq c1 c2
  | call k v' _ _ _ _ h1 h2 h3 _ =>
    refine ⟨h2, hv', good, rest, by rw [List.append_nil]; exact e, ?_, ?_⟩
    · rw [takenBy_eq _ i _ hv', hh, List.append_nil, h1, h2]
      exact hr
    · intro a b
      rw [(h3 a).1]
      exact hq (h3 a).2 (by rw [← h1]; exact b)
  | other _ =>
    refine ⟨rfl, hv', good, rest, by rw [List.append_nil]; exact e, ?_, hq⟩
    rw [takenBy_eq _ i _ hv', hh, List.append_nil]
    exact hr

theorem taken_run (i : Nat) : ∀ (acts : List RunAct) (s : RunSt) (v : Live) (arr : List Datagram), Taken arr s i v →
    ∃ v', v'.kind = v.kind ∧ Taken (arr ++ reached answer i s acts) (s.run answer acts) i v' := by
  intro acts
  induction acts with
  | nil => intro s v arr h; exact ⟨v, rfl, by rw [reached, List.append_nil]; exact h⟩
  | cons a acts ih =>
    intro s v arr h
    cases hc : s.crashed with
    | true => exact ⟨v, rfl, by rw [run_crashed _ _ hc, reached, if_pos hc, List.append_nil]; exact h⟩
    | false =>
      obtain ⟨v', ds, ms, h1, h2, h3, h4⟩ := step_server answer s a i v h.get
      obtain ⟨k1, k2⟩ := taken_step answer h h1 h2 h4
      obtain ⟨v'', l1, l2⟩ := ih _ v' _ k2
      refine ⟨v'', l1.trans k1, ?_⟩
      rw [run_cons _ _ _ hc, reached, if_neg (by rw [hc]; decide), ← List.append_assoc, h3]
      exact l2

variable (tcps : List Bool) (links : List Nat)

theorem taken_starting (i : Nat) (v : Live) (hv : (RunSt.starting tcps links).servers[i]? = some v) :
    Taken [] (RunSt.starting tcps links) i v := by
  have hw : v.pc = .select ∧ v.queue = [] := by
    rcases starting_get tcps links i v hv with ⟨t, -, e⟩ | ⟨-, -, e⟩ <;> rw [e] <;> exact ⟨rfl, rfl⟩
  refine ⟨hv, [], [], rfl, ?_, fun _ _ => hw.2.symm⟩
  rw [takenBy_eq _ i v hv, hw.1]
  exact ⟨rfl, fun j d m h => by cases h⟩

/-- **C132**: in every schedule, with any number of calls of `Stop`, the messages which a server has taken are those of
the first datagrams that reached its socket, each once and in order, with the bytes, the sender and the way they came. -/
theorem C132_once (acts) (i : Nat) (v : Live) (hv : (RunSt.starting tcps links).servers[i]? = some v) :
    ∃ good rest, reached answer i (RunSt.starting tcps links) acts = good ++ rest ∧
      EachRead v.kind good (takenBy ((RunSt.starting tcps links).run answer acts) i) := by
  obtain ⟨v', hk, -, good, rest, e, hr, -⟩ := taken_run answer i acts _ v [] (taken_starting tcps links i v hv)
  exact ⟨good, rest, e, by rw [← hk]; exact hr⟩

/-- The steps of the receive goroutine of server `i` in a schedule. -/
def loopsOf (i : Nat) : List RunAct → Nat
  | [] => 0
  | .loop j :: acts => (if j = i then 1 else 0) + loopsOf i acts
  | _ :: acts => loopsOf i acts

/-- How far the receive goroutine is in its loop. -/
def turnRank : LoopPc → Nat
  | .check => 1
  | .load => 2
  | .read _ => 3
  | .got _ => 4
  | _ => 0

/-- Nobody has stopped the node. -/
def Unstopped (s : RunSt) : Prop :=
  s.crashed = false ∧ ∃ p, s.calls = [p] ∧ ∀ x ∈ p, ∃ i j, x = .link i j

theorem unstopped_step {s : RunSt} (h : Unstopped s) {a : RunAct} (ha : a ≠ .stop) : Unstopped (s.step answer a) := by
  obtain ⟨hc, p, hp, hl⟩ := h
  rcases env_or a with he | rfl | ⟨k, rfl⟩
  · obtain ⟨e1, -, -, e4, -⟩ := step_env (answer := answer) s he
    exact ⟨e4.trans hc, p, e1.trans hp, hl⟩
  · exact absurd rfl ha
  · rcases step_call (answer := answer) s k with ⟨x, rest, hk, e⟩ | ⟨-, e⟩
    · rw [hp] at hk
      have hk0 : k = 0 := by
        have := (List.getElem?_eq_some_iff.mp hk).1
        simp at this; exact this
      subst hk0
      have hpe : p = x :: rest := by simpa using hk
      subst hpe
      obtain ⟨a, b, rfl⟩ := hl x List.mem_cons_self
      rw [e]
      refine ⟨hc, rest, ?_, fun x hx => hl x (List.mem_cons_of_mem _ hx)⟩
      show s.calls.set 0 rest = _
      rw [hp]; rfl
    · rw [e]; exact ⟨hc, p, hp, hl⟩

/-- The server is working and holds nothing malformed. -/
structure Working (v : Live) : Prop where
  conn : v.conn = true
  opened : v.isOpen = true
  going : v.stopped = false
  loop : Looping v.pc
  held : v.pc ≠ .read false
  good : ∀ d ∈ v.queue, ¬ Malformed d.data

theorem working_loop {v : Live} (h : Working v) :
    Working (RunSt.stepLoop v).1 ∧
    ((v.pc = .read true ∧ v.queue = [] ∧ (RunSt.stepLoop v).1 = v ∧ (RunSt.stepLoop v).2 = none) ∨
      5 * (RunSt.stepLoop v).2.toList.length + turnRank (RunSt.stepLoop v).1.pc = turnRank v.pc + 1) := by
  obtain ⟨h1, h2, h3, h4, h5, h6⟩ := h
  cases hp : v.pc with
  | select =>
    unfold RunSt.stepLoop
    rw [hp]
    dsimp only
    rw [if_neg (by rw [h3]; exact fun h => nomatch h.2)]
    exact ⟨⟨h1, h2, h3, trivial, by simp, h6⟩, .inr rfl⟩
  | check =>
    unfold RunSt.stepLoop
    rw [hp]
    dsimp only
    rw [if_pos h1]
    exact ⟨⟨h1, h2, h3, trivial, by simp, h6⟩, .inr rfl⟩
  | load =>
    unfold RunSt.stepLoop
    rw [hp]
    exact ⟨⟨h1, h2, h3, trivial, by simp [h1], h6⟩, .inr rfl⟩
  | read held =>
    have hh : held = true := by cases held; exact absurd hp h5; rfl
    subst hh
    unfold RunSt.stepLoop
    rw [hp]
    dsimp only
    rw [if_neg (by rw [h2]; decide)]
    cases hq : v.queue with
    | nil => exact ⟨⟨h1, h2, h3, h4, h5, h6⟩, .inl ⟨rfl, rfl, rfl, rfl⟩⟩
    | cons d ds =>
      dsimp only
      cases hd : RunSt.decode v.kind d with
      | none => exact absurd (decode_none.mp hd) (h6 d (by rw [hq]; exact List.mem_cons_self))
      | some m =>
        exact ⟨⟨h1, h2, h3, trivial, by simp, fun x hx => h6 x (by rw [hq]; exact List.mem_cons_of_mem _ hx)⟩, .inr rfl⟩
  | got m =>
    unfold RunSt.stepLoop
    rw [hp]
    exact ⟨⟨h1, h2, h3, trivial, by simp, h6⟩, .inr rfl⟩
  | closing => rw [hp] at h4; exact absurd h4 (fun h => h)
  | clearing => rw [hp] at h4; exact absurd h4 (fun h => h)
  | shutting => rw [hp] at h4; exact absurd h4 (fun h => h)
  | ended => rw [hp] at h4; exact absurd h4 (fun h => h)

/-- In a step of a working server the count of handed messages and the place in the loop grow, unless it has handed over
all that reached it. -/
theorem working_step {arr : List Datagram} {s : RunSt} {a : RunAct} {i : Nat} {v v' : Live} {ds : List Datagram}
    {ms : List Message} (h : Taken arr s i v) (hu : Unstopped s) (hw : Working v) (hv' : (s.step answer a).servers[i]? = some v')
    (hs : ServerStep i s a v v' ds ms) (hh : handedBy (s.step answer a) i = handedBy s i ++ ms)
    (hg : ∀ d ∈ ds, ¬ Malformed d.data) :
    Working v' ∧
    ((handedBy (s.step answer a) i).length ≥ arr.length ∨
      5 * (handedBy (s.step answer a) i).length + turnRank v'.pc =
        5 * (handedBy s i).length + turnRank v.pc + loopsOf i [a]) := by
  obtain ⟨h1, h2, h3, h4, h5, h6⟩ := hw
  have hn : ∀ a : RunAct, a ≠ .loop i → loopsOf i [a] = 0 := by
    intro a ha
    cases a with
    | loop j =>
      show (if j = i then 1 else 0) + 0 = 0
      rw [if_neg (fun e => ha (by rw [e]))]
    | _ => rfl
  rw [hh, List.length_append]
  cases hs with
  | arrive d ha ho =>
    refine ⟨⟨h1, h2, h3, h4, h5, fun x hx => ?_⟩, .inr ?_⟩
    · rcases List.mem_append.mp hx with hx | hx
      · exact h6 x hx
      · exact hg x hx
    · rw [hn a (by rw [ha]; simp)]
      rfl
  | loop ha =>
    obtain ⟨k1, ⟨k2, k3, k4, k5⟩ | k2⟩ := working_loop ⟨h1, h2, h3, h4, h5, h6⟩
    · refine ⟨k1, .inl ?_⟩
      obtain ⟨hget, good, rest, e, hr, hq⟩ := h
      rw [takenBy_eq s i v hget, k2] at hr
      have : rest = [] := by rw [hq h2 h4]; exact k3
      rw [this, List.append_nil] at e
      have hl := hr.1
      rw [List.append_nil] at hl
      rw [e]
      omega
    · refine ⟨k1, .inr ?_⟩
      rw [ha]
      have : loopsOf i [.loop i] = 1 := by
        show (if i = i then 1 else 0) + 0 = 1
        rw [if_pos rfl]
      omega
  | call k v' x rest ha hk e1 e2 e3 e4 =>
    obtain ⟨-, p, hp, hl⟩ := hu
    have hlink : ∃ a b, x = .link a b := by
      rw [hp] at hk
      have hk0 : k = 0 := by
        have := (List.getElem?_eq_some_iff.mp hk).1
        simp at this; exact this
      subst hk0
      have hpe : p = x :: rest := by simpa using hk
      exact hl x (by rw [hpe]; exact List.mem_cons_self)
    obtain ⟨c1, c2, c3⟩ := e4 hlink
    refine ⟨⟨c1.trans h1, c2.trans h2, c3.trans h3, by rw [e1]; exact h4, by rw [e1]; exact h5, ?_⟩, .inr ?_⟩
    · rw [(e3 (c2.trans h2)).1]
      exact h6
    · rw [hn a (by rw [ha]; simp), e1]
      rfl
  | other ha =>
    refine ⟨⟨h1, h2, h3, h4, h5, h6⟩, .inr ?_⟩
    rw [hn a ha]
    rfl

theorem working_run (i : Nat) (N : Nat) : ∀ (acts : List RunAct) (s : RunSt) (v : Live) (arr : List Datagram),
    Taken arr s i v → Unstopped s → Working v → N ≤ arr.length → .stop ∉ acts →
    (∀ d ∈ reached answer i s acts, ¬ Malformed d.data) →
    ∃ v', v'.kind = v.kind ∧ Taken (arr ++ reached answer i s acts) (s.run answer acts) i v' ∧
      Unstopped (s.run answer acts) ∧ Working v' ∧
      (handedBy s i).length ≤ (handedBy (s.run answer acts) i).length ∧
      ((handedBy (s.run answer acts) i).length ≥ N ∨
        5 * (handedBy (s.run answer acts) i).length + turnRank v'.pc ≥
          5 * (handedBy s i).length + turnRank v.pc + loopsOf i acts) := by
  intro acts
  induction acts with
  | nil =>
    intro s v arr h hu hw _ _ _
    exact ⟨v, rfl, by rw [reached, List.append_nil]; exact h, hu, hw, Nat.le_refl _, .inr (Nat.le_refl _)⟩
  | cons a acts ih =>
    intro s v arr h hu hw hN hst hg
    have hr : reached answer i s (a :: acts) = reaches i s a ++ reached answer i (s.step answer a) acts := by
      rw [reached, if_neg (by rw [hu.1]; decide)]
    rw [hr] at hg ⊢
    obtain ⟨v', ds, ms, h1, h2, h3, h4⟩ := step_server answer s a i v h.get
    obtain ⟨k1, k2⟩ := taken_step answer h h1 h2 h4
    obtain ⟨l1, l2⟩ := working_step answer h hu hw h1 h2 h4
      (fun d hd => hg d (List.mem_append_left _ (by rw [h3]; exact hd)))
    have hu' := unstopped_step answer hu (a := a) (fun e => hst (by rw [e]; exact List.mem_cons_self))
    obtain ⟨v'', m1, m2, m3, m4, m5, m6⟩ := ih _ v' _ k2 hu' l1 (by rw [List.length_append]; omega)
      (fun hm => hst (List.mem_cons_of_mem _ hm)) (fun d hd => hg d (List.mem_append_right _ hd))
    have hlen : (handedBy (s.step answer a) i).length ≥ (handedBy s i).length := by
      rw [h4, List.length_append]; omega
    have hlo : loopsOf i (a :: acts) = loopsOf i [a] + loopsOf i acts := by
      cases a with
      | loop j => rfl
      | _ => simp [loopsOf]
    rw [run_cons _ _ _ hu.1]
    refine ⟨v'', m1.trans k1, ?_, m3, m4, by omega, ?_⟩
    · rw [← List.append_assoc, h3]
      exact m2
    · rw [hlo]
      rcases m6 with m6 | m6
      · exact .inl m6
      · rcases l2 with l2 | l2
        · exact .inl (by omega)
        · exact .inr (by omega)

theorem rank_le (pc : LoopPc) : turnRank pc ≤ 4 := by cases pc <;> simp [turnRank]

/-- **C132**: as long as `Stop` is not called and only well-formed datagrams reach a server, what it has not taken is
waiting in its socket: nothing is lost. And all that reached it is handed over once its goroutine has had five steps for
each datagram, however these are interleaved with anything else. -/
theorem C132_all (acts later) (i : Nat) (v : Live) (hv : (RunSt.starting tcps links).servers[i]? = some v)
    (hst : .stop ∉ acts ++ later)
    (hg : ∀ d ∈ reached answer i (RunSt.starting tcps links) (acts ++ later), ¬ Malformed d.data) :
    (∃ good v', reached answer i (RunSt.starting tcps links) acts = good ++ v'.queue ∧
      ((RunSt.starting tcps links).run answer acts).servers[i]? = some v' ∧
      EachRead v.kind good (takenBy ((RunSt.starting tcps links).run answer acts) i)) ∧
    (5 * (reached answer i (RunSt.starting tcps links) acts).length ≤ loopsOf i later →
      ∀ (j : Nat) d, (reached answer i (RunSt.starting tcps links) acts)[j]? = some d →
        ∃ m, (handedBy ((RunSt.starting tcps links).run answer (acts ++ later)) i)[j]? = some m ∧ ReadFrom v.kind d m) := by
  have happ : ∀ (acts : List RunAct) (s : RunSt), Unstopped s → .stop ∉ acts → ∀ later,
      reached answer i s (acts ++ later) = reached answer i s acts ++ reached answer i (s.run answer acts) later := by
    intro acts
    induction acts with
    | nil => intro s _ _ later; rfl
    | cons a acts ih =>
      intro s hu hs later
      rw [List.cons_append, reached, reached, if_neg (by rw [hu.1]; decide), if_neg (by rw [hu.1]; decide),
        ih _ (unstopped_step answer hu (fun e => hs (by rw [e]; exact List.mem_cons_self)))
          (fun hm => hs (List.mem_cons_of_mem _ hm)), run_cons _ _ _ hu.1, List.append_assoc]
  have hu0 : Unstopped (RunSt.starting tcps links) :=
    ⟨rfl, _, rfl, fun x hx => by obtain ⟨k, hk, rfl⟩ := List.mem_mapIdx.mp hx; exact ⟨_, _, rfl⟩⟩
  have hw0 : Working v := by
    rcases starting_get tcps links i v hv with ⟨t, -, e⟩ | ⟨-, -, e⟩ <;> rw [e] <;>
      exact ⟨rfl, rfl, rfl, trivial, by simp [Live.unicast, Live.multicast], fun d hd => nomatch hd⟩
  have hs1 : .stop ∉ acts := fun hm => hst (List.mem_append_left _ hm)
  have hs2 : .stop ∉ later := fun hm => hst (List.mem_append_right _ hm)
  rw [happ acts _ hu0 hs1] at hg
  obtain ⟨v1, a1, a2, a3, a4, -, -⟩ := working_run answer i 0 acts _ v [] (taken_starting tcps links i v hv) hu0 hw0
    (Nat.zero_le _) hs1 (fun d hd => hg d (List.mem_append_left _ hd))
  rw [List.nil_append] at a2
  constructor
  · obtain ⟨b1, good, rest, e, hr, hq⟩ := a2
    exact ⟨good, v1, by rw [← hq a4.opened a4.loop]; exact e, b1, by rw [← a1]; exact hr⟩
  · intro hl j d hj
    obtain ⟨v2, c1, c2, -, -, -, c6⟩ := working_run answer i _ later _ v1 _ a2 a3 a4 (Nat.le_refl _) hs2
      (fun d hd => hg d (List.mem_append_right _ hd))
    have hlen : (reached answer i (RunSt.starting tcps links) acts).length ≤
        (handedBy (((RunSt.starting tcps links).run answer acts).run answer later) i).length := by
      have := rank_le v2.pc
      rcases c6 with c6 | c6 <;> omega
    rw [Lemmas.Shut.run_append]
    obtain ⟨b1, good, rest, e, hr, -⟩ := c2
    rw [takenBy_eq _ i v2 b1] at hr
    have hjl := (List.getElem?_eq_some_iff.mp hj).1
    have hgl : (handedBy (((RunSt.starting tcps links).run answer acts).run answer later) i).length ≤ good.length := by
      rw [← hr.1, List.length_append]; omega
    obtain ⟨m, hm⟩ : ∃ m, (handedBy (((RunSt.starting tcps links).run answer acts).run answer later) i)[j]? = some m :=
      ⟨_, List.getElem?_eq_getElem (by omega)⟩
    refine ⟨m, hm, ?_⟩
    rw [← a1, ← c1]
    refine hr.2 j d m ?_ (by rw [List.getElem?_append_left (by omega)]; exact hm)
    rw [← List.getElem?_append_left (l₂ := rest) (by omega), ← e, List.getElem?_append_left hjl]
    exact hj

/-- **C132 is refuted** by one malformed datagram: whatever the schedule, what reaches the server after it is never
handed over, nor is it itself. -/
theorem C132_refuted (acts) (i : Nat) (v : Live) (hv : (RunSt.starting tcps links).servers[i]? = some v) (j : Nat)
    (d : Datagram) (hj : (reached answer i (RunSt.starting tcps links) acts)[j]? = some d) (hd : Malformed d.data) :
    (takenBy ((RunSt.starting tcps links).run answer acts) i).length ≤ j := by
  obtain ⟨good, rest, e, hr⟩ := C132_once answer tcps links acts i v hv
  refine Nat.le_of_not_lt fun hlt => ?_
  obtain ⟨m, hm⟩ : ∃ m, (takenBy ((RunSt.starting tcps links).run answer acts) i)[j]? = some m :=
    ⟨_, List.getElem?_eq_getElem hlt⟩
  rw [hr.1] at hlt
  rw [e, List.getElem?_append_left hlt] at hj
  have := readFrom_decode.mpr (hr.2 j d m hj hm)
  rw [decode_none.mpr hd] at this
  cases this

/-- The two models of a receive loop agree: what a server of a running node has taken, in any schedule, is what
`UdpServer` hands over given the same datagrams alone (there with the interface of the server noted too). -/
theorem C132_same (acts) (i : Nat) (v : Live) (hv : (RunSt.starting tcps links).servers[i]? = some v) (ifi : String) :
    ∃ good rest, reached answer i (RunSt.starting tcps links) acts = good ++ rest ∧
      takenBy ((RunSt.starting tcps links).run answer acts) i =
        ((UdpServer.started v.kind ifi).run (good.map .datagram)).handled.map (fun m => { m with ifc := none }) := by
  obtain ⟨good, rest, e, hr⟩ := C132_once answer tcps links acts i v hv
  refine ⟨good, rest, e, ?_⟩
  have hgood : ∀ d ∈ good, ¬ Malformed d.data := by
    intro d hd hm
    obtain ⟨j, hj⟩ := List.getElem?_of_mem hd
    have hjl := (List.getElem?_eq_some_iff.mp hj).1
    obtain ⟨m, hm'⟩ : ∃ m, (takenBy ((RunSt.starting tcps links).run answer acts) i)[j]? = some m :=
      ⟨_, List.getElem?_eq_getElem (by rw [hr.1]; exact hjl)⟩
    have := readFrom_decode.mpr (hr.2 j d m hj hm')
    rw [decode_none.mpr hm] at this
    cases this
  obtain ⟨-, h2, h3⟩ := C56_wellformed_partial v.kind ifi good hgood
  refine List.ext_getElem? fun j => ?_
  rw [List.getElem?_map]
  cases hj : good[j]? with
  | none =>
    have := List.getElem?_eq_none_iff.mp hj
    rw [List.getElem?_eq_none (by rw [hr.1]; exact this), List.getElem?_eq_none (by rw [h2]; exact this)]
    rfl
  | some d =>
    obtain ⟨m, k1, k2⟩ := h3 j d hj
    have hjl := (List.getElem?_eq_some_iff.mp hj).1
    obtain ⟨m', hm'⟩ : ∃ m, (takenBy ((RunSt.starting tcps links).run answer acts) i)[j]? = some m :=
      ⟨_, List.getElem?_eq_getElem (by rw [hr.1]; exact hjl)⟩
    obtain ⟨m₀, l1, l2⟩ := hr.2 j d m' hj hm'
    rw [k1] at l1
    cases l1
    have hifc : m.ifc = none := by
      rcases newWithBytes_cases (d.data.take 1024) with ⟨_, _, _, _, _, _, _, _, _, _, _, e⟩ | ⟨_, e⟩
      · rw [e, newWithBytes_cons] at k1
        cases k1
        rfl
      · rw [e] at k1
        cases k1
    rw [hm', k2, l2, Option.map_some]
    cases m
    cases hifc
    rfl

end

/-- Two datagrams reach a multicast server while its goroutine and a handler run. -/
def twoArrive : List RunAct :=
  [.arrive 3 statusDatagram, .loop 3, .call 0, .loop 3, .arrive 3 statusDatagram, .loop 3, .loop 3, .loop 3, .reply 0]

example := C132_once tellStatus [true, false] [0, 1] (twoArrive ++ [.stop, .call 1]) 3 Live.multicast rfl
example := C132_all tellStatus [true, false] [0, 1] twoArrive (List.replicate 10 (.loop 3)) 3 Live.multicast rfl
  (by decide) (by unfold Malformed; decide +kernel)
example : (reached tellStatus 3 (RunSt.starting [true, false] [0, 1]) twoArrive).length = 2 ∧
    loopsOf 3 (List.replicate 10 (.loop 3)) = 10 ∧
    (handedBy ((RunSt.starting [true, false] [0, 1]).run tellStatus twoArrive) 3).length = 1 ∧
    (handedBy ((RunSt.starting [true, false] [0, 1]).run tellStatus (twoArrive ++ List.replicate 10 (.loop 3))) 3).length = 2 := by
  decide +kernel
example := C132_refuted tellStatus [true, false] [0, 1] (.arrive 3 ⟨[], ⟨"10.0.0.9", 3610⟩⟩ :: twoArrive) 3 Live.multicast rfl
  0 ⟨[], ⟨"10.0.0.9", 3610⟩⟩ rfl (.inl (by decide))
example := C132_same tellStatus [true, false] [0, 1] twoArrive 3 Live.multicast rfl "eth0"

end Verif.Props
