import Verif.Model.Search
import Verif.Props.Network

/-! # C103: how long a search takes, and what it finds in this time -/

namespace Verif.Props
open Verif Model Spec Lemmas

/-- `t` is the time at which the context of a search begun at `now` is done: when it is cancelled or at its
deadline, and if it has none after three seconds. -/
def DoneAt (ctx : Ctx) (now t : Nat) : Prop :=
  (ctx.cancelled = some t ∨ ctx.deadline = some t ∨ (ctx.deadline = none ∧ t = now + 3000)) ∧
  (∀ x, ctx.cancelled = some x → t ≤ x) ∧ (∀ x, ctx.deadline = some x → t ≤ x) ∧
  (ctx.deadline = none → t ≤ now + 3000)

theorem doneAt_iff (ctx : Ctx) (now t : Nat) : DoneAt ctx now t ↔ ctx.searchEnd now = t := by
  obtain ⟨d, x⟩ := ctx
  unfold DoneAt Ctx.searchEnd Ctx.doneAt defaultResponseTimeout
  cases d <;> cases x <;> simp <;> omega

theorem poll_end (late : Nat → Nat) (done : Nat) : ∀ (k t : Nat),
    done ≤ searchPoll late done k t ∧ t ≤ searchPoll late done k t ∧
    (done ≤ t → searchPoll late done k t = t) ∧
    (∀ L, (∀ j, late j ≤ L) → t < done → searchPoll late done k t < done + (200 + L)) := by
  intro k t
  induction h : done - t using Nat.strongRecOn generalizing k t with
  | ind m ih =>
    rw [searchPoll]
    split
    · next hd => exact ⟨hd, Nat.le_refl _, fun _ => rfl, fun _ _ hlt => by omega⟩
    · next hd =>
      obtain ⟨h1, h2, h3, h4⟩ := ih (done - (t + (200 + late k))) (by omega) (k + 1) (t + (200 + late k)) rfl
      refine ⟨h1, by omega, fun h => absurd h hd, fun L hL hlt => ?_⟩
      by_cases hn : t + (200 + late k) < done
      · exact h4 L hL hn
      · rw [h3 (by omega)]
        have := hL k
        omega

/-- C103. A search that cannot be sent returns the error as soon as sending ends, without waiting. -/
theorem C103_fails (db : StdDB) (c : Ctrl) (ctx : Ctx) (now took : Nat) (io : Option Err) (late : Nat → Nat)
    (arrived : List (Nat × Env × Message)) (h : c.node.running = false ∨ io ≠ none) :
    (c.search db ctx now took io late arrived).error ≠ none ∧
    (c.search db ctx now took io late arrived).time = now + took ∧
    (c.node.running = true → (c.search db ctx now took io late arrived).error = io) := by
  cases hr : c.node.running with
  | false =>
    have : ∃ e, c.searchAllObjects.2.2 = some e := by
      unfold Ctrl.searchAllObjects Node.announceMessage
      simp [hr]
    obtain ⟨e, he⟩ := this
    unfold Ctrl.search
    simp [he]
  | true =>
    obtain ⟨q, hq, -⟩ := search_message c hr
    rcases h with h | h
    · rw [hr] at h; cases h
    · cases io with
      | none => exact absurd rfl h
      | some e =>
        unfold Ctrl.search
        simp [hq]

/-- C103. A search of a running controller that can be sent multicasts one message, even if the context is done
already. It returns no error; not before its context is done; and then within 200 ms, plus the delay `L` of
the system in waking it, or as soon as sending ends, if that is later. -/
theorem C103_waits (db : StdDB) (c : Ctrl) (hc : c.node.running = true) (ctx : Ctx) (now took : Nat)
    (late : Nat → Nat) (arrived : List (Nat × Env × Message)) (t : Nat) (ht : DoneAt ctx now t) :
    ∃ r, r = c.search db ctx now took none late arrived ∧ r.sent.length = 1 ∧ r.error = none ∧
      t ≤ r.time ∧ now + took ≤ r.time ∧
      ∀ L, (∀ j, late j ≤ L) → r.time = now + took ∨ r.time < t + (200 + L) := by
  obtain ⟨q, hq, -⟩ := search_message c hc
  rw [doneAt_iff] at ht
  subst ht
  obtain ⟨h1, h2, h3, h4⟩ := poll_end late (ctx.searchEnd now) 0 (now + took)
  refine ⟨_, rfl, ?_⟩
  unfold Ctrl.search
  simp only [hq]
  refine ⟨rfl, trivial, h1, h2, fun L hL => ?_⟩
  by_cases hx : now + took < ctx.searchEnd now
  · exact .inr (h4 L hL hx)
  · exact .inl (h3 (by omega))

/-- C103. When a search returns, the controller lists every node of the network whose answer was handled before
the context was done (the network as in C98). -/
theorem C103_found (c : Ctrl) (hc : c.node.running = true) (hnone : c.found = [])
    (ctx : Ctx) (now took : Nat) (late : Nat → Nat) (t : Nat) (ht : DoneAt ctx now t)
    (q : Message) (hq : c.searchAllObjects.2 = ([q], none)) (ac : Addr)
    (peers : List (Node × Addr)) (hon : ∀ p ∈ peers, OnNetwork c ac p)
    (hat : peers.Pairwise (fun p p' => listedAt c p.2 ≠ listedAt c p'.2))
    (env : Env) (henv : Silent env) (arrived : List (Nat × Env × Message))
    (hpas : ∀ x ∈ arrived, ∀ n cs y, (x.2.1.behave n cs y).1 = [])
    (hall : ∀ x ∈ arrived, Foreign c peers x.2.2 ∨ ∃ p ∈ peers, Replies env q ac p x.2.2)
    (hans : ∀ p ∈ peers, ∃ x ∈ arrived, x.1 ≤ t ∧ Replies env q ac p x.2.2) :
    ∃ r, r = c.search stdDB ctx now took none late arrived ∧ r.error = none ∧
      ∀ p ∈ peers, ∃ f ∈ r.ctrl.found, (f.address, f.port) = listedAt c p.2 ∧
        f.devices.map (·.codes) = p.1.devices.map (·.codes) ∧
        ∀ f' ∈ r.ctrl.found, (f'.address, f'.port) = listedAt c p.2 → f' = f := by
  rw [doneAt_iff] at ht
  subst ht
  obtain ⟨h1, -⟩ := poll_end late (ctx.searchEnd now) 0 (now + took)
  refine ⟨_, rfl, ?_⟩
  unfold Ctrl.search
  simp only [hq]
  refine ⟨trivial, ?_⟩
  generalize searchPoll late (ctx.searchEnd now) 0 (now + took) = T at h1
  obtain ⟨c', hc', h, -⟩ := C98_network_partial c hc hnone q hq ac peers hon hat env henv
    ((arrived.filter (fun x => x.1 ≤ T)).map (·.2))
    (fun x hx => by
      obtain ⟨y, hy, rfl⟩ := List.mem_map.mp hx
      exact hpas y (List.mem_filter.mp hy).1)
    (fun x hx => by
      obtain ⟨y, hy, rfl⟩ := List.mem_map.mp hx
      exact hall y (List.mem_filter.mp hy).1)
    (fun p hp => by
      obtain ⟨x, hx, hle, hr⟩ := hans p hp
      exact ⟨x.2, List.mem_map.mpr ⟨x, List.mem_filter.mpr ⟨hx, by simpa using Nat.le_trans hle h1⟩, rfl⟩, hr⟩)
  rw [List.map_map] at hc'
  have e : (CtrlOp.runAll stdDB c.searchAllObjects.1 ((arrived.filter (fun x => x.1 ≤ T)).map
      (fun x => CtrlOp.received x.2.1 x.2.2))).1 = c' := hc'.symm
  rw [e]
  exact h

/-- A search at time 1000 without a deadline, with sleeps of 201 ms, not cancelled: it ends at 4020, the first
look at the context after 4000. -/
example : (searchPoll (fun _ => 1) (Ctx.searchEnd ⟨none, none⟩ 1000) 0 1005) = 4020 := by decide +kernel

/-- With a deadline, cancelled before. -/
example : DoneAt ⟨some 9000, some 2500⟩ 1000 2500 ∧
    (searchPoll (fun _ => 0) (Ctx.searchEnd ⟨some 9000, some 2500⟩ 1000) 0 1000) = 2600 := by
  refine ⟨(doneAt_iff _ _ _).mpr (by decide), by decide +kernel⟩

/-- A running controller. -/
example : ∃ c : Ctrl, c.node.running = true ∧ c.found = [] :=
  ⟨{ Ctrl.new stdDB with node := { (Ctrl.new stdDB).node with running := true } }, rfl, rfl⟩

end Verif.Props
