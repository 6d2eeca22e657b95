import Verif.Model.Controller

/-!
# Model of the duration of a search

Times are milliseconds on one clock. How long sending takes and how late the system wakes a sleeping
goroutine are parameters, as is what arrives meanwhile. The clock and the timers of contexts are taken to be
exact: a context is done at its deadline or when it is cancelled, whichever is first.
-/

namespace Verif.Model

/-- A `context.Context`: its deadline, and when it is cancelled, by the program or with its parent. -/
structure Ctx where
  deadline : Option Nat
  cancelled : Option Nat

/-- The time at which a context with this deadline is done. -/
def Ctx.doneAt (cancelled : Option Nat) (deadline : Nat) : Nat :=
  match cancelled with
  | none => deadline
  | some t => min t deadline

/-- `DefaultResponseTimeout` (controller.go:20). -/
def defaultResponseTimeout : Nat := 3000

/-- The end of the context of a search begun at `now` (controller.go:126-130). -/
def Ctx.searchEnd (ctx : Ctx) (now : Nat) : Nat :=
  match ctx.deadline with
  | some d => Ctx.doneAt ctx.cancelled d
  | none => Ctx.doneAt ctx.cancelled (now + defaultResponseTimeout)

/-- The loop of `controller.Search` (controller.go:135-142): the time at which it ends. It is at `t`
before its `k`th look at the context; `late k` is how much longer than 200 ms the `k`th sleep takes. -/
def searchPoll (late : Nat → Nat) (done k t : Nat) : Nat :=
  if done ≤ t then t else searchPoll late done (k + 1) (t + (200 + late k))
termination_by done - t

/-- How a search ended: the controller then, what was sent, the error and the time. -/
structure SearchEnd where
  ctrl : Ctrl
  sent : List Message
  error : Option Err
  time : Nat

/-- `controller.Search` (controller.go:125-143), called at `now`: sending takes `took` and ends with the error
`io` of the transport, if any; `arrived` are the messages handled meanwhile, with the times. -/
def Ctrl.search (db : StdDB) (c : Ctrl) (ctx : Ctx) (now took : Nat) (io : Option Err) (late : Nat → Nat)
    (arrived : List (Nat × Env × Message)) : SearchEnd :=
  let (c', ms, e) := c.searchAllObjects
  let upTo (t : Nat) : Ctrl := (CtrlOp.runAll db c'
    ((arrived.filter (fun x => x.1 ≤ t)).map (fun x => .received x.2.1 x.2.2))).1
  match e with
  | some e => ⟨upTo (now + took), ms, some e, now + took⟩                       -- lines 131-134
  | none =>
    match io with
    | some e => ⟨upTo (now + took), ms, some e, now + took⟩                     -- lines 131-134
    | none =>
      let t := searchPoll late (ctx.searchEnd now) 0 (now + took)
      ⟨upTo t, ms, none, t⟩

end Verif.Model
