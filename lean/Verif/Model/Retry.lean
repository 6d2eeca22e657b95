import Verif.Model.Transport

/-!
# Model of the loop of retries of `UnicastManager.Start`, step by step

`Verif.Model.Transport.bindRetry` is the same loop as a function, for which the number of retries is a natural number.
Here the counter is a `uint`, as in the code, and the loop need not end. Not modelled: the waiting between attempts.
-/

namespace Verif.Model

/-- The loop `for n := uint(0); n <= bindRetryCount; n++` (transport/unicast_manager.go:86-105): the counter, the last
error, the transport and whether the loop was left. -/
structure RetryLoop where
  n : GoUint
  lastErr : Option Err
  transport : Transport
  left : Bool

namespace RetryLoop

/-- Before the loop (transport/unicast_manager.go:72, 86). -/
def enter (lastErr : Option Err) (s : Transport) : RetryLoop := ⟨0, lastErr, s, false⟩

/-- The condition and, if it holds, the body once (transport/unicast_manager.go:86-105): all interfaces are bound
(87-98), the loop is left if that succeeds (99-101), the counter is increased. -/
def step (os : Os) (port : Nat) (ifis : List IfPtr) (count : GoUint) (s : RetryLoop) : RetryLoop :=
  if s.left then s
  else if s.n ≤ count then
    match Transport.bindIfs os port ifis s.lastErr s.transport with
    | (none, t) => ⟨s.n, none, t, true⟩
    | (some e, t) => ⟨s.n + 1, some e, t, false⟩
  else ⟨s.n, s.lastErr, s.transport, true⟩

/-- The loop after `k` steps. -/
def after (os : Os) (port : Nat) (ifis : List IfPtr) (count : GoUint) : Nat → RetryLoop → RetryLoop
  | 0, s => s
  | k + 1, s => after os port ifis count k (s.step os port ifis count)

end RetryLoop
end Verif.Model
