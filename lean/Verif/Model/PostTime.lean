import Verif.Model.Post

/-!
# Posts and time

The machine of Model/Post with a clock. Simplification: the steps of the program take no time, so time passes only
when no post can take a step: each of them has ended, waits for its answer, waits for the lock while another one has
it, or is in its part over TCP (whose length is left open). The timer of a waiting post fires when the request timeout
has passed since it began to wait, not earlier. Handlers of messages may take any time.
-/

namespace Verif.Model

/-- The machine, the time, when each post began to wait, and when it returned. -/
structure TimedPosts where
  st : PostSt
  now : Nat
  since : Nat → Nat
  ended : Nat → Nat

/-- An action, or time passes. -/
inductive TimedAct where
  | act (a : PostAct)
  | tick
deriving DecidableEq, Repr

namespace TimedPosts

/-- No posts, at time 0. -/
def init : TimedPosts := ⟨.init, 0, fun _ => 0, fun _ => 0⟩

/-- Where post `i` is. -/
def pc (s : PostSt) (i : Nat) : Option PostPc := (s.posters[i]?).map (·.pc)

/-- Post `i` can not take a step now (local_node_msssage.go:166-198): it has ended, it waits and the timer of line 196
has not fired, or it is at the lock of line 178 and another one has it. -/
def rests (timeout : Nat) (s : TimedPosts) (p : Poster) (i : Nat) : Bool :=
  match p.pc with
  | .done _ => true
  | .wait => s.now < s.since i + timeout
  | .lock => s.st.mutex.isSome
  | .start => p.tcp
  | _ => false

/-- No post can take a step now. -/
def settled (timeout : Nat) (s : TimedPosts) : Bool := s.st.posters.zipIdx.all (fun e => s.rests timeout e.1 e.2)

/-- An action of the machine; posts that begin to wait and posts that return are noted. -/
def advance (s : TimedPosts) (a : PostAct) : TimedPosts :=
  let st := s.st.step a
  { s with
      st := st
      since := fun i => if pc st i = some .wait ∧ pc s.st i ≠ some .wait then s.now else s.since i
      ended := fun i =>
        match pc st i, pc s.st i with
        | some (.done _), some (.done _) => s.ended i
        | some (.done _), _ => s.now
        | _, _ => s.ended i }

/-- The request timeout of the node is `timeout` (`time.After`, local_node_msssage.go:196). -/
def step (timeout : Nat) (s : TimedPosts) : TimedAct → TimedPosts
  | .tick => if s.st.crashed = false ∧ s.settled timeout = true then { s with now := s.now + 1 } else s
  | .act (.timeout i) => if s.since i + timeout ≤ s.now then s.advance (.timeout i) else s
  | .act a => s.advance a

def run (timeout : Nat) (s : TimedPosts) : List TimedAct → TimedPosts
  | [] => s
  | a :: as => run timeout (s.step timeout a) as

end TimedPosts
end Verif.Model
