/-!
# Data races, as the memory model of Go has them

Written without looking at the code. Goroutines read and write places, start other goroutines, use mutexes, and send
and receive over channels without a buffer. An execution is the list of what happened, in order. One event comes
before another for sure only by the rules of "The Go Memory Model": the order within a goroutine, a `go` statement
before what the new goroutine does, an `Unlock` before a later `Lock`, a send before the receive, and the receive
before the send is over. Two goroutines race when they use one place, one of them writes it, and neither use comes
before the other by these rules. A program with a data race has no meaning that can be relied on.
-/

namespace Verif.Spec

/-- What a goroutine does. `L` is the type of places. A send over a channel is two acts, `send` when it begins and
`sent` when it is over. -/
inductive Act (L : Type) where
  | rd (l : L)
  | wr (l : L)
  | go (g : Nat)
  | lock (m : Nat)
  | unlock (m : Nat)
  | send (c : Nat)
  | sent (c : Nat)
  | recv (c : Nat)
deriving DecidableEq, Repr

/-- The act reads or writes the place. -/
def Act.Uses {L : Type} (a : Act L) (l : L) : Prop := a = .rd l ∨ a = .wr l

/-- Goroutine `g` did `act`. -/
structure Ev (L : Type) where
  g : Nat
  act : Act L
deriving DecidableEq, Repr

variable {L : Type}

/-- One rule puts the event at `i` before the one at `j`. For channels every send is put before every later receive,
which is more than Go promises. -/
inductive Edge (t : List (Ev L)) (i j : Nat) : Prop where
  | order (g : Nat) (a b : Act L) : i < j → t[i]? = some ⟨g, a⟩ → t[j]? = some ⟨g, b⟩ → Edge t i j
  | go (g h : Nat) (b : Act L) : i < j → t[i]? = some ⟨g, .go h⟩ → t[j]? = some ⟨h, b⟩ → Edge t i j
  | unlock (g h m : Nat) : i < j → t[i]? = some ⟨g, .unlock m⟩ → t[j]? = some ⟨h, .lock m⟩ → Edge t i j
  | send (g h c : Nat) : i < j → t[i]? = some ⟨g, .send c⟩ → t[j]? = some ⟨h, .recv c⟩ → Edge t i j
  | recv (g h c : Nat) : i < j → t[i]? = some ⟨g, .recv c⟩ → t[j]? = some ⟨h, .sent c⟩ → Edge t i j

/-- The event at `i` happens before the one at `j`. -/
inductive HB (t : List (Ev L)) : Nat → Nat → Prop where
  | edge {i j : Nat} : Edge t i j → HB t i j
  | trans {i j k : Nat} : HB t i j → Edge t j k → HB t i k

/-- Goroutines `g` and `h` race for place `l`. -/
def RaceBetween (t : List (Ev L)) (g h : Nat) (l : L) : Prop :=
  g ≠ h ∧ ∃ (i j : Nat) (a b : Act L), t[i]? = some ⟨g, a⟩ ∧ t[j]? = some ⟨h, b⟩ ∧ a.Uses l ∧ b.Uses l ∧
    (a = .wr l ∨ b = .wr l) ∧ ¬ HB t i j ∧ ¬ HB t j i

/-- There is a data race for place `l`. -/
def RaceOn (t : List (Ev L)) (l : L) : Prop := ∃ (g h : Nat), RaceBetween t g h l

/-- `t` is an execution of goroutines whose code is `code`, of which goroutine 0 runs from the beginning. -/
structure Exec (code : Nat → List (Act L)) (t : List (Ev L)) : Prop where
  /-- Each goroutine has done a beginning of its code. -/
  order : ∀ (g : Nat), (t.filter (fun e => e.g == g)).map (·.act) <+: code g
  /-- A goroutine other than 0 does nothing before it is started. -/
  started : ∀ (j h : Nat) (b : Act L), t[j]? = some ⟨h, b⟩ → h ≠ 0 → ∃ (i g : Nat), i < j ∧ t[i]? = some ⟨g, .go h⟩
  /-- A goroutine is started once, and goroutine 0 is not. -/
  once : ∀ (i j g h k : Nat), t[i]? = some ⟨g, .go k⟩ → t[j]? = some ⟨h, .go k⟩ → i = j
  first : ∀ (i g : Nat), t[i]? ≠ some ⟨g, .go 0⟩
  /-- A mutex that is locked is not locked again before it is unlocked. -/
  locks : ∀ (i j g h m : Nat), i < j → t[i]? = some ⟨g, .lock m⟩ → t[j]? = some ⟨h, .lock m⟩ →
    ∃ (k : Nat), i < k ∧ k < j ∧ t[k]? = some ⟨g, .unlock m⟩

end Verif.Spec
