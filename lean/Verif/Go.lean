/-!
# The fragment of Go semantics used by the model

Nothing here models a particular file of the repository; these are the
conventions by which the other files do.
-/

namespace Verif

/-- Go `byte` / `uint8`. -/
abbrev Byte := BitVec 8

/-- Go `uint` on a 64-bit platform. -/
abbrev GoUint := BitVec 64

/-- A Go `[]byte` seen as a value (length = capacity, no aliasing; aliasing is
treated separately in `Verif.Model.Heap`). -/
abbrev Bytes := List Byte

/-- The error values the model distinguishes: `ErrInvalid`, `ErrNoData`,
`ErrNotFound`, `ErrTimeout` of `net/echonet/errors.go` and
`net/echonet/protocol/errors.go`, errors of the operating system or of user
callbacks (numbered), and everything else. -/
inductive Err where
  | invalid
  | noData
  | notFound
  | timeout
  | notRunning
  | io (code : Nat)
  | user (code : Nat)
  | other
deriving DecidableEq, Repr

/-- Outcome of a Go call: a value, an error return, or a run-time panic. -/
inductive Res (α : Type) where
  | ok (a : α)
  | err (e : Err)
  | panic
deriving DecidableEq, Repr

namespace Res

/-- Sequencing: an error return or a panic ends the computation. -/
@[inline] def bind {α β : Type} : Res α → (α → Res β) → Res β
  | ok a, f => f a
  | err e, _ => err e
  | panic, _ => panic

instance : Monad Res where
  pure := ok
  bind := bind

@[simp] theorem pure_eq {α : Type} (a : α) : (pure a : Res α) = ok a := rfl
@[simp] theorem ok_bind {α β : Type} (a : α) (f : α → Res β) : (ok a >>= f) = f a := rfl
@[simp] theorem err_bind {α β : Type} (e : Err) (f : α → Res β) : ((err e : Res α) >>= f) = err e := rfl
@[simp] theorem panic_bind {α β : Type} (f : α → Res β) : ((panic : Res α) >>= f) = panic := rfl

theorem bind_assoc' {α β γ : Type} (x : Res α) (f : α → Res β) (g : β → Res γ) :
    (x >>= f) >>= g = x >>= fun a => f a >>= g := by
  cases x <;> rfl

theorem bind_ok {α : Type} (x : Res α) : (x >>= fun a => (ok a : Res α)) = x := by
  cases x <;> rfl

theorem bind_eq_ok {α β : Type} {x : Res α} {f : α → Res β} {b : β} :
    (x >>= f) = ok b ↔ ∃ a, x = ok a ∧ f a = ok b := by
  cases x <;> simp

theorem bind_eq_panic {α β : Type} {x : Res α} {f : α → Res β} :
    (x >>= f) = panic ↔ x = panic ∨ ∃ a, x = ok a ∧ f a = panic := by
  cases x <;> simp

/-- The value of a call known to return one. -/
def IsOk {α : Type} : Res α → Prop
  | ok _ => True
  | _ => False

/-- The call returned an error. -/
def IsErr {α : Type} : Res α → Prop
  | err _ => True
  | _ => False

end Res

/-- Go index expression `b[i]` read: panics out of range. -/
def rd {α : Type} (b : List α) (i : Nat) : Res α :=
  match b[i]? with
  | some x => .ok x
  | none => .panic

/-- Go index assignment `b[i] = x`: panics out of range. -/
def wr {α : Type} (b : List α) (i : Nat) (x : α) : Res (List α) :=
  if i < b.length then .ok (b.set i x) else .panic

/-- Go slice expression `b[lo:]`: panics if `lo > len(b)`. -/
def sliceFrom {α : Type} (b : List α) (lo : Nat) : Res (List α) :=
  if lo ≤ b.length then .ok (b.drop lo) else .panic

/-- Go slice expression `b[lo:hi]`: panics unless `lo ≤ hi ≤ len(b)`
(Go allows `hi` up to the capacity; the model takes capacity = length, which
can only add panics). -/
def slice {α : Type} (b : List α) (lo hi : Nat) : Res (List α) :=
  if lo ≤ hi ∧ hi ≤ b.length then .ok ((b.take hi).drop lo) else .panic

/-- `for i := …` running `cnt` iterations from index `i`, in a body that may return
an error or panic. -/
def forFrom {σ : Type} (body : Nat → σ → Res σ) : (cnt i : Nat) → σ → Res σ
  | 0, _, s => .ok s
  | cnt + 1, i, s => do
    let s ← body i s
    forFrom body cnt (i + 1) s

/-- `for i := range n`. -/
def forRange {σ : Type} (n : Nat) (body : Nat → σ → Res σ) (s : σ) : Res σ :=
  forFrom body n 0 s

end Verif
