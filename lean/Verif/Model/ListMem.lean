/-!
# Model of the lists the library keeps and hands out

`Devices` (base_node.go:38-40), `Profiles` (base_node.go:59-61), `Nodes` (controller.go:85-87) and `Properties` of a
message (protocol/message.go:268-270) return the slice the library keeps, not a copy. The rest of the model treats
these slices as values. Here a slice is a window on an array, as in Go, and `append` writes into the array of its
slice where there is room. `α` stands for the pointers in the list.
-/

namespace Verif.Model

/-- A Go slice: an array, the first cell, the length and the capacity. -/
structure View where
  arr : Nat
  off : Nat
  len : Nat
  cap : Nat
deriving DecidableEq, Repr

/-- The arrays; a cell of an array that was never written holds nil. -/
abbrev Cells (α : Type) := List (List (Option α))

namespace Cells
variable {α : Type}

/-- The elements of a slice. -/
def shows (h : Cells α) (v : View) : List (Option α) := ((h.getD v.arr []).drop v.off).take v.len

/-- `s[k] = x` for `k` below the length. -/
def put (h : Cells α) (v : View) (k : Nat) (x : α) : Cells α :=
  h.modify v.arr (fun a => a.set (v.off + k) (some x))

/-- A new array with the given elements and `room` cells more. -/
def make (h : Cells α) (xs : List (Option α)) (room : Nat) : Cells α × View :=
  (h ++ [xs ++ List.replicate room none], ⟨h.length, 0, xs.length, xs.length + room⟩)

/-- Go `append(s, x)`: into the array of `s` where it has room, else into a new array with as much room as the
runtime chooses (`room`, from the capacity and the length so far). -/
def append (room : Nat → Nat → Nat) (h : Cells α) (v : View) (x : α) : Cells α × View :=
  if v.len < v.cap then (h.put v v.len x, { v with len := v.len + 1 })
  else h.make (h.shows v ++ [some x]) (room v.cap v.len)

end Cells

/-- A list the program holds. `mine`: it comes from a call that makes a new list, so that its array is the program's. -/
structure HeldList where
  view : View
  mine : Bool
deriving DecidableEq, Repr

/-- The arrays, the lists the library keeps and the lists the program holds. -/
structure ListMem (α : Type) where
  cells : Cells α
  kept : List View
  held : List HeldList
deriving DecidableEq, Repr

/-- What the library and the program do with lists. -/
inductive ListOp (α : Type) where
  /-- The library makes an empty list: `newBaseNode` (base_node.go:24-30), `newController` (controller.go:69),
  `NewMessage` (protocol/message.go:52-67). -/
  | new
  /-- `AddDevice` (base_node.go:33-35), `AddProfile` (base_node.go:54-56), `addNode`
  (controller_message_listener.go:93), `AddProperty` (protocol/message.go:247-250). -/
  | add (i : Nat) (x : α)
  /-- `Clear` (controller.go:146-149): a new list. -/
  | clear (i : Nat)
  /-- `Devices`, `Profiles`, `Nodes`, `Properties`: the program gets the list itself. -/
  | lend (i : Nat)
  /-- `Objects` (base_node.go:101-115): the program gets a new list with the elements of two lists. -/
  | objects (i j : Nat)
  /-- The program takes a part of a list; extending a list over its capacity is left out. -/
  | sub (v lo hi : Nat)
  /-- The program writes an element of a list. -/
  | write (v k : Nat) (x : α)
  /-- The program appends to a list and holds the result too. -/
  | push (v : Nat) (x : α)
deriving DecidableEq, Repr

namespace ListMem
variable {α : Type}

/-- At the start there are no lists. -/
def init : ListMem α := ⟨[], [], []⟩

/-- A step; one on a list that does not exist, or out of range, changes nothing. -/
def step (room : Nat → Nat → Nat) (s : ListMem α) : ListOp α → ListMem α
  | .new =>
    let (c, v) := s.cells.make [] 0
    ⟨c, s.kept ++ [v], s.held⟩
  | .add i x =>
    match s.kept[i]? with
    | none => s
    | some v =>
      let (c, v) := s.cells.append room v x
      ⟨c, s.kept.set i v, s.held⟩
  | .clear i =>
    let (c, v) := s.cells.make [] 0
    ⟨c, s.kept.set i v, s.held⟩
  | .lend i =>
    match s.kept[i]? with
    | none => s
    | some v => { s with held := s.held ++ [⟨v, false⟩] }
  | .objects i j =>
    match s.kept[i]?, s.kept[j]? with
    | some v, some w =>
      let (c, u) := s.cells.make (s.cells.shows v ++ s.cells.shows w) 0
      ⟨c, s.kept, s.held ++ [⟨u, true⟩]⟩
    | _, _ => s
  | .sub v lo hi =>
    match s.held[v]? with
    | none => s
    | some l =>
      if lo ≤ hi ∧ hi ≤ l.view.len then
        { s with held := s.held ++ [⟨⟨l.view.arr, l.view.off + lo, hi - lo, l.view.cap - lo⟩, l.mine⟩] }
      else s
  | .write v k x =>
    match s.held[v]? with
    | none => s
    | some l => if k < l.view.len then { s with cells := s.cells.put l.view k x } else s
  | .push v x =>
    match s.held[v]? with
    | none => s
    | some l =>
      let (c, w) := s.cells.append room l.view x
      ⟨c, s.kept, s.held ++ [⟨w, l.mine⟩]⟩

/-- A history. -/
def run (room : Nat → Nat → Nat) (s : ListMem α) (ops : List (ListOp α)) : ListMem α := ops.foldl (step room) s

/-- The elements of list `i` of the library. -/
def library (s : ListMem α) (i : Nat) : Option (List (Option α)) := (s.kept[i]?).map s.cells.shows

/-- The elements of list `v` of the program. -/
def program (s : ListMem α) (v : Nat) : Option (List (Option α)) := (s.held[v]?).map (fun l => s.cells.shows l.view)

end ListMem
end Verif.Model
