import Verif.Go

/-!
# Model of concurrent uses of the data of one property

Messages are handled each in its own goroutine (transport/unicast_server.go:134,
multicast_server.go:92), and the application calls `SetData` from its own, so that several goroutines use the
data of one property at the same time, without a lock. A step is one access to shared memory: the field
`data` of the property (property.go:117), or one byte of an array.
Simplifications: memory is sequentially consistent, the field `data` (pointer and length) is loaded and stored
in one step, and `copy` goes upward byte by byte. The announcement that follows a write is left out.
-/

namespace Verif.Model

/-- Where a goroutine calling `SetData` (property.go:369-380) once for each of several values is. -/
inductive WritePc where
  | store (d : Bytes) (rest : List Bytes)            -- before line 370 stores a new array into `data`
  | load (d : Bytes) (rest : List Bytes)             -- before line 371 loads `data`
  | copy (d : Bytes) (arr i : Nat) (rest : List Bytes)   -- before line 371 copies byte `i` into array `arr`
  | finished
deriving DecidableEq, Repr

/-- A goroutine about to write the values of a list, one after the other (property.go:369-380). -/
def WritePc.next : List Bytes → WritePc
  | [] => .finished
  | d :: rest => .store d rest

/-- Where a goroutine copying the data into a property of a response is: `newProtocolPropertyFrom`
(property_data.go:22-27) loads `data` (property.go:395-397), whose bytes protocol/property.go:91-94 copies. -/
inductive ReadPc where
  | load                                             -- before property.go:396 loads `data`
  | copy (arr i : Nat) (acc : Bytes)                 -- before protocol/property.go:93 copies byte `i`
  | got (r : Bytes)                                  -- the copy is complete
deriving DecidableEq, Repr

/-- The arrays made so far, the one `data` (property.go:117) shows, and the goroutines. An array is never used again for
something else, as the garbage collector ensures. -/
structure DataSt where
  arrays : List Bytes
  cur : Nat
  writers : List WritePc
  readers : List ReadPc
deriving DecidableEq, Repr

namespace DataSt

/-- A property holding `d`, goroutines each about to write some values (property.go:369), and `k` goroutines about to
read (property_data.go:25). -/
def init (d : Bytes) (values : List (List Bytes)) (k : Nat) : DataSt :=
  ⟨[d], 0, values.map WritePc.next, List.replicate k .load⟩

/-- Which goroutine takes the next step. -/
inductive Who where
  | writer (i : Nat)
  | reader (j : Nat)
deriving DecidableEq, Repr

/-- One step of `SetData` (property.go:369-371) in goroutine `i`. Line 371 loads `data` anew. -/
def stepWriter (s : DataSt) (i : Nat) : DataSt :=
  match s.writers[i]? with
  | some (.store d rest) =>
    { s with
        arrays := s.arrays ++ [List.replicate d.length 0]
        cur := s.arrays.length
        writers := s.writers.set i (.load d rest) }
  | some (.load d rest) => { s with writers := s.writers.set i (.copy d s.cur 0 rest) }
  | some (.copy d arr k rest) =>
    match d[k]?, (s.arrays.getD arr [])[k]? with
    | some b, some _ =>
      { s with
          arrays := s.arrays.modify arr (fun a => a.set k b)
          writers := s.writers.set i (.copy d arr (k + 1) rest) }
    | _, _ => { s with writers := s.writers.set i (WritePc.next rest) }
  | _ => s

/-- One step of a reader (property_data.go:25, property.go:395-397, protocol/property.go:91-94). -/
def stepReader (s : DataSt) (j : Nat) : DataSt :=
  match s.readers[j]? with
  | some .load => { s with readers := s.readers.set j (.copy s.cur 0 []) }
  | some (.copy arr k acc) =>
    match (s.arrays.getD arr [])[k]? with
    | some b => { s with readers := s.readers.set j (.copy arr (k + 1) (acc ++ [b])) }
    | none => { s with readers := s.readers.set j (.got acc) }
  | _ => s

/-- One step of a goroutine (property.go:369-371 or property_data.go:25). -/
def step (s : DataSt) : Who → DataSt
  | .writer i => s.stepWriter i
  | .reader j => s.stepReader j

/-- The steps of a schedule, in order. -/
def run (s : DataSt) : List Who → DataSt
  | [] => s
  | w :: ws => run (s.step w) ws

/-- What `Data` (property.go:395-397) shows now. -/
def data (s : DataSt) : Bytes := s.arrays.getD s.cur []

end DataSt
end Verif.Model
