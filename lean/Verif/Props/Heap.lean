import Verif.Lemmas.HeapParse

/-!
# Sharing of memory (C17)

`Heap.run Heap.init ops` is the memory after an arbitrary history of operations: slices made and written by
the user, properties set and read, messages built, decoded and received.
-/

namespace Verif.Props
open Verif Model Spec Lemmas Lemmas.Mem

theorem setData_kept {h : Heap} (g : Good h) {s : Slice} (vs : Valid h.arrays s) {p : Nat} {q : HProp}
    (hp : h.props[p]? = some q) (after : List Heap.HOp) (ha : ∀ op ∈ after, Avoids (fun x => x = p) none op) :
    ((h.setData p s).run after).propAt p = some ⟨q.code, h.bytes s⟩ := by
  have hl : p < h.props.length := (List.getElem?_eq_some_iff.mp hp).1
  have k := keeps_run after (own_setData g vs hl) ha
  unfold Heap.propAt
  rw [k.props p rfl]
  have hq : (h.setData p s).props[p]? = some { q with data := ⟨h.arrays.length, 0, s.len⟩ } := by
    rw [setData_eq vs]
    simp only
    rw [List.getElem?_modify, hp]
    simp
  rw [hq]
  simp only [Option.map_some]
  rw [bytes_congr (k.arrays _ rfl)]
  have : (h.setData p s).bytes ⟨h.arrays.length, 0, s.len⟩ = h.bytes s := by
    rw [setData_eq vs]
    have hl := bytes_length vs
    generalize h.bytes s = bs at hl
    unfold Heap.bytes
    simp only
    have := getD_append_right' h.arrays [bs] 0
    rw [Nat.add_zero] at this
    rw [this]
    simp [List.take_of_length_le, hl]
  rw [this]

/-- After `SetData` from a slice the property shows what the slice showed at that moment, whatever is done
afterwards, as long as the property itself is not set again or asked for its data: writing to the slice or
to any slice that overlaps it, giving the slice to other properties, and changing those. -/
theorem C17_set_data (before after : List Heap.HOp) (p v : Nat) (s : Slice) (q : HProp)
    (hv : (Heap.init.run before).vars[v]? = some s) (hp : (Heap.init.run before).props[p]? = some q)
    (ha : ∀ op ∈ after, Avoids (fun x => x = p) none op) :
    (((Heap.init.run before).step (.setData p v)).run after).propAt p =
      some ⟨q.code, (Heap.init.run before).bytes s⟩ := by
  have g := good_run before good_init
  have e : (Heap.init.run before).step (.setData p v) = (Heap.init.run before).setData p s := by
    simp only [Heap.step, hv]
  rw [e]
  exact setData_kept g (g.vars s (List.mem_of_getElem? hv)) hp after ha

/-- A slice is written, given to two properties, and written again, partly through another slice. -/
def twoProperties : List Heap.HOp :=
  [.buffer [1, 2, 3], .newProp 0x80, .newProp 0x81, .setData 0 0, .write 0 0 9, .setData 1 0, .sub 0 1 3,
    .write 1 0 7, .getData 1, .write 2 2 5]

example : (Heap.init.run twoProperties).propAt 0 = some ⟨0x80, [1, 2, 3]⟩ ∧
    (Heap.init.run twoProperties).propAt 1 = some ⟨0x81, [9, 2, 5]⟩ := by
  have e0 : Heap.init.run twoProperties =
      ((Heap.init.run [.buffer [1, 2, 3], .newProp 0x80, .newProp 0x81]).step (.setData 0 0)).run
        [.write 0 0 9, .setData 1 0, .sub 0 1 3, .write 1 0 7, .getData 1, .write 2 2 5] := rfl
  refine ⟨?_, ?_⟩
  · rw [e0]
    refine C17_set_data _ _ 0 0 ⟨1, 0, 3⟩ ⟨0x80, ⟨2, 0, 0⟩⟩ (by rfl) (by rfl) ?_
    simp [Avoids]
  · rfl

/-- A property made from another, as for the protocol message of a request or for the properties of a
received message, starts with the same data, and keeps it whatever happens to the first one. -/
theorem C17_copy (before after : List Heap.HOp) (p : Nat) (q : HProp)
    (hp : (Heap.init.run before).props[p]? = some q)
    (ha : ∀ op ∈ after, Avoids (fun x => x = (Heap.init.run before).props.length) none op) :
    (((Heap.init.run before).step (.copyProp p)).run after).propAt (Heap.init.run before).props.length =
      (Heap.init.run before).propAt p := by
  have g := good_run before good_init
  generalize Heap.init.run before = h at g hp ha
  have e : h.step (.copyProp p) = ((h.newProperty.1).setCode h.newProperty.2 q.code).setData h.newProperty.2 q.data := by
    simp only [Heap.step, Heap.copyProperty, hp]
  have g1 := good_setCode (good_newProperty g) h.newProperty.2 q.code
  have vq := g.props q (List.mem_of_getElem? hp)
  have vs : Valid (h.newProperty.1.setCode h.newProperty.2 q.code).arrays q.data := vq.grows (grows_append _ _)
  have hb : (h.newProperty.1.setCode h.newProperty.2 q.code).bytes q.data = h.bytes q.data :=
    bytes_append (h := h) rfl vq.1
  have hq : (h.newProperty.1.setCode h.newProperty.2 q.code).props[h.props.length]? =
      some ⟨q.code, ⟨h.arrays.length, 0, 0⟩⟩ := by
    show ((h.props ++ [(⟨0, ⟨h.arrays.length, 0, 0⟩⟩ : HProp)]).modify h.props.length _)[h.props.length]? = _
    rw [List.getElem?_modify]
    simp
  rw [e]
  refine (setData_kept g1 vs hq after ha).trans ?_
  rw [hb]
  simp [Heap.propAt, hp]

/-- The copy of property 0 keeps its data while that of property 0 is changed in place. -/
example : (Heap.init.run [.buffer [1, 2, 3], .newProp 0x80, .setData 0 0, .getData 0, .copyProp 0, .write 1 0 9]).propAt 1 =
      some ⟨0x80, [1, 2, 3]⟩ ∧
    (Heap.init.run [.buffer [1, 2, 3], .newProp 0x80, .setData 0 0, .getData 0, .copyProp 0, .write 1 0 9]).propAt 0 =
      some ⟨0x80, [9, 2, 3]⟩ := by
  refine ⟨?_, by rfl⟩
  exact C17_copy [.buffer [1, 2, 3], .newProp 0x80, .setData 0 0, .getData 0] [.write 1 0 9] 0
    ⟨0x80, ⟨3, 0, 3⟩⟩ (by rfl) (by simp [Avoids])

/-- A message decoded from a slice is the message its bytes stand for, and stays so whatever is done
afterwards, as long as the message and its properties are left to themselves: writing to the slice, decoding
other messages from it, receiving others. -/
theorem C17_decoded (before after : List Heap.HOp) (v : Nat) (s : Slice) (vm : Message)
    (hv : (Heap.init.run before).vars[v]? = some s)
    (hm : Message.newWithBytes ((Heap.init.run before).bytes s) = .ok vm) :
    ∃ m, ((Heap.init.run before).step (.parse v)).msgs[(Heap.init.run before).msgs.length]? = some m ∧
      ((∀ op ∈ after, Avoids (fun p => some p ∈ m.ep) (some (Heap.init.run before).msgs.length) op) →
        (((Heap.init.run before).step (.parse v)).run after).msgs[(Heap.init.run before).msgs.length]? = some m ∧
        (((Heap.init.run before).step (.parse v)).run after).message m = vm) := by
  have g := good_run before good_init
  generalize Heap.init.run before = h at g hv hm
  obtain ⟨h', m, e, rfl, f⟩ := parse_ok (g.vars s (List.mem_of_getElem? hv)) hm
  have e' : h.step (.parse v) = { h' with msgs := h'.msgs ++ [m] } := by
    simp only [Heap.step, hv, e, Heap.addParsed]
  rw [e']
  exact ⟨m, by simp [f.msgs], parsed_kept g f after⟩

/-- A slice that is not a message makes no message and changes nothing. -/
theorem C17_not_decoded (before : List Heap.HOp) (v : Nat) (s : Slice) (e : Err)
    (hv : (Heap.init.run before).vars[v]? = some s)
    (hm : Message.newWithBytes ((Heap.init.run before).bytes s) = .err e) :
    (Heap.init.run before).step (.parse v) = Heap.init.run before := by
  have g := good_run before good_init
  simp only [Heap.step, hv, parse_err (g.vars s (List.mem_of_getElem? hv)) hm, Heap.addParsed]

/-- A received message is the one its datagram stands for, cut to the size of the read buffer, and stays so
while later datagrams are read into the same buffer. -/
theorem C17_received (before after : List Heap.HOp) (d : Bytes) (vm : Message)
    (hm : Message.newWithBytes (d.take maxPacketSize) = .ok vm) :
    ∃ m, ((Heap.init.run before).step (.receive d)).msgs[(Heap.init.run before).msgs.length]? = some m ∧
      ((∀ op ∈ after, Avoids (fun p => some p ∈ m.ep) (some (Heap.init.run before).msgs.length) op) →
        (((Heap.init.run before).step (.receive d)).run after).msgs[(Heap.init.run before).msgs.length]? = some m ∧
        (((Heap.init.run before).step (.receive d)).run after).message m = vm) := by
  have g := good_run before good_init
  have hs : (Heap.init.run before).sock = ⟨0, 0, maxPacketSize⟩ := sock_run before good_init
  generalize Heap.init.run before = h at g hs
  have g1 := good_fill g h.sock d
  have hb := bytes_fill g.sock d
  have v1 : Valid (h.fill h.sock d).arrays { h.sock with len := min d.length h.sock.len } := valid_shorter g1.sock _
  rw [show h.sock.len = maxPacketSize by rw [hs]] at hb v1
  rw [← hb] at hm
  obtain ⟨h', m, e, rfl, f⟩ := parse_ok v1 hm
  have e' : h.step (.receive d) = { h' with msgs := h'.msgs ++ [m] } := by
    simp only [Heap.step]
    rw [show (h.fill h.sock d).sock = h.sock from rfl, show h.sock.len = maxPacketSize by rw [hs], e]
    rfl
  rw [e']
  have hl : (h.fill h.sock d).msgs = h.msgs := rfl
  have fm := f.msgs
  rw [hl] at fm
  exact ⟨m, by simp [fm], parsed_kept g1 f after⟩

/-- Two datagrams of one property each. -/
def datagramOf (t c b : Byte) : Bytes := [0x10, 0x81, 0, t, 5, 0xFF, 1, 0x0E, 0xF0, 1, 0x62, 1, c, 1, b]

/-- The first message still shows its own data after the second has been read into the same buffer. -/
example : ∃ m, (Heap.init.run [.receive (datagramOf 1 0x80 0x30), .receive (datagramOf 2 0x81 0x31)]).msgs[0]? = some m ∧
    ((Heap.init.run [.receive (datagramOf 1 0x80 0x30), .receive (datagramOf 2 0x81 0x31)]).message m).ep =
      [some ⟨0x80, [0x30]⟩] := by
  have hm : Message.newWithBytes ((datagramOf 1 0x80 0x30).take maxPacketSize) =
      .ok (decoded 0 1 5 0xFF 1 0x0E 0xF0 1 0x62 1 [0x80, 1, 0x30]) := by
    rw [List.take_of_length_le (by decide)]
    exact newWithBytes_cons _ _ _ _ _ _ _ _ _ _ _
  obtain ⟨m, _, h⟩ := C17_received [] [.receive (datagramOf 2 0x81 0x31)] _ _ hm
  obtain ⟨h1, h2⟩ := h (by simp [Avoids])
  exact ⟨m, h1, (congrArg Message.ep h2).trans (by rfl)⟩

/-- The slice `Data` returns is the property's own: writing to it changes the property. This is why the
theorems above leave `Data` of the property out. -/
theorem C17_data_handed_out (before : List Heap.HOp) (p i : Nat) (b : Byte) (q : HProp)
    (hp : (Heap.init.run before).props[p]? = some q) (hi : i < ((Heap.init.run before).bytes q.data).length) :
    ((Heap.init.run before).run [.getData p, .write (Heap.init.run before).vars.length i b]).propAt p =
      some ⟨q.code, ((Heap.init.run before).bytes q.data).set i b⟩ := by
  have g := good_run before good_init
  generalize Heap.init.run before = h at g hp hi
  have vq := g.props q (List.mem_of_getElem? hp)
  rw [bytes_length vq] at hi
  have e : h.run [.getData p, .write h.vars.length i b] =
      { h with vars := h.vars ++ [q.data]
               arrays := h.arrays.modify q.data.arr (fun a => a.set (q.data.off + i) b) } := by
    simp [Heap.run, Heap.step, hp, Heap.put, hi]
  rw [e]
  unfold Heap.propAt
  simp only [hp, Option.map_some]
  congr 2
  unfold Heap.bytes
  simp only
  rw [List.getD_eq_getElem?_getD, List.getElem?_modify, List.getD_eq_getElem?_getD, List.getElem?_eq_getElem vq.1]
  simp only [if_pos, Option.map_eq_map, Option.map_some, Option.getD_some]
  rw [List.drop_set, if_neg (by omega), Nat.add_sub_cancel_left, List.take_set]

example : ((Heap.init.run [.buffer [1, 2, 3], .newProp 0x80, .setData 0 0]).run [.getData 0, .write 1 1 9]).propAt 0 =
    some ⟨0x80, [1, 9, 3]⟩ :=
  C17_data_handed_out [.buffer [1, 2, 3], .newProp 0x80, .setData 0 0] 0 1 9 ⟨0x80, ⟨3, 0, 3⟩⟩ (by rfl) (by decide)

end Verif.Props
