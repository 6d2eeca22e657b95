import Verif.Props.Mesh

/-!
# C174: copies of a property come to agree

Programs that keep a property of their nodes equal: each writes the data it hears announced, if it has other data. After
writes, with nothing lost, all nodes should have the same data and the network should be at rest. This fails if two nodes
are written at the same time, or one is written twice: announcements cross, each node takes the data of the other, and so on
for ever. It holds for any number of nodes if all else is at rest when the write is made.
-/

namespace Verif.Props
open Verif Model Spec Lemmas

/-! ## Specification -/

/-- The callbacks of a program that writes announced data of property `c` to its object `r`, if that has other data. -/
def mirror (r : ObjRef) (c : Byte) : Env where
  listener := true
  objListener := fun _ => false
  reqHandler := fun _ => false
  behave := fun n _ x => match x with
    | .message m => (if m.esv = 0x73 then
        ((properties m).filter (fun p => p.code = c ∧ dataOf n r c ≠ some p.data)).map (fun p => .obj r (.write c p.data))
        else [], none)
    | _ => ([], none)

/-- No two nodes have the same address. -/
def Apart (nodes : List Node) : Prop :=
  ∀ (i j : Nat) (x y : Node), nodes[i]? = some x → nodes[j]? = some y → x.addr = y.addr → i = j

/-! ## What a program does with an announcement -/

/-- Own announcements are dropped. -/
theorem mirror_own {env : Env} {db : StdDB} {n : Node} {m : Message} (h : Ignored n m) :
    n.received env db m = .ok ⟨n, [], [], false, none, none⟩ := by
  unfold Node.received
  rw [if_pos ((ignored_iff n m).mpr h)]

theorem mirror_hears {db : StdDB} {n : Node} {r : ObjRef} {c : Byte} (h : InService db n r c) {d b : Bytes}
    (hd : d.length ≤ 255) {x : Message} (hx : Message.newWithBytes b = .ok x) (hb : Announced c d b) (src : Addr)
    (hi : ¬ Ignored n { x with src := src }) :
    (dataOf n r c = some d → ∃ out, n.received (mirror r c) db { x with src := src } = .ok out ∧ out.sent = [] ∧
      out.reply = none ∧ out.node = n) ∧
    (dataOf n r c ≠ some d → ∃ out m, n.received (mirror r c) db { x with src := src } = .ok out ∧
      out.sent = [.multicast m] ∧ out.reply = none ∧ Announced c d m.bytes ∧ InService db out.node r c ∧
      dataOf out.node r c = some d ∧ out.node.addr = n.addr) := by
  obtain ⟨x', hx', h1, h2, h3⟩ := hb
  rw [hx] at hx'
  cases hx'
  obtain ⟨q, o, ho⟩ := h.profile
  have ho' : Addressed n ({ x with src := src } : Message).getDEOJ q o := by
    show Addressed n x.getDEOJ q o
    rw [h2]; exact ho
  have ha : Accepts n { x with src := src } := by
    refine ⟨q, o, ho', ⟨_, (by decide : (⟨0x73, .notification, false, false, none, none⟩ : Esv.Service) ∈ Esv.table), h1.symm⟩, ?_⟩
    intro h
    exfalso
    change x.esv = 0x60 ∨ x.esv = 0x61 ∨ x.esv = 0x62 ∨ x.esv = 0x6E at h
    rw [h1] at h
    revert h
    decide
  obtain ⟨out, rs, g1, g2, g3, -, -, g5, -⟩ := received_accepted (mirror r c) db n _ hi ha q o ho'
  have hcalls : out.calls = [.message { x with src := src }] := by
    rw [g2]
    unfold expectedCalls
    have : ∀ l : List PProp, l.flatMap (fun p => (if (mirror r c).objListener q then [Call.request q x.esv p] else []) ++
        (if (mirror r c).reqHandler q then [Call.handler q x.esv p] else [])) = [] := by
      intro l
      induction l with
      | nil => rfl
      | cons y l ih => rw [List.flatMap_cons, ih]; rfl
    show [Call.message { x with src := src }] ++ _ = _
    exact congrArg _ (this _)
  have hbeh : (mirror r c).behave n [] (.message { x with src := src })
      = (if dataOf n r c ≠ some d then [.obj r (.write c d)] else [], none) := by
    show ((if x.esv = 0x73 then ((properties { x with src := src }).filter
      (fun p => p.code = c ∧ dataOf n r c ≠ some p.data)).map (fun p => NodeOp.obj r (.write c p.data)) else []), none) = _
    rw [if_pos h1]
    have : properties { x with src := src } = [⟨c, d⟩] := h3
    rw [this]
    by_cases hc : dataOf n r c = some d
    · simp [hc]
    · simp [hc]
  rw [hcalls] at g3
  obtain ⟨e1, e2, e3⟩ := effects_unique g3 (Effects.cons (Effects.nil _ _))
  rw [hbeh] at e1 e2 e3
  have hno : NoErr rs := by
    intro e he
    rw [e3, List.mem_singleton] at he
    exact he
  have hrep := (g5 hno (by show ESV.isResponseRequired x.esv = false; rw [h1]; decide)).1
  constructor
  · intro hc
    rw [if_neg (fun k => k hc)] at e1 e2
    exact ⟨out, g1, e2, hrep, e1⟩
  · intro hc
    obtain ⟨m, w1, w2, w3, w4, w5⟩ := write_announces h d hd
    rw [if_pos hc] at e1 e2
    have e1 : out.node = ((NodeOp.obj r (.write c d)).run db n).1 := e1
    have e2 : out.sent = (((NodeOp.obj r (.write c d)).run db n).2 ++ []) ++ [] := e2
    rw [List.append_nil, List.append_nil, w1] at e2
    exact ⟨out, m, g1, e2, hrep, w2, e1 ▸ w3, e1 ▸ w4, e1 ▸ w5⟩

/-! ## One write -/

/-- The data node `i` of a network has. -/
def dataAt (refs : Nat → ObjRef) (c : Byte) (nodes : List Node) (i : Nat) : Option Bytes :=
  (nodes[i]?).bind (fun n => dataOf n (refs i) c)

/-- All that is on its way announces `d` and comes from nodes that have it. -/
structure Following (db : StdDB) (refs : Nat → ObjRef) (c : Byte) (d : Bytes) (s : Mesh) : Prop where
  service : ∀ (i : Nat) (n : Node), s.nodes[i]? = some n → InService db n (refs i) c
  apart : Apart s.nodes
  dest : ∀ p ∈ s.air, p.dest < s.nodes.length
  announced : ∀ p ∈ s.air, Announced c d p.data
  source : ∀ p ∈ s.air, ∀ (i : Nat) (n : Node), s.nodes[i]? = some n → n.addr = p.src → dataOf n (refs i) c = some d

/-- How many nodes have other data. -/
def behind (refs : Nat → ObjRef) (c : Byte) (d : Bytes) (nodes : List Node) : Nat :=
  (List.range nodes.length).countP (fun i => decide (dataAt refs c nodes i ≠ some d))

theorem countP_one (f g : Nat → Bool) (N j : Nat) (hj : j < N) (hf : f j = true) (hg : g j = false)
    (h : ∀ i, i ≠ j → g i = f i) : (List.range N).countP g + 1 = (List.range N).countP f := by
  have same : ∀ M, M ≤ j → (List.range M).countP g = (List.range M).countP f := by
    intro M hM
    apply List.countP_congr
    intro i hi
    rw [List.mem_range] at hi
    rw [h i (by omega)]
  have : ∀ M, (List.range (j + 1 + M)).countP g + 1 = (List.range (j + 1 + M)).countP f := by
    intro M
    induction M with
    | zero =>
      rw [Nat.add_zero, List.range_succ, List.countP_append, List.countP_append, same j (Nat.le_refl _)]
      simp [hf, hg]
    | succ M ih =>
      rw [← Nat.add_assoc, List.range_succ, List.countP_append, List.countP_append, ← ih]
      simp only [List.countP_cons, List.countP_nil, h (j + 1 + M) (by omega)]
      omega
  have e : N = j + 1 + (N - (j + 1)) := by omega
  rw [e]
  exact this _

/-- What the arrival of an announcement does. -/
inductive MirrorStep (db : StdDB) (refs : Nat → ObjRef) (c : Byte) (d : Bytes) (s : Mesh) (k : Nat) (p : Packet) : Mesh → Prop
  | same (n : Node) (hn : s.nodes[p.dest]? = some n) (h : dataOf n (refs p.dest) c = some d) :
      MirrorStep db refs c d s k p ⟨s.nodes, s.air.eraseIdx k⟩
  | new (n n' : Node) (b : Bytes) (hn : s.nodes[p.dest]? = some n) (h : dataOf n (refs p.dest) c ≠ some d)
      (hb : Announced c d b) (hs : InService db n' (refs p.dest) c) (hd : dataOf n' (refs p.dest) c = some d)
      (ha : n'.addr = n.addr) :
      MirrorStep db refs c d s k p
        ⟨s.nodes.set p.dest n', s.air.eraseIdx k ++ (List.range s.nodes.length).map (fun j => ⟨j, n.addr, b⟩)⟩

theorem deliver_hears {db : StdDB} {refs : Nat → ObjRef} {c : Byte} {d : Bytes} (hd : d.length ≤ 255) {s : Mesh}
    (hs : Following db refs c d s) {k : Nat} {p : Packet} (hp : s.air[k]? = some p) :
    MirrorStep db refs c d s k p (s.step (fun i => mirror (refs i) c) db (.deliver k)) := by
  have hmem := List.mem_of_getElem? hp
  obtain ⟨n, hn⟩ : ∃ n, s.nodes[p.dest]? = some n := ⟨_, List.getElem?_eq_getElem (hs.dest p hmem)⟩
  have hann := hs.announced p hmem
  obtain ⟨x, hx, -⟩ := id hann
  have hstep : s.step (fun i => mirror (refs i) c) db (.deliver k)
      = Mesh.handle (fun i => mirror (refs i) c) db ⟨s.nodes, s.air.eraseIdx k⟩ p.dest n { x with src := p.src } := by
    simp only [Mesh.step]
    rw [hp]
    dsimp only
    rw [hn, hx]
  have hset : s.nodes.set p.dest n = s.nodes := by
    obtain ⟨hlt, e⟩ := List.getElem?_eq_some_iff.mp hn
    rw [← e]
    exact List.set_getElem_self hlt
  rw [hstep]
  unfold Mesh.handle
  by_cases hc : dataOf n (refs p.dest) c = some d
  · by_cases hi : Ignored n { x with src := p.src }
    · rw [mirror_own hi]
      dsimp only [Mesh.replyTo]
      rw [hset, List.flatMap_nil, List.append_nil, List.append_nil]
      exact .same n hn hc
    · obtain ⟨out, g1, g2, g3, g4⟩ := (mirror_hears (hs.service _ _ hn) hd hx hann p.src hi).1 hc
      dsimp only
      rw [g1]
      dsimp only [Mesh.replyTo]
      rw [g2, g3, g4, hset, List.flatMap_nil]
      cases out.error <;> (dsimp only; rw [List.append_nil, List.append_nil])
      all_goals exact .same n hn hc
  · have hi : ¬ Ignored n { x with src := p.src } := fun hi => hc (hs.source p hmem _ n hn hi.2.symm)
    obtain ⟨out, m, g1, g2, g3, g4, g5, g6, g7⟩ := (mirror_hears (hs.service _ _ hn) hd hx hann p.src hi).2 hc
    dsimp only
    rw [g1]
    dsimp only [Mesh.replyTo]
    rw [g2, g3]
    rw [List.flatMap_cons, List.flatMap_nil, List.append_nil]
    cases out.error <;> (dsimp only; rw [List.append_nil])
    all_goals exact .new n out.node m.bytes hn hc g4 g5 g6 g7

theorem apart_set {nodes : List Node} (h : Apart nodes) {j : Nat} {n n' : Node} (hn : nodes[j]? = some n)
    (ha : n'.addr = n.addr) : Apart (nodes.set j n') := by
  have hlt := (List.getElem?_eq_some_iff.mp hn).1
  have key : ∀ (i : Nat) (x : Node), (nodes.set j n')[i]? = some x → ∃ y, nodes[i]? = some y ∧ y.addr = x.addr := by
    intro i x hx
    by_cases e : j = i
    · subst e
      rw [List.getElem?_set_self hlt] at hx
      cases hx
      exact ⟨n, hn, ha.symm⟩
    · rw [List.getElem?_set_ne e] at hx
      exact ⟨x, hx, rfl⟩
  intro i i' x y hx hy hxy
  obtain ⟨x', hx', ex⟩ := key i x hx
  obtain ⟨y', hy', ey⟩ := key i' y hy
  exact h i i' x' y' hx' hy' (ex.trans (hxy.trans ey.symm))

/-- The node now announced from has the data; others have what they had. -/
theorem following_new {db : StdDB} {refs : Nat → ObjRef} {c : Byte} {d : Bytes} {s : Mesh} {air : List Packet}
    (hs : Following db refs c d ⟨s.nodes, air⟩) {j : Nat} {n n' : Node} {b : Bytes} (hn : s.nodes[j]? = some n)
    (hb : Announced c d b) (hi : InService db n' (refs j) c) (hd : dataOf n' (refs j) c = some d) (ha : n'.addr = n.addr) :
    Following db refs c d ⟨s.nodes.set j n', air ++ (List.range s.nodes.length).map (fun j => ⟨j, n.addr, b⟩)⟩ := by
  have hlt := (List.getElem?_eq_some_iff.mp hn).1
  have hnew : ∀ p ∈ (List.range s.nodes.length).map (fun j => (⟨j, n.addr, b⟩ : Packet)),
      p.dest < s.nodes.length ∧ p.src = n.addr ∧ p.data = b := by
    intro p hp
    obtain ⟨i, hi, rfl⟩ := List.mem_map.mp hp
    exact ⟨List.mem_range.mp hi, rfl, rfl⟩
  refine ⟨fun i x hx => ?_, apart_set hs.apart hn ha, fun p hp => ?_, fun p hp => ?_, fun p hp i x hx hax => ?_⟩
  · by_cases e : j = i
    · subst e
      rw [List.getElem?_set_self hlt] at hx
      cases hx
      exact hi
    · rw [List.getElem?_set_ne e] at hx
      exact hs.service i x hx
  · show p.dest < (s.nodes.set j n').length
    rw [List.length_set]
    rcases List.mem_append.mp hp with h | h
    · exact hs.dest p h
    · exact (hnew p h).1
  · rcases List.mem_append.mp hp with h | h
    · exact hs.announced p h
    · rw [(hnew p h).2.2]; exact hb
  · by_cases e : j = i
    · subst e
      rw [List.getElem?_set_self hlt] at hx
      cases hx
      exact hd
    · rw [List.getElem?_set_ne e] at hx
      rcases List.mem_append.mp hp with h | h
      · exact hs.source p h i x hx hax
      · exact absurd (hs.apart i j x n hx hn (hax.trans (hnew p h).2.1)) (Ne.symm e)

theorem following_fewer {db : StdDB} {refs : Nat → ObjRef} {c : Byte} {d : Bytes} {s : Mesh} (hs : Following db refs c d s)
    (k : Nat) : Following db refs c d ⟨s.nodes, s.air.eraseIdx k⟩ :=
  have h : ∀ p ∈ s.air.eraseIdx k, p ∈ s.air := fun _ hp => List.mem_of_mem_eraseIdx hp
  ⟨hs.service, hs.apart, fun p hp => hs.dest p (h p hp), fun p hp => hs.announced p (h p hp),
    fun p hp => hs.source p (h p hp)⟩

theorem dataAt_set {refs : Nat → ObjRef} {c : Byte} {nodes : List Node} {j : Nat} {n' : Node} (hj : j < nodes.length)
    (i : Nat) : dataAt refs c (nodes.set j n') i = if i = j then dataOf n' (refs j) c else dataAt refs c nodes i := by
  unfold dataAt
  split
  · next e => subst e; rw [List.getElem?_set_self hj]; rfl
  · next e => rw [List.getElem?_set_ne (Ne.symm e)]

/-- Each arrival makes the network quieter. -/
theorem hears_less {db : StdDB} {refs : Nat → ObjRef} {c : Byte} {d : Bytes} {s s' : Mesh} (hs : Following db refs c d s)
    {k : Nat} {p : Packet} (hp : s.air[k]? = some p) (h : MirrorStep db refs c d s k p s') :
    Following db refs c d s' ∧ s'.nodes.length = s.nodes.length ∧
    s'.air.length + s.nodes.length * behind refs c d s'.nodes + 1
      = s.air.length + s.nodes.length * behind refs c d s.nodes := by
  have hk : k < s.air.length := (List.getElem?_eq_some_iff.mp hp).1
  cases h with
  | same n hn hc =>
    refine ⟨following_fewer hs k, rfl, ?_⟩
    show (s.air.eraseIdx k).length + s.nodes.length * behind refs c d s.nodes + 1 = _
    rw [List.length_eraseIdx_of_lt hk]
    omega
  | new n n' b hn hc hb hi hd ha =>
    have hlt := (List.getElem?_eq_some_iff.mp hn).1
    refine ⟨following_new (following_fewer hs k) hn hb hi hd ha, List.length_set, ?_⟩
    have hone : behind refs c d (s.nodes.set p.dest n') + 1 = behind refs c d s.nodes := by
      unfold behind
      rw [List.length_set]
      refine countP_one _ _ _ p.dest hlt ?_ ?_ (fun i hne => ?_)
      · rw [decide_eq_true_eq]
        unfold dataAt
        rw [hn]
        exact hc
      · rw [dataAt_set hlt, if_pos rfl, hd]
        simp
      · rw [dataAt_set hlt, if_neg hne]
    show (s.air.eraseIdx k ++ (List.range s.nodes.length).map _).length +
      s.nodes.length * behind refs c d (s.nodes.set p.dest n') + 1 = _
    rw [← hone, List.length_append, List.length_map, List.length_range, List.length_eraseIdx_of_lt hk, Nat.mul_add]
    omega

/-- Nodes with other data have an announcement of another node on its way to them. -/
def Coming (refs : Nat → ObjRef) (c : Byte) (d : Bytes) (s : Mesh) : Prop :=
  ∀ i, i < s.nodes.length → dataAt refs c s.nodes i = some d ∨ ∃ p ∈ s.air, p.dest = i

theorem hears_coming {db : StdDB} {refs : Nat → ObjRef} {c : Byte} {d : Bytes} {s s' : Mesh} {k : Nat} {p : Packet}
    (hp : s.air[k]? = some p) (h : MirrorStep db refs c d s k p s') (hc : Coming refs c d s) : Coming refs c d s' := by
  have stay : ∀ q ∈ s.air, q.dest ≠ p.dest → q ∈ s.air.eraseIdx k := by
    intro q hq hne
    obtain ⟨j, hj⟩ := List.mem_iff_getElem?.mp hq
    have hjk : j ≠ k := by
      rintro rfl
      rw [hj] at hp
      cases hp
      exact hne rfl
    rw [List.mem_iff_getElem?]
    by_cases hl : j < k
    · exact ⟨j, by rw [List.getElem?_eraseIdx_of_lt hl, hj]⟩
    · refine ⟨j - 1, ?_⟩
      rw [List.getElem?_eraseIdx_of_ge (by omega), Nat.sub_add_cancel (by omega), hj]
  cases h with
  | same n hn hd =>
    intro i hi
    by_cases e : i = p.dest
    · left
      subst e
      unfold dataAt
      rw [hn]
      exact hd
    · rcases hc i hi with h | ⟨q, hq, he⟩
      · exact .inl h
      · exact .inr ⟨q, stay q hq (by rw [he]; exact e), he⟩
  | new n n' b hn hne hb hs hd ha =>
    have hlt := (List.getElem?_eq_some_iff.mp hn).1
    intro i hi
    show dataAt refs c (s.nodes.set p.dest n') i = _ ∨ _
    rw [dataAt_set hlt]
    by_cases e : i = p.dest
    · left; rw [if_pos e, hd]
    · rw [if_neg e]
      rcases hc i (by rw [← List.length_set]; exact hi) with h | ⟨q, hq, he⟩
      · exact .inl h
      · exact .inr ⟨q, List.mem_append_left _ (stay q hq (by rw [he]; exact e)), he⟩

/-- The state after the write. -/
theorem written_following {db : StdDB} {refs : Nat → ObjRef} {c : Byte} {d : Bytes} (hd : d.length ≤ 255) {nodes : List Node}
    (hs : ∀ (i : Nat) (n : Node), nodes[i]? = some n → InService db n (refs i) c) (ha : Apart nodes) {i : Nat}
    (hi : i < nodes.length) :
    let s := (⟨nodes, []⟩ : Mesh).call db i (.obj (refs i) (.write c d))
    Following db refs c d s ∧ s.nodes.length = nodes.length ∧ s.air.length = nodes.length ∧ Coming refs c d s ∧
      behind refs c d s.nodes + 1 ≤ nodes.length := by
  obtain ⟨n, hn⟩ : ∃ n, nodes[i]? = some n := ⟨_, List.getElem?_eq_getElem hi⟩
  obtain ⟨m, w1, w2, w3, w4, w5⟩ := write_announces (hs i n hn) d hd
  have e : (⟨nodes, []⟩ : Mesh).call db i (.obj (refs i) (.write c d))
      = ⟨nodes.set i ((NodeOp.obj (refs i) (.write c d)).run db n).1,
        [] ++ (List.range nodes.length).map (fun j => (⟨j, n.addr, m.bytes⟩ : Packet))⟩ := by
    unfold Mesh.call
    dsimp only
    rw [hn]
    dsimp only
    rw [w1, List.flatMap_cons, List.flatMap_nil, List.append_nil]
    rfl
  dsimp only
  rw [e]
  have h0 : Following db refs c d ⟨nodes, []⟩ :=
    ⟨hs, ha, (fun p hp => nomatch hp), (fun p hp => nomatch hp), (fun p hp => nomatch hp)⟩
  refine ⟨following_new (s := ⟨nodes, []⟩) h0 hn w2 w3 w4 w5, List.length_set, by simp, fun j hj => ?_, ?_⟩
  · right
    refine ⟨⟨j, n.addr, m.bytes⟩, ?_, rfl⟩
    rw [List.nil_append]
    exact List.mem_map.mpr ⟨j, List.mem_range.mpr (by rw [← List.length_set]; exact hj), rfl⟩
  · unfold behind
    rw [List.length_set]
    generalize hf : (fun j => decide (dataAt refs c (nodes.set i ((NodeOp.obj (refs i) (.write c d)).run db n).1) j ≠ some d)) = f
    have hfi : f i = false := by
      rw [← hf]
      dsimp only
      rw [dataAt_set hi, if_pos rfl, w4]
      simp
    have := countP_one (fun j => if j = i then true else f j) f nodes.length i hi (if_pos rfl) hfi
      (fun j hj => (if_neg hj).symm)
    rw [this]
    exact Nat.le_trans List.countP_le_length (by rw [List.length_range]; exact Nat.le_refl _)

theorem run_following {db : StdDB} {refs : Nat → ObjRef} {c : Byte} {d : Bytes} (hd : d.length ≤ 255) (acts : List MeshAct) :
    ∀ s : Mesh, Following db refs c d s →
      (∀ t a, acts[t]? = some a → Happens (s.run (fun i => mirror (refs i) c) db (acts.take t)) a) →
      Following db refs c d (s.run (fun i => mirror (refs i) c) db acts) ∧
      (s.run (fun i => mirror (refs i) c) db acts).nodes.length = s.nodes.length ∧
      (s.run (fun i => mirror (refs i) c) db acts).air.length + acts.length ≤
        s.air.length + s.nodes.length * behind refs c d s.nodes ∧
      ((∀ a ∈ acts, ∃ k, a = .deliver k) → Coming refs c d s →
        Coming refs c d (s.run (fun i => mirror (refs i) c) db acts)) := by
  suffices key : ∀ s : Mesh, Following db refs c d s →
      (∀ t a, acts[t]? = some a → Happens (s.run (fun i => mirror (refs i) c) db (acts.take t)) a) →
      Following db refs c d (s.run (fun i => mirror (refs i) c) db acts) ∧
      (s.run (fun i => mirror (refs i) c) db acts).nodes.length = s.nodes.length ∧
      (s.run (fun i => mirror (refs i) c) db acts).air.length + acts.length +
        s.nodes.length * behind refs c d (s.run (fun i => mirror (refs i) c) db acts).nodes ≤
        s.air.length + s.nodes.length * behind refs c d s.nodes ∧
      ((∀ a ∈ acts, ∃ k, a = .deliver k) → Coming refs c d s →
        Coming refs c d (s.run (fun i => mirror (refs i) c) db acts)) by
    intro s h1 h2
    obtain ⟨k1, k2, k3, k4⟩ := key s h1 h2
    exact ⟨k1, k2, by omega, k4⟩
  induction acts with
  | nil => intro s hs _; exact ⟨hs, rfl, Nat.le_refl _, fun _ h => h⟩
  | cons a acts ih =>
    intro s hs hh
    have h0 : Happens s a := hh 0 a rfl
    have next : Following db refs c d (s.step (fun i => mirror (refs i) c) db a) ∧
        (s.step (fun i => mirror (refs i) c) db a).nodes.length = s.nodes.length ∧
        (s.step (fun i => mirror (refs i) c) db a).air.length +
          s.nodes.length * behind refs c d (s.step (fun i => mirror (refs i) c) db a).nodes + 1
          = s.air.length + s.nodes.length * behind refs c d s.nodes ∧
        ((∃ k, a = .deliver k) → Coming refs c d s → Coming refs c d (s.step (fun i => mirror (refs i) c) db a)) := by
      cases a with
      | deliver k =>
        have hp := List.getElem?_eq_getElem (show k < s.air.length from h0)
        have h := deliver_hears hd hs hp
        obtain ⟨n1, n2, n3⟩ := hears_less hs hp h
        exact ⟨n1, n2, n3, fun _ hc => hears_coming hp h hc⟩
      | lose k =>
        refine ⟨following_fewer hs k, rfl, ?_, fun h => by obtain ⟨_, h⟩ := h; cases h⟩
        show (s.air.eraseIdx k).length + _ + 1 = _
        have h0 : k < s.air.length := h0
        rw [List.length_eraseIdx_of_lt h0]
        show s.air.length - 1 + s.nodes.length * behind refs c d s.nodes + 1 = _
        omega
    obtain ⟨n1, n2, n3, n4⟩ := next
    obtain ⟨k1, k2, k3, k4⟩ := ih _ n1 (fun t b hb => hh (t + 1) b hb)
    refine ⟨k1, k2.trans n2, ?_, fun hall hc => ?_⟩
    · rw [n2] at k3
      change ((s.step (fun i => mirror (refs i) c) db a).run (fun i => mirror (refs i) c) db acts).air.length
        + (acts.length + 1) + s.nodes.length * behind refs c d
          ((s.step (fun i => mirror (refs i) c) db a).run (fun i => mirror (refs i) c) db acts).nodes ≤ _
      omega
    · exact k4 (fun b hb => hall b (List.mem_cons_of_mem _ hb)) (n4 (hall a List.mem_cons_self) hc)

/-- C174, part: any number of nodes in service, with any data, and nothing on its way. One of them is written. Whatever
arrives in whatever order, and whatever is lost, at most as many messages arrive or are lost as the square of the number of
nodes. If none is lost, then all nodes have the data once none is on its way. -/
theorem C174_agree_partial (db : StdDB) (nodes : List Node) (refs : Nat → ObjRef) (c : Byte) (d : Bytes)
    (hd : d.length ≤ 255) (hs : ∀ (i : Nat) (n : Node), nodes[i]? = some n → InService db n (refs i) c)
    (ha : Apart nodes) (i : Nat) (hi : i < nodes.length) (acts : List MeshAct) :
    let envs : Nat → Env := fun i => mirror (refs i) c
    let s := (⟨nodes, []⟩ : Mesh).call db i (.obj (refs i) (.write c d))
    (∀ t a, acts[t]? = some a → Happens (s.run envs db (acts.take t)) a) →
    acts.length + (s.run envs db acts).air.length ≤ nodes.length * nodes.length ∧
    ((∀ a ∈ acts, ∃ k, a = .deliver k) → (s.run envs db acts).air = [] →
      ∀ (j : Nat) (n : Node), (s.run envs db acts).nodes[j]? = some n → dataOf n (refs j) c = some d) := by
  intro envs s hh
  obtain ⟨h1, h2, h3, h4, h5⟩ := written_following hd hs ha hi
  obtain ⟨k1, k2, k3, k4⟩ := run_following hd acts _ h1 hh
  have h2 : s.nodes.length = nodes.length := h2
  have h3 : s.air.length = nodes.length := h3
  have h5 : behind refs c d s.nodes + 1 ≤ nodes.length := h5
  constructor
  · have k3 : (s.run envs db acts).air.length + acts.length ≤ s.air.length + s.nodes.length * behind refs c d s.nodes := k3
    rw [h2, h3] at k3
    have := Nat.mul_le_mul_left nodes.length h5
    rw [Nat.mul_add] at this
    omega
  · intro hall hair j n hn
    have hlt := (List.getElem?_eq_some_iff.mp hn).1
    rcases k4 hall h4 j hlt with h | ⟨p, hp, -⟩
    · unfold dataAt at h
      have hn : (Mesh.run (fun i => mirror (refs i) c) db ((⟨nodes, []⟩ : Mesh).call db i (.obj (refs i) (.write c d))) acts).nodes[j]?
        = some n := hn
      rw [hn] at h
      exact h
    · have hair : (Mesh.run (fun i => mirror (refs i) c) db ((⟨nodes, []⟩ : Mesh).call db i (.obj (refs i) (.write c d))) acts).air
        = [] := hair
      rw [hair] at hp
      cases hp

/-- C174, part: a network that delivers all messages comes to this end, in whatever order it picks them. -/
theorem C174_rest_partial (db : StdDB) (nodes : List Node) (refs : Nat → ObjRef) (c : Byte) (d : Bytes)
    (hd : d.length ≤ 255) (hs : ∀ (i : Nat) (n : Node), nodes[i]? = some n → InService db n (refs i) c)
    (ha : Apart nodes) (i : Nat) (hi : i < nodes.length) (pick : Mesh → Nat)
    (hpick : ∀ s : Mesh, s.air ≠ [] → pick s < s.air.length) :
    let envs : Nat → Env := fun i => mirror (refs i) c
    let after : Nat → Mesh := Nat.rec ((⟨nodes, []⟩ : Mesh).call db i (.obj (refs i) (.write c d)))
      (fun _ s => s.step envs db (.deliver (pick s)))
    ∃ t ≤ nodes.length * nodes.length, (after t).air = [] ∧
      ∀ (j : Nat) (n : Node), (after t).nodes[j]? = some n → dataOf n (refs j) c = some d := by
  intro envs after
  obtain ⟨h1, h2, h3, h4, h5⟩ := written_following hd hs ha hi
  -- as long as something is on its way, the network gets quieter
  have key : ∀ t, (∃ u ≤ t, (after u).air = [] ∧ Following db refs c d (after u) ∧ Coming refs c d (after u)) ∨
      (Following db refs c d (after t) ∧ Coming refs c d (after t) ∧ (after t).nodes.length = nodes.length ∧
        (after t).air.length + nodes.length * behind refs c d (after t).nodes + t ≤ nodes.length * nodes.length) := by
    intro t
    induction t with
    | zero =>
      refine .inr ⟨h1, h4, h2, ?_⟩
      have h3 : (after 0).air.length = nodes.length := h3
      have h5 : behind refs c d (after 0).nodes + 1 ≤ nodes.length := h5
      have := Nat.mul_le_mul_left nodes.length h5
      rw [Nat.mul_add] at this
      omega
    | succ t ih =>
      rcases ih with ⟨u, hu, h⟩ | ⟨k1, k2, k3, k4⟩
      · exact .inl ⟨u, by omega, h⟩
      · by_cases he : (after t).air = []
        · exact .inl ⟨t, by omega, he, k1, k2⟩
        · right
          have hp := List.getElem?_eq_getElem (hpick (after t) he)
          have h := deliver_hears hd k1 hp
          obtain ⟨n1, n2, n3⟩ := hears_less k1 hp h
          refine ⟨n1, hears_coming hp h k2, n2.trans k3, ?_⟩
          have n3 : (after (t + 1)).air.length + (after t).nodes.length * behind refs c d (after (t + 1)).nodes + 1 = _ := n3
          rw [k3] at n3
          omega
  have fin : ∃ u ≤ nodes.length * nodes.length, (after u).air = [] ∧ Following db refs c d (after u) ∧
      Coming refs c d (after u) := by
    rcases key (nodes.length * nodes.length) with h | ⟨k1, k2, -, k4⟩
    · exact h
    · exact ⟨_, Nat.le_refl _, List.length_eq_zero_iff.mp (by omega), k1, k2⟩
  obtain ⟨u, hu, he, -, hc⟩ := fin
  refine ⟨u, hu, he, fun j n hn => ?_⟩
  rcases hc j (List.getElem?_eq_some_iff.mp hn).1 with h | ⟨p, hp, -⟩
  · unfold dataAt at h
    rw [hn] at h
    exact h
  · rw [he] at hp
    cases hp

/-! ## Two writes at the same time -/

/-- An order of arrival: announcements reach the node that made them first, then the other node. -/
def crossing (t : Nat) : MeshAct := .deliver (([0, 2, 0, 0, 1, 1, 0, 0] : List Nat).getD (t % 8) 0)

/-- A node takes the data the other announces. -/
theorem mirror_takes {db : StdDB} {refs : Nat → ObjRef} {c : Byte} {nodes : List Node} {air : List Packet} {i : Nat} {n : Node}
    {d b : Bytes} {src : Addr} {k : Nat} (hk : air[k]? = some ⟨i, src, b⟩) (hd : d.length ≤ 255) (hn : nodes[i]? = some n)
    (h : InService db n (refs i) c) (hb : Announced c d b) (hsrc : src ≠ n.addr) (hne : dataOf n (refs i) c ≠ some d) :
    ∃ n' b', (⟨nodes, air⟩ : Mesh).step (fun i => mirror (refs i) c) db (.deliver k)
        = ⟨nodes.set i n', air.eraseIdx k ++ (List.range nodes.length).map (fun j => ⟨j, n.addr, b'⟩)⟩ ∧
      Announced c d b' ∧ InService db n' (refs i) c ∧ dataOf n' (refs i) c = some d ∧ n'.addr = n.addr := by
  obtain ⟨x, hx, -⟩ := id hb
  obtain ⟨out, m, g1, g2, g3, g4, g5, g6, g7⟩ := (mirror_hears h hd hx hb src (fun hi => hsrc hi.2)).2 hne
  refine ⟨out.node, m.bytes, ?_, g4, g5, g6, g7⟩
  simp only [Mesh.step]
  rw [hk]
  dsimp only
  rw [hn, hx]
  dsimp only
  unfold Mesh.handle
  dsimp only
  rw [g1]
  dsimp only [Mesh.replyTo]
  rw [g2, g3, List.flatMap_cons, List.flatMap_nil, List.append_nil]
  cases out.error <;> (dsimp only; rw [List.append_nil]; rfl)

/-- A node that has the data announced does nothing. -/
theorem mirror_drops {db : StdDB} {refs : Nat → ObjRef} {c : Byte} {nodes : List Node} {air : List Packet} {i : Nat} {n : Node}
    {d b : Bytes} {src : Addr} {k : Nat} (hk : air[k]? = some ⟨i, src, b⟩) (hd : d.length ≤ 255) (hn : nodes[i]? = some n)
    (h : InService db n (refs i) c) (hb : Announced c d b) (heq : dataOf n (refs i) c = some d) :
    (⟨nodes, air⟩ : Mesh).step (fun i => mirror (refs i) c) db (.deliver k) = ⟨nodes, air.eraseIdx k⟩ := by
  obtain ⟨x, hx, -⟩ := id hb
  have hset : nodes.set i n = nodes := by
    obtain ⟨hlt, e⟩ := List.getElem?_eq_some_iff.mp hn
    rw [← e]
    exact List.set_getElem_self hlt
  simp only [Mesh.step]
  rw [hk]
  dsimp only
  rw [hn, hx]
  dsimp only
  unfold Mesh.handle
  by_cases hi : Ignored n { x with src := src }
  · rw [mirror_own hi]
    dsimp only [Mesh.replyTo]
    rw [hset, List.flatMap_nil, List.append_nil, List.append_nil]
  · obtain ⟨out, g1, g2, g3, g4⟩ := (mirror_hears h hd hx hb src hi).1 heq
    dsimp only
    rw [g1]
    dsimp only [Mesh.replyTo]
    rw [g2, g3, g4, hset, List.flatMap_nil]
    cases out.error <;> (dsimp only; rw [List.append_nil, List.append_nil])

/-- A write that is announced. -/
theorem call_casts {db : StdDB} {nodes : List Node} {air : List Packet} {i : Nat} {n : Node} {op : NodeOp} {m : Message}
    (hn : nodes[i]? = some n) (h : (op.run db n).2 = [.multicast m]) :
    (⟨nodes, air⟩ : Mesh).call db i op
      = ⟨nodes.set i (op.run db n).1, air ++ (List.range nodes.length).map (fun j => ⟨j, n.addr, m.bytes⟩)⟩ := by
  unfold Mesh.call
  dsimp only
  rw [hn]
  dsimp only
  rw [h, List.flatMap_cons, List.flatMap_nil, List.append_nil]
  rfl

/-- Two nodes with different data; the announcements of both are on their way. -/
def Crossed (db : StdDB) (refs : Nat → ObjRef) (c : Byte) (d e : Bytes) (a b : Addr) (even : Prop) [Decidable even] (s : Mesh) :
    Prop :=
  ∃ A B x y, s = ⟨[A, B], if even then [⟨0, a, x⟩, ⟨1, a, x⟩, ⟨0, b, y⟩, ⟨1, b, y⟩]
      else [⟨0, b, y⟩, ⟨1, b, y⟩, ⟨0, a, x⟩, ⟨1, a, x⟩]⟩ ∧
    InService db A (refs 0) c ∧ InService db B (refs 1) c ∧ A.addr = a ∧ B.addr = b ∧
    dataOf A (refs 0) c = some (if even then d else e) ∧
    dataOf B (refs 1) c = some (if even then e else d) ∧ Announced c (if even then d else e) x ∧
    Announced c (if even then e else d) y

/-- The nodes swap their data. -/
theorem crossed_on {db : StdDB} {refs : Nat → ObjRef} {c : Byte} {d e : Bytes} {a b : Addr} (hd : d.length ≤ 255)
    (he : e.length ≤ 255) (hde : d ≠ e) (hab : a ≠ b) {q : Nat} {s0 : Mesh} (h0 : Crossed db refs c d e a b (q % 2 = 0) s0) :
    ∀ k, Crossed db refs c d e a b ((q + k) % 2 = 0)
      (s0.runFor (fun i => mirror (refs i) c) db (fun t => crossing (4 * q + t)) (4 * k)) := by
  let envs : Nat → Env := fun i => mirror (refs i) c
  have hrun : ∀ (s : Mesh) (f : Nat → MeshAct) (t : Nat), s.runFor envs db f (t + 1) = (s.runFor envs db f t).step envs db (f t) := by
    intro s f t
    unfold Mesh.runFor Mesh.run
    rw [List.range_succ, List.map_append, List.foldl_append]
    rfl
  have hcr : ∀ t u k, t % 8 = u → ([0, 2, 0, 0, 1, 1, 0, 0] : List Nat).getD u 0 = k → crossing t = .deliver k := by
    intro t u k h1 h2
    unfold crossing
    rw [h1, h2]
  intro k
  show Crossed db refs c d e a b ((q + k) % 2 = 0) (s0.runFor envs db (fun t => crossing (4 * q + t)) (4 * k))
  induction k with
  | zero => exact h0
  | succ k ih =>
    obtain ⟨A, B, x, y, h1, h2, h3, h4, h5, h8, h9, h10, h11⟩ := ih
    unfold Crossed
    rw [show 4 * (k + 1) = 4 * k + 1 + 1 + 1 + 1 by omega, hrun, hrun, hrun, hrun, h1]
    by_cases hk : (q + k) % 2 = 0
    · have hk' : ¬ (q + (k + 1)) % 2 = 0 := by omega
      rw [if_pos hk] at h8 h9 h10 h11
      simp only [if_pos hk, if_neg hk']
      rw [hcr (4 * q + (4 * k)) 0 0 (by omega) rfl, hcr (4 * q + (4 * k + 1)) 1 2 (by omega) rfl, hcr (4 * q + (4 * k + 1 + 1)) 2 0 (by omega) rfl,
        hcr (4 * q + (4 * k + 1 + 1 + 1)) 3 0 (by omega) rfl, ← h4, ← h5]
      have t1 := mirror_drops (db := db) (refs := refs) (nodes := [A, B]) (i := 0) (k := 0)
        (air := [⟨0, A.addr, x⟩, ⟨1, A.addr, x⟩, ⟨0, B.addr, y⟩, ⟨1, B.addr, y⟩]) rfl hd rfl h2 h10 h8
      have t2 := mirror_drops (db := db) (refs := refs) (nodes := [A, B]) (i := 1) (k := 2)
        (air := [⟨1, A.addr, x⟩, ⟨0, B.addr, y⟩, ⟨1, B.addr, y⟩]) rfl he rfl h3 h11 h9
      obtain ⟨B', x', t3, b1, b2, b3, b4⟩ := mirror_takes (db := db) (refs := refs) (nodes := [A, B]) (i := 1) (k := 0)
        (air := [⟨1, A.addr, x⟩, ⟨0, B.addr, y⟩]) rfl hd rfl h3 h10 (by rw [h4, h5]; exact hab)
        (by rw [h9]; exact fun q => hde (Option.some.inj q).symm)
      obtain ⟨A', y', t4, a1, a2, a3, a4⟩ := mirror_takes (db := db) (refs := refs) (nodes := [A, B']) (i := 0) (k := 0)
        (air := [⟨0, B.addr, y⟩, ⟨0, B.addr, x'⟩, ⟨1, B.addr, x'⟩]) rfl he rfl h2 h11
        (by rw [h4, h5]; exact Ne.symm hab) (by rw [h8]; exact fun q => hde (Option.some.inj q))
      refine ⟨A', B', y', x', ?_, a2, b2, a4, b4, a3, b3, a1, b1⟩
      exact (congrArg (fun s => Mesh.step envs db (Mesh.step envs db (Mesh.step envs db s (.deliver 2)) (.deliver 0)) (.deliver 0))
        t1).trans ((congrArg (fun s => Mesh.step envs db (Mesh.step envs db s (.deliver 0)) (.deliver 0)) t2).trans
        ((congrArg (fun s => Mesh.step envs db s (.deliver 0)) t3).trans t4))
    · have hk' : (q + (k + 1)) % 2 = 0 := by omega
      rw [if_neg hk] at h8 h9 h10 h11
      simp only [if_neg hk, if_pos hk']
      rw [hcr (4 * q + (4 * k)) 4 1 (by omega) rfl, hcr (4 * q + (4 * k + 1)) 5 1 (by omega) rfl, hcr (4 * q + (4 * k + 1 + 1)) 6 0 (by omega) rfl,
        hcr (4 * q + (4 * k + 1 + 1 + 1)) 7 0 (by omega) rfl, ← h4, ← h5]
      have t1 := mirror_drops (db := db) (refs := refs) (nodes := [A, B]) (i := 1) (k := 1)
        (air := [⟨0, B.addr, y⟩, ⟨1, B.addr, y⟩, ⟨0, A.addr, x⟩, ⟨1, A.addr, x⟩]) rfl hd rfl h3 h11 h9
      have t2 := mirror_drops (db := db) (refs := refs) (nodes := [A, B]) (i := 0) (k := 1)
        (air := [⟨0, B.addr, y⟩, ⟨0, A.addr, x⟩, ⟨1, A.addr, x⟩]) rfl he rfl h2 h10 h8
      obtain ⟨A', y', t3, a1, a2, a3, a4⟩ := mirror_takes (db := db) (refs := refs) (nodes := [A, B]) (i := 0) (k := 0)
        (air := [⟨0, B.addr, y⟩, ⟨1, A.addr, x⟩]) rfl hd rfl h2 h11
        (by rw [h4, h5]; exact Ne.symm hab) (by rw [h8]; exact fun q => hde (Option.some.inj q).symm)
      obtain ⟨B', x', t4, b1, b2, b3, b4⟩ := mirror_takes (db := db) (refs := refs) (nodes := [A', B]) (i := 1) (k := 0)
        (air := [⟨1, A.addr, x⟩, ⟨0, A.addr, y'⟩, ⟨1, A.addr, y'⟩]) rfl he rfl h3 h10 (by rw [h4, h5]; exact hab)
        (by rw [h9]; exact fun q => hde (Option.some.inj q))
      refine ⟨A', B', y', x', ?_, a2, b2, a4, b4, a3, b3, a1, b1⟩
      exact (congrArg (fun s => Mesh.step envs db (Mesh.step envs db (Mesh.step envs db s (.deliver 1)) (.deliver 0)) (.deliver 0))
        t1).trans ((congrArg (fun s => Mesh.step envs db (Mesh.step envs db s (.deliver 0)) (.deliver 0)) t2).trans
        ((congrArg (fun s => Mesh.step envs db s (.deliver 0)) t3).trans t4))

theorem crossed_shows {db : StdDB} {refs : Nat → ObjRef} {c : Byte} {d e : Bytes} {a b : Addr} {even : Prop} [Decidable even]
    {s : Mesh} (h : Crossed db refs c d e a b even s) :
    ∃ A B, s.nodes = [A, B] ∧
      dataOf A (refs 0) c = some (if even then d else e) ∧ dataOf B (refs 1) c = some (if even then e else d) ∧
      s.air.length = 4 ∧ ∀ p ∈ s.air, (p.src = a ∧ Announced c (if even then d else e) p.data) ∨
        (p.src = b ∧ Announced c (if even then e else d) p.data) := by
  obtain ⟨A, B, x, y, rfl, h2, h3, h4, h5, h8, h9, h10, h11⟩ := h
  refine ⟨A, B, rfl, h8, h9, ?_⟩
  dsimp only
  split
  · next hk =>
    rw [if_pos hk] at h10 h11
    refine ⟨rfl, fun p hp => ?_⟩
    simp only [List.mem_cons, List.not_mem_nil, or_false] at hp
    rcases hp with rfl | rfl | rfl | rfl
    · exact .inl ⟨rfl, h10⟩
    · exact .inl ⟨rfl, h10⟩
    · exact .inr ⟨rfl, h11⟩
    · exact .inr ⟨rfl, h11⟩
  · next hk =>
    rw [if_neg hk] at h10 h11
    refine ⟨rfl, fun p hp => ?_⟩
    simp only [List.mem_cons, List.not_mem_nil, or_false] at hp
    rcases hp with rfl | rfl | rfl | rfl
    · exact .inr ⟨rfl, h11⟩
    · exact .inr ⟨rfl, h11⟩
    · exact .inl ⟨rfl, h10⟩
    · exact .inl ⟨rfl, h10⟩


/-- C174 fails: two nodes whose programs keep a property equal are written at the same time, with different data. The
network loses nothing, and delivers within four messages whatever is on its way. After every four messages each node has the
data the other had, and each has announced it again: this goes on for ever. -/
theorem C174_refuted (db : StdDB) (a b : Node) (refs : Nat → ObjRef) (c : Byte) (d e : Bytes) (hd : d.length ≤ 255)
    (he : e.length ≤ 255) (hde : d ≠ e) (ha : InService db a (refs 0) c) (hb : InService db b (refs 1) c)
    (hab : a.addr ≠ b.addr) (k : Nat) :
    let envs : Nat → Env := fun i => mirror (refs i) c
    let s := (((⟨[a, b], []⟩ : Mesh).call db 0 (.obj (refs 0) (.write c d))).call db 1 (.obj (refs 1) (.write c e))).runFor
      envs db crossing (4 * k)
    ∃ A B, s.nodes = [A, B] ∧
      dataOf A (refs 0) c = some (if k % 2 = 0 then d else e) ∧ dataOf B (refs 1) c = some (if k % 2 = 0 then e else d) ∧
      s.air.length = 4 ∧ ∀ p ∈ s.air, (p.src = a.addr ∧ Announced c (if k % 2 = 0 then d else e) p.data) ∨
        (p.src = b.addr ∧ Announced c (if k % 2 = 0 then e else d) p.data) := by
  intro envs
  have h0 : Crossed db refs c d e a.addr b.addr (0 % 2 = 0)
      (((⟨[a, b], []⟩ : Mesh).call db 0 (.obj (refs 0) (.write c d))).call db 1 (.obj (refs 1) (.write c e))) := by
    obtain ⟨m, w1, w2, w3, w4, w5⟩ := write_announces ha d hd
    obtain ⟨m', v1, v2, v3, v4, v5⟩ := write_announces hb e he
    refine ⟨_, _, m.bytes, m'.bytes, ?_, w3, v3, w5, v5, w4, v4, w2, v2⟩
    rw [call_casts (nodes := [a, b]) (air := []) (i := 0) rfl w1]
    show Mesh.call db ⟨[((NodeOp.obj (refs 0) (.write c d)).run db a).1, b], [⟨0, a.addr, m.bytes⟩, ⟨1, a.addr, m.bytes⟩]⟩ 1 _ = _
    rw [call_casts (i := 1) rfl v1]
    rfl
  have := crossed_shows (crossed_on hd he hde hab h0 k)
  simp only [Nat.zero_add, Nat.mul_zero] at this
  exact this

/-- C174 fails: one of the nodes is written once, all messages arrive but the last one, with which the other node announces
the data it took. Then the first node is written again, with other data. After every four messages each node has the data the
other had, for ever. -/
theorem C174_refuted_twice (db : StdDB) (a b : Node) (refs : Nat → ObjRef) (c : Byte) (d e : Bytes) (hd : d.length ≤ 255)
    (he : e.length ≤ 255) (hde : d ≠ e) (ha : InService db a (refs 0) c) (hb : InService db b (refs 1) c)
    (hab : a.addr ≠ b.addr) (hbd : dataOf b (refs 1) c ≠ some d) (k : Nat) :
    let envs : Nat → Env := fun i => mirror (refs i) c
    let s := ((((⟨[a, b], []⟩ : Mesh).call db 0 (.obj (refs 0) (.write c d))).run envs db [.deliver 0, .deliver 0]).call db 0
      (.obj (refs 0) (.write c e))).runFor envs db (fun t => crossing (4 + t)) (4 * k)
    ∃ A B, s.nodes = [A, B] ∧
      dataOf A (refs 0) c = some (if k % 2 = 0 then e else d) ∧ dataOf B (refs 1) c = some (if k % 2 = 0 then d else e) ∧
      s.air.length = 4 ∧ ∀ p ∈ s.air, (p.src = a.addr ∧ Announced c (if k % 2 = 0 then e else d) p.data) ∨
        (p.src = b.addr ∧ Announced c (if k % 2 = 0 then d else e) p.data) := by
  intro envs
  have h0 : Crossed db refs c d e a.addr b.addr (1 % 2 = 0)
      ((((⟨[a, b], []⟩ : Mesh).call db 0 (.obj (refs 0) (.write c d))).run envs db [.deliver 0, .deliver 0]).call db 0
        (.obj (refs 0) (.write c e))) := by
    obtain ⟨m, w1, w2, w3, w4, w5⟩ := write_announces ha d hd
    have t1 := mirror_drops (db := db) (refs := refs) (nodes := [((NodeOp.obj (refs 0) (.write c d)).run db a).1, b]) (i := 0)
      (k := 0) (air := [⟨0, a.addr, m.bytes⟩, ⟨1, a.addr, m.bytes⟩]) rfl hd rfl w3 w2 w4
    obtain ⟨B, x, t2, b1, b2, b3, b4⟩ := mirror_takes (db := db) (refs := refs)
      (nodes := [((NodeOp.obj (refs 0) (.write c d)).run db a).1, b]) (i := 1) (k := 0)
      (air := [⟨1, a.addr, m.bytes⟩]) rfl hd rfl hb w2 hab hbd
    have e1 : ((⟨[a, b], []⟩ : Mesh).call db 0 (.obj (refs 0) (.write c d))).run envs db [.deliver 0, .deliver 0]
        = ⟨[((NodeOp.obj (refs 0) (.write c d)).run db a).1, B], [⟨0, b.addr, x⟩, ⟨1, b.addr, x⟩]⟩ := by
      rw [call_casts (nodes := [a, b]) (air := []) (i := 0) rfl w1]
      exact (congrArg (fun s => Mesh.step envs db s (.deliver 0)) t1).trans t2
    rw [e1]
    obtain ⟨m', v1, v2, v3, v4, v5⟩ := write_announces w3 e he
    rw [call_casts (i := 0) rfl v1, w5]
    exact ⟨_, B, m'.bytes, x, rfl, v3, b2, v5.trans w5, b4, v4, b3, v2, b1⟩
  have := crossed_shows (crossed_on hd he hde hab h0 k)
  have sw : ∀ u v : Bytes, (if (1 + k) % 2 = 0 then u else v) = if k % 2 = 0 then v else u := by
    intro u v
    by_cases hk : k % 2 = 0
    · rw [if_pos hk, if_neg (by omega)]
    · rw [if_neg hk, if_pos (by omega)]
  simp only [sw, Nat.mul_one] at this
  exact this

/-! ## Examples -/

theorem two_apart {a b : Node} (hne : a.addr ≠ b.addr) : Apart [a, b] := by
  intro i j x y hx hy hxy
  match i, j with
  | 0, 0 => rfl
  | 1, 1 => rfl
  | 0, 1 => cases hx; cases hy; exact absurd hxy hne
  | 1, 0 => cases hx; cases hy; exact absurd hxy.symm hne
  | i + 2, _ => cases hx
  | 0, j + 2 => cases hy
  | 1, j + 2 => cases hy

theorem two_inService {db : StdDB} {a b : Node} {r : ObjRef} {c : Byte} (ha : InService db a r c) (hb : InService db b r c)
    (i : Nat) (n : Node) (hn : [a, b][i]? = some n) : InService db n r c := by
  match i with
  | 0 => cases hn; exact ha
  | 1 => cases hn; exact hb
  | i + 2 => cases hn

/-- Two devices that are kept equal: the hypotheses of all theorems hold. -/
example : (∀ (i : Nat) (n : Node), [firstNode, otherNode][i]? = some n → InService stdDB n (.device 0) 0x80) ∧
    Apart [firstNode, otherNode] ∧ firstNode.addr ≠ otherNode.addr ∧
    dataOf otherNode (.device 0) 0x80 ≠ some [0x31] :=
  have hne : firstNode.addr ≠ otherNode.addr := by decide +kernel
  ⟨two_inService firstNode_inService otherNode_inService, two_apart hne, hne, by decide +kernel⟩

/-- One write: the other node takes the data and announces it, and after four messages all is still. -/
example :
    let s := ((⟨[firstNode, otherNode], []⟩ : Mesh).call stdDB 0 (.obj (.device 0) (.write 0x80 [0x31]))).run
      (fun _ => mirror (.device 0) 0x80) stdDB [.deliver 1, .deliver 1, .deliver 0, .deliver 0]
    s.air = [] ∧ s.nodes.map (fun n => dataOf n (.device 0) 0x80) = [some [0x31], some [0x31]] := by
  decide +kernel

/-- Two writes: the nodes have swapped their data after four messages. -/
example :
    let s := (((⟨[firstNode, otherNode], []⟩ : Mesh).call stdDB 0 (.obj (.device 0) (.write 0x80 [0x31]))).call stdDB 1
      (.obj (.device 0) (.write 0x80 [0x30]))).runFor (fun _ => mirror (.device 0) 0x80) stdDB crossing 4
    s.air.length = 4 ∧ s.nodes.map (fun n => dataOf n (.device 0) 0x80) = [some [0x30], some [0x31]] := by
  decide +kernel

end Verif.Props
