import Verif.Props.Sequences

/-!
# C130: notifications that ask for a response

The sequence (E) of `doc/device_inside.md`: a node that is sent a notification which requires a response (INFC, 0x74)
answers with INFC_Res (0x7A). According to the ECHONET Lite specification (part 2, section 3.2.5) the answer names the
properties notified, without data.
-/

namespace Verif.Props
open Verif Model Spec Lemmas

theorem accepts_infc {n : Node} {m : Message} (he : m.esv = 0x74) {r : ObjRef} {o : Obj}
    (ho : Addressed n m.getDEOJ r o) : Accepts n m := by
  refine ⟨r, o, ho, by rw [he]; decide, fun h => ?_⟩
  rw [he] at h
  exact absurd h (by decide)

/-- **C130**, what holds: such a notification, whatever properties it holds, reaches the callbacks of the object
addressed with every property once and in order. Unless a callback fails, or takes the object away, it is answered by
INFC_Res with the same identifier, from the object addressed to the object that sent it. -/
theorem C130_partial (env : Env) (db : StdDB) (n : Node) (m : Message) (hm : Built m) (hi : ¬ Ignored n m)
    (he : m.esv = 0x74) (r : ObjRef) (o : Obj) (ho : Addressed n m.getDEOJ r o) :
    ∃ out rs, n.received env db m = .ok out ∧ out.calls = expectedCalls env r m ∧ Results env db n out rs ∧
      ((∀ e ∈ rs, e = none) → (∃ r' o', Addressed out.node m.getDEOJ r' o') →
        ∃ res, out.reply = some res ∧ res.esv = 0x7A ∧ res.getTID = m.getTID ∧ res.getSEOJ = m.getDEOJ ∧
          res.getDEOJ = m.getSEOJ) := by
  obtain ⟨out, rs, h1, h2, h3, -⟩ := received_accepted env db n m hi (accepts_infc he ho) r o ho
  refine ⟨out, rs, h1, h2, h3, ?_⟩
  rintro hne ⟨r', o', ho'⟩
  obtain ⟨res, k1, -, k2, k3, k4, k5, -, -⟩ := C35_response env db n m hm hi (accepts_infc he ho) out h1 rs h3 hne
    ⟨0x74, .notification, false, false, some 0x7A, none⟩ (by decide) he.symm 0x7A rfl r' o' ho'
  exact ⟨res, k1, k5, k2, k3, k4⟩

/-- **C130 refuted**: the answer does not name a property which the receiving object does not have itself, and holds for
the others the receiver's own data. -/
theorem C130_refuted (db : StdDB) (n : Node) (m : Message) (hm : Built m) (hi : ¬ Ignored n m) (he : m.esv = 0x74)
    (r : ObjRef) (o : Obj) (ho : Addressed n m.getDEOJ r o) (p : PProp) (hp : p ∈ properties m) :
    ∃ out res, n.received noEnv db m = .ok out ∧ out.reply = some res ∧ res.esv = 0x7A ∧
      (o.props.lookup p.code = none → ∀ d, some ⟨p.code, d⟩ ∉ res.ep) ∧
      (∀ q, o.props.lookup p.code = some q → some ⟨p.code, q.data⟩ ∈ res.ep) := by
  obtain ⟨out, res, h1, -, h3, h4, h5⟩ :=
    plain_answer db n m hm hi (accepts_infc he ho) (by rw [he]; decide) r o ho
  refine ⟨out, res, h1, h3, by rw [h4, he]; decide, fun hno d hd => ?_, fun q hq => ?_⟩
  · rw [h5] at hd
    obtain ⟨y, hy, e⟩ := List.mem_map.mp hd
    cases e
    obtain ⟨p', -, e⟩ := List.mem_filterMap.mp hy
    obtain ⟨q', hq', e⟩ := Option.map_eq_some_iff.mp e
    have ec : p'.code = p.code := (PProp.mk.inj e).1
    rw [ec, hno] at hq'
    cases hq'
  · rw [h5]
    exact List.mem_map.mpr ⟨_, List.mem_filterMap.mpr ⟨p, hp, by rw [hq]; rfl⟩, rfl⟩

/-- **C130 refuted**: the answer to a notification of properties none of which the receiving object has holds no
property at all. -/
theorem C130_refuted_empty (db : StdDB) (n : Node) (m : Message) (hm : Built m) (hi : ¬ Ignored n m) (he : m.esv = 0x74)
    (r : ObjRef) (o : Obj) (ho : Addressed n m.getDEOJ r o) (hno : ∀ p ∈ properties m, o.props.lookup p.code = none) :
    ∃ out res, n.received noEnv db m = .ok out ∧ out.reply = some res ∧ res.esv = 0x7A ∧ res.ep = [] := by
  obtain ⟨out, res, h1, -, h3, h4, h5⟩ :=
    plain_answer db n m hm hi (accepts_infc he ho) (by rw [he]; decide) r o ho
  refine ⟨out, res, h1, h3, by rw [h4, he]; decide, ?_⟩
  rw [h5, replyProps, List.map_eq_nil_iff, List.filterMap_eq_nil_iff]
  exact fun p hp => by rw [hno p hp]; rfl

/-- The node is told of `0xE0`, which its object does not have, and of `0x80`, which is `0x30` in its own. -/
example : observe (smallNode.received storingEnv stdDB (request 0x74 [⟨0xE0, [0x12]⟩, ⟨0x80, [0x31]⟩]))
      = some ([.message (request 0x74 [⟨0xE0, [0x12]⟩, ⟨0x80, [0x31]⟩]),
          .request (.device 0) 0x74 ⟨0xE0, [0x12]⟩, .request (.device 0) 0x74 ⟨0x80, [0x31]⟩],
        some (0x7A, [some ⟨0x80, [0x30]⟩])) ∧
    (observe (smallNode.received noEnv stdDB (request 0x74 [⟨0xE0, [0x12]⟩]))).bind (·.2) = some (0x7A, []) := by
  decide +kernel

end Verif.Props
