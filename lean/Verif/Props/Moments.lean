import Verif.Props.ServeOrder
import Verif.Props.Exchange

/-!
# C160: the moments a reply shows

While a message is answered the program and other messages may change the object: the reply is put together
one property after the other. So a reply need not show the object as it was at any one moment. What does hold
for every schedule: each property of the reply is what the object held at a moment after the message arrived
and before the reply was complete, and these moments are in the order of the properties.
-/

namespace Verif.Props
open Verif Model Spec Lemmas

/-- What there is after the first `k` steps of a schedule. -/
def serveAt (env : Env) (db : StdDB) (n : Node) (acts : List ServeAct) (k : Nat) : ServeSt :=
  (ServeSt.init n).run env db (acts.take k)

/-- The property with code `c` of the object, with its data. -/
def shownIn (n : Node) (r : ObjRef) (c : Byte) : Option PProp :=
  ((n.get r).bind (·.props.lookup c)).map (fun q => ⟨q.code, q.data⟩)

section
variable {env : Env} {db : StdDB} {n : Node} {acts : List ServeAct}

theorem serveAt_succ {k : Nat} {act : ServeAct} (h : acts[k]? = some act) :
    serveAt env db n acts (k + 1) = (serveAt env db n acts k).step env db act := by
  unfold serveAt ServeSt.run
  rw [List.take_add_one, h, Option.toList_some, List.foldl_append]
  rfl

theorem serveAt_end {k : Nat} (h : acts.length ≤ k) : serveAt env db n acts k = (ServeSt.init n).run env db acts := by
  unfold serveAt
  rw [List.take_of_length_le h]

theorem arrivals_succ {k : Nat} {act : ServeAct} (h : acts[k]? = some act) :
    arrivals (acts.take (k + 1)) = arrivals (acts.take k) ++ arrivals [act] := by
  rw [List.take_add_one, h, Option.toList_some, arrivals_append]

theorem serving_length (k : Nat) (hk : k ≤ acts.length) :
    (serveAt env db n acts k).serving.length = (arrivals (acts.take k)).length := by
  induction k with
  | zero => rfl
  | succ k ih =>
    obtain ⟨act, ha⟩ : ∃ act, acts[k]? = some act := ⟨_, List.getElem?_eq_getElem (by omega)⟩
    have ih := ih (by omega)
    rw [serveAt_succ ha, arrivals_succ ha, List.length_append, ← ih]
    cases act with
    | arrive m => simp [ServeSt.step, arrivals]
    | step i =>
      simp only [ServeSt.step]
      cases (serveAt env db n acts k).serving[i]? <;> simp [arrivals]
    | call op => simp [ServeSt.step, arrivals]

end

/-! ## What a goroutine knows

Stated for any sequence of states in which each step is one of the handling node or leaves it as it is, as in a
schedule or in a network of which the handling node is a part. -/

/-- The states `σ` follow from each other by the steps `act`; where there is none nothing happens. -/
def Follows (env : Env) (db : StdDB) (σ : Nat → ServeSt) (act : Nat → Option ServeAct) : Prop :=
  (σ 0).serving = [] ∧ ∀ k, σ (k + 1) = match act k with
    | some x => (σ k).step env db x
    | none => σ k

/-- The reply so far, of the properties `done`: the object was found at moment `t0`, after the arrival at `a`,
and property `j` of the request was looked up at moment `ts[j]`. -/
structure Tale (σ : Nat → ServeSt) (a k : Nat) (m : Message) (r : ObjRef)
    (done : List PProp) (res : Message) (t0 : Nat) (ts : List Nat) : Prop where
  found : ∃ o, Addressed (σ t0).node m.getDEOJ r o
  after : a < t0
  before : t0 < k
  length : ts.length = done.length
  order : ts.Pairwise (· ≤ ·)
  range : ∀ t ∈ ts, t0 ≤ t ∧ t < k
  asked : m.esv.isResponseRequired = true
  res : res = ((done.zip ts).filterMap (fun x => (shownIn (σ x.2).node r x.1.code).map some)).foldl
    Message.addProperty m.newResponse

/-- A moment after `a` and before `k` at which the message is not acceptable: there is no such object or service,
or the object, found at or before this moment, does not permit what is asked for with one of the properties. -/
def Unfit (σ : Nat → ServeSt) (a k : Nat) (m : Message) : Prop :=
  ∃ u, a < u ∧ u < k ∧ ((∀ r o, ¬ Addressed (σ u).node m.getDEOJ r o) ∨ (¬ ∃ s ∈ Esv.table, s.code = m.esv) ∨
    ∃ r t0 o p, a < t0 ∧ t0 ≤ u ∧ Addressed (σ t0).node m.getDEOJ r o ∧ p ∈ properties m ∧
      (m.esv = 0x60 ∨ m.esv = 0x61 ∨ m.esv = 0x62 ∨ m.esv = 0x6E) ∧
      ∀ o', (σ u).node.get r = some o' → ¬ Permits o' m.esv p)

/-- What is known of a goroutine. -/
def Told (σ : Nat → ServeSt) (a k : Nat) (m : Message) : ServePc → Prop
  | .check r todo => (m.esv = 0x60 ∨ m.esv = 0x61 ∨ m.esv = 0x62 ∨ m.esv = 0x6E) ∧
      (∀ p ∈ todo, p ∈ properties m) ∧ ∃ t0 o, a < t0 ∧ t0 < k ∧ Addressed (σ t0).node m.getDEOJ r o
  | .answer r todo res => ∃ done t0 ts, m.requested = done ++ todo ∧ Tale σ a k m r done res t0 ts
  | .done (some res) none => (m.newImpossible = .ok res ∧ Unfit σ a k m) ∨
      ∃ r t0 ts, Tale σ a k m r m.requested res t0 ts
  | _ => True

section
variable {env : Env} {db : StdDB} {σ : Nat → ServeSt} {act : Nat → Option ServeAct}

theorem Tale.later {a k m r done res t0 ts} (h : Tale σ a k m r done res t0 ts) :
    Tale σ a (k + 1) m r done res t0 ts :=
  ⟨h.found, h.after, Nat.lt_succ_of_lt h.before, h.length, h.order,
    fun t ht => ⟨(h.range t ht).1, Nat.lt_succ_of_lt (h.range t ht).2⟩, h.asked, h.res⟩

theorem Unfit.later {a k m} (h : Unfit σ a k m) : Unfit σ a (k + 1) m := by
  obtain ⟨u, u1, u2, u3⟩ := h
  exact ⟨u, u1, Nat.lt_succ_of_lt u2, u3⟩

theorem Told.later {a k m pc} (h : Told σ a k m pc) : Told σ a (k + 1) m pc := by
  cases pc with
  | check r todo =>
    obtain ⟨h1, h2, t0, o, h3, h4, h5⟩ := h
    exact ⟨h1, h2, t0, o, h3, Nat.lt_succ_of_lt h4, h5⟩
  | answer r todo res =>
    obtain ⟨d, t0, ts, h1, h2⟩ := h
    exact ⟨d, t0, ts, h1, h2.later⟩
  | done reply e =>
    cases reply with
    | none => trivial
    | some res =>
      cases e with
      | some e => trivial
      | none =>
        rcases h with ⟨h, h'⟩ | ⟨r, t0, ts, h⟩
        · exact .inl ⟨h, h'.later⟩
        · exact .inr ⟨r, t0, ts, h.later⟩
  | _ => trivial

theorem told_impossible (a k : Nat) (h : Serving) (hu : Unfit σ a k h.msg) :
    Told σ a k h.msg h.impossible.pc ∧ h.impossible.msg = h.msg := by
  unfold Serving.impossible
  cases hx : h.msg.newImpossible with
  | ok r => exact ⟨.inl ⟨hx, hu⟩, rfl⟩
  | err => exact ⟨trivial, rfl⟩
  | panic => exact ⟨trivial, rfl⟩

theorem after_told (a k : Nat) (m : Message) (e : Option Err) (c : AfterCall) :
    Told σ a k m (Serving.after e m c) := by
  cases c <;> trivial

/-- A step of the goroutine. -/
theorem Told.step {a k : Nat} {h : Serving} (hak : a < k) (ht : Told σ a k h.msg h.pc) :
    Told σ a (k + 1) h.msg (h.step env db (σ k).node).2.1.pc ∧
      (h.step env db (σ k).node).2.1.msg = h.msg := by
  obtain ⟨m, cs, pc⟩ := h
  generalize hn : (σ k).node = n'
  dsimp only at ht ⊢
  have imp := told_impossible (σ := σ) a (k + 1) ⟨m, cs, pc⟩
  cases pc with
  | start =>
    simp only [Serving.step]
    split
    · exact ⟨trivial, rfl⟩
    · split
      · next hl =>
        exact imp ⟨k, hak, Nat.lt_succ_self k, .inl (by rw [hn]; exact lookupObject_none hl)⟩
      · next r hl =>
        split
        · next hv =>
          refine imp ⟨k, hak, Nat.lt_succ_self k, .inr (.inl ?_)⟩
          rw [← esv_in_table]
          intro h
          rw [h] at hv
          cases hv
        · split
          · next hrw =>
            obtain ⟨o, ho, -⟩ := lookupObject_some hl
            refine ⟨⟨(esv_rw m.esv).mp hrw, fun p hp => ?_, k, o, hak, Nat.lt_succ_self k, by rw [hn]; exact ho⟩, rfl⟩
            rw [← requested_eq]; exact hp
          · exact ⟨trivial, rfl⟩
  | check r todo =>
    obtain ⟨h1, h2, t0, o, h3, h4, h5⟩ := ht
    cases todo with
    | nil => exact ⟨trivial, rfl⟩
    | cons p ps =>
      simp only [Serving.step]
      split
      · next hg =>
        refine imp ⟨k, hak, Nat.lt_succ_self k, .inr (.inr ⟨r, t0, o, p, h3, Nat.le_of_lt h4, h5,
          h2 p List.mem_cons_self, h1, fun o' ho' => ?_⟩)⟩
        rw [hn, hg] at ho'
        cases ho'
      · next o1 hg =>
        split
        · exact ⟨⟨h1, fun q hq => h2 q (List.mem_cons_of_mem _ hq), t0, o, h3, Nat.lt_succ_of_lt h4, h5⟩, rfl⟩
        · next hv =>
          refine imp ⟨k, hak, Nat.lt_succ_self k, .inr (.inr ⟨r, t0, o, p, h3, Nat.le_of_lt h4, h5,
            h2 p List.mem_cons_self, h1, fun o' ho' hp => ?_⟩)⟩
          rw [hn, hg] at ho'
          cases ho'
          have := (valid_all o1 m.esv h1 [p]).mpr (fun x hx => by rw [List.mem_singleton.mp hx]; exact hp)
          rw [List.all_cons, List.all_nil, Bool.and_true] at this
          exact hv this
  | listeners =>
    simp only [Serving.step]
    split
    · exact ⟨trivial, rfl⟩
    · split <;> exact ⟨trivial, rfl⟩
  | inside ops e c =>
    cases ops with
    | nil => exact ⟨after_told _ _ _ _ _, rfl⟩
    | cons op ops => exact ⟨trivial, rfl⟩
  | request r todo last =>
    cases todo with
    | nil => cases last <;> exact ⟨trivial, rfl⟩
    | cons p ps =>
      simp only [Serving.step]
      split <;> exact ⟨trivial, rfl⟩
  | handler r p e1 todo last =>
    simp only [Serving.step]
    split <;> exact ⟨trivial, rfl⟩
  | respond =>
    simp only [Serving.step]
    split
    · exact ⟨trivial, rfl⟩
    · next hq =>
      split
      · exact ⟨trivial, rfl⟩
      · next r hl =>
        obtain ⟨o, ho, -⟩ := lookupObject_some hl
        refine ⟨⟨[], k, [], rfl, ⟨⟨o, by rw [hn]; exact ho⟩, hak, Nat.lt_succ_self k, rfl, .nil,
          fun t ht => (by cases ht), by simpa using hq, rfl⟩⟩, rfl⟩
  | answer r todo res =>
    obtain ⟨d, t0, ts, h1, h2⟩ := ht
    cases todo with
    | nil =>
      rw [List.append_nil] at h1
      refine ⟨.inr ⟨r, t0, ts, ?_⟩, rfl⟩
      rw [h1]
      exact h2.later
    | cons p ps =>
      have key : ∀ res', res' = (((d ++ [p]).zip (ts ++ [k])).filterMap
            (fun x => (shownIn (σ x.2).node r x.1.code).map some)).foldl
              Message.addProperty m.newResponse →
          Told σ a (k + 1) m (.answer r ps res') := by
        intro res' hres
        refine ⟨d ++ [p], t0, ts ++ [k], by rw [h1]; simp, ⟨h2.found, h2.after, Nat.lt_succ_of_lt h2.before, ?_, ?_, ?_, h2.asked, hres⟩⟩
        · simp [h2.length]
        · refine List.pairwise_append.mpr ⟨h2.order, List.pairwise_singleton _ _, fun x hx y hy => ?_⟩
          rw [List.mem_singleton.mp hy]
          exact Nat.le_of_lt (h2.range x hx).2
        · intro t ht
          rcases List.mem_append.mp ht with ht | ht
          · exact ⟨(h2.range t ht).1, Nat.lt_succ_of_lt (h2.range t ht).2⟩
          · rw [List.mem_singleton.mp ht]
            exact ⟨Nat.le_of_lt h2.before, Nat.lt_succ_self k⟩
      have hz : (d ++ [p]).zip (ts ++ [k]) = d.zip ts ++ [(p, k)] := by
        rw [List.zip_append h2.length.symm]; rfl
      rw [hz, List.filterMap_append, List.foldl_append, ← h2.res] at key
      cases hp : (n'.get r).bind (·.props.lookup p.code) with
      | none =>
        have hs : shownIn (σ k).node r p.code = none := by
          unfold shownIn; rw [hn, hp]; rfl
        simp only [Serving.step, hp]
        refine ⟨key _ ?_, trivial⟩
        simp only [List.filterMap_cons, hs]
        rfl
      | some prop =>
        have hs : shownIn (σ k).node r p.code = some prop.toProtocol := by
          unfold shownIn; rw [hn, hp]; rfl
        simp only [Serving.step, hp]
        refine ⟨key _ ?_, trivial⟩
        simp only [List.filterMap_cons, hs]
        rfl
  | done reply e => exact ⟨ht.later, rfl⟩
  | crashed => exact ⟨trivial, rfl⟩

theorem told_all (hf : Follows env db σ act) (k : Nat) : ∀ i h, (σ k).serving[i]? = some h →
    ∃ a, a < k ∧ act a = some (.arrive h.msg) ∧ (σ a).serving.length = i ∧ Told σ a k h.msg h.pc := by
  induction k with
  | zero => intro i h hi; rw [hf.1] at hi; cases hi
  | succ k ih =>
    have keep : ∀ i h, (σ k).serving[i]? = some h →
        ∃ a, a < k + 1 ∧ act a = some (.arrive h.msg) ∧ (σ a).serving.length = i ∧
          Told σ a (k + 1) h.msg h.pc := by
      intro i h hi
      obtain ⟨a, a1, a2, a3, a4⟩ := ih i h hi
      exact ⟨a, Nat.lt_succ_of_lt a1, a2, a3, a4.later⟩
    intro i h hi
    rw [hf.2 k] at hi
    cases ha : act k with
    | none => rw [ha] at hi; exact keep i h hi
    | some x =>
      rw [ha] at hi
      dsimp only at hi
      cases x with
      | arrive m =>
        simp only [ServeSt.step] at hi
        rw [List.getElem?_append] at hi
        split at hi
        · exact keep i h hi
        · next hge =>
          have hi0 : i = (σ k).serving.length := by
            have : i - (σ k).serving.length < 1 := by
              rcases Nat.lt_or_ge (i - (σ k).serving.length) 1 with x | x
              · exact x
              · rw [List.getElem?_eq_none (by simpa using x)] at hi; cases hi
            omega
          subst hi0
          simp at hi
          subst hi
          exact ⟨k, Nat.lt_succ_self k, ha, rfl, trivial⟩
      | step j =>
        simp only [ServeSt.step] at hi
        cases hj : (σ k).serving[j]? with
        | none => rw [hj] at hi; exact keep i h hi
        | some g =>
          rw [hj] at hi
          dsimp only at hi
          rw [List.getElem?_set] at hi
          split at hi
          · next e =>
            subst e
            split at hi
            · cases hi
              obtain ⟨a, a1, a2, a3, a4⟩ := ih j g hj
              obtain ⟨s1, s2⟩ := a4.step (env := env) (db := db) a1
              refine ⟨a, Nat.lt_succ_of_lt a1, by rw [s2]; exact a2, a3, ?_⟩
              rw [s2]; exact s1
            · cases hi
          · exact keep i h hi
      | call op => exact keep i h hi

end

theorem serveAt_follows (env : Env) (db : StdDB) (n : Node) (acts : List ServeAct) :
    Follows env db (serveAt env db n acts) (fun k => acts[k]?) := by
  refine ⟨rfl, fun k => ?_⟩
  dsimp only
  cases h : acts[k]? with
  | none =>
    have := List.getElem?_eq_none_iff.mp h
    dsimp only
    rw [serveAt_end (by omega), serveAt_end (by omega)]
  | some x => exact serveAt_succ h

theorem reply_not_refusal : ∀ s ∈ Esv.table, s.reply ≠ some (specRefusal s.code) := by decide +kernel

theorem answer_not_refusal : ∀ e : ESV, e.isResponseRequired = true → specReply e ≠ specRefusal e := by
  decide +kernel

theorem shown_properties (m : Message) (l : List PProp) (hl : l.length ≤ 255) :
    properties ((l.map some).foldl Message.addProperty m.newResponse) = l := by
  rw [addProperties_eq]
  have h0 : m.newResponse.ep = [] ∧ m.newResponse.opc = 0 := by rw [newResponse_eq]; exact ⟨rfl, rfl⟩
  unfold properties
  dsimp only
  rw [h0.1, h0.2]
  have : ((0 : Byte) + BitVec.ofNat 8 (l.map some).length).toNat = l.length := by
    simp; omega
  rw [this, List.nil_append, List.take_of_length_le (by simp)]
  simp

/-- What the reply told is. -/
theorem Tale.reply {σ : Nat → ServeSt} {a k m r res t0 ts} (hm : Built m)
    (h : Tale σ a k m r m.requested res t0 ts) :
    Built res ∧ res.getTID = m.getTID ∧ res.getSEOJ = m.getDEOJ ∧ res.getDEOJ = m.getSEOJ ∧
    res.esv = specReply m.esv ∧ ts.length = (properties m).length ∧
    properties res = ((properties m).zip ts).filterMap (fun x => shownIn (σ x.2).node r x.1.code) ∧
    res.ep = (properties res).map some ∧ res.getOPC = (properties res).length ∧ res.ehd1 = 0x10 ∧
    res.ehd2 = 0x81 := by
  obtain ⟨c1, c2, c3, c4, -, -, c7, c8⟩ := C15_response m hm
  have hr := h.res
  rw [show (fun x : PProp × Nat => (shownIn (σ x.2).node r x.1.code).map some)
      = (fun x => Option.map some (shownIn (σ x.2).node r x.1.code)) from rfl,
    ← List.map_filterMap] at hr
  have hq : m.requested = properties m := requested_eq m
  have hlen : ((m.requested.zip ts).filterMap (fun x => shownIn (σ x.2).node r x.1.code)).length ≤ 255 := by
    refine Nat.le_trans (List.length_filterMap_le _ _) ?_
    rw [List.length_zip, hq]
    have := Verif.Props.properties_length m
    omega
  have hp := shown_properties m _ hlen
  refine ⟨?_, ?_, ?_, ?_, ?_, by rw [← hq]; exact h.length, ?_, ?_, ?_, ?_, ?_⟩
  · rw [hr]
    have : ∀ (l : List (Option PProp)) (x : Message), Built x → Built (l.foldl Message.addProperty x) := by
      intro l
      induction l with
      | nil => exact fun x hx => hx
      | cons p l ih => exact fun x hx => ih _ (.addProperty _ hx)
    exact this _ _ (.response hm)
  · rw [hr, addProperties_eq]; exact c1
  · rw [hr, addProperties_eq]; exact c2
  · rw [hr, addProperties_eq]; exact c3
  · rw [hr, addProperties_eq]; exact c4
  · rw [hr, hp, hq]
  · rw [hr, hp, addProperties_eq]
    dsimp only
    rw [newResponse_eq]
    rfl
  · rw [hr, hp, addProperties_eq]
    unfold Message.getOPC
    dsimp only
    rw [show m.newResponse.opc = 0 by rw [newResponse_eq]; rfl, List.length_map]
    simp
    omega
  · rw [hr, addProperties_eq]; exact c7
  · rw [hr, addProperties_eq]; exact c8

/-- The frame the reply told is sent as. -/
theorem Tale.carries {σ : Nat → ServeSt} {a k m r res t0 ts f} (hm : Built m) (hf : Carries m f)
    (h : Tale σ a k m r m.requested res t0 ts) :
    Carries res ⟨f.tid, f.deoj, f.seoj, specReply m.esv, (properties res).map (fun p => ⟨p.code, p.data⟩)⟩ := by
  obtain ⟨-, y2, y3, y4, y5, -, -, y8, y9, y10, y11⟩ := h.reply hm
  refine ⟨y10, y11, ?_, ?_, ?_, y5, ?_, ?_⟩
  · rw [y2]; exact hf.tid
  · rw [y3]; exact hf.deoj
  · rw [y4]; exact hf.seoj
  · rw [y9, List.length_map]
  · rw [y8, List.map_map]; rfl

/-- C160, for every schedule. A message that was answered, and not refused, had arrived at a step `a`. The object
it is for was looked up at a later moment `t0`, and each of the properties it names at a moment of its own, not
before `t0` and before the end, one after the other. The reply lists, in the order of the request, those the
object had at their moments with the data they had then, and nothing else. It has the transaction identifier of the request and the objects
swapped. -/
theorem C160_each_partial (env : Env) (db : StdDB) (n : Node) (acts : List ServeAct) (i : Nat) (m : Message)
    (hm : Built m) (cs : List Call) (res : Message)
    (hi : ((ServeSt.init n).run env db acts).serving[i]? = some ⟨m, cs, .done (some res) none⟩)
    (hres : ∃ s ∈ Esv.table, s.code = m.esv ∧ s.reply = some res.esv) :
    res.getTID = m.getTID ∧ res.getSEOJ = m.getDEOJ ∧ res.getDEOJ = m.getSEOJ ∧
    ∃ a r t0 o, ∃ ts : List Nat, acts[a]? = some (.arrive m) ∧ (arrivals (acts.take a)).length = i ∧ a < t0 ∧
      Addressed (serveAt env db n acts t0).node m.getDEOJ r o ∧
      ts.length = (properties m).length ∧ ts.Pairwise (· ≤ ·) ∧ (∀ t ∈ ts, t0 ≤ t ∧ t < acts.length) ∧
      properties res = ((properties m).zip ts).filterMap
        (fun x => shownIn (serveAt env db n acts x.2).node r x.1.code) := by
  rw [← serveAt_end (Nat.le_refl _)] at hi
  obtain ⟨a, a1, a2, a3, a4⟩ := told_all (serveAt_follows env db n acts) acts.length i _ hi
  dsimp only at a2 a4
  rcases a4 with ⟨a4, -⟩ | ⟨r, t0, ts, h⟩
  · exfalso
    obtain ⟨x, x1, -, -, -, x5, -⟩ := C16_header_partial m hm
    rw [a4] at x1
    cases x1
    obtain ⟨s, s1, s2, s3⟩ := hres
    rw [x5, ← s2] at s3
    exact reply_not_refusal s s1 s3
  · obtain ⟨o, ho⟩ := h.found
    obtain ⟨-, c1, c2, c3, -, c5, c6, -⟩ := h.reply hm
    exact ⟨c1, c2, c3, a, r, t0, o, ts, a2, by rw [← serving_length a (by omega)]; exact a3, h.after, ho, c5,
      h.order, h.range, c6⟩

/-- C160, for refusals. A message that was refused had arrived at a step `a`, and at a later moment, before the
end, it was not acceptable: the node had no such object, or there is no such service, or the object, looked up
not after this moment, did not permit what was asked for with one of the properties. -/
theorem C160_refused_partial (env : Env) (db : StdDB) (n : Node) (acts : List ServeAct) (i : Nat) (m : Message)
    (hm : Built m) (cs : List Call) (res : Message)
    (hi : ((ServeSt.init n).run env db acts).serving[i]? = some ⟨m, cs, .done (some res) none⟩)
    (hres : res.esv = specRefusal m.esv) :
    ∃ a, acts[a]? = some (.arrive m) ∧ (arrivals (acts.take a)).length = i ∧
      ∃ u, a < u ∧ u < acts.length ∧
        ((∀ r o, ¬ Addressed (serveAt env db n acts u).node m.getDEOJ r o) ∨
          (¬ ∃ s ∈ Esv.table, s.code = m.esv) ∨
          ∃ r t0 o p, a < t0 ∧ t0 ≤ u ∧ Addressed (serveAt env db n acts t0).node m.getDEOJ r o ∧
            p ∈ properties m ∧ (m.esv = 0x60 ∨ m.esv = 0x61 ∨ m.esv = 0x62 ∨ m.esv = 0x6E) ∧
            ∀ o', (serveAt env db n acts u).node.get r = some o' → ¬ Permits o' m.esv p) := by
  rw [← serveAt_end (Nat.le_refl _)] at hi
  obtain ⟨a, a1, a2, a3, a4⟩ := told_all (serveAt_follows env db n acts) acts.length i _ hi
  dsimp only at a2 a4
  refine ⟨a, a2, by rw [← serving_length a (by omega)]; exact a3, ?_⟩
  rcases a4 with ⟨-, a4⟩ | ⟨r, t0, ts, h⟩
  · exact a4
  · exfalso
    obtain ⟨-, -, -, -, c, -⟩ := h.reply hm
    rw [hres] at c
    exact answer_not_refusal _ h.asked c.symm

/-- A read of a property the object does not have is refused: the hypotheses of `C160_refused_partial`. -/
example : ∃ acts cs res, ((ServeSt.init pairNode).run noEnv stdDB acts).serving[0]?
      = some ⟨request 0x62 [⟨0x80, []⟩, ⟨0xE5, []⟩], cs, .done (some res) none⟩ ∧
    res.esv = specRefusal (request 0x62 [⟨0x80, []⟩, ⟨0xE5, []⟩]).esv ∧ res.esv = 0x52 := by
  obtain ⟨res, h1, -, -, -, h2, -⟩ := C16_header_partial (request 0x62 [⟨0x80, []⟩, ⟨0xE5, []⟩]) (by
    exact .addProperty _ (.addProperty _ (.setESV _ (.setDEOJ _ (.setSEOJ _ (.setTID _ .new))))))
  exact ⟨[.arrive (request 0x62 [⟨0x80, []⟩, ⟨0xE5, []⟩])] ++ List.replicate 12 (.step 0), [], res, by
    rw [newImpossible_eq] at h1; cases h1; rfl, h2, by rw [h2]; rfl⟩

/-- A read of two properties that is answered while the program writes the second: the hypotheses of
`C160_each_partial`. -/
example : ∃ acts cs res, ((ServeSt.init pairNode).run noEnv stdDB acts).serving[0]?
      = some ⟨request 0x62 [⟨0x80, []⟩, ⟨0xB0, []⟩], cs, .done (some res) none⟩ ∧
    (∃ s ∈ Esv.table, s.code = (request 0x62 [⟨0x80, []⟩, ⟨0xB0, []⟩]).esv ∧ s.reply = some res.esv) ∧
    properties res = [⟨0x80, [0x30]⟩, ⟨0xB0, [0x42]⟩] :=
  ⟨[.arrive (request 0x62 [⟨0x80, []⟩, ⟨0xB0, []⟩])] ++ List.replicate 12 (.step 0) ++
      [.call (.obj (.device 0) (.write 0xB0 [0x42]))] ++ List.replicate 12 (.step 0), [],
    ((request 0x62 [⟨0x80, []⟩, ⟨0xB0, []⟩]).newResponse.addProperty (some ⟨0x80, [0x30]⟩)).addProperty
      (some ⟨0xB0, [0x42]⟩), rfl, ⟨⟨0x62, .request, false, true, some 0x72, some 0x52⟩, by decide, rfl, rfl⟩, rfl⟩

theorem arrival_mono {acts : List ServeAct} {a b : Nat} {m : Message} (h : a < b) (ha : acts[a]? = some (.arrive m)) :
    (arrivals (acts.take a)).length < (arrivals (acts.take b)).length := by
  have : acts.take b = acts.take (a + 1) ++ (acts.take b).drop (a + 1) := by
    have e : acts.take (a + 1) = (acts.take b).take (a + 1) := by
      rw [List.take_take, Nat.min_eq_left (by omega)]
    rw [e, List.take_append_drop]
  rw [this, arrivals_append, arrivals_succ ha]
  simp [arrivals]

/-- C160, if nothing changes what is asked for. As long as the properties named in a message stay as they are, from the
arrival of the message on, the reply shows the object as it is at every moment of this time. -/
theorem C160_steady_partial (env : Env) (db : StdDB) (n : Node) (acts : List ServeAct) (i a : Nat) (m : Message)
    (hm : Built m) (cs : List Call) (res : Message) (ha : acts[a]? = some (.arrive m))
    (hai : (arrivals (acts.take a)).length = i)
    (hi : ((ServeSt.init n).run env db acts).serving[i]? = some ⟨m, cs, .done (some res) none⟩)
    (hres : ∃ s ∈ Esv.table, s.code = m.esv ∧ s.reply = some res.esv)
    (hs : ∀ r, ∀ p ∈ properties m, ∀ t t', a < t → t < acts.length → a < t' → t' < acts.length →
      shownIn (serveAt env db n acts t).node r p.code = shownIn (serveAt env db n acts t').node r p.code) :
    ∃ r t0 o, a < t0 ∧ Addressed (serveAt env db n acts t0).node m.getDEOJ r o ∧
      ∀ t, a < t → t < acts.length →
        properties res = (properties m).filterMap (fun p => shownIn (serveAt env db n acts t).node r p.code) := by
  obtain ⟨-, -, -, a', r, t0, o, ts, h1, h2, h3, h4, h5, -, h7, h8⟩ :=
    C160_each_partial env db n acts i m hm cs res hi hres
  have haa : a' = a := by
    rcases Nat.lt_trichotomy a' a with h | h | h
    · have := arrival_mono h h1; omega
    · exact h
    · have := arrival_mono h ha; omega
  subst haa
  refine ⟨r, t0, o, h3, h4, fun t ht1 ht2 => ?_⟩
  rw [h8]
  have key : ∀ (l : List PProp) (ts : List Nat), ts.length = l.length → (∀ p ∈ l, p ∈ properties m) →
      (∀ t ∈ ts, t0 ≤ t ∧ t < acts.length) →
      (l.zip ts).filterMap (fun x => shownIn (serveAt env db n acts x.2).node r x.1.code)
        = l.filterMap (fun p => shownIn (serveAt env db n acts t).node r p.code) := by
    intro l
    induction l with
    | nil => intro ts _ _ _; rfl
    | cons p l ih =>
      intro ts hl hp ht
      cases ts with
      | nil => cases hl
      | cons u ts =>
        obtain ⟨u1, u2⟩ := ht u List.mem_cons_self
        rw [List.zip_cons_cons, List.filterMap_cons, List.filterMap_cons,
          ih ts (by simpa using hl) (fun q hq => hp q (List.mem_cons_of_mem _ hq))
            (fun v hv => ht v (List.mem_cons_of_mem _ hv))]
        dsimp only
        rw [hs r p (hp p List.mem_cons_self) u t (by omega) u2 ht1 ht2]
  exact key _ ts h5 (fun p hp => hp) h7

/-! ## A reply that shows no moment -/

/-- The calls of the program, in order. -/
def programCalls : List ServeAct → List NodeOp
  | [] => []
  | .call op :: acts => op :: programCalls acts
  | _ :: acts => programCalls acts

theorem programCalls_append (a b : List ServeAct) : programCalls (a ++ b) = programCalls a ++ programCalls b := by
  induction a with
  | nil => rfl
  | cons x a ih => cases x <;> simp [programCalls, ih]

theorem programCalls_steps (i k : Nat) : programCalls (List.replicate k (.step i)) = [] := by
  induction k with
  | zero => rfl
  | succ k ih => exact ih

/-- No callback makes a call or has returned an error. -/
def StillAfter : AfterCall → Prop
  | .message _ => True
  | .request _ _ _ last => last = none
  | .handler _ e1 _ last => e1 = none ∧ last = none

/-- No callback makes a call or has returned an error. -/
def Still : ServePc → Prop
  | .inside ops e k => ops = [] ∧ e = none ∧ StillAfter k
  | .request _ _ last => last = none
  | .handler _ _ e1 _ last => e1 = none ∧ last = none
  | _ => True

theorem impossible_still (h : Serving) : Still h.impossible.pc ∧ h.impossible.msg = h.msg := by
  unfold Serving.impossible
  cases h.msg.newImpossible <;> exact ⟨trivial, rfl⟩

theorem still_step {env : Env} (db : StdDB) (n : Node) {h : Serving} (he : Passive env h.msg.esv)
    (hs : Still h.pc) : (h.step env db n).1 = n ∧ Still (h.step env db n).2.1.pc ∧
      (h.step env db n).2.1.msg = h.msg := by
  obtain ⟨m, cs, pc⟩ := h
  dsimp only at he hs
  have imp := impossible_still ⟨m, cs, pc⟩
  cases pc with
  | start =>
    simp only [Serving.step]
    split
    · exact ⟨rfl, trivial, rfl⟩
    · split
      · exact ⟨rfl, imp⟩
      · split
        · exact ⟨rfl, imp⟩
        · split <;> exact ⟨rfl, trivial, rfl⟩
  | check r todo =>
    cases todo with
    | nil => exact ⟨rfl, trivial, rfl⟩
    | cons p ps =>
      simp only [Serving.step]
      split
      · exact ⟨rfl, imp⟩
      · split
        · exact ⟨rfl, trivial, rfl⟩
        · exact ⟨rfl, imp⟩
  | listeners =>
    simp only [Serving.step]
    split
    · exact ⟨rfl, trivial, rfl⟩
    · split
      · next hl =>
        have hb := he.message hl n cs m rfl
        refine ⟨rfl, ⟨?_, ?_, trivial⟩, rfl⟩
        · exact congrArg Prod.fst hb
        · exact congrArg Prod.snd hb
      · exact ⟨rfl, rfl, rfl⟩
  | inside ops e c =>
    obtain ⟨rfl, rfl, h3⟩ := hs
    cases c with
    | message r => exact ⟨rfl, rfl, rfl⟩
    | request r p ps last => exact ⟨rfl, ⟨rfl, h3⟩, rfl⟩
    | handler r e1 ps last =>
      obtain ⟨rfl, rfl⟩ := h3
      exact ⟨rfl, rfl, rfl⟩
  | request r todo last =>
    have hs : last = none := hs
    subst hs
    cases todo with
    | nil => exact ⟨rfl, trivial, rfl⟩
    | cons p ps =>
      simp only [Serving.step]
      split
      · next hl =>
        have hb := he.request r hl n cs p
        exact ⟨rfl, ⟨congrArg Prod.fst hb, congrArg Prod.snd hb, rfl⟩, rfl⟩
      · exact ⟨rfl, ⟨rfl, rfl⟩, rfl⟩
  | handler r p e1 todo last =>
    obtain ⟨rfl, rfl⟩ := hs
    simp only [Serving.step]
    split
    · next hl =>
      have hb := he.handler r hl n cs p
      exact ⟨rfl, ⟨congrArg Prod.fst hb, congrArg Prod.snd hb, rfl, rfl⟩, rfl⟩
    · exact ⟨rfl, rfl, rfl⟩
  | respond =>
    simp only [Serving.step]
    split
    · exact ⟨rfl, trivial, rfl⟩
    · split <;> exact ⟨rfl, trivial, rfl⟩
  | answer r todo res =>
    cases todo with
    | nil => exact ⟨rfl, trivial, rfl⟩
    | cons p ps =>
      simp only [Serving.step]
      split <;> exact ⟨rfl, trivial, rfl⟩
  | done reply e => exact ⟨rfl, hs, rfl⟩
  | crashed => exact ⟨rfl, trivial, rfl⟩

theorem still_goes {env : Env} {db : StdDB} {n n' : Node} {h h' : Serving} {ms : List Sent}
    (g : Goes env db n h n' h' ms) (he : Passive env h.msg.esv) (hs : Still h.pc) :
    n' = n ∧ Still h'.pc := by
  induction g with
  | refl => exact ⟨rfl, hs⟩
  | step _ ih =>
    obtain ⟨a, b, c⟩ := still_step db _ he hs
    obtain ⟨d, e⟩ := ih (by rw [c]; exact he) b
    exact ⟨d.trans a, e⟩

theorem still_run {env : Env} (db : StdDB) (j : Nat) : ∀ (s : ServeSt) (h : Serving), s.serving = [h] →
    Passive env h.msg.esv → Still h.pc → (s.run env db (List.replicate j (.step 0))).node = s.node := by
  induction j with
  | zero => intro s h _ _ _; rfl
  | succ j ih =>
    intro s h hs he hq
    obtain ⟨a, b, c⟩ := still_step db s.node he hq
    have e : s.step env db (.step 0) = ⟨(h.step env db s.node).1, [(h.step env db s.node).2.1],
        s.sent ++ (h.step env db s.node).2.2⟩ := by
      simp only [ServeSt.step, hs]
      rfl
    have := ih (s.step env db (.step 0)) (h.step env db s.node).2.1 (by rw [e]) (by rw [c]; exact he) b
    refine Eq.trans ?_ (this.trans ?_)
    · rfl
    · rw [e]; exact a

/-- A read while nothing else happens: the hypotheses of `C160_steady_partial`. -/
example : ∃ acts cs res, acts[0]? = some (.arrive (request 0x62 [⟨0x80, []⟩])) ∧
    ((ServeSt.init pairNode).run noEnv stdDB acts).serving[0]?
      = some ⟨request 0x62 [⟨0x80, []⟩], cs, .done (some res) none⟩ ∧
    (∀ r, ∀ p ∈ properties (request 0x62 [⟨0x80, []⟩]), ∀ t t', 0 < t → t < acts.length → 0 < t' → t' < acts.length →
      shownIn (serveAt noEnv stdDB pairNode acts t).node r p.code
        = shownIn (serveAt noEnv stdDB pairNode acts t').node r p.code) ∧
    (∃ s ∈ Esv.table, s.code = (request 0x62 [⟨0x80, []⟩]).esv ∧ s.reply = some res.esv) := by
  refine ⟨[.arrive (request 0x62 [⟨0x80, []⟩])] ++ List.replicate 12 (.step 0), [],
    (request 0x62 [⟨0x80, []⟩]).newResponse.addProperty (some ⟨0x80, [0x30]⟩), rfl, rfl, ?_,
    ⟨⟨0x62, .request, false, true, some 0x72, some 0x52⟩, by decide, rfl, rfl⟩⟩
  have key : ∀ t, (serveAt noEnv stdDB pairNode ([.arrive (request 0x62 [⟨0x80, []⟩])] ++
      List.replicate 12 (.step 0)) (t + 1)).node = pairNode := by
    intro t
    unfold serveAt
    rw [List.singleton_append, List.take_succ_cons, List.take_replicate]
    exact still_run stdDB _ ⟨pairNode, [⟨request 0x62 [⟨0x80, []⟩], [], .start⟩], []⟩ _ rfl
      ⟨fun _ _ _ _ _ => rfl, fun _ _ _ _ _ => rfl, fun _ _ _ _ _ => rfl⟩ trivial
  intro r p _ t t' h1 _ h2 _
  obtain ⟨t, rfl⟩ := Nat.exists_eq_add_of_lt h1
  obtain ⟨t', rfl⟩ := Nat.exists_eq_add_of_lt h2
  rw [Nat.zero_add, Nat.zero_add, key, key]

/-- Something holds at every moment of a schedule. -/
def Throughout (env : Env) (db : StdDB) (P : ServeSt → Prop) (s : ServeSt) (acts : List ServeAct) : Prop :=
  ∀ k, P (s.run env db (acts.take k))

theorem Throughout.append {env : Env} {db : StdDB} {P : ServeSt → Prop} {s : ServeSt} {a b : List ServeAct}
    (ha : Throughout env db P s a) (hb : Throughout env db P (s.run env db a) b) :
    Throughout env db P s (a ++ b) := by
  intro k
  rw [List.take_append]
  have hr : s.run env db (a.take k ++ b.take (k - a.length))
      = (s.run env db (a.take k)).run env db (b.take (k - a.length)) := by
    unfold ServeSt.run; rw [List.foldl_append]
  rcases Nat.le_total k a.length with h | h
  · rw [Nat.sub_eq_zero_of_le h, List.take_zero, List.append_nil]
    exact ha k
  · rw [hr, List.take_of_length_le h]
    exact hb _

theorem write_get (db : StdDB) (n : Node) (r : ObjRef) (o : Obj) (hg : n.get r = some o) (c : Byte) (d : Bytes)
    (x : EProp) (hx : o.props.lookup c = some x) : ∃ o',
      ((NodeOp.obj r (.write c d)).run db n).1.get r = some o' ∧
      o'.props.lookup c = some { x with data := d } ∧ ∀ c', c' ≠ c → o'.props.lookup c' = o.props.lookup c' := by
  have h := (C24_write db o (.write c d) c d rfl).2 (by rw [hx]; exact fun h => by cases h)
  refine ⟨((ObjOp.write c d).run db o).1, ?_, ?_, ?_⟩
  · show (n.onObj r (fun o => Node.dropErr ((ObjOp.write c d).run db o))).1.get r = _
    rw [onObj_get, if_pos rfl, hg]
    rfl
  · rw [h.2.1]; unfold Contents.write; rw [if_pos rfl, hx]; rfl
  · intro c' hc; rw [h.2.1]; unfold Contents.write; rw [if_neg hc]

/-- A node that runs its callbacks, which do nothing, gets to the answer of a message that reads. -/
theorem goes_reading {env : Env} (db : StdDB) {n : Node} {r : ObjRef} {o : Obj} {m : Message}
    (he : Passive env m.esv) (hm : m.esv = 0x62) (ho : Addressed n m.getDEOJ r o) (hi : ¬ Ignored n m)
    (ha : ∀ p ∈ properties m, ∃ q, o.props.lookup p.code = some q ∧ q.getAttr ≠ 0) :
    ∃ cs ms, Goes env db n ⟨m, [], .start⟩ n ⟨m, cs, .answer r (properties m) m.newResponse⟩ ms := by
  obtain ⟨hl, hg⟩ := addressed_lookup ho
  have hs : ¬ (!n.selfMsg && n.isSelfMessage m) = true := fun h => hi ((ignored_iff n m).mp h)
  have hacc : Accepts n m := by
    refine ⟨r, o, ho, ⟨⟨0x62, .request, false, true, some 0x72, some 0x52⟩, by decide, hm.symm⟩,
      fun _ p hp => ?_⟩
    obtain ⟨q, q1, q2⟩ := ha p hp
    refine ⟨q, q1, fun hh => ?_, fun _ => q2⟩
    rw [hm] at hh
    simp at hh
  have hv := (validate_iff n m).mpr hacc
  have hvalid : m.esv.isValid = true := by rw [hm]; decide
  have hrw : (m.esv.isReadRequest || m.esv.isWriteRequest) = true := by rw [hm]; decide
  have first : Serving.step env db n ⟨m, [], .start⟩ = (n, ⟨m, [], .check r m.requested⟩, []) := by
    simp only [Serving.step, hs, hl, hvalid, hrw]
    rfl
  have hall : m.requested.all (Node.validProperty o m.esv) = true := by
    unfold Node.validateReceivedMessage at hv
    simp only [hl, hg, hvalid, hrw] at hv
    exact hv
  have hc := goes_check (env := env) (db := db) n m [] r o hg m.requested
  rw [if_pos hall] at hc
  have gl := goes_listeners (env := env) (db := db) n m r hl
  obtain ⟨e1, e2⟩ := still_goes gl he trivial
  have e2 : (Node.executeMessageListeners env db m ⟨n, [], []⟩).2 = none := e2
  rw [e1, e2] at gl
  have s1 : ∀ cs, Serving.step env db n ⟨m, cs, .respond⟩
      = (n, ⟨m, cs, .answer r m.requested m.newResponse⟩, []) := by
    intro cs
    have hq : m.esv.isResponseRequired = true := by rw [hm]; decide
    simp only [Serving.step, hq, hl]
    rfl
  rw [← requested_eq]
  exact ⟨_, _, .quiet first (hc.trans (gl.trans (.quiet (n1 := n) (h1 := ⟨m, _, .respond⟩) rfl (.one (s1 _)))))⟩

theorem run_calls (env : Env) (db : StdDB) (n : Node) (l : List Serving) (sent : List Sent) (a b : NodeOp) :
    ∃ ss, ServeSt.run env db ⟨n, l, sent⟩ [.call a, .call b] = ⟨(b.run db (a.run db n).1).1, l, ss⟩ :=
  ⟨_, rfl⟩

/-- C160. The property fails: a message that reads two properties of an object arrives; while it is handled the
program writes first the one and then the other. The reply shows the old data of the first and the new data
of the second, though the object has not held these two together at any moment. This is so for every node,
object and pair of properties that may be read, and for all data, if the callbacks do nothing. -/
theorem C160_refuted (env : Env) (db : StdDB) (he : Passive env 0x62) (n : Node) (r : ObjRef) (o : Obj)
    (m : Message) (hm : m.esv = 0x62) (ho : Addressed n m.getDEOJ r o) (hi : ¬ Ignored n m)
    (p q : Byte) (hpq : p ≠ q) (hps : (properties m).map (·.code) = [p, q]) (x y : EProp)
    (hx : o.props.lookup p = some x) (hy : o.props.lookup q = some y) (hxa : x.getAttr ≠ 0)
    (hya : y.getAttr ≠ 0) (p1 q1 : Bytes) (hp1 : p1 ≠ x.data) (hq1 : q1 ≠ y.data) :
    ∃ acts res cs, arrivals acts = [m] ∧
      programCalls acts = [.obj r (.write p p1), .obj r (.write q q1)] ∧
      ((ServeSt.init n).run env db acts).serving = [⟨m, cs, .done (some res) none⟩] ∧
      properties res = [⟨p, x.data⟩, ⟨q, q1⟩] ∧ res.esv = 0x72 ∧
      ∀ k o', (serveAt env db n acts k).node.get r = some o' → ¬ (stored o' p = x.data ∧ stored o' q = q1) := by
  obtain ⟨a, b, hab, ha, hb⟩ : ∃ a b : PProp, properties m = [a, b] ∧ a.code = p ∧ b.code = q := by
    rcases hl : properties m with _ | ⟨a, _ | ⟨b, _ | ⟨c, l⟩⟩⟩
    · rw [hl] at hps; cases hps
    · rw [hl] at hps; simp at hps
    · rw [hl] at hps; simp at hps; exact ⟨a, b, rfl, hps.1, hps.2⟩
    · rw [hl] at hps; simp at hps
  have hem : Passive env m.esv := by rw [hm]; exact he
  obtain ⟨-, hg⟩ := addressed_lookup ho
  -- the answer is begun and the first property read
  obtain ⟨cs, ms, g1⟩ := goes_reading db hem hm ho hi (by
    rw [hab]
    intro z hz
    rcases List.mem_cons.mp hz with rfl | hz
    · exact ⟨x, by rw [ha]; exact hx, hxa⟩
    · rw [List.mem_singleton.mp hz]; exact ⟨y, by rw [hb]; exact hy, hya⟩)
  rw [hab] at g1
  have st1 : Serving.step env db n ⟨m, cs, .answer r [a, b] m.newResponse⟩
      = (n, ⟨m, cs, .answer r [b] (m.newResponse.addProperty (some x.toProtocol))⟩, []) := by
    simp only [Serving.step, hg, Option.bind_some, ha, hx]
  have g1 := g1.trans (.one st1)
  -- the program writes
  obtain ⟨o1, w1, w2, w3⟩ := write_get db n r o hg p p1 x hx
  obtain ⟨o2, v1, v2, v3⟩ := write_get db ((NodeOp.obj r (.write p p1)).run db n).1 r o1 w1 q q1 y
    (by rw [w3 q (Ne.symm hpq)]; exact hy)
  -- the second property is read
  have st2 : Serving.step env db ((NodeOp.obj r (.write q q1)).run db ((NodeOp.obj r (.write p p1)).run db n).1).1
        ⟨m, cs, .answer r [b] (m.newResponse.addProperty (some x.toProtocol))⟩
      = (((NodeOp.obj r (.write q q1)).run db ((NodeOp.obj r (.write p p1)).run db n).1).1, ⟨m, cs, .answer r []
          ((m.newResponse.addProperty (some x.toProtocol)).addProperty
            (some ({ y with data := q1 } : EProp).toProtocol))⟩, []) := by
    simp only [Serving.step, v1, Option.bind_some, hb, v2]
  have g2 := Goes.quiet st2 (.one (env := env) (db := db) (ms := []) (n1 :=
    ((NodeOp.obj r (.write q q1)).run db ((NodeOp.obj r (.write p p1)).run db n).1).1) (h1 := ⟨m, cs, .done (some
      ((m.newResponse.addProperty (some x.toProtocol)).addProperty
            (some ({ y with data := q1 } : EProp).toProtocol))) none⟩) rfl)
  obtain ⟨j1, e1⟩ := g1.run ⟨n, [⟨m, [], .start⟩], []⟩ 0 rfl rfl
  have e1 : ServeSt.run env db ⟨n, [⟨m, [], .start⟩], []⟩ (List.replicate j1 (.step 0)) = ⟨n,
    [⟨m, cs, .answer r [b] (m.newResponse.addProperty (some x.toProtocol))⟩], [] ++ (ms ++ [])⟩ := e1
  obtain ⟨ss, hss⟩ := run_calls env db n
    [⟨m, cs, .answer r [b] (m.newResponse.addProperty (some x.toProtocol))⟩] ([] ++ (ms ++ []))
    (.obj r (.write p p1)) (.obj r (.write q q1))
  generalize hn1 : ((NodeOp.obj r (.write p p1)).run db n).1 = n1 at *
  generalize hn2 : ((NodeOp.obj r (.write q q1)).run db n1).1 = n2 at *
  obtain ⟨j2, e2⟩ := g2.run ⟨n2, [⟨m, cs, .answer r [b] (m.newResponse.addProperty (some x.toProtocol))⟩], ss⟩ 0
    rfl rfl
  have app : ∀ (s : ServeSt) a b, s.run env db (a ++ b) = (s.run env db a).run env db b := by
    intro s a b; unfold ServeSt.run; rw [List.foldl_append]
  refine ⟨[.arrive m] ++ (List.replicate j1 (.step 0) ++ ([.call (.obj r (.write p p1)), .call (.obj r (.write q q1))]
    ++ List.replicate j2 (.step 0))), (m.newResponse.addProperty (some x.toProtocol)).addProperty
      (some ({ y with data := q1 } : EProp).toProtocol), cs, ?_, ?_, ?_, ?_, ?_, ?_⟩
  · rw [arrivals_append, arrivals_append, arrivals_append, arrivals_steps, arrivals_steps]; rfl
  · rw [programCalls_append, programCalls_append, programCalls_append, programCalls_steps, programCalls_steps]; rfl
  · rw [app, app, app]
    show (ServeSt.run env db (ServeSt.run env db (ServeSt.run env db ⟨n, [⟨m, [], .start⟩], []⟩ _) _) _).serving = _
    rw [e1, hss, e2]
    rfl
  · have := shown_properties m [⟨p, x.data⟩, ⟨q, q1⟩] (by simp)
    rw [← this]
    have hxp : x.toProtocol = ⟨p, x.data⟩ := by rw [← lookup_code hx]; rfl
    have hyp : ({ y with data := q1 } : EProp).toProtocol = ⟨q, q1⟩ := by rw [← lookup_code hy]; rfl
    rw [hxp, hyp]
    rfl
  · show m.newResponse.esv = _
    rw [newResponse_eq]
    show responseESV m.esv = _
    rw [hm]
    rfl
  · have all : Throughout env db (fun s => s.node = n ∨ s.node = n1 ∨ s.node = n2) (ServeSt.init n)
        ([.arrive m] ++ (List.replicate j1 (.step 0) ++ ([.call (.obj r (.write p p1)), .call (.obj r (.write q q1))]
          ++ List.replicate j2 (.step 0)))) := by
      refine .append ?_ (.append ?_ (.append ?_ ?_))
      · intro k
        rcases k with _ | k
        · exact .inl rfl
        · simp [ServeSt.run, ServeSt.step, ServeSt.init]
      · intro k
        left
        rw [List.take_replicate]
        exact still_run db _ ⟨n, [⟨m, [], .start⟩], []⟩ ⟨m, [], .start⟩ rfl hem trivial
      · show Throughout env db _ (ServeSt.run env db ⟨n, [⟨m, [], .start⟩], []⟩ _) _
        rw [e1]
        intro k
        rcases k with _ | _ | k
        · exact .inl rfl
        · exact .inr (.inl (by rw [← hn1]; rfl))
        · refine .inr (.inr ?_)
          rw [List.take_of_length_le (by simp), hss]
      · show Throughout env db _ (ServeSt.run env db (ServeSt.run env db ⟨n, [⟨m, [], .start⟩], []⟩ _) _) _
        rw [e1, hss]
        intro k
        right; right
        rw [List.take_replicate]
        exact still_run db _ ⟨n2, [⟨m, cs, .answer r [b] (m.newResponse.addProperty (some x.toProtocol))⟩], ss⟩
          _ rfl hem trivial
    intro k o' ho' hh
    rcases all k with h | h | h
    · have h : (serveAt env db n _ k).node = n := h
      rw [h, hg] at ho'
      cases ho'
      have := hh.2
      unfold stored at this
      rw [hy] at this
      exact hq1 this.symm
    · have h : (serveAt env db n _ k).node = n1 := h
      rw [h, w1] at ho'
      cases ho'
      have := hh.1
      unfold stored at this
      rw [w2] at this
      exact hp1 this
    · have h : (serveAt env db n _ k).node = n2 := h
      rw [h, v1] at ho'
      cases ho'
      have := hh.1
      unfold stored at this
      rw [v3 p hpq, w2] at this
      exact hp1 this

/-- Two properties are read while the program writes both: the reply shows the old data of the first and the
new data of the second. -/
example : ∃ acts res cs, arrivals acts = [request 0x62 [⟨0x80, []⟩, ⟨0xB0, []⟩]] ∧
    programCalls acts = [.obj (.device 0) (.write 0x80 [0x31]), .obj (.device 0) (.write 0xB0 [0x42])] ∧
    ((ServeSt.init pairNode).run noEnv stdDB acts).serving
      = [⟨request 0x62 [⟨0x80, []⟩, ⟨0xB0, []⟩], cs, .done (some res) none⟩] ∧
    properties res = [⟨0x80, [0x30]⟩, ⟨0xB0, [0x42]⟩] ∧ res.esv = 0x72 ∧
    ∀ k o', (serveAt noEnv stdDB pairNode acts k).node.get (.device 0) = some o' →
      ¬ (stored o' 0x80 = [0x30] ∧ stored o' 0xB0 = [0x42]) :=
  C160_refuted noEnv stdDB ⟨fun _ _ _ _ _ => rfl, fun _ _ _ _ _ => rfl, fun _ _ _ _ _ => rfl⟩ pairNode (.device 0) _
    (request 0x62 [⟨0x80, []⟩, ⟨0xB0, []⟩]) rfl pairNode_addressed (fun h => absurd h.1 (by decide)) 0x80 0xB0
    (by decide) rfl ⟨"", 0x80, [0x30], 1, 1, 0⟩ ⟨"", 0xB0, [0x41], 1, 1, 0⟩ rfl rfl (by decide) (by decide)
    [0x31] [0x42] (by decide) (by decide)

end Verif.Props
