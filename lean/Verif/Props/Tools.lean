import Verif.Model.Tools
import Verif.Props.Commands
import Verif.Props.Output
import Verif.Props.Scan
import Verif.Props.Handler

/-!
# C147: a whole run of the command line tool
-/

namespace Verif.Props
open Verif Model Spec Lemmas

/-! ## Specification -/

/-- The requests of a run, with the nodes they go to. -/
def requestsOf (evs : List ToolEvent) : List (RemoteNode × Message) :=
  evs.filterMap (fun e => match e with
    | .post n m => some (n, m)
    | .send n m => some (n, m)
    | _ => none)

/-- What a run prints. -/
def outputOf (evs : List ToolEvent) : List Printed :=
  evs.filterMap (fun e => match e with
    | .printed p => some p
    | _ => none)

/-- The first of the nodes found that has the address. -/
def FirstAt (ns : List RemoteNode) (address : Str) (n : RemoteNode) : Prop :=
  ∃ before after, ns = before ++ n :: after ∧ n.address.toList = address ∧ ∀ x ∈ before, x.address.toList ≠ address

/-- How the answer of a `get` is printed. -/
def Shows (f : Format) (res : Message) (p : Printed) : Prop :=
  ∃ row, messageRow res = .ok row ∧
    match f with
    | .table => p = .table ⟨messageColumns [res], [row]⟩
    | .json => p = .json [(messageColumns [res]).zip row]
    | .csv => p = .csv (Table.csv ⟨messageColumns [res], [row]⟩)

/-! ## Proofs -/

theorem lookup_first (os : ToolOs) (address : Str) (n : RemoteNode) :
    os.lookup address = some n ↔ FirstAt os.found address n := by
  unfold ToolOs.lookup FirstAt
  rw [List.find?_eq_some_iff_append]
  constructor
  · rintro ⟨h1, b, a, h2, h3⟩
    exact ⟨b, a, h2, by simpa using h1, fun x hx => by simpa using h3 x hx⟩
  · rintro ⟨b, a, h2, h1, h3⟩
    exact ⟨by simpa using h1, b, a, h2, fun x hx => by simpa using h3 x hx⟩

private theorem begin_cases (os : ToolOs) (k : List ToolEvent → List ToolEvent × Res Unit) :
    (∃ e, os.start = some e ∧ os.begin k = ([.start], .err e)) ∨
    (∃ e, os.start = none ∧ os.search = some e ∧ os.begin k = ([.start, .search], .err e)) ∨
    (os.start = none ∧ os.search = none ∧ os.begin k = k [.start, .search]) := by
  unfold ToolOs.begin
  cases os.start with
  | some e => exact .inl ⟨e, rfl, rfl⟩
  | none =>
    cases os.search with
    | some e => exact .inr (.inl ⟨e, rfl, rfl, rfl⟩)
    | none => exact .inr (.inr ⟨rfl, rfl, rfl⟩)

/-- The part of `get` after the request was answered. -/
private theorem get_print (res : Message) (d : Bytes) (hd : Message.newWithBytes d = .ok res) (f : Format) :
    ∃ t p, messageTable [res] = .ok t ∧ t.print f = .ok p ∧ Shows f res p := by
  obtain ⟨t, row, ht, hr, hrows, hl, hn, hj⟩ := C75_json_partial d res hd
  have hc : t.columns = messageColumns [res] := by
    unfold messageTable at ht
    obtain ⟨rows, _, h2⟩ := Res.bind_eq_ok.mp ht
    cases h2
    rfl
  have e : t = ⟨messageColumns [res], [row]⟩ := by
    cases t with
    | mk c r => dsimp only at hc hrows; rw [hc, hrows]
  cases f with
  | table => exact ⟨t, _, ht, rfl, row, hr, by dsimp only; rw [← e]⟩
  | csv => exact ⟨t, _, ht, rfl, row, hr, by dsimp only; rw [← e]⟩
  | json =>
    refine ⟨t, .json [t.columns.zip row], ht, ?_, row, hr, by dsimp only; rw [hc]⟩
    show (t.jsonObjects >>= fun o => Res.ok (Printed.json o)) = _
    rw [hj]
    rfl

/-- A run of `get` that gets as far as its request. -/
private theorem get_cases (l : Lowering) (space : Char → Bool) (os : ToolOs) (format address obj prop : Str)
    (hp : ∀ n m r, os.post n m = .ok r → ∃ d, Message.newWithBytes d = .ok r) (hnp : ∀ n m, os.post n m ≠ .panic) :
    let run := getTool l space os format address obj prop
    ((∃ e, run = ([], .err e)) ∧ ((¬ ∃ f, newFormatFromString l space format = .ok f) ∨
      ¬ ∃ req, getRequest l obj prop = .ok req)) ∨
    ∃ f req, newFormatFromString l space format = .ok f ∧ getRequest l obj prop = .ok req ∧
      ((∃ e, os.start = some e ∧ run = ([.start], .err e)) ∨
       (∃ e, os.start = none ∧ run = ([.start, .search], .err e) ∧ (os.search = some e ∨ os.lookup address = none)) ∨
       ∃ n, os.start = none ∧ os.search = none ∧ os.lookup address = some n ∧
        ((∃ e, os.post n req = .err e ∧ run = ([.start, .search, .post n req], .err e)) ∨
         ∃ res p, os.post n req = .ok res ∧ Shows f res p ∧
          run = ([.start, .search, .post n req, .printed p, .stop],
            match os.stop with
            | some e => .err e
            | none => .ok ()))) := by
  intro run
  have hrun : run = getTool l space os format address obj prop := rfl
  unfold getTool at hrun
  cases hf : newFormatFromString l space format with
  | panic =>
    exfalso
    unfold newFormatFromString at hf
    dsimp only at hf
    split at hf <;> cases hf
  | err e => rw [hf] at hrun; exact .inl ⟨⟨e, hrun⟩, .inl (by rintro ⟨f, h⟩; cases h)⟩
  | ok f =>
    rw [hf] at hrun
    dsimp only at hrun
    cases hq : getRequest l obj prop with
    | panic =>
      exfalso
      by_cases ho : ∃ bs, HexBytes (noBlanks obj) bs
      · by_cases hpr : ∃ bs, HexBytes (noBlanks prop) bs
        · obtain ⟨o, ho⟩ := ho
          obtain ⟨p, hpr⟩ := hpr
          unfold getRequest at hq
          rw [int_of_bytes l obj o ho, int_of_bytes l prop p hpr] at hq
          cases hq
        · obtain ⟨e, he⟩ := (C74_rejects l obj prop [] (.inr hpr)).1
          rw [he] at hq; cases hq
      · obtain ⟨e, he⟩ := (C74_rejects l obj prop [] (.inl ho)).1
        rw [he] at hq; cases hq
    | err e => rw [hq] at hrun; exact .inl ⟨⟨e, hrun⟩, .inr (by rintro ⟨f, h⟩; cases h)⟩
    | ok req =>
      rw [hq] at hrun
      dsimp only at hrun
      refine .inr ⟨f, req, rfl, rfl, ?_⟩
      rcases begin_cases os _ with ⟨e, h1, h2⟩ | ⟨e, h1, h2, h3⟩ | ⟨h1, h2, h3⟩
      · exact .inl ⟨e, h1, hrun.trans h2⟩
      · exact .inr (.inl ⟨e, h1, hrun.trans h3, .inl h2⟩)
      · rw [h3] at hrun
        cases hl : os.lookup address with
        | none => rw [hl] at hrun; exact .inr (.inl ⟨.other, h1, hrun, .inr rfl⟩)
        | some n =>
          rw [hl] at hrun
          dsimp only at hrun
          refine .inr (.inr ⟨n, h1, h2, rfl, ?_⟩)
          cases ho : os.post n req with
          | panic => exact absurd ho (hnp n req)
          | err e => rw [ho] at hrun; exact .inl ⟨e, rfl, hrun⟩
          | ok res =>
            obtain ⟨d, hd⟩ := hp n req res ho
            obtain ⟨t, p, ht, hpr, hs⟩ := get_print res d hd f
            rw [ho] at hrun
            dsimp only at hrun
            rw [ht] at hrun
            dsimp only at hrun
            rw [hpr] at hrun
            dsimp only at hrun
            refine .inr ⟨res, p, rfl, hs, ?_⟩
            unfold ToolOs.finish at hrun
            cases hst : os.stop with
            | none => rw [hst] at hrun; exact hrun
            | some e => rw [hst] at hrun; exact hrun

private theorem set_cases (l : Lowering) (os : ToolOs) (address obj prop value : Str) :
    let run := setTool l os address obj prop value
    ((∃ e, run = ([], .err e)) ∧ ¬ ∃ req, setRequest l obj prop value = .ok req) ∨
    ∃ req, setRequest l obj prop value = .ok req ∧
      ((∃ e, os.start = some e ∧ run = ([.start], .err e)) ∨
       (∃ e, os.start = none ∧ run = ([.start, .search], .err e) ∧ (os.search = some e ∨ os.lookup address = none)) ∨
       ∃ n, os.start = none ∧ os.search = none ∧ os.lookup address = some n ∧
        ((∃ e, os.send n req = some e ∧ run = ([.start, .search, .send n req], .err e)) ∨
         (os.send n req = none ∧ run = ([.start, .search, .send n req, .stop],
            match os.stop with
            | some e => .err e
            | none => .ok ())))) := by
  intro run
  have hrun : run = setTool l os address obj prop value := rfl
  unfold setTool at hrun
  cases hq : setRequest l obj prop value with
  | panic =>
    exfalso
    by_cases ho : ∃ bs, HexBytes (noBlanks obj) bs
    · by_cases hpr : ∃ bs, HexBytes (noBlanks prop) bs
      · by_cases hv : ∃ bs, HexBytes (noBlanks value) bs
        · obtain ⟨o, ho⟩ := ho
          obtain ⟨p, hpr⟩ := hpr
          obtain ⟨v, hv⟩ := hv
          unfold setRequest at hq
          rw [int_of_bytes l obj o ho, int_of_bytes l prop p hpr, ((C65_bytes l value).1 v).mpr hv] at hq
          cases hq
        · obtain ⟨e, he⟩ := C74_rejects_value l obj prop value hv
          rw [he] at hq; cases hq
      · obtain ⟨e, he⟩ := (C74_rejects l obj prop value (.inr hpr)).2
        rw [he] at hq; cases hq
    · obtain ⟨e, he⟩ := (C74_rejects l obj prop value (.inl ho)).2
      rw [he] at hq; cases hq
  | err e => rw [hq] at hrun; exact .inl ⟨⟨e, hrun⟩, by rintro ⟨f, h⟩; cases h⟩
  | ok req =>
    rw [hq] at hrun
    dsimp only at hrun
    refine .inr ⟨req, rfl, ?_⟩
    rcases begin_cases os _ with ⟨e, h1, h2⟩ | ⟨e, h1, h2, h3⟩ | ⟨h1, h2, h3⟩
    · exact .inl ⟨e, h1, hrun.trans h2⟩
    · exact .inr (.inl ⟨e, h1, hrun.trans h3, .inl h2⟩)
    · rw [h3] at hrun
      cases hl : os.lookup address with
      | none => rw [hl] at hrun; exact .inr (.inl ⟨.other, h1, hrun, .inr rfl⟩)
      | some n =>
        rw [hl] at hrun
        dsimp only at hrun
        refine .inr (.inr ⟨n, h1, h2, rfl, ?_⟩)
        cases ho : os.send n req with
        | some e => rw [ho] at hrun; exact .inl ⟨e, rfl, hrun⟩
        | none =>
          rw [ho] at hrun
          dsimp only at hrun
          refine .inr ⟨rfl, ?_⟩
          unfold ToolOs.finish at hrun
          cases hst : os.stop with
          | none => rw [hst] at hrun; exact hrun
          | some e => rw [hst] at hrun; exact hrun

/-- What posts return is decoded from bytes, and they do not panic. -/
def Answers (os : ToolOs) : Prop :=
  (∀ n m r, os.post n m = .ok r → ∃ d, Message.newWithBytes d = .ok r) ∧ ∀ n m, os.post n m ≠ .panic

/-! ## C147 -/

/-- C147: with an argument that is not hexadecimal, or a format that is not one, nothing at all is done. -/
theorem C147_bad_arguments (l : Lowering) (space : Char → Bool) (mans : List Manufacture) (os : ToolOs) (verbose : Bool)
    (format address obj prop value : Str) (addr : String) :
    ((¬ ∃ f, newFormatFromString l space format = .ok f) →
      (∃ e, getTool l space os format address obj prop = ([], .err e)) ∧
      ∃ e, scanTool l space mans os verbose format addr = ([], .err e)) ∧
    ((¬ ∃ bs, HexBytes (noBlanks obj) bs) ∨ (¬ ∃ bs, HexBytes (noBlanks prop) bs) →
      (∃ e, getTool l space os format address obj prop = ([], .err e)) ∧
      ∃ e, setTool l os address obj prop value = ([], .err e)) ∧
    ((¬ ∃ bs, HexBytes (noBlanks value) bs) → ∃ e, setTool l os address obj prop value = ([], .err e)) := by
  have hpan : newFormatFromString l space format ≠ .panic := by
    intro hf
    unfold newFormatFromString at hf
    dsimp only at hf
    split at hf <;> cases hf
  refine ⟨fun h => ?_, fun h => ?_, fun h => ?_⟩
  · unfold getTool scanTool
    cases hf : newFormatFromString l space format with
    | ok f => exact absurd ⟨f, hf⟩ h
    | panic => exact absurd hf hpan
    | err e => exact ⟨⟨e, rfl⟩, ⟨e, rfl⟩⟩
  · obtain ⟨⟨e, he⟩, e', he'⟩ := C74_rejects l obj prop value h
    unfold getTool setTool
    rw [he, he']
    refine ⟨?_, ⟨e', rfl⟩⟩
    cases hf : newFormatFromString l space format with
    | ok f => exact ⟨e, rfl⟩
    | panic => exact absurd hf hpan
    | err e => exact ⟨e, rfl⟩
  · obtain ⟨e, he⟩ := C74_rejects_value l obj prop value h
    unfold setTool
    rw [he]
    exact ⟨e, rfl⟩

/-- C147, success of `get`: it succeeds exactly when the arguments are right, the controller starts and searches, the
first node found at the address answers the request, and the controller stops; it has done just this, and printed the
answer in the format asked for. -/
theorem C147_get (l : Lowering) (space : Char → Bool) (os : ToolOs) (ha : Answers os)
    (format address obj prop : Str) (evs : List ToolEvent) :
    getTool l space os format address obj prop = (evs, .ok ()) ↔
    ∃ f req n res p, newFormatFromString l space format = .ok f ∧ getRequest l obj prop = .ok req ∧
      os.start = none ∧ os.search = none ∧ FirstAt os.found address n ∧ os.post n req = .ok res ∧ Shows f res p ∧
      os.stop = none ∧ evs = [.start, .search, .post n req, .printed p, .stop] := by
  have hc := get_cases l space os format address obj prop ha.1 ha.2
  dsimp only at hc
  constructor
  · intro h
    rw [h] at hc
    rcases hc with ⟨⟨e, h1⟩, -⟩ | ⟨f, req, h1, h2, h3⟩
    · cases h1
    · rcases h3 with ⟨e, -, h4⟩ | ⟨e, -, h4, -⟩ | ⟨n, h4, h5, h6, h7⟩
      · cases h4
      · cases h4
      · rcases h7 with ⟨e, -, h8⟩ | ⟨res, p, h8, h9, h10⟩
        · cases h8
        · have hs : os.stop = none := by
            cases hst : os.stop with
            | none => rfl
            | some e => rw [hst] at h10; cases h10
          exact ⟨f, req, n, res, p, h1, h2, h4, h5, (lookup_first ..).mp h6, h8, h9, hs, congrArg Prod.fst h10⟩
  · rintro ⟨f, req, n, res, p, h1, h2, h3, h4, h5, h6, h7, h8, rfl⟩
    have h5' := (lookup_first os address n).mpr h5
    rcases hc with ⟨-, hn⟩ | ⟨f', req', g1, g2, g3⟩
    · rcases hn with hn | hn
      · exact absurd ⟨f, h1⟩ hn
      · exact absurd ⟨req, h2⟩ hn
    · rw [h1] at g1
      rw [h2] at g2
      cases g1
      cases g2
      rcases g3 with ⟨e, g4, -⟩ | ⟨e, -, -, g4⟩ | ⟨n', -, -, g6, g7⟩
      · rw [h3] at g4; cases g4
      · rw [h4, h5'] at g4
        rcases g4 with g4 | g4 <;> cases g4
      · rw [h5'] at g6
        cases g6
        rcases g7 with ⟨e, g8, -⟩ | ⟨res', p', g8, g9, g10⟩
        · rw [h6] at g8; cases g8
        · rw [h6] at g8
          cases g8
          have hp : p' = p := by
            obtain ⟨row, r1, r2⟩ := h7
            obtain ⟨row', r1', r2'⟩ := g9
            rw [r1] at r1'
            cases r1'
            cases f <;> exact r2'.trans r2.symm
          rw [g10, h8, hp]

/-- C147, success of `set`: it succeeds exactly when the arguments are right, the controller starts and searches, the
request is sent to the first node found at the address, and the controller stops. -/
theorem C147_set (l : Lowering) (os : ToolOs) (address obj prop value : Str) (evs : List ToolEvent) :
    setTool l os address obj prop value = (evs, .ok ()) ↔
    ∃ req n, setRequest l obj prop value = .ok req ∧ os.start = none ∧ os.search = none ∧
      FirstAt os.found address n ∧ os.send n req = none ∧ os.stop = none ∧
      evs = [.start, .search, .send n req, .stop] := by
  have hc := set_cases l os address obj prop value
  dsimp only at hc
  constructor
  · intro h
    rw [h] at hc
    rcases hc with ⟨⟨e, h1⟩, -⟩ | ⟨req, h2, h3⟩
    · cases h1
    · rcases h3 with ⟨e, -, h4⟩ | ⟨e, -, h4, -⟩ | ⟨n, h4, h5, h6, h7⟩
      · cases h4
      · cases h4
      · rcases h7 with ⟨e, -, h8⟩ | ⟨h8, h10⟩
        · cases h8
        · have hs : os.stop = none := by
            cases hst : os.stop with
            | none => rfl
            | some e => rw [hst] at h10; cases h10
          exact ⟨req, n, h2, h4, h5, (lookup_first ..).mp h6, h8, hs, congrArg Prod.fst h10⟩
  · rintro ⟨req, n, h2, h3, h4, h5, h6, h8, rfl⟩
    have h5' := (lookup_first os address n).mpr h5
    rcases hc with ⟨-, hn⟩ | ⟨req', g2, g3⟩
    · exact absurd ⟨req, h2⟩ hn
    · rw [h2] at g2
      cases g2
      rcases g3 with ⟨e, g4, -⟩ | ⟨e, -, -, g4⟩ | ⟨n', -, -, g6, g7⟩
      · rw [h3] at g4; cases g4
      · rw [h4, h5'] at g4
        rcases g4 with g4 | g4 <;> cases g4
      · rw [h5'] at g6
        cases g6
        rcases g7 with ⟨e, g8, -⟩ | ⟨g8, g10⟩
        · rw [h6] at g8; cases g8
        · rw [g10, h8]

/-- C147, requests: however a run ends, `get` and `set` send at most one request, the one of their arguments, and only
to the first node found at the address. -/
theorem C147_one_request (l : Lowering) (space : Char → Bool) (os : ToolOs) (ha : Answers os)
    (format address obj prop value : Str) :
    (requestsOf (getTool l space os format address obj prop).1 = [] ∨
      ∃ n req, getRequest l obj prop = .ok req ∧ FirstAt os.found address n ∧
        requestsOf (getTool l space os format address obj prop).1 = [(n, req)]) ∧
    (requestsOf (setTool l os address obj prop value).1 = [] ∨
      ∃ n req, setRequest l obj prop value = .ok req ∧ FirstAt os.found address n ∧
        requestsOf (setTool l os address obj prop value).1 = [(n, req)]) := by
  constructor
  · have hc := get_cases l space os format address obj prop ha.1 ha.2
    dsimp only at hc
    rcases hc with ⟨⟨e, h1⟩, -⟩ | ⟨f, req, h1, h2, h3⟩
    · rw [h1]; exact .inl rfl
    · rcases h3 with ⟨e, -, h4⟩ | ⟨e, -, h4, -⟩ | ⟨n, h4, h5, h6, h7⟩
      · rw [h4]; exact .inl rfl
      · rw [h4]; exact .inl rfl
      · refine .inr ⟨n, req, h2, (lookup_first ..).mp h6, ?_⟩
        rcases h7 with ⟨e, -, h8⟩ | ⟨res, p, h8, h9, h10⟩
        · rw [h8]; rfl
        · rw [h10]; rfl
  · have hc := set_cases l os address obj prop value
    dsimp only at hc
    rcases hc with ⟨⟨e, h1⟩, -⟩ | ⟨req, h2, h3⟩
    · rw [h1]; exact .inl rfl
    · rcases h3 with ⟨e, -, h4⟩ | ⟨e, -, h4, -⟩ | ⟨n, h4, h5, h6, h7⟩
      · rw [h4]; exact .inl rfl
      · rw [h4]; exact .inl rfl
      · refine .inr ⟨n, req, h2, (lookup_first ..).mp h6, ?_⟩
        rcases h7 with ⟨e, -, h8⟩ | ⟨h8, h10⟩
        · rw [h8]; rfl
        · rw [h10]; rfl

/-- C147, failures: a run of `get` that fails has printed nothing, unless it is the controller that could not be
stopped. -/
theorem C147_silent_partial (l : Lowering) (space : Char → Bool) (os : ToolOs) (ha : Answers os)
    (format address obj prop : Str) (hs : os.stop = none)
    (h : (getTool l space os format address obj prop).2 ≠ .ok ()) :
    outputOf (getTool l space os format address obj prop).1 = [] := by
  have hc := get_cases l space os format address obj prop ha.1 ha.2
  dsimp only at hc
  rcases hc with ⟨⟨e, h1⟩, -⟩ | ⟨f, req, h1, h2, h3⟩
  · rw [h1]; rfl
  · rcases h3 with ⟨e, -, h4⟩ | ⟨e, -, h4, -⟩ | ⟨n, h4, h5, h6, h7⟩
    · rw [h4]; rfl
    · rw [h4]; rfl
    · rcases h7 with ⟨e, -, h8⟩ | ⟨res, p, h8, h9, h10⟩
      · rw [h8]; rfl
      · rw [h10, hs] at h; exact absurd rfl h

/-- C147 is false: every run that fails after its controller was started leaves it running. -/
theorem C147_refuted_running (l : Lowering) (space : Char → Bool) (os : ToolOs) (ha : Answers os)
    (format address obj prop value : Str) (hs : os.stop = none) :
    ((getTool l space os format address obj prop).2 ≠ .ok () →
      ToolEvent.stop ∉ (getTool l space os format address obj prop).1) ∧
    ((setTool l os address obj prop value).2 ≠ .ok () →
      ToolEvent.stop ∉ (setTool l os address obj prop value).1) := by
  constructor
  · intro h
    have hc := get_cases l space os format address obj prop ha.1 ha.2
    dsimp only at hc
    rcases hc with ⟨⟨e, h1⟩, -⟩ | ⟨f, req, h1, h2, h3⟩
    · rw [h1]; simp
    · rcases h3 with ⟨e, -, h4⟩ | ⟨e, -, h4, -⟩ | ⟨n, h4, h5, h6, h7⟩
      · rw [h4]; simp
      · rw [h4]; simp
      · rcases h7 with ⟨e, -, h8⟩ | ⟨res, p, h8, h9, h10⟩
        · rw [h8]; simp
        · rw [h10, hs] at h; exact absurd rfl h
  · intro h
    have hc := set_cases l os address obj prop value
    dsimp only at hc
    rcases hc with ⟨⟨e, h1⟩, -⟩ | ⟨req, h2, h3⟩
    · rw [h1]; simp
    · rcases h3 with ⟨e, -, h4⟩ | ⟨e, -, h4, -⟩ | ⟨n, h4, h5, h6, h7⟩
      · rw [h4]; simp
      · rw [h4]; simp
      · rcases h7 with ⟨e, -, h8⟩ | ⟨h8, h10⟩
        · rw [h8]; simp
        · rw [h10, hs] at h; exact absurd rfl h

/-- C147 is false: `set` succeeds although the device refuses the value. Whatever device gets the request of a
successful run, as message `m`, and does not accept it: nothing of the device changes, and it answers that the request
is not possible, which `set` does not look at. -/
theorem C147_refuted_set (l : Lowering) (os : ToolOs) (address obj prop value : Str) (evs : List ToolEvent)
    (h : setTool l os address obj prop value = (evs, .ok ())) (env : Env) (db : StdDB) (dev : Node) (m : Message)
    (hm : ∃ n req, requestsOf evs = [(n, req)] ∧ m.deoj = req.deoj ∧ m.esv = req.esv ∧ m.opc = req.opc ∧ m.ep = req.ep)
    (hi : ¬ Ignored dev m) (hr : ¬ Accepts dev m) :
    ∃ out r, dev.received env db m = .ok out ∧ out.node = dev ∧ out.calls = [] ∧ out.reply = some r ∧ r.esv = 0x50 := by
  obtain ⟨r, h1, h2⟩ := received_rejected env db dev m hi hr
  refine ⟨_, r, h2, rfl, rfl, rfl, ?_⟩
  obtain ⟨req, n, g1, -, -, -, -, -, rfl⟩ := (C147_set ..).mp h
  obtain ⟨n', req', e1, -, e2, -, -⟩ := hm
  have : req' = req := by
    have := List.cons.inj e1
    exact (congrArg Prod.snd this.1).symm
  subst this
  have hesv : req'.esv = 0x60 := by
    unfold setRequest at g1
    obtain ⟨a, -, g1⟩ := Res.bind_eq_ok.mp g1
    obtain ⟨b, -, g1⟩ := Res.bind_eq_ok.mp g1
    obtain ⟨c, -, g1⟩ := Res.bind_eq_ok.mp g1
    cases g1
    rfl
  rw [newImpossible_eq] at h1
  cases h1
  show impossibleESV m.esv = 0x50
  rw [e2, hesv]
  rfl

/-- What a scan shows in each format: all rows, with repetitions hidden in a table on the screen. -/
def ScanShows (f : Format) (t : Table) (p : Printed) : Prop :=
  match f with
  | .json => p = .json (t.rows.map (t.columns.zip ·))
  | .csv => p = .csv t.csv
  | .table => ∃ t', t.hideDuplicateColumns [0, 1, 2, 3, 4] = .ok t' ∧ p = .table t'

/-- C147, `scan`: it succeeds exactly when the format is right and the controller starts, searches and stops; it prints
the table of the nodes found, with the properties when an address is given or verbose output asked for. -/
theorem C147_scan (l : Lowering) (space : Char → Bool) (mans : List Manufacture) (hm : ∀ m ∈ mans, m.name ≠ "")
    (os : ToolOs) (ho : ∀ n ∈ os.found, ∀ o ∈ n.devices ++ n.profiles, o.codes.length = 3)
    (ha : ∀ n ∈ os.found, n.address ≠ "") (verbose : Bool) (format : Str) (address : String) (evs : List ToolEvent) :
    scanTool l space mans os verbose format address = (evs, .ok ()) ↔
    ∃ f p, newFormatFromString l space format = .ok f ∧ os.start = none ∧ os.search = none ∧ os.stop = none ∧
      ScanShows f (discoveredNodeTable mans os.answers ⟨verbose || decide (address ≠ ""), address⟩ os.found) p ∧
      evs = [.start, .search, .printed p, .stop] := by
  have hd : decide (0 < address.toList.length) = decide (address ≠ "") := by
    rw [decide_eq_decide, List.length_pos_iff]
    constructor
    · intro h e; exact h (by rw [e]; rfl)
    · intro h e; exact h (String.toList_inj.mp (by rw [e]; rfl))
  unfold scanTool
  rw [hd]
  generalize hq : (⟨verbose || decide (address ≠ ""), address⟩ : Query) = q
  obtain ⟨-, hj⟩ := C78_json mans os.answers q os.found ho
  obtain ⟨rows, hh, -⟩ := C78_hidden mans hm os.answers q os.found ho ha
  cases hf : newFormatFromString l space format with
  | err e =>
    constructor
    · intro h; cases h
    · rintro ⟨f, p, h, -⟩; cases h
  | panic =>
    constructor
    · intro h; cases h
    · rintro ⟨f, p, h, -⟩; cases h
  | ok f =>
    dsimp only
    have key : ∃ t' p, (discoveredNodeTable mans os.answers q os.found).forScan f = .ok t' ∧ t'.print f = .ok p ∧
        ∀ p', ScanShows f (discoveredNodeTable mans os.answers q os.found) p' ↔ p' = p := by
      cases f with
      | json =>
        refine ⟨_, Printed.json _, rfl, ?_, fun p' => Iff.rfl⟩
        show (Table.jsonObjects _ >>= fun o => Res.ok (Printed.json o)) = _
        rw [hj]
        rfl
      | csv => exact ⟨_, _, rfl, rfl, fun p' => Iff.rfl⟩
      | table =>
        refine ⟨_, _, hh, rfl, fun p' => ?_⟩
        unfold ScanShows
        dsimp only
        rw [hh]
        constructor
        · rintro ⟨t', h1, h2⟩; cases h1; exact h2
        · intro h; exact ⟨_, rfl, h⟩
    obtain ⟨t', p, k1, k2, k3⟩ := key
    rw [k1]
    dsimp only
    rw [k2]
    dsimp only
    rcases begin_cases os (fun evs => os.finish (evs ++ [.printed p])) with ⟨e, h1, h2⟩ | ⟨e, h1, h2, h3⟩ | ⟨h1, h2, h3⟩
    · rw [h2]
      constructor
      · intro h; cases h
      · rintro ⟨f, p, -, h, -⟩; rw [h1] at h; cases h
    · rw [h3]
      constructor
      · intro h; cases h
      · rintro ⟨f, p, -, -, h, -⟩; rw [h2] at h; cases h
    · rw [h3]
      unfold ToolOs.finish
      cases hs : os.stop with
      | some e =>
        constructor
        · intro h; cases h
        · rintro ⟨f, p, -, -, -, h, -⟩; cases h
      | none =>
        constructor
        · intro h
          exact ⟨f, p, rfl, h1, h2, rfl, (k3 p).mpr rfl, (congrArg Prod.fst h).symm⟩
        · rintro ⟨f', p', g1, -, -, -, g2, rfl⟩
          cases g1
          rw [(k3 p').mp g2]
          rfl

/-! ## Examples -/

/-- A controller that has found one node, which answers with the message of C75. -/
def oneNodeOs : ToolOs where
  start := none
  search := none
  stop := none
  found := [{ RemoteNode.new with address := "192.168.1.7", port := 3610 }]
  post := fun _ _ => .ok aMessage
  send := fun _ _ => none
  answers := fun _ _ _ => .error []

/-- The hypotheses of `C147_get`, `C147_one_request` and `C147_silent_partial`. -/
theorem oneNode_answers : Answers oneNodeOs :=
  ⟨fun _ _ _ h => by
    cases h
    exact ⟨[0x10, 0x81, 0, 1, 0x01, 0x30, 0x01, 0x05, 0xFF, 0x01, 0x72, 1, 0x80, 1, 0x30], newWithBytes_cons ..⟩,
   fun _ _ h => by cases h⟩

/-- A `get` that succeeds. -/
example : ∃ evs, getTool asciiLowering (· == ' ') oneNodeOs "CSV".toList "192.168.1.7".toList "013001".toList "80".toList =
    (evs, .ok ()) ∧ evs.length = 5 := by
  obtain ⟨req, hr, -⟩ := C74_get_partial asciiLowering "013001".toList "80".toList [1, 0x30, 1] 0x80
    (((C65_bytes asciiLowering _).1 _).mp (by decide +kernel)) (by decide)
    (((C65_bytes asciiLowering _).1 _).mp (by decide +kernel))
  obtain ⟨row, hrow, -⟩ := C75_row [0x10, 0x81, 0, 1, 0x01, 0x30, 0x01, 0x05, 0xFF, 0x01, 0x72, 1, 0x80, 1, 0x30]
    aMessage (newWithBytes_cons ..)
  refine ⟨_, (C147_get _ _ _ oneNode_answers _ _ _ _ _).mpr ⟨.csv, req,
    { RemoteNode.new with address := "192.168.1.7", port := 3610 }, aMessage, _, by decide +kernel, hr, rfl, rfl,
    ⟨[], [], rfl, rfl, by simp⟩, rfl, ⟨row, hrow, rfl⟩, rfl, rfl⟩, rfl⟩

/-- A `get` for a node that was not found fails after the controller was started. -/
example : (getTool asciiLowering (· == ' ') oneNodeOs "CSV".toList "10.0.0.1".toList "013001".toList "80".toList).2 ≠ .ok () := by
  intro h
  obtain ⟨f, req, n, res, p, -, -, -, -, ⟨b, a, h1, h2, -⟩, -⟩ :=
    (C147_get _ _ _ oneNode_answers _ _ _ _ _).mp (Prod.ext rfl h)
  have hn : n ∈ oneNodeOs.found := by rw [h1]; simp
  have : n = { RemoteNode.new with address := "192.168.1.7", port := 3610 } := by simpa [oneNodeOs] using hn
  rw [this] at h2
  exact absurd h2 (by decide)

/-- A `set` that succeeds although the device refuses: the value has two bytes, the property has one. -/
example : ∃ evs n req, setTool asciiLowering oneNodeOs "192.168.1.7".toList "013001".toList "80".toList "3132".toList =
      (evs, .ok ()) ∧ requestsOf evs = [(n, req)] ∧ req.deoj = [0x01, 0x30, 0x01] ∧ req.esv = 0x60 ∧
      req.opc = 1 ∧ req.ep = [some ⟨0x80, [0x31, 0x32]⟩] := by
  obtain ⟨req, hr, hd, -, he, ho, hp⟩ := C74_set_partial asciiLowering "013001".toList "80".toList "3132".toList
    [1, 0x30, 1] [0x31, 0x32] 0x80
    (((C65_bytes asciiLowering _).1 _).mp (by decide +kernel)) (by decide)
    (((C65_bytes asciiLowering _).1 _).mp (by decide +kernel)) (((C65_bytes asciiLowering _).1 _).mp (by decide +kernel))
  exact ⟨_, _, req, (C147_set _ _ _ _ _ _ _).mpr ⟨req, { RemoteNode.new with address := "192.168.1.7", port := 3610 }, hr,
    rfl, rfl, ⟨[], [], rfl, rfl, by simp⟩, rfl, rfl, rfl⟩, rfl, by rw [hd]; decide, he, ho, hp⟩

example : ¬ Accepts smallNode (request 0x60 [⟨0x80, [0x31, 0x32]⟩]) ∧
    ¬ Ignored smallNode (request 0x60 [⟨0x80, [0x31, 0x32]⟩]) := by
  constructor
  · rw [← validate_iff]; decide +kernel
  · rw [← ignored_iff]; decide +kernel

/-- The hypotheses of `C147_scan`, and a scan that succeeds. -/
example : ∃ evs, scanTool asciiLowering (· == ' ') [⟨0x0B, "Panasonic"⟩] oneNodeOs false "table".toList "" = (evs, .ok ()) := by
  refine ⟨_, (C147_scan _ _ _ (by simp) _ (by simp [oneNodeOs, RemoteNode.new]) (by simp [oneNodeOs]) _ _ _ _).mpr
    ⟨.table, _, by decide +kernel, rfl, rfl, rfl, ⟨⟨scanColumns false, []⟩, rfl, rfl⟩, rfl⟩⟩

end Verif.Props
