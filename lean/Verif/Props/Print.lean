import Verif.Props.Text
import Verif.Props.PostTool
import Verif.Model.Print

/-! # C139 and C140: what the example programs print and ask for -/

namespace Verif.Props
open Verif Model Spec Lemmas

/-! ## C139 -/

theorem hexNumber_lt {s : Str} {n : Nat} (h : HexNumber s n) : n < 16 ^ s.length ∧ s ≠ [] := by
  induction h with
  | digit h => have := hexDigit_lt h; simpa using this
  | snoc _ h ih =>
    have := hexDigit_lt h
    rw [List.length_append, List.length_singleton, Nat.pow_succ]
    exact ⟨by omega, by simp⟩

theorem hexDigit_code {c : Char} {v : Nat} (h : HexDigit c v) : 48 ≤ c.toNat ∧ c.toNat < 128 := by
  have key : ∀ n < 128, ∀ v < 16, HexDigit (Char.ofNat n) v → 48 ≤ n := by decide +kernel
  have h1 := hexDigit_ascii h
  have e : Char.ofNat c.toNat = c := Char.ofNat_toNat c
  exact ⟨key c.toNat h1 v (hexDigit_lt h) (by rw [e]; exact h), h1⟩

/-- The bytes of a text. -/
def asciiBytes (s : Str) : Bytes := s.map (fun c => BitVec.ofNat 8 c.toNat)

theorem fmtXText_bytes : ∀ (s : Str), (∀ c ∈ s, c.toNat < 256) → HexBytes (fmtXText s) (asciiBytes s)
  | [], _ => .nil
  | c :: s, h => by
    have hc := h c (by simp)
    have := HexBytes.cons (hexDigit_char (c.toNat / 16) (by omega)) (hexDigit_char (c.toNat % 16) (by omega))
      (fmtXText_bytes s (fun d hd => h d (by simp [hd])))
    rw [show 16 * (c.toNat / 16) + c.toNat % 16 = c.toNat by omega] at this
    exact this

theorem fmtXText_inj : ∀ {s s' : Str}, (∀ c ∈ s, c.toNat < 256) → (∀ c ∈ s', c.toNat < 256) →
    fmtXText s = fmtXText s' → s = s'
  | [], [], _, _, _ => rfl
  | [], c :: s', _, _, h => by simp [fmtXText] at h
  | c :: s, [], _, _, h => by simp [fmtXText] at h
  | c :: s, d :: s', hs, hs', h => by
    have hc := hs c (by simp)
    have hd := hs' d (by simp)
    unfold fmtXText at h
    simp only [List.flatMap_cons, List.cons_append, List.nil_append, List.cons.injEq] at h
    have key : ∀ a < 16, ∀ b < 16, hexDigitChar a = hexDigitChar b → a = b := by decide
    have h1 := key _ (by omega) _ (by omega) h.1
    have h2 := key _ (by omega) _ (by omega) h.2.1
    have h3 := fmtXText_inj (fun x hx => hs x (by simp [hx])) (fun x hx => hs' x (by simp [hx])) h.2.2
    have h4 : c.toNat = d.toNat := by omega
    rw [h3, Char.toNat_inj.mp h4]

theorem digits_small {s : Str} {n : Nat} (h : HexNumber s n) : ∀ c ∈ s, c.toNat < 256 := by
  intro c hc
  obtain ⟨v, hv⟩ := hexNumber_text h c hc
  have := (hexDigit_code hv).2
  omega

/-- The digits printed for a text that shows a number show a greater number. -/
theorem fmtXText_greater {s : Str} {n v : Nat} (h : HexNumber s n) (hv : HexNumber (fmtXText s) v) : n < v := by
  obtain ⟨hn, h0⟩ := hexNumber_lt h
  have hb := fmtXText_bytes s (digits_small h)
  have e := hexBytes_value hb 0
  rw [hexNumber_value hv, Nat.zero_mul, Nat.zero_add] at e
  cases s with
  | nil => exact absurd rfl h0
  | cons c s =>
    obtain ⟨x, hx⟩ := hexNumber_text h c (by simp)
    have hc := hexDigit_code hx
    have e' := beNat_append [BitVec.ofNat 8 c.toNat] (asciiBytes s)
    rw [List.singleton_append] at e'
    have e1 : beNat [BitVec.ofNat 8 c.toNat] = c.toNat := by simp [beNat]; omega
    rw [e1] at e'
    change beNat (asciiBytes (c :: s)) = _ at e'
    rw [e'] at e
    have hl : (asciiBytes s).length = s.length := by unfold asciiBytes; rw [List.length_map]
    rw [hl] at e
    rw [List.length_cons, Nat.pow_succ] at hn
    have h1 : 16 ^ s.length ≤ 256 ^ s.length := Nat.pow_le_pow_left (by decide) _
    have h2 : 48 * 256 ^ s.length ≤ c.toNat * 256 ^ s.length := Nat.mul_le_mul_right _ hc.1
    omega

/-- C139 fails for every code and every service: what `uechosearch`, `uechobench` and `uechopost` print for an object
is not its code, and what `uechopost` prints for a service is not the service. The digits shown are those of the
characters of the number. -/
theorem C139_refuted (t : ListTool) (j : Nat) (o : Obj) (pre address : Str) (c : ObjectCode) (e : ESV)
    (ps : List PProp) :
    (∃ before shown, t.text (.object j o) = before ++ "] ".toList ++ shown ++ " (".toList ++ objectName o ++ ")\n".toList ∧
      (∃ v, HexNumber shown v) ∧ ¬ HexNumber shown o.code.toNat) ∧
    (∃ before obj esv after, PostTool.output pre address c e ps
        = before ++ " : ".toList ++ obj ++ [' '] ++ esv ++ [' '] ++ after ∧
      (∃ v, HexNumber obj v) ∧ ¬ HexNumber obj c.toNat ∧ (∃ v, HexNumber esv v) ∧ ¬ HexNumber esv e.toNat) := by
  have some_value : ∀ {s : Str} {n : Nat}, HexNumber s n → ∃ v, HexNumber (fmtXText s) v := by
    intro s n h
    have hb := fmtXText_bytes s (digits_small h)
    have h0 := (hexNumber_lt h).2
    have hd : ∀ c ∈ fmtXText s, ∃ v, HexDigit c v := by
      intro c hc
      obtain ⟨d, hd, hc⟩ := List.mem_flatMap.mp hc
      have := digits_small h d hd
      rcases List.mem_cons.mp hc with rfl | hc
      · exact ⟨_, hexDigit_char _ (by omega)⟩
      · cases List.mem_singleton.mp hc; exact ⟨_, hexDigit_char _ (by omega)⟩
    have all : ∀ (k : Nat) (t : Str), t.length = k + 1 → (∀ c ∈ t, ∃ v, HexDigit c v) → ∃ v, HexNumber t v := by
      intro k
      induction k with
      | zero =>
        intro t hl ht
        match t, hl with
        | [a], _ => obtain ⟨v, hv⟩ := ht a (by simp); exact ⟨v, .digit hv⟩
      | succ k ih =>
        intro t hl ht
        have hne : t ≠ [] := by rintro rfl; simp at hl
        obtain ⟨v, hv⟩ := ht _ (List.getLast_mem hne)
        obtain ⟨w, hw⟩ := ih t.dropLast (by rw [List.length_dropLast]; omega)
          (fun c hc => ht c (List.dropLast_subset _ hc))
        refine ⟨16 * w + v, ?_⟩
        have := HexNumber.snoc hw hv
        rwa [List.dropLast_concat_getLast] at this
    cases hf : fmtXText s with
    | nil =>
      cases s with
      | nil => exact absurd rfl h0
      | cons a s => simp [fmtXText] at hf
    | cons a s' =>
      rw [← hf]
      exact all s'.length _ (by rw [hf]; rfl) hd
  have wrong : ∀ {s : Str} {n : Nat}, HexNumber s n → ¬ HexNumber (fmtXText s) n :=
    fun h hv => absurd (fmtXText_greater h hv) (Nat.lt_irrefl _)
  refine ⟨⟨"    [".toList ++ fmtD j, fmtXText o.code.string, ?_, some_value (fmtX0_number 6 _), wrong (fmtX0_number 6 _)⟩,
    ⟨pre ++ [' '] ++ fmtPad 15 address, fmtXText c.string, fmtXText e.string,
      ps.flatMap (fun p => fmtX2 p.code.toNat ++ hexEncode p.data ++ [' ']) ++ ['\n'], ?_, some_value (fmtX0_number 6 _),
      wrong (fmtX0_number 6 _), some_value (fmtX0_number 2 _), wrong (fmtX0_number 2 _)⟩⟩
  · rfl
  · unfold PostTool.output
    simp only [List.append_assoc]

/-- C139. Different codes are printed differently, and so are different services. Missing for the whole property: the
digits are not those of the code (`C139_refuted`). -/
theorem C139_distinct_partial (c c' : ObjectCode) (e e' : ESV) :
    (fmtXText c.string = fmtXText c'.string ↔ c = c') ∧ (fmtXText e.string = fmtXText e'.string ↔ e = e') := by
  obtain ⟨h1, h2⟩ := C137_distinct c c' e e'
  exact ⟨⟨fun h => h1.mp (fmtXText_inj (digits_small (fmtX0_number 6 _)) (digits_small (fmtX0_number 6 _)) h),
      fun h => by rw [h]⟩,
    ⟨fun h => h2.mp (fmtXText_inj (digits_small (fmtX0_number 2 _)) (digits_small (fmtX0_number 2 _)) h),
      fun h => by rw [h]⟩⟩

theorem fmtX2_bytes (c : Byte) (hc : 0x10 ≤ c.toNat) (data : Bytes) : HexBytes (fmtX2 c.toNat ++ hexEncode data) (c :: data) := by
  have hlt := c.isLt
  have hx : fmtX c.toNat = [hexDigitChar (c.toNat / 16), hexDigitChar (c.toNat % 16)] := by
    rw [fmtX, if_neg (by omega), fmtX, if_pos (by omega)]; rfl
  have h := HexBytes.cons (hexDigit_char (c.toNat / 16) (by omega)) (hexDigit_char (c.toNat % 16) (by omega))
    (hexEncode_bytes data)
  rw [show 16 * (c.toNat / 16) + c.toNat % 16 = c.toNat by omega, BitVec.ofNat_toNat, BitVec.setWidth_eq] at h
  unfold fmtX2
  rw [hx]
  exact h

/-- C139. The codes and the data of properties are shown as they are: by `uechosearch` and `uechobench` in a line each,
and by `uechopost` in the form in which it takes them as arguments. -/
theorem C139_properties_partial (p : EProp) (data : Bytes) :
    (∃ code name, ListTool.search.text (.property p (hexEncode data))
        = "        [".toList ++ code ++ "] ".toList ++ name ++ ": ".toList ++ hexEncode data ++ ['\n'] ∧
      ListTool.bench.text (.property p (hexEncode data))
        = "        [".toList ++ code ++ "] ".toList ++ hexEncode data ++ " (".toList ++ name ++ ")\n".toList ∧
      ShowsNumber 2 (some code) p.code.toNat ∧ ShowsBytes (some (hexEncode data)) data ∧
      name = if p.name = "" then "(unknown)".toList else p.name.toList) ∧
    (∀ (pre address : Str) (o : ObjectCode) (e : ESV) (ps : List PProp),
      (∀ q ∈ ps, 0x10 ≤ q.code.toNat ∧ q.data ≠ []) →
      ∃ (before : Str) (items : List Str), PostTool.output pre address o e ps
          = before ++ items.flatMap (fun s => s ++ [' ']) ++ ['\n'] ∧
        items.mapM PostTool.property = some ps) := by
  constructor
  · refine ⟨fmtX0 2 p.code.toNat, _, rfl, rfl, ⟨_, rfl, fmtX0_length 2 _ (by decide) (by have := p.code.isLt; omega),
      fmtX0_number 2 _⟩, ⟨_, rfl, hexEncode_bytes data⟩, ?_⟩
    by_cases h : p.name = ""
    · rw [if_pos ((toList_empty _).mpr h), if_pos h]; decide
    · rw [if_neg (fun h' => h ((toList_empty _).mp h')), if_neg h]
  · intro pre address o e ps hps
    refine ⟨pre ++ [' '] ++ fmtPad 15 address ++ " : ".toList ++ fmtXText o.string ++ [' '] ++ fmtXText e.string ++ [' '],
      ps.map (fun q => fmtX2 q.code.toNat ++ hexEncode q.data), ?_, ?_⟩
    · unfold PostTool.output
      rw [List.flatMap_map]
    · induction ps with
      | nil => rfl
      | cons q ps ih =>
        have hq := hps q (by simp)
        rw [List.map_cons, List.mapM_cons, (property_iff _ q).mpr ⟨fmtX2_bytes q.code hq.1 q.data, hq.2⟩,
          ih (fun r hr => hps r (by simp [hr]))]
        rfl

/-! ## C140 -/

/-- What is to be listed: a node, an object or a property, with the numbers shown. -/
inductive Item where
  | node (i : Nat) (n : RemoteNode)
  | object (j : Nat) (o : Obj)
  | property (n : RemoteNode) (o : Obj) (p : EProp)

/-- Every node is followed by its objects, and every object by those of its properties that are wanted. -/
def outline (wanted : EProp → Bool) (ns : List RemoteNode) : List Item :=
  ns.zipIdx.flatMap (fun x => .node x.2 x.1 :: x.1.objects.zipIdx.flatMap (fun y =>
    .object y.2 y.1 :: (y.1.props.properties.filter wanted).map (.property x.1 y.1)))

/-- The request for an item: the manufacturer of a node, or the data of a property. -/
def Item.Asks : Item → RemoteNode × Message → Prop
  | .node _ n, r => r.1 = n ∧ Reads r.2 0x0EF001 0x8A
  | .object _ _, _ => False
  | .property n o p, r => r.1 = n ∧ Reads r.2 o.code.toNat p.code

/-- The line for an item, `answer` being the answer to its request. -/
def Item.Shows (mans : List Manufacture) (blank : Str) (answer : Except Str (List PProp)) : Item → ToolLine → Prop
  | .node i n, l => ∃ man, l = .node i n man ∧
      ((∃ p m, answer = .ok [p] ∧ lookupManufacture mans (beNat p.data % 2 ^ 64) = some m ∧ man = m.name.toList) ∨
       ((∀ p m, answer = .ok [p] → lookupManufacture mans (beNat p.data % 2 ^ 64) ≠ some m) ∧ man = "unknown".toList))
  | .object j o, l => l = .object j o
  | .property _ _ p, l => ∃ data, l = .property p data ∧
      (∀ q, answer = .ok [q] → HexBytes data q.data) ∧
      (∀ qs, answer = .ok qs → qs.length ≠ 1 → data = blank) ∧
      (∀ e, answer = .error e → data = e)

/-- A run that begins after `k` requests and prints one line for each item, in this order, and makes the request of each
item that has one: the line shows the answer to this request. -/
inductive ListRun (mans : List Manufacture) (blank : Str) (ans : PostAnswers) :
    Nat → List Item → List (RemoteNode × Message) → List ToolLine → Prop
  | nil (k : Nat) : ListRun mans blank ans k [] [] []
  | asked {k : Nat} {item : Item} {r : RemoteNode × Message} {l : ToolLine} {items posts lines} :
      item.Asks r → item.Shows mans blank (ans k r.1 r.2) l → ListRun mans blank ans (k + 1) items posts lines →
      ListRun mans blank ans k (item :: items) (r :: posts) (l :: lines)
  | object {k j : Nat} {o : Obj} {items posts lines} : ListRun mans blank ans k items posts lines →
      ListRun mans blank ans k (.object j o :: items) posts (.object j o :: lines)

theorem ListRun.append {mans : List Manufacture} {blank : Str} {ans : PostAnswers} {k : Nat} {items posts lines}
    (h : ListRun mans blank ans k items posts lines) {items' posts' lines'}
    (h' : ListRun mans blank ans (k + posts.length) items' posts' lines') :
    ListRun mans blank ans k (items ++ items') (posts ++ posts') (lines ++ lines') := by
  induction h with
  | nil k => exact h'
  | asked ha hs _ ih =>
    refine .asked ha hs (ih ?_)
    rwa [List.length_cons, ← Nat.add_assoc, Nat.add_right_comm] at h'
  | object _ ih => exact .object (ih h')

theorem shows_node (mans : List Manufacture) (blank : Str) (a : Except Str (List PProp)) (i : Nat) (n : RemoteNode) :
    (Item.node i n).Shows mans blank a (.node i n (manufacturerName mans a)) := by
  refine ⟨_, rfl, ?_⟩
  obtain ⟨k, m, -, h⟩ := showsManufacturer mans (fun _ _ _ => a) n 0
  exact h

theorem shows_property (t : ListTool) (mans : List Manufacture) (a : Except Str (List PProp)) (n : RemoteNode) (o : Obj)
    (p : EProp) : (Item.property n o p).Shows mans t.blank a (.property p (t.shown a)) := by
  refine ⟨_, rfl, ?_, ?_, ?_⟩
  · rintro q rfl
    exact hexEncode_bytes q.data
  · rintro qs rfl hq
    match qs, hq with
    | [], _ => rfl
    | _ :: _ :: _, _ => rfl
  · rintro e rfl
    rfl

theorem data_request {o : Obj} (ho : o.codes.length = 3) (p : EProp) : Reads (dataRequest o p) o.code.toNat p.code := by
  refine ⟨rfl, ?_, rfl, rfl⟩
  have hd : ((Message.new.setESV ESV.readRequest).setDEOJ o.code).deoj = beBytes 3 o.code.toNat := by
    show integerToByte o.code Message.new.deoj = _
    rw [integerToByte_eq]; rfl
  rw [getDEOJ_toNat (by show ((Message.new.setESV ESV.readRequest).setDEOJ o.code).deoj.length = 3
                        rw [hd]; exact beBytes_length _ _)]
  show beNat ((Message.new.setESV ESV.readRequest).setDEOJ o.code).deoj = _
  rw [hd, beNat_beBytes, Nat.mod_eq_of_lt (code_lt ho).2]

theorem properties_run (t : ListTool) (mans : List Manufacture) (ans : PostAnswers) (n : RemoteNode) (o : Obj)
    (ho : o.codes.length = 3) :
    ∀ (ps : List EProp) (made : List (RemoteNode × Message)), ∃ posts lines,
      t.properties ans n o made ps = (made ++ posts, lines) ∧
      ListRun mans t.blank ans made.length ((ps.filter t.keep).map (.property n o)) posts lines
  | [], made => ⟨[], [], by rw [List.append_nil]; rfl, .nil _⟩
  | p :: ps, made => by
    unfold ListTool.properties
    by_cases hk : t.keep p = true
    · obtain ⟨posts, lines, h, hr⟩ := properties_run t mans ans n o ho ps (made ++ [(n, dataRequest o p)])
      refine ⟨(n, dataRequest o p) :: posts, .property p (t.shown (ans made.length n (dataRequest o p))) :: lines, ?_, ?_⟩
      · rw [if_neg (by simp [hk])]
        dsimp only
        rw [h, List.append_assoc]
        rfl
      · rw [List.filter_cons, if_pos hk, List.map_cons]
        rw [List.length_append, List.length_singleton] at hr
        exact .asked ⟨rfl, data_request ho p⟩ (shows_property t mans _ n o p) hr
    · obtain ⟨posts, lines, h, hr⟩ := properties_run t mans ans n o ho ps made
      refine ⟨posts, lines, ?_, ?_⟩
      · rw [if_pos (by simp [hk]), h]
      · rw [List.filter_cons, if_neg hk]; exact hr

theorem objects_run (t : ListTool) (mans : List Manufacture) (ans : PostAnswers) (n : RemoteNode) :
    ∀ (os : List Obj) (j : Nat) (made : List (RemoteNode × Message)), (∀ o ∈ os, o.codes.length = 3) → ∃ posts lines,
      t.objects ans n j made os = (made ++ posts, lines) ∧
      ListRun mans t.blank ans made.length ((os.zipIdx j).flatMap (fun y =>
        .object y.2 y.1 :: (y.1.props.properties.filter t.keep).map (.property n y.1))) posts lines
  | [], j, made, _ => ⟨[], [], by rw [List.append_nil]; rfl, .nil _⟩
  | o :: os, j, made, ho => by
    obtain ⟨p1, l1, h1, r1⟩ := properties_run t mans ans n o (ho o (by simp)) o.props.properties made
    obtain ⟨p2, l2, h2, r2⟩ := objects_run t mans ans n os (j + 1) (made ++ p1) (fun x hx => ho x (by simp [hx]))
    refine ⟨p1 ++ p2, .object j o :: l1 ++ l2, ?_, ?_⟩
    · unfold ListTool.objects
      rw [h1]
      dsimp only
      rw [h2, List.append_assoc]
    · rw [List.zipIdx_cons, List.flatMap_cons]
      rw [List.length_append] at r2
      exact .object (r1.append r2)

theorem manufacturer_code : manufacturerRequest.getDEOJ.toNat = 0x0EF001 := by decide

theorem nodes_run (t : ListTool) (mans : List Manufacture) (ans : PostAnswers) :
    ∀ (ns : List RemoteNode) (i : Nat) (made : List (RemoteNode × Message)),
      (∀ n ∈ ns, ∀ o ∈ n.objects, o.codes.length = 3) → ∃ posts lines,
      t.nodes mans ans i made ns = (made ++ posts, lines) ∧
      ListRun mans t.blank ans made.length ((ns.zipIdx i).flatMap (fun x =>
        .node x.2 x.1 :: x.1.objects.zipIdx.flatMap (fun y =>
          .object y.2 y.1 :: (y.1.props.properties.filter t.keep).map (.property x.1 y.1)))) posts lines
  | [], i, made, _ => ⟨[], [], by rw [List.append_nil]; rfl, .nil _⟩
  | n :: ns, i, made, ho => by
    obtain ⟨p1, l1, h1, r1⟩ := objects_run t mans ans n n.objects 0 (made ++ [(n, manufacturerRequest)])
      (ho n (by simp))
    obtain ⟨p2, l2, h2, r2⟩ := nodes_run t mans ans ns (i + 1) (made ++ [(n, manufacturerRequest)] ++ p1)
      (fun x hx => ho x (by simp [hx]))
    refine ⟨(n, manufacturerRequest) :: p1 ++ p2,
      .node i n (manufacturerName mans (ans made.length n manufacturerRequest)) :: l1 ++ l2, ?_, ?_⟩
    · unfold ListTool.nodes
      dsimp only
      rw [h1]
      dsimp only
      rw [h2]
      simp only [List.append_assoc, List.cons_append, List.nil_append]
    · rw [List.zipIdx_cons, List.flatMap_cons]
      rw [List.length_append, List.length_append, List.length_singleton] at r2
      rw [List.length_append, List.length_singleton] at r1
      exact .asked (r := (n, manufacturerRequest)) ⟨rfl, ⟨rfl, manufacturer_code, rfl, rfl⟩⟩ (shows_node mans _ _ i n) (r1.append r2)

theorem rounds_run (t : ListTool) (mans : List Manufacture) (ans : PostAnswers) :
    ∀ (rs : List (List RemoteNode)) (made : List (RemoteNode × Message)),
      (∀ ns ∈ rs, ∀ n ∈ ns, ∀ o ∈ n.objects, o.codes.length = 3) → ∃ posts lines,
      t.rounds mans ans made rs = (made ++ posts, lines) ∧
      ListRun mans t.blank ans made.length (rs.flatMap (outline t.keep)) posts lines
  | [], made, _ => ⟨[], [], by rw [List.append_nil]; rfl, .nil _⟩
  | ns :: rs, made, ho => by
    obtain ⟨p1, l1, h1, r1⟩ := nodes_run t mans ans ns 0 made (ho ns (by simp))
    obtain ⟨p2, l2, h2, r2⟩ := rounds_run t mans ans rs (made ++ p1) (fun x hx => ho x (by simp [hx]))
    refine ⟨p1 ++ p2, l1 ++ l2, ?_, ?_⟩
    · unfold ListTool.rounds
      rw [h1]
      dsimp only
      rw [h2, List.append_assoc]
    · rw [List.flatMap_cons]
      rw [List.length_append] at r2
      exact r1.append r2

/-- C140. `uechosearch` lists every node found, every object of it, and every property that has to be readable. It asks
each node once for its manufacturer and once for each of these properties, whatever the answers are, and shows the
answers. -/
theorem C140_search (mans : List Manufacture) (ans : PostAnswers) (ns : List RemoteNode)
    (ho : ∀ n ∈ ns, ∀ o ∈ n.devices ++ n.profiles, o.codes.length = 3) :
    ListRun mans "--".toList ans 0 (outline (fun p => p.getAttr = Attr.required) ns)
      (ListTool.search.nodes mans ans 0 [] ns).1 (ListTool.search.nodes mans ans 0 [] ns).2 := by
  obtain ⟨posts, lines, h, hr⟩ := nodes_run ListTool.search mans ans ns 0 [] ho
  rw [h]
  have hk : ListTool.search.keep = fun p => decide (p.getAttr = Attr.required) := by
    funext p; show p.getAttr.isRequired = _
    unfold Attr.isRequired; exact Bool.beq_eq_decide_eq _ _
  rw [hk] at hr
  exact hr

/-- C140. `uechobench` does so in every round, for the nodes known then and every property that may be read. -/
theorem C140_bench (mans : List Manufacture) (ans : PostAnswers) (rs : List (List RemoteNode))
    (ho : ∀ ns ∈ rs, ∀ n ∈ ns, ∀ o ∈ n.devices ++ n.profiles, o.codes.length = 3) :
    ListRun mans [] ans 0 (rs.flatMap (outline (fun p => p.getAttr ≠ Attr.prohibited)))
      (ListTool.bench.rounds mans ans [] rs).1 (ListTool.bench.rounds mans ans [] rs).2 := by
  obtain ⟨posts, lines, h, hr⟩ := rounds_run ListTool.bench mans ans rs [] ho
  rw [h]
  have hk : ListTool.bench.keep = fun p => decide (p.getAttr ≠ Attr.prohibited) := by
    funext p; show (!p.getAttr.isProhibited) = _
    unfold Attr.isProhibited
    by_cases h : p.getAttr = Attr.prohibited <;> simp [h]
  rw [hk] at hr
  exact hr

/-- A node with an air conditioner of two properties, of which one has to be readable: one line for the node, one for
the object and one for this property, and two requests. -/
example :
    let p := EProp.make 0x80 "" [0x30] .required .optional .prohibited
    let o : Obj := ⟨"Home air conditioner", "", [1, 0x30, 1], [EProp.make 0xB0 "" [0x41] .optional .optional .prohibited, p]⟩
    let n : RemoteNode := ⟨"10.0.0.2", 3610, [o], []⟩
    let ans : PostAnswers := fun k _ _ => if k = 0 then .ok [⟨0x8A, [0, 0, 0x0B]⟩] else .error "timeout".toList
    (∀ n' ∈ [n], ∀ o ∈ n'.devices ++ n'.profiles, o.codes.length = 3) ∧
    outline (fun p => p.getAttr = Attr.required) [n] = [.node 0 n, .object 0 o, .property n o p] ∧
    (ListTool.search.nodes [] ans 0 [] [n]).1.length = 2 ∧
    (ListTool.search.nodes [] ans 0 [] [n]).2
      = [.node 0 n "unknown".toList, .object 0 o, .property p "timeout".toList] := by
  refine ⟨by decide, ?_, by decide, ?_⟩
  · rfl
  · rfl

/-- Code `013001` and service `62`. -/
example : fmtXText (ObjectCode.string 0x013001) = "303133303031".toList ∧ fmtXText (ESV.string 0x62) = "3632".toList := by
  constructor
  · unfold ObjectCode.string fmtX0; simp [fmtX]; decide
  · unfold ESV.string fmtX0; simp [fmtX]; decide

end Verif.Props
