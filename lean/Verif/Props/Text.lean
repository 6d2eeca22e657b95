import Verif.Model.Text
import Verif.Props.Address
import Verif.Props.Commands
import Verif.Props.Scan

/-! # C137 and C138: text forms of codes, messages and nodes -/

namespace Verif.Props
open Verif Model Spec

/-! ## Hexadecimal numbers and bytes -/

theorem hexDigit_unique {c : Char} {v w : Nat} (h : HexDigit c v) (h' : HexDigit c w) : v = w := by
  have h1 := (fromHexChar_lower asciiLowering c v).mpr h
  have h2 := (fromHexChar_lower asciiLowering c w).mpr h'
  exact Option.some.inj (h1.symm.trans h2)

/-- The value of hexadecimal digits, most significant first, after `n`. -/
def hexValue (n : Nat) (s : Str) : Nat :=
  s.foldl (fun n c => 16 * n + (fromHexChar (asciiLowering.toLower c)).getD 0) n

theorem hexValue_digit {c : Char} {v : Nat} (h : HexDigit c v) :
    (fromHexChar (asciiLowering.toLower c)).getD 0 = v := by
  rw [(fromHexChar_lower asciiLowering c v).mpr h]; rfl

theorem hexNumber_value {s : Str} {n : Nat} (h : HexNumber s n) : hexValue 0 s = n := by
  induction h with
  | digit h => unfold hexValue; rw [List.foldl_cons, List.foldl_nil, hexValue_digit h]; omega
  | snoc _ h ih =>
    unfold hexValue at ih ⊢
    rw [List.foldl_append, ih, List.foldl_cons, List.foldl_nil, hexValue_digit h]

theorem hexNumber_unique {s : Str} {n n' : Nat} (h : HexNumber s n) (h' : HexNumber s n') : n = n' :=
  (hexNumber_value h).symm.trans (hexNumber_value h')

theorem hexNumber_text {s : Str} {n : Nat} (h : HexNumber s n) : ∀ c ∈ s, ∃ v, HexDigit c v := by
  induction h with
  | digit h => intro c hc; cases List.mem_singleton.mp hc; exact ⟨_, h⟩
  | snoc _ h ih =>
    intro c hc
    rcases List.mem_append.mp hc with hc | hc
    · exact ih c hc
    · cases List.mem_singleton.mp hc; exact ⟨_, h⟩

theorem hexBytes_value {s : Str} {bs : Bytes} (h : HexBytes s bs) (n : Nat) :
    hexValue n s = n * 256 ^ bs.length + beNat bs := by
  induction h generalizing n with
  | nil => simp [hexValue, beNat]
  | @cons a b x y s bs ha hb _ ih =>
    have := ih (16 * (16 * n + x) + y)
    unfold hexValue at this ⊢
    rw [List.foldl_cons, List.foldl_cons, hexValue_digit ha, hexValue_digit hb, this]
    have hx := hexDigit_lt ha
    have hy := hexDigit_lt hb
    have e := beNat_append [BitVec.ofNat 8 (16 * x + y)] bs
    rw [List.singleton_append] at e
    have e1 : beNat [BitVec.ofNat 8 (16 * x + y)] = 16 * x + y := by
      simp [beNat]; omega
    rw [e, e1, List.length_cons, Nat.pow_succ, show 16 * (16 * n + x) + y = 256 * n + (16 * x + y) by omega,
      Nat.add_mul]
    have : 256 * n * 256 ^ bs.length = n * (256 ^ bs.length * 256) := by
      rw [Nat.mul_comm 256 n, Nat.mul_assoc, Nat.mul_comm 256]
    omega

theorem digits_bytes : ∀ (k : Nat) (s : Str), s.length = 2 * k → (∀ c ∈ s, ∃ v, HexDigit c v) →
    ∃ bs, HexBytes s bs ∧ bs.length = k
  | 0, s, hl, _ => by
    cases List.eq_nil_of_length_eq_zero (by omega : s.length = 0)
    exact ⟨[], .nil, rfl⟩
  | k + 1, a :: b :: s, hl, hd => by
    rw [List.length_cons, List.length_cons] at hl
    obtain ⟨bs, h, hk⟩ := digits_bytes k s (by omega) (fun c hc => hd c (by simp [hc]))
    obtain ⟨x, hx⟩ := hd a (by simp)
    obtain ⟨y, hy⟩ := hd b (by simp)
    exact ⟨_, .cons hx hy h, by rw [List.length_cons, hk]⟩
  | k + 1, [], hl, _ => by simp at hl; 
  | k + 1, [_], hl, _ => by simp at hl; omega

theorem number_bytes {s : Str} {n k : Nat} (h : HexNumber s n) (hl : s.length = 2 * k) :
    ∃ bs, HexBytes s bs ∧ bs.length = k ∧ beNat bs = n := by
  obtain ⟨bs, hb, hk⟩ := digits_bytes k s hl (hexNumber_text h)
  refine ⟨bs, hb, hk, ?_⟩
  have := hexBytes_value hb 0
  rw [hexNumber_value h, Nat.zero_mul, Nat.zero_add] at this
  exact this.symm

theorem digit_not_blank {c : Char} {v : Nat} (h : HexDigit c v) : c ≠ ' ' := by
  rintro rfl
  have := (fromHexChar_lower asciiLowering ' ' v).mpr h
  rw [show fromHexChar (asciiLowering.toLower ' ') = none by decide] at this
  cases this

theorem digits_noBlanks {s : Str} (h : ∀ c ∈ s, ∃ v, HexDigit c v) : noBlanks s = s := by
  unfold noBlanks
  rw [List.filter_eq_self]
  intro c hc
  obtain ⟨v, hv⟩ := h c hc
  simpa using digit_not_blank hv

/-! ## C137 -/

/-- C137. `String()` of an object code writes its number in hexadecimal digits, six of them for every code
that fits in a message; the number typed into the tools is the code again. -/
theorem C137_code (l : Lowering) (c : ObjectCode) :
    HexNumber c.string c.toNat ∧
    (c.toNat < 2 ^ 24 → c.string.length = 6 ∧ hexStringToInt l c.string = .ok c) := by
  refine ⟨fmtX0_number 6 c.toNat, fun hc => ?_⟩
  have hl : c.string.length = 6 := fmtX0_length 6 _ (by decide) (by omega)
  refine ⟨hl, ?_⟩
  obtain ⟨bs, hb, hk, hn⟩ := number_bytes (k := 3) (fmtX0_number 6 c.toNat) hl
  have hnb : noBlanks c.string = c.string := digits_noBlanks (hexNumber_text (fmtX0_number 6 c.toNat))
  obtain ⟨v, hv, he⟩ := (C65_number_partial l c.string).1 bs (by rw [hnb]; exact hb) (by omega)
  rw [hv]
  congr 1
  apply BitVec.eq_of_toInt_eq
  rw [he, hn, BitVec.toInt_eq_toNat_of_lt (by omega)]

/-- C137. Different codes have different texts. -/
theorem C137_distinct (c c' : ObjectCode) (e e' : ESV) :
    (c.string = c'.string ↔ c = c') ∧ (e.string = e'.string ↔ e = e') := by
  refine ⟨⟨fun h => ?_, fun h => by rw [h]⟩, ⟨fun h => ?_, fun h => by rw [h]⟩⟩
  · have h1 := fmtX0_number 6 c.toNat
    have h2 := fmtX0_number 6 c'.toNat
    change HexNumber c.string _ at h1
    rw [h] at h1
    exact BitVec.eq_of_toNat_eq (hexNumber_unique h1 h2)
  · have h1 := fmtX0_number 2 e.toNat
    have h2 := fmtX0_number 2 e'.toNat
    change HexNumber e.string _ at h1
    rw [h] at h1
    exact BitVec.eq_of_toNat_eq (hexNumber_unique h1 h2)

/-- C137. `String()` of a service code has two digits, which are its number. -/
theorem C137_service (e : ESV) : e.string.length = 2 ∧ HexNumber e.string e.toNat :=
  ⟨fmtX0_length 2 _ (by decide) (by have := e.isLt; omega), fmtX0_number 2 e.toNat⟩

theorem hexBytes_digits {s : Str} {bs : Bytes} (h : HexBytes s bs) : ∀ c ∈ s, ∃ v, HexDigit c v := by
  induction h with
  | nil => intro c hc; exact absurd hc List.not_mem_nil
  | cons ha hb _ ih =>
    intro c hc
    rcases List.mem_cons.mp hc with rfl | hc
    · exact ⟨_, ha⟩
    · rcases List.mem_cons.mp hc with rfl | hc
      · exact ⟨_, hb⟩
      · exact ih c hc

theorem hexEncode_back (l : Lowering) (bs : Bytes) : hexStringToByte l (hexEncode bs) = .ok bs := by
  rw [(C65_bytes l _).1, digits_noBlanks (hexBytes_digits (hexEncode_bytes bs))]
  exact hexEncode_bytes bs

theorem hexEncode_inj {a b : Bytes} (h : hexEncode a = hexEncode b) : a = b := by
  have h1 := hexEncode_back asciiLowering a
  rw [h, hexEncode_back] at h1
  exact (Res.ok.inj h1).symm

/-- C137. `String()` of a message writes its bytes, two digits each; they can be read back with the tools; nil is
the empty text; and two messages have the same text exactly when `Equals` holds. -/
theorem C137_message (l : Lowering) (a b : Message) (x y : Bytes) (ha : a.bytesRes = .ok x)
    (hb : b.bytesRes = .ok y) :
    (∃ s, Message.string (some a) = .ok s ∧ HexBytes s x ∧ hexStringToByte l s = .ok x) ∧
    Message.string none = .ok [] ∧
    (Message.string (some a) = Message.string (some b) ↔ Message.equals (some a) (some b) = true) := by
  have hs : ∀ {m : Message} {x : Bytes}, m.bytesRes = .ok x → Message.string (some m) = .ok (hexEncode x) := by
    intro m x h
    show (do let b ← m.bytesRes; Res.ok (hexEncode b)) = _
    rw [h]; rfl
  refine ⟨⟨_, hs ha, hexEncode_bytes x, hexEncode_back l x⟩, rfl, ?_⟩
  have e1 : a.bytes = x := by unfold Message.bytes; rw [ha]
  have e2 : b.bytes = y := by unfold Message.bytes; rw [hb]
  rw [hs ha, hs hb]
  unfold Message.equals
  dsimp only
  rw [e1, e2, decide_eq_true_iff]
  exact ⟨fun h => hexEncode_inj (Res.ok.inj h), fun h => by rw [h]⟩

/-- C137. What `scan` prints can be typed into `get` and `set`: the object code and the property code it prints
give a request for that property of that object, and the data it prints is the data written. -/
theorem C137_retyped (l : Lowering) (c : ObjectCode) (hc : c.toNat < 2 ^ 24) (p : Byte) (data : Bytes) :
    (∃ m, getRequest l c.string (fmtX0 2 p.toNat) = .ok m ∧ m.getDEOJ = c ∧ m.esv = 0x62 ∧
      m.ep = [some ⟨p, []⟩]) ∧
    (∃ m, setRequest l c.string (fmtX0 2 p.toNat) (hexEncode data) = .ok m ∧ m.getDEOJ = c ∧ m.esv = 0x60 ∧
      m.ep = [some ⟨p, data⟩]) := by
  have hl : c.string.length = 2 * 3 := fmtX0_length 6 _ (by decide) (by omega)
  obtain ⟨o, ho, hk, hn⟩ := number_bytes (k := 3) (fmtX0_number 6 c.toNat) hl
  have hnb : noBlanks c.string = c.string := digits_noBlanks (hexNumber_text (fmtX0_number 6 c.toNat))
  have hlp : (fmtX0 2 p.toNat).length = 2 * 1 := fmtX0_length 2 _ (by decide) (by have := p.isLt; omega)
  obtain ⟨q, hq, hkq, hnq⟩ := number_bytes (k := 1) (fmtX0_number 2 p.toNat) hlp
  have hnp : noBlanks (fmtX0 2 p.toNat) = fmtX0 2 p.toNat :=
    digits_noBlanks (hexNumber_text (fmtX0_number 2 p.toNat))
  have hqp : q = [p] := by
    match q, hkq with
    | [x], _ =>
      have : x.toNat = p.toNat := by rw [← hnq]; simp [beNat]
      rw [BitVec.eq_of_toNat_eq this]
  rw [hqp] at hq
  have hd : noBlanks (hexEncode data) = hexEncode data := digits_noBlanks (hexBytes_digits (hexEncode_bytes data))
  constructor
  · obtain ⟨m, hm, _, hg, he, _, hep⟩ := C74_get_partial l c.string (fmtX0 2 p.toNat) o p (by rw [hnb]; exact ho)
      (by omega) (by rw [hnp]; exact hq)
    exact ⟨m, hm, BitVec.eq_of_toNat_eq (by rw [hg, hn]), he, hep⟩
  · obtain ⟨m, hm, _, hg, he, _, hep⟩ := C74_set_partial l c.string (fmtX0 2 p.toNat) (hexEncode data) o data p
      (by rw [hnb]; exact ho) (by omega) (by rw [hnp]; exact hq) (by rw [hd]; exact hexEncode_bytes data)
    exact ⟨m, hm, BitVec.eq_of_toNat_eq (by rw [hg, hn]), he, hep⟩

/-- Texts of an object code, a service and a message. -/
example : ObjectCode.string 0x013001 = "013001".toList ∧ ESV.string 0x62 = "62".toList ∧
    Message.string (some (Message.new.setDEOJ 0x05FF01)) = .ok "1081000000000005ff010000".toList := by
  refine ⟨?_, ?_, by decide +kernel⟩
  · unfold ObjectCode.string fmtX0; simp [fmtX]; decide
  · unfold ESV.string fmtX0; simp [fmtX]; decide

/-! ## C138 -/

theorem itoa_no_colon (n : Int) : ':' ∉ itoa n := by
  intro h
  rcases itoa_chars n ':' h with h | h
  · exact absurd h (by decide)
  · exact absurd h (by decide)

/-- The host as it stands before the colon. -/
def bracketed (h : Str) : Str := if ':' ∈ h then '[' :: h ++ [']'] else h

theorem join_bracketed (h p : Str) : joinHostPort h p = bracketed h ++ ':' :: p := by
  unfold joinHostPort bracketed
  split <;> simp

theorem bracketed_inj {h h' : Str} (e : bracketed h = bracketed h') : h = h' := by
  unfold bracketed at e
  split at e
  · next c =>
    split at e
    · rw [List.cons_append, List.cons_append, List.cons.injEq] at e
      exact (List.append_inj' e.2 rfl).1
    · next c' => exact absurd (by rw [← e]; simp [c]) c'
  · next c =>
    split at e
    · next c' => exact absurd (by rw [e]; simp [c']) c
    · exact e

theorem join_inj {h h' p p' : Str} (hp : ':' ∉ p) (hp' : ':' ∉ p')
    (e : joinHostPort h p = joinHostPort h' p') : h = h' ∧ p = p' := by
  rw [join_bracketed, join_bracketed] at e
  have h1 := lastColon_append (bracketed h) p hp
  rw [e, lastColon_append (bracketed h') p' hp'] at h1
  have hlen : (bracketed h).length = (bracketed h').length := (Option.some.inj h1).symm
  have := List.append_inj e hlen
  exact ⟨bracketed_inj this.1, (List.cons.injEq _ _ _ _ ▸ this.2).2⟩

theorem itoa_inj {n n' : Nat} (h : itoa n = itoa n') : n = n' := by
  unfold itoa at h
  rw [if_neg (by omega), if_neg (by omega)] at h
  have h1 := atoiDigits_fmtD (n : Int).natAbs []
  rw [h, atoiDigits_fmtD] at h1
  have := Option.some.inj h1
  omega

/-- C138. Two nodes print as the same text exactly when they are equal, that is, have the same address and
port. -/
theorem C138_distinct (a b : RemoteNode) :
    (a.string = b.string ↔ a.equals b = true) ∧
    (a.string = b.string ↔ a.address = b.address ∧ a.port = b.port) := by
  have key : a.string = b.string ↔ a.address = b.address ∧ a.port = b.port := by
    constructor
    · intro h
      obtain ⟨h1, h2⟩ := join_inj (itoa_no_colon _) (itoa_no_colon _) h
      exact ⟨String.toList_inj.mp h1, itoa_inj h2⟩
    · rintro ⟨h1, h2⟩
      unfold RemoteNode.string
      rw [h1, h2]
  refine ⟨?_, key⟩
  rw [key]
  unfold RemoteNode.equals
  constructor
  · rintro ⟨h1, h2⟩
    rw [if_neg (by simpa using h2), if_neg (by simpa using h1)]
  · intro h
    split at h
    · cases h
    · next h2 =>
      split at h
      · cases h
      · next h1 => exact ⟨by simpa using h1, by simpa using h2⟩

/-- C138. The text of a node with an IPv4 address, or with an IPv6 address, is read back by
`NewAddressWithString` as that address and port. -/
theorem C138_back (v6 : V6) (hv : V6Text v6) (ip : Bytes) (h : ip.length = 4 ∨ ip.length = 16) (n : RemoteNode)
    (ha : n.address.toList = ipString v6 ip) (hp : n.port < 2 ^ 63) :
    Address.ofString v6 n.string = some ⟨sixteen ip, n.port⟩ := by
  have := (C87_back_partial v6 hv ⟨ip, n.port⟩ ⟨[], 0⟩ h (by show -2 ^ 63 ≤ (n.port : Int); omega)
    (by show (n.port : Int) < 2 ^ 63; omega)).2
  unfold Address.string at this
  unfold RemoteNode.string nodeString
  rw [ha]
  exact this

theorem fmtD_port : itoa 3610 = "3610".toList := by
  have e : (3610 : Int).natAbs = 3610 := by decide
  unfold itoa
  rw [if_neg (by decide), e, fmtD_step 3610 (by decide), fmtD_step (3610 / 10) (by decide), fmtD_step (3610 / 10 / 10) (by decide),
    fmtD_small (3610 / 10 / 10 / 10) (by decide)]
  decide

/-- The texts of two nodes, and the hypotheses of `C138_back`. -/
example : nodeString "10.0.0.2" 3610 = "10.0.0.2:3610".toList ∧ nodeString "fe80::1" 3610 = "[fe80::1]:3610".toList ∧
    ("10.0.0.2".toList = ipString toyV6 [10, 0, 0, 2]) ∧ V6Text toyV6 := by
  refine ⟨?_, ?_, ?_, toyV6_text⟩
  · unfold nodeString; rw [show ((3610 : Nat) : Int) = 3610 from rfl, fmtD_port]; decide
  · unfold nodeString; rw [show ((3610 : Nat) : Int) = 3610 from rfl, fmtD_port]; decide
  · show _ = dotted [10, 0, 0, 2]
    rw [dotted_four, show (10 : Byte).toNat = 10 from rfl, fmtD_step 10 (by decide), fmtD_small (10 / 10) (by decide),
      fmtD_small (0 : Byte).toNat (by decide), fmtD_small (2 : Byte).toNat (by decide)]
    decide

end Verif.Props
