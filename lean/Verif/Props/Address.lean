import Verif.Props.Scan
import Verif.Model.Address

/-! C87: addresses and their strings. -/

namespace Verif.Props
open Verif Model Lemmas

/-! ## Decimal numerals -/

theorem digit_char : ∀ n < 10, (hexDigitChar n).isDigit = true ∧ digitValue (hexDigitChar n) = n := by decide

theorem char_digit (c : Char) (h : c.isDigit = true) : digitValue c < 10 ∧ hexDigitChar (digitValue c) = c := by
  have h1 : 48 ≤ c.toNat ∧ c.toNat ≤ 57 := by
    simp only [Char.isDigit, Bool.and_eq_true, decide_eq_true_eq] at h
    exact ⟨h.1, h.2⟩
  have : ∀ n, n < 10 → hexDigitChar n = Char.ofNat (48 + n) := by decide
  unfold digitValue
  refine ⟨by omega, ?_⟩
  rw [this _ (by omega), show 48 + (c.toNat - 48) = c.toNat by omega, Char.ofNat_toNat]

theorem fmtD_step (v : Nat) (h : 10 ≤ v) : fmtD v = fmtD (v / 10) ++ [hexDigitChar (v % 10)] := by
  rw [fmtD, if_neg (by omega)]

theorem fmtD_small (v : Nat) (h : v < 10) : fmtD v = [hexDigitChar v] := by
  rw [fmtD, if_pos h]

theorem atoiDigits_fmtD (v : Nat) (rest : Str) : atoiDigits 0 (fmtD v ++ rest) = atoiDigits v rest := by
  induction v using Nat.strongRecOn generalizing rest with
  | _ v ih =>
    by_cases h : v < 10
    · rw [fmtD_small v h]
      simp [atoiDigits, digit_char v h]
    · rw [fmtD_step v (by omega), List.append_assoc, ih (v / 10) (by omega)]
      simp only [List.cons_append, List.nil_append, atoiDigits, (digit_char (v % 10) (by omega)).1, if_true,
        (digit_char (v % 10) (by omega)).2]
      congr 1
      omega

/-- `Atoi` reads what `Itoa` writes. -/
theorem atoi_itoa (n : Int) (h1 : -2 ^ 63 ≤ n) (h2 : n < 2 ^ 63) : atoi (itoa n) = some n := by
  have hd := atoiDigits_fmtD n.natAbs []
  rw [List.append_nil] at hd
  have hne := (fmtD_digits n.natAbs).2
  have hhead : ∀ c, c.isDigit = false → (fmtD n.natAbs).head? ≠ some c := by
    intro c hc h
    have := (fmtD_digits n.natAbs).1 c (List.mem_of_mem_head? h)
    rw [hc] at this; cases this
  unfold itoa
  by_cases hn : n < 0
  · rw [if_pos hn]
    unfold atoi
    simp only [List.head?_cons, true_or, if_true, List.drop_succ_cons, List.drop_zero, if_neg hne, hd, atoiDigits]
    rw [if_pos (by omega)]
    congr 1
    omega
  · rw [if_neg hn]
    unfold atoi
    simp only [hhead '-' rfl, hhead '+' rfl, false_or, if_false, if_neg hne, hd, atoiDigits]
    rw [if_pos (by omega)]
    congr 1
    omega

theorem itoa_chars (n : Int) : ∀ c ∈ itoa n, c = '-' ∨ c.isDigit = true := by
  intro c hc
  unfold itoa at hc
  split at hc
  · rcases List.mem_cons.mp hc with rfl | hc
    · exact Or.inl rfl
    · exact Or.inr ((fmtD_digits _).1 c hc)
  · exact Or.inr ((fmtD_digits _).1 c hc)

/-! ## Dotted decimal -/

theorem ipv4_field (fields : Bytes) (v : Nat) (hv : v ≤ 255) (rest : Str) :
    ipv4Loop fields 0 0 (fmtD v ++ rest) = ipv4Loop fields v (fmtD v).length rest := by
  induction v using Nat.strongRecOn generalizing rest with
  | _ v ih =>
    by_cases h : v < 10
    · rw [fmtD_small v h]
      simp [ipv4Loop, digit_char v h]
      omega
    · rw [fmtD_step v (by omega), List.append_assoc, ih (v / 10) (by omega) (by omega)]
      have h1 := digit_char (v % 10) (by omega)
      have h2 : v / 10 * 10 + v % 10 = v := by omega
      simp only [List.cons_append, List.nil_append, ipv4Loop, h1.1, if_true, h1.2, h2, List.length_append,
        List.length_cons, List.length_nil]
      rw [if_neg (by omega), if_neg (by omega)]

theorem dotted_four (a b c d : Byte) : dotted [a, b, c, d] =
    fmtD a.toNat ++ '.' :: (fmtD b.toNat ++ '.' :: (fmtD c.toNat ++ '.' :: fmtD d.toNat)) := by
  simp [dotted, List.intercalate, List.intersperse]

theorem four {b : Bytes} (h : b.length = 4) : ∃ x y z t, b = [x, y, z, t] := by
  match b, h with
  | [x, y, z, t], _ => exact ⟨x, y, z, t, rfl⟩

theorem ipv4_dotted (b : Bytes) (hb : b.length = 4) : ipv4Loop [] 0 0 (dotted b) = some b := by
  obtain ⟨x, y, z, t, rfl⟩ := four hb
  have hl : ∀ v : Byte, (fmtD v.toNat).length ≠ 0 := fun v h => (fmtD_digits _).2 (List.length_eq_zero_iff.mp h)
  have dot : ∀ (fs : Bytes) (v : Byte) (r : Str), fs.length ≠ 3 →
      ipv4Loop fs v.toNat (fmtD v.toNat).length ('.' :: r) = ipv4Loop (fs ++ [v]) 0 0 r := by
    intro fs v r hf
    rw [ipv4Loop, if_neg (by decide), if_pos rfl, if_neg (hl v), if_neg hf]
    simp
  rw [dotted_four, ipv4_field _ _ (by omega), dot _ _ _ (by simp), ipv4_field _ _ (by omega), dot _ _ _ (by simp),
    ipv4_field _ _ (by omega), dot _ _ _ (by simp)]
  have := ipv4_field ([] ++ [x] ++ [y] ++ [z]) t.toNat (by omega) []
  rw [List.append_nil] at this
  rw [this, ipv4Loop, if_neg (hl t)]
  simp

theorem ipv4_sound (s : Str) : ∀ (fields : Bytes) (val digLen : Nat) (b : Bytes),
    (digLen = 0 → val = 0) → (digLen ≠ 0 → digLen = (fmtD val).length) → val ≤ 255 → fields.length ≤ 3 →
    ipv4Loop fields val digLen s = some b →
    ∃ tail : Bytes, tail ≠ [] ∧ b = fields ++ tail ∧ b.length = 4 ∧
      (if digLen = 0 then [] else fmtD val) ++ s = dotted tail := by
  induction s with
  | nil =>
    intro fields val digLen b h0 h1 hv hf h
    unfold ipv4Loop at h
    split at h
    · cases h
    · next hd =>
      split at h
      · cases h
      · next hl =>
        cases h
        refine ⟨[BitVec.ofNat 8 val], by simp, rfl, by simp; omega, ?_⟩
        simp [hd, dotted, List.intercalate, Nat.mod_eq_of_lt (show val < 256 by omega)]
  | cons c s ih =>
    intro fields val digLen b h0 h1 hv hf h
    unfold ipv4Loop at h
    split at h
    · next hc =>
      obtain ⟨hc1, hc2⟩ := char_digit c hc
      split at h
      · cases h
      · next hz =>
        split at h
        · cases h
        · next hle =>
          have htext : fmtD (val * 10 + digitValue c) = (if digLen = 0 then [] else fmtD val) ++ [c] := by
            by_cases hd : digLen = 0
            · rw [if_pos hd, h0 hd, fmtD_small _ (by omega)]
              simp [hc2]
            · have hv0 : val ≠ 0 := by
                intro h'
                have := h1 hd
                rw [h', fmtD_small 0 (by omega)] at this
                exact hz ⟨this, h'⟩
              rw [if_neg hd, fmtD_step _ (by omega)]
              rw [show (val * 10 + digitValue c) / 10 = val by omega,
                show (val * 10 + digitValue c) % 10 = digitValue c by omega, hc2]
          obtain ⟨tail, t1, t2, t3, t4⟩ := ih fields (val * 10 + digitValue c) (digLen + 1) b (by omega)
            (fun _ => by
              rw [htext]
              by_cases hd : digLen = 0
              · simp [hd]
              · simp [hd, ← h1 hd]) (by omega) hf h
          refine ⟨tail, t1, t2, t3, ?_⟩
          rw [if_neg (show ¬ (digLen + 1 = 0) by omega), htext, List.append_assoc] at t4
          exact t4
    · split at h
      · next hc =>
        subst hc
        split at h
        · cases h
        · next hd =>
          split at h
          · cases h
          · next hl =>
            obtain ⟨tail, t1, t2, t3, t4⟩ := ih _ 0 0 b (fun _ => rfl) (fun h => absurd rfl h) (by omega)
              (by simp; omega) h
            refine ⟨BitVec.ofNat 8 val :: tail, by simp, by rw [t2]; simp, t3, ?_⟩
            rw [if_neg hd]
            simp only [if_true, List.nil_append] at t4
            rw [t4]
            cases tail with
            | nil => exact absurd rfl t1
            | cons x xs =>
              simp [dotted, List.intercalate, Nat.mod_eq_of_lt (show val < 256 by omega)]
      · cases h

theorem dotted_chars (b : Bytes) : ∀ c ∈ dotted b, c = '.' ∨ c.isDigit = true := by
  induction b with
  | nil => intro c hc; simp [dotted, List.intercalate] at hc
  | cons x xs ih =>
    intro c hc
    cases xs with
    | nil =>
      simp [dotted, List.intercalate] at hc
      exact Or.inr ((fmtD_digits _).1 c hc)
    | cons y ys =>
      have : dotted (x :: y :: ys) = fmtD x.toNat ++ '.' :: dotted (y :: ys) := by
        simp [dotted, List.intercalate]
      rw [this] at hc
      rcases List.mem_append.mp hc with hc | hc
      · exact Or.inr ((fmtD_digits _).1 c hc)
      · rcases List.mem_cons.mp hc with rfl | hc
        · exact Or.inl rfl
        · exact ih c hc

/-! ## Host and port -/

theorem idxOf_append (x : Char) (p q : Str) (h : x ∉ p) : (p ++ x :: q).idxOf? x = some p.length := by
  induction p with
  | nil => simp [List.idxOf?_cons]
  | cons y p ih =>
    rw [List.cons_append, List.idxOf?_cons]
    have hy : (y == x) = false := by simpa using fun e => h (by rw [e]; exact List.mem_cons_self)
    rw [hy, ih (fun hx => h (List.mem_cons_of_mem _ hx))]
    rfl

theorem lastColon_append (h p : Str) (hp : ':' ∉ p) : lastColon (h ++ ':' :: p) = some h.length := by
  unfold lastColon
  have : (h ++ ':' :: p).reverse = p.reverse ++ ':' :: h.reverse := by simp
  rw [this, idxOf_append _ _ _ (by simpa using hp)]
  simp

/-- `SplitHostPort` takes apart what `JoinHostPort` puts together. -/
theorem split_join (h p : Str) (hh1 : '[' ∉ h) (hh2 : ']' ∉ h) (hp1 : '[' ∉ p) (hp2 : ']' ∉ p) (hp3 : ':' ∉ p) :
    splitHostPort (joinHostPort h p) = some (h, p) := by
  unfold joinHostPort
  by_cases hc : ':' ∈ h
  · rw [if_pos hc]
    have e : '[' :: h ++ [']', ':'] ++ p = ('[' :: h ++ [']']) ++ ':' :: p := by simp
    have e2 : '[' :: h ++ [']', ':'] ++ p = ('[' :: h) ++ ']' :: (':' :: p) := by simp
    have h1 : lastColon ('[' :: h ++ [']', ':'] ++ p) = some (h.length + 2) := by
      rw [e, lastColon_append _ _ hp3]; simp
    have h2 : ('[' :: h ++ [']', ':'] ++ p).idxOf? ']' = some (h.length + 1) := by
      rw [e2, idxOf_append _ _ _ (by simp [hh2])]; simp
    unfold splitHostPort
    rw [h1]
    dsimp only
    rw [if_pos (by simp), h2]
    dsimp only
    rw [if_neg (by omega), if_neg (by simp [hh1, hp1]), if_neg ?_]
    · simp
    · have : ('[' :: h ++ [']', ':'] ++ p).drop (h.length + 1 + 1) = ':' :: p := by simp
      rw [this]
      simp [hp2]
  · rw [if_neg hc]
    unfold splitHostPort
    rw [lastColon_append _ _ hp3]
    dsimp only
    rw [if_neg ?_, if_neg (by simpa using hc), if_neg (by simp [hh1, hp1]), if_neg (by simp [hh2, hp2])]
    · simp
    · cases h with
      | nil => simp
      | cons x xs =>
        simp only [List.cons_append, List.head?_cons, Option.some.injEq]
        intro e
        exact hh1 (by rw [e]; exact List.mem_cons_self)

/-- A host without brackets, and a number, are what is parsed. -/
theorem parse_join (v6 : V6) (a : Address) (h : Str) (n : Int) (h1 : '[' ∉ h) (h2 : ']' ∉ h)
    (n1 : -2 ^ 63 ≤ n) (n2 : n < 2 ^ 63) :
    a.parseString v6 (joinHostPort h (itoa n)) = (⟨(parseIP v6 h).getD [], n⟩, true) := by
  have hc : ∀ c, c.isDigit = false → c ≠ '-' → c ∉ itoa n := by
    intro c c1 c2 hc
    rcases itoa_chars n c hc with rfl | hc
    · exact c2 rfl
    · rw [c1] at hc; cases hc
  unfold Address.parseString
  rw [split_join h _ h1 h2 (hc _ rfl (by decide)) (hc _ rfl (by decide)) (hc _ rfl (by decide))]
  dsimp only
  rw [atoi_itoa n n1 n2]

/-! ## C87 -/

/-- What is relied on about IPv6 addresses in text form: they have a colon, no bracket and no other
`.`, `%` before the first colon, and can be read back; addresses with a zone are refused. -/
structure V6Text (v6 : V6) : Prop where
  back : ∀ ip, ip.length = 16 → v6.parse (v6.format ip) = some ip
  brackets : ∀ ip, '[' ∉ v6.format ip ∧ ']' ∉ v6.format ip
  colon : ∀ ip, (v6.format ip).find? (fun c => c = '.' ∨ c = ':' ∨ c = '%') = some ':'
  zone : ∀ s, '%' ∈ s → v6.parse s = none

theorem find_dot (b : Bytes) (hb : b.length = 4) :
    (dotted b).find? (fun c => c = '.' ∨ c = ':' ∨ c = '%') = some '.' := by
  obtain ⟨x, y, z, t, rfl⟩ := four hb
  rw [dotted_four, List.find?_append]
  have : (fmtD x.toNat).find? (fun c => c = '.' ∨ c = ':' ∨ c = '%') = none := by
    rw [List.find?_eq_none]
    intro c hc
    have := (fmtD_digits _).1 c hc
    simp only [decide_eq_true_eq]
    rintro (rfl | rfl | rfl) <;> cases this
  rw [this]
  rfl

/-- The two forms of an IPv4 address are the same address. -/
def sixteen (ip : Bytes) : Bytes := if ip.length = 4 then v4InV6 ip else ip

theorem parse_ipString (v6 : V6) (hv : V6Text v6) (ip : Bytes) (h : ip.length = 4 ∨ ip.length = 16) :
    parseIP v6 (ipString v6 ip) = some (sixteen ip) ∧ '[' ∉ ipString v6 ip ∧ ']' ∉ ipString v6 ip := by
  have hdot : ∀ b : Bytes, b.length = 4 → parseIP v6 (dotted b) = some (v4InV6 b) ∧
      '[' ∉ dotted b ∧ ']' ∉ dotted b := by
    intro b hb
    refine ⟨?_, ?_, ?_⟩
    · unfold parseIP
      rw [find_dot b hb]
      show (ipv4Loop [] 0 0 (dotted b)).map v4InV6 = _
      rw [ipv4_dotted b hb]
      rfl
    · intro hc; rcases dotted_chars b _ hc with e | e
      · exact absurd e (by decide)
      · cases e
    · intro hc; rcases dotted_chars b _ hc with e | e
      · exact absurd e (by decide)
      · cases e
  unfold ipString sixteen
  by_cases h4 : ip.length = 4
  · rw [if_pos h4, if_pos h4]; exact hdot ip h4
  · have h16 : ip.length = 16 := h.resolve_left h4
    rw [if_neg h4, if_pos h16, if_neg h4]
    by_cases hm : ip.take 12 = [0, 0, 0, 0, 0, 0, 0, 0, 0, 0, 0xFF, 0xFF]
    · rw [if_pos hm]
      obtain ⟨a, b, c⟩ := hdot (ip.drop 12) (by simp [h16])
      refine ⟨?_, b, c⟩
      rw [a]
      unfold v4InV6
      rw [← hm, List.take_append_drop]
    · rw [if_neg hm]
      refine ⟨?_, hv.brackets ip⟩
      unfold parseIP
      rw [hv.colon ip]
      exact hv.back ip h16

/-- C87. The string of an address can be read back: the same address, an IPv4 one in its 16 byte form,
and the same port, whatever the address object held before. -/
theorem C87_back_partial (v6 : V6) (hv : V6Text v6) (a old : Address)
    (h : a.ip.length = 4 ∨ a.ip.length = 16) (p1 : -2 ^ 63 ≤ a.port) (p2 : a.port < 2 ^ 63) :
    old.parseString v6 (a.string v6) = (⟨sixteen a.ip, a.port⟩, true) ∧
    Address.ofString v6 (a.string v6) = some ⟨sixteen a.ip, a.port⟩ := by
  obtain ⟨h1, h2, h3⟩ := parse_ipString v6 hv a.ip h
  have key : ∀ old : Address, old.parseString v6 (a.string v6) = (⟨sixteen a.ip, a.port⟩, true) := by
    intro old
    unfold Address.string
    rw [parse_join v6 old _ _ h2 h3 p1 p2, h1]
    rfl
  refine ⟨key old, ?_⟩
  unfold Address.ofString
  rw [key]

/-- C87. A host without a colon is taken for an address exactly when it is four decimal numerals of
bytes, without leading zeros, between points. -/
theorem C87_dotted (v6 : V6) (s : Str) (hs : ':' ∉ s) (ip : Bytes) :
    parseIP v6 s = some ip ↔ ∃ a b c d : Byte, ip = v4InV6 [a, b, c, d] ∧
      s = fmtD a.toNat ++ '.' :: (fmtD b.toNat ++ '.' :: (fmtD c.toNat ++ '.' :: fmtD d.toNat)) := by
  constructor
  · intro h
    unfold parseIP at h
    split at h
    · cases hl : ipv4Loop [] 0 0 s with
      | none => rw [hl] at h; cases h
      | some b =>
        rw [hl] at h
        cases h
        obtain ⟨tail, _, t2, t3, t4⟩ := ipv4_sound s [] 0 0 b (fun _ => rfl) (fun h => absurd rfl h) (by omega)
          (by simp) hl
        rw [List.nil_append] at t2
        subst t2
        obtain ⟨x, y, z, t, rfl⟩ := four t3
        exact ⟨x, y, z, t, rfl, by rw [← dotted_four]; simpa using t4⟩
    · next he => exact absurd (List.mem_of_find?_eq_some he) hs
    · cases h
  · rintro ⟨a, b, c, d, rfl, rfl⟩
    rw [← dotted_four]
    unfold parseIP
    rw [find_dot _ rfl]
    show (ipv4Loop [] 0 0 (dotted [a, b, c, d])).map v4InV6 = _
    rw [ipv4_dotted _ rfl]
    rfl

/-- C87, refuted: any host that is no address is accepted without an error, and gives an address
without IP; so does every port number. -/
theorem C87_refuted (v6 : V6) (host : Str) (n : Int) (h1 : '[' ∉ host) (h2 : ']' ∉ host)
    (hip : parseIP v6 host = none) (n1 : -2 ^ 63 ≤ n) (n2 : n < 2 ^ 63) :
    Address.ofString v6 (joinHostPort host (itoa n)) = some ⟨[], n⟩ := by
  unfold Address.ofString
  rw [parse_join v6 _ host n h1 h2 n1 n2, hip]
  rfl

/-- C87, refuted: an address with a zone, as `RemoteAddr` gives it for a link-local peer, loses its IP:
a message received from it over TCP has no source address. -/
theorem C87_refuted_zone (v6 : V6) (hv : V6Text v6) (ip : Bytes) (zone : Str) (n : Int)
    (z1 : '[' ∉ zone) (z2 : ']' ∉ zone) (n1 : -2 ^ 63 ≤ n) (n2 : n < 2 ^ 63) :
    Address.ofString v6 (joinHostPort (v6.format ip ++ '%' :: zone) (itoa n)) = some ⟨[], n⟩ := by
  obtain ⟨b1, b2⟩ := hv.brackets ip
  refine C87_refuted v6 _ n (by simp [b1, z1]) (by simp [b2, z2]) ?_ n1 n2
  unfold parseIP
  rw [List.find?_append, hv.colon ip]
  exact hv.zone _ (by simp)

/-- A text form that meets `V6Text`: one character for each byte, after a colon. -/
def toyV6 : V6 :=
  ⟨fun s => if '%' ∈ s then none else some ((s.drop 1).map (fun c => BitVec.ofNat 8 c.toNat)),
    fun ip => ':' :: ip.map (fun b => Char.ofNat (256 + b.toNat))⟩

theorem toyV6_char (b : Byte) : (Char.ofNat (256 + b.toNat)).toNat = 256 + b.toNat := by
  have h : Nat.isValidChar (256 + b.toNat) := Or.inl (by have := b.isLt; omega)
  simp [Char.ofNat, h, Char.toNat, Char.ofNatAux]
  omega

theorem toyV6_text : V6Text toyV6 := by
  have hno : ∀ (x : Char) (ip : Bytes), x.toNat < 256 → x ≠ ':' → x ∉ toyV6.format ip := by
    intro x ip hx hc h
    rcases List.mem_cons.mp h with h | h
    · exact hc h
    · obtain ⟨b, _, rfl⟩ := List.mem_map.mp h
      rw [toyV6_char] at hx
      omega
  refine ⟨?_, fun ip => ⟨hno _ ip (by decide) (by decide), hno _ ip (by decide) (by decide)⟩, fun ip => rfl, ?_⟩
  · intro ip _
    show (if '%' ∈ toyV6.format ip then none else _) = _
    rw [if_neg (hno _ ip (by decide) (by decide))]
    simp only [toyV6, List.drop_succ_cons, List.drop_zero, List.map_map, Option.some.injEq]
    refine List.map_id'' (fun b => ?_) ip
    apply BitVec.eq_of_toNat_eq
    simp only [Function.comp, toyV6_char, BitVec.toNat_ofNat]
    have := b.isLt
    omega
  · intro s hs
    show (if '%' ∈ s then none else _) = none
    rw [if_pos hs]

example : (Address.mk [192, 168, 1, 10] 3610).string toyV6 = "192.168.1.10:3610".toList ∧
    Address.ofString toyV6 "192.168.1.10:3610".toList = some ⟨v4InV6 [192, 168, 1, 10], 3610⟩ ∧
    Address.ofString toyV6 "light.local:99999".toList = some ⟨[], 99999⟩ ∧
    Address.ofString toyV6 "192.168.1.10".toList = none ∧
    Address.ofString toyV6 "192.168.1.10:x".toList = none := by
  decide +kernel

/-- The hypotheses of `C87_back_partial`: an IPv6 and an IPv4 address. -/
example : Address.ofString toyV6 ((⟨List.replicate 16 1, 3610⟩ : Address).string toyV6) =
    some ⟨List.replicate 16 1, 3610⟩ ∧
    Address.ofString toyV6 ((⟨[10, 0, 0, 2], -1⟩ : Address).string toyV6) = some ⟨v4InV6 [10, 0, 0, 2], -1⟩ :=
  ⟨(C87_back_partial toyV6 toyV6_text ⟨List.replicate 16 1, 3610⟩ ⟨[], 0⟩ (Or.inr rfl) (by decide) (by decide)).2,
   (C87_back_partial toyV6 toyV6_text ⟨[10, 0, 0, 2], -1⟩ ⟨[], 0⟩ (Or.inl rfl) (by decide) (by decide)).2⟩

/-- The hypothesis of `C87_dotted`. -/
example : parseIP toyV6 "192.168.1.256".toList ≠ some (v4InV6 [192, 168, 1, 0]) := by
  rw [Ne, C87_dotted toyV6 "192.168.1.256".toList (by decide)]
  rintro ⟨a, b, c, d, h, hs⟩
  have h : ([192, 168, 1, 0] : Bytes) = [a, b, c, d] := List.append_cancel_left h
  simp only [List.cons.injEq, and_true] at h
  obtain ⟨rfl, rfl, rfl, rfl⟩ := h
  exact absurd hs (by decide +kernel)

/-- The hypotheses of `C87_refuted`: a name is no address. -/
example : Address.ofString toyV6 (joinHostPort "light.local".toList (itoa 3610)) = some ⟨[], 3610⟩ :=
  C87_refuted toyV6 "light.local".toList 3610 (by decide) (by decide) (by decide +kernel) (by decide) (by decide)

/-- The hypotheses of `C87_refuted_zone`. -/
example : Address.ofString toyV6 (joinHostPort (toyV6.format (List.replicate 16 1) ++ '%' :: "eth0".toList)
    (itoa 3610)) = some ⟨[], 3610⟩ :=
  C87_refuted_zone toyV6 toyV6_text (List.replicate 16 1) "eth0".toList 3610 (by decide) (by decide) (by decide)
    (by decide)

end Verif.Props
