import Verif.Props.Address

/-! C87: exactly which strings are taken for an address and port. -/

namespace Verif.Props
open Verif Model Lemmas

/-! ## What the strings look like -/

/-- A host and a port with a colon between them: the host in brackets, or without a colon. Neither has
brackets, the port has no colon. -/
def HostAndPort (s host port : Str) : Prop :=
  (s = '[' :: host ++ ']' :: ':' :: port ∨ (s = host ++ ':' :: port ∧ ':' ∉ host)) ∧
  '[' ∉ host ∧ ']' ∉ host ∧ '[' ∉ port ∧ ']' ∉ port ∧ ':' ∉ port

/-- The value of decimal digits. -/
def decimal (ds : Str) : Nat := ds.foldl (fun n c => n * 10 + (c.toNat - '0'.toNat)) 0

/-- A whole number in decimal, with or without a sign, that fits in 64 bits. -/
def NumberText (t : Str) (n : Int) : Prop :=
  (∃ ds : Str, ds ≠ [] ∧ (∀ c ∈ ds, c.isDigit = true) ∧
    ((t = ds ∧ n = decimal ds) ∨ (t = '+' :: ds ∧ n = decimal ds) ∨ (t = '-' :: ds ∧ n = -decimal ds))) ∧
  -2 ^ 63 ≤ n ∧ n < 2 ^ 63

/-! ## Numbers -/

theorem atoiDigits_some (ds : Str) (acc n : Nat) :
    atoiDigits acc ds = some n ↔ (∀ c ∈ ds, c.isDigit = true) ∧
      n = ds.foldl (fun n c => n * 10 + (c.toNat - '0'.toNat)) acc := by
  induction ds generalizing acc with
  | nil =>
    simp only [atoiDigits, Option.some.injEq, List.foldl_nil, List.not_mem_nil, false_implies, implies_true, true_and]
    exact eq_comm
  | cons c ds ih =>
    rw [atoiDigits]
    by_cases hc : c.isDigit = true
    · rw [if_pos hc, ih]
      simp only [List.mem_cons, forall_eq_or_imp, hc, true_and, List.foldl_cons]
      rfl
    · rw [if_neg hc]
      simp [hc]

theorem digit_sign (c : Char) (h : c.isDigit = true) : c ≠ '-' ∧ c ≠ '+' :=
  ⟨fun e => (by rw [e] at h; cases h), fun e => (by rw [e] at h; cases h)⟩

theorem atoi_plain (ds : Str) (n : Int) (h1 : ds.head? ≠ some '-') (h2 : ds.head? ≠ some '+') :
    atoi ds = some n ↔ ds ≠ [] ∧ (∀ c ∈ ds, c.isDigit = true) ∧ n = decimal ds ∧ n < 2 ^ 63 := by
  unfold atoi
  simp only [h1, h2, or_self, if_false]
  by_cases he : ds = []
  · simp [he]
  · rw [if_neg he]
    cases hd : atoiDigits 0 ds with
    | none =>
      refine ⟨fun h => (by cases h), fun ⟨_, h, _⟩ => ?_⟩
      rw [(atoiDigits_some ds 0 _).mpr ⟨h, rfl⟩] at hd
      cases hd
    | some m =>
      obtain ⟨hm, e⟩ := (atoiDigits_some ds 0 m).mp hd
      have e : m = decimal ds := e
      dsimp only
      by_cases hl : m < 2 ^ 63
      · rw [if_pos hl]
        refine ⟨fun h => ?_, fun ⟨_, _, h, _⟩ => by rw [h, e]⟩
        obtain rfl : (m : Int) = n := by simpa using h
        exact ⟨he, hm, by rw [e], by omega⟩
      · rw [if_neg hl]
        refine ⟨fun h => (by cases h), fun ⟨_, _, h, h'⟩ => ?_⟩
        omega

theorem atoi_signed (neg : Bool) (ds : Str) (n : Int) :
    atoi ((if neg then '-' else '+') :: ds) = some n ↔ ds ≠ [] ∧ (∀ c ∈ ds, c.isDigit = true) ∧
      n = (if neg then -(decimal ds : Int) else decimal ds) ∧ -2 ^ 63 ≤ n ∧ n < 2 ^ 63 := by
  unfold atoi
  have h1 : ((if neg then '-' else '+') :: ds).head? = some '-' ↔ neg = true := by cases neg <;> simp
  have h2 : (((if neg then '-' else '+') :: ds).head? = some '-' ∨
      ((if neg then '-' else '+') :: ds).head? = some '+') := by cases neg <;> simp
  simp only [if_pos h2, List.drop_succ_cons, List.drop_zero]
  by_cases he : ds = []
  · simp [he]
  · rw [if_neg he]
    cases hd : atoiDigits 0 ds with
    | none =>
      refine ⟨fun h => (by cases h), fun ⟨_, h, _⟩ => ?_⟩
      rw [(atoiDigits_some ds 0 _).mpr ⟨h, rfl⟩] at hd
      cases hd
    | some m =>
      obtain ⟨hm, e⟩ := (atoiDigits_some ds 0 m).mp hd
      have e : m = decimal ds := e
      dsimp only
      cases neg with
      | true =>
        simp only [if_true, List.head?_cons]
        by_cases hl : m ≤ 2 ^ 63
        · rw [if_pos hl]
          refine ⟨fun h => ?_, fun ⟨_, _, h, _⟩ => by rw [h, e]⟩
          obtain rfl : (-(m : Int)) = n := by simpa using h
          exact ⟨he, hm, by rw [e], by omega, by omega⟩
        · rw [if_neg hl]
          refine ⟨fun h => (by cases h), fun ⟨_, _, h, h', _⟩ => ?_⟩
          omega
      | false =>
        simp only [Bool.false_eq_true, if_false, List.head?_cons, Option.some.injEq,
          show ('+' = '-') = False by simp]
        by_cases hl : m < 2 ^ 63
        · rw [if_pos hl]
          refine ⟨fun h => ?_, fun ⟨_, _, h, _⟩ => by rw [h, e]⟩
          obtain rfl : (m : Int) = n := by simpa using h
          exact ⟨he, hm, by rw [e], by omega, by omega⟩
        · rw [if_neg hl]
          refine ⟨fun h => (by cases h), fun ⟨_, _, h, h', _⟩ => ?_⟩
          omega

theorem atoi_iff (t : Str) (n : Int) : atoi t = some n ↔ NumberText t n := by
  have back : ∀ ds : Str, ds ≠ [] → (∀ c ∈ ds, c.isDigit = true) →
      ds.head? ≠ some '-' ∧ ds.head? ≠ some '+' := fun ds _ hd =>
    ⟨fun h => (digit_sign _ (hd _ (List.mem_of_mem_head? h))).1 rfl,
     fun h => (digit_sign _ (hd _ (List.mem_of_mem_head? h))).2 rfl⟩
  constructor
  · intro h
    by_cases h1 : t.head? = some '-'
    · obtain ⟨ds, rfl⟩ : ∃ ds, t = '-' :: ds := by
        cases t with
        | nil => cases h1
        | cons c ds => exact ⟨ds, by simpa using h1⟩
      obtain ⟨a, b, c, d, e⟩ := (atoi_signed true ds n).mp h
      exact ⟨⟨ds, a, b, Or.inr (Or.inr ⟨rfl, c⟩)⟩, d, e⟩
    · by_cases h2 : t.head? = some '+'
      · obtain ⟨ds, rfl⟩ : ∃ ds, t = '+' :: ds := by
          cases t with
          | nil => cases h2
          | cons c ds => exact ⟨ds, by simpa using h2⟩
        obtain ⟨a, b, c, d, e⟩ := (atoi_signed false ds n).mp h
        exact ⟨⟨ds, a, b, Or.inr (Or.inl ⟨rfl, c⟩)⟩, d, e⟩
      · obtain ⟨a, b, c, d⟩ := (atoi_plain t n h1 h2).mp h
        exact ⟨⟨t, a, b, Or.inl ⟨rfl, c⟩⟩, by omega, d⟩
  · rintro ⟨⟨ds, a, b, h⟩, d, e⟩
    rcases h with ⟨rfl, c⟩ | ⟨rfl, c⟩ | ⟨rfl, c⟩
    · exact (atoi_plain t n (back t a b).1 (back t a b).2).mpr ⟨a, b, c, e⟩
    · exact (atoi_signed false ds n).mpr ⟨a, b, c, d, e⟩
    · exact (atoi_signed true ds n).mpr ⟨a, b, c, d, e⟩

/-! ## Host and port -/

theorem idxOf_some (x : Char) (s : Str) (i : Nat) (h : s.idxOf? x = some i) :
    ∃ p q, s = p ++ x :: q ∧ x ∉ p ∧ p.length = i := by
  induction s generalizing i with
  | nil => simp at h
  | cons y s ih =>
    rw [List.idxOf?_cons] at h
    by_cases hy : (y == x) = true
    · rw [if_pos hy] at h
      obtain rfl : y = x := by simpa using hy
      cases h
      exact ⟨[], s, rfl, by simp, rfl⟩
    · rw [if_neg hy] at h
      obtain ⟨j, hj, rfl⟩ := Option.map_eq_some_iff.mp h
      obtain ⟨p, q, rfl, h1, h2⟩ := ih j hj
      refine ⟨y :: p, q, rfl, ?_, by simp [h2]⟩
      simp only [List.mem_cons, not_or]
      exact ⟨fun e => hy (by simp [e]), h1⟩

theorem lastColon_some (s : Str) (i : Nat) (h : lastColon s = some i) :
    ∃ p q, s = p ++ ':' :: q ∧ ':' ∉ q ∧ p.length = i := by
  unfold lastColon at h
  split at h
  · cases h
  · next j hj =>
    obtain ⟨p, q, e, h1, h2⟩ := idxOf_some _ _ _ hj
    have e' : s = q.reverse ++ ':' :: p.reverse := by
      have := congrArg List.reverse e
      simpa using this
    have hl : s.length = q.length + 1 + p.length := by rw [e']; simp; omega
    refine ⟨q.reverse, p.reverse, e', by simpa using h1, ?_⟩
    cases h
    rw [List.length_reverse]
    omega

theorem split_iff (s host port : Str) : splitHostPort s = some (host, port) ↔ HostAndPort s host port := by
  constructor
  · intro h
    unfold splitHostPort at h
    split at h
    · cases h
    · next i hi =>
      obtain ⟨p, q, rfl, hq, rfl⟩ := lastColon_some s i hi
      have hdrop : (p ++ ':' :: q).drop (p.length + 1) = q := by simp
      have htake : (p ++ ':' :: q).take p.length = p := by simp
      split at h
      · next hhead =>
        split at h
        · cases h
        · next e he =>
          obtain ⟨a, b, e1, ha, rfl⟩ := idxOf_some _ _ _ he
          split at h
          · cases h
          · next hi2 =>
            have hi2 : a.length + 1 = p.length := Classical.byContradiction hi2
            split at h
            · cases h
            · next h3 =>
              split at h
              · cases h
              · next h4 =>
                -- the part before the last colon is `a` and the bracket
                have e2 : p = a ++ [']'] ∧ b = ':' :: q := by
                  have e3 : p ++ ':' :: q = (a ++ [']']) ++ b := by rw [e1]; simp
                  have := List.append_inj e3 (by simp; omega)
                  exact ⟨this.1, this.2.symm⟩
                obtain ⟨rfl, rfl⟩ := e2
                cases a with
                | nil => simp at hhead
                | cons c a =>
                  obtain rfl : c = '[' := by simpa using hhead
                  simp only [Option.some.injEq, Prod.mk.injEq] at h
                  obtain ⟨h5, h6⟩ := h
                  have h5 : a = host := by rw [← h5]; simp
                  have h6 : q = port := by rw [← h6, hdrop]
                  subst h5; subst h6
                  simp only [List.cons_append, List.drop_succ_cons, List.drop_zero, List.append_assoc,
                    List.nil_append, List.mem_append, List.mem_cons, not_or] at h3
                  have h4' : ']' ∉ (':' :: q) := by
                    intro hc
                    apply h4
                    rw [e1]
                    simpa using hc
                  simp only [List.mem_cons, not_or] at ha h4'
                  exact ⟨Or.inl (by simp), h3.1, ha.2, h3.2.2.2, h4'.2, hq⟩
      · rw [htake, hdrop] at h
        split at h
        · cases h
        · next h1 =>
          split at h
          · cases h
          · next h2 =>
            split at h
            · cases h
            · next h3 =>
              simp only [Option.some.injEq, Prod.mk.injEq] at h
              obtain ⟨rfl, rfl⟩ := h
              simp only [List.mem_append, List.mem_cons, not_or] at h2 h3
              exact ⟨Or.inr ⟨rfl, h1⟩, h2.1, h3.1, h2.2.2, h3.2.2, hq⟩
  · rintro ⟨h, h1, h2, h3, h4, h5⟩
    rcases h with rfl | ⟨rfl, hc⟩
    · have e : '[' :: host ++ ']' :: ':' :: port = ('[' :: host ++ [']']) ++ ':' :: port := by simp
      have e2 : '[' :: host ++ ']' :: ':' :: port = ('[' :: host) ++ ']' :: (':' :: port) := by simp
      have a1 : lastColon ('[' :: host ++ ']' :: ':' :: port) = some (host.length + 2) := by
        rw [e, lastColon_append _ _ h5]; simp
      have a2 : ('[' :: host ++ ']' :: ':' :: port).idxOf? ']' = some (host.length + 1) := by
        rw [e2, idxOf_append _ _ _ (by simp [h2])]; simp
      unfold splitHostPort
      rw [a1]
      dsimp only
      rw [if_pos (by simp), a2]
      dsimp only
      rw [if_neg (by omega), if_neg (by simp [h1, h3]), if_neg ?_]
      · simp
      · have : ('[' :: host ++ ']' :: ':' :: port).drop (host.length + 1 + 1) = ':' :: port := by simp
        rw [this]
        simp [h4]
    · have := split_join host port h1 h2 h3 h4 h5
      unfold joinHostPort at this
      rwa [if_neg hc] at this

/-! ## C87 -/

/-- C87. A string is accepted as an address exactly when it is a host and a port with a colon between
them and the port is a number that fits in 64 bits. The address has that number for its port, and the
IP the host stands for, if it stands for one. -/
theorem C87_accepted (v6 : V6) (s : Str) (a : Address) :
    Address.ofString v6 s = some a ↔
      ∃ host port : Str, HostAndPort s host port ∧ NumberText port a.port ∧ a.ip = (parseIP v6 host).getD [] := by
  unfold Address.ofString Address.parseString
  constructor
  · intro h
    cases hs : splitHostPort s with
    | none => rw [hs] at h; cases h
    | some r =>
      obtain ⟨host, port⟩ := r
      rw [hs] at h
      dsimp only at h
      cases hp : atoi port with
      | none => rw [hp] at h; cases h
      | some n =>
        rw [hp] at h
        dsimp only at h
        cases h
        exact ⟨host, port, (split_iff _ _ _).mp hs, (atoi_iff _ _).mp hp, rfl⟩
  · rintro ⟨host, port, h1, h2, h3⟩
    rw [(split_iff _ _ _).mpr h1]
    dsimp only
    rw [(atoi_iff _ _).mpr h2]
    dsimp only
    rw [← h3]

/-- A host and a port, and the numbers they are read as. -/
example : HostAndPort "[fe80::1]:+3610".toList "fe80::1".toList "+3610".toList ∧
    NumberText "+3610".toList 3610 ∧ ¬ (∃ n, NumberText "3610x".toList n) ∧
    ¬ (∃ n, NumberText "9223372036854775808".toList n) ∧
    NumberText "-9223372036854775808".toList (-9223372036854775808) := by
  refine ⟨by unfold HostAndPort; decide, ?_, ?_, ?_, ?_⟩
  · exact (atoi_iff _ _).mp (by decide)
  · rintro ⟨n, h⟩; exact absurd ((atoi_iff _ _).mpr h) (by rw [show atoi "3610x".toList = none by decide]; simp)
  · rintro ⟨n, h⟩
    exact absurd ((atoi_iff _ _).mpr h)
      (by rw [show atoi "9223372036854775808".toList = none by decide +kernel]; simp)
  · exact (atoi_iff _ _).mp (by decide +kernel)

/-- An address with a port that is no UDP port is accepted. -/
example : ∃ a, Address.ofString toyV6 "10.0.0.1:-7".toList = some a ∧ a.port = -7 := by
  refine ⟨⟨v4InV6 [10, 0, 0, 1], -7⟩, ?_, rfl⟩
  rw [C87_accepted]
  exact ⟨"10.0.0.1".toList, "-7".toList, by refine ⟨Or.inr ⟨rfl, by decide⟩, ?_⟩; decide,
    (atoi_iff _ _).mp (by decide), by decide +kernel⟩

end Verif.Props
