import Verif.Model.Interface

/-! # C64: choice of interfaces -/

namespace Verif.Props
open Verif Model

/-- An address in the form the system prints an IPv4 address with its mask: `ip/mask`. -/
def IPv4 (a ip : Str) : Prop := ∃ mask, a = ip ++ '/' :: mask ∧ '/' ∉ ip ∧ ':' ∉ ip

/-- The names that mark bridges and virtual interfaces. -/
def reservedNames : List Str :=
  ["virbr0".toList, "utun".toList, "llw".toList, "awdl".toList, "en6".toList, "docker0".toList]

/-- An interface to be used, given its addresses. -/
def Usable (i : NetIf) (addrs : Option (List Str)) : Prop :=
  i.up = true ∧ i.multicast = true ∧ i.loopback = false ∧ (∀ p ∈ reservedNames, ¬ p <+: i.name) ∧
  ∃ as a ip, addrs = some as ∧ a ∈ as ∧ IPv4 a ip

theorem splitSlash_ne (s : Str) : splitSlash s ≠ [] := by
  cases s with
  | nil => simp [splitSlash]
  | cons c cs =>
    unfold splitSlash
    split
    · simp
    · split <;> simp

theorem splitSlash_none (s : Str) (h : '/' ∉ s) : splitSlash s = [s] := by
  induction s with
  | nil => rfl
  | cons c cs ih =>
    rw [List.mem_cons, not_or] at h
    unfold splitSlash
    rw [if_neg (Ne.symm h.1), ih h.2]

theorem splitSlash_some (ip mask : Str) (h : '/' ∉ ip) :
    splitSlash (ip ++ '/' :: mask) = ip :: splitSlash mask := by
  induction ip with
  | nil => simp [splitSlash]
  | cons c cs ih =>
    rw [List.mem_cons, not_or] at h
    show splitSlash (c :: (cs ++ '/' :: mask)) = _
    rw [splitSlash, if_neg (Ne.symm h.1), ih h.2]

theorem splitSlash_cases (s : Str) : '/' ∉ s ∨ ∃ ip mask, s = ip ++ '/' :: mask ∧ '/' ∉ ip := by
  induction s with
  | nil => exact .inl (by simp)
  | cons c cs ih =>
    by_cases h : c = '/'
    · exact .inr ⟨[], cs, by rw [h]; rfl, by simp⟩
    · rcases ih with ih | ⟨ip, mask, rfl, hi⟩
      · exact .inl (by rw [List.mem_cons, not_or]; exact ⟨Ne.symm h, ih⟩)
      · exact .inr ⟨c :: ip, mask, rfl, by rw [List.mem_cons, not_or]; exact ⟨Ne.symm h, hi⟩⟩

theorem ipv6_iff (a : Str) : isIPv6Address a = true ↔ ':' ∈ a := by
  unfold isIPv6Address
  split
  · next h => 
    rw [List.length_eq_zero_iff.mp h]
    simp
  · split
    · next h => simpa using h
    · next h => simpa using h

/-- The address taken from one printed address. -/
def hostPart (a : Str) : Option Str :=
  match splitSlash a with
  | s0 :: _ :: _ => if isIPv6Address s0 then none else some s0
  | _ => none

theorem hostPart_iff (a ip : Str) : hostPart a = some ip ↔ IPv4 a ip := by
  unfold hostPart IPv4
  rcases splitSlash_cases a with h | ⟨x, mask, rfl, h⟩
  · rw [splitSlash_none a h]
    constructor
    · intro h'; cases h'
    · rintro ⟨mask, rfl, -, -⟩
      exact absurd (by simp) h
  · rw [splitSlash_some x mask h]
    obtain ⟨y, ys, hy⟩ := List.exists_cons_of_ne_nil (splitSlash_ne mask)
    rw [hy]
    show (if isIPv6Address x = true then none else some x) = some ip ↔ _
    constructor
    · intro h'
      by_cases h6 : isIPv6Address x = true
      · rw [if_pos h6] at h'; cases h'
      · rw [if_neg h6] at h'
        cases h'
        exact ⟨mask, rfl, h, fun hc => h6 ((ipv6_iff _).mpr hc)⟩
    · rintro ⟨mask', he, h1, h2⟩
      have e : splitSlash (x ++ '/' :: mask) = splitSlash (ip ++ '/' :: mask') := by rw [he]
      rw [splitSlash_some x mask h, splitSlash_some ip mask' h1] at e
      rw [List.cons.injEq] at e
      rw [e.1, if_neg (fun hc => h2 ((ipv6_iff _).mp hc))]

theorem addresses_eq (as : List Str) :
    getInterfaceAddresses (some as)
      = if (as.filterMap hostPart).length = 0 then .err .invalid else .ok (as.filterMap hostPart) := by
  have key : ∀ (f : List Str → Str → List Str),
      (∀ acc a, f acc a = acc ++ (hostPart a).toList) →
      ∀ (as acc : List Str), as.foldl f acc = acc ++ as.filterMap hostPart := by
    intro f hf as
    induction as with
    | nil => intro acc; simp
    | cons a as ih =>
      intro acc
      rw [List.foldl_cons, ih, List.filterMap_cons, hf]
      cases hostPart a <;> simp
  unfold getInterfaceAddresses
  dsimp only
  rw [key _ ?_ as []]
  · rfl
  · intro acc a
    unfold hostPart
    cases hs : splitSlash a with
    | nil => simp
    | cons x xs =>
      cases xs with
      | nil => simp
      | cons y ys => dsimp only; split <;> simp

/-- C64. The addresses of an interface are the IPv4 ones, in order; it is an error if there is
none. -/
theorem C64_addresses (addrs : Option (List Str)) :
    (∀ l, getInterfaceAddresses addrs = .ok l → ∃ as, addrs = some as ∧
      (∀ ip, ip ∈ l ↔ ∃ a ∈ as, IPv4 a ip) ∧ l.length ≤ as.length) ∧
    ((∃ e, getInterfaceAddresses addrs = .err e) ↔
      ∀ as, addrs = some as → ∀ a ∈ as, ∀ ip, ¬ IPv4 a ip) := by
  cases addrs with
  | none =>
    refine ⟨fun l h => (by cases h), ⟨fun _ as h => (by cases h), fun _ => ⟨.other, rfl⟩⟩⟩
  | some as =>
    rw [addresses_eq]
    constructor
    · intro l h
      split at h
      · cases h
      · cases h
        refine ⟨as, rfl, fun ip => ?_, List.length_filterMap_le ..⟩
        rw [List.mem_filterMap]
        exact ⟨fun ⟨a, h1, h2⟩ => ⟨a, h1, (hostPart_iff a ip).mp h2⟩,
          fun ⟨a, h1, h2⟩ => ⟨a, h1, (hostPart_iff a ip).mpr h2⟩⟩
    · constructor
      · rintro ⟨e, h⟩ as' h' a ha ip hip
        cases h'
        split at h
        · next h0 =>
          have := List.length_eq_zero_iff.mp h0
          have hm : ip ∈ as.filterMap hostPart := List.mem_filterMap.mpr ⟨a, ha, (hostPart_iff a ip).mpr hip⟩
          rw [this] at hm
          cases hm
        · cases h
      · intro h
        have : as.filterMap hostPart = [] := by
          rw [List.filterMap_eq_nil_iff]
          intro a ha
          cases hx : hostPart a with
          | none => rfl
          | some ip => exact absurd ((hostPart_iff a ip).mp hx) (h as rfl a ha ip)
        rw [if_pos (by rw [this]; rfl)]
        exact ⟨_, rfl⟩

theorem use_iff (os : IfOs) (t : Nat) (i : NetIf) :
    useInterface os t i = true ↔ Usable i (os.addrs t i) := by
  have hn : (isBridgeInterface i = false ∧ isVirtualInterface i = false) ↔
      ∀ p ∈ reservedNames, ¬ p <+: i.name := by
    unfold isBridgeInterface isVirtualInterface
    have e : reservedNames = [['v', 'i', 'r', 'b', 'r', '0'], ['u', 't', 'u', 'n'], ['l', 'l', 'w'],
      ['a', 'w', 'd', 'l'], ['e', 'n', '6'], ['d', 'o', 'c', 'k', 'e', 'r', '0']] := by decide +kernel
    rw [e]
    simp only [List.any_cons, List.any_nil, Bool.or_false, List.forall_mem_cons,
      ← Bool.not_eq_true, List.isPrefixOf_iff_prefix]
    simp
  have ha : (∃ l, getInterfaceAddresses (os.addrs t i) = .ok l) ↔
      ∃ as a ip, os.addrs t i = some as ∧ a ∈ as ∧ IPv4 a ip := by
    obtain ⟨h1, h2⟩ := C64_addresses (os.addrs t i)
    constructor
    · rintro ⟨l, hl⟩
      apply Classical.byContradiction
      intro hc
      obtain ⟨e, he⟩ := h2.mpr (fun as has a ha ip hip => hc ⟨as, a, ip, has, ha, hip⟩)
      rw [hl] at he
      cases he
    · rintro ⟨as, a, ip, has, ha, hip⟩
      rw [has, addresses_eq]
      have hm : ip ∈ as.filterMap hostPart := List.mem_filterMap.mpr ⟨a, ha, (hostPart_iff a ip).mpr hip⟩
      rw [if_neg (fun h => by rw [List.length_eq_zero_iff.mp h] at hm; cases hm)]
      exact ⟨_, rfl⟩
  unfold useInterface Usable
  rw [← hn, ← ha]
  cases i.loopback <;> cases i.up <;> cases i.multicast <;> cases isBridgeInterface i <;>
    cases isVirtualInterface i <;> simp
  cases getInterfaceAddresses (os.addrs t i) <;> simp

theorem available_mem (os : IfOs) (t0 : Nat) (is : List NetIf) (t n : Nat) (p : IfPtr) :
    p ∈ availableFrom os t0 t n is ↔ p.time = t0 ∧ n ≤ p.index ∧ is[p.index - n]? = some p.nif ∧
      Usable p.nif (os.addrs (t + (p.index - n)) p.nif) := by
  induction is generalizing t n with
  | nil => simp [availableFrom]
  | cons i is ih =>
    unfold availableFrom
    have split : ∀ (b : Bool), p ∈ (if b = true then ⟨t0, n, i⟩ :: availableFrom os t0 (t + 1) (n + 1) is
        else availableFrom os t0 (t + 1) (n + 1) is) ↔
        (b = true ∧ p = ⟨t0, n, i⟩) ∨ p ∈ availableFrom os t0 (t + 1) (n + 1) is := by
      intro b; cases b <;> simp
    rw [split, ih, use_iff]
    constructor
    · rintro (⟨h, rfl⟩ | ⟨h1, h2, h3, h4⟩)
      · refine ⟨rfl, Nat.le_refl _, by simp, by simpa using h⟩
      · obtain ⟨k, hk⟩ : ∃ k, p.index = n + 1 + k := ⟨p.index - (n + 1), by omega⟩
        refine ⟨h1, by omega, ?_, ?_⟩
        · rw [show p.index - n = (p.index - (n + 1)) + 1 by omega, List.getElem?_cons_succ]
          exact h3
        · rw [show t + (p.index - n) = t + 1 + (p.index - (n + 1)) by omega]
          exact h4
    · rintro ⟨h1, h2, h3, h4⟩
      by_cases hk : p.index = n
      · left
        rw [hk, Nat.sub_self] at h3 h4
        rw [List.getElem?_cons_zero, Option.some_inj] at h3
        obtain ⟨pt, pi, pn⟩ := p
        simp only at h1 hk h3 h4
        subst h1 hk h3
        exact ⟨h4, rfl⟩
      · right
        refine ⟨h1, by omega, ?_, ?_⟩
        · rw [show p.index - n = (p.index - (n + 1)) + 1 by omega, List.getElem?_cons_succ] at h3
          exact h3
        · rw [show t + (p.index - n) = t + 1 + (p.index - (n + 1)) by omega] at h4
          exact h4

theorem available_order (os : IfOs) (t0 : Nat) (is : List NetIf) (t n : Nat) :
    (availableFrom os t0 t n is).Pairwise (fun p q => p.index < q.index) := by
  induction is generalizing t n with
  | nil => exact .nil
  | cons i is ih =>
    unfold availableFrom
    split
    · refine .cons (fun q hq => ?_) (ih _ _)
      have := ((available_mem os t0 is _ _ q).mp hq).2.1
      show n < q.index
      omega
    · exact ih _ _

/-- C64. `GetAvailableInterfaces` returns exactly the interfaces to be used, each once and in the
order of the system; it fails exactly when the system does not list its interfaces or there is none
to be used. (`Addrs` of the interface at position `k` is called at time `t + 1 + k`.) -/
theorem C64_selected (os : IfOs) (t : Nat) :
    (∀ ps, getAvailableInterfaces os t = .ok ps → ∃ is, os.interfaces t = some is ∧
      (∀ k i, (∃ p ∈ ps, p.index = k ∧ p.nif = i) ↔ is[k]? = some i ∧ Usable i (os.addrs (t + 1 + k) i)) ∧
      ps.Pairwise (fun p q => p.index < q.index) ∧ ∀ p ∈ ps, p.time = t) ∧
    ((∃ e, getAvailableInterfaces os t = .err e) ↔
      ∀ is, os.interfaces t = some is → ∀ k i, is[k]? = some i → ¬ Usable i (os.addrs (t + 1 + k) i)) ∧
    getAvailableInterfaces os t ≠ .panic := by
  unfold getAvailableInterfaces
  cases hi : os.interfaces t with
  | none =>
    refine ⟨fun ps h => (by cases h), ⟨fun _ is h => (by cases h), fun _ => ⟨.other, rfl⟩⟩, fun h => (by cases h)⟩
  | some is =>
    dsimp only
    have hmem : ∀ k i, (∃ p ∈ availableFrom os t (t + 1) 0 is, p.index = k ∧ p.nif = i) ↔
        is[k]? = some i ∧ Usable i (os.addrs (t + 1 + k) i) := by
      intro k i
      constructor
      · rintro ⟨p, hp, rfl, rfl⟩
        obtain ⟨-, -, h3, h4⟩ := (available_mem os t is _ _ p).mp hp
        exact ⟨h3, h4⟩
      · rintro ⟨h1, h2⟩
        exact ⟨⟨t, k, i⟩, (available_mem os t is _ _ _).mpr ⟨rfl, Nat.zero_le _, h1, h2⟩, rfl, rfl⟩
    refine ⟨?_, ?_, ?_⟩
    · intro ps h
      split at h
      · cases h
      · cases h
        exact ⟨is, rfl, hmem, available_order .., fun p hp => ((available_mem os t is _ _ p).mp hp).1⟩
    · constructor
      · rintro ⟨e, h⟩ is' h' k i hk hu
        cases h'
        split at h
        · next h0 =>
          obtain ⟨p, hp, -⟩ := (hmem k i).mpr ⟨hk, hu⟩
          rw [List.length_eq_zero_iff.mp h0] at hp
          cases hp
        · cases h
      · intro h
        have : availableFrom os t (t + 1) 0 is = [] := by
          rw [List.eq_nil_iff_forall_not_mem]
          intro p hp
          obtain ⟨h1, h2⟩ := (hmem p.index p.nif).mp ⟨p, hp, rfl, rfl⟩
          exact h is rfl _ _ h1 h2
        rw [if_pos (by rw [this]; rfl)]
        exact ⟨_, rfl⟩
    · split <;> exact fun h => by cases h

/-- A host with a loopback, a docker bridge, an interface with only an IPv6 address, and one to be
used. -/
def sampleIfs : IfOs where
  interfaces _ := some [⟨['l', 'o'], true, true, true⟩, ⟨['d', 'o', 'c', 'k', 'e', 'r', '0'], false, true, true⟩,
    ⟨['e', 't', 'h', '1'], false, true, true⟩, ⟨['e', 't', 'h', '0'], false, true, true⟩]
  addrs _ i :=
    if i.name = ['e', 't', 'h', '1'] then some [['f', 'e', '8', '0', ':', ':', '1', '/', '6', '4']]
    else some [['f', 'e', '8', '0', ':', ':', '1', '/', '6', '4'], ['1', '0', '.', '0', '.', '0', '.', '2', '/', '8']]

example : getAvailableInterfaces sampleIfs 0 = .ok [⟨0, 3, ⟨['e', 't', 'h', '0'], false, true, true⟩⟩] := by
  decide +kernel

/-- **C64**: which addresses count as IPv4 and IPv6 addresses, and which can reach other nodes. -/
theorem C64_families (a : Str) :
    (isIPv4Address a = true ↔ a ≠ [] ∧ ':' ∉ a) ∧ (isIPv6Address a = true ↔ ':' ∈ a) ∧
    (isLoopbackAddress a = true ↔ a = "127.0.0.1".toList ∨ a = "::1".toList) ∧
    (isCommunicableAddress a = true ↔ a ≠ [] ∧ a ≠ "127.0.0.1".toList ∧ a ≠ "::1".toList) := by
  have h6 : isIPv6Address a = true ↔ ':' ∈ a := by
    unfold isIPv6Address
    cases a with
    | nil => simp
    | cons c l =>
      rw [if_neg (by simp)]
      cases h : (c :: l).any (fun x => decide (x = ':')) with
      | true =>
        obtain ⟨x, hx, e⟩ := List.any_eq_true.mp h
        rw [decide_eq_true_eq] at e
        rw [e] at hx
        simp only [if_true, true_iff]
        exact hx
      | false =>
        simp only [Bool.false_eq_true, if_false, false_iff]
        intro hm
        have := List.any_eq_false.mp h _ hm
        simp at this
  have hl : isLoopbackAddress a = true ↔ a = "127.0.0.1".toList ∨ a = "::1".toList := by
    unfold isLoopbackAddress
    rw [List.contains_iff_mem]
    simp
  refine ⟨?_, h6, hl, ?_⟩
  · unfold isIPv4Address
    split
    · next h => simp [List.length_eq_zero_iff.mp h]
    · next h =>
      rw [Bool.not_eq_true', ← Bool.not_eq_true, h6]
      exact ⟨fun x => ⟨fun e => h (by rw [e]; rfl), x⟩, fun x => x.2⟩
  · unfold isCommunicableAddress
    split
    · next h => simp [List.length_eq_zero_iff.mp h]
    · next h =>
      split
      · next h2 =>
        rcases hl.mp h2 with e | e <;> simp [e]
      · next h2 =>
        rw [hl] at h2
        simp only [true_iff]
        exact ⟨fun e => h (by rw [e]; rfl), fun e => h2 (.inl e), fun e => h2 (.inr e)⟩

example : isIPv4Address "10.0.0.2".toList = true ∧ isIPv6Address "fe80::1".toList = true ∧
    isIPv4Address [] = false ∧ isIPv6Address [] = false ∧ isCommunicableAddress "::1".toList = false := by decide

end Verif.Props
