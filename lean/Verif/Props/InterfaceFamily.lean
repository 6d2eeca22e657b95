import Verif.Model.InterfaceFamily
import Verif.Props.Interface

/-!
# C180: families of interfaces
-/

namespace Verif.Props
open Verif Model

/-- The printed address is IPv6 address `ip` with a mask. -/
def IPv6 (a ip : Str) : Prop := ∃ mask, a = ip ++ '/' :: mask ∧ '/' ∉ ip ∧ ':' ∈ ip

theorem addresses_v4 {addrs : Option (List Str)} {l : List Str} (h : getInterfaceAddresses addrs = .ok l) :
    ∃ as, addrs = some as ∧ ∀ ip, ip ∈ l ↔ ∃ a ∈ as, IPv4 a ip := by
  obtain ⟨as, e, h', _⟩ := (C64_addresses addrs).1 l h
  exact ⟨as, e, h'⟩

/-- **C180, the part that holds.** `IsIPv4Interface` is true exactly if the interface has an IPv4 address. Missing: the
same for IPv6, which is refuted. -/
theorem C180_ipv4_partial (addrs : Option (List Str)) :
    isIPv4Interface addrs = true ↔ ∃ as, addrs = some as ∧ ∃ a ∈ as, ∃ ip, ip ≠ [] ∧ IPv4 a ip := by
  unfold isIPv4Interface
  cases h : getInterfaceAddresses addrs with
  | ok l =>
    obtain ⟨as, e, hl⟩ := addresses_v4 h
    simp only [List.any_eq_true]
    constructor
    · rintro ⟨ip, hi, hf⟩
      obtain ⟨a, ha, h4⟩ := (hl ip).1 hi
      exact ⟨as, e, a, ha, ip, ((C64_families ip).1.1 hf).1, h4⟩
    · rintro ⟨as', e', a, ha, ip, ne, h4⟩
      rw [e] at e'; cases e'
      refine ⟨ip, (hl ip).2 ⟨a, ha, h4⟩, (C64_families ip).1.2 ⟨ne, ?_⟩⟩
      obtain ⟨mask, -, -, h'⟩ := h4
      exact h'
  | err e =>
    have := (C64_addresses addrs).2.1 ⟨e, h⟩
    constructor
    · intro h'; cases h'
    · rintro ⟨as, e', a, ha, ip, _, h4⟩
      exact absurd h4 (this as e' a ha ip)
  | panic =>
    exfalso
    cases addrs with
    | none => cases h
    | some as => rw [addresses_eq] at h; split at h <;> cases h

/-- **C180.** `IsIPv6Interface` is false, whatever addresses the interface has: the addresses it looks at are those of
`GetInterfaceAddresses`, which leaves out IPv6 addresses. -/
theorem C180_never (addrs : Option (List Str)) : isIPv6Interface addrs = false := by
  unfold isIPv6Interface
  cases h : getInterfaceAddresses addrs with
  | ok l =>
    obtain ⟨as, e, hl⟩ := addresses_v4 h
    simp only [List.any_eq_false]
    intro ip hi h6
    obtain ⟨a, _, mask, _, _, h'⟩ := (hl ip).1 hi
    exact h' ((ipv6_iff ip).1 h6)
  | err e => rfl
  | panic => rfl

/-- **C180 refuted.** For every interface with an IPv6 address the answer of `IsIPv6Interface` is wrong. -/
theorem C180_refuted {as : List Str} {a ip : Str} (ha : a ∈ as) (h6 : IPv6 a ip) :
    ¬ (isIPv6Interface (some as) = true ↔ ∃ a ∈ as, ∃ ip, IPv6 a ip) := fun h => by
  have := h.2 ⟨a, ha, ip, h6⟩
  rw [C180_never] at this
  cases this

/-- There are interfaces with an IPv6 address. -/
example : IPv6 "fe80::1/64".toList "fe80::1".toList := ⟨"64".toList, by decide +kernel⟩

/-- One with both kinds of addresses is an IPv4 interface and no IPv6 interface, one with only the latter is neither. -/
example : isIPv4Interface (some ["10.0.0.2/24".toList, "fe80::1/64".toList]) = true ∧
    isIPv6Interface (some ["10.0.0.2/24".toList, "fe80::1/64".toList]) = false ∧
    isIPv4Interface (some ["fe80::1/64".toList]) = false ∧ isIPv6Interface (some ["fe80::1/64".toList]) = false := by
  decide +kernel

end Verif.Props
