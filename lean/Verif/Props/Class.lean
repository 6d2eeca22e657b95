import Verif.Model.Class
import Verif.Props.Profile

/-!
# C143: classes made by options; C134: kinds of profiles
-/

namespace Verif.Props
open Verif Model Spec Lemmas

/-! ## Specification -/

/-- The group code an option asks for, if it asks for one. -/
def groupAsked : ClassOption → Option Byte
  | .bytes cs => cs[0]?
  | .code _ => none
  | .group g => some g

/-- The class code an option asks for, if it asks for one. -/
def codeAsked : ClassOption → Option Byte
  | .bytes cs => cs[1]?
  | .code k => some k
  | .group _ => none

/-- What the last option asks for that asks for anything; zero when none does. -/
def lastAsked (f : ClassOption → Option Byte) (os : List ClassOption) : Byte :=
  ((os.filterMap f).getLast?).getD 0

/-- An option that can be used: the bytes of a class are at least two. -/
def EnoughBytes : ClassOption → Prop
  | .bytes cs => 2 ≤ cs.length
  | _ => True

/-! ## Proofs -/

private theorem mask_byte : ∀ b : Byte, b &&& 0xFF = b := by decide +kernel

private theorem applyOptions_eq (os : List ClassOption) : ∀ c : Cls, (∀ o ∈ os, EnoughBytes o) →
    c.applyOptions os =
      .ok ⟨((os.filterMap groupAsked).getLast?).getD c.group, ((os.filterMap codeAsked).getLast?).getD c.code⟩ := by
  induction os with
  | nil => intro c _; rfl
  | cons o os ih =>
    intro c h
    have ho := h o List.mem_cons_self
    have hos : ∀ x ∈ os, EnoughBytes x := fun x hx => h x (List.mem_cons_of_mem _ hx)
    have last : ∀ (l : List Byte) (x d : Byte), ((x :: l).getLast?).getD d = (l.getLast?).getD x := by
      intro l x d
      cases l with
      | nil => rfl
      | cons y l => simp [List.getLast?_cons_cons]; rw [List.getLast?_eq_some_getLast (by simp)]; rfl
    cases o with
    | bytes cs =>
      match cs, ho with
      | g :: k :: cs, _ =>
        show (Cls.mk g k).applyOptions os = _
        rw [ih _ hos]
        simp only [List.filterMap_cons, groupAsked, codeAsked, List.getElem?_cons_zero, List.getElem?_cons_succ, last]
    | code k =>
      show ({ c with code := k &&& 0xFF } : Cls).applyOptions os = _
      rw [ih _ hos, mask_byte]
      simp only [List.filterMap_cons, groupAsked, codeAsked, last]
    | group g =>
      show ({ c with group := g &&& 0xFF } : Cls).applyOptions os = _
      rw [ih _ hos, mask_byte]
      simp only [List.filterMap_cons, groupAsked, codeAsked, last]

private theorem applyOptions_short (os : List ClassOption) (h : ∃ o ∈ os, ¬ EnoughBytes o) : ∀ c : Cls,
    c.applyOptions os = .panic := by
  induction os with
  | nil => obtain ⟨o, ho, -⟩ := h; exact absurd ho List.not_mem_nil
  | cons o os ih =>
    intro c
    by_cases hu : EnoughBytes o
    · have ht : ∃ x ∈ os, ¬ EnoughBytes x := by
        obtain ⟨x, hx, hn⟩ := h
        rcases List.mem_cons.mp hx with rfl | hx
        · exact absurd hu hn
        · exact ⟨x, hx, hn⟩
      cases o with
      | bytes cs =>
        match cs, hu with
        | g :: k :: cs, _ => exact ih ht _
      | code k => exact ih ht _
      | group g => exact ih ht _
    · cases o with
      | bytes cs =>
        match cs, hu with
        | [], _ => rfl
        | [_], _ => rfl
        | _ :: _ :: _, hu => exact absurd (by simp [EnoughBytes]) hu
      | code k => exact absurd trivial hu
      | group g => exact absurd trivial hu

/-! ## C143: classes made by options -/

/-- C143 is false: `NewClass` crashes for every list of options one of which gives fewer than two
bytes, instead of returning the error it declares. -/
theorem C143_refuted_short (os : List ClassOption) (h : ∃ o ∈ os, ¬ EnoughBytes o) : Cls.newWith os = .panic :=
  applyOptions_short os h _

example : ∃ o ∈ [ClassOption.group 0x02, .bytes [(0x90 : Byte)]], ¬ EnoughBytes o :=
  ⟨_, List.mem_cons_of_mem _ List.mem_cons_self, by simp [EnoughBytes]⟩

/-- C143 is false: every class can be changed by writing into the bytes it returned. -/
theorem C143_refuted_bytes (c : Cls) (b : Byte) :
    c.writeBytes 0 b = .ok ⟨b, c.code⟩ ∧ c.writeBytes 1 b = .ok ⟨c.group, b⟩ := ⟨rfl, rfl⟩

/-- C143, the part that holds: for all options that can be used `NewClass` succeeds and its class
has the group code and the class code of the last options that gave them, zero when none did, and
its bytes are the two of them. Missing: options with too few bytes, writes into the bytes returned. -/
theorem C143_options_partial (os : List ClassOption) (h : ∀ o ∈ os, EnoughBytes o) :
    ∃ c, Cls.newWith os = .ok c ∧ c.group = lastAsked groupAsked os ∧ c.code = lastAsked codeAsked os ∧
      c.bytes = [lastAsked groupAsked os, lastAsked codeAsked os] :=
  ⟨_, applyOptions_eq os _ h, rfl, rfl, rfl⟩

/-- Group and code given apart, overridden by bytes, the code given again. -/
example : (∀ o ∈ [ClassOption.group 0x01, .code 0x30, .bytes [(0x02 : Byte), 0x90, 0x01], .code 0x91], EnoughBytes o) ∧
    lastAsked groupAsked [.group 0x01, .code 0x30, .bytes [(0x02 : Byte), 0x90, 0x01], .code 0x91] = 0x02 ∧
    lastAsked codeAsked [.group 0x01, .code 0x30, .bytes [(0x02 : Byte), 0x90, 0x01], .code 0x91] = 0x91 := by
  refine ⟨?_, by decide, by decide⟩
  intro o ho
  simp only [List.mem_cons, List.not_mem_nil, or_false] at ho
  rcases ho with rfl | rfl | rfl | rfl <;> simp [EnoughBytes]

/-- C143. The bytes of a class make it again: a class equals the class made of its bytes, whatever
options came before. -/
theorem C143_bytes (c : Cls) (os : List ClassOption) (h : ∀ o ∈ os, EnoughBytes o) :
    Cls.newWith (os ++ [.bytes c.bytes]) = .ok c := by
  have hu : ∀ o ∈ os ++ [ClassOption.bytes c.bytes], EnoughBytes o := by
    intro o ho
    rcases List.mem_append.mp ho with ho | ho
    · exact h o ho
    · obtain rfl : o = ClassOption.bytes c.bytes := by simpa using ho
      exact Nat.le_refl 2
  rw [Cls.newWith, applyOptions_eq _ _ hu]
  simp [List.filterMap_append, groupAsked, codeAsked, Cls.bytes]

/-! ## C134: kinds of profiles -/

/-- C134. A profile is a node profile exactly when its code is 0x0EF001 or 0x0EF002, it is read-only
exactly when its code is 0x0EF002, and every node profile is a profile. -/
theorem C134_profile (db : StdDB) (o : Obj) (h : ReachedPlain o ∨ Reached db o) :
    (o.isNodeProfile = true ↔ o.code.toNat = 0x0EF001 ∨ o.code.toNat = 0x0EF002) ∧
    (o.isReadOnly = true ↔ o.code.toNat = 0x0EF002) ∧
    (o.isNodeProfile = true → o.isProfile = .ok true) := by
  have eq : ∀ (c : GoUint) (n : Nat), n < 2 ^ 64 → (c = BitVec.ofNat 64 n ↔ c.toNat = n) := by
    intro c n hn
    constructor
    · rintro rfl
      rw [BitVec.toNat_ofNat, Nat.mod_eq_of_lt hn]
    · intro hc
      apply BitVec.eq_of_toNat_eq
      rw [BitVec.toNat_ofNat, Nat.mod_eq_of_lt hn, hc]
  have e1 := eq o.code 0x0EF001 (by decide)
  have e2 := eq o.code 0x0EF002 (by decide)
  have h1 : o.isNodeProfile = true ↔ o.code.toNat = 0x0EF001 ∨ o.code.toNat = 0x0EF002 := by
    rw [← e1, ← e2]
    unfold Obj.isNodeProfile Obj.isNodeProfileObjectCode nodeProfileObjectCode nodeProfileObjectReadOnlyCode
    by_cases h : o.code = BitVec.ofNat 64 0x0EF001 <;> by_cases h' : o.code = BitVec.ofNat 64 0x0EF002 <;>
      simp [h, h']
  refine ⟨h1, ?_, fun hn => ?_⟩
  · rw [← e2]
    unfold Obj.isReadOnly nodeProfileObjectReadOnlyCode
    exact beq_iff_eq
  · obtain ⟨g, c, i, -, -, -, -, hc, hp, -⟩ := C134_kind db o h
    have hk := h1.mp hn
    have h2 := g.isLt
    have h3 := c.isLt
    have h4 := i.isLt
    have hg : g = 0x0E := by
      apply BitVec.eq_of_toNat_eq
      show g.toNat = 14
      omega
    rw [hp, hg]
    rfl

/-- The profile of a new node is a node profile and not read-only. -/
example : (Obj.newNodeProfile stdDB).isNodeProfile = true ∧ (Obj.newNodeProfile stdDB).isReadOnly = false := by
  decide +kernel

end Verif.Props
