import Verif.Model.Property
import Verif.Spec.PropertyMap
import Verif.Lemmas.Message

/-! Lemmas about the property map encoding. -/

namespace Verif.Lemmas
open Verif Model Spec

instance decidableByteForall {p : Byte → Prop} [DecidablePred p] : Decidable (∀ b : Byte, p b) :=
  decidable_of_iff (∀ n : Fin 256, p (BitVec.ofFin n))
    ⟨fun h b => h b.toFin, fun h _ => h _⟩

theorem forFrom_copy (cs : List Byte) : ∀ (cnt i : Nat) (pre d : List Byte), i + cnt = cs.length →
    pre.length = i + 1 → d.length = cnt →
    forFrom (fun n d => do wr d (n + 1) (← rd cs n)) cnt i (pre ++ d)
      = Res.ok (pre ++ cs.drop i) := by
  intro cnt
  induction cnt with
  | zero =>
    intro i pre d h1 h2 h3
    have : d = [] := List.eq_nil_of_length_eq_zero h3
    simp [forFrom, this, List.drop_of_length_le (show cs.length ≤ i by omega)]
  | succ c ih =>
    intro i pre d h1 h2 h3
    match d, h3 with
    | x :: d, h3 =>
    have hi : i < cs.length := by omega
    simp only [forFrom, rd_ok _ _ hi, Res.ok_bind]
    rw [wr_ok _ _ _ (by simp; omega), Res.ok_bind]
    have : (pre ++ x :: d).set (i + 1) cs[i] = (pre ++ [cs[i]]) ++ d := by
      rw [List.set_append_right _ _ (by omega), h2]
      simp
    rw [this, ih (i + 1) (pre ++ [cs[i]]) d (by omega) (by simp [h2]) (by simpa using h3)]
    simp

theorem isFormat1_true {n : Nat} (h : n ≤ 15) : isFormat1 n = true := decide_eq_true h
theorem isFormat1_false {n : Nat} (h : 15 < n) : isFormat1 n = false :=
  decide_eq_false (by simp [propertyMapFormat1MaxSize]; omega)
theorem isFormat2_true {n : Nat} (h : 15 < n) : isFormat2 n = true := by
  simp [isFormat2, isFormat1_false h]

theorem mapIdx_range (n : Nat) (f : Nat → Byte) (g : Nat → Byte → List Byte) :
    (((List.range n).map f).mapIdx g).flatten = (List.range n).flatMap (fun r => g r (f r)) := by
  have : ((List.range n).map f).mapIdx g = (List.range n).map (fun r => g r (f r)) := by
    apply List.ext_getElem
    · simp
    · intro i h1 h2; simp
  rw [this, List.flatMap_def]

theorem propertyMapBytes_format1 (cs : List Byte) (h : cs.length ≤ 15) :
    propertyMapBytes cs = .ok (BitVec.ofNat 8 cs.length :: cs) := by
  unfold propertyMapBytes
  rw [if_pos (by simp [isFormat1, propertyMapFormat1MaxSize, h])]
  dsimp only
  rw [wr_ok _ _ _ (by simp), Res.ok_bind, List.replicate_succ, List.set_cons_zero, forRange]
  have := forFrom_copy cs cs.length 0 [BitVec.ofNat 8 cs.length] (List.replicate cs.length 0)
    (by omega) rfl (by simp)
  simpa using this

theorem collect (d : List Byte) (f : Nat → Byte → List Byte) :
    ∀ (cnt i : Nat) (acc : List Byte) (tl : List Byte), tl.length = cnt → d.drop (i + 1) = tl →
    forFrom (fun n codes => do .ok (codes ++ f n (← rd d (n + 1)))) cnt i acc
      = Res.ok (acc ++ (tl.mapIdx (fun k b => f (i + k) b)).flatten) := by
  intro cnt
  induction cnt with
  | zero =>
    intro i acc tl h1 h2
    have : tl = [] := List.eq_nil_of_length_eq_zero h1
    simp [forFrom, this]
  | succ c ih =>
    intro i acc tl h1 h2
    match tl, h1 with
    | b :: tl, h1 =>
    have hb : d[i + 1]? = some b := by
      have := congrArg (fun l => l[0]?) h2
      simpa using this
    have hrd : rd d (i + 1) = .ok b := by simp [rd, hb]
    simp only [forFrom, hrd, Res.ok_bind]
    rw [ih (i + 1) (acc ++ f i b) tl (by simpa using h1) (by
      have := congrArg (List.drop 1) h2
      simpa using this)]
    simp [List.mapIdx_cons, Nat.add_assoc, Nat.add_comm 1]

theorem byteToCodes_eq : ∀ (r : Nat) (b : Byte), propertyMapFormat2ByteToCodes r b =
    ((List.range 4).filter (fun n => b.getLsbD n)).map (fun n => propertyMapFormat2BitToCode r n) := by
  intro r b
  have h : ∀ b : Byte, ∀ n < 8,
      (b &&& BitVec.ofNat 8 ((0x01 <<< n) &&& 0x0F) = 0) ↔ ¬ (n < 4 ∧ b.getLsbD n = true) := by
    decide +kernel
  unfold propertyMapFormat2ByteToCodes
  have e : List.range 8 = [0, 1, 2, 3, 4, 5, 6, 7] := rfl
  have e' : List.range 4 = [0, 1, 2, 3] := rfl
  rw [e, e']
  simp only [List.flatMap_cons, List.flatMap_nil, h b 0 (by omega), h b 1 (by omega),
    h b 2 (by omega), h b 3 (by omega), h b 4 (by omega), h b 5 (by omega), h b 6 (by omega),
    h b 7 (by omega)]
  simp only [List.filter_cons, List.filter_nil]
  generalize b.getLsbD 0 = b0
  generalize b.getLsbD 1 = b1
  generalize b.getLsbD 2 = b2
  generalize b.getLsbD 3 = b3
  cases b0 <;> cases b1 <;> cases b2 <;> cases b3 <;> simp

/-- Row, bit mask of a code in the encoder. -/
def lowNibble (c : Byte) : Nat := (c &&& 0x0F).toNat
def bitMask (c : Byte) : Byte := BitVec.ofNat 8 ((0x01 <<< ((c.toNat - 0x80) / 16)) &&& 0x0F)

def rowStep (r : Nat) (acc : Byte) (c : Byte) : Byte :=
  if 0x80#8 ≤ c ∧ lowNibble c = r then acc ||| bitMask c else acc

/-- Row byte the encoder produces. -/
def rowOf (cs : List Byte) (r : Nat) : Byte := cs.foldl (rowStep r) 0

theorem format2_code : ∀ c : Byte, propertyMapCodeToFormat2 c =
    if 0x80#8 ≤ c then (lowNibble c + 1, (c.toNat - 0x80) / 16, true) else (0, 0, false) := by
  decide +kernel

theorem rowStep_or (r : Nat) (acc c : Byte) : rowStep r acc c = acc ||| rowStep r 0 c := by
  unfold rowStep
  split <;> simp

theorem foldl_or (cs : List Byte) (r : Nat) : ∀ acc : Byte,
    cs.foldl (rowStep r) acc = acc ||| rowOf cs r := by
  unfold rowOf
  induction cs with
  | nil => intro acc; simp
  | cons c cs ih =>
    intro acc
    simp only [List.foldl_cons]
    rw [ih, ih (rowStep r 0 c), rowStep_or, BitVec.or_assoc]

theorem rowOf_cons (c : Byte) (cs : List Byte) (r : Nat) :
    rowOf (c :: cs) r = rowStep r 0 c ||| rowOf cs r := by
  rw [← foldl_or]; rfl

theorem lowNibble_lt (c : Byte) : lowNibble c < 16 := by
  have : ∀ c : Byte, lowNibble c < 16 := by decide +kernel
  exact this c

theorem format2_fold (n : Byte) (cs : List Byte) : ∀ f : Nat → Byte,
    cs.foldlM (fun d propCode => do
        let (idx, bit, ok) := propertyMapCodeToFormat2 propCode
        if !ok then .ok d
        else do
          let b ← rd d idx
          wr d idx (b ||| BitVec.ofNat 8 ((0x01 <<< bit) &&& 0x0F))) (n :: (List.range 16).map f)
    = Res.ok (n :: (List.range 16).map (fun r => f r ||| rowOf cs r)) := by
  induction cs with
  | nil => intro f; simp [rowOf]
  | cons c cs ih =>
    intro f
    rw [List.foldlM_cons, format2_code]
    by_cases hc : 0x80#8 ≤ c
    · rw [if_pos hc]
      have hlt := lowNibble_lt c
      simp only [Bool.not_true, Bool.false_eq_true, if_false]
      rw [show BitVec.ofNat 8 ((0x01 <<< ((c.toNat - 0x80) / 16)) &&& 0x0F) = bitMask c from rfl]
      rw [rd_ok _ _ (by simp; omega), Res.ok_bind, wr_ok _ _ _ (by simp; omega), Res.ok_bind]
      have hset : (n :: (List.range 16).map f).set (lowNibble c + 1)
          ((n :: (List.range 16).map f)[lowNibble c + 1]'(by simp; omega) ||| bitMask c)
          = n :: (List.range 16).map (fun r => rowStep r (f r) c) := by
        rw [List.set_cons_succ]
        congr 1
        apply List.ext_getElem
        · simp
        · intro i h1 h2
          simp only [List.getElem_set, List.getElem_map, List.getElem_range, List.getElem_cons_succ,
            rowStep, hc, true_and]
          by_cases hi : lowNibble c = i
          · subst hi; simp
          · simp only [hi, if_false]
      rw [hset, ih]
      congr 2
      apply List.map_congr_left
      intro r _
      rw [rowOf_cons, rowStep_or r (f r), BitVec.or_assoc]
    · rw [if_neg hc]
      simp only [Bool.not_false, if_true, Res.ok_bind]
      rw [ih]
      congr 2
      apply List.map_congr_left
      intro r _
      rw [rowOf_cons]
      simp [hc, rowStep]

theorem propertyMapBytes_format2 (cs : List Byte) (h : 15 < cs.length) :
    propertyMapBytes cs = .ok (BitVec.ofNat 8 cs.length :: (List.range 16).map (rowOf cs)) := by
  unfold propertyMapBytes
  rw [if_neg (by simp [isFormat1_false h])]
  dsimp only
  rw [wr_ok _ _ _ (by simp [propertyMapFormat2MapSize]), Res.ok_bind]
  have : (List.replicate (propertyMapFormat2MapSize + 1) (0 : Byte)).set 0 (BitVec.ofNat 8 cs.length)
      = BitVec.ofNat 8 cs.length :: (List.range 16).map (fun _ => 0) := by
    rw [List.replicate_succ, List.set_cons_zero]; rfl
  rw [this]
  have := format2_fold (BitVec.ofNat 8 cs.length) cs (fun _ => 0)
  rw [this]
  simp

/-- Bits of a row: the codes below 0xC0. -/
theorem rowOf_bit (cs : List Byte) (r b : Nat) (hr : r < 16) (hb : b < 8) :
    (rowOf cs r).getLsbD b = (decide (b < 4) && mapBit cs r b) := by
  have key : ∀ c : Byte, ∀ r < 16, ∀ b < 8, (rowStep r 0 c).getLsbD b
      = (decide (b < 4) && (BitVec.ofNat 8 (0x80 + 0x10 * b + r) == c)) := by
    decide +kernel
  induction cs with
  | nil => simp [rowOf, mapBit]
  | cons c cs ih =>
    rw [rowOf_cons, BitVec.getLsbD_or, ih, key c r hr b hb]
    simp only [mapBit, List.contains_cons]
    cases decide (b < 4) <;> simp

theorem ofBits_bit (f : Nat → Bool) (b : Nat) (hb : b < 8) :
    (BitVec.ofNat 8 (ofBits f)).getLsbD b = f b := by
  have key : ∀ b0 b1 b2 b3 b4 b5 b6 b7 : Bool, ∀ b < 8,
      (BitVec.ofNat 8 (ofBits (fun i => [b0, b1, b2, b3, b4, b5, b6, b7].getD i false))).getLsbD b
        = [b0, b1, b2, b3, b4, b5, b6, b7].getD b false := by decide +kernel
  have h1 : ofBits f = ofBits (fun i => [f 0, f 1, f 2, f 3, f 4, f 5, f 6, f 7].getD i false) := by
    simp [ofBits, List.range_succ]
  rw [h1, key _ _ _ _ _ _ _ _ b hb]
  match b, hb with
  | 0, _ | 1, _ | 2, _ | 3, _ | 4, _ | 5, _ | 6, _ | 7, _ => rfl

theorem byte_ext {x y : Byte} (h : ∀ b < 8, x.getLsbD b = y.getLsbD b) : x = y :=
  BitVec.eq_of_getLsbD_eq h

/-- Decoding of format 1. -/
theorem propertyMapData_format1 (p : EProp) (hc : p.code = 0x9D ∨ p.code = 0x9E ∨ p.code = 0x9F)
    (cs : List Byte) (hl : cs.length ≤ 15) (hd : p.data = BitVec.ofNat 8 cs.length :: cs) :
    p.propertyMapData = .ok cs := by
  unfold EProp.propertyMapData
  rw [if_pos (by rcases hc with h | h | h <;> simp [h]), hd, if_neg (by simp)]
  have hn : (BitVec.ofNat 8 cs.length).toNat = cs.length := by simp; omega
  simp only [rd, List.getElem?_cons_zero, Res.ok_bind, hn]
  rw [if_pos (isFormat1_true hl), if_neg (by simp), forRange]
  have := collect (BitVec.ofNat 8 cs.length :: cs) (fun _ b => [b]) cs.length 0 [] cs rfl (by simp)
  simp only [rd] at this
  rw [this]
  congr 1
  simp only [List.nil_append]
  clear this hn hd hl
  induction cs with
  | nil => rfl
  | cons c cs ih => simp [List.mapIdx_cons, ih]

/-- Decoding of format 2. -/
theorem propertyMapData_format2 (p : EProp) (hc : p.code = 0x9D ∨ p.code = 0x9E ∨ p.code = 0x9F)
    (n : Byte) (f : Nat → Byte) (hn : 15 < n.toNat) (hd : p.data = n :: (List.range 16).map f) :
    p.propertyMapData = .ok ((List.range 16).flatMap
      (fun r => propertyMapFormat2ByteToCodes r (f r))) := by
  unfold EProp.propertyMapData
  rw [if_pos (by rcases hc with h | h | h <;> simp [h]), hd, if_neg (by simp)]
  simp only [rd, List.getElem?_cons_zero, Res.ok_bind]
  rw [if_neg (by simp [isFormat1_false hn]), if_pos (isFormat2_true hn),
    if_neg (by simp [propertyMapFormat2MapSize]), forRange]
  have := collect (n :: (List.range 16).map f) propertyMapFormat2ByteToCodes 16 0 []
    ((List.range 16).map f) (by simp) (by simp)
  simp only [rd] at this
  rw [show propertyMapFormat2MapSize = 16 from rfl, this, ← mapIdx_range]
  simp

end Verif.Lemmas
