import Verif.Model.Retry

/-!
# C156: starting ends
-/

namespace Verif.Props
open Verif Model

/-- The loop ends in the state the function computes. -/
theorem retry_ends (os : Os) (port : Nat) (ifis : List IfPtr) (count : GoUint) (hc : count ≠ BitVec.allOnes 64)
    (r : Nat) : ∀ (n : GoUint) (lastErr : Option Err) (t : Transport), n.toNat + r = count.toNat →
    ∃ k, k ≤ r + 2 ∧ (RetryLoop.after os port ifis count k ⟨n, lastErr, t, false⟩).left = true ∧
      ((RetryLoop.after os port ifis count k ⟨n, lastErr, t, false⟩).lastErr,
        (RetryLoop.after os port ifis count k ⟨n, lastErr, t, false⟩).transport)
        = Transport.bindRetry os port ifis r lastErr t := by
  have hlt : count.toNat + 1 < 2 ^ 64 := by
    have h := count.isLt
    have : count.toNat ≠ 2 ^ 64 - 1 := by
      intro h'
      apply hc
      apply BitVec.eq_of_toNat_eq
      rw [h']
      rfl
    omega
  induction r with
  | zero =>
    intro n lastErr t hn
    have hle : n ≤ count := by
      rw [BitVec.le_def]; omega
    cases hb : Transport.bindIfs os port ifis lastErr t with
    | mk e t' =>
      cases e with
      | none =>
        refine ⟨1, by omega, ?_⟩
        have : RetryLoop.after os port ifis count 1 ⟨n, lastErr, t, false⟩ = ⟨n, none, t', true⟩ := by
          simp only [RetryLoop.after]
          unfold RetryLoop.step
          dsimp only
          rw [if_neg (by decide), if_pos hle, hb]
        rw [this]
        refine ⟨rfl, ?_⟩
        unfold Transport.bindRetry
        rw [hb]
      | some e =>
        refine ⟨2, by omega, ?_⟩
        have h1 : RetryLoop.step os port ifis count ⟨n, lastErr, t, false⟩ = ⟨n + 1, some e, t', false⟩ := by
          unfold RetryLoop.step
          dsimp only
          rw [if_neg (by decide), if_pos hle, hb]
        have hgt : ¬ n + 1 ≤ count := by
          rw [BitVec.le_def, BitVec.toNat_add]
          have : (1 : BitVec 64).toNat = 1 := rfl
          rw [this, Nat.mod_eq_of_lt (by omega)]
          omega
        have : RetryLoop.after os port ifis count 2 ⟨n, lastErr, t, false⟩ = ⟨n + 1, some e, t', true⟩ := by
          show RetryLoop.step os port ifis count (RetryLoop.step os port ifis count _) = _
          rw [h1]
          unfold RetryLoop.step
          dsimp only
          rw [if_neg (by decide), if_neg hgt]
        rw [this]
        refine ⟨rfl, ?_⟩
        unfold Transport.bindRetry
        rw [hb]
  | succ r ih =>
    intro n lastErr t hn
    have hle : n ≤ count := by
      rw [BitVec.le_def]; omega
    cases hb : Transport.bindIfs os port ifis lastErr t with
    | mk e t' =>
      cases e with
      | none =>
        refine ⟨1, by omega, ?_⟩
        have : RetryLoop.after os port ifis count 1 ⟨n, lastErr, t, false⟩ = ⟨n, none, t', true⟩ := by
          simp only [RetryLoop.after]
          unfold RetryLoop.step
          dsimp only
          rw [if_neg (by decide), if_pos hle, hb]
        rw [this]
        refine ⟨rfl, ?_⟩
        unfold Transport.bindRetry
        rw [hb]
      | some e =>
        have h1 : RetryLoop.step os port ifis count ⟨n, lastErr, t, false⟩ = ⟨n + 1, some e, t', false⟩ := by
          unfold RetryLoop.step
          dsimp only
          rw [if_neg (by decide), if_pos hle, hb]
        have hn1 : (n + 1).toNat + r = count.toNat := by
          rw [BitVec.toNat_add]
          have : (1 : BitVec 64).toNat = 1 := rfl
          rw [this, Nat.mod_eq_of_lt (by omega)]
          omega
        obtain ⟨k, hk, hl, he⟩ := ih (n + 1) (some e) t' hn1
        refine ⟨k + 1, by omega, ?_⟩
        have h2 : RetryLoop.after os port ifis count (k + 1) ⟨n, lastErr, t, false⟩
            = RetryLoop.after os port ifis count k ⟨n + 1, some e, t', false⟩ := by
          show RetryLoop.after os port ifis count k (RetryLoop.step os port ifis count _) = _
          rw [h1]
        rw [h2]
        refine ⟨hl, he.trans ?_⟩
        conv => rhs; unfold Transport.bindRetry
        rw [hb]

/-- C156, restricted: with every number of retries but the largest, the retries end whatever the system does, after at
most one attempt more than there are retries, and do what `Transport.bindRetry` says. -/
theorem C156_ends_partial (os : Os) (port : Nat) (ifis : List IfPtr) (count : GoUint)
    (hc : count.toNat ≠ 2 ^ 64 - 1) (lastErr : Option Err) (t : Transport) :
    ∃ k, k ≤ count.toNat + 2 ∧
      (RetryLoop.after os port ifis count k (.enter lastErr t)).left = true ∧
      ((RetryLoop.after os port ifis count k (.enter lastErr t)).lastErr,
        (RetryLoop.after os port ifis count k (.enter lastErr t)).transport)
        = Transport.bindRetry os port ifis count.toNat lastErr t :=
  retry_ends os port ifis count (fun h => hc (by rw [h]; rfl)) count.toNat 0 lastErr t (by simp)

/-- The system has addresses for the interfaces and refuses every socket on the port. -/
def Refuses (os : Os) (port : Nat) (ifis : List IfPtr) : Prop :=
  (∀ t a, os.udp t a port = .refused) ∧ ∀ i ∈ ifis, ∀ t, ∃ as, getInterfaceAddresses (os.addrs t i.nif) = .ok as

theorem addresses_some {x : Option (List Str)} {as : List Str} (h : getInterfaceAddresses x = .ok as) : as ≠ [] := by
  unfold getInterfaceAddresses at h
  cases x with
  | none => cases h
  | some x =>
    dsimp only at h
    split at h
    · cases h
    · rename_i hne
      injection h with h
      rw [← h]
      intro h'
      rw [h'] at hne
      exact hne rfl

theorem bindAddrs_refused (os : Os) (port : Nat) (h : ∀ t a, os.udp t a port = .refused) (ifi : IfPtr) (as : List Str)
    (has : as ≠ []) (lastErr : Option Err) (t : Transport) :
    ∃ e t', Transport.bindAddrs os ifi port as lastErr t = (some e, t') := by
  cases as with
  | nil => exact absurd rfl has
  | cons a as =>
    refine ⟨.other, (t.startUnicastAt os ifi a port).2, ?_⟩
    unfold Transport.bindAddrs Transport.startUnicastAt UServer.start udpBind
    rw [h]

theorem bindIfs_refused (os : Os) (port : Nat) (ifis : List IfPtr) (h : Refuses os port ifis) :
    ∀ (lastErr : Option Err) (t : Transport), ifis ≠ [] ∨ lastErr ≠ none →
      ∃ e t', Transport.bindIfs os port ifis lastErr t = (some e, t') := by
  obtain ⟨h1, h2⟩ := h
  induction ifis with
  | nil =>
    intro lastErr t hl
    cases lastErr with
    | none => rcases hl with hl | hl <;> exact absurd rfl hl
    | some e => exact ⟨e, t, rfl⟩
  | cons i ifis ih =>
    intro lastErr t _
    obtain ⟨as, has⟩ := h2 i (.head _) t.world.clock
    unfold Transport.bindIfs
    rw [has]
    dsimp only
    obtain ⟨e, t', hb⟩ := bindAddrs_refused os port h1 i as (addresses_some has) lastErr { t with world := t.world.tick }
    rw [hb]
    dsimp only
    exact ih (fun i hi => h2 i (.tail _ hi)) (some e) t' (.inr (by simp))

/-- C156, the exact number of attempts: while every socket is refused, a start goes on through all retries and gives up
after the last one. -/
theorem C156_attempts (os : Os) (port : Nat) (ifis : List IfPtr) (count : GoUint) (h : Refuses os port ifis)
    (hi : ifis ≠ []) (lastErr : Option Err) (t : Transport) (k : Nat) (hk : k ≤ count.toNat + 1) :
    (RetryLoop.after os port ifis count k (.enter lastErr t)).left = false := by
  have key : ∀ (k : Nat) (n : GoUint) (lastErr : Option Err) (t : Transport), n.toNat + k ≤ count.toNat + 1 →
      (RetryLoop.after os port ifis count k ⟨n, lastErr, t, false⟩).left = false := by
    intro k
    induction k with
    | zero => intros; rfl
    | succ k ih =>
      intro n lastErr t hn
      have hle : n ≤ count := by
        rw [BitVec.le_def]; omega
      obtain ⟨e, t', hb⟩ := bindIfs_refused os port ifis h lastErr t (.inl hi)
      have h1 : RetryLoop.step os port ifis count ⟨n, lastErr, t, false⟩ = ⟨n + 1, some e, t', false⟩ := by
        unfold RetryLoop.step
        dsimp only
        rw [if_neg (by decide), if_pos hle, hb]
      show (RetryLoop.after os port ifis count k (RetryLoop.step os port ifis count _)).left = false
      rw [h1]
      refine ih _ _ _ ?_
      rw [BitVec.toNat_add]
      have : (1 : BitVec 64).toNat = 1 := rfl
      rw [this]
      have := Nat.mod_le (n.toNat + 1) (2 ^ 64)
      omega
  exact key k 0 lastErr t (by simpa using hk)

/-- C156 refuted: with the largest number of retries, a start whose sockets are refused never ends. -/
theorem C156_refuted_any (os : Os) (port : Nat) (ifis : List IfPtr) (count : GoUint) (hc : count.toNat = 2 ^ 64 - 1)
    (h : Refuses os port ifis) (hi : ifis ≠ []) (lastErr : Option Err) (t : Transport) (k : Nat) :
    (RetryLoop.after os port ifis count k (.enter lastErr t)).left = false := by
  have key : ∀ (k : Nat) (n : GoUint) (lastErr : Option Err) (t : Transport),
      (RetryLoop.after os port ifis count k ⟨n, lastErr, t, false⟩).left = false := by
    intro k
    induction k with
    | zero => intros; rfl
    | succ k ih =>
      intro n lastErr t
      have hle : n ≤ count := by
        rw [BitVec.le_def]
        have := n.isLt
        omega
      obtain ⟨e, t', hb⟩ := bindIfs_refused os port ifis h lastErr t (.inl hi)
      have h1 : RetryLoop.step os port ifis count ⟨n, lastErr, t, false⟩ = ⟨n + 1, some e, t', false⟩ := by
        unfold RetryLoop.step
        dsimp only
        rw [if_neg (by decide), if_pos hle, hb]
      show (RetryLoop.after os port ifis count k (RetryLoop.step os port ifis count _)).left = false
      rw [h1]
      exact ih _ _ _
  exact key k 0 lastErr t

/-- A system that refuses every socket of one interface, where the number of retries was set to the largest one. -/
example : let os : Os := ⟨⟨fun _ => some [⟨['e'], false, true, true⟩], fun _ _ => some [['1', '/', '8']]⟩,
      fun _ _ _ => .refused, fun _ _ _ => .ok, fun _ _ => .ok, fun _ => false⟩
    let ifis : List IfPtr := [⟨0, 0, ⟨['e'], false, true, true⟩⟩]
    Refuses os 3610 ifis ∧ getAvailableInterfaces os.toIfOs 0 = .ok ifis ∧
    (UnicastConfig.default.setBindRetryCount (BitVec.allOnes 64)).bindRetryCount.toNat = 2 ^ 64 - 1 ∧
    UnicastConfig.default.bindRetryCount.toNat = 5 := by
  refine ⟨⟨fun _ _ => rfl, ?_⟩, by decide, rfl, rfl⟩
  intro i _ t
  exact ⟨_, rfl⟩

end Verif.Props
