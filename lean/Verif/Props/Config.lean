import Verif.Model.Config

/-! # C63: configurations -/

namespace Verif.Props
open Verif Model

/-- C63. When the configuration equals the given one afterwards: exactly when the three settings
that are not copied were the same before. -/
theorem C63_exactly_partial (c new : TransportConfig) :
    (c.setConfig new).equals new = true ↔
      c.unicast.requestTimeout = new.unicast.requestTimeout ∧
      c.unicast.bindRetryCount = new.unicast.bindRetryCount ∧
      c.unicast.bindRetryWaitTime = new.unicast.bindRetryWaitTime := by
  obtain ⟨⟨a1, a2, a3, a4, a5⟩, a6⟩ := c
  obtain ⟨⟨b1, b2, b3, b4, b5⟩, b6⟩ := new
  simp [TransportConfig.setConfig, TransportConfig.equals, UnicastConfig.setConfig,
    UnicastConfig.equals]

/-- A configuration that differs in the other fields is taken over completely. -/
example : let new : TransportConfig := ⟨{ UnicastConfig.default with tcpEnabled := true, connectionTimeout := 7 }, true⟩
    (TransportConfig.default.setConfig new).equals new = true ∧ TransportConfig.default.equals new = false :=
  ⟨(C63_exactly_partial _ _).mpr ⟨rfl, rfl, rfl⟩, by decide⟩

/-- C63, the part that holds: TCP, the connection timeout and automatic port binding are taken
over. Missing: the request timeout and the bind retries. -/
theorem C63_copied_partial (c new : TransportConfig) :
    (c.setConfig new).unicast.tcpEnabled = new.unicast.tcpEnabled ∧
    (c.setConfig new).unicast.connectionTimeout = new.unicast.connectionTimeout ∧
    (c.setConfig new).autoPortBindingEnabled = new.autoPortBindingEnabled := ⟨rfl, rfl, rfl⟩

/-- C63 is false: a configuration without bind retries, given to a new manager, is not taken
over: binding is still retried five times. -/
theorem C63_refuted :
    let new : TransportConfig := ⟨UnicastConfig.default.setBindRetryEnabled false, false⟩
    (TransportConfig.default.setConfig new).equals new = false ∧
    (TransportConfig.default.setConfig new).unicast.bindRetryEnabled = true ∧
    (TransportConfig.default.setConfig new).unicast.bindRetryCount = 5 := by decide

/-- C63 is false: a bind retry count, a wait time or a request timeout never gets through, whatever
configurations are set one after the other. -/
theorem C63_refuted_never (news : List TransportConfig) :
    (news.foldl TransportConfig.setConfig .default).unicast.bindRetryCount = 5 ∧
    (news.foldl TransportConfig.setConfig .default).unicast.bindRetryWaitTime = 0 ∧
    (news.foldl TransportConfig.setConfig .default).unicast.requestTimeout = 5000000000 := by
  have key : ∀ (news : List TransportConfig) (c : TransportConfig),
      (news.foldl TransportConfig.setConfig c).unicast.bindRetryCount = c.unicast.bindRetryCount ∧
      (news.foldl TransportConfig.setConfig c).unicast.bindRetryWaitTime = c.unicast.bindRetryWaitTime ∧
      (news.foldl TransportConfig.setConfig c).unicast.requestTimeout = c.unicast.requestTimeout := by
    intro news
    induction news with
    | nil => exact fun c => ⟨rfl, rfl, rfl⟩
    | cons n ns ih => exact fun c => ih (c.setConfig n)
  exact key news .default

/-- **C63**: two configurations are equal for `Equals` exactly when each of their settings is the same. -/
theorem C63_equals (a b : TransportConfig) :
    a.equals b = true ↔
      a.unicast.tcpEnabled = b.unicast.tcpEnabled ∧ a.unicast.connectionTimeout = b.unicast.connectionTimeout ∧
      a.unicast.requestTimeout = b.unicast.requestTimeout ∧
      a.unicast.bindRetryCount = b.unicast.bindRetryCount ∧
      a.unicast.bindRetryWaitTime = b.unicast.bindRetryWaitTime ∧
      a.autoPortBindingEnabled = b.autoPortBindingEnabled := by
  obtain ⟨⟨a1, a2, a3, a4, a5⟩, a6⟩ := a
  obtain ⟨⟨b1, b2, b3, b4, b5⟩, b6⟩ := b
  unfold TransportConfig.equals UnicastConfig.equals
  simp only [Bool.not_eq_true', decide_eq_false_iff_not, UnicastConfig.mk.injEq]
  constructor
  · intro h
    split at h
    · cases h
    · next h1 =>
      split at h
      · cases h
      · next h2 => exact (by simp_all)
  · intro h
    simp_all

example : TransportConfig.default.equals ⟨UnicastConfig.default, true⟩ = false ∧
    TransportConfig.default.equals TransportConfig.default = true := by decide

/-- **C63**: each setter of a configuration sets its own setting and no other; enabling the retries
asks for five of them, disabling them for none. -/
theorem C63_setters (c : UnicastConfig) (b : Bool) (d : Int) (n : GoUint) :
    c.setTCPEnabled b = ⟨b, c.connectionTimeout, c.requestTimeout, c.bindRetryCount, c.bindRetryWaitTime⟩ ∧
    c.setConnectionTimeout d = ⟨c.tcpEnabled, d, c.requestTimeout, c.bindRetryCount, c.bindRetryWaitTime⟩ ∧
    c.setRequestTimeout d = ⟨c.tcpEnabled, c.connectionTimeout, d, c.bindRetryCount, c.bindRetryWaitTime⟩ ∧
    c.setBindRetryCount n = ⟨c.tcpEnabled, c.connectionTimeout, c.requestTimeout, n, c.bindRetryWaitTime⟩ ∧
    c.setBindRetryWaitTime d = ⟨c.tcpEnabled, c.connectionTimeout, c.requestTimeout, c.bindRetryCount, d⟩ ∧
    c.setBindRetryEnabled b =
      ⟨c.tcpEnabled, c.connectionTimeout, c.requestTimeout, if b then 5 else 0, c.bindRetryWaitTime⟩ ∧
    ((c.setBindRetryCount n).bindRetryEnabled = true ↔ n.toNat ≠ 0) ∧
    (c.setBindRetryEnabled b).bindRetryEnabled = b := by
  refine ⟨rfl, rfl, rfl, rfl, rfl, ?_, ?_, ?_⟩
  · cases b <;> rfl
  · unfold UnicastConfig.bindRetryEnabled UnicastConfig.setBindRetryCount
    rw [decide_eq_true_iff]
    show ¬ (n = 0) ↔ _
    exact not_congr ⟨fun h => by rw [h]; rfl, fun h => BitVec.eq_of_toNat_eq h⟩
  · cases b <;> rfl

example : ((UnicastConfig.default.setBindRetryEnabled false).setConnectionTimeout 3) =
    ⟨false, 3, 5000000000, 0, 0⟩ := by decide

end Verif.Props
