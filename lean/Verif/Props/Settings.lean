import Verif.Model.Settings

/-!
# C157: a node works with the configuration it shows
-/

namespace Verif.Props
open Verif Model

/-- The transport works with what the configuration says: TCP, the connection timeout and automatic ports. -/
def WorksWith (t : TransportConfig) (c : TransportConfig) : Prop :=
  t.unicast.tcpEnabled = c.unicast.tcpEnabled ∧ t.unicast.connectionTimeout = c.unicast.connectionTimeout ∧
  t.autoPortBindingEnabled = c.autoPortBindingEnabled

/-- The running servers work with what the configuration says. -/
def ServesWith (u : UnicastConfig) (c : TransportConfig) : Prop :=
  u.tcpEnabled = c.unicast.tcpEnabled ∧ u.connectionTimeout = c.unicast.connectionTimeout

/-- The call gives the node another configuration. -/
def Gives : SettingsOp → Bool
  | .setConfig _ => true
  | _ => false

/-- The call starts or stops the node. -/
def Restarts : SettingsOp → Bool
  | .start => true
  | .stop => true
  | _ => false

theorem settings_append (s : Settings) (a b : List SettingsOp) : s.run (a ++ b) = (s.run a).run b := List.foldl_append

theorem settings_keep (ops : List SettingsOp) (s : Settings) (h : ∀ op ∈ ops, Gives op = false) :
    (s.run ops).own = s.own ∧ (s.run ops).manager = s.manager := by
  induction ops generalizing s with
  | nil => exact ⟨rfl, rfl⟩
  | cons op ops ih =>
    obtain ⟨h1, h2⟩ := ih (s.step op) fun op ho => h op (.tail _ ho)
    have : (s.step op).own = s.own ∧ (s.step op).manager = s.manager := by
      cases op with
      | setConfig i => exact absurd (h _ (.head _)) (by simp [Gives])
      | change i c =>
        simp only [Settings.step]
        cases s.configs[i]? <;> exact ⟨rfl, rfl⟩
      | _ => exact ⟨rfl, rfl⟩
    exact ⟨h1.trans this.1, h2.trans this.2⟩

theorem settings_servers (ops : List SettingsOp) (s : Settings) (h : ∀ op ∈ ops, Restarts op = false) :
    (s.run ops).servers = s.servers := by
  induction ops generalizing s with
  | nil => rfl
  | cons op ops ih =>
    refine (ih (s.step op) fun op ho => h op (.tail _ ho)).trans ?_
    have hr := h op (.head _)
    cases op with
    | start => exact absurd hr (by simp [Restarts])
    | stop => exact absurd hr (by simp [Restarts])
    | change i c =>
      simp only [Settings.step]
      cases s.configs[i]? <;> rfl
    | setConfig i =>
      simp only [Settings.step]
      cases s.configs[i]? <;> rfl
    | make t => rfl

theorem settings_unchanged (ops : List SettingsOp) (s : Settings) (i : Nat) (x : NodeConfig)
    (hx : s.configs[i]? = some x) (h : ∀ op ∈ ops, ∀ c, op ≠ .change i c) : (s.run ops).configs[i]? = some x := by
  induction ops generalizing s with
  | nil => exact hx
  | cons op ops ih =>
    refine ih (s.step op) ?_ fun op ho => h op (.tail _ ho)
    have hi : i < s.configs.length := (List.getElem?_eq_some_iff.mp hx).1
    cases op with
    | make t =>
      simp only [Settings.step]
      rw [List.getElem?_append_left hi]
      exact hx
    | change j c =>
      have hj : j ≠ i := fun e => h _ (.head _) c (by rw [e])
      simp only [Settings.step]
      cases s.configs[j]? with
      | none => exact hx
      | some y =>
        dsimp only
        rw [List.getElem?_set_ne hj]
        exact hx
    | setConfig j =>
      simp only [Settings.step]
      cases s.configs[j]? <;> exact hx
    | start => exact hx
    | stop => exact hx

/-- C157, exactly what is used: after any history, the transport works with what the configuration given last said when
it was given, the node shows what that configuration says now, and the running servers work with what it said when it
was given if they were started after that. -/
theorem C157_used (pre mid post : List SettingsOp) (i : Nat) (x : NodeConfig)
    (hx : (Settings.new.run pre).configs[i]? = some x) (hm : ∀ op ∈ mid, Gives op = false)
    (hp : ∀ op ∈ post, Gives op = false ∧ Restarts op = false) :
    let s := Settings.new.run (pre ++ .setConfig i :: mid)
    let s' := Settings.new.run (pre ++ .setConfig i :: mid ++ .start :: post)
    WorksWith s.manager x.transport ∧ s.own = i ∧ s.configs[i]? = some s.shown ∧
    ∃ u, s'.servers = some u ∧ ServesWith u x.transport := by
  intro s s'
  have e : s = (((Settings.new.run pre).step (.setConfig i)).run mid) := by
    show Settings.new.run (pre ++ .setConfig i :: mid) = _
    rw [settings_append]; rfl
  have hstep : (Settings.new.run pre).step (.setConfig i)
      = ⟨(Settings.new.run pre).configs, i, (Settings.new.run pre).manager.setConfig x.transport,
          (Settings.new.run pre).servers⟩ := by
    simp only [Settings.step]
    rw [hx]
  obtain ⟨h1, h2⟩ := settings_keep mid ((Settings.new.run pre).step (.setConfig i)) hm
  rw [← e] at h1 h2
  have hman : s.manager = (Settings.new.run pre).manager.setConfig x.transport := by rw [h2, hstep]
  have hw : WorksWith s.manager x.transport := by
    rw [hman]
    exact ⟨rfl, rfl, rfl⟩
  have hown : s.own = i := by rw [h1, hstep]
  have hlen : ∀ (ops : List SettingsOp) (t : Settings), t.configs.length ≤ (t.run ops).configs.length := by
    intro ops
    induction ops with
    | nil => exact fun t => Nat.le_refl _
    | cons op ops ih =>
      intro t
      refine Nat.le_trans ?_ (ih (t.step op))
      cases op with
      | make _ => simp [Settings.step]
      | change j c =>
        simp only [Settings.step]
        cases t.configs[j]? <;> simp
      | setConfig j =>
        simp only [Settings.step]
        cases t.configs[j]? <;> simp
      | _ => exact Nat.le_refl _
  have hi : i < s.configs.length := by
    have h3 := (List.getElem?_eq_some_iff.mp hx).1
    have h4 := hlen mid ((Settings.new.run pre).step (.setConfig i))
    rw [← e] at h4
    have h5 : ((Settings.new.run pre).step (.setConfig i)).configs = (Settings.new.run pre).configs := by rw [hstep]
    rw [h5] at h4
    omega
  refine ⟨hw, hown, ?_, ?_⟩
  · unfold Settings.shown
    rw [hown, List.getElem?_eq_getElem hi]
    rfl
  · have e' : s' = ((s.step .start).run post) := by
      show Settings.new.run (pre ++ .setConfig i :: mid ++ .start :: post) = _
      rw [settings_append]; rfl
    refine ⟨UnicastConfig.default.setConfig s.manager.unicast, ?_, ?_⟩
    · rw [e', settings_servers post _ fun op ho => (hp op ho).2]
      rfl
    · exact ⟨hw.1, hw.2.1⟩

/-- C157, restricted to configurations that are not changed after they are given: the node shows what it works with. -/
theorem C157_agree_partial (pre mid post : List SettingsOp) (i : Nat) (x : NodeConfig)
    (hx : (Settings.new.run pre).configs[i]? = some x) (hm : ∀ op ∈ mid, Gives op = false)
    (hp : ∀ op ∈ post, Gives op = false ∧ Restarts op = false) (hc : ∀ op ∈ mid ++ post, ∀ c, op ≠ .change i c) :
    let s := Settings.new.run (pre ++ .setConfig i :: mid ++ .start :: post)
    s.shown = x ∧ WorksWith s.manager s.shown.transport ∧
    ∃ u, s.servers = some u ∧ ServesWith u s.shown.transport := by
  intro s
  have hmid : ∀ op ∈ mid ++ .start :: post, Gives op = false := by
    intro op ho
    rcases List.mem_append.mp ho with ho | ho
    · exact hm op ho
    · cases ho with
      | head => rfl
      | tail _ ho => exact (hp op ho).1
  have hs : s = Settings.new.run (pre ++ .setConfig i :: (mid ++ .start :: post)) := by
    show Settings.new.run _ = _
    rw [List.append_assoc]; rfl
  obtain ⟨h1, h2, h3, -⟩ := C157_used pre (mid ++ .start :: post) [] i x hx hmid (fun op ho => by cases ho)
  obtain ⟨-, -, -, h4⟩ := C157_used pre mid post i x hx hm hp
  rw [← hs] at h1 h2 h3
  have hsh : s.shown = x := by
    have : s.configs[i]? = some x := by
      rw [hs, settings_append]
      show (((Settings.new.run pre).step (.setConfig i)).run (mid ++ .start :: post)).configs[i]? = _
      refine settings_unchanged _ _ i x ?_ ?_
      · simp only [Settings.step]
        rw [hx]
        exact hx
      · intro op ho c
        rcases List.mem_append.mp ho with ho | ho
        · exact hc op (List.mem_append.mpr (.inl ho)) c
        · cases ho with
          | head => intro h; cases h
          | tail _ ho => exact hc op (List.mem_append.mpr (.inr ho)) c
    rw [h3] at this
    injection this
  rw [hsh]
  exact ⟨rfl, h1, h4⟩

/-- C157: without a configuration given, a node shows and uses the defaults until its own configuration is changed. -/
theorem C157_default (ops : List SettingsOp) (hg : ∀ op ∈ ops, Gives op = false)
    (hc : ∀ op ∈ ops, ∀ c, op ≠ .change 0 c) :
    (Settings.new.run ops).shown = .make [] ∧ (Settings.new.run ops).manager = .default := by
  obtain ⟨h1, h2⟩ := settings_keep ops Settings.new hg
  refine ⟨?_, h2⟩
  unfold Settings.shown
  rw [h1, show Settings.new.own = 0 from rfl, settings_unchanged ops Settings.new 0 (.make []) rfl hc]
  rfl

/-- C157 refuted, for every history: a configuration whose TCP flag or automatic ports are changed after it was given
to the node is shown as changed, and the transport, started after that, works without the change. -/
theorem C157_refuted_any (pre : List SettingsOp) (i : Nat) (x : NodeConfig)
    (hx : (Settings.new.run pre).configs[i]? = some x) :
    let b := !x.transport.unicast.tcpEnabled
    let a := !x.transport.autoPortBindingEnabled
    let s := Settings.new.run (pre ++ [.setConfig i, .change i (.tcp b), .change i (.auto a), .start])
    s.shown.transport.unicast.tcpEnabled = b ∧ s.manager.unicast.tcpEnabled = !b ∧
    s.shown.transport.autoPortBindingEnabled = a ∧ s.manager.autoPortBindingEnabled = !a ∧
    ∃ u, s.servers = some u ∧ u.tcpEnabled = !b := by
  intro b a s
  have hlen := (List.getElem?_eq_some_iff.mp hx).1
  have e : s = (Settings.new.run pre).run [.setConfig i, .change i (.tcp b), .change i (.auto a), .start] := by
    show Settings.new.run _ = _
    rw [settings_append]
  generalize Settings.new.run pre = t at *
  have h1 : t.step (.setConfig i) = ⟨t.configs, i, t.manager.setConfig x.transport, t.servers⟩ := by
    simp only [Settings.step]; rw [hx]
  have h2 : (t.configs.set i ((ConfigChange.tcp b).run x))[i]? = some ((ConfigChange.tcp b).run x) := by
    rw [List.getElem?_set_self hlen]
  have hs : s = ⟨(t.configs.set i ((ConfigChange.tcp b).run x)).set i ((ConfigChange.auto a).run ((ConfigChange.tcp b).run x)),
      i, t.manager.setConfig x.transport,
      some (UnicastConfig.default.setConfig (t.manager.setConfig x.transport).unicast)⟩ := by
    rw [e]
    simp only [Settings.run, List.foldl_cons, List.foldl_nil]
    rw [h1]
    simp only [Settings.step, hx, h2]
  have hsh : s.shown = (ConfigChange.auto a).run ((ConfigChange.tcp b).run x) := by
    rw [hs]
    unfold Settings.shown
    dsimp only
    rw [List.getElem?_set_self (by rw [List.length_set]; exact hlen)]
    rfl
  rw [hsh, hs]
  refine ⟨rfl, ?_, rfl, ?_, _, rfl, ?_⟩
  · show x.transport.unicast.tcpEnabled = _
    simp [b]
  · show x.transport.autoPortBindingEnabled = _
    simp [a]
  · show x.transport.unicast.tcpEnabled = _
    simp [b]

/-- C157 refuted, while the node runs: nothing that is given or changed reaches the running servers before the next
start, also when the node and its manager work with it already. -/
theorem C157_refuted_running (pre ops : List SettingsOp) (h : ∀ op ∈ ops, Restarts op = false) :
    (Settings.new.run (pre ++ .start :: ops)).servers
      = some (UnicastConfig.default.setConfig (Settings.new.run pre).manager.unicast) := by
  rw [settings_append]
  show (((Settings.new.run pre).step .start).run ops).servers = _
  rw [settings_servers ops _ h]
  rfl

/-- TCP is enabled while the node runs: the manager uses it, the servers do not listen. -/
example : let s := Settings.new.run [.make [true], .start, .setConfig 1]
    s.shown.transport.unicast.tcpEnabled = true ∧ s.manager.unicast.tcpEnabled = true ∧
    s.servers.map (·.tcpEnabled) = some false := by decide

/-- A configuration with TCP is given, the node started and stopped, another configuration changed. -/
example : let pre : List SettingsOp := [.make [true], .change 1 (.connection 7)]
    ∃ x, (Settings.new.run pre).configs[1]? = some x ∧ x.transport.unicast.tcpEnabled = true ∧
      (∀ op ∈ [SettingsOp.change 0 (.tcp true), .start, .stop], Gives op = false) ∧
      (∀ op ∈ [SettingsOp.make []], Gives op = false ∧ Restarts op = false) :=
  ⟨_, rfl, rfl, by decide, by decide⟩

end Verif.Props
