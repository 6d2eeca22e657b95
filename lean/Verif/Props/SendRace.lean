import Verif.Lemmas.SendRace

/-!
# Sending while a node stops (C173)

A node has been started with a unicast server for each entry of `tcps` (which says whether it has TCP) and a multicast
server for each entry of `links`. The schedules `acts` are arbitrary: they say when `SendMessage`, `AnnounceMessage` and
`Stop` are called, when these calls make their steps, what the system makes of their attempts to send, and when the
goroutines of the node make theirs.
-/

namespace Verif.Props

open Verif.Model Verif.Spec Verif.Lemmas.Shut Verif.Lemmas.SendRace

section

variable (answer : List Message → Message → Option Message) (tcps : List Bool) (links : List Nat)

/-- **C173**, how often: in every schedule, with any number of calls of `Stop`, a call that has returned without an error
has sent its message once, to its destination; a call that has returned an error, or that has not returned, has sent
nothing; and nothing else is sent. -/
theorem C173_once (acts) (hc : ((SendSt.starting tcps links).run answer acts).node.crashed = false) :
    let s := (SendSt.starting tcps links).run answer acts
    s.calls.length = (asked acts).length ∧ (∀ p ∈ s.out, p.call < (asked acts).length) ∧
    ∀ (h : Nat) b to data, (asked acts)[h]? = some (b, to, data) → ∃ pc, s.calls[h]? = some ⟨b, to, data, pc⟩ ∧
      (pc = .returned true → ∃ w, postedBy s h = [⟨h, w, to, data⟩]) ∧ (pc ≠ .returned true → postedBy s h = []) := by
  intro s
  have t : Tally s := srun_inv _ (fun _ a h _ => h.step a) _ _ (tally_starting tcps links)
  have e : s.calls.map (fun x => (x.announce, x.to, x.data)) = asked acts := asked_run _ acts hc
  have hlen : s.calls.length = (asked acts).length := by rw [← e, List.length_map]
  refine ⟨hlen, fun p hp => hlen ▸ t.own p hp, fun h b to data hh => ?_⟩
  rw [← e, List.getElem?_map] at hh
  cases hx : s.calls[h]? with
  | none => rw [hx] at hh; cases hh
  | some x =>
    rw [hx] at hh
    obtain ⟨b', to', data', pc⟩ := x
    cases hh
    exact ⟨pc, rfl, t.one h _ hx⟩

/-- **C173** (a message sent without an error leaves over TCP or from a port of the node) fails: for every node that has
servers, every message and every destination, there is a run in which `SendMessage` or `AnnounceMessage` is called before
`Stop` is, returns without an error, and the message has left from another port. -/
theorem C173_refuted (ht : tcps ≠ []) (hl : links ≠ []) (b : Bool) (to : Addr) (data : Bytes) :
    ∃ before after, ¬ StopCalled before ∧ asked before = [(b, to, data)] ∧ asked after = [] ∧
      (let s := (SendSt.starting tcps links).run answer (before ++ after)
       Returned s.node ∧ s.node.crashed = false ∧ s.calls = [⟨b, to, data, .returned true⟩] ∧
        s.out = [⟨0, .fresh, to, data⟩]) := by
  obtain ⟨acts, hns, hr, hc, hf, hget, hcalls⟩ := start_returns answer tcps links
  have huc := run_inv_noStop answer tcps links acts hns
  have hmc : ((RunSt.starting tcps links).run answer acts).mcast.length ≠ 0 := by
    have : ((RunSt.starting tcps links).run answer acts).mcast = (RunSt.starting tcps links).mcast :=
      mcast_noStop acts hns
    rw [this]
    simpa [RunSt.starting] using hl
  have hinv : Inv ((RunSt.starting tcps links).run answer acts) := inv_run answer tcps links acts
  have hcalm : Calm ((RunSt.starting tcps links).run answer acts) :=
    calm_run answer (calm_starting tcps links) acts (oneAtATime_noStop answer _ _ hns)
  obtain ⟨n, hn⟩ : ∃ n, tcps.length = n + 1 := ⟨tcps.length - 1, by have := List.length_pos_iff.mpr ht; omega⟩
  obtain ⟨rest, hrest⟩ : ∃ rest, List.range tcps.length = 0 :: rest := ⟨_, by rw [hn, List.range_succ_eq_map]⟩
  have hstart : (SendSt.starting tcps links).run answer (acts.map .node) =
      ⟨(RunSt.starting tcps links).run answer acts, [], []⟩ := srun_map _ _
  generalize (RunSt.starting tcps links).run answer acts = g at *
  obtain ⟨sacts, hst, honly, hdead, hret⟩ := stop_returns (answer := answer) g hinv hcalm hr
  have htake : (SendSt.mk g [] []).run answer [.send b to data, .go 0 true, .go 0 true, .go 0 true] =
      ⟨g, [⟨b, to, data, .next (0 :: rest)⟩], []⟩ := by
    have hu : g.ucast.length ≠ 0 := by rw [huc, hrest]; simp
    rw [srun_cons _ _ _ hc, srun_cons _ _ _ (by exact hc)]
    show SendSt.run answer (SendSt.goto ⟨g, [⟨b, to, data, .askU⟩], []⟩ 0 ⟨b, to, data, .askU⟩
      (if g.ucast.length ≠ 0 then .askM else .returned false)) _ = _
    rw [if_pos hu, srun_cons _ _ _ (by exact hc)]
    show SendSt.run answer (SendSt.goto ⟨g, [⟨b, to, data, .askM⟩], []⟩ 0 ⟨b, to, data, .askM⟩
      (if g.mcast.length ≠ 0 then .take else .returned false)) _ = _
    rw [if_pos hmc, srun_cons _ _ _ (by exact hc)]
    show SendSt.run answer (SendSt.goto ⟨g, [⟨b, to, data, .take⟩], []⟩ 0 ⟨b, to, data, .take⟩ (.next g.ucast)) _ = _
    rw [huc, hrest]
    rfl
  generalize hz : g.run answer sacts = z at *
  have hzc : z.hasConn 0 = false := by
    unfold RunSt.hasConn
    cases e : z.servers[0]? with
    | none => rfl
    | some w => exact (hdead.server 0 w e).1
  have hcheck : (SendSt.mk z [⟨b, to, data, .check 0 rest⟩] []).run answer [.go 0 true, .go 0 true] =
      ⟨z, [⟨b, to, data, .returned true⟩], [⟨0, .fresh, to, data⟩]⟩ := by
    rw [srun_cons _ _ _ hdead.up]
    show SendSt.run answer (SendSt.goto ⟨z, [⟨b, to, data, .check 0 rest⟩], []⟩ 0 ⟨b, to, data, .check 0 rest⟩
      (if z.hasConn 0 then .load 0 rest else .dial rest)) _ = _
    rw [hzc, srun_cons _ _ _ (by exact hdead.up)]
    rfl
  obtain ⟨path, hpath, hasked⟩ : ∃ path, (SendSt.mk z [⟨b, to, data, .next (0 :: rest)⟩] []).run answer path =
      ⟨z, [⟨b, to, data, .check 0 rest⟩], []⟩ ∧ asked path = [] := by
    cases hb : !b && SendSt.hasTcp ⟨z, [⟨b, to, data, .next (0 :: rest)⟩], []⟩ 0 with
    | false =>
      refine ⟨[.go 0 true], ?_, rfl⟩
      rw [srun_cons _ _ _ hdead.up]
      show SendSt.run answer (SendSt.goto ⟨z, [⟨b, to, data, .next (0 :: rest)⟩], []⟩ 0 ⟨b, to, data, .next (0 :: rest)⟩
        (if !b && SendSt.hasTcp ⟨z, [⟨b, to, data, .next (0 :: rest)⟩], []⟩ 0 then .tcp 0 rest else .check 0 rest)) _ = _
      rw [hb]; rfl
    | true =>
      refine ⟨[.go 0 true, .go 0 false], ?_, rfl⟩
      rw [srun_cons _ _ _ hdead.up]
      show SendSt.run answer (SendSt.goto ⟨z, [⟨b, to, data, .next (0 :: rest)⟩], []⟩ 0 ⟨b, to, data, .next (0 :: rest)⟩
        (if !b && SendSt.hasTcp ⟨z, [⟨b, to, data, .next (0 :: rest)⟩], []⟩ 0 then .tcp 0 rest else .check 0 rest)) _ = _
      rw [hb, srun_cons _ _ _ (by exact hdead.up)]; rfl
  have hmap : ∀ l : List RunAct, asked (l.map .node) = [] := by
    intro l
    unfold asked
    rw [List.filterMap_eq_nil_iff]
    intro a ha
    obtain ⟨x, -, rfl⟩ := List.mem_map.mp ha
    rfl
  have happ : ∀ l l', asked (l ++ l') = asked l ++ asked l' := fun l l' => List.filterMap_append
  refine ⟨acts.map .node ++ [.send b to data, .go 0 true, .go 0 true, .go 0 true],
    sacts.map .node ++ (path ++ [.go 0 true, .go 0 true]), ?_, ?_, ?_, ?_⟩
  · intro h
    rcases List.mem_append.mp h with h | h
    · obtain ⟨x, hx, e⟩ := List.mem_map.mp h
      cases e
      exact hns hx
    · simp at h
  · rw [happ, hmap]; rfl
  · rw [happ, happ, hmap, hasked]; rfl
  · have e : (SendSt.starting tcps links).run answer ((acts.map .node ++
        [.send b to data, .go 0 true, .go 0 true, .go 0 true]) ++ (sacts.map .node ++ (path ++ [.go 0 true, .go 0 true]))) =
        ⟨z, [⟨b, to, data, .returned true⟩], [⟨0, .fresh, to, data⟩]⟩ := by
      rw [srun_append, srun_append (as := acts.map .node), hstart, htake, srun_append, srun_map]
      show SendSt.run answer ⟨g.run answer sacts, _, _⟩ _ = _
      rw [hz, srun_append, hpath, hcheck]
    dsimp only
    rw [e]
    exact ⟨hret, hdead.up, rfl, rfl⟩

/-- **C173**, what holds of the ports: as long as `Stop` is not called, everything these calls send leaves over TCP or from
the socket of a unicast server of the node. -/
theorem C173_bound_partial (hl : ∀ j ∈ links, j < tcps.length) (acts) (hs : ¬ StopCalled acts) (p : Posted)
    (hp : p ∈ ((SendSt.starting tcps links).run answer acts).out) :
    p.via = .tcp ∨ ∃ j < tcps.length, p.via = .bound j :=
  (steady_run (answer := answer) hl acts hs).out p hp

/-- **C173**, what holds of the sockets: in every schedule, a message that leaves from the socket of a server leaves while
this socket is open. -/
theorem C173_open (acts a) (p : Posted) (hp : p ∈ ((SendSt.starting tcps links).run answer (acts ++ [a])).out)
    (hn : p ∉ ((SendSt.starting tcps links).run answer acts).out) (j : Nat) (hj : p.via = .bound j) :
    ((SendSt.starting tcps links).run answer acts).node.hasOpen j = true := by
  rw [srun_append] at hp
  generalize (SendSt.starting tcps links).run answer acts = s at *
  cases hc : s.node.crashed with
  | true => rw [srun_crashed _ _ hc] at hp; exact absurd hp hn
  | false =>
    rw [srun_cons _ _ _ hc, srun_nil] at hp
    cases a with
    | node a => exact absurd hp hn
    | send b t d => exact absurd hp hn
    | go h ok =>
      cases hx : s.calls[h]? with
      | none => simp only [SendSt.step, hx] at hp; exact absurd hp hn
      | some x =>
        rw [go_of hx] at hp
        have post : ∀ w, p ∈ (s.post h x w).out → w = .bound j := by
          intro w hw
          rcases List.mem_append.mp hw with hw | hw
          · exact absurd hw hn
          · rw [List.mem_singleton.mp hw] at hj; exact hj
        cases hpc : x.pc with
        | next rest => cases rest <;> (simp only [SendSt.stepCall, hpc] at hp; exact absurd hp hn)
        | tcp i rest =>
          simp only [SendSt.stepCall, hpc] at hp
          split at hp
          · cases post _ hp
          · exact absurd hp hn
        | dial rest =>
          simp only [SendSt.stepCall, hpc] at hp
          split at hp
          · cases post _ hp
          · exact absurd hp hn
        | write i rest =>
          simp only [SendSt.stepCall, hpc] at hp
          split at hp
          · rename_i e
            cases post _ hp
            rw [Bool.and_eq_true] at e
            exact e.1
          · exact absurd hp hn
        | _ => simp only [SendSt.stepCall, hpc] at hp; exact absurd hp hn

/-- **C173**, what holds after `Stop`: a call made when all calls of `Start` and `Stop` have returned, among them one of
`Stop`, sends nothing, whatever happens later. It returns an error when it has made one step. -/
theorem C173_stopped_partial (acts) (hs : StopCalled acts)
    (hc : ((SendSt.starting tcps links).run answer acts).node.crashed = false)
    (hr : Returned ((SendSt.starting tcps links).run answer acts).node) (later) (h : Nat)
    (hh : (asked acts).length ≤ h) :
    let s := (SendSt.starting tcps links).run answer (acts ++ later)
    postedBy s h = [] ∧ s.node.crashed = false ∧
      (h < s.calls.length → ∃ b to data pc, s.calls[h]? = some ⟨b, to, data, pc⟩ ∧ pc ≠ .returned true ∧
        ∀ ok, (s.step answer (.go h ok)).calls[h]? = some ⟨b, to, data, .returned false⟩) := by
  have hd : Dead ((SendSt.starting tcps links).run answer acts).node := by
    have hc' := hc
    have hr' := hr
    rw [srun_node] at hc' hr' ⊢
    exact (stopping_run (inv_starting tcps links) (nodeActs acts) (mem_nodeActs.mpr hs) hc').dead hr' hc'
  have hlen : ((SendSt.starting tcps links).run answer acts).calls.length = (asked acts).length :=
    (C173_once answer tcps links acts hc).1
  have hnone : ∀ (k : Nat), (asked acts).length ≤ k → ((SendSt.starting tcps links).run answer acts).calls[k]? = none := by
    intro k hk; rw [List.getElem?_eq_none_iff, hlen]; exact hk
  have o : Over (asked acts).length ((SendSt.starting tcps links).run answer (acts ++ later)) := by
    rw [srun_append]
    refine srun_inv _ (fun _ a h _ => h.step a) _ _ ⟨hd, by rw [hlen]; exact Nat.le_refl _, fun k x hk hx => ?_⟩
    rw [hnone k hk] at hx; cases hx
  have t : Tally ((SendSt.starting tcps links).run answer (acts ++ later)) :=
    srun_inv _ (fun _ a h _ => h.step a) _ _ (tally_starting tcps links)
  intro s
  have hpc : ∀ x, s.calls[h]? = some x → x.pc ≠ .returned true := by
    intro x hx e
    rcases o.calls h x hh hx with e' | e' <;> rw [e'] at e <;> cases e
  refine ⟨?_, o.node.up, fun hlt => ?_⟩
  · by_cases hlt : h < s.calls.length
    · exact (t.one h _ (List.getElem?_eq_getElem hlt)).2 (hpc _ (List.getElem?_eq_getElem hlt))
    · unfold postedBy
      rw [List.filter_eq_nil_iff]
      intro p hp e
      have h1 := t.own p hp
      have h2 : p.call = h := by simpa using e
      exact hlt (h2 ▸ h1)
  · cases hx : s.calls[h]? with
    | none => rw [List.getElem?_eq_none_iff] at hx; omega
    | some x =>
      refine ⟨x.announce, x.to, x.data, x.pc, rfl, hpc x hx, fun ok => ?_⟩
      rw [go_of hx]
      rcases o.calls h x hh hx with e | e
      · have hu : s.node.ucast = [] := o.node.ucast
        simp only [SendSt.stepCall, e, SendSt.goto, hu]
        rw [List.getElem?_set_self hlt]
        rfl
      · simp only [SendSt.stepCall, e]
        rw [hx, ← e]

/-- **C173**, what holds of the time a call takes: it returns after at most four steps of its own and five for each unicast
server, in every schedule without a crash. -/
theorem C173_returns_partial (acts later) (hc : ((SendSt.starting tcps links).run answer (acts ++ later)).node.crashed = false)
    (h : Nat) (hh : h < (asked acts).length) (hn : 4 + 5 * tcps.length ≤ turnsOf h later) :
    ∃ b to data ok, ((SendSt.starting tcps links).run answer (acts ++ later)).calls[h]? =
      some ⟨b, to, data, .returned ok⟩ := by
  rw [srun_append] at hc ⊢
  have hc1 : ((SendSt.starting tcps links).run answer acts).node.crashed = false := by
    cases e : ((SendSt.starting tcps links).run answer acts).node.crashed with
    | false => rfl
    | true => rw [srun_crashed _ _ e, e] at hc; cases hc
  have hlen : ((SendSt.starting tcps links).run answer acts).calls.length = (asked acts).length :=
    (C173_once answer tcps links acts hc1).1
  have hu : ((SendSt.starting tcps links).run answer acts).node.ucast.length ≤ tcps.length := by
    rw [srun_node]
    refine run_inv (fun s => s.ucast.length ≤ tcps.length) (fun s a h _ =>
      Nat.le_trans (lists_step (answer := answer) s a).2 h) _ _ (by simp [SendSt.starting, RunSt.starting])
  have hx := List.getElem?_eq_getElem (hlen ▸ hh)
  have hbound : Good tcps.length ((SendSt.starting tcps links).run answer acts) := by
    refine good_run (by simp [SendSt.starting, RunSt.starting]) ?_ acts
    exact fun x hx => absurd hx List.not_mem_nil
  obtain ⟨y, hy, hle⟩ := call_left (answer := answer) later _ h _ hu hx hc
  have := hbound _ (List.mem_of_getElem? hx)
  have h0 : stepsLeft tcps.length y.pc = 0 := by omega
  obtain ⟨b, to, data, pc⟩ := y
  cases pc with
  | returned ok => exact ⟨b, to, data, ok, hy⟩
  | _ => simp [stepsLeft] at h0

/-! ## Examples -/

/-- A node with two interfaces, the first one with TCP, that answers nothing. -/
private def sendOn (acts : List SendAct) : SendSt := (SendSt.starting [true, false] [0, 1]).run (fun _ _ => none) acts

private def peerAddr : Addr := ⟨"192.168.1.9", 3610⟩

/-- `C173_once`, `C173_bound_partial`, `C173_open`, `C173_returns_partial`: the first call goes out over TCP; TCP fails the second one and so does the
socket of the first server, and it leaves from the second one. An announcement has made three steps. -/
example :
    let acts := [.send false peerAddr [1], .send false peerAddr [2], .send true peerAddr [3]] ++
      List.replicate 5 (.go 0 true) ++ List.replicate 8 (.go 1 false) ++ List.replicate 6 (.go 1 true) ++
      List.replicate 3 (.go 2 true)
    ¬ StopCalled acts ∧ (sendOn acts).node.crashed = false ∧
    (sendOn acts).calls.map (·.pc) = [.returned true, .returned true, .next [0, 1]] ∧
    (sendOn acts).out = [⟨0, .tcp, peerAddr, [1]⟩, ⟨1, .bound 1, peerAddr, [2]⟩] ∧
    4 + 5 * [true, false].length ≤ turnsOf 1 acts ∧ postedBy (sendOn acts) 2 = [] := by
  refine ⟨by unfold StopCalled; decide +kernel, by decide +kernel, by decide +kernel, by decide +kernel, by decide +kernel,
    by decide +kernel⟩

/-- `C173_stopped_partial`: `Start` and `Stop` have returned. A call made then returns an error. -/
example :
    let acts := List.replicate 2 (.node (.call 0)) ++ [.node .stop] ++ List.replicate 22 (.node (.call 1))
    StopCalled acts ∧ (sendOn acts).node.crashed = false ∧ (sendOn acts).node.calls = [[], []] ∧
    (sendOn (acts ++ [.send false peerAddr [1], .go 0 true])).calls = [⟨false, peerAddr, [1], .returned false⟩] := by
  refine ⟨by unfold StopCalled; decide +kernel, by decide +kernel, by decide +kernel, by decide +kernel⟩

/-- The same node, and a call that has loaded the list of servers before `Stop`: an error of the socket sends it to the next
server, which is closed by now, so that the message leaves from a new port. -/
example :
    let s := sendOn ([.send true peerAddr [7]] ++ List.replicate 6 (.go 0 true) ++ [.node .stop] ++
      List.replicate 22 (.node (.call 1)) ++ List.replicate 5 (.go 0 true))
    s.node.crashed = false ∧ s.node.ucast = [] ∧ s.calls = [⟨true, peerAddr, [7], .returned true⟩] ∧
    s.out = [⟨0, .fresh, peerAddr, [7]⟩] := by
  refine ⟨by decide +kernel, by decide +kernel, by decide +kernel, by decide +kernel⟩

end

end Verif.Props
