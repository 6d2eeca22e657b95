import Verif.Lemmas.ShutdownStart

/-!
# What stopping a running node does (C111 to C114)

A node has been started with a unicast server for each entry of `tcps` (which says whether it has TCP)
and a multicast server for each entry of `links`. The servers are numbered, the unicast ones first.
`answer` is what the node answers to a message, given the messages it has handled before. The schedules
`acts` are arbitrary: they say in which order datagrams and connections arrive, goroutines make their
steps and `Stop` is called and makes its steps.
-/

namespace Verif.Props

open Verif.Model Verif.Spec Verif.Lemmas.Shut

section

variable (answer : List Message → Message → Option Message) (tcps : List Bool) (links : List Nat)

/-- **C111** (no message is handled once `Stop` has returned) fails: for every node and every datagram
that holds a message, there is a run in which `Stop` has returned before the message is given to the
handler, and it is given to the handler all the same, by goroutines of the node alone. -/
theorem C111_refuted (i : Nat) (hi : i < tcps.length + links.length) (d : Datagram) (m₀ : Message)
    (hd : Message.newWithBytes (d.data.take maxPacketSize) = .ok m₀) :
    ∃ acts m, .stop ∈ acts ∧ m.bytes = m₀.bytes ∧ m.src = d.peer ∧
      (let s := (RunSt.starting tcps links).run answer acts
       Returned s ∧ s.crashed = false ∧ s.seen = [] ∧ s.replying = [] ∧
        (s.run answer [.loop i, .reply 0]).seen = [m]) := by
  obtain ⟨acts, hns, hr, hc, hf, hget, hcalls⟩ := start_returns answer tcps links
  generalize hs : (RunSt.starting tcps links).run answer acts = s at *
  have hinv : Inv s := hs ▸ inv_run answer tcps links acts
  have hcalm : Calm s := hs ▸ calm_run answer (calm_starting tcps links) acts (oneAtATime_noStop answer _ _ hns)
  obtain ⟨v, hv, h1, h2, h3, h4, h5, -⟩ := waiting tcps links hget hi
  have hrec := receive (answer := answer) s [] hc hv h1 h2 h3 h4 h5 (decode_ok hd)
  generalize hm : ({ m₀ with src := d.peer, pktType := v.kind.packetType } : Message) = m at hrec
  have hlt := (List.getElem?_eq_some_iff.mp hv).1
  generalize hg : put s i { v with pc := .got m } = g at hrec
  have hgcalls : g.calls = s.calls := by rw [← hg]; rfl
  have hginv : Inv g := by
    have : Inv (s.run answer [.arrive i d, .loop i, .loop i, .loop i, .loop i]) :=
      run_inv _ (fun _ a h _ => h.step a) _ _ hinv
    rw [hrec] at this; exact this
  have hgcalm : Calm g := by
    have := calm_run answer hcalm [.arrive i d, .loop i, .loop i, .loop i, .loop i]
      (oneAtATime_noStop answer _ _ (by simp))
    rw [hrec] at this; exact this
  obtain ⟨sacts, hst, honly, hdead, hret⟩ := stop_returns (answer := answer) g hginv hgcalm (by rw [hgcalls]; exact hr)
  have hfr := callFrame_run (answer := answer) g sacts honly
  refine ⟨acts ++ ([.arrive i d, .loop i, .loop i, .loop i, .loop i] ++ sacts), m, by simp [hst], ?_, ?_, ?_⟩
  · rw [← hm]; rfl
  · rw [← hm]
  · rw [run_append, hs, run_append, hrec, run_nil]
    have hsd : g.seen = [] ∧ g.replying = [] := by
      rw [← hg]
      exact ⟨hf.seen, hf.replying⟩
    refine ⟨hret, hdead.up, hfr.seen.trans hsd.1, hfr.replying.trans hsd.2, ?_⟩
    obtain ⟨v', hv', low⟩ := hfr.get (i := i) (v := { v with pc := .got m }) (by rw [← hg]; exact put_get hlt)
    generalize hz : g.run answer sacts = z at *
    have hzi : put z i v' = z := by
      unfold put
      congr 1
      refine List.ext_getElem? fun j => ?_
      rw [List.getElem?_set]
      split
      · rename_i e; subst e; rw [if_pos (List.getElem?_eq_some_iff.mp hv').1, hv']
      · rfl
    rw [← hzi, put_got z [.reply 0] hdead.up (List.getElem?_eq_some_iff.mp hv').1 low.pc]
    rw [run_cons _ _ _ (by exact hdead.up), run_nil]
    have hrep : z.replying = [] := hfr.replying.trans hsd.2
    have hseen : z.seen = [] := hfr.seen.trans hsd.1
    simp only [RunSt.step, put, hrep, List.nil_append, List.getElem?_cons_zero, RunSt.stepReply]
    rw [hseen]
    rfl

/-- **C111**, for connections: a connection accepted before `Stop` is served after `Stop` has returned,
whatever the request that comes and the answer to it. -/
theorem C111_refuted_tcp (i : Nat) (hi : tcps[i]? = some true) :
    ∃ acts, .stop ∈ acts ∧
      (let s := (RunSt.starting tcps links).run answer acts
       Returned s ∧ s.crashed = false ∧ s.seen = [] ∧ s.sent = [] ∧
        ∀ m r, answer [] m = some r →
          (s.run answer [.request 0 m, .answer 0]).seen = [m] ∧
          (s.run answer [.request 0 m, .answer 0]).sent = [⟨.conn 0, m.src, r.bytes⟩]) := by
  obtain ⟨acts, hns, hr, hc, hf, hget, hcalls⟩ := start_returns answer tcps links
  generalize hs : (RunSt.starting tcps links).run answer acts = s at *
  have hinv : Inv s := hs ▸ inv_run answer tcps links acts
  have hcalm : Calm s := hs ▸ calm_run answer (calm_starting tcps links) acts (oneAtATime_noStop answer _ _ hns)
  have hlt := (List.getElem?_eq_some_iff.mp hi).1
  obtain ⟨v, hv, -, -, -, -, -, hl⟩ := waiting tcps links hget (i := i) (by omega)
  have hacc : s.step answer (.accept i) = { s with conns := s.conns ++ [.reading] } := by
    simp only [RunSt.step, hv, Option.map_some, hl.mpr hi]
    rfl
  obtain ⟨sacts, hst, honly, hdead, hret⟩ := stop_returns (answer := answer) (s.step answer (.accept i))
    (hinv.step _) (hcalm.step _ (by simp)) (by rw [hacc]; exact hr)
  have hfr := callFrame_run (answer := answer) (s.step answer (.accept i)) sacts honly
  refine ⟨acts ++ .accept i :: sacts, by simp [hst], ?_⟩
  rw [run_append, hs, run_cons _ _ _ hc]
  generalize hz : (s.step answer (.accept i)).run answer sacts = z at *
  rw [hacc] at hfr
  have hseen : z.seen = [] := hfr.seen.trans hf.seen
  have hsent : z.sent = [] := hfr.sent.trans hf.sent
  have hconns : z.conns = [.reading] := by
    rw [hfr.conns]
    show s.conns ++ _ = _
    rw [hf.conns]; rfl
  refine ⟨hret, hdead.up, hseen, hsent, fun m r hans => ?_⟩
  have h1 : z.step answer (.request 0 m) = { z with seen := [m], conns := [.writing m r] } := by
    simp only [RunSt.step, hconns, List.getElem?_cons_zero, hseen, hans]
    rfl
  rw [run_cons _ _ _ hdead.up, h1, run_cons _ _ _ (by exact hdead.up), run_nil]
  simp only [RunSt.step, List.getElem?_cons_zero, hsent]
  exact ⟨trivial, rfl⟩

/-- **C111**, what holds: once every call has returned, among them one of `Stop`, the only messages for
which goroutines are still started are those a receive goroutine had already read, one for each server
at most; whatever arrives, and whatever else happens, later. -/
theorem C111_partial (acts) (hs : .stop ∈ acts) (hc : ((RunSt.starting tcps links).run answer acts).crashed = false)
    (hr : Returned ((RunSt.starting tcps links).run answer acts)) (later) :
    let s := (RunSt.starting tcps links).run answer acts
    ∃ js : List Nat, js.Nodup ∧ (∀ j ∈ js, (inHand s j).isSome) ∧
      ((s.run answer later).replying.map (·.msg)).map some =
        (s.replying.map (·.msg)).map some ++ js.map (inHand s) :=
  dead_handed answer ((stopping_run (inv_starting tcps links) acts hs hc).dead hr hc) later

/-- **C111**, what holds of the handler: a message it gets after `Stop` has returned was received
before, or it comes on a connection that was accepted before. -/
theorem C111_handled_partial (acts) (hs : .stop ∈ acts)
    (hc : ((RunSt.starting tcps links).run answer acts).crashed = false)
    (hr : Returned ((RunSt.starting tcps links).run answer acts)) (later m)
    (hm : m ∈ (((RunSt.starting tcps links).run answer acts).run answer later).seen) :
    let s := (RunSt.starting tcps links).run answer acts
    m ∈ s.seen ∨ (∃ x ∈ s.replying, x.pc = .handle ∧ x.msg = m) ∨ (∃ i, inHand s i = some m) ∨
      ∃ c < s.conns.length, .request c m ∈ later :=
  dead_seen answer ((stopping_run (inv_starting tcps links) acts hs hc).dead hr hc) later m hm

/-- **C111**, what holds of the goroutines: once `Stop` has returned, each receive goroutine ends after
at most six more steps of its own, in every schedule. -/
theorem C111_ends_partial (acts) (hs : .stop ∈ acts)
    (hc : ((RunSt.starting tcps links).run answer acts).crashed = false)
    (hr : Returned ((RunSt.starting tcps links).run answer acts)) (later) (i : Nat)
    (hi : i < tcps.length + links.length) (hn : 6 ≤ later.count (.loop i)) :
    ((((RunSt.starting tcps links).run answer acts).run answer later).servers[i]?).map (·.pc) = some .ended := by
  have hd := (stopping_run (inv_starting tcps links) acts hs hc).dead hr hc
  have hlen : ((RunSt.starting tcps links).run answer acts).servers.length = tcps.length + links.length := by
    refine run_inv (fun s => s.servers.length = tcps.length + links.length) (fun s a h _ => ?_) _ _
      (by simp [RunSt.starting])
    rcases env_or a with ha | ha
    · rw [(step_env (answer := answer) s ha).2.2.2.2.1]; exact h
    · rw [(callFrame_step (answer := answer) s ha).len]; exact h
  obtain ⟨v', hv', hrk⟩ := dead_ends answer hd later i (List.getElem?_eq_getElem (by rw [hlen]; exact hi))
  rw [hv', Option.map_some]
  have h6 : ∀ pc, rank pc ≤ 6 := by intro pc; cases pc <;> simp [rank]
  have := h6 (((RunSt.starting tcps links).run answer acts).servers[i]'(by rw [hlen]; exact hi)).pc
  have h0 : rank v'.pc = 0 := by omega
  cases hp : v'.pc <;> rw [hp] at h0 <;> first | rfl | cases h0

/-- **C112** (`Stop` may be called from several goroutines) fails: for every node with a unicast server,
two overlapping calls of `Stop` can bring the process down. -/
theorem C112_refuted (hne : tcps ≠ []) :
    ∃ acts, acts.count .stop = 2 ∧ ((RunSt.starting tcps links).run answer acts).crashed = true := by
  obtain ⟨acts, hns, hr, hc, hf, hget, hcalls⟩ := start_returns answer tcps links
  have huc : ((RunSt.starting tcps links).run answer acts).ucast = List.range tcps.length := by
    refine run_inv_noStop answer tcps links acts hns
  generalize hs : (RunSt.starting tcps links).run answer acts = s at *
  have hpos : 0 < tcps.length := List.length_pos_iff.mpr hne
  obtain ⟨v, hv, -, -, -, hst, -, -⟩ := waiting tcps links hget (i := 0) (by omega)
  have hup1 : (s.step answer .stop).crashed = false := hc
  have h0 : Two ((s.step answer .stop).step answer .stop) RunSt.stopProgram RunSt.stopProgram (List.range tcps.length) := by
    refine ⟨hc, ?_, ?_, huc, ?_⟩
    · simp only [RunSt.step, hcalls]; rfl
    · simp only [RunSt.step, hcalls]; rfl
    · show ((s.servers[0]?).map (·.stopped)).getD false = false
      rw [hv]; exact hst
  have hlen0 : 0 < ((s.step answer .stop).step answer .stop).servers.length :=
    (List.getElem?_eq_some_iff.mp hv).1
  generalize hs0 : (s.step answer .stop).step answer .stop = s0 at *
  have h1 := h0.call1 answer (by simp) (by simp) (by simp)
  obtain ⟨n1, h2⟩ := Two.drain1 answer (cs := s0.mcast.map .close) (by simp [Closing]) h1
  generalize hs2 : (s0.step answer (.call 1)).run answer (List.replicate n1 (.call 1)) = s2 at *
  have h3 := h2.call2 answer (by simp) (by simp) (by simp)
  obtain ⟨n2, h4⟩ := Two.drain2 answer (cs := s2.mcast.map .close) (by simp [Closing]) h3
  generalize hs4 : (s2.step answer (.call 2)).run answer (List.replicate n2 (.call 2)) = s4 at *
  have h5 := h4.call1 answer (by simp) (by simp) (by simp)
  have h6 := h5.call2 answer (by simp) (by simp) (by simp)
  have hprog : ∀ z : RunSt, z.ucast = List.range tcps.length → ∃ p, (z.exec [.forgetU] .takeU).2 = .halt 0 :: p := by
    intro z hz
    simp only [RunSt.exec, hz]
    obtain ⟨k, hk⟩ : ∃ k, tcps.length = k + 1 := ⟨tcps.length - 1, by omega⟩
    rw [hk, List.range_succ_eq_map, List.flatMap_cons]
    exact ⟨_, rfl⟩
  obtain ⟨p, hp⟩ := hprog s4 h4.ucast
  obtain ⟨q, hq⟩ := hprog (s4.step answer (.call 1)) h5.ucast
  rw [hp, hq] at h6
  have hfin : s.run answer (.stop :: .stop :: .call 1 :: (List.replicate n1 (.call 1) ++ .call 2 ::
      (List.replicate n2 (.call 2) ++ [.call 1, .call 2, .call 1, .call 2]))) =
      ((s4.step answer (.call 1)).step answer (.call 2)).run answer [.call 1, .call 2] := by
    rw [run_cons _ _ _ hc, run_cons _ _ _ hup1, hs0, run_cons _ _ _ h0.up, run_append, hs2, run_cons _ _ _ h2.up,
      run_append, hs4, run_cons _ _ _ h4.up, run_cons _ _ _ h5.up]
  have hl6 : 0 < ((s4.step answer (.call 1)).step answer (.call 2)).servers.length := by
    have f : CallFrame s0 ((s4.step answer (.call 1)).step answer (.call 2)) := by
      rw [← hs4, ← hs2]
      exact (((((callFrame_step s0 (.inr ⟨1, rfl⟩)).trans (callFrame_run _ _ (fun a ha =>
        .inr ⟨1, (List.mem_replicate.mp ha).2⟩))).trans (callFrame_step _ (.inr ⟨2, rfl⟩))).trans (callFrame_run _ _
        (fun a ha => .inr ⟨2, (List.mem_replicate.mp ha).2⟩))).trans (callFrame_step _ (.inr ⟨1, rfl⟩))).trans
        (callFrame_step _ (.inr ⟨2, rfl⟩))
    rw [f.len]; exact hlen0
  refine ⟨acts ++ (.stop :: .stop :: .call 1 :: (List.replicate n1 (.call 1) ++ .call 2 ::
      (List.replicate n2 (.call 2) ++ [.call 1, .call 2, .call 1, .call 2]))), ?_, ?_⟩
  · simp [List.count_append, List.count_eq_zero_of_not_mem hns, List.count_replicate]
  · rw [run_append, hs, hfin]
    exact h6.crash answer hl6

/-- **C112**, what holds: as long as `Stop` is only called when every call before has returned, nothing
crashes; whatever else happens meanwhile. -/
theorem C112_partial (acts) (h : OneAtATime answer (RunSt.starting tcps links) acts) :
    ((RunSt.starting tcps links).run answer acts).crashed = false :=
  (calm_run answer (calm_starting tcps links) acts h).up

/-- **C112**, what holds of the time `Stop` takes: it returns after at most four steps of its own, three
for each multicast server and six for each unicast server, in every schedule without a crash. -/
theorem C112_returns_partial (acts later)
    (hc : (((RunSt.starting tcps links).run answer acts).run answer (.stop :: later)).crashed = false) :
    let s := (RunSt.starting tcps links).run answer acts
    4 + 3 * links.length + 6 * tcps.length ≤ later.count (.call s.calls.length) →
      (s.run answer (.stop :: later)).calls[s.calls.length]? = some [] := by
  intro s hn
  have hl : s.mcast.length ≤ links.length ∧ s.ucast.length ≤ tcps.length := by
    refine run_inv (fun s => s.mcast.length ≤ links.length ∧ s.ucast.length ≤ tcps.length) (fun s a h _ => ?_) _ _
      (by simp [RunSt.starting])
    obtain ⟨a, b⟩ := lists_step (answer := answer) s a
    exact ⟨Nat.le_trans a h.1, Nat.le_trans b h.2⟩
  have hcr : s.crashed = false := by
    cases e : s.crashed with
    | false => rfl
    | true => rw [run_crashed _ _ e, e] at hc; cases hc
  rw [run_cons _ _ _ hcr] at hc ⊢
  refine call_returns (M := links.length) (U := tcps.length) (p := RunSt.stopProgram) later (s.step answer .stop)
    hl.1 hl.2 (by simp [RunSt.step]) hc ?_
  have : weight links.length tcps.length RunSt.stopProgram = 4 + 3 * links.length + 6 * tcps.length := by
    simp [weight, RunSt.stopProgram, cost]; omega
  omega

/-- **C113** (replies leave from the node's own port) fails: for every node and every request it
answers, there is a run in which the request has been received and handled before `Stop` is called, and
the reply leaves from another port. -/
theorem C113_refuted (hl : ∀ j ∈ links, j < tcps.length) (i : Nat) (hi : i < tcps.length + links.length) (d : Datagram)
    (m₀ r : Message) (hd : Message.newWithBytes (d.data.take maxPacketSize) = .ok m₀)
    (hans : ∀ m, m.bytes = m₀.bytes → answer [] m = some r) :
    ∃ before after, .stop ∉ before ∧ .stop ∈ after ∧
      ((RunSt.starting tcps links).run answer before).seen.map (·.bytes) = [m₀.bytes] ∧
      ((RunSt.starting tcps links).run answer (before ++ after)).sent = [⟨.fresh, d.peer, r.bytes⟩] := by
  obtain ⟨acts, hns, hr, hc, hf, hget, hcalls⟩ := start_returns answer tcps links
  have u := run_up (answer := answer) hl (up_starting tcps links) acts hns
  generalize hs : (RunSt.starting tcps links).run answer acts = s at *
  have hinv : Inv s := hs ▸ inv_run answer tcps links acts
  have hcalm : Calm s := hs ▸ calm_run answer (calm_starting tcps links) acts (oneAtATime_noStop answer _ _ hns)
  obtain ⟨v, hv, h1, h2, h3, h4, h5, -⟩ := waiting tcps links hget hi
  obtain ⟨j, hj⟩ : ∃ j, v.via = some j := by
    by_cases hin : i < tcps.length
    · obtain ⟨w, hw, -, -, -, -, -, -, e⟩ := u.uni i hin
      rw [hv] at hw; cases hw; exact ⟨_, e⟩
    · obtain ⟨j, -, e | ⟨-, p, hp, hm⟩⟩ := u.multi i v (Nat.le_of_not_lt hin) hv
      · exact ⟨j, e⟩
      · rw [hr p hp] at hm; exact absurd hm List.not_mem_nil
  generalize hm : ({ m₀ with src := d.peer, pktType := v.kind.packetType } : Message) = m
  have hmb : m.bytes = m₀.bytes := by rw [← hm]; rfl
  have hms : m.src = d.peer := by rw [← hm]
  have hlt := (List.getElem?_eq_some_iff.mp hv).1
  let mid : List RunAct := [.arrive i d, .loop i, .loop i, .loop i, .loop i, .loop i, .reply 0, .reply 0]
  have hrep : s.replying = [] := hf.replying
  have hseen : s.seen = [] := hf.seen
  have hsent : s.sent = [] := hf.sent
  have hmid : s.run answer mid =
      { put s i { v with pc := .select } with replying := [⟨i, m, .check j r⟩], seen := [m] } := by
    show s.run answer (.arrive i d :: .loop i :: .loop i :: .loop i :: .loop i :: [.loop i, .reply 0, .reply 0]) = _
    rw [receive (answer := answer) s _ hc hv h1 h2 h3 h4 h5 (decode_ok hd), hm, put_got s _ hc hlt rfl,
      run_cons _ _ _ (by exact hc)]
    have e1 : (put { s with replying := s.replying ++ [⟨i, m, .handle⟩] } i { v with pc := .select }).step answer (.reply 0) =
        { put s i { v with pc := .select } with replying := [⟨i, m, .via r⟩], seen := [m] } := by
      simp only [RunSt.step, put, hrep, List.nil_append, List.getElem?_cons_zero, RunSt.stepReply, hseen, hans m hmb]
      rfl
    rw [e1, run_cons _ _ _ (by exact hc), run_nil]
    have hg : (s.servers.set i { v with pc := .select })[i]? = some { v with pc := .select } :=
      List.getElem?_set_self hlt
    have hvia : ((s.servers.set i { v with pc := .select })[i]?.bind (·.via)) = some j := by rw [hg]; exact hj
    simp only [RunSt.step, put, List.getElem?_cons_zero, RunSt.stepReply]
    rw [hvia]
    rfl
  have hginv : Inv (s.run answer mid) := run_inv _ (fun _ a h _ => h.step a) _ _ hinv
  have hgcalm : Calm (s.run answer mid) := calm_run answer hcalm mid (oneAtATime_noStop answer _ _ (by simp [mid]))
  generalize hg : s.run answer mid = g at *
  obtain ⟨sacts, hst, honly, hdead, hret⟩ := stop_returns (answer := answer) g hginv hgcalm (by rw [hmid]; exact hr)
  have hfr := callFrame_run (answer := answer) g sacts honly
  refine ⟨acts ++ mid, sacts ++ [.reply 0, .reply 0], by simp [mid, hns], by simp [hst], ?_, ?_⟩
  · rw [run_append, hs, hg, hmid]
    simp [hmb]
  · have e0 : (RunSt.starting tcps links).run answer (acts ++ mid) = g := by rw [run_append, hs, hg]
    rw [run_append, e0, run_append]
    generalize hz : g.run answer sacts = z at *
    have hzr : z.replying = [⟨i, m, .check j r⟩] := by rw [hfr.replying, hmid]
    have hzs : z.sent = [] := by rw [hfr.sent, hmid]; exact hsent
    have hzc : z.hasConn j = false := by
      unfold RunSt.hasConn
      cases e : z.servers[j]? with
      | none => rfl
      | some w => exact (hdead.server j w e).1
    have e1 : z.step answer (.reply 0) = { z with replying := [⟨i, m, .dial r⟩] } := by
      simp only [RunSt.step, hzr, List.getElem?_cons_zero, RunSt.stepReply, hzc, RunSt.setReplying]
      rfl
    rw [run_cons _ _ _ hdead.up, e1, run_cons _ _ _ (by exact hdead.up), run_nil]
    simp only [RunSt.step, List.getElem?_cons_zero, RunSt.stepReply, hzs, hms]
    rfl

/-- **C113**, what holds: as long as `Stop` is not called, every reply to a datagram goes to the sender
of the request from the socket of a unicast server, namely the one that received it, or the one which the
multicast server that received it is linked to. Everything else goes out on an accepted connection. -/
theorem C113_partial (hl : ∀ j ∈ links, j < tcps.length) (acts) (hs : .stop ∉ acts) (o : Outgoing)
    (ho : o ∈ ((RunSt.starting tcps links).run answer acts).sent) :
    (∃ c, o.source = .conn c) ∨
    ∃ x ∈ ((RunSt.starting tcps links).run answer acts).replying, ∃ r j, x.pc = .done (some r) ∧
      (if x.server < tcps.length then j = x.server else links[x.server - tcps.length]? = some j) ∧
      o = ⟨.bound j, x.msg.src, r.bytes⟩ := by
  have u := run_up (answer := answer) hl (up_starting tcps links) acts hs
  refine (u.sent o ho).imp_right fun ⟨x, hx, r, j, e1, e2, e3⟩ => ⟨x, hx, r, j, e1, ?_, e3⟩
  unfold target at e2
  split
  · rename_i h; rw [if_pos h] at e2; exact (Option.some.inj e2).symm
  · rename_i h; rw [if_neg h] at e2; exact e2

/-- **C114** (a request the node has an answer for is answered) fails while the node starts: for every
multicast server and every request, there is a run without `Stop` in which the request has been received
and handled, its goroutine has ended, and nothing has been or will be sent. -/
theorem C114_refuted (i : Nat) (hi : tcps.length ≤ i) (hi' : i < tcps.length + links.length) (d : Datagram)
    (m₀ r : Message) (hd : Message.newWithBytes (d.data.take maxPacketSize) = .ok m₀)
    (hans : ∀ m, m.bytes = m₀.bytes → answer [] m = some r) :
    ∃ acts m, .stop ∉ acts ∧ m.bytes = m₀.bytes ∧ m.src = d.peer ∧
      (let s := (RunSt.starting tcps links).run answer acts
       Returned s ∧ s.crashed = false ∧ s.seen = [m] ∧ s.replying = [⟨i, m, .done (some r)⟩] ∧ s.sent = []) := by
  have hlt : i < (RunSt.starting tcps links).servers.length := by simpa [RunSt.starting] using hi'
  have hv : (RunSt.starting tcps links).servers[i]? = some Live.multicast := by
    rcases starting_get tcps links i _ (List.getElem?_eq_getElem hlt) with ⟨t, ht, -⟩ | ⟨-, -, e⟩
    · have := (List.getElem?_eq_some_iff.mp ht).1
      omega
    · rw [List.getElem?_eq_getElem hlt, e]
  generalize hm : ({ m₀ with src := d.peer, pktType := ServerKind.multicast.packetType } : Message) = m
  have hmb : m.bytes = m₀.bytes := by rw [← hm]; rfl
  have hms : m.src = d.peer := by rw [← hm]
  have hc : (RunSt.starting tcps links).crashed = false := rfl
  have hrep : (RunSt.starting tcps links).replying = [] := rfl
  have hseen : (RunSt.starting tcps links).seen = [] := rfl
  have hsent : (RunSt.starting tcps links).sent = [] := rfl
  have hcalls : (RunSt.starting tcps links).calls = [links.mapIdx fun k j => .link (tcps.length + k) j] := rfl
  generalize RunSt.starting tcps links = s at *
  let mid : List RunAct := [.arrive i d, .loop i, .loop i, .loop i, .loop i, .loop i, .reply 0, .reply 0]
  have hmid : s.run answer mid =
      { put s i Live.multicast with replying := [⟨i, m, .done (some r)⟩], seen := [m] } := by
    show s.run answer (.arrive i d :: .loop i :: .loop i :: .loop i :: .loop i :: [.loop i, .reply 0, .reply 0]) = _
    rw [receive (answer := answer) s _ hc hv rfl rfl rfl rfl rfl (decode_ok hd)]
    show (put s i { Live.multicast with
        pc := .got { m₀ with src := d.peer, pktType := ServerKind.multicast.packetType } }).run _ _ = _
    rw [hm, put_got s _ hc hlt rfl, run_cons _ _ _ (by exact hc)]
    have e1 : (put { s with replying := s.replying ++ [⟨i, m, .handle⟩] } i Live.multicast).step answer (.reply 0) =
        { put s i Live.multicast with replying := [⟨i, m, .via r⟩], seen := [m] } := by
      simp only [RunSt.step, put, hrep, List.nil_append, List.getElem?_cons_zero, RunSt.stepReply, hseen, hans m hmb]
      rfl
    show ((put { s with replying := s.replying ++ [⟨i, m, .handle⟩] } i Live.multicast).step answer (.reply 0)).run _ _ = _
    rw [e1, run_cons _ _ _ (by exact hc), run_nil]
    have hg : (s.servers.set i Live.multicast)[i]? = some Live.multicast := List.getElem?_set_self hlt
    have hvia : ((s.servers.set i Live.multicast)[i]?.bind (·.via)) = none := by rw [hg]; rfl
    simp only [RunSt.step, put, List.getElem?_cons_zero, RunSt.stepReply]
    rw [hvia]
    rfl
  have hl := links_run (answer := answer) _ (s.run answer mid) (by rw [hmid]; exact hc) (by rw [hmid]; exact hcalls)
    (fun x hx => by obtain ⟨k, hk, rfl⟩ := List.mem_mapIdx.mp hx; exact ⟨_, _, rfl⟩)
  obtain ⟨l1, l2, l3, -⟩ := hl
  refine ⟨mid ++ List.replicate (links.mapIdx fun k j => Instr.link (tcps.length + k) j).length (.call 0), m, ?_, hmb, hms, ?_⟩
  · simp [mid]
  · rw [run_append]
    refine ⟨fun p hp => ?_, l2, ?_, ?_, ?_⟩
    · rw [l1] at hp; exact List.mem_singleton.mp hp
    · rw [l3.seen, hmid]
    · rw [l3.replying, hmid]
    · rw [l3.sent, hmid]; exact hsent

/-- **C114**, what holds: without `Stop`, when the goroutine for a message has ended and the handler had
answered it, the answer has been sent; for every message to a unicast server, and for every message
whose goroutine was started after `Start` had returned. -/
theorem C114_partial (hl : ∀ j ∈ links, j < tcps.length) (acts later) (hs : .stop ∉ acts) (hs' : .stop ∉ later)
    (hr : Returned ((RunSt.starting tcps links).run answer acts)) (h : Nat) (x : Replying) (r : Message)
    (hx : (((RunSt.starting tcps links).run answer acts).run answer later).replying[h]? = some x)
    (hp : x.pc = .done (some r))
    (hw : x.server < tcps.length ∨ ((RunSt.starting tcps links).run answer acts).replying.length ≤ h) :
    ∃ j, (if x.server < tcps.length then j = x.server else links[x.server - tcps.length]? = some j) ∧
      (⟨.bound j, x.msg.src, r.bytes⟩ : Outgoing) ∈
        (((RunSt.starting tcps links).run answer acts).run answer later).sent := by
  have u := run_up (answer := answer) hl (up_starting tcps links) acts hs
  generalize ((RunSt.starting tcps links).run answer acts) = s at *
  have u' : Up tcps.length links (fun h => s.replying.length ≤ h) s := by
    refine ⟨u.calls, fun _ => ?_, u.len, u.uni, u.multi, fun h x hx => ?_, u.sent⟩
    · obtain ⟨p, hp, -⟩ := u.calls
      rw [hp, hr p (by rw [hp]; simp)]
    · obtain ⟨a, b⟩ := u.reply h x hx
      refine ⟨a, ?_⟩
      have hlt := (List.getElem?_eq_some_iff.mp hx).1
      exact b.widen (by omega)
  have u2 := run_up (answer := answer) hl u' later hs'
  obtain ⟨-, ok⟩ := u2.reply h x hx
  unfold ReplyOk at ok
  rw [hp] at ok
  obtain ⟨j, hj, hm⟩ := ok hw
  refine ⟨j, ?_, hm⟩
  unfold target at hj
  split
  · rename_i h; rw [if_pos h] at hj; exact (Option.some.inj hj).symm
  · rename_i h; rw [if_neg h] at hj; exact hj

/-- **C114**, what holds of the goroutines: the goroutine for a message ends after at most five steps of
its own, in every schedule without a crash. -/
theorem C114_ends_partial (acts later)
    (hc : (((RunSt.starting tcps links).run answer acts).run answer later).crashed = false) (h : Nat) (x : Replying)
    (hx : ((RunSt.starting tcps links).run answer acts).replying[h]? = some x) (hn : 5 ≤ later.count (.reply h)) :
    ∃ a, (((RunSt.starting tcps links).run answer acts).run answer later).replying[h]? =
      some { x with pc := .done a } := by
  obtain ⟨pc, e, hr⟩ := reply_progress answer _ later h hx hc
  have h5 : ∀ pc, replyRank pc ≤ 5 := by intro pc; cases pc <;> simp [replyRank]
  have := h5 x.pc
  have h0 : replyRank pc = 0 := by omega
  cases pc with
  | done a => exact ⟨a, e⟩
  | _ => cases h0

end

/-! ### Concrete cases

A node with two unicast servers, the first of them with TCP, and two multicast servers, and a request to
read the operation status of its device, to which it answers the value 30. -/

/-- A request to read the operation status. -/
def statusRead : Message :=
  ⟨0x10, 0x81, [0, 1], [0x05, 0xFF, 0x01], [0x01, 0x30, 0x01], 0x62, 1, [some ⟨0x80, []⟩], ⟨"<nil>", 0⟩, 0, none⟩

/-- The answer to it. -/
def statusIs : Message :=
  ⟨0x10, 0x81, [0, 1], [0x01, 0x30, 0x01], [0x05, 0xFF, 0x01], 0x72, 1, [some ⟨0x80, [0x30]⟩], ⟨"<nil>", 0⟩, 0, none⟩

/-- The datagram with the request. -/
def statusDatagram : Datagram :=
  ⟨[0x10, 0x81, 0, 1, 0x05, 0xFF, 0x01, 0x01, 0x30, 0x01, 0x62, 1, 0x80, 0], ⟨"10.0.0.9", 3610⟩⟩

/-- What the node answers. -/
def tellStatus (_ : List Message) (m : Message) : Option Message :=
  if m.bytes = statusRead.bytes then some statusIs else none

theorem statusDatagram_ok : Message.newWithBytes (statusDatagram.data.take maxPacketSize) = .ok statusRead := by
  decide +kernel

/-- `Start` returns, the second unicast server and the first multicast server get the request, `Stop` is
called and returns; the message of the multicast server has been read and not been handed over. -/
def stoppedNode : List RunAct :=
  [.call 0, .call 0, .accept 0, .arrive 1 statusDatagram, .loop 1, .loop 1, .loop 1, .loop 1, .loop 1,
    .arrive 2 statusDatagram, .loop 2, .loop 2, .loop 2, .loop 2, .stop] ++ List.replicate 22 (.call 1)

theorem stoppedNode_returned : Returned ((RunSt.starting [true, false] [0, 1]).run tellStatus stoppedNode) := by
  have : ((RunSt.starting [true, false] [0, 1]).run tellStatus stoppedNode).calls = [[], []] := by decide +kernel
  intro p hp
  rw [this] at hp
  simpa using hp

theorem stoppedNode_up : ((RunSt.starting [true, false] [0, 1]).run tellStatus stoppedNode).crashed = false := by
  decide +kernel

example := C111_refuted tellStatus [true, false] [0, 1] 3 (by decide) statusDatagram statusRead statusDatagram_ok
example := C111_refuted_tcp tellStatus [true, false] [0, 1] 0 rfl
example := C111_partial tellStatus [true, false] [0, 1] stoppedNode (by decide) stoppedNode_up stoppedNode_returned
example : (inHand ((RunSt.starting [true, false] [0, 1]).run tellStatus stoppedNode) 2).map (·.bytes) =
    some statusRead.bytes := by decide +kernel
example := C111_handled_partial tellStatus [true, false] [0, 1] stoppedNode (by decide) stoppedNode_up
  stoppedNode_returned [.request 0 statusRead] statusRead (by decide +kernel)
example := C111_ends_partial tellStatus [true, false] [0, 1] stoppedNode (by decide) stoppedNode_up
  stoppedNode_returned (List.replicate 6 (.loop 2)) 2 (by decide) (by decide)
example := C112_refuted tellStatus [true, false] [0, 1] (by decide)
example := C112_partial tellStatus [true, false] [0, 1] (stoppedNode ++ [.stop, .call 2]) <| by
  refine oneAtATime_append tellStatus _ _ _ ?_ stoppedNode_up ⟨fun _ => stoppedNode_returned, by simp [OneAtATime]⟩
  refine oneAtATime_append tellStatus _ _ _ ?_ (by decide +kernel) (oneAtATime_noStop tellStatus _ _ (by decide))
  refine oneAtATime_append tellStatus _ (stoppedNode.take 14) [.stop] (oneAtATime_noStop tellStatus _ _ (by decide))
    (by decide +kernel) ⟨fun _ p hp => ?_, trivial⟩
  have : ((RunSt.starting [true, false] [0, 1]).run tellStatus (stoppedNode.take 14)).calls = [[]] := by decide +kernel
  rw [this] at hp
  exact List.mem_singleton.mp hp
example := C112_returns_partial tellStatus [true, false] [0, 1] (stoppedNode.take 14) (List.replicate 22 (.call 1))
  (by decide +kernel) (by decide +kernel)
example := C113_refuted tellStatus [true, false] [0, 1] (by decide) 3 (by decide) statusDatagram statusRead statusIs
  statusDatagram_ok (fun m h => by simp [tellStatus, h])
example := C113_partial tellStatus [true, false] [0, 1] (by decide)
  (stoppedNode.take 14 ++ List.replicate 5 (.reply 0)) (by decide) ⟨.bound 1, ⟨"10.0.0.9", 3610⟩, statusIs.bytes⟩
  (by decide +kernel)
example := C114_refuted tellStatus [true, false] [0, 1] 3 (by decide) (by decide) statusDatagram statusRead statusIs
  statusDatagram_ok (fun m h => by simp [tellStatus, h])
/-- The node of `C114_partial` in a run: the request reaches the second multicast server after `Start` has
returned and is answered by the second unicast server. -/
example := C114_partial tellStatus [true, false] [0, 1] (by decide) [.call 0, .call 0]
  ([.arrive 3 statusDatagram, .loop 3, .loop 3, .loop 3, .loop 3, .loop 3] ++ List.replicate 5 (.reply 0)) (by decide)
  (by decide) (fun p hp => by
    have : ((RunSt.starting [true, false] [0, 1]).run tellStatus [.call 0, .call 0]).calls = [[]] := by decide +kernel
    rw [this] at hp
    exact List.mem_singleton.mp hp) 0
  ⟨3, { statusRead with src := ⟨"10.0.0.9", 3610⟩, pktType := ServerKind.multicast.packetType }, .done (some statusIs)⟩
  statusIs (by decide +kernel) rfl (.inr (by decide +kernel))
example := C114_ends_partial tellStatus [true, false] [0, 1] (stoppedNode.take 9) (List.replicate 5 (.reply 0))
  (by decide +kernel) 0
  ⟨1, { statusRead with src := ⟨"10.0.0.9", 3610⟩, pktType := ServerKind.unicast.packetType }, .handle⟩
  (by decide +kernel) (by decide)

end Verif.Props
