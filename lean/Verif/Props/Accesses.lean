import Verif.Model.Accesses

/-!
# C178: data races

The rules of the memory model are in `Verif.Spec.GoMemory`, the fields each call uses in `Verif.Model.Accesses`.
-/

namespace Verif.Props
open Verif Verif.Spec Verif.Model

variable {L : Type}

/-! ## The order of events -/

theorem Edge.lt {t : List (Ev L)} {i j : Nat} (e : Edge t i j) : i < j := by cases e <;> assumption

theorem HB.lt {t : List (Ev L)} {i j : Nat} (h : HB t i j) : i < j := by
  induction h with
  | edge e => exact Edge.lt e
  | trans _ e ih => exact Nat.lt_trans ih (Edge.lt e)

theorem HB.join {t : List (Ev L)} {i j k : Nat} (a : HB t i j) (b : HB t j k) : HB t i k := by
  induction b with
  | edge e => exact .trans a e
  | trans _ e ih => exact .trans ih e

/-- The act lets another goroutine go on, and so puts what was done before it before what others do later. -/
def GivesOver (a : Act L) : Prop :=
  (∃ (g : Nat), a = .go g) ∨ (∃ (m : Nat), a = .unlock m) ∨ (∃ (c : Nat), a = .send c) ∨ (∃ (c : Nat), a = .recv c)

/-- The act waits for another goroutine. -/
def TakesOver (a : Act L) : Prop :=
  (∃ (m : Nat), a = .lock m) ∨ (∃ (c : Nat), a = .recv c) ∨ (∃ (c : Nat), a = .sent c)

/-- What a goroutine does comes before nothing that others do, if it gives nothing from then on. -/
theorem hb_stays {t : List (Ev L)} {g i j : Nat} (h : HB t i j) :
    (∀ (k : Nat) (a : Act L), i ≤ k → t[k]? = some ⟨g, a⟩ → ¬ GivesOver a) →
    (∃ (a : Act L), t[i]? = some ⟨g, a⟩) → ∃ (b : Act L), t[j]? = some ⟨g, b⟩ := by
  have one : ∀ (i j : Nat), Edge t i j → (∀ (a : Act L), t[i]? = some ⟨g, a⟩ → ¬ GivesOver a) →
      (∃ (a : Act L), t[i]? = some ⟨g, a⟩) → ∃ (b : Act L), t[j]? = some ⟨g, b⟩ := by
    rintro i j e q ⟨a, ha⟩
    cases e with
    | order g' a' b' _ h1 h2 =>
      rw [ha] at h1; cases h1; exact ⟨b', h2⟩
    | go g' h' b' _ h1 h2 => rw [ha] at h1; cases h1; exact absurd (.inl ⟨_, rfl⟩) (q _ ha)
    | unlock g' h' m _ h1 h2 => rw [ha] at h1; cases h1; exact absurd (.inr (.inl ⟨_, rfl⟩)) (q _ ha)
    | send g' h' c _ h1 h2 => rw [ha] at h1; cases h1; exact absurd (.inr (.inr (.inl ⟨_, rfl⟩))) (q _ ha)
    | recv g' h' c _ h1 h2 => rw [ha] at h1; cases h1; exact absurd (.inr (.inr (.inr ⟨_, rfl⟩))) (q _ ha)
  induction h with
  | edge e => exact fun q => one _ _ e (fun a => q _ a (Nat.le_refl _))
  | trans hb e ih => exact fun q hi => one _ _ e (fun a => q _ a (Nat.le_of_lt (HB.lt hb))) (ih q hi)

/-- Some goroutines take nothing up to `j`, and others start them only up to `r`. Then what others do and comes before
what they do at `j`, is done up to `r`. -/
theorem hb_enters {t : List (Ev L)} {H : Nat → Prop} {r : Nat}
    (closed : ∀ (k g h : Nat), t[k]? = some ⟨g, .go h⟩ → H h → H g ∨ k ≤ r) {i j : Nat} (hb : HB t i j) :
    (∀ (k g : Nat) (a : Act L), k ≤ j → H g → t[k]? = some ⟨g, a⟩ → ¬ TakesOver a) →
    (∃ (g : Nat) (a : Act L), t[i]? = some ⟨g, a⟩ ∧ ¬ H g) →
    (∃ (g : Nat) (a : Act L), t[j]? = some ⟨g, a⟩ ∧ H g) → i ≤ r := by
  have one : ∀ (k j : Nat), Edge t k j →
      (∀ (k g : Nat) (a : Act L), k ≤ j → H g → t[k]? = some ⟨g, a⟩ → ¬ TakesOver a) →
      (∃ (g : Nat) (a : Act L), t[j]? = some ⟨g, a⟩ ∧ H g) →
      k ≤ r ∨ ∃ (g : Nat) (a : Act L), t[k]? = some ⟨g, a⟩ ∧ H g := by
    rintro k j e qh ⟨g, b, hj, hg⟩
    have nt : ¬ TakesOver b := qh j g b (Nat.le_refl _) hg hj
    cases e with
    | order g' a' b' _ h1 h2 => rw [hj] at h2; cases h2; exact .inr ⟨_, _, h1, hg⟩
    | go g' h' b' _ h1 h2 =>
      rw [hj] at h2; cases h2
      rcases closed k g' _ h1 hg with h' | h'
      · exact .inr ⟨_, _, h1, h'⟩
      · exact .inl h'
    | unlock g' h' m _ h1 h2 => rw [hj] at h2; cases h2; exact absurd (.inl ⟨_, rfl⟩) nt
    | send g' h' c _ h1 h2 => rw [hj] at h2; cases h2; exact absurd (.inr (.inl ⟨_, rfl⟩)) nt
    | recv g' h' c _ h1 h2 => rw [hj] at h2; cases h2; exact absurd (.inr (.inr ⟨_, rfl⟩)) nt
  induction hb with
  | edge e =>
    rintro qh ⟨g, a, hi, n⟩ hj
    rcases one _ _ e qh hj with h' | ⟨g', a', h1, h2⟩
    · exact h'
    · rw [hi] at h1; cases h1; exact absurd h2 n
  | trans hb e ih =>
    intro qh hi hj
    rcases one _ _ e qh hj with h' | h'
    · exact Nat.le_of_lt (Nat.lt_of_lt_of_le (HB.lt hb) h')
    · exact ih (fun k g a hk => qh k g a (Nat.le_trans hk (Nat.le_of_lt (Edge.lt e)))) hi h'

/-- A loop and a handler it starts are started by others only where the loop is. -/
theorem loop_closed {t : List (Ev L)} {r p m h s : Nat} (hr : t[r]? = some ⟨p, .go m⟩)
    (once : ∀ (i j g h k : Nat), t[i]? = some ⟨g, .go k⟩ → t[j]? = some ⟨h, .go k⟩ → i = j)
    (hs : t[s]? = some ⟨m, .go h⟩) (k g h' : Nat) (hk : t[k]? = some ⟨g, .go h'⟩) (e : h' = m ∨ h' = h) :
    (g = m ∨ g = h) ∨ k ≤ r := by
  rcases e with rfl | rfl
  · exact .inr (Nat.le_of_eq (once _ _ _ _ _ hk hr))
  · have := once _ _ _ _ _ hk hs
    subst this
    rw [hs] at hk; cases hk
    exact .inl (.inl rfl)

/-! ## Code and executions -/

/-- What a goroutine does is in its code. -/
theorem exec_mem {code : Nat → List (Act L)} {t : List (Ev L)} (x : Exec code t) {i g : Nat} {a : Act L}
    (h : t[i]? = some ⟨g, a⟩) : a ∈ code g := by
  refine (x.order g).subset ?_
  exact List.mem_map.2 ⟨⟨g, a⟩, List.mem_filter.2 ⟨List.mem_of_getElem? h, by simp⟩, rfl⟩

/-- What goroutine `g` did in the first `i` events. -/
def did (t : List (Ev Field)) (g i : Nat) : List (Act Field) :=
  ((t.take i).filter (fun e => e.g == g)).map (·.act)

theorem did_succ {t : List (Ev Field)} {g i : Nat} {e : Ev Field} (h : t[i]? = some e) :
    did t g (i + 1) = did t g i ++ (if e.g = g then [e.act] else []) := by
  unfold did
  rw [List.take_add_one, h]
  by_cases eg : e.g = g <;> simp [List.filter_append, eg]

theorem pair_sublist {α : Type} {t : List α} {i j : Nat} {a b : α} (ij : i < j) (hi : t[i]? = some a)
    (hj : t[j]? = some b) : [a, b].Sublist t := by
  induction t generalizing i j with
  | nil => simp at hi
  | cons e t ih =>
    cases j with
    | zero => omega
    | succ j =>
      cases i with
      | zero =>
        simp only [List.getElem?_cons_zero, Option.some.injEq] at hi
        subst hi
        exact List.Sublist.cons_cons _ (List.singleton_sublist.2 (List.mem_of_getElem? (by simpa using hj)))
      | succ i => exact List.Sublist.cons _ (ih (i := i) (j := j) (by omega) (by simpa using hi) (by simpa using hj))

/-- What a goroutine does first is first in its code. -/
theorem exec_pair {code : Nat → List (Act L)} {t : List (Ev L)} (x : Exec code t) {i j g : Nat} {a b : Act L}
    (ij : i < j) (hi : t[i]? = some ⟨g, a⟩) (hj : t[j]? = some ⟨g, b⟩) : [a, b].Sublist (code g) := by
  have s := ((pair_sublist ij hi hj).filter (fun e => e.g == g)).map (·.act)
  simp at s
  exact s.trans (x.order g).sublist

theorem pair_right {α : Type} {xs ys : List α} {a b : α} (s : [a, b].Sublist (xs ++ ys)) (na : a ∉ xs) : b ∈ ys := by
  induction xs with
  | nil => exact s.subset (by simp)
  | cons c xs ih =>
    rcases List.sublist_cons_iff.1 s with s | ⟨r, h1, h2⟩
    · exact ih s (fun h => na (List.mem_cons_of_mem _ h))
    · cases h1; exact absurd (List.mem_cons_self) na

/-- A goroutine other than 0 does everything after goroutine 0 has started some goroutine. -/
theorem after_go {code : Nat → List (Act L)} {t : List (Ev L)} (x : Exec code t) (j : Nat) : ∀ (h : Nat) (b : Act L),
    t[j]? = some ⟨h, b⟩ → h ≠ 0 → ∃ (k g : Nat), t[k]? = some ⟨0, .go g⟩ ∧ HB t k j := by
  induction j using Nat.strongRecOn with
  | ind j ih =>
    intro h b hj h0
    obtain ⟨i, g, ij, hi⟩ := x.started j h b hj h0
    by_cases g0 : g = 0
    · subst g0; exact ⟨i, h, hi, .edge (.go 0 h b ij hi hj)⟩
    · obtain ⟨k, g', hk, hb⟩ := ih i ij g _ hi g0
      exact ⟨k, g', hk, .trans hb (.go g h b ij hi hj)⟩

theorem loop_acts {s : Nat} {hs : List Nat} {closes : Bool} {a : Act Field}
    (h : a ∈ (Goroutine.loop s hs closes).code) :
    a = .rd (.conn s) ∨ (∃ (k : Nat), a = .go k) ∨ (closes = true ∧ a = .wr (.conn s)) := by
  cases closes <;> simp [Goroutine.code] at h ⊢ <;> grind

/-- A goroutine that receives messages and starts a handler for each. -/
def Receiver : Goroutine → Prop
  | .loop _ _ _ | .accepts _ _ => True
  | _ => False

theorem receiver_acts {g : Goroutine} (r : Receiver g) {a : Act Field} (h : a ∈ g.code) :
    (∃ (s : Nat), a = .rd (.conn s) ∨ a = .wr (.conn s)) ∨ ∃ (k : Nat), a = .go k := by
  cases g with
  | loop s hs cl =>
    rcases loop_acts h with h | h | ⟨_, h⟩
    · exact .inl ⟨s, .inl h⟩
    · exact .inr h
    · exact .inl ⟨s, .inr h⟩
  | accepts s hs => simp [Goroutine.code] at h ⊢; grind
  | _ => exact r.elim

theorem receiver_takes {g : Goroutine} (r : Receiver g) {a : Act Field} (h : a ∈ g.code) : ¬ TakesOver a := by
  rcases receiver_acts r h with ⟨s, rfl | rfl⟩ | ⟨k, rfl⟩ <;> simp [TakesOver]

/-- The acts of a handler that is not the one a post waits for. -/
theorem handler_acts {h : MsgHandler} {a : Act Field} (m : a ∈ h.acts) :
    (∃ (l : Field), a = .rd l) ∨ (h.adds = true ∧ a = .wr .found) ∨ (h.answer = true ∧ (a = .send 0 ∨ a = .sent 0)) := by
  obtain ⟨so, mu, an, ad, ps, re⟩ := h
  cases mu <;> cases an <;> cases ad <;> cases re <;> simp [MsgHandler.acts, MsgHandler.receives, socketActs] at m ⊢ <;>
    grind

theorem handler_quiet {h : MsgHandler} (na : h.answer = false) {a : Act Field} (m : a ∈ h.acts) :
    ¬ TakesOver a ∧ ¬ GivesOver a := by
  rcases handler_acts m with ⟨l, rfl⟩ | ⟨_, rfl⟩ | ⟨h, _⟩
  · exact ⟨by simp [TakesOver], by simp [GivesOver]⟩
  · exact ⟨by simp [TakesOver], by simp [GivesOver]⟩
  · rw [na] at h; cases h

/-! ## The claim is false -/

/-- **C178 refuted.** A node is started, and with it a loop. A message arrives and its handler uses a field. Another
goroutine uses it after the loop was started, and one of the two writes it. Then there is a data race
for the field, whatever happens besides and in whatever order, and whatever locks and channels the program uses. -/
theorem C178_refuted {sys : Nat → Goroutine} {t : List (Ev Field)} (x : Exec (fun g => (sys g).code) t)
    {r s i j p m h g : Nat} {msg : MsgHandler} {a b : Act Field} {l : Field}
    (sm : Receiver (sys m)) (sh : sys h = .handler msg) (gm : g ≠ m) (gh : g ≠ h) (na : msg.answer = false)
    (hr : t[r]? = some ⟨p, .go m⟩) (hh : t[s]? = some ⟨m, .go h⟩)
    (hi : t[i]? = some ⟨g, a⟩) (ri : r < i) (hj : t[j]? = some ⟨h, b⟩)
    (ua : a.Uses l) (ub : b.Uses l) (w : a = .wr l ∨ b = .wr l) : RaceOn t l := by
  have qh : ∀ (k : Nat) (a : Act Field), t[k]? = some ⟨h, a⟩ → ¬ TakesOver a ∧ ¬ GivesOver a := fun k a hk => by
    have := exec_mem x hk
    simp only [sh, Goroutine.code] at this
    exact handler_quiet na this
  refine ⟨g, h, gh, i, j, a, b, hi, hj, ua, ub, w, fun hb => ?_, fun hb => ?_⟩
  · have := hb_enters (loop_closed hr x.once hh) hb (fun k g' a _ hg hk => by
      rcases hg with rfl | rfl
      · have := exec_mem x hk
        exact receiver_takes sm this
      · exact (qh k a hk).1) ⟨g, a, hi, by simp [gm, gh]⟩ ⟨h, b, hj, .inr rfl⟩
    omega
  · obtain ⟨c, hc⟩ := hb_stays hb (fun k a _ hk => (qh k a hk).2) ⟨b, hj⟩
    rw [hi] at hc; cases hc; exact gh rfl

/-- **C178 refuted.** A post is answered: its request is stored after the loop was started, and the handler of the
answer then looks for the request of a waiting post, as it must to find it. There is a data race for the request. -/
theorem C178_refuted_post {sys : Nat → Goroutine} {t : List (Ev Field)} (x : Exec (fun g => (sys g).code) t)
    {r s i j p m h g : Nat} {msg : MsgHandler}
    (sm : Receiver (sys m)) (sh : sys h = .handler msg) (gm : g ≠ m) (gh : g ≠ h)
    (hr : t[r]? = some ⟨p, .go m⟩) (hh : t[s]? = some ⟨m, .go h⟩)
    (hi : t[i]? = some ⟨g, .wr .postReq⟩) (ri : r < i) (hj : t[j]? = some ⟨h, .rd .postReq⟩) (ij : i < j) :
    RaceOn t .postReq := by
  refine ⟨g, h, gh, i, j, _, _, hi, hj, .inr rfl, .inl rfl, .inl rfl, fun hb => ?_, fun hb => ?_⟩
  · have := hb_enters (loop_closed hr x.once hh) hb (fun k g' a kj hg hk tk => by
        rcases hg with rfl | rfl
        · have := exec_mem x hk
          exact receiver_takes sm this tk
        have mem := exec_mem x hk
        simp only [sh, Goroutine.code] at mem
        rcases handler_acts mem with ⟨l, rfl⟩ | ⟨_, rfl⟩ | ⟨an, rfl | rfl⟩
        · simp [TakesOver] at tk
        · simp [TakesOver] at tk
        · simp [TakesOver] at tk
        · have kl : k < j := by
            rcases Nat.lt_or_ge k j with h' | h'
            · exact h'
            · have := Nat.le_antisymm kj h'
              subst this; rw [hj] at hk; cases hk
          have sl := exec_pair x kl hk hj
          simp only [sh, Goroutine.code] at sl
          obtain ⟨so', mu, an', ad, ps, re⟩ := msg
          cases an
          simp only [MsgHandler.acts, MsgHandler.receives, if_true, List.cons_append, List.nil_append,
            List.append_assoc] at sl
          have e : ∀ (ys : List (Act Field)), [Act.rd (Field.bound so'), .rd .config, .rd .postReq, .rd .postCh,
            .rd .postReq, .rd .postCh, .rd .postReq, .rd .postReq, .rd .postReq, .rd .postCh, .rd .postCh, .send 0] ++
            (Act.sent 0 :: ys) = .rd (.bound so') :: .rd .config :: .rd .postReq :: .rd .postCh :: .rd .postReq ::
            .rd .postCh :: .rd .postReq :: .rd .postReq :: .rd .postReq :: .rd .postCh :: .rd .postCh :: .send 0 ::
            .sent 0 :: ys := fun _ => rfl
          rw [← e] at sl
          have mem' := pair_right sl (by simp)
          cases ad <;> cases mu <;> cases re <;> simp [socketActs] at mem') ⟨g, _, hi, by simp [gm, gh]⟩
        ⟨h, _, hj, .inr rfl⟩
    omega
  · have := HB.lt hb
    omega

/-- Some goroutines take nothing, and others start them only at `r`. Then what others do and comes before what they do,
comes before `r` or is there. -/
theorem hb_through {t : List (Ev L)} {H : Nat → Prop} {r : Nat}
    (closed : ∀ (k g h : Nat), t[k]? = some ⟨g, .go h⟩ → H h → H g ∨ k = r)
    (qh : ∀ (k g : Nat) (a : Act L), H g → t[k]? = some ⟨g, a⟩ → ¬ TakesOver a) {i j : Nat} (hb : HB t i j) :
    (∃ (g : Nat) (a : Act L), t[i]? = some ⟨g, a⟩ ∧ ¬ H g) →
    (∃ (g : Nat) (a : Act L), t[j]? = some ⟨g, a⟩ ∧ H g) → i = r ∨ HB t i r := by
  have one : ∀ (k j : Nat), Edge t k j → (∃ (g : Nat) (a : Act L), t[j]? = some ⟨g, a⟩ ∧ H g) →
      k = r ∨ ∃ (g : Nat) (a : Act L), t[k]? = some ⟨g, a⟩ ∧ H g := by
    rintro k j e ⟨g, b, hj, hg⟩
    have nt : ¬ TakesOver b := qh j g b hg hj
    cases e with
    | order g' a' b' _ h1 h2 => rw [hj] at h2; cases h2; exact .inr ⟨_, _, h1, hg⟩
    | go g' h' b' _ h1 h2 =>
      rw [hj] at h2; cases h2
      rcases closed k g' _ h1 hg with h' | h'
      · exact .inr ⟨_, _, h1, h'⟩
      · exact .inl h'
    | unlock g' h' m _ h1 h2 => rw [hj] at h2; cases h2; exact absurd (.inl ⟨_, rfl⟩) nt
    | send g' h' c _ h1 h2 => rw [hj] at h2; cases h2; exact absurd (.inr (.inl ⟨_, rfl⟩)) nt
    | recv g' h' c _ h1 h2 => rw [hj] at h2; cases h2; exact absurd (.inr (.inr ⟨_, rfl⟩)) nt
  induction hb with
  | edge e =>
    rintro ⟨g, a, hi, n⟩ hj
    rcases one _ _ e hj with h' | ⟨g', a', h1, h2⟩
    · exact .inl h'
    · rw [hi] at h1; cases h1; exact absurd h2 n
  | trans hb e ih =>
    intro hi hj
    rcases one _ _ e hj with h' | h'
    · exact .inr (h' ▸ hb)
    · exact ih hi h'

/-- **C178, exactly when a goroutine races with a handler.** A loop is started at `r`, and starts a handler of a message
that no post waits for. Another goroutine races with the handler for a field exactly if both use it, one of them writes
it, and what the other goroutine does with it does not happen before the start of the loop. What happens later never
matters, nor how long ago it was. -/
theorem C178_handlers {sys : Nat → Goroutine} {t : List (Ev Field)} (x : Exec (fun g => (sys g).code) t)
    {r s p m h g : Nat} {msg : MsgHandler}
    (sm : Receiver (sys m)) (sh : sys h = .handler msg) (gm : g ≠ m) (gh : g ≠ h) (na : msg.answer = false)
    (hr : t[r]? = some ⟨p, .go m⟩) (hh : t[s]? = some ⟨m, .go h⟩) (l : Field) :
    RaceBetween t g h l ↔ ∃ (i j : Nat) (a b : Act Field), t[i]? = some ⟨g, a⟩ ∧ t[j]? = some ⟨h, b⟩ ∧
      a.Uses l ∧ b.Uses l ∧ (a = .wr l ∨ b = .wr l) ∧ ¬ HB t i r := by
  have qh : ∀ (k : Nat) (a : Act Field), t[k]? = some ⟨h, a⟩ → ¬ TakesOver a ∧ ¬ GivesOver a := fun k a hk => by
    have := exec_mem x hk
    simp only [sh, Goroutine.code] at this
    exact handler_quiet na this
  have m0 : m ≠ 0 := fun e => x.first r p (e ▸ hr)
  have h0 : h ≠ 0 := fun e => x.first s m (e ▸ hh)
  have later : ∀ (j : Nat) (b : Act Field), t[j]? = some ⟨h, b⟩ → HB t r j := fun j b hj => by
    obtain ⟨s', q, s'j, hs'⟩ := x.started j h b hj h0
    have := x.once _ _ _ _ _ hs' hh
    subst this
    obtain ⟨r', q', r's, hr'⟩ := x.started s' m _ hh m0
    have := x.once _ _ _ _ _ hr' hr
    subst this
    exact .trans (.edge (.go p m _ r's hr hh)) (.go m h b s'j hh hj)
  constructor
  · rintro ⟨_, i, j, a, b, hi, hj, ua, ub, w, n1, _⟩
    exact ⟨i, j, a, b, hi, hj, ua, ub, w, fun hb => n1 (HB.join hb (later j b hj))⟩
  · rintro ⟨i, j, a, b, hi, hj, ua, ub, w, n⟩
    refine ⟨gh, i, j, a, b, hi, hj, ua, ub, w, fun hb => ?_, fun hb => ?_⟩
    · have closed : ∀ (k g h' : Nat), t[k]? = some ⟨g, .go h'⟩ → h' = m ∨ h' = h → (g = m ∨ g = h) ∨ k = r := by
        rintro k g h' hk (rfl | rfl)
        · exact .inr (x.once _ _ _ _ _ hk hr)
        · have := x.once _ _ _ _ _ hk hh
          subst this
          rw [hh] at hk; cases hk
          exact .inl (.inl rfl)
      have := hb_through closed (fun k g' a hg hk => by
        rcases hg with rfl | rfl
        · exact receiver_takes sm (exec_mem x hk)
        · exact (qh k a hk).1) hb ⟨g, a, hi, by simp [gm, gh]⟩ ⟨h, b, hj, .inr rfl⟩
      rcases this with rfl | this
      · rw [hr] at hi
        rcases ua with rfl | rfl <;> cases hi
      · exact n this
    · obtain ⟨c, hc⟩ := hb_stays hb (fun k a _ hk => (qh k a hk).2) ⟨b, hj⟩
      rw [hi] at hc; cases hc; exact gh rfl

/-- Two goroutines that use a place, one of them writing it, race if neither gives anything. -/
theorem race_two {code : Nat → List (Act L)} {t : List (Ev L)} (x : Exec code t) {i j g h : Nat}
    {a b : Act L} {l : L} (gh : g ≠ h) (qg : ∀ (a : Act L), a ∈ code g → ¬ GivesOver a)
    (qh : ∀ (a : Act L), a ∈ code h → ¬ GivesOver a) (hi : t[i]? = some ⟨g, a⟩) (hj : t[j]? = some ⟨h, b⟩)
    (ua : a.Uses l) (ub : b.Uses l) (w : a = .wr l ∨ b = .wr l) : RaceBetween t g h l := by
  refine ⟨gh, i, j, a, b, hi, hj, ua, ub, w, fun hb => ?_, fun hb => ?_⟩
  · obtain ⟨c, hc⟩ := hb_stays hb (fun k a _ hk => qg a (exec_mem x hk)) ⟨a, hi⟩
    rw [hj] at hc; cases hc; exact gh rfl
  · obtain ⟨c, hc⟩ := hb_stays hb (fun k a _ hk => qh a (exec_mem x hk)) ⟨b, hj⟩
    rw [hi] at hc; cases hc; exact gh rfl

theorem pair_at {t : List (Ev Field)} {g : Nat} (n : Nat) {a b : Act Field} (s : [a, b].Sublist (did t g n))
    (nt : n ≤ t.length) : ∃ (i j : Nat), i < j ∧ t[i]? = some ⟨g, a⟩ ∧ t[j]? = some ⟨g, b⟩ := by
  induction n with
  | zero => simp [did] at s
  | succ n ih =>
    obtain ⟨e, he⟩ : ∃ (e : Ev Field), t[n]? = some e := ⟨_, List.getElem?_eq_getElem (by omega)⟩
    rw [did_succ he] at s
    by_cases eg : e.g = g
    · rw [if_pos eg] at s
      obtain ⟨l1, l2, h1, h2, h3⟩ := List.sublist_append_iff.1 s
      match l1, l2, h1 with
      | [], l2, h1 =>
        have := h3.length_le
        simp only [List.nil_append] at h1
        rw [← h1] at this; simp at this
      | [_], [_], h1 =>
        simp only [List.cons_append, List.nil_append, List.cons.injEq, and_true] at h1
        obtain ⟨rfl, rfl⟩ := h1
        have hb : b = e.act := by simpa using h3.subset (List.mem_singleton.2 rfl)
        obtain ⟨e', he', ea⟩ := List.mem_map.1 (h2.subset (List.mem_singleton.2 rfl))
        obtain ⟨hm, hg⟩ := List.mem_filter.1 he'
        obtain ⟨i, hi⟩ := List.mem_iff_getElem?.1 hm
        have hin : i < n := by
          have := (List.getElem?_eq_some_iff.1 hi).1
          simp at this; omega
        rw [List.getElem?_take, if_pos hin] at hi
        refine ⟨i, n, hin, ?_, ?_⟩
        · rw [hi, ← ea, ← eq_of_beq hg]
        · rw [he, hb, ← eg]
      | [_, _], [], h1 =>
        simp only [List.cons_append, List.nil_append, List.cons.injEq, and_true] at h1
        obtain ⟨rfl, rfl⟩ := h1
        exact ih h2 (by omega)
      | _ :: _ :: _ :: _, _, h1 => simp at h1
      | [_], _ :: _ :: _, h1 => simp at h1
      | [_, _], _ :: _, h1 => simp at h1
      | [_], [], h1 => simp at h1
    · rw [if_neg eg, List.append_nil] at s
      exact ih s (by omega)

/-- `Start` up to the loop of the unicast server. -/
def startA (u : Nat) : List (Act Field) :=
  stopActs [] [] ++ [.rd .servers, .wr .servers, .rd .port, .rd .transport, .rd (.conn u), .wr (.conn u), .rd (.conn u),
    .wr (.bound u)]

/-- `Start` from there to the loop of the multicast server. -/
def startB (u m : Nat) : List (Act Field) :=
  [.wr (.bound u), .rd .servers, .wr .servers, .wr .port, .rd .multicasts, .wr .multicasts, .rd (.conn m),
    .wr (.conn m), .wr (.bound m), .rd (.conn m)]

/-- The rest of `Start`. -/
def startC (u m : Nat) : List (Act Field) :=
  [.rd .multicasts, .wr .multicasts, .rd .multicasts, .rd .servers, .wr (.reply m), .rd .port, .wr .port, .rd .profiles]
    ++ announceActs u 0

theorem start_split (u m : Nat) :
    startActs u m = startA u ++ (.go u :: (startB u m ++ (.go m :: startC u m))) := rfl

/-- Goroutine `g` has gone through a call. -/
def HasMade (t : List (Ev Field)) (g : Nat) (c : NodeCall) : Prop :=
  c.acts.IsInfix ((t.filter (fun e => e.g == g)).map (·.act))

theorem made_pair {t : List (Ev Field)} {g : Nat} {c : NodeCall} (st : HasMade t g c) {a b : Act Field}
    (s : [a, b].Sublist c.acts) : ∃ (i j : Nat), i < j ∧ t[i]? = some ⟨g, a⟩ ∧ t[j]? = some ⟨g, b⟩ :=
  pair_at t.length (by rw [did, List.take_length]; exact s.trans st.sublist) (Nat.le_refl _)

/-- **C178 refuted.** A program has started a node, and a unicast message is handled. That is a data race: `Start`
sets what the socket is bound to while the handler may already read it. -/
theorem C178_refuted_start {sys : Nat → Goroutine} {t : List (Ev Field)} (x : Exec (fun g => (sys g).code) t)
    {s j u m h g : Nat} {msg : MsgHandler}
    (gu : g ≠ u) (gh : g ≠ h) (st : HasMade t g (.start u m)) (su : Receiver (sys u)) (sh : sys h = .handler msg)
    (na : msg.answer = false) (hh : t[s]? = some ⟨u, .go h⟩) (hj : t[j]? = some ⟨h, .rd (.bound u)⟩) :
    RaceOn t (.bound u) := by
  obtain ⟨r, i, ri, hr, hi⟩ := made_pair st (a := .go u) (b := .wr (.bound u)) (by
    rw [NodeCall.acts, start_split]
    refine List.Sublist.trans ?_ (List.sublist_append_right _ _)
    exact List.Sublist.cons_cons _ (List.singleton_sublist.2 (by simp [startB])))
  exact C178_refuted x su sh gu gh na hr hh hi ri hj (.inr rfl) (.inl rfl) (.inl rfl)

/-- **C178 refuted.** A program has started a node, and the handler of a multicast message finishes. That is a data
race: `Start` tells the multicast server where to send answers while the handler may already look. -/
theorem C178_refuted_multicast {sys : Nat → Goroutine} {t : List (Ev Field)} (x : Exec (fun g => (sys g).code) t)
    {s j u m h g : Nat} {msg : MsgHandler}
    (gm : g ≠ m) (gh : g ≠ h) (st : HasMade t g (.start u m)) (sm : Receiver (sys m)) (sh : sys h = .handler msg)
    (na : msg.answer = false) (hh : t[s]? = some ⟨m, .go h⟩) (hj : t[j]? = some ⟨h, .rd (.reply m)⟩) :
    RaceOn t (.reply m) := by
  obtain ⟨r, i, ri, hr, hi⟩ := made_pair st (a := .go m) (b := .wr (.reply m)) (by
    rw [NodeCall.acts, start_split]
    refine List.Sublist.trans ?_ ((List.sublist_append_right (startB u m) _).trans
      ((List.sublist_cons_self _ _).trans (List.sublist_append_right _ _)))
    exact List.Sublist.cons_cons _ (List.singleton_sublist.2 (by simp [startC])))
  exact C178_refuted x sm sh gm gh na hr hh hi ri hj (.inr rfl) (.inl rfl) (.inl rfl)

/-- **C178 refuted.** A program has started a node with TCP enabled, and a message over TCP is handled. That is a data
race: `Start` sets what the listener is bound to while the handler may already read it. -/
theorem C178_refuted_tcp {sys : Nat → Goroutine} {t : List (Ev Field)} (x : Exec (fun g => (sys g).code) t)
    {s j u c m h g : Nat} {msg : MsgHandler}
    (gc : g ≠ c) (gh : g ≠ h) (st : HasMade t g (.startTcp u c m)) (sc : Receiver (sys c)) (sh : sys h = .handler msg)
    (na : msg.answer = false) (hh : t[s]? = some ⟨c, .go h⟩) (hj : t[j]? = some ⟨h, .rd (.bound c)⟩) :
    RaceOn t (.bound c) := by
  obtain ⟨r, i, ri, hr, hi⟩ := made_pair st (a := .go c) (b := .wr (.bound c)) (by
    simp only [NodeCall.acts, startTcpActs, List.append_assoc]
    refine List.Sublist.trans ?_ (List.sublist_append_right _ _)
    refine List.Sublist.trans ?_ (List.sublist_append_right _ _)
    show ([Act.go c] ++ [Act.wr (.bound c)] : List (Act Field)).Sublist _
    refine List.Sublist.append ?_ ?_
    · exact List.singleton_sublist.2 (by simp)
    · exact List.singleton_sublist.2 (by simp))
  exact C178_refuted x sc sh gc gh na hr hh hi ri hj (.inr rfl) (.inl rfl) (.inl rfl)

/-- **C178 refuted.** A program closes a socket, as `Stop` does, whose loop waits for a message. That is a data race
for the connection. -/
theorem C178_refuted_stop {sys : Nat → Goroutine} {t : List (Ev Field)} (x : Exec (fun g => (sys g).code) t)
    {r i j p s g : Nat}
    (gs : g ≠ s) (ss : Receiver (sys s)) (hr : t[r]? = some ⟨p, .go s⟩) (ri : r < i)
    (hi : t[i]? = some ⟨g, .wr (.conn s)⟩) (hj : t[j]? = some ⟨s, .rd (.conn s)⟩)
    (waits : ∀ (k h : Nat), j < k → t[k]? ≠ some ⟨s, .go h⟩) : RaceOn t (.conn s) := by
  refine ⟨g, s, gs, i, j, _, _, hi, hj, .inr rfl, .inl rfl, .inl rfl, fun hb => ?_, fun hb => ?_⟩
  · have := hb_enters (H := fun k => k = s) (r := r)
      (fun k g' h hk e => by subst e; exact .inr (Nat.le_of_eq (x.once _ _ _ _ _ hk hr))) hb
      (fun k g' a _ hg hk => by
        subst hg
        have := exec_mem x hk
        exact receiver_takes ss this) ⟨g, _, hi, gs⟩ ⟨s, _, hj, rfl⟩
    omega
  · obtain ⟨c, hc⟩ := hb_stays hb (fun k a jk hk gv => by
      have mem := exec_mem x hk
      rcases receiver_acts ss mem with ⟨s', rfl | rfl⟩ | ⟨h, rfl⟩
      · simp [GivesOver] at gv
      · simp [GivesOver] at gv
      · rcases Nat.lt_or_eq_of_le jk with jk | rfl
        · exact waits k h jk hk
        · rw [hj] at hk; cases hk) ⟨_, hj⟩
    rw [hi] at hc; cases hc; exact gs rfl

/-- Calls that neither start the node or a goroutine nor post. -/
def NoHandOver : NodeCall → Prop
  | .start _ _ | .startTcp _ _ _ | .go _ | .post _ _ => False
  | _ => True

theorem noHandOver_acts {c : NodeCall} (n : NoHandOver c) {a : Act Field} (m : a ∈ c.acts) : ¬ GivesOver a := by
  cases c <;> simp [NoHandOver] at n <;>
    simp [NodeCall.acts, tidActs, announceActs, multicastActs, socketActs, sendActs, sendTcpActs,
      postTcpActs, runningActs, stopActs] at m <;>
    (rintro (⟨_, h⟩ | ⟨_, h⟩ | ⟨_, h⟩ | ⟨_, h⟩) <;> subst h <;> simp at m)

/-- **C178 refuted.** Two goroutines of the program each send, announce, or ask for a transaction number, and neither
ever posts, starts the node or starts a goroutine. As soon as both have done so, there is a data race. -/
theorem C178_refuted_sends {sys : Nat → Goroutine} {t : List (Ev Field)} (x : Exec (fun g => (sys g).code) t)
    {i j g h : Nat} {cg ch : List NodeCall} (gh : g ≠ h) (sg : sys g = .program cg) (sh : sys h = .program ch)
    (ng : ∀ c ∈ cg, NoHandOver c) (nh : ∀ c ∈ ch, NoHandOver c)
    (hi : t[i]? = some ⟨g, .wr .lastTID⟩) (hj : t[j]? = some ⟨h, .wr .lastTID⟩) : RaceBetween t g h .lastTID := by
  have q : ∀ (cs : List NodeCall), (∀ c ∈ cs, NoHandOver c) → ∀ (a : Act Field), a ∈ (Goroutine.program cs).code →
      ¬ GivesOver a := fun cs n a m => by
    obtain ⟨c, hc, ha⟩ := List.mem_flatMap.1 m
    exact noHandOver_acts (n c hc) ha
  exact race_two x gh (by simpa [sg] using q cg ng) (by simpa [sh] using q ch nh) hi hj (.inr rfl) (.inr rfl) (.inl rfl)

theorem event_of {t : List (Ev Field)} {g : Nat} {a : Act Field}
    (h : a ∈ (t.filter (fun e => e.g == g)).map (·.act)) : ∃ (i : Nat), t[i]? = some ⟨g, a⟩ := by
  obtain ⟨e, he, ea⟩ := List.mem_map.1 h
  obtain ⟨hm, hg⟩ := List.mem_filter.1 he
  obtain ⟨i, hi⟩ := List.mem_iff_getElem?.1 hm
  exact ⟨i, by rw [hi, ← ea, ← eq_of_beq hg]⟩

/-- **C178, exactly when two goroutines of the program race.** Two goroutines make calls that neither post nor start
anything, and have finished. Whatever else happened, they race for a field if and only if both use it and one of them
writes it. -/
theorem C178_pairs {sys : Nat → Goroutine} {t : List (Ev Field)} (x : Exec (fun g => (sys g).code) t)
    {g h : Nat} {cg ch : List NodeCall} (gh : g ≠ h) (sg : sys g = .program cg) (sh : sys h = .program ch)
    (ng : ∀ c ∈ cg, NoHandOver c) (nh : ∀ c ∈ ch, NoHandOver c)
    (dg : (t.filter (fun e => e.g == g)).map (·.act) = cg.flatMap NodeCall.acts)
    (dh : (t.filter (fun e => e.g == h)).map (·.act) = ch.flatMap NodeCall.acts) (l : Field) :
    RaceBetween t g h l ↔ ∃ c ∈ cg, ∃ d ∈ ch, ∃ a ∈ c.acts, ∃ b ∈ d.acts, a.Uses l ∧ b.Uses l ∧
      (a = .wr l ∨ b = .wr l) := by
  have q : ∀ (cs : List NodeCall), (∀ c ∈ cs, NoHandOver c) → ∀ (a : Act Field), a ∈ (Goroutine.program cs).code →
      ¬ GivesOver a := fun cs n a m => by
    obtain ⟨c, hc, ha⟩ := List.mem_flatMap.1 m
    exact noHandOver_acts (n c hc) ha
  constructor
  · rintro ⟨_, i, j, a, b, hi, hj, ua, ub, w, _⟩
    have ma := exec_mem x hi
    have mb := exec_mem x hj
    simp only [sg, sh, Goroutine.code] at ma mb
    obtain ⟨c, hc, ha⟩ := List.mem_flatMap.1 ma
    obtain ⟨d, hd, hb⟩ := List.mem_flatMap.1 mb
    exact ⟨c, hc, d, hd, a, ha, b, hb, ua, ub, w⟩
  · rintro ⟨c, hc, d, hd, a, ha, b, hb, ua, ub, w⟩
    obtain ⟨i, hi⟩ := event_of (dg ▸ List.mem_flatMap.2 ⟨c, hc, ha⟩)
    obtain ⟨j, hj⟩ := event_of (dh ▸ List.mem_flatMap.2 ⟨d, hd, hb⟩)
    exact race_two x gh (by simpa [sg] using q cg ng) (by simpa [sh] using q ch nh) hi hj ua ub w

/-- **C178 refuted.** Two messages make nodes known to a controller. As soon as both are stored, there is a data race
for the list of nodes. -/
theorem C178_refuted_found {sys : Nat → Goroutine} {t : List (Ev Field)} (x : Exec (fun g => (sys g).code) t)
    {i j g h : Nat} {mg mh : MsgHandler} (gh : g ≠ h) (sg : sys g = .handler mg) (sh : sys h = .handler mh)
    (ng : mg.answer = false) (nh : mh.answer = false)
    (hi : t[i]? = some ⟨g, .wr .found⟩) (hj : t[j]? = some ⟨h, .wr .found⟩) : RaceBetween t g h .found :=
  race_two x gh (fun a m => (handler_quiet ng (by simpa [sg, Goroutine.code] using m)).2)
    (fun a m => (handler_quiet nh (by simpa [sh, Goroutine.code] using m)).2) hi hj (.inr rfl) (.inr rfl) (.inl rfl)

/-! ## What holds -/

/-- Calls that set up the node, made before it is started. -/
def SetsUp : NodeCall → Prop
  | .start _ _ | .startTcp _ _ _ | .go _ => False
  | _ => True

/-- Calls that change nothing a handler looks at: no settings, devices, data or listener, no posts and no `Stop`. -/
def Harmless : NodeCall → Prop
  | .setConfig | .setListener | .setManufacturer | .addDevice | .setData _ | .post _ _ | .clear | .go _ | .stop _ _
  | .start _ _ | .startTcp _ _ _ => False
  | _ => True

/-- A message that came over unicast socket `u`, and is answered over it if it is, and makes no node known. -/
def Unicast (u : Nat) (msg : MsgHandler) : Prop :=
  msg.sock = u ∧ msg.multi = false ∧ msg.adds = false ∧ (msg.reply = none ∨ msg.reply = some u)

/-- A message that came over multicast socket `m`, and is answered over unicast socket `u` if it is. -/
def Multicast (u m : Nat) (msg : MsgHandler) : Prop :=
  msg.sock = m ∧ msg.multi = true ∧ msg.adds = false ∧ (msg.reply = none ∨ msg.reply = some u)

/-- The system: goroutine 0 sets up a node, starts it, and makes harmless calls. The loops `u` and `m` receive, and
start a handler for each message. -/
structure Serves (sys : Nat → Goroutine) (setup later : List NodeCall) (u m : Nat) (us ms : List Nat) : Prop where
  main : sys 0 = .program (setup ++ .start u m :: later)
  before : ∀ c ∈ setup, SetsUp c
  after : ∀ c ∈ later, Harmless c
  apart : u ≠ m
  unicast : sys u = .loop u us false
  multicast : sys m = .loop m ms false
  unicasts : ∀ h ∈ us, ∃ (msg : MsgHandler), sys h = .handler msg ∧ Unicast u msg
  multicasts : ∀ h ∈ ms, ∃ (msg : MsgHandler), sys h = .handler msg ∧ Multicast u m msg
  others : ∀ (g : Nat), g ≠ 0 → g ≠ u → g ≠ m → g ∉ us → g ∉ ms → sys g = .program []

theorem setsUp_acts {c : NodeCall} (n : SetsUp c) (g : Nat) : Act.go g ∉ c.acts := by
  cases c <;> simp [SetsUp] at n <;>
    simp [NodeCall.acts, tidActs, announceActs, multicastActs, socketActs, sendActs, sendTcpActs,
      postTcpActs, runningActs, stopActs, postActs]

theorem harmless_go {c : NodeCall} (n : Harmless c) (g : Nat) : Act.go g ∉ c.acts := by
  cases c <;> simp [Harmless] at n <;>
    simp [NodeCall.acts, tidActs, announceActs, multicastActs, socketActs, sendActs, sendTcpActs, postTcpActs, runningActs]

theorem harmless_acts {c : NodeCall} (n : Harmless c) {l : Field} (m : Act.wr l ∈ c.acts) : l = .lastTID := by
  cases c <;> simp [Harmless] at n <;>
    simp [NodeCall.acts, tidActs, announceActs, multicastActs, socketActs, sendActs, sendTcpActs,
      postTcpActs, runningActs] at m <;> exact m

/-- What a goroutine is, if it does anything. -/
theorem serves_kind {sys : Nat → Goroutine} {setup later : List NodeCall} {u m : Nat} {us ms : List Nat}
    (v : Serves sys setup later u m us ms) {g : Nat} (g0 : g ≠ 0) {a : Act Field} (ha : a ∈ (sys g).code) :
    g = u ∨ g = m ∨ (g ∈ us ∧ ∃ (msg : MsgHandler), sys g = .handler msg ∧ Unicast u msg) ∨
      (g ∈ ms ∧ ∃ (msg : MsgHandler), sys g = .handler msg ∧ Multicast u m msg) := by
  by_cases h1 : g = u
  · exact .inl h1
  by_cases h2 : g = m
  · exact .inr (.inl h2)
  by_cases h3 : g ∈ us
  · exact .inr (.inr (.inl ⟨h3, v.unicasts g h3⟩))
  by_cases h4 : g ∈ ms
  · exact .inr (.inr (.inr ⟨h4, v.multicasts g h4⟩))
  rw [v.others g g0 h1 h2 h3 h4] at ha
  simp [Goroutine.code] at ha

theorem serves_code {sys : Nat → Goroutine} {setup later : List NodeCall} {u m : Nat} {us ms : List Nat}
    (v : Serves sys setup later u m us ms) : (sys 0).code = setup.flatMap NodeCall.acts ++
      (startA u ++ (.go u :: (startB u m ++ (.go m :: (startC u m ++ later.flatMap NodeCall.acts))))) := by
  rw [v.main]
  simp only [Goroutine.code, List.flatMap_append, List.flatMap_cons]
  congr 1

theorem setup_go {setup : List NodeCall} (ns : ∀ c ∈ setup, SetsUp c) (g : Nat) :
    Act.go g ∉ setup.flatMap NodeCall.acts := fun h => by
  obtain ⟨c, hc, ha⟩ := List.mem_flatMap.1 h
  exact setsUp_acts (ns c hc) g ha

theorem serves_go {sys : Nat → Goroutine} {setup later : List NodeCall} {u m : Nat} {us ms : List Nat}
    (v : Serves sys setup later u m us ms) {h : Nat} (hm : Act.go h ∈ (sys 0).code) : h = u ∨ h = m := by
  rw [serves_code v] at hm
  have n1 := setup_go v.before h
  have n2 : Act.go h ∉ later.flatMap NodeCall.acts := fun h' => by
    obtain ⟨c, hc, ha⟩ := List.mem_flatMap.1 h'
    exact harmless_go (v.after c hc) h ha
  simp [n1, n2, startA, startB, startC, stopActs, announceActs, multicastActs, socketActs, runningActs, tidActs] at hm
  exact hm

/-- The socket from which a goroutine gets its messages. -/
def From (sys : Nat → Goroutine) (h s : Nat) : Prop :=
  (∃ (hs : List Nat), sys h = .loop s hs false) ∨ ∃ (msg : MsgHandler), sys h = .handler msg ∧ msg.sock = s

/-- What a loop or a handler does comes after the start of the loop. -/
theorem serves_after {sys : Nat → Goroutine} {setup later : List NodeCall} {u m : Nat} {us ms : List Nat}
    (v : Serves sys setup later u m us ms) {t : List (Ev Field)} (x : Exec (fun g => (sys g).code) t) (j : Nat) :
    ∀ (h s : Nat) (b : Act Field), t[j]? = some ⟨h, b⟩ → h ≠ 0 → From sys h s →
      ∃ (k : Nat), t[k]? = some ⟨0, .go s⟩ ∧ HB t k j := by
  induction j using Nat.strongRecOn with
  | ind j ih =>
    intro h s b hj h0 fr
    obtain ⟨i, g, ij, hi⟩ := x.started j h b hj h0
    have hm := exec_mem x hi
    by_cases g0 : g = 0
    · subst g0
      have hs : h = s := by
        rcases serves_go v hm with rfl | rfl
        · rcases fr with ⟨hs, h'⟩ | ⟨msg, h', _⟩
          · rw [v.unicast] at h'; cases h'; rfl
          · rw [v.unicast] at h'; cases h'
        · rcases fr with ⟨hs, h'⟩ | ⟨msg, h', _⟩
          · rw [v.multicast] at h'; cases h'; rfl
          · rw [v.multicast] at h'; cases h'
      subst hs
      exact ⟨i, hi, .edge (.go 0 h b ij hi hj)⟩
    · have nh : ∀ (msg : MsgHandler), sys g ≠ .handler msg := fun msg e => by
        simp only [e, Goroutine.code] at hm
        rcases handler_acts hm with ⟨_, h'⟩ | ⟨_, h'⟩ | ⟨_, h' | h'⟩ <;> cases h'
      have done : ∀ (s' : Nat) (hs : List Nat), sys g = .loop s' hs false → (h ∈ hs → s' = s) →
          ∃ (k : Nat), t[k]? = some ⟨0, .go s⟩ ∧ HB t k j := fun s' hs e c => by
        have hh : h ∈ hs := by
          simp only [e, Goroutine.code] at hm
          simpa using hm
        obtain ⟨k, hk, hb⟩ := ih i ij g s' _ hi g0 (.inl ⟨hs, e⟩)
        rw [c hh] at hk
        exact ⟨k, hk, .trans hb (.go g h b ij hi hj)⟩
      rcases serves_kind v g0 hm with rfl | rfl | ⟨_, msg, e, _⟩ | ⟨_, msg, e, _⟩
      · refine done _ _ v.unicast (fun hh => ?_)
        obtain ⟨msg, e, un⟩ := v.unicasts h hh
        rcases fr with ⟨hs, h'⟩ | ⟨msg', h', so⟩
        · rw [e] at h'; cases h'
        · rw [e] at h'; cases h'; rw [← so, un.1]
      · refine done _ _ v.multicast (fun hh => ?_)
        obtain ⟨msg, e, un⟩ := v.multicasts h hh
        rcases fr with ⟨hs, h'⟩ | ⟨msg', h', so⟩
        · rw [e] at h'; cases h'
        · rw [e] at h'; cases h'; rw [← so, un.1]
      · exact absurd e (nh msg)
      · exact absurd e (nh msg)

theorem loop_reads {s : Nat} {hs : List Nat} {l : Field} {a : Act Field} (ha : a ∈ (Goroutine.loop s hs false).code)
    (ua : a.Uses l) : a = .rd l ∧ l = .conn s := by
  rcases loop_acts ha with rfl | ⟨k, rfl⟩ | ⟨h', _⟩
  · rcases ua with h' | h' <;> cases h'; exact ⟨rfl, rfl⟩
  · rcases ua with h' | h' <;> cases h'
  · cases h'

theorem handler_uses {msg : MsgHandler} {u : Nat} (na : msg.adds = false) (re : msg.reply = none ∨ msg.reply = some u)
    {l : Field} {a : Act Field} (ha : a ∈ msg.acts) (ua : a.Uses l) : a = .rd l ∧ (l = .bound msg.sock ∨ l = .config ∨
      l = .postReq ∨ l = .postCh ∨ l = .devices ∨ l = .profiles ∨ l = .listener ∨ (∃ (k : Nat), l = .data k) ∨
      (msg.multi = true ∧ l = .reply msg.sock) ∨ l = .conn u ∨ l = .bound u) := by
  obtain ⟨so, mu, an, ad, ps, re'⟩ := msg
  simp only at na re
  subst na
  have ar : a = .rd l := by
    rcases handler_acts ha with ⟨l', rfl⟩ | ⟨h', _⟩ | ⟨_, rfl | rfl⟩
    · rcases ua with h' | h' <;> cases h'; rfl
    · cases h'
    · rcases ua with h' | h' <;> cases h'
    · rcases ua with h' | h' <;> cases h'
  subst ar
  refine ⟨rfl, ?_⟩
  rcases re with rfl | rfl <;> cases mu <;> cases an <;>
    simp [MsgHandler.acts, MsgHandler.receives, socketActs] at ha ⊢ <;> grind

/-- **C178, the part that holds for one goroutine.** The program sets up a node, starts it, and then only sends,
announces, searches and reads, all in one goroutine, however many messages are handled meanwhile. Then the only data
races are the two of `Start` itself, with the handler of a unicast and of a multicast message. Missing: that there
are none, which is refuted. -/
theorem C178_partial {sys : Nat → Goroutine} {setup later : List NodeCall} {u m : Nat} {us ms : List Nat}
    (v : Serves sys setup later u m us ms) {t : List (Ev Field)} (x : Exec (fun g => (sys g).code) t) {l : Field}
    (race : RaceOn t l) : (l = .bound u ∧ ∃ (j : Nat), ∃ h ∈ us, t[j]? = some ⟨h, .rd l⟩) ∨
      (l = .reply m ∧ ∃ (j : Nat), ∃ h ∈ ms, t[j]? = some ⟨h, .rd l⟩) := by
  have reads : ∀ (h : Nat) (b : Act Field), h ≠ 0 → b ∈ (sys h).code → b.Uses l → b = .rd l ∧
      ((From sys h u ∧ (l = .conn u ∨ (h ∈ us ∧ l ≠ .servers ∧ l ≠ .multicasts ∧ l ≠ .port ∧ l ≠ .lastTID ∧
          l ≠ .reply m ∧ l ≠ .conn m ∧ l ≠ .bound m))) ∨
       (From sys h m ∧ (l = .conn m ∨ (h ∈ ms ∧ l ≠ .multicasts ∧ l ≠ .port ∧ l ≠ .lastTID)))) := by
    intro h b h0 hb ub
    have um := v.apart
    rcases serves_kind v h0 hb with rfl | rfl | ⟨hm, msg, e, w1, w2, w3, w4⟩ | ⟨hm, msg, e, w1, w2, w3, w4⟩
    · rw [v.unicast] at hb
      have := loop_reads hb ub
      exact ⟨this.1, .inl ⟨.inl ⟨us, v.unicast⟩, .inl this.2⟩⟩
    · rw [v.multicast] at hb
      have := loop_reads hb ub
      exact ⟨this.1, .inr ⟨.inl ⟨ms, v.multicast⟩, .inl this.2⟩⟩
    · simp only [e, Goroutine.code] at hb
      obtain ⟨h1, h2⟩ := handler_uses w3 w4 hb ub
      rw [w1, w2] at h2
      refine ⟨h1, .inl ⟨.inr ⟨msg, e, w1⟩, .inr ⟨hm, ?_⟩⟩⟩
      rcases h2 with h2 | h2 | h2 | h2 | h2 | h2 | h2 | ⟨k, h2⟩ | ⟨h2, _⟩ | h2 | h2 <;> cases h2 <;> simp [um]
    · simp only [e, Goroutine.code] at hb
      obtain ⟨h1, h2⟩ := handler_uses w3 w4 hb ub
      refine ⟨h1, .inr ⟨.inr ⟨msg, e, w1⟩, .inr ⟨hm, ?_⟩⟩⟩
      rcases h2 with h2 | h2 | h2 | h2 | h2 | h2 | h2 | ⟨k, h2⟩ | ⟨_, h2⟩ | h2 | h2 <;> subst h2 <;> simp
  have lastly : ∀ (l : Field), Act.wr l ∈ later.flatMap NodeCall.acts → l = .lastTID := fun l h => by
    obtain ⟨c, hc, ha⟩ := List.mem_flatMap.1 h
    exact harmless_acts (v.after c hc) ha
  have main : ∀ (i j h : Nat) (b : Act Field), h ≠ 0 → t[i]? = some ⟨0, .wr l⟩ → t[j]? = some ⟨h, b⟩ → b.Uses l →
      ¬ HB t i j → (l = .bound u ∧ ∃ (j : Nat), ∃ h ∈ us, t[j]? = some ⟨h, .rd l⟩) ∨
      (l = .reply m ∧ ∃ (j : Nat), ∃ h ∈ ms, t[j]? = some ⟨h, .rd l⟩) := by
    intro i j h b h0 hi hj ub nb
    have um := v.apart
    have early : ∀ (s : Nat), From sys h s → [Act.go s, .wr l].Sublist (sys 0).code := fun s fr => by
      obtain ⟨k, hk, hb⟩ := serves_after v x j h s b hj h0 fr
      rcases Nat.lt_trichotomy k i with ki | ki | ki
      · exact exec_pair x ki hk hi
      · subst ki; rw [hk] at hi; cases hi
      · exact absurd (HB.join (.edge (.order 0 _ _ ki hi hk)) hb) nb
    obtain ⟨rfl, ⟨fr, h'⟩ | ⟨fr, h'⟩⟩ := reads h b h0 (exec_mem x hj) ub
    · have sl := early u fr
      rw [serves_code v, ← List.append_assoc] at sl
      have w := pair_right sl (by simp [setup_go v.before, startA, stopActs])
      simp only [List.mem_cons, List.mem_append] at w
      rcases w with w | w | w | w | w
      · cases w
      · rcases h' with h' | ⟨hm, n1, n2, n3, n4, n5, n6, n7⟩
        · subst h'; simp [startB, um] at w
        · simp [startB, n1, n2, n3, n6, n7] at w
          exact .inl ⟨w, j, h, hm, hj⟩
      · cases w
      · rcases h' with h' | ⟨hm, n1, n2, n3, n4, n5, n6, n7⟩
        · subst h'; simp [startC, announceActs, multicastActs, socketActs, runningActs, tidActs] at w
        · simp [startC, announceActs, multicastActs, socketActs, runningActs, tidActs, n2, n3, n4, n5] at w
      · have := lastly l w
        subst this
        rcases h' with h' | h'
        · cases h'
        · exact absurd rfl h'.2.2.2.2.1
    · have sl := early m fr
      have e : (sys 0).code = (setup.flatMap NodeCall.acts ++ startA u ++ (.go u :: startB u m)) ++
          (.go m :: (startC u m ++ later.flatMap NodeCall.acts)) := by
        rw [serves_code v]; simp [List.append_assoc]
      rw [e] at sl
      have w := pair_right sl (by simp [setup_go v.before, startA, startB, stopActs, Ne.symm um])
      simp only [List.mem_cons, List.mem_append] at w
      rcases w with w | w | w
      · cases w
      · rcases h' with h' | ⟨hm, n1, n2, n3⟩
        · subst h'; simp [startC, announceActs, multicastActs, socketActs, runningActs, tidActs] at w
        · simp [startC, announceActs, multicastActs, socketActs, runningActs, tidActs, n1, n2, n3] at w
          exact .inr ⟨w, j, h, hm, hj⟩
      · have := lastly l w
        subst this
        rcases h' with h' | h'
        · cases h'
        · exact absurd rfl h'.2.2.2
  have writer : ∀ (g i : Nat), t[i]? = some ⟨g, .wr l⟩ → g = 0 := fun g i hi => Classical.byContradiction fun g0 => by
    have := (reads g _ g0 (exec_mem x hi) (.inr rfl)).1
    cases this
  obtain ⟨g, h, gh, i, j, a, b, hi, hj, ua, ub, w, n1, n2⟩ := race
  rcases w with rfl | rfl
  · have := writer g i hi
    subst this
    exact main i j h b (fun e => gh e.symm) hi hj ub n1
  · have := writer h j hj
    subst this
    exact main j i g a gh hj hi ua n2

/-! ## The same with TCP -/

/-- The socket from which a goroutine gets its messages. -/
def sockOf : Goroutine → Option Nat
  | .loop s _ _ | .accepts s _ => some s
  | .handler msg => some msg.sock
  | _ => none

/-- What the loop or a handler of a socket does comes after the start of the loop. -/
theorem after_loop {sys : Nat → Goroutine} {t : List (Ev Field)} (x : Exec (fun g => (sys g).code) t)
    (first : ∀ (h s : Nat), Act.go h ∈ (sys 0).code → sockOf (sys h) = some s → h = s)
    (next : ∀ (g h s : Nat), g ≠ 0 → Act.go h ∈ (sys g).code → sockOf (sys h) = some s → sockOf (sys g) = some s)
    (j : Nat) : ∀ (h s : Nat) (b : Act Field), t[j]? = some ⟨h, b⟩ → h ≠ 0 → sockOf (sys h) = some s →
      ∃ (k : Nat), t[k]? = some ⟨0, .go s⟩ ∧ HB t k j := by
  induction j using Nat.strongRecOn with
  | ind j ih =>
    intro h s b hj h0 fr
    obtain ⟨i, g, ij, hi⟩ := x.started j h b hj h0
    have hm := exec_mem x hi
    by_cases g0 : g = 0
    · subst g0
      have := first h s hm fr
      subst this
      exact ⟨i, hi, .edge (.go 0 h b ij hi hj)⟩
    · obtain ⟨k, hk, hb⟩ := ih i ij g s _ hi g0 (next g h s g0 hm fr)
      exact ⟨k, hk, .trans hb (.go g h b ij hi hj)⟩

/-- A message that came over TCP, and makes no node known. -/
def OverTcp (c : Nat) (msg : MsgHandler) : Prop :=
  msg.sock = c ∧ msg.multi = false ∧ msg.adds = false ∧ msg.reply = none

/-- The system: as `Serves`, with TCP enabled. -/
structure ServesTcp (sys : Nat → Goroutine) (setup later : List NodeCall) (u c m : Nat) (us cs ms : List Nat) :
    Prop where
  main : sys 0 = .program (setup ++ .startTcp u c m :: later)
  before : ∀ d ∈ setup, SetsUp d
  after : ∀ d ∈ later, Harmless d
  uc : u ≠ c
  um : u ≠ m
  cm : c ≠ m
  unicast : sys u = .loop u us false
  tcp : sys c = .accepts c cs
  multicast : sys m = .loop m ms false
  unicasts : ∀ h ∈ us, ∃ (msg : MsgHandler), sys h = .handler msg ∧ Unicast u msg
  tcps : ∀ h ∈ cs, ∃ (msg : MsgHandler), sys h = .handler msg ∧ OverTcp c msg
  multicasts : ∀ h ∈ ms, ∃ (msg : MsgHandler), sys h = .handler msg ∧ Multicast u m msg
  others : ∀ (g : Nat), g ≠ 0 → g ≠ u → g ≠ c → g ≠ m → g ∉ us → g ∉ cs → g ∉ ms → sys g = .program []

/-- `Start` from the loop of the unicast server to the listener. -/
def startTcpB (c : Nat) : List (Act Field) := [.rd (.conn c), .wr (.conn c), .rd (.conn c), .wr (.bound c)]

/-- `Start` from the listener to the loop of the multicast server. -/
def startTcpC (u c m : Nat) : List (Act Field) := .wr (.bound c) :: startB u m

theorem tcp_code {sys : Nat → Goroutine} {setup later : List NodeCall} {u c m : Nat} {us cs ms : List Nat}
    (v : ServesTcp sys setup later u c m us cs ms) : (sys 0).code = setup.flatMap NodeCall.acts ++
      (startA u ++ (.go u :: (startTcpB c ++ (.go c :: (startTcpC u c m ++ (.go m :: (startC u m ++
        later.flatMap NodeCall.acts))))))) := by
  rw [v.main]
  simp only [Goroutine.code, List.flatMap_append, List.flatMap_cons]
  congr 1

theorem tcp_go {sys : Nat → Goroutine} {setup later : List NodeCall} {u c m : Nat} {us cs ms : List Nat}
    (v : ServesTcp sys setup later u c m us cs ms) {h : Nat} (hm : Act.go h ∈ (sys 0).code) :
    h = u ∨ h = c ∨ h = m := by
  rw [tcp_code v] at hm
  have n1 := setup_go v.before h
  have n2 : Act.go h ∉ later.flatMap NodeCall.acts := fun h' => by
    obtain ⟨d, hd, ha⟩ := List.mem_flatMap.1 h'
    exact harmless_go (v.after d hd) h ha
  simp [n1, n2, startA, startB, startTcpB, startTcpC, startC, stopActs, announceActs, multicastActs, socketActs,
    runningActs, tidActs] at hm
  exact hm

/-- What a goroutine is, if it does anything. -/
theorem tcp_kind {sys : Nat → Goroutine} {setup later : List NodeCall} {u c m : Nat} {us cs ms : List Nat}
    (v : ServesTcp sys setup later u c m us cs ms) {g : Nat} (g0 : g ≠ 0) {a : Act Field} (ha : a ∈ (sys g).code) :
    g = u ∨ g = c ∨ g = m ∨ (g ∈ us ∧ ∃ (msg : MsgHandler), sys g = .handler msg ∧ Unicast u msg) ∨
      (g ∈ cs ∧ ∃ (msg : MsgHandler), sys g = .handler msg ∧ OverTcp c msg) ∨
      (g ∈ ms ∧ ∃ (msg : MsgHandler), sys g = .handler msg ∧ Multicast u m msg) := by
  by_cases h1 : g = u
  · exact .inl h1
  by_cases h2 : g = c
  · exact .inr (.inl h2)
  by_cases h3 : g = m
  · exact .inr (.inr (.inl h3))
  by_cases h4 : g ∈ us
  · exact .inr (.inr (.inr (.inl ⟨h4, v.unicasts g h4⟩)))
  by_cases h5 : g ∈ cs
  · exact .inr (.inr (.inr (.inr (.inl ⟨h5, v.tcps g h5⟩))))
  by_cases h6 : g ∈ ms
  · exact .inr (.inr (.inr (.inr (.inr ⟨h6, v.multicasts g h6⟩))))
  rw [v.others g g0 h1 h2 h3 h4 h5 h6] at ha
  simp [Goroutine.code] at ha

theorem handler_go {msg : MsgHandler} {h : Nat} (m : Act.go h ∈ msg.acts) : False := by
  rcases handler_acts m with ⟨_, h'⟩ | ⟨_, h'⟩ | ⟨_, h' | h'⟩ <;> cases h'

theorem tcp_after {sys : Nat → Goroutine} {setup later : List NodeCall} {u c m : Nat} {us cs ms : List Nat}
    (v : ServesTcp sys setup later u c m us cs ms) {t : List (Ev Field)} (x : Exec (fun g => (sys g).code) t)
    {j h s : Nat} {b : Act Field} (hj : t[j]? = some ⟨h, b⟩) (h0 : h ≠ 0) (so : sockOf (sys h) = some s) :
    ∃ (k : Nat), t[k]? = some ⟨0, .go s⟩ ∧ HB t k j := by
  refine after_loop x (fun h s hm so => ?_) (fun g h s g0 hm so => ?_) j h s b hj h0 so
  · rcases tcp_go v hm with rfl | rfl | rfl
    · rw [v.unicast] at so; exact Option.some.inj so
    · rw [v.tcp] at so; exact Option.some.inj so
    · rw [v.multicast] at so; exact Option.some.inj so
  · rcases tcp_kind v g0 hm with rfl | rfl | rfl | ⟨_, msg, e, _⟩ | ⟨_, msg, e, _⟩ | ⟨_, msg, e, _⟩
    · have hh : h ∈ us := by simpa [v.unicast, Goroutine.code] using hm
      obtain ⟨msg, e, un⟩ := v.unicasts h hh
      rw [e, sockOf, un.1] at so
      rw [v.unicast, sockOf, so]
    · have hh : h ∈ cs := by simpa [v.tcp, Goroutine.code] using hm
      obtain ⟨msg, e, un⟩ := v.tcps h hh
      rw [e, sockOf, un.1] at so
      rw [v.tcp, sockOf, so]
    · have hh : h ∈ ms := by simpa [v.multicast, Goroutine.code] using hm
      obtain ⟨msg, e, un⟩ := v.multicasts h hh
      rw [e, sockOf, un.1] at so
      rw [v.multicast, sockOf, so]
    · rw [e] at hm; exact (handler_go hm).elim
    · rw [e] at hm; exact (handler_go hm).elim
    · rw [e] at hm; exact (handler_go hm).elim

/-- The fields every handler may read. -/
def Common : Field → Prop
  | .config | .postReq | .postCh | .devices | .profiles | .listener | .data _ => True
  | _ => False

/-- **C178, the part that holds for one goroutine with TCP.** The program sets up a node with TCP enabled, starts it,
and then only sends, announces, searches and reads, and posts over TCP, all in one goroutine. Then the only data races
are those of `Start` itself, with the handler of a unicast message over UDP or over TCP, and of a multicast message.
Missing: that there are none, which is refuted. -/
theorem C178_tcp_partial {sys : Nat → Goroutine} {setup later : List NodeCall} {u c m : Nat} {us cs ms : List Nat}
    (v : ServesTcp sys setup later u c m us cs ms) {t : List (Ev Field)} (x : Exec (fun g => (sys g).code) t) {l : Field}
    (race : RaceOn t l) : (l = .bound u ∧ ∃ (j : Nat), ∃ h ∈ us, t[j]? = some ⟨h, .rd l⟩) ∨
      (l = .bound c ∧ ∃ (j : Nat), ∃ h ∈ cs, t[j]? = some ⟨h, .rd l⟩) ∨
      (l = .reply m ∧ ∃ (j : Nat), ∃ h ∈ ms, t[j]? = some ⟨h, .rd l⟩) := by
  have uc := v.uc
  have um := v.um
  have cm := v.cm
  have reads : ∀ (h : Nat) (b : Act Field), h ≠ 0 → b ∈ (sys h).code → b.Uses l → b = .rd l ∧
      ((sockOf (sys h) = some u ∧ (l = .conn u ∨ Common l ∨ (h ∈ us ∧ l = .bound u))) ∨
       (sockOf (sys h) = some c ∧ (l = .conn c ∨ Common l ∨ (h ∈ cs ∧ l = .bound c))) ∨
       (sockOf (sys h) = some m ∧ (l = .conn m ∨ Common l ∨ l = .conn u ∨ l = .bound u ∨ l = .bound m ∨
         (h ∈ ms ∧ l = .reply m)))) := by
    intro h b h0 hb ub
    rcases tcp_kind v h0 hb with rfl | rfl | rfl | ⟨hm, msg, e, w1, w2, w3, w4⟩ | ⟨hm, msg, e, w1, w2, w3, w4⟩ |
      ⟨hm, msg, e, w1, w2, w3, w4⟩
    · rw [v.unicast] at hb
      have := loop_reads hb ub
      exact ⟨this.1, .inl ⟨by rw [v.unicast]; rfl, .inl this.2⟩⟩
    · rw [v.tcp] at hb
      have : b = .rd (.conn h) ∨ ∃ (k : Nat), b = .go k := by simp [Goroutine.code] at hb; grind
      rcases this with rfl | ⟨k, rfl⟩
      · rcases ub with h' | h' <;> cases h'
        exact ⟨rfl, .inr (.inl ⟨by rw [v.tcp]; rfl, .inl rfl⟩)⟩
      · rcases ub with h' | h' <;> cases h'
    · rw [v.multicast] at hb
      have := loop_reads hb ub
      exact ⟨this.1, .inr (.inr ⟨by rw [v.multicast]; rfl, .inl this.2⟩)⟩
    · simp only [e, Goroutine.code] at hb
      obtain ⟨h1, h2⟩ := handler_uses w3 w4 hb ub
      rw [w1, w2] at h2
      refine ⟨h1, .inl ⟨by rw [e, sockOf, w1], ?_⟩⟩
      rcases h2 with h2 | h2 | h2 | h2 | h2 | h2 | h2 | ⟨k, h2⟩ | ⟨h2, _⟩ | h2 | h2 <;> cases h2 <;> simp [Common, hm]
    · simp only [e, Goroutine.code] at hb
      obtain ⟨h1, h2⟩ := handler_uses (u := c) w3 (.inl w4) hb ub
      rw [w1, w2] at h2
      refine ⟨h1, .inr (.inl ⟨by rw [e, sockOf, w1], ?_⟩)⟩
      rcases h2 with h2 | h2 | h2 | h2 | h2 | h2 | h2 | ⟨k, h2⟩ | ⟨h2, _⟩ | h2 | h2 <;> cases h2 <;> simp [Common, hm]
    · simp only [e, Goroutine.code] at hb
      obtain ⟨h1, h2⟩ := handler_uses w3 w4 hb ub
      rw [w1] at h2
      refine ⟨h1, .inr (.inr ⟨by rw [e, sockOf, w1], ?_⟩)⟩
      rcases h2 with h2 | h2 | h2 | h2 | h2 | h2 | h2 | ⟨k, h2⟩ | ⟨_, h2⟩ | h2 | h2 <;> subst h2 <;> simp [Common, hm]
  have lastly : ∀ (l : Field), Act.wr l ∈ later.flatMap NodeCall.acts → l = .lastTID := fun l h => by
    obtain ⟨d, hd, ha⟩ := List.mem_flatMap.1 h
    exact harmless_acts (v.after d hd) ha
  have main : ∀ (i j h : Nat) (b : Act Field), h ≠ 0 → t[i]? = some ⟨0, .wr l⟩ → t[j]? = some ⟨h, b⟩ → b.Uses l →
      ¬ HB t i j → (l = .bound u ∧ ∃ (j : Nat), ∃ h ∈ us, t[j]? = some ⟨h, .rd l⟩) ∨
      (l = .bound c ∧ ∃ (j : Nat), ∃ h ∈ cs, t[j]? = some ⟨h, .rd l⟩) ∨
      (l = .reply m ∧ ∃ (j : Nat), ∃ h ∈ ms, t[j]? = some ⟨h, .rd l⟩) := by
    intro i j h b h0 hi hj ub nb
    have early : ∀ (s : Nat), sockOf (sys h) = some s → [Act.go s, .wr l].Sublist (sys 0).code := fun s fr => by
      obtain ⟨k, hk, hb⟩ := tcp_after v x hj h0 fr
      rcases Nat.lt_trichotomy k i with ki | ki | ki
      · exact exec_pair x ki hk hi
      · subst ki; rw [hk] at hi; cases hi
      · exact absurd (HB.join (.edge (.order 0 _ _ ki hi hk)) hb) nb
    obtain ⟨rfl, h'⟩ := reads h b h0 (exec_mem x hj) ub
    rcases h' with ⟨so, h'⟩ | ⟨so, h'⟩ | ⟨so, h'⟩
    · have sl := early u so
      rw [tcp_code v, ← List.append_assoc] at sl
      have w := pair_right sl (by simp [setup_go v.before, startA, stopActs])
      simp only [List.mem_cons, List.mem_append] at w
      rcases h' with rfl | h' | ⟨hm, rfl⟩
      · have := lastly (.conn u)
        simp [startTcpB, startTcpC, startB, startC, announceActs, multicastActs, socketActs, runningActs, tidActs, uc,
          um] at w this
        exact absurd w (by simpa using this)
      · have := lastly l
        cases l <;> simp [Common] at h' <;>
          simp [startTcpB, startTcpC, startB, startC, announceActs, multicastActs, socketActs, runningActs, tidActs]
            at w this <;> exact absurd w (by simpa using this)
      · exact .inl ⟨rfl, j, h, hm, hj⟩
    · have sl := early c so
      have e : (sys 0).code = (setup.flatMap NodeCall.acts ++ startA u ++ (.go u :: startTcpB c)) ++
          (.go c :: (startTcpC u c m ++ (.go m :: (startC u m ++ later.flatMap NodeCall.acts)))) := by
        rw [tcp_code v]; simp [List.append_assoc]
      rw [e] at sl
      have w := pair_right sl (by simp [setup_go v.before, startA, startTcpB, stopActs, Ne.symm uc])
      simp only [List.mem_cons, List.mem_append] at w
      rcases h' with rfl | h' | ⟨hm, rfl⟩
      · have := lastly (.conn c)
        simp [startTcpC, startB, startC, announceActs, multicastActs, socketActs, runningActs, tidActs, cm] at w this
        exact absurd w (by simpa using this)
      · have := lastly l
        cases l <;> simp [Common] at h' <;>
          simp [startTcpC, startB, startC, announceActs, multicastActs, socketActs, runningActs, tidActs]
            at w this <;> exact absurd w (by simpa using this)
      · exact .inr (.inl ⟨rfl, j, h, hm, hj⟩)
    · have sl := early m so
      have e : (sys 0).code = (setup.flatMap NodeCall.acts ++ startA u ++ (.go u :: startTcpB c) ++
          (.go c :: startTcpC u c m)) ++ (.go m :: (startC u m ++ later.flatMap NodeCall.acts)) := by
        rw [tcp_code v]; simp [List.append_assoc]
      rw [e] at sl
      have w := pair_right sl
        (by simp [setup_go v.before, startA, startTcpB, startTcpC, startB, stopActs, Ne.symm um, Ne.symm cm])
      simp only [List.mem_cons, List.mem_append] at w
      have := lastly l
      by_cases hr : l = .reply m
      · rcases h' with h' | h' | h' | h' | h' | ⟨hm, _⟩
        · rw [hr] at h'; cases h'
        · rw [hr] at h'; exact h'.elim
        · rw [hr] at h'; cases h'
        · rw [hr] at h'; cases h'
        · rw [hr] at h'; cases h'
        · exact .inr (.inr ⟨hr, j, h, hm, hj⟩)
      · have w' : l = .multicasts ∨ l = .port ∨ l = .lastTID := by
          simp [startC, announceActs, multicastActs, socketActs, runningActs, tidActs, hr] at w
          grind
        rcases h' with h' | h' | h' | h' | h' | ⟨_, h'⟩ <;>
          rcases w' with w' | w' | w' <;> subst w' <;> first | cases h' | exact h'.elim
  have writer : ∀ (g i : Nat), t[i]? = some ⟨g, .wr l⟩ → g = 0 := fun g i hi => Classical.byContradiction fun g0 => by
    have := (reads g _ g0 (exec_mem x hi) (.inr rfl)).1
    cases this
  obtain ⟨g, h, gh, i, j, a, b, hi, hj, ua, ub, w, n1, n2⟩ := race
  rcases w with rfl | rfl
  · have := writer g i hi
    subst this
    exact main i j h b (fun e => gh e.symm) hi hj ub n1
  · have := writer h j hj
    subst this
    exact main j i g a gh hj hi ua n2

/-! ## Posts among themselves -/

/-- Goroutine `g` holds mutex `m` when it gets to position `i`. -/
def HoldsMutex (t : List (Ev L)) (g m i : Nat) : Prop :=
  ∃ (k : Nat), k < i ∧ t[k]? = some ⟨g, .lock m⟩ ∧ ∀ (u : Nat), k < u → u < i → t[u]? ≠ some ⟨g, .unlock m⟩

/-- What two goroutines do while they hold the same mutex is in order. -/
theorem hb_holds {code : Nat → List (Act L)} {t : List (Ev L)} (x : Exec code t) {g h m i j : Nat} {a b : Act L}
    (gh : g ≠ h) (ij : i < j) (hi : t[i]? = some ⟨g, a⟩) (hj : t[j]? = some ⟨h, b⟩) (na : a ≠ .unlock m)
    (hg : HoldsMutex t g m i) (hh : HoldsMutex t h m j) : HB t i j := by
  obtain ⟨k, ki, hk, nk⟩ := hg
  obtain ⟨l, lj, hl, nl⟩ := hh
  rcases Nat.lt_trichotomy k l with kl | kl | kl
  · obtain ⟨u, ku, ul, hu⟩ := x.locks k l g h m kl hk hl
    have iu : i < u := by
      rcases Nat.lt_trichotomy i u with h' | h' | h'
      · exact h'
      · subst h'; rw [hi] at hu; cases hu; exact absurd rfl na
      · exact absurd hu (nk u ku h')
    exact .trans (.trans (.edge (.order g _ _ iu hi hu)) (.unlock g h m ul hu hl)) (.order h _ _ lj hl hj)
  · subst kl; rw [hk] at hl; cases hl; exact absurd rfl gh
  · obtain ⟨u, lu, uk, hu⟩ := x.locks l k h g m kl hl hk
    exact absurd hu (nl u lu (by omega))

/-- Whether mutex `m` is held after an act. -/
def lockStep (m : Nat) (held : Bool) (a : Act Field) : Bool :=
  if a = .lock m then true else if a = .unlock m then false else held

/-- Whether mutex `m` is held after some acts. -/
def lockedAfter (m : Nat) (held : Bool) (as : List (Act Field)) : Bool := as.foldl (lockStep m) held

/-- The fields a post writes. -/
def PostField (l : Field) : Prop := l = .lastTID ∨ l = .postCh ∨ l = .postReq

instance (l : Field) : Decidable (PostField l) := by unfold PostField; infer_instance

/-- The act uses a field a post writes. -/
def usesPost : Act Field → Bool
  | .rd l | .wr l => decide (PostField l)
  | _ => false

/-- Acts of some kind are done only while mutex `m` is held. -/
def guarded (m : Nat) (some : Act Field → Bool) (held : Bool) : List (Act Field) → Bool
  | [] => true
  | a :: as => (!some a || held) && guarded m some (lockStep m held a) as

theorem lockedAfter_append (m : Nat) (held : Bool) (as bs : List (Act Field)) :
    lockedAfter m held (as ++ bs) = lockedAfter m (lockedAfter m held as) bs := List.foldl_append

theorem guarded_append (m : Nat) (some : Act Field → Bool) (held : Bool) (as bs : List (Act Field)) :
    guarded m some held (as ++ bs) = (guarded m some held as && guarded m some (lockedAfter m held as) bs) := by
  induction as generalizing held with
  | nil => simp [guarded, lockedAfter]
  | cons a as ih => simp only [List.cons_append, guarded, ih, lockedAfter, List.foldl_cons, Bool.and_assoc]

/-- If every part is guarded, and ends without the mutex, the whole is. -/
theorem guarded_flatMap {m : Nat} {some : Act Field → Bool} {α : Type} {f : α → List (Act Field)} {xs : List α}
    (h : ∀ x ∈ xs, guarded m some false (f x) = true ∧ lockedAfter m false (f x) = false) :
    guarded m some false (xs.flatMap f) = true := by
  induction xs with
  | nil => rfl
  | cons x xs ih =>
    have one := h x (by simp)
    rw [List.flatMap_cons, guarded_append, one.1, one.2]
    simpa using ih (fun y hy => h y (List.mem_cons_of_mem _ hy))

/-- Calls that post over UDP, or read what no post writes. -/
def OnlyPosts : NodeCall → Prop
  | .post _ _ | .manufacturer | .listener | .getDevices | .getData _ | .nodes => True
  | _ => False

theorem posts_guarded {c : NodeCall} (n : OnlyPosts c) :
    guarded 0 usesPost false c.acts = true ∧ lockedAfter 0 false c.acts = false := by
  cases c <;> simp [OnlyPosts] at n <;> try exact ⟨rfl, rfl⟩
  rename_i an; cases an <;> exact ⟨rfl, rfl⟩

theorem posts_write {c : NodeCall} (n : OnlyPosts c) {l : Field} (m : Act.wr l ∈ c.acts) : PostField l := by
  cases c <;> simp [OnlyPosts] at n <;>
    simp [NodeCall.acts, tidActs, sendActs, runningActs, socketActs, postActs] at m <;> simp [PostField] <;> grind

theorem did_holds {t : List (Ev Field)} {g m : Nat} (i : Nat) (it : i ≤ t.length)
    (h : lockedAfter m false (did t g i) = true) : HoldsMutex t g m i := by
  induction i with
  | zero => simp [did, lockedAfter] at h
  | succ i ih =>
    obtain ⟨e, he⟩ : ∃ (e : Ev Field), t[i]? = some e := ⟨_, List.getElem?_eq_getElem (by omega)⟩
    rw [did_succ he] at h
    have more : lockedAfter m false (did t g i) = true → e ≠ ⟨g, .unlock m⟩ → HoldsMutex t g m (i + 1) := fun h' ne => by
      obtain ⟨k, ki, hk, nk⟩ := ih (by omega) h'
      refine ⟨k, by omega, hk, fun u ku ui => ?_⟩
      rcases Nat.lt_or_ge u i with h'' | h''
      · exact nk u ku h''
      · have : u = i := by omega
        subst this
        rw [he]; exact fun c => ne (Option.some.inj c)
    by_cases eg : e.g = g
    · rw [if_pos eg, lockedAfter_append] at h
      obtain ⟨g', a⟩ := e
      simp only at eg h
      subst eg
      simp only [lockedAfter, List.foldl_cons, List.foldl_nil, lockStep] at h
      by_cases l0 : a = .lock m
      · subst l0; exact ⟨i, by omega, he, fun u ku ui => by omega⟩
      · rw [if_neg l0] at h
        by_cases u0 : a = .unlock m
        · rw [if_pos u0] at h; cases h
        · rw [if_neg u0] at h
          exact more h (fun c => u0 (by cases c; rfl))
    · rw [if_neg eg, List.append_nil] at h
      exact more h (fun c => eg (by rw [c]))

theorem guarded_holds {sys : Nat → Goroutine} {t : List (Ev Field)} (x : Exec (fun g => (sys g).code) t)
    {g i m : Nat} {some' : Act Field → Bool} (gd : guarded m some' false (sys g).code = true) {a : Act Field}
    (hi : t[i]? = some ⟨g, a⟩) (u : some' a = true) : HoldsMutex t g m i := by
  have il : i < t.length := (List.getElem?_eq_some_iff.1 hi).1
  refine did_holds i (Nat.le_of_lt il) ?_
  have p1 : did t g (i + 1) <+: (sys g).code := by
    refine List.IsPrefix.trans ?_ (x.order g)
    exact ((List.take_prefix _ _).filter _).map _
  rw [did_succ hi, if_pos rfl] at p1
  obtain ⟨ys, hy⟩ := p1
  rw [← hy, List.append_assoc, guarded_append] at gd
  simp only [List.cons_append, List.nil_append, guarded, Bool.and_eq_true] at gd
  simpa [u] using gd.2.1

/-- Two goroutines do not race for what they use only while they hold the same mutex. -/
theorem no_race {sys : Nat → Goroutine} {t : List (Ev Field)} (x : Exec (fun g => (sys g).code) t)
    {g h m : Nat} {some' : Act Field → Bool} (gg : guarded m some' false (sys g).code = true)
    (gd : guarded m some' false (sys h).code = true) {l : Field} (up : ∀ (a : Act Field), a.Uses l → some' a = true) :
    ¬ RaceBetween t g h l := by
  rintro ⟨gh, i, j, a, b, hi, hj, ua, ub, w, n1, n2⟩
  have h1 := guarded_holds x gg hi (up a ua)
  have h2 := guarded_holds x gd hj (up b ub)
  have nu : ∀ (a : Act Field), a.Uses l → a ≠ .unlock m := by rintro a (rfl | rfl) <;> simp
  rcases Nat.lt_trichotomy i j with ij | ij | ij
  · exact n1 (hb_holds x gh ij hi hj (nu a ua) h1 h2)
  · subst ij; rw [hi] at hj; cases hj; exact gh rfl
  · exact n2 (hb_holds x (fun e => gh e.symm) ij hj hi (nu b ub) h2 h1)

/-- **C178, the part that holds for posts.** Any number of goroutines post over UDP, and besides only read what posts
do not write. No two of them race for anything: the mutex of the node is enough among posts. Missing: the handler of
the answer, which does not lock it, and sends. -/
theorem C178_posts_partial {sys : Nat → Goroutine} {t : List (Ev Field)} (x : Exec (fun g => (sys g).code) t)
    {g h : Nat} {cg ch : List NodeCall} (sg : sys g = .program cg) (sh : sys h = .program ch)
    (ng : ∀ c ∈ cg, OnlyPosts c) (nh : ∀ c ∈ ch, OnlyPosts c) (l : Field) : ¬ RaceBetween t g h l := by
  intro race
  have pf : PostField l := by
    obtain ⟨gh, i, j, a, b, hi, hj, ua, ub, w, n1, n2⟩ := race
    rcases w with rfl | rfl
    · have m := exec_mem x hi
      simp only [sg, Goroutine.code] at m
      obtain ⟨c, hc, hm⟩ := List.mem_flatMap.1 m
      exact posts_write (ng c hc) hm
    · have m := exec_mem x hj
      simp only [sh, Goroutine.code] at m
      obtain ⟨c, hc, hm⟩ := List.mem_flatMap.1 m
      exact posts_write (nh c hc) hm
  refine no_race x (m := 0) (some' := usesPost) ?_ ?_ ?_ race
  · rw [sg]; exact guarded_flatMap (fun c hc => posts_guarded (ng c hc))
  · rw [sh]; exact guarded_flatMap (fun c hc => posts_guarded (nh c hc))
  · rintro a (rfl | rfl) <;> simp [usesPost, pf]

/-- The act uses a field. -/
def usesField : Act Field → Bool
  | .rd _ | .wr _ => true
  | _ => false

theorem acts_other {c : NodeCall} {a : Act Field} (h : a ∈ c.acts) : a ≠ .lock 1 ∧ a ≠ .unlock 1 := by
  constructor <;> rintro rfl <;> cases c <;>
    simp [NodeCall.acts, tidActs, announceActs, multicastActs, socketActs, sendActs, sendTcpActs,
      postTcpActs, runningActs, stopActs, startActs,
      startTcpActs, postActs] at h

theorem guarded_held {some' : Act Field → Bool} {as : List (Act Field)}
    (h : ∀ a ∈ as, a ≠ .lock 1 ∧ a ≠ .unlock 1) :
    guarded 1 some' true as = true ∧ lockedAfter 1 true as = true := by
  induction as with
  | nil => exact ⟨rfl, rfl⟩
  | cons a as ih =>
    have one := h a (by simp)
    have ih := ih (fun b hb => h b (List.mem_cons_of_mem _ hb))
    simp only [guarded, lockedAfter, List.foldl_cons, lockStep, if_neg one.1, if_neg one.2]
    exact ⟨by simp [ih.1], ih.2⟩

theorem careful_guarded (c : NodeCall) : guarded 1 usesField false (.lock 1 :: c.acts ++ [.unlock 1]) = true ∧
    lockedAfter 1 false (.lock 1 :: c.acts ++ [.unlock 1]) = false := by
  have h := guarded_held (some' := usesField) (fun a ha => acts_other (c := c) (a := a) ha)
  rw [guarded_append, lockedAfter_append]
  have e : lockedAfter 1 false (.lock 1 :: c.acts) = true := by
    simpa [lockedAfter, lockStep] using h.2
  rw [e]
  refine ⟨?_, rfl⟩
  have : guarded 1 usesField false (.lock 1 :: c.acts) = true := by
    simpa [guarded, usesField, lockStep] using h.1
  rw [this]; rfl

/-- **C178, the part that holds for programs that take care.** Goroutines that hold a mutex of the program during each
call, whatever the calls are, do not race among themselves. Missing: the handlers, with which they race all the same
(`C178_refuted`). -/
theorem C178_careful_partial {sys : Nat → Goroutine} {t : List (Ev Field)} (x : Exec (fun g => (sys g).code) t)
    {g h : Nat} {cg ch : List NodeCall} (sg : sys g = .careful cg) (sh : sys h = .careful ch) (l : Field) :
    ¬ RaceBetween t g h l := by
  refine no_race x (m := 1) (some' := usesField) ?_ ?_ ?_
  · rw [sg]; exact guarded_flatMap (fun c _ => careful_guarded c)
  · rw [sh]; exact guarded_flatMap (fun c _ => careful_guarded c)
  · rintro a (rfl | rfl) <;> rfl

/-! ## Executions there are -/

/-- Whether `t` is an execution of goroutines below `n`. -/
def isExec (n : Nat) (code : Nat → List (Act Field)) (t : List (Ev Field)) : Bool :=
  t.all (fun e => decide (e.g < n))
    && (List.range n).all (fun g => ((t.filter (fun e => e.g == g)).map (·.act)).isPrefixOf (code g))
    && (List.range t.length).all (fun j => (t[j]?.map (fun e => e.g == 0
      || (List.range j).any (fun i => (t[i]?.map (fun e' => e'.act == .go e.g)).getD false))).getD true)
    && (List.range t.length).all (fun i => (List.range t.length).all (fun j => i == j
      || match t[i]?, t[j]? with
        | some ⟨_, .go k⟩, some ⟨_, .go l⟩ => k != l
        | _, _ => true))
    && t.all (fun e => e.act != .go 0)
    && (List.range t.length).all (fun j => (List.range j).all (fun i =>
      match t[i]?, t[j]? with
        | some ⟨g, .lock m⟩, some ⟨_, .lock l⟩ => m != l
          || (List.range j).any (fun k => decide (i < k) && t[k]? == some ⟨g, .unlock m⟩)
        | _, _ => true))

theorem isExec_spec {n : Nat} {code : Nat → List (Act Field)} {t : List (Ev Field)} (h : isExec n code t = true) :
    Exec code t := by
  simp only [isExec, Bool.and_eq_true, List.all_eq_true, List.mem_range] at h
  obtain ⟨⟨⟨⟨⟨h1, h2⟩, h3⟩, h4⟩, h5⟩, h6⟩ := h
  have len : ∀ {i : Nat} {e : Ev Field}, t[i]? = some e → i < t.length := fun h' => (List.getElem?_eq_some_iff.1 h').1
  refine ⟨fun g => ?_, fun j h b hj h0 => ?_, fun i j g h k hi hj => ?_, fun i g hi => ?_,
    fun i j g h m ij hi hj => ?_⟩
  · by_cases gn : g < n
    · exact List.isPrefixOf_iff_prefix.1 (h2 g gn)
    · have : t.filter (fun e => e.g == g) = [] := List.filter_eq_nil_iff.2 (fun e he eg => gn (by
        have := of_decide_eq_true (h1 e he)
        have eg := eq_of_beq eg
        omega))
      rw [this]; exact List.nil_prefix
  · have := h3 j (len hj)
    simp only [hj, Option.map_some, Option.getD_some, Bool.or_eq_true, List.any_eq_true, List.mem_range] at this
    rcases this with h' | ⟨i, ij, hi⟩
    · exact absurd (eq_of_beq h') h0
    · cases he : t[i]? with
      | none => simp [he] at hi
      | some e =>
        simp only [he, Option.map_some, Option.getD_some] at hi
        have ea := eq_of_beq hi
        exact ⟨i, e.g, ij, by rw [he, ← ea]⟩
  · have := h4 i (len hi) j (len hj)
    simp only [hi, hj, Bool.or_eq_true] at this
    rcases this with h' | h'
    · exact eq_of_beq h'
    · simp at h'
  · have := h5 _ (List.mem_of_getElem? hi)
    simp at this
  · have := h6 j (len hj) i ij
    simp only [hi, hj, Bool.or_eq_true, List.any_eq_true, List.mem_range, Bool.and_eq_true] at this
    rcases this with h' | ⟨k, kj, ik, hk⟩
    · simp at h'
    · exact ⟨k, of_decide_eq_true ik, kj, eq_of_beq hk⟩

/-- A program that sets a listener, starts the node and sends, and nothing else. While it starts, a unicast message
arrives, which is answered, and then a multicast message. -/
def startSys : Nat → Goroutine
  | 0 => .program [.setListener, .start 1 2, .send 1]
  | 1 => .loop 1 [3] false
  | 2 => .loop 2 [4] false
  | 3 => .handler ⟨1, false, false, false, [7], some 1⟩
  | 4 => .handler ⟨2, true, false, false, [], none⟩
  | _ => .program []

def startRun : List (Ev Field) :=
  ((startSys 0).code.take 14).map (Ev.mk 0) ++ (startSys 1).code.map (Ev.mk 1) ++ (startSys 3).code.map (Ev.mk 3)
    ++ (((startSys 0).code.drop 14).take 14).map (Ev.mk 0) ++ (startSys 2).code.map (Ev.mk 2)
    ++ (startSys 4).code.map (Ev.mk 4) ++ ((startSys 0).code.drop 28).map (Ev.mk 0)

theorem startRun_exec : Exec (fun g => (startSys g).code) startRun :=
  isExec_spec (n := 5) (by decide +kernel)

theorem startRun_started : HasMade startRun 0 (.start 1 2) :=
  ⟨[.wr .listener], sendActs 1, by decide +kernel⟩

/-- There is a data race as soon as a node is started and a message handled. -/
example : RaceOn startRun (.bound 1) :=
  C178_refuted_start startRun_exec (s := 16) (j := 19) (h := 3) (g := 0) (by decide) (by decide) startRun_started
    trivial rfl rfl
    (by decide +kernel) (by decide +kernel)

/-- And another with a multicast message. -/
example : RaceOn startRun (.reply 2) :=
  C178_refuted_multicast startRun_exec (s := 49) (j := 62) (h := 4) (g := 0) (by decide) (by decide) startRun_started
    trivial rfl rfl
    (by decide +kernel) (by decide +kernel)

/-- The listener, which is set before the start, is safe: the loop of the unicast socket is started at 13, and starts
the handler at 16. -/
example : ¬ RaceBetween startRun 0 3 .listener := fun race => by
  obtain ⟨i, _, a, _, hi, _, ua, _, _, n⟩ := (C178_handlers startRun_exec (r := 13) (s := 16) (p := 0) (m := 1) trivial
    rfl (by decide) (by decide) rfl (by decide +kernel) (by decide +kernel) _).1 race
  have all : ∀ i : Fin startRun.length, startRun[i].g = 0 →
      startRun[i].act = .rd .listener ∨ startRun[i].act = .wr .listener → i.1 < 13 := by decide +kernel
  obtain ⟨il, e⟩ := List.getElem?_eq_some_iff.1 hi
  have lt : i < 13 := all ⟨i, il⟩ (congrArg Ev.g e) (by
    rcases ua with rfl | rfl
    · exact .inl (congrArg Ev.act e)
    · exact .inr (congrArg Ev.act e))
  exact n (.edge (.order 0 a (.go 1) lt hi (by decide +kernel)))

/-- The interface of the socket is not, for the program writes it at 33 too, after the start. -/
example : RaceBetween startRun 0 3 (.bound 1) :=
  (C178_handlers startRun_exec (r := 13) (s := 16) (p := 0) (m := 1) trivial
    rfl (by decide) (by decide) rfl (by decide +kernel) (by decide +kernel) _).2
    ⟨33, 19, .wr (.bound 1), .rd (.bound 1), by decide +kernel, by decide +kernel, .inr rfl, .inl rfl, .inl rfl,
      fun hb => absurd (HB.lt hb) (by decide)⟩

/-- Those are the only ones. -/
example (l : Field) (race : RaceOn startRun l) : l = .bound 1 ∨ l = .reply 2 := by
  have v : Serves startSys [.setListener] [.send 1] 1 2 [3] [4] := ⟨rfl, by simp [SetsUp], by simp [Harmless], by decide,
    rfl, rfl, by simp [startSys, Unicast], by simp [startSys, Multicast], fun g h0 h1 h2 h3 h4 => by
      match g, h0, h1, h2, h3, h4 with
      | n + 5, _, _, _, _, _ => rfl
      | 3, _, _, _, h, _ => simp at h
      | 4, _, _, _, _, h => simp at h⟩
  rcases C178_partial v startRun_exec race with ⟨h, _⟩ | ⟨h, _⟩
  · exact .inl h
  · exact .inr h

/-- A program that starts a node, sets a listener afterwards, posts a request, which is answered, and stops. -/
def postSys : Nat → Goroutine
  | 0 => .program [.start 1 2, .setListener, .post 1 true, .stop [1] [2]]
  | 1 => .loop 1 [3, 4] false
  | 3 => .handler ⟨1, false, false, false, [7], none⟩
  | 4 => .handler ⟨1, false, true, false, [], none⟩
  | _ => .loop 2 [] true

def postRun : List (Ev Field) :=
  (startActs 1 2).map (Ev.mk 0) ++ ((postSys 1).code.take 3).map (Ev.mk 1) ++ (postSys 3).code.map (Ev.mk 3)
    ++ [⟨0, .wr .listener⟩] ++ ((postActs 1 true).take 16).map (Ev.mk 0)
    ++ ((postSys 1).code.drop 3).map (Ev.mk 1) ++ ((postSys 4).code.take 12).map (Ev.mk 4) ++ [⟨0, .recv 0⟩]
    ++ ((postSys 4).code.drop 12).map (Ev.mk 4) ++ ((postActs 1 true).drop 17).map (Ev.mk 0)
    ++ (stopActs [1] [2]).map (Ev.mk 0)

theorem postRun_exec : Exec (fun g => (postSys g).code) postRun :=
  isExec_spec (n := 5) (by decide +kernel)

/-- The answer of a post is a data race. -/
example : RaceOn postRun .postReq :=
  C178_refuted_post postRun_exec (p := 0) (r := 12) (s := 76) (i := 61) (j := 81) (g := 0) (h := 4) (m := 1) trivial rfl
    (by decide) (by decide)
    (by decide +kernel) (by decide +kernel) (by decide +kernel) (by omega) (by decide +kernel) (by omega)

/-- So is a listener that is set after the node was started, with a message handled before. -/
example : RaceOn postRun .listener :=
  C178_refuted postRun_exec (p := 0) (r := 12) (s := 45) (i := 57) (j := 53) (g := 0) (h := 3) (m := 1)
    (a := .wr .listener) (b := .rd .listener) trivial rfl (by decide)
    (by decide) rfl (by decide +kernel) (by decide +kernel) (by decide +kernel) (by omega) (by decide +kernel) (.inr rfl) (.inl rfl) (.inl rfl)

/-- So is `Stop`. -/
example : RaceOn postRun (.conn 1) :=
  C178_refuted_stop postRun_exec (p := 0) (r := 12) (i := 111) (j := 78) (g := 0) (s := 1) (by decide) trivial
    (by decide +kernel) (by omega) (by decide +kernel) (by decide +kernel) (fun k h jk e => by
      have c : (postRun.drop 79).all (fun e => e.g != 1) = true := by decide +kernel
      have : (postRun.drop 79)[k - 79]? = some ⟨1, .go h⟩ := by
        rw [List.getElem?_drop, show 79 + (k - 79) = k by omega]; exact e
      have := List.all_eq_true.1 c _ (List.mem_of_getElem? this)
      simp at this)

/-- A program that starts a node, and then has two goroutines that send and two that post. -/
def sendSys : Nat → Goroutine
  | 0 => .program [.start 1 2, .go 3, .go 4, .go 5, .go 6]
  | 3 => .program [.send 1, .nodes]
  | 4 => .program [.lastTID, .send 1]
  | 5 => .program [.post 1 false, .getData 3]
  | 6 => .program [.getDevices, .post 1 false]
  | _ => .loop 1 [] false

def sendRun : List (Ev Field) :=
  (sendSys 0).code.map (Ev.mk 0) ++ ((sendSys 3).code.take 3).map (Ev.mk 3) ++ (sendSys 4).code.map (Ev.mk 4)
    ++ ((sendSys 3).code.drop 3).map (Ev.mk 3) ++ ((sendSys 6).code.take 1).map (Ev.mk 6)
    ++ (sendSys 5).code.map (Ev.mk 5) ++ ((sendSys 6).code.drop 1).map (Ev.mk 6)

theorem sendRun_exec : Exec (fun g => (sendSys g).code) sendRun :=
  isExec_spec (n := 7) (by decide +kernel)

/-- Two goroutines that send race. -/
example : RaceBetween sendRun 3 4 .lastTID :=
  C178_refuted_sends sendRun_exec (i := 61) (j := 54) (by decide) rfl rfl (by simp [NoHandOver]) (by simp [NoHandOver])
    (by decide +kernel) (by decide +kernel)

/-- For nothing else. -/
example (l : Field) : RaceBetween sendRun 3 4 l ↔ l = .lastTID := by
  rw [C178_pairs sendRun_exec (by decide) rfl rfl (by simp [NoHandOver]) (by simp [NoHandOver]) (by decide +kernel)
    (by decide +kernel)]
  constructor
  · rintro ⟨c, hc, d, hd, a, ha, b, hb, ua, ub, w⟩
    simp at hc hd
    rcases hc with rfl | rfl <;> rcases hd with rfl | rfl <;>
      simp [NodeCall.acts, sendActs, runningActs, tidActs, socketActs] at ha hb <;> rcases w with rfl | rfl <;>
      simp_all [Act.Uses]
  · rintro rfl
    exact ⟨.send 1, by simp, .send 1, by simp, .wr .lastTID, by simp [NodeCall.acts, sendActs, tidActs], .wr .lastTID,
      by simp [NodeCall.acts, sendActs, tidActs], .inr rfl, .inr rfl, .inl rfl⟩

/-- Two goroutines that post do not race. -/
example (l : Field) : ¬ RaceBetween sendRun 5 6 l :=
  C178_posts_partial sendRun_exec rfl rfl (by simp [OnlyPosts]) (by simp [OnlyPosts]) l

/-- Two goroutines of a program that takes care, and a message handled meanwhile. -/
def carefulSys : Nat → Goroutine
  | 0 => .careful [.start 1 2, .go 3, .send 1]
  | 1 => .loop 1 [4] false
  | 3 => .careful [.setListener, .send 1]
  | 4 => .handler ⟨1, false, false, false, [0], some 1⟩
  | _ => .loop 2 [] false

def carefulRun : List (Ev Field) :=
  ((carefulSys 0).code.take 48).map (Ev.mk 0) ++ ((carefulSys 3).code.take 5).map (Ev.mk 3)
    ++ (carefulSys 1).code.map (Ev.mk 1) ++ (carefulSys 4).code.map (Ev.mk 4)
    ++ ((carefulSys 3).code.drop 5).map (Ev.mk 3) ++ ((carefulSys 0).code.drop 48).map (Ev.mk 0)

theorem carefulRun_exec : Exec (fun g => (carefulSys g).code) carefulRun :=
  isExec_spec (n := 5) (by decide +kernel)

/-- They do not race with each other. -/
example (l : Field) : ¬ RaceBetween carefulRun 0 3 l :=
  C178_careful_partial carefulRun_exec rfl rfl l

/-- But with the handler. -/
example : RaceOn carefulRun .listener :=
  C178_refuted carefulRun_exec (p := 0) (r := 13) (s := 55) (i := 49) (j := 65) (g := 3) (h := 4) (m := 1)
    (a := .wr .listener) (b := .rd .listener) trivial rfl (by decide)
    (by decide) rfl (by decide +kernel) (by decide +kernel) (by decide +kernel) (by omega) (by decide +kernel)
    (.inr rfl) (.inl rfl) (.inl rfl)

/-- A node with TCP, and a message over it. -/
def tcpSys : Nat → Goroutine
  | 0 => .program [.startTcp 1 2 3, .sendTcp 1 2 true, .postTcp 2]
  | 1 => .loop 1 [] false
  | 2 => .accepts 2 [4]
  | 3 => .loop 3 [] false
  | 4 => .handler ⟨2, false, false, false, [0], none⟩
  | _ => .program []

def tcpRun : List (Ev Field) :=
  ((tcpSys 0).code.take 22).map (Ev.mk 0) ++ (tcpSys 2).code.map (Ev.mk 2) ++ (tcpSys 4).code.map (Ev.mk 4)
    ++ ((tcpSys 0).code.drop 22).map (Ev.mk 0)

theorem tcpRun_exec : Exec (fun g => (tcpSys g).code) tcpRun :=
  isExec_spec (n := 5) (by decide +kernel)

theorem tcpRun_started : HasMade tcpRun 0 (.startTcp 1 2 3) :=
  ⟨[], sendTcpActs 1 2 true ++ postTcpActs 2, by decide +kernel⟩

/-- It is a data race, although the listener was there long before the message. -/
example : RaceOn tcpRun (.bound 2) :=
  C178_refuted_tcp tcpRun_exec (u := 1) (c := 2) (m := 3) (s := 23) (j := 25) (h := 4) (g := 0) (by decide) (by decide)
    tcpRun_started trivial rfl rfl (by decide +kernel) (by decide +kernel)

/-- And there are no others than those `C178_tcp_partial` allows. -/
example {l : Field} (race : RaceOn tcpRun l) : l = .bound 2 := by
  have v : ServesTcp tcpSys [] [.sendTcp 1 2 true, .postTcp 2] 1 2 3 [] [4] [] := ⟨rfl, by simp, by simp [Harmless],
    by decide, by decide, by decide, rfl, rfl, rfl, by simp, by simp [tcpSys, OverTcp], by simp,
    fun g h0 h1 h2 h3 _ h5 _ => by
      simp only [List.mem_singleton] at h5
      unfold tcpSys; split <;> first | contradiction | rfl⟩
  rcases C178_tcp_partial v tcpRun_exec race with ⟨_, _, _, h, _⟩ | ⟨rfl, _⟩ | ⟨_, _, _, h, _⟩
  · cases h
  · rfl
  · cases h

/-- A controller that searches and lists the nodes, while two messages make nodes known. -/
def foundSys : Nat → Goroutine
  | 0 => .program [.start 1 2, .search 1, .nodes]
  | 1 => .loop 1 [3, 4] false
  | 3 => .handler ⟨1, false, false, true, [], none⟩
  | 4 => .handler ⟨1, false, false, true, [], none⟩
  | _ => .loop 2 [] false

def foundRun : List (Ev Field) :=
  ((startActs 1 2) ++ (multicastActs 1)).map (Ev.mk 0) ++ ((foundSys 1).code).map (Ev.mk 1)
    ++ (foundSys 3).code.map (Ev.mk 3) ++ (foundSys 4).code.map (Ev.mk 4) ++ [⟨0, .rd .found⟩]

theorem foundRun_exec : Exec (fun g => (foundSys g).code) foundRun :=
  isExec_spec (n := 5) (by decide +kernel)

/-- The two handlers race for the list of nodes. -/
example : RaceBetween foundRun 3 4 .found :=
  C178_refuted_found foundRun_exec (i := 71) (j := 84) (by decide) rfl rfl rfl rfl (by decide +kernel)
    (by decide +kernel)

/-- And so does the program that lists the nodes it has searched for. -/
example : RaceOn foundRun .found :=
  C178_refuted foundRun_exec (p := 0) (r := 12) (s := 55) (i := 87) (j := 71) (g := 0) (h := 3) (m := 1)
    (a := .rd .found) (b := .wr .found) trivial rfl (by decide) (by decide) rfl (by decide +kernel) (by decide +kernel)
    (by decide +kernel) (by omega) (by decide +kernel) (.inl rfl) (.inr rfl) (.inr rfl)

end Verif.Props
