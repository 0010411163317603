import Verif.Lemmas.Money

/-! # Who has acted on the street -/

namespace Clubs

open Spec

/-- the seat has had its turn on this street, or was passed -/
def opt (d : Dealer) (i : Nat) : Prop := d.streetOption.getD i false = true

/-- Invariant: behind a seat that had its turn comes a seat that is in, or one that was passed too. -/
def OptInv (d : Dealer) : Prop :=
  ∀ p < d.cfg.numPlayers, opt d p → isIn d ((p + 1) % d.cfg.numPlayers) ∨ opt d ((p + 1) % d.cfg.numPlayers)

theorem mod_succ (a n : Nat) : (a % n + 1) % n = (a + 1) % n := by simp [Nat.add_mod]

/-- moving the action establishes the invariant if it holds elsewhere -/
theorem moved_optInv {d d' : Dealer} {a : Nat} (h : Seated d) (hm : Moved d d' a)
    (hi : ∀ p < d.cfg.numPlayers, p ≠ d.seat → opt d p →
      isIn d ((p + 1) % d.cfg.numPlayers) ∨ opt d ((p + 1) % d.cfg.numPlayers)) : OptInv d' := by
  have hn : 0 < d.cfg.numPlayers := by have := h.two; omega
  obtain ⟨k, k1, k2, k3, k4, k5⟩ := hm.between
  have e1 : d'.cfg = d.cfg := by rw [hm.eq]
  have e2 : ∀ i, isIn d' i ↔ isIn d i := fun i => by
    unfold isIn
    rw [show d'.active = d.active by rw [hm.eq]]
  have e3 : ∀ p < d.cfg.numPlayers, (opt d' p ↔ opt d p ∨ ∃ j, 1 ≤ j ∧ j < k ∧ (d.seat + j) % d.cfg.numPlayers = p) :=
    fun p hp => k5 p (by rw [h.streetOption]; exact hp)
  -- the seat after one at distance `j < k`
  have key : ∀ j, j < k → isIn d ((d.seat + j + 1) % d.cfg.numPlayers) ∨
      ∃ j', 1 ≤ j' ∧ j' < k ∧ (d.seat + j') % d.cfg.numPlayers = (d.seat + j + 1) % d.cfg.numPlayers := by
    intro j hj
    by_cases hjk : j + 1 = k
    · left
      have : d.seat + j + 1 = d.seat + k := by omega
      rw [this, ← k3]; exact hm.isIn
    · right; exact ⟨j + 1, by omega, by omega, rfl⟩
  intro p hp hop
  rw [e1] at hp ⊢
  rw [e2]
  have hq : (p + 1) % d.cfg.numPlayers < d.cfg.numPlayers := Nat.mod_lt _ hn
  rw [e3 _ hq]
  rcases (e3 p hp).1 hop with ho | ⟨j, j1, j2, j3⟩
  · by_cases hs : p = d.seat
    · subst hs
      rcases key 0 (by omega) with h1 | ⟨j', h1, h2, h3⟩
      · exact .inl h1
      · exact .inr (.inr ⟨j', h1, h2, h3⟩)
    · rcases hi p hp hs ho with h1 | h1
      · exact .inl h1
      · exact .inr (.inl h1)
  · subst j3
    rw [mod_succ]
    rcases key j j2 with h1 | ⟨j', h1, h2, h3⟩
    · exact .inl h1
    · exact .inr (.inr ⟨j', h1, h2, h3⟩)

theorem dealt_optInv {d d' : Dealer} {rb rs : Bool} {shuf : Shuffle} {obs : Observation} (h : Seated d)
    (hr : d.reset rb rs shuf = (d', .ok obs)) : OptInv d' := by
  have hlive := dealt_live h hr
  obtain ⟨h1, h2, rfl, -⟩ := reset_ok hr
  have hs := posted_seated h rb rs shuf
  have hc : 1 ≤ countTrue (d.posted rb rs shuf).active := by
    have : 2 ≤ countTrue (d.posted rb rs shuf).active := hlive.2.2
    omega
  obtain ⟨a1, m1⟩ := moveAction_spec (d := d.posted rb rs shuf) hs.active hc
  obtain ⟨a2, m2⟩ := moveAction_spec (d := (d.posted rb rs shuf).moveAction) (moveAction_seated hs).active hc
  refine moved_optInv (moveAction_seated hs) m2 fun p hp _ => ?_
  refine moved_optInv hs m1 (fun p hp _ ho => ?_) p hp
  -- the state at the blinds
  have hb : OptInv (d.blindStart rb rs shuf) := by
    have hf : ∀ p < d.cfg.numPlayers, ¬ opt (d.fresh rb rs shuf) p := by
      intro p hp ho
      unfold opt at ho
      rw [show (d.fresh rb rs shuf).streetOption = List.replicate d.cfg.numPlayers false from rfl,
        getD_replicate _ _ _ _ hp] at ho
      simp at ho
    unfold Dealer.blindStart
    split
    · obtain ⟨a3, m3⟩ := moveAction_spec (d := d.fresh rb rs shuf) (fresh_seated h rb rs shuf).active (by
        have := fresh_active_count h (shuf := shuf) (rb := rb) h1; omega)
      exact moved_optInv (fresh_seated h rb rs shuf) m3 fun p hp _ ho => absurd ho (hf p hp)
    · intro p hp ho; exact absurd ho (hf p hp)
  exact hb p hp ho

/-- after the deal nobody who is in has had a turn -/
theorem dealt_opt {d d' : Dealer} {rb rs : Bool} {shuf : Shuffle} {obs : Observation} (h : Seated d)
    (hr : d.reset rb rs shuf = (d', .ok obs)) : ∀ i < d'.cfg.numPlayers, isIn d' i → ¬ opt d' i := by
  have hlive := dealt_live h hr
  obtain ⟨h1, h2, rfl, -⟩ := reset_ok hr
  obtain ⟨c1, c2, -⟩ := blindStart_same d rb rs shuf
  have hs := posted_seated h rb rs shuf
  have hc : 1 ≤ countTrue (d.posted rb rs shuf).active := by
    have : 2 ≤ countTrue (d.posted rb rs shuf).active := hlive.2.2
    omega
  obtain ⟨a1, m1⟩ := moveAction_spec (d := d.posted rb rs shuf) hs.active hc
  obtain ⟨a2, m2⟩ := moveAction_spec (d := (d.posted rb rs shuf).moveAction) (moveAction_seated hs).active hc
  intro i hi hin
  change isIn (d.posted rb rs shuf) i at hin
  change i < (d.posted rb rs shuf).cfg.numPlayers at hi
  have hi2 : i < d.cfg.numPlayers := by rw [show (d.posted rb rs shuf).cfg = d.cfg from c1] at hi; exact hi
  unfold opt
  rw [moved_option m2 (by rw [m1.length, hs.streetOption]; exact hi) hin,
    moved_option m1 (by rw [hs.streetOption]; exact hi) hin]
  have : (d.posted rb rs shuf).streetOption.getD i false = false := by
    show (d.blindStart rb rs shuf).streetOption.getD i false = false
    unfold Dealer.blindStart
    split
    · obtain ⟨a3, m3⟩ := moveAction_spec (d := d.fresh rb rs shuf) (fresh_seated h rb rs shuf).active (by
        have := fresh_active_count h (shuf := shuf) (rb := rb) h1; omega)
      have hin2 : isIn (d.fresh rb rs shuf) i := by
        have : (d.posted rb rs shuf).active = (d.fresh rb rs shuf).active := c2
        unfold isIn at *
        rw [← this]; exact hin
      rw [moved_option m3 (by rw [(fresh_seated h rb rs shuf).streetOption]; exact hi2) hin2]
      exact getD_replicate _ _ _ _ hi2
    · exact getD_replicate _ _ _ _ hi2
  rw [this]; simp

theorem acted_optInv {d : Dealer} (hd : Seated d) (hi : OptInv d) (fold : Bool) (call bet : Int)
    (p : Nat) (hp : p < d.cfg.numPlayers) (hs : p ≠ d.seat) (ho : opt (d.acted fold call bet) p) :
    isIn (d.acted fold call bet) ((p + 1) % d.cfg.numPlayers) ∨
      opt (d.acted fold call bet) ((p + 1) % d.cfg.numPlayers) := by
  have hq : (p + 1) % d.cfg.numPlayers < d.cfg.numPlayers := Nat.mod_lt _ (by have := hd.two; omega)
  unfold opt at ho ⊢
  rw [(acted_nums hd fold call bet p hp).2.2.2, if_neg (fun h => hs h.symm)] at ho
  rw [(acted_nums hd fold call bet _ hq).2.2.2, acted_isIn hd fold call bet _ hq]
  by_cases hsq : d.seat = (p + 1) % d.cfg.numPlayers
  · right; rw [if_pos hsq]
  · rw [if_neg hsq]
    rcases hi p hp ho with h1 | h1
    · exact .inl ⟨h1, fun h => hsq h.1⟩
    · exact .inr h1

theorem afterBet_optInv {S : List Int} {d : Dealer} {fold : Bool} {x c : Int} (hl : Live S d)
    (hc2 : 2 ≤ countTrue d.active) (hi : OptInv d) : OptInv (d.afterBet fold c x) := by
  have hd := hl.seated
  obtain ⟨a, ha, hain⟩ := hl.action
  have hcnt := acted_count hd ha hain hc2 fold c x
  have hs := acted_seated hd fold c x
  obtain ⟨a2, hmv⟩ := moveAction_spec (d := d.acted fold c x) hs.active hcnt
  rcases afterBet_cases d fold c x with ⟨-, h2⟩ | ⟨h1, h2⟩
  · rw [h2]
    exact moved_optInv hs hmv fun p hp hps ho => acted_optInv hd hi fold c x p hp hps ho
  · rw [h2]
    obtain ⟨f1, f2, f3, f4, f5, -⟩ := nextStreet_fields (d.acted fold c x).moveAction
    intro p hp _
    have hlen : (d.acted fold c x).moveAction.nextStreet.active.length =
        (d.acted fold c x).moveAction.nextStreet.cfg.numPlayers := (nextStreet_seated (moveAction_seated hs)).active
    have hq : (p + 1) % (d.acted fold c x).moveAction.nextStreet.cfg.numPlayers <
        (d.acted fold c x).moveAction.nextStreet.cfg.numPlayers := Nat.mod_lt _ (by omega)
    unfold isIn opt
    rw [f2, getD_map _ _ _ false _ (by rw [hlen]; exact hq)]
    cases (d.acted fold c x).moveAction.nextStreet.active.getD
      ((p + 1) % (d.acted fold c x).moveAction.nextStreet.cfg.numPlayers) false <;> simp

/-- If every player who is in has had a turn, then all options are set. -/
theorem options_all {d : Dealer} (hd : Seated d) (h1 : 1 ≤ countTrue d.active) (hi : OptInv d)
    (h : ∀ i < d.cfg.numPlayers, isIn d i → opt d i) : ∀ i < d.cfg.numPlayers, opt d i := by
  obtain ⟨t, ht, hta⟩ := countTrue_pos.1 h1
  rw [hd.active] at ht
  have hn : 0 < d.cfg.numPlayers := by omega
  -- going round from an active seat
  have key : ∀ k, opt d ((t + k) % d.cfg.numPlayers) := by
    intro k
    induction k with
    | zero =>
      rw [Nat.add_zero, Nat.mod_eq_of_lt ht]
      exact h t ht hta
    | succ k ih =>
      have hlt : (t + k) % d.cfg.numPlayers < d.cfg.numPlayers := Nat.mod_lt _ hn
      have := hi _ hlt ih
      rw [mod_succ] at this
      rcases this with h2 | h2
      · exact h _ (Nat.mod_lt _ hn) h2
      · exact h2
  intro i hlt
  obtain ⟨k, -, -, hk⟩ := round_reach (n := d.cfg.numPlayers) (s := t) hlt
  rw [← hk]; exact key k

/-- `_all_agreed` spelled out -/
theorem allAgreed_iff {d : Dealer} (h : Seated d) :
    d.allAgreed = true ↔ (∀ i < d.cfg.numPlayers, opt d i) ∧
      ∀ i < d.cfg.numPlayers, isIn d i → stack d i ≠ 0 → streetBet d i = pyMax d.streetCommits := by
  unfold Dealer.allAgreed
  by_cases ho : d.streetOption.all id = true
  · have ho' := (all_getD false).1 ho
    rw [h.streetOption] at ho'
    simp only [ho, Bool.not_true, Bool.false_eq_true, if_false]
    rw [all_getD false]
    have hlen : (List.zipWith (· || ·) (List.zipWith (· || ·) (d.streetCommits.map fun c => c == pyMax d.streetCommits)
        (d.stacks.map fun s => s == 0)) (d.active.map fun a => !a)).length = d.cfg.numPlayers := by
      simp [h.streetCommits, h.stacks, h.active]
    rw [hlen]
    have key : ∀ i < d.cfg.numPlayers, ((id ((List.zipWith (· || ·) (List.zipWith (· || ·)
        (d.streetCommits.map fun c => c == pyMax d.streetCommits)
        (d.stacks.map fun s => s == 0)) (d.active.map fun a => !a)).getD i false) = true) ↔
        (isIn d i → stack d i ≠ 0 → streetBet d i = pyMax d.streetCommits)) := by
      intro i hi
      rw [getD_zipWith _ _ _ _ false false _ (by simp [h.streetCommits, h.stacks, hi]) (by simp [h.active, hi]),
        getD_zipWith _ _ _ _ false false _ (by simp [h.streetCommits, hi]) (by simp [h.stacks, hi]),
        getD_map _ _ _ 0 _ (by rw [h.streetCommits]; exact hi), getD_map _ _ _ 0 _ (by rw [h.stacks]; exact hi),
        getD_map _ _ _ false _ (by rw [h.active]; exact hi)]
      unfold isIn stack streetBet
      cases h3 : d.active.getD i false
      · simp
      · simp only [id, Bool.or_eq_true, beq_iff_eq, Bool.not_true, Bool.false_eq_true, or_false, forall_const]
        constructor
        · rintro (h1 | h1) h2
          · exact h1
          · exact absurd h1 h2
        · intro h1
          by_cases h2 : d.stacks.getD i 0 = 0
          · exact .inr h2
          · exact .inl (h1 h2)
    constructor
    · intro hh
      exact ⟨ho', fun i hi => (key i hi).1 (hh i hi)⟩
    · rintro ⟨-, hh⟩ i hi
      exact (key i hi).2 (hh i hi)
  · simp only [ho, Bool.not_false, if_true, Bool.false_eq_true, false_iff]
    rintro ⟨h1, -⟩
    apply ho
    rw [all_getD false, h.streetOption]
    exact h1

/-- on a new street nobody who is in has had a turn -/
theorem nextStreet_opt {d : Dealer} (h : Seated d) (i : Nat) (hi : i < d.cfg.numPlayers) :
    opt d.nextStreet i ↔ ¬ isIn d i := by
  obtain ⟨-, f2, -, f4, f5, -⟩ := nextStreet_fields d
  unfold opt isIn
  rw [f2, f5, getD_map _ _ _ false _ (by rw [h.active]; exact hi)]
  simp

/-- When it is somebody's turn the round is not over. -/
theorem afterBet_not_agreed {S : List Int} {d : Dealer} {fold : Bool} {x c : Int} (hl : Live S d)
    (hc2 : 2 ≤ countTrue d.active) : (d.afterBet fold c x).allAgreed = false := by
  have hd := hl.seated
  obtain ⟨a, ha, hain⟩ := hl.action
  have hcnt := acted_count hd ha hain hc2 fold c x
  have hs := moveAction_seated (acted_seated hd fold c x)
  rcases afterBet_cases d fold c x with ⟨h1, h2⟩ | ⟨h1, h2⟩
  · rw [h2]; exact h1
  · rw [h2]
    by_contra hcon
    have := ((allAgreed_iff (nextStreet_seated hs)).1 (by simpa using hcon)).1
    obtain ⟨t, ht, hta⟩ := countTrue_pos.1 hcnt
    have ht2 : t < (d.acted fold c x).moveAction.cfg.numPlayers := by rw [← hs.active]; exact ht
    have h3 := this t (by rw [(nextStreet_fields _).2.2.2.1]; exact ht2)
    exact (nextStreet_opt hs t ht2).1 h3 hta

theorem dealt_not_agreed {d d' : Dealer} {rb rs : Bool} {shuf : Shuffle} {obs : Observation} (h : Seated d)
    (hr : d.reset rb rs shuf = (d', .ok obs)) : d'.allAgreed = false := by
  obtain ⟨hlive, -, hc⟩ := dealt_live h hr
  by_contra hcon
  have := ((allAgreed_iff hlive.seated).1 (by simpa using hcon)).1
  obtain ⟨t, ht, hta⟩ := countTrue_pos.1 hlive.one
  rw [hlive.seated.active] at ht
  exact dealt_opt h hr t ht hta (this t ht)

end Clubs
