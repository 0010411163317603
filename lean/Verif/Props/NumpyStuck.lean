import Verif.Lemmas.NumpyDivision
import Verif.Props.NumpyCards
import Verif.Props.Stuck

/-!
# The array engine: the exact division of every pot (C71), exactly which hands get stuck (C70)
-/

namespace Clubs.Numpy

open Spec

variable {S : List Int} {d d' : Dealer} {bet : PyNum} {s : Nat → Int} {res : Except Err StepOut}

theorem same_arrayShares {x d' : Dealer} (e : SameTable x d') (j : Nat) : arraySharesAt x s j = arraySharesAt d' s j := by
  unfold arraySharesAt; rw [e.inB, e.contribution, e.cfg]

theorem same_arrayLeft {x d' : Dealer} (e : SameTable x d') : arrayLeftAt x s = arrayLeftAt d' s := by
  unfold arrayLeftAt; rw [e.inB, e.contribution, e.cfg]

/-! ## C71 -/

/-- **C71** (the exact rule, for all pots, all folds and all antes): everybody gets the shares that `arraySharesAt` describes. If chips
are left over, they go to the seat with a share that comes first in the order of `fromButton`; if nobody has a share, the step raises
`ValueError`. -/
theorem C71_division (h : ArrayInHand S d) (hn : NonNegative S d.cfg) (hz : SizesOk d.cfg) (hrun : Running d)
    (hs : step d bet = (d', res)) (hsh : AtShowdown d') (hr : Ranks d' s) :
    0 ≤ arrayLeftAt d' s ∧ (∀ j < d'.cfg.numPlayers, 0 ≤ arraySharesAt d' s j ∧ 0 ≤ contribution d' j) ∧
    ((arrayLeftAt d' s = 0 ∧ ∃ obs pays done, res = .ok (obs, pays, done) ∧
        ∀ j < d'.cfg.numPlayers, received d' pays j = arraySharesAt d' s j) ∨
      (arrayLeftAt d' s ≠ 0 ∧ ∃ obs pays done w, res = .ok (obs, pays, done) ∧ w < d'.cfg.numPlayers ∧ arraySharesAt d' s w ≠ 0 ∧
        (∀ i < d'.cfg.numPlayers, arraySharesAt d' s i ≠ 0 →
          fromButton d'.cfg.numPlayers d'.button w ≤ fromButton d'.cfg.numPlayers d'.button i) ∧
        ∀ j < d'.cfg.numPlayers, received d' pays j = arraySharesAt d' s j + if w = j then arrayLeftAt d' s else 0) ∨
      (Unpaid d' s ∧ res = .error .valueError)) := by
  obtain ⟨x, h1, -, h2, h3, h4, h5, h6, e1, e2, e3, e4, e5, e6, -, h7⟩ := step_showdown h hn hz hrun hs hsh
  have e : SameTable x d' := ⟨e1, e2, e3, e4, e5, e6⟩
  obtain ⟨hp, hl, hsh'⟩ := showdown_paidOut h1 h2 h3 h4 (e.ranks hr) h5 h6
  refine ⟨by rw [← same_arrayLeft e]; exact hl, ?_, ?_⟩
  · intro j hj
    rw [← same_arrayShares e, e.contribution]
    exact ⟨hsh' j (by rw [← e.cfg]; exact hj), h4 j (by rw [← e.cfg]; exact hj)⟩
  rw [← same_arrayLeft e, e.cfg, e.button]
  cases hp with
  | even p hp h0 h8 =>
    rcases h7 with ⟨er, h9, -⟩ | ⟨obs, q, h9, h10, -⟩
    · rw [h9] at hp; simp at hp
    · rw [h9] at hp
      obtain rfl : q = p := by simpa using hp
      refine .inl ⟨h0, obs, q, done x, h10, fun j hj => ?_⟩
      rw [← e.received, ← same_arrayShares e]
      exact h8 j hj
  | odd p w hp h0 hw hd hf h8 =>
    rcases h7 with ⟨er, h9, -⟩ | ⟨obs, q, h9, h10, -⟩
    · rw [h9] at hp; simp at hp
    · rw [h9] at hp
      obtain rfl : q = p := by simpa using hp
      refine .inr (.inl ⟨h0, obs, q, done x, w, h10, hw, by rw [← same_arrayShares e]; exact hd, ?_, fun j hj => ?_⟩)
      · intro i hi hne
        rw [← same_arrayShares e] at hne
        exact hf i hi hne
      · rw [← e.received, ← same_arrayShares e]
        exact h8 j hj
  | raises hp h0 hf =>
    rcases h7 with ⟨er, h9, h10, -⟩ | ⟨obs, q, h9, -⟩
    · rw [h9] at hp
      obtain rfl : er = .valueError := by simpa using hp
      refine .inr (.inr ⟨⟨by rw [← same_arrayLeft e]; exact h0, fun w hw => ?_⟩, h10⟩)
      rw [← same_arrayShares e]
      exact hf w (by rw [← e.cfg]; exact hw)
    · rw [h9] at hp; simp at hp

/-- One ante of four chips, whose payer folds; the others put in two chips each. Seat 2 wins six chips. The other two are split three ways:
nobody gets a share of them and the winner gets them as odd chips. -/
example : ∃ S d d' out, ArrayInHand S d ∧ ArrayReachable d ∧ step d (.fin 0) = (d', .ok out) ∧ NonNegative S d.cfg ∧ SizesOk d.cfg ∧
    Running d ∧ AtShowdown d' ∧ Ranks d' (strength [5, 4, 3]) ∧ d'.potCommits = [4, 2, 2] ∧ ¬ isIn d' 0 ∧
    arrayLeftAt d' (strength [5, 4, 3]) = 2 ∧ arraySharesAt d' (strength [5, 4, 3]) 2 = 6 ∧ out.2.1 = [-4, -2, 6] :=
  step_exists (mixed 3 1 6 [0, 0, 4] [1, 2, 0] 10) [.bet (-1), .bet 1, .bet 0, .bet 0] (.fin 0) (by decide +kernel)

/-! ## C70 -/

/-- nobody has a share only if nobody who is in put in chips -/
theorem unpaid_nothing (hc : ∀ i < d.cfg.numPlayers, 0 ≤ contribution d i) (h : Unpaid d s) (i : Nat) (hi : i < d.cfg.numPlayers)
    (hin : isIn d i) : contribution d i = 0 := by
  by_contra hne
  have := hc i hi
  obtain ⟨j, hj, -, h1⟩ := shares_pos (s := s) (act := inB d) hc ⟨i, hi, hin, by omega⟩
  have h2 : arrayShares d.cfg.numPlayers (inB d) (contribution d) s j = 0 := h.2 j hj
  omega

/-- chips are left over only if somebody put in chips -/
theorem unpaid_some (hc : ∀ i < d.cfg.numPlayers, 0 ≤ contribution d i) (h : Unpaid d s) :
    ∃ i < d.cfg.numPlayers, 0 < contribution d i := by
  by_contra hcon
  have h0 : ∀ i < d.cfg.numPlayers, contribution d i = 0 := by
    intro i hi
    have := hc i hi
    by_contra hne
    exact hcon ⟨i, hi, by omega⟩
  apply h.1
  unfold arrayLeftAt arrayLeft
  apply Finset.sum_eq_zero
  intro i _
  have hp : piece d.cfg.numPlayers (inB d) (contribution d) s i = 0 := by
    unfold piece
    apply Finset.sum_eq_zero
    intro k hk
    rw [h0 k (Finset.mem_range.1 hk)]
    have hr : 0 ≤ reached d.cfg.numPlayers (inB d) (contribution d) s i := by unfold reached; omega
    omega
  rw [hp, Int.zero_emod]

theorem unpaid_iff (h : ArrayInHand S d) (hn : NonNegative S d.cfg) (hz : SizesOk d.cfg) (ha : d.action ≠ none) (hsh : AtShowdown d)
    (hr : Ranks d s) : (∃ e, payouts d = .error e) ↔ Unpaid d s := by
  obtain ⟨a, ha'⟩ := Option.ne_none_iff_exists'.1 ha
  obtain ⟨hsd, hl, -⟩ := sound_of_action h hn hz ha'
  have hone : countTrue d.active ≠ 1 := by
    have := hsh.2
    unfold numIn at this
    unfold countTrue
    omega
  obtain ⟨hp, -, -⟩ := showdown_paidOut hl.seated hl.holeLen hl.pot hsd.nn.contrib hr hone hsh.1
  constructor
  · rintro ⟨e, he⟩
    cases hp with
    | even p h1 => rw [h1] at he; cases he
    | odd p k h1 => rw [h1] at he; cases he
    | raises h1 h0 hf => exact ⟨h0, hf⟩
  · rintro ⟨h0, hf⟩
    cases hp with
    | even p h1 h2 => exact absurd h2 h0
    | odd p w h1 h2 hw hd => exact absurd (hf _ hw) hd
    | raises h1 => exact ⟨_, h1⟩

/-- **C70** (exactly): at a sensible table, from every state of a hand and whatever is bet, after finitely many steps one of two things
is the case for good. Either nobody is to act any more, the pot is paid out and no stack is negative. Or the table stays as it is, at a
showdown in which chips are left over and nobody has a share; then nobody who is in has put in a chip, but somebody who folded has. -/
theorem C70_exact (h : ArrayInHand S d) (hre : ArrayReachable d) (hn : NonNegative S d.cfg) (hz : SizesOk d.cfg) (he : Enough d.cfg)
    (hf : HandsFit d.cfg) (hg : GoodEvaluator d.cfg) (bets : Nat → Rat) :
    ∃ k, (∀ j ≥ k, (afterBets d bets j).action = none ∧ (afterBets d bets j).pot = 0 ∧
        ∀ i < d.cfg.numPlayers, 0 ≤ stack (afterBets d bets j) i) ∨
      ((∀ j ≥ k, afterBets d bets j = afterBets d bets k) ∧ (afterBets d bets k).action ≠ none ∧ AtShowdown (afterBets d bets k) ∧
        (∃ s, Ranks (afterBets d bets k) s ∧ Unpaid (afterBets d bets k) s) ∧
        (∀ i < d.cfg.numPlayers, isIn (afterBets d bets k) i → contribution (afterBets d bets k) i = 0) ∧
        ∃ i < d.cfg.numPlayers, ¬ isIn (afterBets d bets k) i ∧ 0 < contribution (afterBets d bets k) i) := by
  obtain ⟨k, hk⟩ := C70_ends_partial h hn hz bets
  have hin := afterBets_inHand h bets k
  have hst : ∀ j ≥ k, afterBets d bets j = afterBets d bets k := by
    intro j hj
    induction j, hj using Nat.le_induction with
    | base => rfl
    | succ j hj ih =>
      show (step (afterBets d bets j) _).1 = _
      rw [ih]; exact step_over hin (hk k (le_refl _)) _
  have hcfg := afterBets_cfg d bets k
  have hn' : NonNegative S (afterBets d bets k).cfg := by rw [hcfg]; exact hn
  have hz' : SizesOk (afterBets d bets k).cfg := by rw [hcfg]; exact hz
  refine ⟨k, ?_⟩
  by_cases ha : (afterBets d bets k).action = none
  · left
    intro j hj
    rw [hst j hj]
    exact ⟨ha, (seated_of_ended hin ha).2, fun i hi => C69_after_hand hin hn' hz' ha i (by rw [hcfg]; exact hi)⟩
  right
  have hre' := afterBets_reachable hre bets k
  obtain ⟨hsh, hee⟩ : AtShowdown (afterBets d bets k) ∧ ∃ e, payouts (afterBets d bets k) = .error e := by
    rcases hk k (le_refl _) with h1 | h1
    · exact absurd h1 ha
    · exact h1
  obtain ⟨s, hr⟩ := ranks_exist hre' (Dealt.hole_ne (d := atSeat (afterBets d bets k)) (array_seated hre') (array_dealt hre') ha)
    (by have := hsh.1; omega) (by rw [hcfg]; exact he) (by rw [hcfg]; exact hf) (by rw [hcfg]; exact hg)
  have hu := (unpaid_iff hin hn' hz' ha hsh hr).1 hee
  obtain ⟨a, ha'⟩ := Option.ne_none_iff_exists'.1 ha
  obtain ⟨hsd, -, -⟩ := sound_of_action hin hn' hz' ha'
  have hnot := unpaid_nothing (d := afterBets d bets k) hsd.nn.contrib hu
  obtain ⟨i, hi, h1⟩ := unpaid_some (d := afterBets d bets k) hsd.nn.contrib hu
  refine ⟨hst, ha, hsh, ⟨s, hr, hu⟩, fun i hi => hnot i (by rw [hcfg]; exact hi), i, by rw [← hcfg]; exact hi, ?_, h1⟩
  intro hin
  have := hnot i hi hin
  omega

/-- **C70** (the converse): a table in that state stays as it is, whatever is bet; the player to act remains to act for ever. -/
theorem C70_stuck (h : ArrayInHand S d) (hn : NonNegative S d.cfg) (hz : SizesOk d.cfg) (ha : d.action ≠ none) (hsh : AtShowdown d)
    (hr : Ranks d s) (hu : Unpaid d s) (bets : Nat → Rat) (k : Nat) : afterBets d bets k = d := by
  have ho : Over d := .inr ⟨hsh, (unpaid_iff h hn hz ha hsh hr).2 hu⟩
  induction k with
  | zero => rfl
  | succ k ih =>
    show (step (afterBets d bets k) _).1 = _
    rw [ih]; exact step_over h ho _

/-- **C70**: at a sensible table (the deck is large enough, hands have enough cards, the evaluator fits the cards) where everybody can pay
blind and ante, every hand ends, whatever the antes and whatever is bet: after finitely many steps nobody is to act and the chips are
paid out. -/
theorem C70_covered (h : ArrayInHand S d) (hre : ArrayReachable d) (hn : NonNegative S d.cfg) (hz : SizesOk d.cfg)
    (hc : Covers S d.cfg) (he : Enough d.cfg) (hf : HandsFit d.cfg) (hg : GoodEvaluator d.cfg) (bets : Nat → Rat) :
    ∃ k, ∀ j ≥ k, (afterBets d bets j).action = none ∧ (afterBets d bets j).pot = 0 ∧
      ∀ i < d.cfg.numPlayers, 0 ≤ stack (afterBets d bets j) i := by
  obtain ⟨k, hk | ⟨-, ha, -, -, h1, i, hi, h2, h3⟩⟩ := C70_exact h hre hn hz he hf hg bets
  · exact ⟨k, hk⟩
  · have hcfg := afterBets_cfg d bets k
    obtain ⟨j, hj, j1, j2⟩ := stake_of (afterBets_inHand h bets k) (by rw [hcfg]; exact hn) (by rw [hcfg]; exact hz)
      (by rw [hcfg]; exact hc) ha ⟨i, by rw [hcfg]; exact hi, h3⟩
    have := h1 j (by rw [← hcfg]; exact hj) j1
    omega

instance (d : Dealer) (s : Nat → Int) : Decidable (Unpaid d s) := inferInstanceAs (Decidable (_ ∧ _))

/-- **C70 is false** for players who cannot pay their ante. Three players have one chip each and only the first to act pays an ante, of five
chips. That player folds (a bet of anything does it: the amount to call is -4), which gives four chips back; the other two check to the
end. The one chip in the pot belongs to the player who folded. It is split three ways, nobody gets a share, no seat is found for the odd
chip, `ValueError` is raised, and the hand never ends. -/
theorem C70_false : ∃ S d, ArrayInHand S d ∧ ArrayReachable d ∧ (NonNegative S d.cfg ∧ SizesOk d.cfg ∧ Enough d.cfg ∧
    S = [1, 1, 1] ∧ d.cfg.antes = [0, 0, 5] ∧ Ranks (step d (.fin 0)).1 (strength [5, 4, 3]) ∧
    Unpaid (step d (.fin 0)).1 (strength [5, 4, 3])) ∧ ∀ bets k, bets 0 = 0 → 1 ≤ k → (afterBets d bets k).action = some 1 := by
  obtain ⟨S, d, h1, h2, h3, h4, h5⟩ := hand_exists (mixed 3 1 6 [0, 0, 5] [0, 0, 0] 1) [.bet (-1), .bet 0, .bet 0, .bet 0]
    (P := fun S d => (NonNegative S d.cfg ∧ SizesOk d.cfg ∧ Enough d.cfg ∧
      S = [1, 1, 1] ∧ d.cfg.antes = [0, 0, 5] ∧ Ranks (step d (.fin 0)).1 (strength [5, 4, 3]) ∧
      Unpaid (step d (.fin 0)).1 (strength [5, 4, 3])) ∧ AtShowdown (step d (.fin 0)).1 ∧ (step d (.fin 0)).1.action = some 1)
    (by decide +kernel)
  refine ⟨S, d, h1, h2, h3, fun bets k hb hk => ?_⟩
  obtain ⟨hn, hz, -, -, -, hr, hu⟩ := h3
  have hshift : ∀ k, afterBets d bets (k + 1) = afterBets (step d (.fin 0)).1 (fun i => bets (i + 1)) k := by
    intro k
    induction k with
    | zero => show (step d (.fin (bets 0))).1 = _; rw [hb]; rfl
    | succ k ih =>
      show (step (afterBets d bets (k + 1)) _).1 = _
      rw [ih]; rfl
  obtain ⟨j, rfl⟩ : ∃ j, k = j + 1 := ⟨k - 1, by omega⟩
  have hcfg := step_cfg d (.fin 0)
  rw [hshift, C70_stuck (ArrayInHand.step _ h1) (by rw [hcfg]; exact hn) (by rw [hcfg]; exact hz) (by rw [h5]; simp) h4 hr hu]
  exact h5

/-- the evaluator of a new table without a custom order -/
theorem new_goodEvaluator {a : DealerArgs} {shuf : Shuffle} (h : new a shuf = .ok d) (ho : a.order = none) : GoodEvaluator d.cfg := by
  have hc : d.cfg.numCardsForHand = a.numCardsForHand ∧ d.cfg.mandatoryNumHoleCards = a.mandatoryNumHoleCards := by
    have h : Dealer.new a shuf = .ok d := h
    unfold Dealer.new at h
    simp only [bind, Except.bind, pure, Except.pure] at h
    repeat' split at h
    all_goals first | (simp only [Except.ok.injEq] at h; subst h; exact ⟨rfl, rfl⟩) | simp at h
  obtain ⟨-, -, -, -, -, -, -, -, v9, v10, -, -, -, v14⟩ := C44_values a shuf d h
  exact ⟨a.lowEndStraight, a.order, by rw [v9, v10, hc.1, hc.2]; exact v14, .inl ho⟩

instance (c : Config) : Decidable (HandsFit c) := by
  unfold HandsFit; infer_instance

/-- a table with one ante of five chips that everybody can pay meets the hypotheses of `C70_covered` (and of `C70_exact`) -/
example : ∃ S d, ArrayInHand S d ∧ ArrayReachable d ∧ NonNegative S d.cfg ∧ SizesOk d.cfg ∧ Covers S d.cfg ∧ Enough d.cfg ∧
    HandsFit d.cfg ∧ GoodEvaluator d.cfg ∧ ¬ CloseAntes d.cfg := by
  obtain ⟨d, hd, h1, d', obs, hr⟩ : ∃ d, new (mixed 3 1 6 [0, 0, 5] [1, 2, 0] 10) id = .ok d ∧
      (NonNegative d.stacks d.cfg ∧ SizesOk d.cfg ∧ Covers d.stacks d.cfg ∧ Enough d.cfg ∧ HandsFit d.cfg ∧ ¬ CloseAntes d.cfg) ∧
      ∃ d' obs, reset d false false id = (d', .ok obs) := by
    have key : (match new (mixed 3 1 6 [0, 0, 5] [1, 2, 0] 10) id with
      | .ok d => decide (NonNegative d.stacks d.cfg ∧ SizesOk d.cfg ∧ Covers d.stacks d.cfg ∧ Enough d.cfg ∧ HandsFit d.cfg ∧
          ¬ CloseAntes d.cfg) && (match reset d false false id with | (_, .ok _) => true | _ => false)
      | .error _ => false) = true := by decide +kernel
    split at key
    · next d hd =>
      rw [Bool.and_eq_true, decide_eq_true_eq] at key
      refine ⟨d, hd, key.1, ?_⟩
      have h2 := key.2
      split at h2
      · next d' obs hr => exact ⟨d', obs, hr⟩
      · cases h2
    · cases key
  have hcfg : d'.cfg = d.cfg := by have := reset_cfg d false false id; rwa [hr] at this
  have hre := ArrayReachable.reset false false isShuffle_id (.new isShuffle_id hd)
  rw [hr] at hre
  obtain ⟨g1, g2, g3, g4, g5, g6⟩ := h1
  refine ⟨_, d', .dealt (rs := false) (new_atSeat hd) isShuffle_id hr, hre, ?_⟩
  rw [hcfg]
  exact ⟨g1, g2, g3, g4, g5, new_goodEvaluator hd rfl, g6⟩

end Clubs.Numpy
