import Verif.Lemmas.Level
import Verif.Lemmas.Shipped
import Verif.Props.Flow

/-!
# Hands with equal antes: C25–C27 and C37, C77
-/

namespace Clubs

open Spec

variable {S : List Int} {d d' : Dealer} {bet : PyNum} {s : Nat → Int}

instance (c : Config) : Decidable (EqualAntes c) := by unfold EqualAntes; infer_instance
instance (S : List Int) : Decidable (EqualStart S) := by unfold EqualStart; infer_instance

/-! ## C77 -/

/-- **C77**: with equal antes, whoever is in when all streets have been played has put in as much as anybody else, or all
their chips. -/
theorem C77_matched (h : InHand S d) (hn : NonNegative S d.cfg) (hcov : Covers S d.cfg) (he : EqualAntes d.cfg)
    (hsh : AtShowdown d) {i : Nat} (hi : i < d.cfg.numPlayers) (hin : isIn d i) :
    (∀ j < d.cfg.numPlayers, contribution d j ≤ contribution d i) ∨ contribution d i = S.getD i 0 := by
  obtain ⟨-, M, h1, -, h3⟩ := level_showdown h hn hcov he hsh.1
  rcases h3 i hi hin with h4 | h4
  · exact .inl fun j hj => by rw [h4]; exact h1 j hj
  · exact .inr h4

/-- **C77**: if moreover all started with the same chips, everybody who is in has put in the same. -/
theorem C77_equal (h : InHand S d) (hn : NonNegative S d.cfg) (hcov : Covers S d.cfg) (he : EqualAntes d.cfg)
    (hS : EqualStart S) (hsh : AtShowdown d) {i : Nat} (hi : i < d.cfg.numPlayers) (hin : isIn d i) :
    ∀ j < d.cfg.numPlayers, contribution d j ≤ contribution d i ∧ (isIn d j → contribution d j = contribution d i) := by
  obtain ⟨M, h1, h2⟩ := clear_of_level h hn hcov he hS hsh
  intro j hj
  rw [h2 i hi hin]
  exact ⟨h1 j hj, h2 j hj⟩

/-! ## the pot is clear -/

/-- such a pot is clear -/
theorem equal_clear (h : InHand S d) (hn : NonNegative S d.cfg) (hcov : Covers S d.cfg) (he : EqualAntes d.cfg)
    (hS : EqualStart S) (hsh : AtShowdown d) (s : Nat → Int) : ClearPot d s := by
  obtain ⟨M, h1, h2⟩ := clear_of_level h hn hcov he hS hsh
  refine clear_of_equal h1 (by have := hsh.2; omega) ?_ h2
  rcases level_of_inHand (le_refl 0) h hn hcov (fun a ha b hb => by rw [he a ha b hb]; omega) with ⟨-, hl⟩ | ⟨e, p, rfl, -, hl⟩
  · exact hl.seated.active
  · exact hl.seated.active

/-- **C25**, complete for tables with equal antes at which all start with the same chips: every seat receives its share of every pot it wins,
rounded down; one seat gets the odd chips on top. The rounded shares differ from the exact ones by less than the odd chips. -/
theorem C25_equal_start {obs : Observation} {pays : List Int} {done : List Bool} (h : InHand S d) (hn : NonNegative S d.cfg)
    (hcov : Covers S d.cfg) (he : EqualAntes d.cfg) (hS : EqualStart S) (hrun : Running d)
    (hs : d.step bet = (d', .ok (obs, pays, done))) (hsh : AtShowdown d') :
    ∃ s, Ranks d' s ∧ ∃ k < d'.cfg.numPlayers, ∀ j < d'.cfg.numPlayers,
      received d' pays j = dueAt d' s j + (if k = j then oddAt d' s else 0) ∧
      (dueAt d' s j : Rat) ≤ fairShare d'.cfg.numPlayers (inB d') (contribution d') s j ∧
      fairShare d'.cfg.numPlayers (inB d') (contribution d') s j ≤ dueAt d' s j + oddAt d' s := by
  obtain ⟨s, hr⟩ := C25_ranked h hn hrun hs hsh
  have hin : InHand S d' := by have := InHand.step bet h; rwa [hs] at this
  have hcfg : d'.cfg = d.cfg := by have := step_cfg d bet; rwa [hs] at this
  have hc := equal_clear hin (by rw [hcfg]; exact hn) (by rw [hcfg]; exact hcov) (by rw [hcfg]; exact he) hS hsh s
  exact ⟨s, hr, C25_shares_partial h hn hrun hs hsh hr hc⟩

/-- **C27**, complete for such tables with the button at seat 0 (as after `reset(reset_button=True, reset_stacks=True)`): the showdown
completes; if there are odd chips, the first winner clockwise from the button gets them. -/
theorem C27_equal_start {res : Except Err StepOut} (h : InHand S d) (hn : NonNegative S d.cfg)
    (hcov : Covers S d.cfg) (he : EqualAntes d.cfg) (hS : EqualStart S) (hrun : Running d)
    (hs : d.step bet = (d', res)) (hsh : AtShowdown d') (hr : Ranks d' s) (hb : d'.button = 0) :
    ∃ obs pays done, res = .ok (obs, pays, done) ∧ ((oddAt d' s = 0 ∧ ∀ j < d'.cfg.numPlayers, received d' pays j = dueAt d' s j) ∨
      ∃ w, FirstAfter d'.cfg.numPlayers (Wins d' s) d'.button w ∧
        ∀ j < d'.cfg.numPlayers, received d' pays j = dueAt d' s j + if w = j then oddAt d' s else 0) := by
  have hin : InHand S d' := by have := InHand.step bet h; rwa [hs] at this
  have hcfg : d'.cfg = d.cfg := by have := step_cfg d bet; rwa [hs] at this
  have hc := equal_clear hin (by rw [hcfg]; exact hn) (by rw [hcfg]; exact hcov) (by rw [hcfg]; exact he) hS hsh s
  by_cases h0 : oddAt d' s = 0
  · obtain ⟨obs, pays, done, h1, h2⟩ := C27_even h hn hrun hs hsh hr hc h0
    exact ⟨obs, pays, done, h1, .inl ⟨h0, h2⟩⟩
  · obtain ⟨obs, pays, done, w, h1, h2⟩ := C27_first_winner_partial h hn hrun hs hsh hr hc h0 hb
    exact ⟨obs, pays, done, h1, .inr ⟨w, h2⟩⟩

/-! ## C37 -/

theorem step_button (d : Dealer) (bet : PyNum) : (d.step bet).1.button = d.button := by
  cases ha : d.action with
  | none => rw [step_none ha]
  | some a =>
    rcases step_some ha bet with ⟨e, -, he⟩ | ⟨b, e, -, -, he⟩ | ⟨b, c, lo, hi, -, -, he⟩
    · rw [he]
    · rw [he]
    · rw [he]
      have h1 := (afterBet_fields d bet.isNeg c (cleanBet b c lo hi)).2.2.1
      generalize d.afterBet bet.isNeg c (cleanBet b c lo hi) = x at *
      rcases finish_cases x with ⟨e, -, he⟩ | ⟨p, hp, -, he, -⟩ | ⟨p, -, -, he, -⟩
      · rw [he]; exact h1
      · rw [he]; exact h1
      · rw [he]; exact h1

theorem afterBets_button (d : Dealer) (bets : Nat → Rat) (k : Nat) : (afterBets d bets k).button = d.button := by
  induction k with
  | zero => rfl
  | succ k ih => exact (step_button _ _).trans ih

theorem afterBets_reachable (h : Reachable d) (bets : Nat → Rat) (k : Nat) : Reachable (afterBets d bets k) := by
  induction k with
  | zero => exact h
  | succ k ih => exact .step _ ih

/-- a hand that is over although somebody is to act -/
theorem stuck_live (h : InHand S d) (hn : NonNegative S d.cfg) (ho : Over d) (ha : d.action ≠ none) :
    Live S d ∧ NN d ∧ AtShowdown d ∧ ∃ e, d.payouts = .error e := by
  obtain ⟨a, ha'⟩ := Option.ne_none_iff_exists'.1 ha
  obtain ⟨hl, -⟩ := live_of_action h ha'
  rcases ho with ho | ⟨h1, e, he⟩
  · exact absurd ho ha
  · refine ⟨hl, nn_of_action h hn ha', ⟨h1, ?_⟩, e, he⟩
    have h2 : countTrue d.active ≠ 1 := by
      intro h3
      unfold Dealer.payouts at he
      simp only [] at he
      rw [if_pos h3] at he
      cases he
    have h3 := hl.one
    unfold countTrue at h2 h3
    unfold numIn
    omega

theorem stuck_why (h : InHand S d) (hn : NonNegative S d.cfg) (ho : Over d) (ha : d.action ≠ none) (hr : Ranks d s)
    (hc : ClearPot d s) : oddAt d s ≠ 0 ∧ ∀ w, d.button < w → ¬ Wins d s w := by
  obtain ⟨hl, hnn, hsh, e, he⟩ := stuck_live h hn ho ha
  have hone : countTrue d.active ≠ 1 := by
    have := hsh.2
    unfold numIn at this
    unfold countTrue
    omega
  cases showdown_paid hl.seated hl.holeLen hl.pot hnn.contrib hr hc hone hsh.1 with
  | even p h1 => rw [h1] at he; cases he
  | odd p k h1 => rw [h1] at he; cases he
  | raises h1 h0 hf =>
    refine ⟨h0, fun w hw hwi => ?_⟩
    obtain ⟨t, ht⟩ := hwi
    exact (due_pos_iff hnn.contrib w).2 ⟨t, ht⟩ (hf w hw (winners_act ht).1)

/-- **C37** (part): at a sensible table, after finitely many steps either nobody is to act any more, or the hand is stuck at a showdown; if
the pot is clear this happens only if there are odd chips and nobody with a seat number above the button's wins anything. -/
theorem C37_sensible_partial (h : InHand S d) (hre : Reachable d) (hn : NonNegative S d.cfg) (he : Enough d.cfg) (hf : HandsFit d.cfg)
    (hg : GoodEvaluator d.cfg) (bets : Nat → Rat) :
    ∃ k, ∀ j ≥ k, (afterBets d bets j).action = none ∨ (AtShowdown (afterBets d bets j) ∧ ∃ s, Ranks (afterBets d bets j) s ∧
      (ClearPot (afterBets d bets j) s → oddAt (afterBets d bets j) s ≠ 0 ∧
        ∀ w, d.button < w → ¬ Wins (afterBets d bets j) s w)) := by
  obtain ⟨k, hk⟩ := C37_ends_partial h hn bets
  refine ⟨k, fun j hj => ?_⟩
  by_cases ha : (afterBets d bets j).action = none
  · exact .inl ha
  right
  have hin := afterBets_inHand h bets j
  have hcfg := afterBets_cfg d bets j
  have hre' := afterBets_reachable hre bets j
  have hn' : NonNegative S (afterBets d bets j).cfg := by rw [hcfg]; exact hn
  obtain ⟨hl, -, hsh, -⟩ := stuck_live hin hn' (hk j hj) ha
  obtain ⟨s, hr⟩ := C54_ranks hre' ((reachable_dealt hre').hole_ne hl.seated ha) (by have := hsh.1; omega) (by rw [hcfg]; exact he)
    (by rw [hcfg]; exact hf) (by rw [hcfg]; exact hg)
  refine ⟨hsh, s, hr, fun hc => ?_⟩
  have := stuck_why hin hn' (hk j hj) ha hr hc
  rwa [afterBets_button] at this

/-- **C37**, complete for tables with equal antes at which all start with the same chips, with the button at seat 0: every hand ends. -/
theorem C37_equal_start (h : InHand S d) (hre : Reachable d) (hn : NonNegative S d.cfg) (hcov : Covers S d.cfg) (heq : EqualAntes d.cfg)
    (hS : EqualStart S) (hb : d.button = 0) (he : Enough d.cfg) (hf : HandsFit d.cfg) (hg : GoodEvaluator d.cfg) (bets : Nat → Rat) :
    ∃ k, ∀ j ≥ k, (afterBets d bets j).action = none := by
  obtain ⟨k, hk⟩ := C37_sensible_partial h hre hn he hf hg bets
  refine ⟨k, fun j hj => ?_⟩
  rcases hk j hj with h1 | ⟨hsh, s, hr, h2⟩
  · exact h1
  exfalso
  have hcfg := afterBets_cfg d bets j
  have hc := equal_clear (afterBets_inHand h bets j) (by rw [hcfg]; exact hn) (by rw [hcfg]; exact hcov) (by rw [hcfg]; exact heq)
    hS hsh s
  obtain ⟨h3, h4⟩ := h2 hc
  obtain ⟨i, j', t, hij, hi, hj'⟩ := two_winners hc.folds h3
  rw [hb] at h4
  by_cases hi0 : 0 < i
  · exact h4 i hi0 ⟨t, hi⟩
  · exact h4 j' (by omega) ⟨t, hj'⟩

/-- two players with equal antes: the pot is clear and there are no odd chips -/
theorem heads_up_clear (h : InHand S d) (hn : NonNegative S d.cfg) (hcov : Covers S d.cfg) (heq : EqualAntes d.cfg)
    (h2 : d.cfg.numPlayers = 2) (hpos : ∀ x ∈ S, 0 < x) (hact : d.active.length = 2) (hsh : AtShowdown d) (s : Nat → Int) :
    ClearPot d s ∧ oddAt d s = 0 := by
  obtain ⟨hlen, M, m1, m2, m3⟩ := level_showdown h hn hcov heq hsh.1
  have hall : ∀ i < 2, inB d i = true := by
    intro i hi
    have h3 : d.active.count true = d.active.length := by
      have h4 := hsh.2
      have h5 := List.count_le_length (a := true) (l := d.active)
      unfold numIn at h4
      omega
    unfold inB
    have h6 := List.count_eq_length.1 h3
    exact (h6 _ ((mem_getD false).2 ⟨i, by omega, rfl⟩)).symm
  have hf : FoldsCovered d.cfg.numPlayers (inB d) (contribution d) := by
    intro i hi ho
    rw [hall i (by omega)] at ho
    simp at ho
  refine ⟨?_, odd_two (by omega) hf⟩
  by_cases h0 : ∀ i < 2, 0 < contribution d i
  · exact clear_of_two (p := 0) (q := 1) hf fun i hi _ => ⟨by omega, h0 i (by omega)⟩
  · obtain ⟨i, hi⟩ := not_forall.1 h0
    obtain ⟨hi, hi0⟩ := Classical.not_imp.1 hi
    have h3 := m2 i (by omega)
    have h4 : M = 0 := by
      rcases m3 i (by omega) (hall i hi) with h5 | h5
      · omega
      · have := hpos _ ((mem_getD 0).2 ⟨i, by omega, rfl⟩)
        omega
    refine clear_of_equal m1 (by have := hsh.2; omega) (by omega) fun j hj _ => ?_
    have h5 := m2 j hj
    have h6 := m1 j hj
    omega

/-- **C25**, complete for two players with chips and equal antes: the showdown completes, at both positions of the button, and both receive
exactly their share of every layer they win. -/
theorem C25_two_players {res : Except Err StepOut} (h : InHand S d) (hn : NonNegative S d.cfg) (hcov : Covers S d.cfg)
    (heq : EqualAntes d.cfg) (h2 : d.cfg.numPlayers = 2) (hpos : ∀ x ∈ S, 0 < x) (hrun : Running d)
    (hs : d.step bet = (d', res)) (hsh : AtShowdown d') (hr : Ranks d' s) :
    ∃ obs pays done, res = .ok (obs, pays, done) ∧ ∀ j < 2,
      (received d' pays j : Rat) = fairShare 2 (inB d') (contribution d') s j := by
  have hin : InHand S d' := by have := InHand.step bet h; rwa [hs] at this
  have hcfg : d'.cfg = d.cfg := by have := step_cfg d bet; rwa [hs] at this
  obtain ⟨x, hd, -, -, -, -, -, e1, e2, -⟩ := step_showdown h hn hrun hs hsh
  have hact : d'.active.length = 2 := by rw [e2, hd.active, ← e1, hcfg, h2]
  obtain ⟨hc, h0⟩ := heads_up_clear hin (by rw [hcfg]; exact hn) (by rw [hcfg]; exact hcov) (by rw [hcfg]; exact heq)
    (by rw [hcfg]; exact h2) hpos hact hsh s
  obtain ⟨obs, pays, done, rfl, -⟩ := C27_even h hn hrun hs hsh hr hc h0
  refine ⟨obs, pays, done, rfl, fun j hj => ?_⟩
  have := C25_exact_partial h hn hrun hs hsh hr hc h0 (j := j) (by rw [hcfg, h2]; exact hj)
  rwa [hcfg, h2] at this

/-- **C37**, complete for two players with chips and equal antes: every hand ends, at both positions of the button. -/
theorem C37_heads_up (h : InHand S d) (hre : Reachable d) (hn : NonNegative S d.cfg) (hcov : Covers S d.cfg) (heq : EqualAntes d.cfg)
    (h2 : d.cfg.numPlayers = 2) (hpos : ∀ x ∈ S, 0 < x) (he : Enough d.cfg) (hf : HandsFit d.cfg) (hg : GoodEvaluator d.cfg)
    (bets : Nat → Rat) : ∃ k, ∀ j ≥ k, (afterBets d bets j).action = none := by
  obtain ⟨k, hk⟩ := C37_sensible_partial h hre hn he hf hg bets
  refine ⟨k, fun j hj => ?_⟩
  rcases hk j hj with h1 | ⟨hsh, s, hr, h3⟩
  · exact h1
  exfalso
  have hcfg := afterBets_cfg d bets j
  have hseat := reachable_seated (afterBets_reachable hre bets j)
  obtain ⟨hc, h0⟩ := heads_up_clear (afterBets_inHand h bets j) (by rw [hcfg]; exact hn) (by rw [hcfg]; exact hcov)
    (by rw [hcfg]; exact heq) (by rw [hcfg]; exact h2) hpos (by rw [hseat.active, hcfg, h2]) hsh s
  exact (h3 hc).1 h0

/-- **C37** for the configurations of `clubs/configs.py` except the one in which only one position pays an ante: the first hand, dealt
with the button at seat 0, always ends. -/
theorem C37_shipped {a : DealerArgs} (ha : a ∈ ALL_CONFIGS) (hne : a ≠ NO_LIMIT_HOLDEM_BB_ANTE_NINE_PLAYER) {shuf shuf' : Shuffle}
    (hs : IsShuffle shuf) (hs' : IsShuffle shuf') (hd : Dealer.new a shuf = .ok d) {rs : Bool} {obs : Observation}
    (hr : d.reset true rs shuf' = (d', .ok obs)) (bets : Nat → Rat) : ∃ k, ∀ j ≥ k, (afterBets d' bets j).action = none := by
  have g := shipped_good ha hd rs
  have hcfg : d'.cfg = d.cfg := by have := reset_cfg d true rs shuf'; rwa [hr] at this
  rw [← hcfg] at g
  have hre := Reachable.reset true rs hs' (.new hs hd)
  rw [hr] at hre
  obtain ⟨v1, v2, -, -, -, v6, -, v8, -, -, -, v11, v12, -⟩ := C44_values a shuf d hd
  have key : ∀ a ∈ ALL_CONFIGS, a ≠ NO_LIMIT_HOLDEM_BB_ANTE_NINE_PLAYER →
      ∀ x ∈ expandL a.antes a.numPlayers, ∀ y ∈ expandL a.antes a.numPlayers, x = y := by decide +kernel
  have heq : EqualAntes d'.cfg := by
    unfold EqualAntes
    rw [hcfg, expands_eq v2]; exact key a ha hne
  have hS : EqualStart (startStacks d rs) := by
    have : startStacks d rs = List.replicate d.cfg.numPlayers a.startStack := by
      unfold startStacks
      rw [v11, v12]; simp
    rw [this]
    intro x hx y hy
    rw [List.eq_of_mem_replicate hx, List.eq_of_mem_replicate hy]
  have hb : d'.button = 0 := by
    obtain ⟨-, -, rfl, -⟩ := reset_ok hr
    exact (blindStart_same d true rs shuf').2.2.1
  exact C37_equal_start (.dealt (new_seated hd) hs' hr) hre g.nonneg g.covers heq hS hb g.enough g.fits g.evaluator bets

/-! ## what goes wrong with unequal antes -/

/-- a table with two community cards at which seat 0 has the best hand and the others equal hands -/
def secondBest (n : Int) (antes blinds : List Int) (stack : Int) : DealerArgs :=
  { mixed n 3 4 antes blinds stack with numCommunityCards := .list [2, 0], numCardsForHand := 3 }

/-- **C37 is false** also with the button at seat 0, equal stacks and antes that differ by one chip: seat 0 has the best hand, seats 1 and 2
tie, and seat 2 paid the ante. Nobody else paid that chip, but the engine splits it between seats 1 and 2: each gets 0 of it, and no seat is
found for the odd chip. -/
theorem C37_false_ante : ∃ S d, InHand S d ∧ Reachable d ∧ NonNegative S d.cfg ∧ Covers S d.cfg ∧ CloseAntes d.cfg ∧ EqualStart S ∧
    d.button = 0 ∧ Running d ∧ AtShowdown (d.step (.fin 0)).1 ∧ (d.step (.fin 0)).1.action = some 1 ∧
    (match (d.step (.fin 0)).2 with | .error .indexError => true | _ => false) = true :=
  hand_exists (secondBest 3 [0, 1, 0] [1, 2, 0] 30) [.bet 2, .bet 1, .bet 0, .bet 0, .bet 0] (by decide +kernel)

/-- a shuffle: the last four cards of the deck, then the others -/
def acesFirst (l : List Card) : List Card := l.drop 48 ++ l.take 48

theorem acesFirst_isShuffle : IsShuffle acesFirst := fun l => by
  unfold acesFirst
  exact List.perm_append_comm.trans (by rw [List.take_append_drop])

/-- seat 3 calls, seats 4 to 8 fold, the button (seat 0) calls, the small blind (seat 1) folds, then all check -/
def bbBets (k : Nat) : Rat := ([4, -1, -1, -1, -1, -1, 4, -1] : List Int).getD k 0

set_option maxRecDepth 1000000 in
/-- **C37 is false** for the remaining configuration of `clubs/configs.py`: with these cards and bets the first hand of
`NO_LIMIT_HOLDEM_BB_ANTE_NINE_PLAYER` never ends. Nobody is all in; the button has aces full, seats 2 and 3 tie, and seat 2 paid the ante. -/
theorem C37_false_shipped : ∃ d d' obs, Dealer.new NO_LIMIT_HOLDEM_BB_ANTE_NINE_PLAYER id = .ok d ∧
    d.reset true true acesFirst = (d', .ok obs) ∧ ∀ j ≥ 18, (afterBets d' bbBets j).action = some 2 := by
  have hm : NO_LIMIT_HOLDEM_BB_ANTE_NINE_PLAYER ∈ ALL_CONFIGS := by decide
  obtain ⟨d, hd⟩ := (C45_shipped NO_LIMIT_HOLDEM_BB_ANTE_NINE_PLAYER hm).constructs id
  obtain ⟨-, -, -, -, -, -, h4⟩ := (C45_shipped _ hm).plays id d hd
  obtain ⟨d', obs, hr⟩ := h4 true true acesFirst
  refine ⟨d, d', obs, hd, hr, ?_⟩
  have key : (match Dealer.new NO_LIMIT_HOLDEM_BB_ANTE_NINE_PLAYER id with
      | .error _ => false
      | .ok d =>
        let x := afterBets (d.reset true true acesFirst).1 bbBets 18
        decide (x.action = some 2) && decide (x.cfg.numStreets ≤ x.street) &&
          (match x.payouts with | .error _ => true | _ => false)) = true := by decide +kernel
  rw [hd] at key
  simp only [hr, Bool.and_eq_true, decide_eq_true_eq] at key
  obtain ⟨⟨k1, k2⟩, k3⟩ := key
  have hin := afterBets_inHand (.dealt (new_seated hd) acesFirst_isShuffle hr) bbBets 18
  have ho : Over (afterBets d' bbBets 18) := .inr ⟨k2, by
    split at k3
    · next e h => exact ⟨e, h⟩
    · cases k3⟩
  intro j hj
  suffices h : afterBets d' bbBets j = afterBets d' bbBets 18 by rw [h]; exact k1
  induction j, hj using Nat.le_induction with
  | base => rfl
  | succ j hj ih =>
    show ((afterBets d' bbBets j).step _).1 = _
    rw [ih]; exact step_over hin ho _

/-! ## instances -/

/-- the hypotheses of `C77_matched`, `C77_equal`, `C25_equal_start` and `C27_equal_start`, with odd chips: all three put in 3 and one folded 2 -/
example : ∃ S d d' out, InHand S d ∧ Reachable d ∧ d.step (.fin 0) = (d', .ok out) ∧ NonNegative S d.cfg ∧ Covers S d.cfg ∧
    EqualAntes d.cfg ∧ EqualStart S ∧ Running d ∧ AtShowdown d' ∧ Ranks d' (fun _ => 1) ∧ d'.button = 0 ∧
    oddAt d' (fun _ => 1) = 1 :=
  step_exists (ties 4 [1, 2, 0, 0] 10)
    [.bet 2, .bet 2, .bet (-1), .bet 0, .bet 0, .bet 0] (.fin 0) (by decide +kernel)

/-- a player who is all in for less than the others (`C77_matched`) -/
example : ∃ S d, InHand S d ∧ Reachable d ∧ NonNegative S d.cfg ∧ Covers S d.cfg ∧ EqualAntes d.cfg ∧ AtShowdown d ∧
    S = [8, 8, 14] ∧ isIn d 1 ∧ contribution d 0 = 8 ∧ contribution d 1 = 8 ∧ contribution d 2 = 14 :=
  hand_exists (small 3 [1, 2, 0] 10) [.bet 2, .bet 1, .bet 0, .bet 0, .bet 0, .bet 0, .deal, .bet 8, .bet 12, .bet 6]
    (by decide +kernel)

/-- With unequal antes `C77_matched` is false: seat 0 is in, has chips left and put in less than seat 2. -/
theorem C77_false_antes : ∃ S d d' out, InHand S d ∧ Reachable d ∧ d.step (.fin 0) = (d', .ok out) ∧ NonNegative S d.cfg ∧
    Covers S d.cfg ∧ CloseAntes d.cfg ∧ AtShowdown d' ∧ isIn d' 0 ∧ contribution d' 0 = 2 ∧ contribution d' 2 = 3 ∧ stack d 0 = 28 :=
  step_exists (mixed 3 1 6 [0, 1, 0] [1, 2, 0] 30) [.bet 2, .bet 1, .bet 0, .bet 0, .bet 0] (.fin 0) (by decide +kernel)

/-- two players who both put in all of their different stacks, both in, at the second position of the button (`C25_two_players`) -/
example : ∃ S d d' out, InHand S d ∧ Reachable d ∧ d.step (.fin 9) = (d', .ok out) ∧ NonNegative S d.cfg ∧ Covers S d.cfg ∧
    EqualAntes d.cfg ∧ d.cfg.numPlayers = 2 ∧ (∀ x ∈ S, 0 < x) ∧ Running d ∧ AtShowdown d' ∧ d'.button = 1 ∧ S = [9, 11] :=
  step_exists (small 2 [1, 2] 10) [.bet (-1), .deal, .bet 10] (.fin 9) (by decide +kernel)

/-- The hypotheses of `C37_sensible_partial`, `C37_equal_start` and `C37_heads_up` hold in the first hand of two-player Kuhn poker. -/
example : ∃ S d, InHand S d ∧ Reachable d ∧ NonNegative S d.cfg ∧ Covers S d.cfg ∧ EqualAntes d.cfg ∧ EqualStart S ∧ d.button = 0 ∧
    d.cfg.numPlayers = 2 ∧ (∀ x ∈ S, 0 < x) ∧ Enough d.cfg ∧ HandsFit d.cfg ∧ GoodEvaluator d.cfg := by
  have hm : KUHN_TWO_PLAYER ∈ ALL_CONFIGS := by decide
  obtain ⟨d, hd⟩ := (C45_shipped KUHN_TWO_PLAYER hm).constructs id
  obtain ⟨-, -, -, -, -, -, h4⟩ := (C45_shipped KUHN_TWO_PLAYER hm).plays id d hd
  obtain ⟨d', obs, hr⟩ := h4 true false id
  have hre := Reachable.reset true false isShuffle_id (.new isShuffle_id hd)
  rw [hr] at hre
  have g := shipped_good hm hd false
  have hcfg : d'.cfg = d.cfg := by have := reset_cfg d true false id; rwa [hr] at this
  rw [← hcfg] at g
  obtain ⟨-, v2, -, -, -, v6, -, -, -, -, -, v11, v12, -⟩ := C44_values _ id d hd
  have hn : d.cfg.numPlayers = 2 := by
    have : (d.cfg.numPlayers : Int) = 2 := v6
    omega
  have hS : startStacks d false = [10, 10] := by
    show d.stacks = _
    rw [v12, hn]; rfl
  refine ⟨_, d', .dealt (new_seated hd) isShuffle_id hr, hre, g.nonneg, g.covers, ?_, ?_, ?_, by rw [hcfg, hn], ?_, g.enough, g.fits,
    g.evaluator⟩
  · unfold EqualAntes
    rw [hcfg, expands_eq v2]
    decide
  · rw [hS]; decide
  · obtain ⟨-, -, rfl, -⟩ := reset_ok hr
    exact (blindStart_same d true false id).2.2.1
  · rw [hS]; decide

end Clubs
