import Verif.Props.NumpyOdds
import Verif.Props.NumpyReplay
import Verif.Props.Division
import Verif.Props.Stuck

/-!
# What the winning chances promise, the showdown keeps: C98

`win_probabilities` is asked at some moment of a hand; then any bets are made, and two or more players reach the showdown.
-/

namespace Clubs

open Spec

variable {S : List Int} {d d' e : Dealer} {s : Nat → Int} {ps : List Rat}

/-! ## any later moment of the same hand -/

/-- `e` is a later moment of the hand at `d` -/
structure Later (d e : Dealer) : Prop where
  cfg : e.cfg = d.cfg
  hole : e.holeCards = d.holeCards
  cards : e.communityCards ++ e.deck.cards = d.communityCards ++ d.deck.cards
  board : d.communityCards <+: e.communityCards
  still : ∀ i < d.cfg.numPlayers, isIn e i → isIn d i

theorem Later.refl (d : Dealer) : Later d d := ⟨rfl, rfl, rfl, List.prefix_rfl, fun _ _ h => h⟩

theorem Later.trans {f : Dealer} (h : Later d e) (g : Later e f) : Later d f :=
  ⟨g.cfg.trans h.cfg, g.hole.trans h.hole, g.cards.trans h.cards, h.board.trans g.board,
    fun i hi hf => h.still i hi (g.still i (by rw [h.cfg]; exact hi) hf)⟩

theorem afterBets_later (h : InHand S d) (hr : Reachable d) (bets : List PyNum) :
    InHand S (Spec.afterBets d bets) ∧ Reachable (Spec.afterBets d bets) ∧ Later d (Spec.afterBets d bets) := by
  induction bets generalizing d with
  | nil => exact ⟨h, hr, .refl d⟩
  | cons b bets ih =>
    obtain ⟨h1, h2, h3⟩ := ih (d := (d.step b).1) (.step b h) (.step b hr)
    obtain ⟨g1, g2, g3⟩ := C40_grow hr b
    exact ⟨h1, h2, Later.trans ⟨step_cfg d b, g2, g3, g1, fun i hi => C34_permanent h b hi⟩ h3⟩

/-- the board at the showdown is one of the boards that were possible -/
theorem later_board (he : Dealt e) (hl : Later d e) (hr : d.holeCards ≠ []) (hen : Enough d.cfg)
    (hc : ∀ x ∈ d.cfg.numCommunityCards, 0 ≤ x) (hk : d.cfg.numCommunityCards.length = d.cfg.numStreets)
    (hst : d.cfg.numStreets ≤ e.street) : e.communityCards ∈ boards d := by
  obtain ⟨t, ht⟩ := hl.board
  have hcards : t ++ e.deck.cards = d.deck.cards := by
    have := hl.cards
    rw [← ht, List.append_assoc] at this
    exact List.append_cancel_left this
  have hlen : e.communityCards.length = (d.cfg.numCommunityCards.map Int.toNat).sum := by
    rw [(dealt_shape he (.inr (by rw [hl.hole]; exact hr)) (by rw [hl.cfg]; exact hen)).2.2, hl.cfg, boardSize_all (by omega)]
  have hsum : ∀ l : List Int, (∀ x ∈ l, 0 ≤ x) → l.sum = (((l.map Int.toNat).sum : Nat) : Int) := by
    intro l hl
    induction l with
    | nil => simp
    | cons a l ih =>
      rw [List.sum_cons, List.map_cons, List.sum_cons, ih (fun x hx => hl x (by simp [hx]))]
      have := hl a (by simp)
      omega
  unfold boards
  refine List.mem_map.2 ⟨t, List.mem_sublistsLen.2 ⟨?_, ?_⟩, ht⟩
  · rw [← hcards]; exact List.sublist_append_left _ _
  · unfold toCome
    rw [hsum _ hc, ← hlen, ← ht, List.length_append]
    omega

theorem two_le_sum (f : Nat → Nat) (n : Nat) {i j : Nat} (hi : i < n) (hj : j < n) (hne : i ≠ j) :
    f i + f j ≤ ((List.range n).map f).sum := by
  have one : ∀ (n : Nat) {i : Nat}, i < n → f i ≤ ((List.range n).map f).sum := by
    intro n
    induction n with
    | zero => intro i hi; omega
    | succ n ih =>
      intro i hi
      rw [List.range_succ, List.map_append, List.sum_append]
      simp only [List.map_cons, List.map_nil, List.sum_cons, List.sum_nil]
      rcases Nat.lt_succ_iff_lt_or_eq.1 hi with h | rfl
      · have := ih h; omega
      · omega
  induction n with
  | zero => omega
  | succ n ih =>
    rw [List.range_succ, List.map_append, List.sum_append]
    simp only [List.map_cons, List.map_nil, List.sum_cons, List.sum_nil]
    rcases Nat.lt_succ_iff_lt_or_eq.1 hi with h | rfl <;> rcases Nat.lt_succ_iff_lt_or_eq.1 hj with g | rfl
    · have := ih h g; omega
    · have := one _ h; omega
    · have := one _ g; omega
    · omega

theorem ps_get (hone : ∃ i < d.cfg.numPlayers, isIn d i) (h : d.winProbabilities = .ok ps) {i : Nat} (hi : i < d.cfg.numPlayers) :
    ps.getD i 0 = (timesBest d i : Rat) / ((((List.range d.cfg.numPlayers).map (timesBest d)).sum : Nat) : Rat) :=
  (C46_values_partial hone h).2 i hi

theorem timesBest_pos {b : List Card} (hb : b ∈ boards d) {i : Nat} (h : bestOn d b i = true) : timesBest d i ≠ 0 := by
  unfold timesBest
  intro h0
  rw [List.countP_eq_zero] at h0
  exact h0 b hb h

theorem bestOn_iff {b : List Card} {i : Nat} {v : Int} (hv : rankOn d b i = some v) :
    bestOn d b i = true ↔ ∀ j < d.cfg.numPlayers, ∀ w, rankOn d b j = some w → v ≤ w := by
  unfold bestOn
  rw [hv]
  simp only []
  rw [List.all_eq_true]
  constructor
  · intro h j hj w hw
    have := h j (by simpa using hj)
    rw [hw] at this
    simpa using this
  · intro h j hj
    have := h j (by simpa using hj)
    split
    · rfl
    next w hw => simpa using this w hw

theorem later_rank (hl : Later d e) (hrk : Ranks e s) {i : Nat} (hi : i < d.cfg.numPlayers) (hin : isIn e i) :
    rankOn d e.communityCards i = some (s i) := by
  unfold rankOn
  rw [if_pos (hl.still i hi hin), ← hl.cfg, ← hl.hole, hrk i (by rw [hl.cfg]; exact hi) hin]
  rfl

theorem later_certain (hl : Later d e) (hb : e.communityCards ∈ boards d) (hp : d.winProbabilities = .ok ps) (hrk : Ranks e s) {i : Nat}
    (hi : i < d.cfg.numPlayers) (hone : ps.getD i 0 = 1) (hin : isIn e i) : Best e s i := by
  have hex : ∃ i < d.cfg.numPlayers, isIn d i := ⟨i, hi, hl.still i hi hin⟩
  obtain ⟨-, -, hev, h0⟩ := winProbabilities_eq hex hp
  obtain ⟨T, hT⟩ := hev _ hb
  have hother : ∀ j < d.cfg.numPlayers, j ≠ i → timesBest d j = 0 := by
    intro j hj hne
    rw [ps_get hex hp hi] at hone
    have h1 : ((timesBest d i : Nat) : Rat) = (((List.range d.cfg.numPlayers).map (timesBest d)).sum : Nat) := by
      rw [div_eq_one_iff_eq (Nat.cast_ne_zero.2 h0)] at hone
      exact hone
    have h2 : timesBest d i = ((List.range d.cfg.numPlayers).map (timesBest d)).sum := by exact_mod_cast h1
    have := two_le_sum (timesBest d) _ hi hj (Ne.symm hne)
    omega
  have hpos := numBest_pos hex hT
  unfold numBest at hpos
  obtain ⟨j, hj, hjb⟩ := List.countP_pos_iff.1 (Nat.lt_of_lt_of_le Nat.zero_lt_one hpos)
  rw [List.mem_range] at hj
  have hji : j = i := by
    by_contra hne
    exact timesBest_pos hb hjb (hother j hj hne)
  subst hji
  have hri := later_rank hl hrk hi hin
  refine ⟨hin, fun k hk hkin hne => ?_⟩
  rw [hl.cfg] at hk
  have hrk' := later_rank hl hrk hk hkin
  have hle := (bestOn_iff hri).1 hjb k hk _ hrk'
  rcases lt_or_eq_of_le hle with h | h
  · exact h
  · exfalso
    refine timesBest_pos hb ((bestOn_iff hrk').2 fun m hm w hw => ?_) (hother k hk hne)
    rw [← h]
    exact (bestOn_iff hri).1 hjb m hm w hw

theorem later_lost (hl : Later d e) (hb : e.communityCards ∈ boards d) (hp : d.winProbabilities = .ok ps) (hrk : Ranks e s) {i : Nat}
    (hi : i < d.cfg.numPlayers) (hno : ps.getD i 0 = 0) (hin : isIn e i) :
    ∃ j < d.cfg.numPlayers, isIn d j ∧ ∃ v, e.cfg.evaluator.evaluate (e.holeCards.getD j []) e.communityCards = .ok v ∧ v < s i := by
  have hex : ∃ i < d.cfg.numPlayers, isIn d i := ⟨i, hi, hl.still i hi hin⟩
  obtain ⟨-, -, -, h0⟩ := winProbabilities_eq hex hp
  rw [ps_get hex hp hi, div_eq_zero_iff] at hno
  have hz : timesBest d i = 0 := by
    rcases hno with h | h
    · exact_mod_cast h
    · exact absurd h (Nat.cast_ne_zero.2 h0)
  have hri := later_rank hl hrk hi hin
  have hnb : ¬ bestOn d e.communityCards i = true := fun h => timesBest_pos hb h hz
  rw [bestOn_iff hri] at hnb
  push Not at hnb
  obtain ⟨j, hj, w, hw, hlt⟩ := hnb
  unfold rankOn at hw
  split at hw
  · next hjin =>
    refine ⟨j, hj, hjin, w, ?_, hlt⟩
    rw [hl.cfg, hl.hole]
    cases hx : d.cfg.evaluator.evaluate (d.holeCards.getD j []) e.communityCards with
    | error x => rw [hx] at hw; simp [Except.toOption] at hw
    | ok v => rw [hx] at hw; simp only [Except.toOption, Option.some.injEq] at hw; rw [hw]
  · simp at hw

/-- **C98**: with the board complete, `win_probabilities` is no longer about chances: the players with the best hand share equally (the
expected share of the pot, which the values are not in general, see `C46_false`). -/
theorem C98_complete (hone : ∃ i < d.cfg.numPlayers, isIn d i) (h : d.winProbabilities = .ok ps) (hb : toCome d = 0) {i : Nat}
    (hi : i < d.cfg.numPlayers) :
    ps.getD i 0 = equity d i ∧
    ps.getD i 0 = if bestOn d d.communityCards i then 1 / (numBest d d.communityCards : Rat) else 0 := by
  have hbs : boards d = [d.communityCards] := by unfold boards; rw [hb]; simp
  have e1 : ((List.range d.cfg.numPlayers).map (timesBest d)).sum = numBest d d.communityCards := by
    rw [wins_total, hbs]; simp
  have e2 : timesBest d i = if bestOn d d.communityCards i then 1 else 0 := by
    unfold timesBest; rw [hbs]; simp [List.countP_cons]
  have e3 : ps.getD i 0 = if bestOn d d.communityCards i then 1 / (numBest d d.communityCards : Rat) else 0 := by
    rw [ps_get hone h hi, e1, e2]
    split <;> simp
  refine ⟨?_, e3⟩
  rw [e3]
  unfold equity
  rw [hbs]
  simp

/-! ## `engine.py` -/

variable {bets : List PyNum} {bet : PyNum} {obs : Observation} {pays : List Int} {done : List Bool}

theorem promise_board (h : InHand S d) (hr : Reachable d) (hhole : d.holeCards ≠ []) (hen : Enough d.cfg)
    (hc : ∀ x ∈ d.cfg.numCommunityCards, 0 ≤ x) (hsh : AtShowdown (Spec.afterBets d bets)) :
    Later d (Spec.afterBets d bets) ∧ (Spec.afterBets d bets).communityCards ∈ boards d := by
  obtain ⟨h1, h2, h3⟩ := afterBets_later h hr bets
  exact ⟨h3, later_board (reachable_dealt h2) h3 hhole hen hc (reachable_seated hr).community
    (by rw [← h3.cfg]; exact hsh.1)⟩

/-- **C98**: a player whom `win_probabilities` gives 1 at some moment of the hand and who stays in has the best hand at the showdown, better
than everybody else's, whatever is bet in between. -/
theorem C98_certain (h : InHand S d) (hr : Reachable d) (hhole : d.holeCards ≠ []) (hen : Enough d.cfg)
    (hc : ∀ x ∈ d.cfg.numCommunityCards, 0 ≤ x) (hp : d.winProbabilities = .ok ps) {i : Nat} (hi : i < d.cfg.numPlayers)
    (hone : ps.getD i 0 = 1) (hsh : AtShowdown (Spec.afterBets d bets)) (hrk : Ranks (Spec.afterBets d bets) s)
    (hin : isIn (Spec.afterBets d bets) i) : Best (Spec.afterBets d bets) s i := by
  obtain ⟨hl, hb⟩ := promise_board h hr hhole hen hc hsh
  exact later_certain hl hb hp hrk hi hone hin

/-- **C98**: when the hand ends there, the engine pays them everybody's chips up to as many as they put in. -/
theorem C98_paid (h : InHand S d) (hn : NonNegative S d.cfg) (hr : Reachable d) (hhole : d.holeCards ≠ []) (hen : Enough d.cfg)
    (hc : ∀ x ∈ d.cfg.numCommunityCards, 0 ≤ x) (hp : d.winProbabilities = .ok ps) {i : Nat} (hi : i < d.cfg.numPlayers)
    (hone : ps.getD i 0 = 1) (hrun : Running (Spec.afterBets d bets))
    (hs : (Spec.afterBets d bets).step bet = (d', .ok (obs, pays, done))) (hsh : AtShowdown d') (hrk : Ranks d' s) (hin : isIn d' i) :
    winnableAt d' i ≤ received d' pays i := by
  have e1 : d' = Spec.afterBets d (bets ++ [bet]) := by
    unfold Spec.afterBets at hs ⊢
    rw [List.foldl_append]
    simp only [List.foldl_cons, List.foldl_nil]
    rw [hs]
  obtain ⟨h1, -, h3⟩ := afterBets_later h hr bets
  have hbest : Best d' s i := by
    rw [e1] at hsh hrk hin ⊢
    exact C98_certain h hr hhole hen hc hp hi hone hsh hrk hin
  have hcfg : d'.cfg = d.cfg := by rw [e1]; exact (afterBets_later h hr _).2.2.cfg
  exact (C96_single h1 (by rw [h3.cfg]; exact hn) hrun hs hsh hrk (by rw [hcfg]; exact hi) hbest).1

/-- **C98**: a player whom it gives 0 does not have the best hand with the final board: somebody who was in at that moment has a better one. -/
theorem C98_lost (h : InHand S d) (hr : Reachable d) (hhole : d.holeCards ≠ []) (hen : Enough d.cfg)
    (hc : ∀ x ∈ d.cfg.numCommunityCards, 0 ≤ x) (hp : d.winProbabilities = .ok ps) {i : Nat} (hi : i < d.cfg.numPlayers)
    (hno : ps.getD i 0 = 0) (hsh : AtShowdown (Spec.afterBets d bets)) (hrk : Ranks (Spec.afterBets d bets) s)
    (hin : isIn (Spec.afterBets d bets) i) :
    ∃ j < d.cfg.numPlayers, isIn d j ∧ (isIn (Spec.afterBets d bets) j → s j < s i) ∧
      ∃ v, d.cfg.evaluator.evaluate (d.holeCards.getD j []) (Spec.afterBets d bets).communityCards = .ok v ∧ v < s i := by
  obtain ⟨hl, hb⟩ := promise_board h hr hhole hen hc hsh
  obtain ⟨j, hj, hjin, v, hv, hlt⟩ := later_lost hl hb hp hrk hi hno hin
  refine ⟨j, hj, hjin, fun hx => ?_, v, ?_, hlt⟩
  · have := hrk j (by rw [hl.cfg]; exact hj) hx
    rw [hv] at this
    simp only [Except.ok.injEq] at this
    omega
  · rw [← hl.hole, ← hl.cfg]; exact hv

/-- three players; the board is not complete, and the first player is certain to win. After further bets the second player folds to a bet on
the last street, and the showdown ends the hand. -/
example : ∃ S d, InHand S d ∧ Reachable d ∧ nonNegB S d = true ∧ d.holeCards ≠ [] ∧ Enough d.cfg ∧ (∀ x ∈ d.cfg.numCommunityCards, 0 ≤ x) ∧
    toCome d = 1 ∧ d.winProbabilities = .ok [1, 0, 0] ∧ Running (Spec.afterBets d [.fin 2, .fin 1, .fin 0, .fin 0, .fin 4, .fin 4]) ∧
    (let d' := ((Spec.afterBets d [.fin 2, .fin 1, .fin 0, .fin 0, .fin 4, .fin 4]).step (.fin 0)).1
    AtShowdown d' ∧ Ranks d' (strength [3, 8, 8]) ∧ isIn d' 0 ∧ ¬ isIn d' 1 ∧ isIn d' 2 ∧ winnableAt d' 0 = 14) ∧
    (((Spec.afterBets d [.fin 2, .fin 1, .fin 0, .fin 0, .fin 4, .fin 4]).step (.fin 0)).2.map (·.2.1)).toOption = some [8, -2, -6] :=
  hand_exists { board 3 [1, 2, 0] 10 with numCardsForHand := 2 } [] (by decide +kernel)

/-- a complete board with a tie -/
example : ∃ S d, InHand S d ∧ Reachable d ∧ (∃ i < d.cfg.numPlayers, isIn d i) ∧ toCome d = 0 ∧ (d.winProbabilities = .ok [1 / 2, 0, 1 / 2]) ∧
    numBest d d.communityCards = 2 :=
  hand_exists { board 3 [1, 2, 0] 10 with numSuits := 4, numCardsForHand := 2 } [.bet 2, .bet (-1), .bet 0] (by decide +kernel)

end Clubs

namespace Clubs.Numpy

open Spec

variable {S : List Int} {d d' : Dealer} {s : Nat → Int} {ps : List Rat} {bets : List PyNum} {n : Int} {sample : Nat → List Card}

theorem array_permanent (h : ArrayReachable d) (bet : PyNum) {i : Nat} (hi : i < d.cfg.numPlayers) (hin : isIn (step d bet).1 i) :
    isIn d i := by
  have hseat := array_seated h
  have htwo : 2 ≤ d.cfg.numPlayers := hseat.two
  cases ha : d.action with
  | none => rwa [step_none ha] at hin
  | some a =>
    rcases step_some ha bet with ⟨e, -, he⟩ | ⟨b, e, -, -, he⟩ | ⟨b, c, lo, hi', -, hs, he⟩
    · rwa [he] at hin
    · rwa [he] at hin
    · rw [he] at hin
      have f2 := (afterBet_fields (atSeat d) bet.isNeg c (cleanBet b c lo hi')).2.1
      rw [← afterBet_atSeat (by omega)] at f2
      have : isIn ((atSeat d).acted bet.isNeg c (cleanBet b c lo hi')) i := by
        unfold isIn at *
        rw [← f2]
        rcases finish_cases (afterBet d bet.isNeg c (cleanBet b c lo hi')) with ⟨x, -, hf⟩ | ⟨p, -, -, hf, -⟩ | ⟨p, -, -, hf, -⟩ <;>
          rw [hf] at hin <;> exact hin
      exact ((acted_isIn hseat _ _ _ i hi).1 this).1

theorem arrayAfter_later (hr : ArrayReachable d) (bets : List PyNum) : ArrayReachable (arrayAfter d bets) ∧ Later d (arrayAfter d bets) := by
  induction bets generalizing d with
  | nil => exact ⟨hr, .refl d⟩
  | cons b bets ih =>
    obtain ⟨h2, h3⟩ := ih (d := (step d b).1) (.step b hr)
    obtain ⟨g1, g2, g3⟩ := C74_grow hr b
    exact ⟨h2, Later.trans ⟨step_cfg d b, g2, g3, g1, fun i hi => array_permanent hr b hi⟩ h3⟩

theorem array_promise (hr : ArrayReachable d) (hhole : d.holeCards ≠ []) (hen : Enough d.cfg)
    (hc : ∀ x ∈ d.cfg.numCommunityCards, 0 ≤ x) (hsh : AtShowdown (arrayAfter d bets)) :
    Later d (arrayAfter d bets) ∧ (arrayAfter d bets).communityCards ∈ boards d := by
  obtain ⟨h2, h3⟩ := arrayAfter_later hr bets
  exact ⟨h3, later_board (array_dealt' h2) h3 hhole hen hc (array_seated hr).community
    (by rw [← h3.cfg]; exact hsh.1)⟩

theorem array_exact (hr : ArrayReachable d) (hhole : d.holeCards ≠ []) (hen : Enough d.cfg)
    (hc : ∀ x ∈ d.cfg.numCommunityCards, 0 ≤ x) (hb : (boards d).length < 1000) :
    winProbabilities d n sample = d.winProbabilities := by
  obtain ⟨h0, h1⟩ := dealt_toCome (array_dealt' hr) hhole hen hc
  have htwo : 2 ≤ d.cfg.numPlayers := (array_seated hr).two
  exact C73_exact (by omega) h0 (by omega) hb n sample

/-- **C98** for the array engine, when it looks at all boards (partial: it does not from 1000 boards on, see `C98_false`): a player whom
`win_probabilities` gives 1 and who stays in has the best hand at the showdown. -/
theorem C98_certain_partial (hr : ArrayReachable d) (hhole : d.holeCards ≠ []) (hen : Enough d.cfg)
    (hc : ∀ x ∈ d.cfg.numCommunityCards, 0 ≤ x) (hb : (boards d).length < 1000) (hp : winProbabilities d n sample = .ok ps) {i : Nat}
    (hi : i < d.cfg.numPlayers) (hone : ps.getD i 0 = 1) (hsh : AtShowdown (arrayAfter d bets)) (hrk : Ranks (arrayAfter d bets) s)
    (hin : isIn (arrayAfter d bets) i) : Best (arrayAfter d bets) s i := by
  obtain ⟨hl, hm⟩ := array_promise hr hhole hen hc hsh
  rw [array_exact hr hhole hen hc hb] at hp
  exact later_certain hl hm hp hrk hi hone hin

/-- **C98** for the array engine, when it looks at all boards: a player whom it gives 0 does not have the best hand with the final board. -/
theorem C98_lost_partial (hr : ArrayReachable d) (hhole : d.holeCards ≠ []) (hen : Enough d.cfg)
    (hc : ∀ x ∈ d.cfg.numCommunityCards, 0 ≤ x) (hb : (boards d).length < 1000) (hp : winProbabilities d n sample = .ok ps) {i : Nat}
    (hi : i < d.cfg.numPlayers) (hno : ps.getD i 0 = 0) (hsh : AtShowdown (arrayAfter d bets)) (hrk : Ranks (arrayAfter d bets) s)
    (hin : isIn (arrayAfter d bets) i) :
    ∃ j < d.cfg.numPlayers, isIn d j ∧ (isIn (arrayAfter d bets) j → s j < s i) ∧
      ∃ v, d.cfg.evaluator.evaluate (d.holeCards.getD j []) (arrayAfter d bets).communityCards = .ok v ∧ v < s i := by
  obtain ⟨hl, hm⟩ := array_promise hr hhole hen hc hsh
  rw [array_exact hr hhole hen hc hb] at hp
  obtain ⟨j, hj, hjin, v, hv, hlt⟩ := later_lost hl hm hp hrk hi hno hin
  refine ⟨j, hj, hjin, fun hx => ?_, v, ?_, hlt⟩
  · have := hrk j (by rw [hl.cfg]; exact hj) hx
    rw [hv] at this
    simp only [Except.ok.injEq] at this
    omega
  · rw [← hl.hole, ← hl.cfg]; exact hv

/-- **C98** for the array engine, when it looks at all boards and nobody who folded put in more than everybody who is in: the engine pays
a player whom it gave 1 everybody's chips up to as many as they put in. -/
theorem C98_paid_partial {bet : PyNum} {res : Except Err StepOut} (h : ArrayInHand S d) (hn : NonNegative S d.cfg) (hz : SizesOk d.cfg)
    (hr : ArrayReachable d) (hhole : d.holeCards ≠ []) (hen : Enough d.cfg) (hc : ∀ x ∈ d.cfg.numCommunityCards, 0 ≤ x)
    (hb : (boards d).length < 1000) (hp : winProbabilities d n sample = .ok ps) {i : Nat} (hi : i < d.cfg.numPlayers)
    (hone : ps.getD i 0 = 1) (hrun : Running (arrayAfter d bets)) (hs : step (arrayAfter d bets) bet = (d', res)) (hsh : AtShowdown d')
    (hrk : Ranks d' s) (hin : isIn d' i) (hf : FoldsCovered d'.cfg.numPlayers (inB d') (contribution d')) :
    ∃ obs pays done, res = .ok (obs, pays, done) ∧ winnableAt d' i ≤ received d' pays i := by
  have e1 : d' = arrayAfter d (bets ++ [bet]) := by
    unfold arrayAfter at hs ⊢
    rw [List.foldl_append]
    simp only [List.foldl_cons, List.foldl_nil]
    rw [hs]
  have key : ∀ (bets : List PyNum) {d : Dealer}, ArrayInHand S d → ArrayInHand S (arrayAfter d bets) := by
    intro bets
    induction bets with
    | nil => exact fun h => h
    | cons b bets ih => exact fun h => ih (.step b h)
  have hl := (arrayAfter_later hr bets).2
  have hbest : Best d' s i := by
    rw [e1] at hsh hrk hin ⊢
    exact C98_certain_partial hr hhole hen hc hb hp hi hone hsh hrk hin
  have hcfg : d'.cfg = d.cfg := by rw [e1]; exact (arrayAfter_later hr _).2.cfg
  obtain ⟨obs, pays, done, k1, k2, -⟩ := C96_single (key bets h) (by rw [hl.cfg]; exact hn) (by rw [hl.cfg]; exact hz) hrun hs hsh hrk hf
    (by rw [hcfg]; exact hi) hbest
  exact ⟨obs, pays, done, k1, k2⟩

/-- **C98** is false for the array engine: with 1035 possible boards it looks at samples only. The sample is a board that can come, the third
player gets 1 and the others 0, and at the showdown all three have equally good hands. -/
theorem C98_false : ∃ S d, ArrayInHand S d ∧ ArrayReachable d ∧ d.holeCards ≠ [] ∧ Enough d.cfg ∧ (∀ x ∈ d.cfg.numCommunityCards, 0 ≤ x) ∧
    (boards d).length = 1035 ∧ IsSample d ((d.deck.cards.drop 1).take 2) ∧
    winProbabilities d 1 (fun _ => (d.deck.cards.drop 1).take 2) = .ok [0, 0, 1] ∧
    AtShowdown (arrayAfter d [.fin 2, .fin 1, .fin 0, .fin 0, .fin 0, .fin 0]) ∧
    Ranks (arrayAfter d [.fin 2, .fin 1, .fin 0, .fin 0, .fin 0, .fin 0]) (strength [11, 11, 11]) ∧
    numIn (arrayAfter d [.fin 2, .fin 1, .fin 0, .fin 0, .fin 0, .fin 0]) = 3 := by
  obtain ⟨S, d, h1, h2, ⟨h3, h4, h5⟩, ⟨h6, h7, h8⟩, h9, h10, h11⟩ := hand_exists { fullDeck with numHoleCards := 2 } []
    (P := fun _ d => (d.holeCards ≠ [] ∧ Enough d.cfg ∧ ∀ x ∈ d.cfg.numCommunityCards, 0 ≤ x) ∧ (toCome d = 2 ∧ d.deck.cards.length = 46 ∧
      winProbabilities d 1 (fun _ => (d.deck.cards.drop 1).take 2) = .ok [0, 0, 1]) ∧
      AtShowdown (arrayAfter d [.fin 2, .fin 1, .fin 0, .fin 0, .fin 0, .fin 0]) ∧
      Ranks (arrayAfter d [.fin 2, .fin 1, .fin 0, .fin 0, .fin 0, .fin 0]) (strength [11, 11, 11]) ∧
      numIn (arrayAfter d [.fin 2, .fin 1, .fin 0, .fin 0, .fin 0, .fin 0]) = 3) (by decide +kernel)
  refine ⟨S, d, h1, h2, h3, h4, h5, ?_, ?_, h8, h9, h10, h11⟩
  · rw [boards_length, h6, h7]; decide +kernel
  · refine ⟨?_, ((List.take_sublist _ _).trans (List.drop_sublist _ _)).subperm⟩
    rw [List.length_take, List.length_drop]
    omega

/-- three players; the board is not complete, the first player is certain to win, and after further bets the second player folds -/
example : ∃ S d, ArrayInHand S d ∧ ArrayReachable d ∧ nonNegB S d = true ∧ SizesOk d.cfg ∧ d.holeCards ≠ [] ∧ Enough d.cfg ∧
    (∀ x ∈ d.cfg.numCommunityCards, 0 ≤ x) ∧ ((boards d).length = 4 ∧ winProbabilities d 1 (fun _ => []) = .ok [1, 0, 0]) ∧
    Running (arrayAfter d [.fin 2, .fin 1, .fin 0, .fin 0, .fin 4, .fin 4]) ∧
    (let d' := (step (arrayAfter d [.fin 2, .fin 1, .fin 0, .fin 0, .fin 4, .fin 4]) (.fin 0)).1
    (AtShowdown d' ∧ Ranks d' (strength [3, 8, 8])) ∧ FoldsCovered d'.cfg.numPlayers (inB d') (contribution d') ∧
      isIn d' 0 ∧ ¬ isIn d' 1 ∧ isIn d' 2 ∧ winnableAt d' 0 = 14) :=
  hand_exists { board 3 [1, 2, 0] 10 with numCardsForHand := 2 } [] (by decide +kernel)

end Clubs.Numpy
