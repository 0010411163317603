import Verif.Lemmas.Folded
import Verif.Props.Exchange
import Verif.Props.Odds
import Verif.Props.NumpyOdds
import Mathlib.Data.Multiset.Powerset

/-!
# C112: the cards of those who have folded do not matter, nor the order of the cards
-/

namespace Clubs.Spec

/-- Everybody who is in at `d` has the same cards at `e`, and the same cards are on the board; their order does not matter. -/
structure SameShown (d e : Dealer) : Prop where
  board : e.communityCards.Perm d.communityCards
  cards : ∀ i < d.cfg.numPlayers, isIn d i → (e.holeCards.getD i []).Perm (d.holeCards.getD i [])

/-- The evaluator says of everybody who is in at `d` the same at `e`: a rank or an exception. -/
def SameRanks (d e : Dealer) : Prop :=
  ∀ i < d.cfg.numPlayers, isIn d i → d.cfg.evaluator.evaluate (e.holeCards.getD i []) e.communityCards =
    d.cfg.evaluator.evaluate (d.holeCards.getD i []) d.communityCards

instance (d e : Dealer) : Decidable (SameShown d e) :=
  decidable_of_iff (e.communityCards.Perm d.communityCards ∧
    ∀ i < d.cfg.numPlayers, isIn d i → (e.holeCards.getD i []).Perm (d.holeCards.getD i [])) ⟨fun h => ⟨h.1, h.2⟩, fun h => ⟨h.1, h.2⟩⟩

end Clubs.Spec

namespace Clubs

open Spec

variable {S : List Int} {d e d' e' d0 : Dealer} {bet : PyNum} {res res' : Except Err StepOut}

theorem sameRanks_of_shown (h : SameShown d e) : SameRanks d e := fun i hi ha => evaluate_perm _ (h.cards i hi ha) h.board

/-- **C112**: two tables of a hand differ in nothing but the cards, and after the same bet everybody who is still in has a hand of the same
rank. Then the payouts and the done flags are the same, or the same exception is raised, and the tables still differ in nothing but the
cards. -/
theorem C112_ranks (h : InHand S d) (h' : InHand S e) (hc : SameButCards d e) (hrun : d.action ≠ none) (bet : PyNum)
    (hx : SameRanks (d.step bet).1 (e.step bet).1) :
    (e.step bet).2.map (·.2) = (d.step bet).2.map (·.2) ∧ SameButCards (d.step bet).1 (e.step bet).1 := by
  refine step_otherCards h h' hc hrun bet fun x C D H h1 h2 h3 h4 => payouts_shown h1 h2 fun i hi hin => ?_
  have f1 := finish_hand x
  obtain ⟨f2, f3⟩ := finish_cards x
  obtain ⟨f4, f5⟩ := finish_cards (withCards C D H x)
  rw [h3] at f1 f2 f3
  rw [h4] at f4 f5
  have := hx i (by rw [f1.cfg]; exact hi) (by unfold isIn; rw [f1.active]; exact hin)
  rw [f1.cfg, f2, f3, f4, f5] at this
  exact this

/-- **C112**: what those hold who have folded does not matter, nor the order of the cards in the hands and on the board: when everybody who
is in after the bet has the same cards, and the same cards are on the board, the payouts and the done flags are the same, or the same
exception is raised, and the tables still differ in nothing but the cards. -/
theorem C112_cards (h : InHand S d) (h' : InHand S e) (hc : SameButCards d e) (hrun : d.action ≠ none) (bet : PyNum)
    (hx : SameShown (d.step bet).1 (e.step bet).1) :
    (e.step bet).2.map (·.2) = (d.step bet).2.map (·.2) ∧ SameButCards (d.step bet).1 (e.step bet).1 :=
  C112_ranks h h' hc hrun bet (sameRanks_of_shown hx)

/-- **C112**: the same for two deals of the same table after the same bets. -/
theorem C112_deals {rb rs : Bool} {sh sh' : Shuffle} {o o' : Observation} (hd : Reachable d0) (hs : IsShuffle sh) (hs' : IsShuffle sh')
    (h1 : d0.reset rb rs sh = (d, .ok o)) (h2 : d0.reset rb rs sh' = (e, .ok o')) (bets : List PyNum)
    (hon : Running (Spec.afterBets d bets)) (bet : PyNum)
    (hx : SameShown ((Spec.afterBets d bets).step bet).1 ((Spec.afterBets e bets).step bet).1) :
    ((Spec.afterBets e bets).step bet).2.map (·.2) = ((Spec.afterBets d bets).step bet).2.map (·.2) ∧
    SameButCards ((Spec.afterBets d bets).step bet).1 ((Spec.afterBets e bets).step bet).1 := by
  have i1 : InHand (startStacks d0 rs) d := .dealt (reachable_seated hd) hs h1
  have i2 : InHand (startStacks d0 rs) e := .dealt (reachable_seated hd) hs' h2
  refine C112_cards (afterBets_in i1 bets) (afterBets_in i2 bets) (C89_blind i1 (C89_deal h1 h2) bets hon) ?_ bet hx
  obtain ⟨⟨a, ha⟩, -⟩ := hon
  rw [ha]; simp

/-- which boards can come does not depend on the order of the cards left -/
theorem countP_boards {l m : List Card} (h : l.Perm m) (n : Nat) {p : List Card → Bool} (hp : ∀ x y : List Card, x.Perm y → p x = p y) :
    (List.sublistsLen n l).countP p = (List.sublistsLen n m).countP p := by
  have e : ∀ k : List (List Card), k.countP p = (k.map ((↑) : List Card → Multiset Card)).countP (fun s : Multiset Card => Quot.lift p hp s) := by
    intro k
    rw [List.countP_map]
    rfl
  rw [e, e, ← Multiset.powersetCardAux_eq_map_coe, ← Multiset.powersetCardAux_eq_map_coe]
  exact (Multiset.powersetCardAux_perm h).countP_eq _

theorem rankOn_shown (hc : SameButCards d e) (hx : SameShown d e) {b b' : List Card} (hb : b'.Perm b) {i : Nat} (hi : i < d.cfg.numPlayers) :
    rankOn e b' i = rankOn d b i := by
  obtain ⟨C, D, H, rfl⟩ := sameButCards_iff.1 hc
  unfold rankOn
  by_cases ha : isIn d i
  · rw [if_pos ha, if_pos (show isIn (withCards C D H d) i from ha), ← evaluate_perm _ (hx.cards i hi ha) hb]
    rfl
  · rw [if_neg ha, if_neg (show ¬ isIn (withCards C D H d) i from ha)]

theorem bestOn_shown (hc : SameButCards d e) (hx : SameShown d e) {b b' : List Card} (hb : b'.Perm b) {i : Nat} (hi : i < d.cfg.numPlayers) :
    bestOn e b' i = bestOn d b i := by
  have hcfg : e.cfg = d.cfg := by rw [hc]
  unfold bestOn
  rw [rankOn_shown hc hx hb hi, hcfg]
  cases rankOn d b i with
  | none => rfl
  | some v =>
    simp only []
    rw [Bool.eq_iff_iff, List.all_eq_true, List.all_eq_true]
    refine forall₂_congr fun j hj => ?_
    rw [rankOn_shown hc hx hb (List.mem_range.1 hj)]

theorem sameShown_refl (d : Dealer) : SameShown d d := ⟨List.Perm.rfl, fun _ _ _ => List.Perm.rfl⟩

theorem timesBest_shown (hc : SameButCards d e) (hx : SameShown d e) (hk : e.deck.cards.Perm d.deck.cards) {i : Nat}
    (hi : i < d.cfg.numPlayers) : timesBest e i = timesBest d i := by
  have hcfg : e.cfg = d.cfg := by rw [hc]
  have ht : toCome e = toCome d := by unfold toCome; rw [hcfg, hx.board.length_eq]
  unfold timesBest boards
  rw [ht, List.countP_map, List.countP_map]
  rw [countP_boards hk (toCome d).toNat (p := (fun b => bestOn e b i) ∘ fun extra => e.communityCards ++ extra) fun x y h =>
    bestOn_shown (sameButCards_iff.2 ⟨_, _, _, rfl⟩ : SameButCards e e) (sameShown_refl e) (List.Perm.append_left _ h) (by rw [hcfg]; exact hi)]
  refine congrFun (congrArg _ (funext fun x => ?_)) _
  exact bestOn_shown hc hx (hx.board.append_right _) hi

/-- **C112**: `win_probabilities` does not depend on the order of the cards in the hands, on the board and in the deck, and on the cards of
those who have folded only as far as they are missing from the deck. -/
theorem C112_odds (hc : SameButCards d e) (hx : SameShown d e) (hk : e.deck.cards.Perm d.deck.cards) (hone : ∃ i < d.cfg.numPlayers, isIn d i)
    {ps qs : List Rat} (h1 : d.winProbabilities = .ok ps) (h2 : e.winProbabilities = .ok qs) : qs = ps := by
  have hcfg : e.cfg = d.cfg := by rw [hc]
  have hone' : ∃ i < e.cfg.numPlayers, isIn e i := by
    obtain ⟨C, D, H, rfl⟩ := sameButCards_iff.1 hc
    exact hone
  obtain ⟨l1, v1⟩ := C46_values_partial hone h1
  obtain ⟨l2, v2⟩ := C46_values_partial hone' h2
  rw [hcfg] at l2 v2
  have ht : (List.range d.cfg.numPlayers).map (timesBest e) = (List.range d.cfg.numPlayers).map (timesBest d) :=
    List.map_congr_left fun i hi => timesBest_shown hc hx hk (List.mem_range.1 hi)
  refine List.ext_getElem (by omega) fun i a1 a2 => ?_
  have w1 := v1 i (by omega)
  have w2 := v2 i (by omega)
  rw [getD_eq ps i 0 a2] at w1
  rw [getD_eq qs i 0 a1, ht, timesBest_shown hc hx hk (by omega)] at w2
  rw [w1, w2]

/-- turns the first two cards round, and all cards after the fourth -/
def turnSome : Shuffle := fun l => (l.take 2).reverse ++ ((l.drop 2).take 2 ++ (l.drop 4).reverse)

theorem isShuffle_turnSome : IsShuffle turnSome := by
  intro l
  unfold turnSome
  refine (List.Perm.append (List.reverse_perm _) (List.Perm.append_left _ (List.reverse_perm _))).trans ?_
  have : (l.drop 2).take 2 ++ l.drop 4 = l.drop 2 := by
    have h := List.take_append_drop 2 (l.drop 2)
    rwa [List.drop_drop] at h
  rw [this, List.take_append_drop]

set_option synthInstance.maxSize 1024 in
/-- the hypotheses of C112: seat 2 folds, and holds other cards in the second deal; seat 0 holds the same two cards in another order -/
example : ∃ S d e d' e' res res', InHand S d ∧ InHand S e ∧ SameButCards d e ∧ d.step (.fin 0) = (d', res) ∧ e.step (.fin 0) = (e', res') ∧
    Running d ∧ SameShown d' e' ∧ AtShowdown d' ∧ isIn d' 0 ∧ ¬ isIn d' 2 ∧ d'.holeCards.getD 0 [] ≠ e'.holeCards.getD 0 [] ∧
    (∀ x ∈ d'.holeCards.getD 2 [], x ∉ e'.holeCards.getD 2 []) ∧ res.map (·.2.1) = .ok [-2, 3, -1] ∧ res'.map (·.2.1) = .ok [-2, 3, -1] :=
  two_exist { mixed 3 2 4 [0, 0, 0] [1, 2, 0] 10 with numHoleCards := 2 } [.bet (-1), .bet (-1)] isShuffle_id isShuffle_turnSome
    [.fin 2, .fin (-1), .fin 0, .fin 0] (.fin 0)
    (P := fun _ _ d' r e' r' => SameShown d' e' ∧ AtShowdown d' ∧ isIn d' 0 ∧ ¬ isIn d' 2 ∧ d'.holeCards.getD 0 [] ≠ e'.holeCards.getD 0 [] ∧
      (∀ x ∈ d'.holeCards.getD 2 [], x ∉ e'.holeCards.getD 2 []) ∧ r = .ok [-2, 3, -1] ∧ r' = .ok [-2, 3, -1]) (by decide +kernel)

set_option synthInstance.maxSize 1024 in
/-- the hypotheses of `C112_odds`: two cards are to come, the deck and the hand of seat 0 are in another order -/
example : ∃ S d e d' e' res res', InHand S d ∧ InHand S e ∧ SameButCards d e ∧ d.step (.fin 2) = (d', res) ∧ e.step (.fin 2) = (e', res') ∧
    Running d ∧ Running d' ∧ SameShown d' e' ∧ e'.deck.cards.Perm d'.deck.cards ∧ (e'.deck.cards ≠ d'.deck.cards ∧ e'.holeCards ≠ d'.holeCards) ∧
    (∃ i < d'.cfg.numPlayers, isIn d' i) ∧ (0 ≤ toCome d' ∧ toCome d' ≤ d'.deck.cards.length ∧ (boards d').length < 1000) ∧
    d'.winProbabilities = .ok [1 / 4, 3 / 4] ∧ e'.winProbabilities = .ok [1 / 4, 3 / 4] :=
  two_exist { mixed 2 2 4 [0, 0] [1, 2] 10 with numHoleCards := 2, numCommunityCards := .list [0, 2], numCardsForHand := 2 } [.bet (-1)]
    isShuffle_id isShuffle_turnSome [] (.fin 2)
    (P := fun _ _ d' _ e' _ => Running d' ∧ SameShown d' e' ∧ e'.deck.cards.Perm d'.deck.cards ∧
      (e'.deck.cards ≠ d'.deck.cards ∧ e'.holeCards ≠ d'.holeCards) ∧ (∃ i < d'.cfg.numPlayers, isIn d' i) ∧
      (0 ≤ toCome d' ∧ toCome d' ≤ d'.deck.cards.length ∧ (boards d').length < 1000) ∧
      d'.winProbabilities = .ok [1 / 4, 3 / 4] ∧ e'.winProbabilities = .ok [1 / 4, 3 / 4]) (by decide +kernel)

end Clubs

namespace Clubs.Numpy

open Spec

variable {S : List Int} {d e d' e' d0 : Dealer} {bet : PyNum} {res res' : Except Err StepOut}

/-- **C112**: two tables of a hand differ in nothing but the cards, and after the same bet everybody who is still in has a hand of the same
rank. Then the payouts and the done flags are the same, or the same exception is raised, and the tables still differ in nothing but the
cards. -/
theorem C112_ranks (h : ArrayInHand S d) (h' : ArrayInHand S e) (hc : SameButCards d e) (hrun : d.action ≠ none) (bet : PyNum)
    (hx : SameRanks (step d bet).1 (step e bet).1) :
    (step e bet).2.map (·.2) = (step d bet).2.map (·.2) ∧ SameButCards (step d bet).1 (step e bet).1 := by
  refine step_otherCards h h' hc hrun bet fun x C D H h1 h2 h3 h4 => payouts_shown h1 h2 fun i hi hin => ?_
  have f1 := finish_hand x
  obtain ⟨f2, f3⟩ := finish_cards x
  obtain ⟨f4, f5⟩ := finish_cards (withCards C D H x)
  rw [h3] at f1 f2 f3
  rw [h4] at f4 f5
  have := hx i (by rw [f1.cfg]; exact hi) (by unfold isIn; rw [f1.active]; exact hin)
  rw [f1.cfg, f2, f3, f4, f5] at this
  exact this

/-- **C112**: what those hold who have folded does not matter, nor the order of the cards in the hands and on the board: when everybody who
is in after the bet has the same cards, and the same cards are on the board, the payouts and the done flags are the same, or the same
exception is raised, and the tables still differ in nothing but the cards. -/
theorem C112_cards (h : ArrayInHand S d) (h' : ArrayInHand S e) (hc : SameButCards d e) (hrun : d.action ≠ none) (bet : PyNum)
    (hx : SameShown (step d bet).1 (step e bet).1) :
    (step e bet).2.map (·.2) = (step d bet).2.map (·.2) ∧ SameButCards (step d bet).1 (step e bet).1 :=
  C112_ranks h h' hc hrun bet (sameRanks_of_shown hx)

/-- **C112**: the same for two deals of the same table after the same bets. -/
theorem C112_deals {rb rs : Bool} {sh sh' : Shuffle} {o o' : Observation} (hd : ArrayReachable d0) (hs : IsShuffle sh) (hs' : IsShuffle sh')
    (h1 : reset d0 rb rs sh = (d, .ok o)) (h2 : reset d0 rb rs sh' = (e, .ok o')) (bets : List PyNum)
    (hon : Running (arrayAfter d bets)) (bet : PyNum)
    (hx : SameShown (step (arrayAfter d bets) bet).1 (step (arrayAfter e bets) bet).1) :
    (step (arrayAfter e bets) bet).2.map (·.2) = (step (arrayAfter d bets) bet).2.map (·.2) ∧
    SameButCards (step (arrayAfter d bets) bet).1 (step (arrayAfter e bets) bet).1 := by
  have i1 : ArrayInHand (startStacks d0 rs) d := .dealt (array_seated hd) hs h1
  have i2 : ArrayInHand (startStacks d0 rs) e := .dealt (array_seated hd) hs' h2
  refine C112_cards (arrayAfter_in i1 bets) (arrayAfter_in i2 bets) (C89_blind i1 (C89_deal h1 h2) bets hon) ?_ bet hx
  obtain ⟨⟨a, ha⟩, -⟩ := hon
  rw [ha]; simp

/-- **C112**: for fewer than 1000 possible boards `win_probabilities` of `engine_numpy.py` does not depend on the order of the cards either,
whatever is drawn at random. -/
theorem C112_odds (hc : SameButCards d e) (hx : SameShown d e) (hk : e.deck.cards.Perm d.deck.cards) (hone : ∃ i < d.cfg.numPlayers, isIn d i)
    (h0 : 0 ≤ toCome d) (hle : toCome d ≤ d.deck.cards.length) (hb : (boards d).length < 1000) {n n' : Int} {sample sample' : Nat → List Card}
    {ps qs : List Rat} (h1 : winProbabilities d n sample = .ok ps) (h2 : winProbabilities e n' sample' = .ok qs) : qs = ps := by
  have hcfg : e.cfg = d.cfg := by rw [hc]
  have ht : toCome e = toCome d := by unfold toCome; rw [hcfg, hx.board.length_eq]
  have hpos : 0 < d.cfg.numPlayers := by obtain ⟨i, hi, -⟩ := hone; omega
  rw [C73_exact hpos h0 hle hb] at h1
  rw [C73_exact (by rw [hcfg]; exact hpos) (by rw [ht]; exact h0) (by rw [ht, hk.length_eq]; exact hle)
    (by rw [boards_length, ht, hk.length_eq, ← boards_length]; exact hb)] at h2
  exact Clubs.C112_odds hc hx hk hone h1 h2

set_option synthInstance.maxSize 1024 in
/-- the hypotheses of the C112 theorems for `engine_numpy`: seat 2 folds, and holds other cards in the second deal; seat 0
holds the same two cards in another order -/
example : ∃ S d e d' e' res res', ArrayInHand S d ∧ ArrayInHand S e ∧ SameButCards d e ∧ step d (.fin 0) = (d', res) ∧ step e (.fin 0) = (e', res') ∧
    Running d ∧ SameShown d' e' ∧ AtShowdown d' ∧ isIn d' 0 ∧ ¬ isIn d' 2 ∧ d'.holeCards.getD 0 [] ≠ e'.holeCards.getD 0 [] ∧
    (∀ x ∈ d'.holeCards.getD 2 [], x ∉ e'.holeCards.getD 2 []) ∧ res.map (·.2.1) = .ok [-2, 3, -1] ∧ res'.map (·.2.1) = .ok [-2, 3, -1] :=
  two_exist { mixed 3 2 4 [0, 0, 0] [1, 2, 0] 10 with numHoleCards := 2 } [.bet (-1), .bet (-1)] isShuffle_id isShuffle_turnSome
    [.fin 2, .fin (-1), .fin 0, .fin 0] (.fin 0)
    (P := fun _ _ d' r e' r' => SameShown d' e' ∧ AtShowdown d' ∧ isIn d' 0 ∧ ¬ isIn d' 2 ∧ d'.holeCards.getD 0 [] ≠ e'.holeCards.getD 0 [] ∧
      (∀ x ∈ d'.holeCards.getD 2 [], x ∉ e'.holeCards.getD 2 []) ∧ r = .ok [-2, 3, -1] ∧ r' = .ok [-2, 3, -1]) (by decide +kernel)

set_option synthInstance.maxSize 1024 in
/-- the hypotheses of `Numpy.C112_odds`: two cards are to come, the deck and the hand of seat 0 are in another order -/
example : ∃ S d e d' e' res res', ArrayInHand S d ∧ ArrayInHand S e ∧ SameButCards d e ∧ step d (.fin 2) = (d', res) ∧ step e (.fin 2) = (e', res') ∧
    Running d ∧ Running d' ∧ SameShown d' e' ∧ e'.deck.cards.Perm d'.deck.cards ∧ (e'.deck.cards ≠ d'.deck.cards ∧ e'.holeCards ≠ d'.holeCards) ∧
    (∃ i < d'.cfg.numPlayers, isIn d' i) ∧ (0 ≤ toCome d' ∧ toCome d' ≤ d'.deck.cards.length ∧ (boards d').length < 1000) ∧
    winProbabilities d' 5 (fun _ => []) = .ok [1 / 4, 3 / 4] ∧ winProbabilities e' 7 (fun _ => []) = .ok [1 / 4, 3 / 4] :=
  two_exist { mixed 2 2 4 [0, 0] [1, 2] 10 with numHoleCards := 2, numCommunityCards := .list [0, 2], numCardsForHand := 2 } [.bet (-1)]
    isShuffle_id isShuffle_turnSome [] (.fin 2)
    (P := fun _ _ d' _ e' _ => Running d' ∧ SameShown d' e' ∧ e'.deck.cards.Perm d'.deck.cards ∧
      (e'.deck.cards ≠ d'.deck.cards ∧ e'.holeCards ≠ d'.holeCards) ∧ (∃ i < d'.cfg.numPlayers, isIn d' i) ∧
      (0 ≤ toCome d' ∧ toCome d' ≤ d'.deck.cards.length ∧ (boards d').length < 1000) ∧
      winProbabilities d' 5 (fun _ => []) = .ok [1 / 4, 3 / 4] ∧ winProbabilities e' 7 (fun _ => []) = .ok [1 / 4, 3 / 4]) (by decide +kernel)

end Clubs.Numpy
