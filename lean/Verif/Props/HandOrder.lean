import Verif.Lemmas.HandOrder
import Verif.Props.Folded

/-!
# C113: only the order of the hands matters
-/

namespace Clubs.Spec

/-- Those who are in at `d` compare in the same way by `s` and by `s'`: who is better, who ties, who is worse. -/
def SameOrder (d : Dealer) (s s' : Nat → Int) : Prop :=
  ∀ i < d.cfg.numPlayers, ∀ j < d.cfg.numPlayers, isIn d i → isIn d j → (s i < s j ↔ s' i < s' j)

instance (d : Dealer) (s s' : Nat → Int) : Decidable (SameOrder d s s') :=
  inferInstanceAs (Decidable (∀ i < d.cfg.numPlayers, ∀ j < d.cfg.numPlayers, isIn d i → isIn d j → (s i < s j ↔ s' i < s' j)))

end Clubs.Spec

namespace Clubs

open Spec

variable {S : List Int} {d e d0 : Dealer} {s s' : Nat → Int}

/-- **C113**: two tables of a hand differ in nothing but the cards, and after the same bet the hands of those who are in are ranked in the same
order. Then the payouts and the done flags are the same, or the same exception is raised, and the tables still differ in nothing but the
cards: by how much a hand is better does not matter. -/
theorem C113_order (h : InHand S d) (h' : InHand S e) (hc : SameButCards d e) (hrun : d.action ≠ none) (bet : PyNum)
    (hr : Ranks (d.step bet).1 s) (hr' : Ranks (e.step bet).1 s') (ho : SameOrder (d.step bet).1 s s') :
    (e.step bet).2.map (·.2) = (d.step bet).2.map (·.2) ∧ SameButCards (d.step bet).1 (e.step bet).1 := by
  refine step_otherCards h h' hc hrun bet fun x C D H h1 h2 h3 h4 => payouts_order (s := s) (s' := s') h1 h2 ?_ ?_ ?_
  · intro i hi hin
    have f1 := finish_hand x
    obtain ⟨f2, f3⟩ := finish_cards x
    rw [h3] at f1 f2 f3
    have := hr i (by rw [f1.cfg]; exact hi) (by unfold isIn; rw [f1.active]; exact hin)
    rwa [f1.cfg, f2, f3] at this
  · intro i hi hin
    have f1 := finish_hand (withCards C D H x)
    obtain ⟨f2, f3⟩ := finish_cards (withCards C D H x)
    rw [h4] at f1 f2 f3
    have := hr' i (by rw [f1.cfg]; exact hi) (by unfold isIn; rw [f1.active]; exact hin)
    rwa [f1.cfg, f2, f3] at this
  · intro i hi j hj hin hjn
    have f1 := finish_hand x
    rw [h3] at f1
    exact ho i (by rw [f1.cfg]; exact hi) j (by rw [f1.cfg]; exact hj) (by unfold isIn; rw [f1.active]; exact hin)
      (by unfold isIn; rw [f1.active]; exact hjn)

/-- **C113**: the same for two deals of the same table after the same bets. -/
theorem C113_deals {rb rs : Bool} {sh sh' : Shuffle} {o o' : Observation} (hd : Reachable d0) (hs : IsShuffle sh) (hs' : IsShuffle sh')
    (h1 : d0.reset rb rs sh = (d, .ok o)) (h2 : d0.reset rb rs sh' = (e, .ok o')) (bets : List PyNum)
    (hon : Running (Spec.afterBets d bets)) (bet : PyNum) (hr : Ranks ((Spec.afterBets d bets).step bet).1 s)
    (hr' : Ranks ((Spec.afterBets e bets).step bet).1 s') (ho : SameOrder ((Spec.afterBets d bets).step bet).1 s s') :
    ((Spec.afterBets e bets).step bet).2.map (·.2) = ((Spec.afterBets d bets).step bet).2.map (·.2) ∧
    SameButCards ((Spec.afterBets d bets).step bet).1 ((Spec.afterBets e bets).step bet).1 := by
  have i1 : InHand (startStacks d0 rs) d := .dealt (reachable_seated hd) hs h1
  have i2 : InHand (startStacks d0 rs) e := .dealt (reachable_seated hd) hs' h2
  refine C113_order (afterBets_in i1 bets) (afterBets_in i2 bets) (C89_blind i1 (C89_deal h1 h2) bets hon) ?_ bet hr hr' ho
  obtain ⟨⟨a, ha⟩, -⟩ := hon
  rw [ha]; simp

set_option synthInstance.maxSize 1024 in
/-- the hypotheses of C113: four players with ties and side pots, and every hand one rank better in the second deal -/
example : ∃ S d e d' e' res res', InHand S d ∧ InHand S e ∧ SameButCards d e ∧ d.step (.fin 48) = (d', res) ∧ e.step (.fin 48) = (e', res') ∧
    Running d ∧ AtShowdown d' ∧ Ranks d' (strength [3, 3, 2, 2]) ∧ Ranks e' (strength [2, 2, 1, 1]) ∧
    SameOrder d' (strength [3, 3, 2, 2]) (strength [2, 2, 1, 1]) ∧ d'.potCommits = [2, 98, 98, 50] ∧
    res.map (·.2.1) = .ok [-2, -98, 74, 26] ∧ res'.map (·.2.1) = .ok [-2, -98, 74, 26] :=
  two_exist (mixed 4 2 4 [0, 0, 0, 0] [1, 2, 0, 0] 100) [.bet 50, .bet 98, .bet 99, .bet (-1), .bet (-1), .bet (-1)] isShuffle_id
    (isShuffle_rotate 2) [.fin 2, .fin 98, .fin 97] (.fin 48)
    (P := fun _ _ d' r e' r' => AtShowdown d' ∧ Ranks d' (strength [3, 3, 2, 2]) ∧ Ranks e' (strength [2, 2, 1, 1]) ∧
      SameOrder d' (strength [3, 3, 2, 2]) (strength [2, 2, 1, 1]) ∧ d'.potCommits = [2, 98, 98, 50] ∧
      r = .ok [-2, -98, 74, 26] ∧ r' = .ok [-2, -98, 74, 26]) (by decide +kernel)

end Clubs

namespace Clubs.Numpy

open Spec

variable {S : List Int} {d e d0 : Dealer} {s s' : Nat → Int}

/-- **C113**: the same for `engine_numpy.py`. -/
theorem C113_order (h : ArrayInHand S d) (h' : ArrayInHand S e) (hc : SameButCards d e) (hrun : d.action ≠ none) (bet : PyNum)
    (hr : Ranks (step d bet).1 s) (hr' : Ranks (step e bet).1 s') (ho : SameOrder (step d bet).1 s s') :
    (step e bet).2.map (·.2) = (step d bet).2.map (·.2) ∧ SameButCards (step d bet).1 (step e bet).1 := by
  refine step_otherCards h h' hc hrun bet fun x C D H h1 h2 h3 h4 => payouts_order (s := s) (s' := s') h1 h2 ?_ ?_ ?_
  · intro i hi hin
    have f1 := finish_hand x
    obtain ⟨f2, f3⟩ := finish_cards x
    rw [h3] at f1 f2 f3
    have := hr i (by rw [f1.cfg]; exact hi) (by unfold isIn; rw [f1.active]; exact hin)
    rwa [f1.cfg, f2, f3] at this
  · intro i hi hin
    have f1 := finish_hand (withCards C D H x)
    obtain ⟨f2, f3⟩ := finish_cards (withCards C D H x)
    rw [h4] at f1 f2 f3
    have := hr' i (by rw [f1.cfg]; exact hi) (by unfold isIn; rw [f1.active]; exact hin)
    rwa [f1.cfg, f2, f3] at this
  · intro i hi j hj hin hjn
    have f1 := finish_hand x
    rw [h3] at f1
    exact ho i (by rw [f1.cfg]; exact hi) j (by rw [f1.cfg]; exact hj) (by unfold isIn; rw [f1.active]; exact hin)
      (by unfold isIn; rw [f1.active]; exact hjn)

/-- **C113**: the same for two deals of the same table after the same bets. -/
theorem C113_deals {rb rs : Bool} {sh sh' : Shuffle} {o o' : Observation} (hd : ArrayReachable d0) (hs : IsShuffle sh) (hs' : IsShuffle sh')
    (h1 : reset d0 rb rs sh = (d, .ok o)) (h2 : reset d0 rb rs sh' = (e, .ok o')) (bets : List PyNum)
    (hon : Running (arrayAfter d bets)) (bet : PyNum) (hr : Ranks (step (arrayAfter d bets) bet).1 s)
    (hr' : Ranks (step (arrayAfter e bets) bet).1 s') (ho : SameOrder (step (arrayAfter d bets) bet).1 s s') :
    (step (arrayAfter e bets) bet).2.map (·.2) = (step (arrayAfter d bets) bet).2.map (·.2) ∧
    SameButCards (step (arrayAfter d bets) bet).1 (step (arrayAfter e bets) bet).1 := by
  have i1 : ArrayInHand (startStacks d0 rs) d := .dealt (array_seated hd) hs h1
  have i2 : ArrayInHand (startStacks d0 rs) e := .dealt (array_seated hd) hs' h2
  refine C113_order (arrayAfter_in i1 bets) (arrayAfter_in i2 bets) (C89_blind i1 (C89_deal h1 h2) bets hon) ?_ bet hr hr' ho
  obtain ⟨⟨a, ha⟩, -⟩ := hon
  rw [ha]; simp

set_option synthInstance.maxSize 1024 in
/-- the hypotheses of the C113 theorems for `engine_numpy`: four players with ties and side pots, and every hand one rank better in the second deal -/
example : ∃ S d e d' e' res res', ArrayInHand S d ∧ ArrayInHand S e ∧ SameButCards d e ∧ step d (.fin 48) = (d', res) ∧ step e (.fin 48) = (e', res') ∧
    Running d ∧ AtShowdown d' ∧ Ranks d' (strength [3, 3, 2, 2]) ∧ Ranks e' (strength [2, 2, 1, 1]) ∧
    SameOrder d' (strength [3, 3, 2, 2]) (strength [2, 2, 1, 1]) ∧ d'.potCommits = [2, 98, 98, 50] ∧
    res.map (·.2.1) = .ok [-2, -98, 74, 26] ∧ res'.map (·.2.1) = .ok [-2, -98, 74, 26] :=
  two_exist (mixed 4 2 4 [0, 0, 0, 0] [1, 2, 0, 0] 100) [.bet 50, .bet 98, .bet 99, .bet (-1), .bet (-1), .bet (-1)] isShuffle_id
    (isShuffle_rotate 2) [.fin 2, .fin 98, .fin 97] (.fin 48)
    (P := fun _ _ d' r e' r' => AtShowdown d' ∧ Ranks d' (strength [3, 3, 2, 2]) ∧ Ranks e' (strength [2, 2, 1, 1]) ∧
      SameOrder d' (strength [3, 3, 2, 2]) (strength [2, 2, 1, 1]) ∧ d'.potCommits = [2, 98, 98, 50] ∧
      r = .ok [-2, -98, 74, 26] ∧ r' = .ok [-2, -98, 74, 26]) (by decide +kernel)

end Clubs.Numpy
