import Verif.Lemmas.TurnPot
import Verif.Lemmas.TurnDeal
import Verif.Props.Showdown

/-!
# No seat is favoured: C82
-/

namespace Clubs

open Spec

variable {S : List Int} {d d' : Dealer} {bet : PyNum} {obs : Observation} {s : Nat → Int}

/-! ## what a step does to the fields a showdown looks at -/

theorem finish_showdown_fields (x : Dealer) : SameTable x x.finish.1 ∧ x.finish.1.street = x.street := by
  rcases finish_cases x with ⟨e, -, he⟩ | ⟨p, -, -, he, -⟩ | ⟨p, -, -, he, -⟩
  · rw [he]; exact ⟨⟨rfl, rfl, rfl, rfl, rfl, rfl⟩, rfl⟩
  · rw [he]; exact ⟨⟨rfl, rfl, rfl, rfl, rfl, rfl⟩, rfl⟩
  · rw [he]; exact ⟨⟨rfl, rfl, rfl, rfl, rfl, rfl⟩, rfl⟩

/-- **C82** (partial: for steps that do not end in a showdown the engine divides wrongly, see `C82_false` and `C82_odd_false`): If all players
move `k` seats down, with their chips, their cards, the button and the turn, then a bet does the same to everybody: the table after
it is the turned table, the exception is the same, or the observation, the payouts and the done flags are the same for the same
players. -/
theorem C82_step_partial (h : InHand S d) (hn : NonNegative S d.cfg) (ha : d.action ≠ none) (hc : CleanEnd (d.step bet).1) (k : Nat) :
    ((turnTable k d).step bet).1 = turnTable k (d.step bet).1 ∧
      SameResult d.cfg.numPlayers k (d.step bet).2 ((turnTable k d).step bet).2 := by
  obtain ⟨a, ha⟩ := Option.ne_none_iff_exists'.1 ha
  obtain ⟨hl, h2⟩ := live_of_action h ha
  have hd := hl.seated
  have ha' : (turnTable k d).action = some (turnSeat d.cfg.numPlayers k a) := by simp [turnTable, ha]
  have hbs := betSizes_turn hd ha k
  rcases step_some ha bet with ⟨e, hr, he⟩ | ⟨b, e, hb, hr, he⟩ | ⟨b, c, lo, hi, hb, hs, he⟩
  · rcases step_some ha' bet with ⟨e', hr', he'⟩ | ⟨b', e', hb', -, -⟩ | ⟨b', c', lo', hi', hb', -, -⟩
    · rw [he, he']
      refine ⟨rfl, ?_⟩
      rw [hr] at hr'
      simpa [SameResult] using hr'.symm
    · rw [hr] at hb'; simp at hb'
    · rw [hr] at hb'; simp at hb'
  · rcases step_some ha' bet with ⟨e', hr', -⟩ | ⟨b', e', -, hr', he'⟩ | ⟨b', c', lo', hi', -, hr', -⟩
    · rw [hb] at hr'; simp at hr'
    · rw [he, he']
      refine ⟨rfl, ?_⟩
      rw [hbs, hr] at hr'
      simpa [SameResult] using hr'.symm
    · rw [hbs, hr] at hr'; simp at hr'
  · have hst : d.street < d.cfg.numStreets := by
      by_contra hcon
      rw [betSizes_error hd (by omega)] at hs
      simp at hs
    have he' : (turnTable k d).step bet = ((turnTable k d).afterBet bet.isNeg c (cleanBet b c lo hi)).finish := by
      rcases step_some ha' bet with ⟨e', hr', -⟩ | ⟨b', e', -, hr', -⟩ | ⟨b', c', lo', hi', hb', hr', he'⟩
      · rw [hb] at hr'; simp at hr'
      · rw [hbs, hs] at hr'; simp at hr'
      · rw [hbs, hs] at hr'
        rw [hb] at hb'
        simp only [Except.ok.injEq, Prod.mk.injEq] at hr' hb'
        obtain ⟨rfl, rfl, rfl⟩ := hr'
        subst hb'
        exact he'
    rw [he', afterBet_turn hd ha, he]
    have hx := afterBet_live hl hst (h2 hst) bet.isNeg c (cleanBet b c lo hi)
    have hnn := afterBet_nn_of (fold := bet.isNeg) (b := b) h hn ha hs rfl
    have hcfg := afterBet_cfg d bet.isNeg c (cleanBet b c lo hi)
    rw [he] at hc
    generalize d.afterBet bet.isNeg c (cleanBet b c lo hi) = x at hx hnn hc hcfg
    obtain ⟨a2, ha2, -⟩ := hx.action
    obtain ⟨p, p1, p2, p3⟩ : ∃ p, x.payouts = .ok p ∧ p.length = x.cfg.numPlayers ∧ (turnTable k x).payouts = .ok (p.rotate k) := by
      by_cases hq : countTrue x.active = 1 ∨ x.street < x.cfg.numStreets
      · exact payouts_turn hx.seated hq k
      · obtain ⟨q1, q2⟩ : countTrue x.active ≠ 1 ∧ x.cfg.numStreets ≤ x.street := by
          constructor
          · exact fun e => hq (.inl e)
          · by_contra e; exact hq (.inr (by omega))
        obtain ⟨e, e2⟩ := finish_showdown_fields x
        obtain ⟨s, r1, r2, r3⟩ := hc (by
          refine ⟨by rw [e.cfg, e2]; exact q2, ?_⟩
          have := hx.one
          unfold numIn countTrue at *
          rw [e.active]
          omega)
        exact payouts_turn_showdown hx.seated hx.holeLen hx.pot hnn.contrib (e.ranks r1) (e.clear r2) (by rw [e.odd]; exact r3) q1 q2 k
    have := finish_turn hx.seated hx.holeLen ha2 k p1 p2 p3
    rwa [hcfg] at this

/-- **C82** (partial): the same for any number of bets, up to and beyond the end of the hand. -/
theorem C82_bets_partial (h : InHand S d) (hn : NonNegative S d.cfg) (k : Nat) (bets : List PyNum)
    (hc : ∀ m, CleanEnd (afterBets d (bets.take m))) :
    afterBets (turnTable k d) bets = turnTable k (afterBets d bets) := by
  induction bets generalizing d with
  | nil => rfl
  | cons b bets ih =>
    have hc' : ∀ m, CleanEnd (afterBets (d.step b).1 (bets.take m)) := fun m => hc (m + 1)
    have key : ((turnTable k d).step b).1 = turnTable k (d.step b).1 := by
      by_cases ha : d.action = none
      · rw [step_none ha, step_none (by simp [turnTable, ha])]
      · have := hc' 0
        rw [List.take_zero] at this
        exact (C82_step_partial h hn ha this k).1
    show afterBets ((turnTable k d).step b).1 bets = turnTable k (afterBets (d.step b).1 bets)
    rw [key]
    refine ih (.step b h) ?_ hc'
    rw [step_cfg]; exact hn

/-- **C82**: The deal is fair, too. For every `k` there is a way to reorder decks, that never makes two decks equal, such that whenever
`reset` (without resetting the button) deals a hand from a deck, the reordered deck deals the turned hand to the turned table. So if every
order of the deck is equally likely, every player has the same chances in every seat. -/
theorem C82_deal (hd : Seated d) (ht : d.deck.tricked = false)
    (hc : (d.cfg.numCommunityCards.getD 0 0).toNat + d.cfg.numPlayers * d.cfg.numHoleCards.toNat ≤ d.deck.fullDeck.length) (k : Nat) :
    ∃ f : List Card → List Card, Function.Injective f ∧ (∀ l, (f l).Perm l) ∧
      ∀ (rs : Bool) (shuf : Shuffle) (d' : Dealer) (obs : Observation), IsShuffle shuf → d.reset false rs shuf = (d', .ok obs) →
        ∃ obs', (turnTable k d).reset false rs (fun l => f (shuf l)) = (turnTable k d', .ok obs') ∧ SameView d.cfg.numPlayers k obs obs' :=
  ⟨turnCards (flopCards d.cfg) (handCards d.cfg) (k * d.cfg.numHoleCards.toNat), turnCards_inj _ _ _, turnCards_perm _ _ _,
    fun rs _ _ _ hs h => reset_turn hd ht rs hs hc k h⟩

/-- **C82** (partial): two players who put in the same and have equally strong hands get the same out of a pot the engine divides correctly,
wherever they sit. -/
theorem C82_equals_partial (h : InHand S d) (hn : NonNegative S d.cfg) (hrun : Running d)
    {pays : List Int} {done : List Bool} (hs : d.step bet = (d', .ok (obs, pays, done))) (hsh : AtShowdown d') (hr : Ranks d' s)
    (hc : ClearPot d' s) (h0 : oddAt d' s = 0) {i j : Nat} (hi : i < d'.cfg.numPlayers) (hj : j < d'.cfg.numPlayers)
    (hact : isIn d' i ↔ isIn d' j) (hcon : contribution d' i = contribution d' j) (heq : s i = s j) :
    pays.getD i 0 = pays.getD j 0 := by
  obtain ⟨k, -, hk⟩ := C25_shares_partial h hn hrun hs hsh hr hc
  have e1 := (hk i hi).1
  have e2 := (hk j hj).1
  rw [h0, ite_self, add_zero] at e1 e2
  have hb : inB d' i = inB d' j := Bool.eq_iff_iff.2 hact
  have R : Renumbered d'.cfg.numPlayers (Equiv.swap i j) (inB d') (inB d') (contribution d') (contribution d') s s := by
    have hcase : ∀ a < d'.cfg.numPlayers, (Equiv.swap i j) a = a ∨ ((Equiv.swap i j) a = j ∧ a = i) ∨ ((Equiv.swap i j) a = i ∧ a = j) := by
      intro a _
      by_cases h1 : a = i
      · subst h1; exact .inr (.inl ⟨Equiv.swap_apply_left _ _, rfl⟩)
      · by_cases h2 : a = j
        · subst h2; exact .inr (.inr ⟨Equiv.swap_apply_right _ _, rfl⟩)
        · exact .inl (Equiv.swap_apply_of_ne_of_ne h1 h2)
    have hlt : ∀ a < d'.cfg.numPlayers, (Equiv.swap i j) a < d'.cfg.numPlayers := by
      intro a ha
      rcases hcase a ha with e | ⟨e, -⟩ | ⟨e, -⟩ <;> rw [e] <;> assumption
    refine ⟨hlt, fun a _ b _ e => (Equiv.swap i j).injective e, fun b hb => ⟨Equiv.swap i j b, hlt b hb, Equiv.swap_apply_self _ _ _⟩, ?_, ?_, ?_⟩
    · intro a ha
      rcases hcase a ha with e | ⟨e, e'⟩ | ⟨e, e'⟩ <;> rw [e] <;> subst_vars <;> first | rfl | exact hb | exact hb.symm
    · intro a ha
      rcases hcase a ha with e | ⟨e, e'⟩ | ⟨e, e'⟩ <;> rw [e] <;> subst_vars <;> first | rfl | exact hcon | exact hcon.symm
    · intro a ha
      rcases hcase a ha with e | ⟨e, e'⟩ | ⟨e, e'⟩ <;> rw [e] <;> subst_vars <;> first | rfl | exact heq | exact heq.symm
  have hdue := renum_due R hi
  rw [Equiv.swap_apply_left] at hdue
  have : dueAt d' s j = dueAt d' s i := hdue
  unfold received at e1 e2
  omega

/-! ## where it fails -/

/-- **C82 is false in general**: seats 0 and 1 are both all in with 8 chips and have the same hand, but seat 0 gets 8 and seat 1 gets 11; with all
players one seat further down, it is the other way round: the player of seat 1, now at seat 0, gets 8, and the player of seat 0, now at seat
2, gets 11. -/
theorem C82_false : ∃ S d d' out, InHand S d ∧ Reachable d ∧ d.step (.fin 6) = (d', .ok out) ∧ NonNegative S d.cfg ∧ Running d ∧
    AtShowdown d' ∧ Ranks d' (fun _ => 1) ∧ oddAt d' (fun _ => 1) = 0 ∧ isIn d' 0 ∧ isIn d' 1 ∧ contribution d' 0 = contribution d' 1 ∧
    out.2.1 = [0, 3, -3] ∧ ((turnTable 1 d).step (.fin 6)).2.toOption.map (fun r => r.2.1) = some [0, -3, 3] :=
  step_exists (ties 3 [1, 2, 0] 10) [.bet 2, .bet 1, .bet 4, .bet (-1), .bet (-1), .deal, .bet 8, .bet 13] (.fin 6)
    (by decide +kernel)

/-- **C82 is false with odd chips**: a pot of 5 chips is split between the players of seats 0 and 2, and seat 2 gets the odd one; with all
players one seat further down, the same showdown raises `IndexError` and nobody gets anything. -/
theorem C82_odd_false : ∃ S d d' out, InHand S d ∧ Reachable d ∧ d.step (.fin 0) = (d', .ok out) ∧ NonNegative S d.cfg ∧ Running d ∧
    AtShowdown d' ∧ Ranks d' (fun _ => 1) ∧ ClearPot d' (fun _ => 1) ∧ oddAt d' (fun _ => 1) = 1 ∧ out.2.1 = [0, -1, 1] ∧
    (match ((turnTable 1 d).step (.fin 0)).2 with | .error .indexError => true | _ => false) = true :=
  step_exists (ties 3 [1, 2, 0] 10) [.bet 2, .bet (-1), .bet 0, .bet 0] (.fin 0) (by decide +kernel)

/-! ## examples -/

/-- the hypotheses of `C82_step_partial` and `C82_bets_partial`: three players all in with different stacks -/
example : ∃ S d d' out, InHand S d ∧ Reachable d ∧ d.step (.fin 60) = (d', .ok out) ∧ NonNegative S d.cfg ∧ d.action ≠ none ∧
    AtShowdown d' ∧ CleanEnd d' ∧ out.2.1 = [-20, 4, 16] ∧
    ((turnTable 1 d).step (.fin 60)).2.toOption.map (fun r => r.2.1) = some [4, 16, -20] := by
  obtain ⟨S, d, d', out, h1, h2, h3, h4, h5, h6, h7, h8, h9, h10, h11⟩ := step_exists (small 3 [1, 2, 0] 30)
    [.bet 10, .bet 9, .bet 20, .bet 20, .bet (-1), .bet (-1), .deal, .bet 20, .bet 7] (.fin 60)
    (P := fun S d d' out => NonNegative S d.cfg ∧ d.action ≠ none ∧ AtShowdown d' ∧ Ranks d' (strength [5, 4, 3]) ∧
      ClearPot d' (strength [5, 4, 3]) ∧ oddAt d' (strength [5, 4, 3]) = 0 ∧ out.2.1 = [-20, 4, 16] ∧
      ((turnTable 1 d).step (.fin 60)).2.toOption.map (fun r => r.2.1) = some [4, 16, -20]) (by decide +kernel)
  exact ⟨S, d, d', out, h1, h2, h3, h4, h5, h6, fun _ => ⟨_, h7, h8, h9⟩, h10, h11⟩

/-- a whole hand: a raise, a fold, and a street of betting that ends with a fold -/
example : ∃ S d, InHand S d ∧ Reachable d ∧ NonNegative S d.cfg ∧ d.action = some 0 ∧
    (∀ m < 5, ¬ AtShowdown (afterBets d ([.fin 6, .fin (-1), .fin 4, .fin 10, .fin (-1)].take m))) ∧
    (afterBets d [.fin 6, .fin (-1), .fin 4, .fin 10, .fin (-1)]).stacks = [24, 29, 37] := by
  exact hand_exists (small 3 [1, 2, 0] 30) [] (by decide +kernel)

/-- the hypotheses of `C82_deal` -/
example : ∃ S d, InHand S d ∧ Reachable d ∧ d.deck.tricked = false ∧
    (d.cfg.numCommunityCards.getD 0 0).toNat + d.cfg.numPlayers * d.cfg.numHoleCards.toNat ≤ d.deck.fullDeck.length ∧
    (d.reset false true id).2.toOption.map (fun o => o.button) = some 1 := by
  exact hand_exists (small 3 [1, 2, 0] 30) [] (by decide +kernel)

/-- the hypotheses of `C82_equals_partial` -/
example : ∃ S d d' out, InHand S d ∧ Reachable d ∧ d.step (.fin 5) = (d', .ok out) ∧ NonNegative S d.cfg ∧ Running d ∧
    AtShowdown d' ∧ Ranks d' (fun _ => 1) ∧ ClearPot d' (fun _ => 1) ∧ oddAt d' (fun _ => 1) = 0 ∧ isIn d' 0 ∧ isIn d' 1 ∧
    contribution d' 0 = contribution d' 1 ∧ out.2.1 = [0, 0] :=
  step_exists (ties 2 [1, 2] 30) [.bet 1, .bet 0, .bet 5] (.fin 5) (by decide +kernel)

end Clubs
