{
 "claims": [
  {
   "property": "C01",
   "status": "proved",
   "theorems": [
    "Clubs.C01_accepts",
    "Clubs.C01_rejects",
    "Clubs.C01_same_card"
   ],
   "note": ""
  },
  {
   "property": "C02",
   "status": "proved",
   "theorems": [
    "Clubs.C02_layout",
    "Clubs.C02_eq"
   ],
   "note": ""
  },
  {
   "property": "C03",
   "status": "proved",
   "theorems": [
    "Clubs.C03_constructs",
    "Clubs.C03_contents"
   ],
   "note": ""
  },
  {
   "property": "C04",
   "status": "proved",
   "theorems": [
    "Clubs.C04_conservation",
    "Clubs.C04_no_duplicates",
    "Clubs.C04_draw",
    "Clubs.C04_duplicate_trick_false"
   ],
   "note": "trick is assumed to get each card at most once; with a repeated card the claim fails (C04_duplicate_trick_false)"
  },
  {
   "property": "C05",
   "status": "partial",
   "theorems": [
    "Clubs.C05_trick_partial",
    "Clubs.C05_whole_deck_false",
    "Clubs.C05_untrick",
    "Clubs.C05_trick_rejects"
   ],
   "note": "tricking the whole deck has no effect (C05_whole_deck_false); proved for every proper part"
  },
  {
   "property": "C06",
   "status": "proved",
   "theorems": [
    "Clubs.C06_ncr",
    "Clubs.C06_choose",
    "Clubs.C06_outside"
   ],
   "note": ""
  },
  {
   "property": "C07",
   "status": "proved",
   "theorems": [
    "Clubs.C07_generator"
   ],
   "note": ""
  },
  {
   "property": "C08",
   "status": "proved",
   "theorems": [
    "Clubs.C08_no_collision",
    "Clubs.C08_suited_key"
   ],
   "note": ""
  },
  {
   "property": "C09",
   "status": "partial",
   "theorems": [
    "Clubs.C09_hand_size",
    "Clubs.C09_exact_partial",
    "Clubs.C09_false"
   ],
   "note": "False as stated: C09_false gives shapes for which the constructor fails. C09_exact_partial says exactly for which shapes it succeeds (no custom order)."
  },
  {
   "property": "C10",
   "status": "partial",
   "theorems": [
    "Clubs.C10_in_range_partial",
    "Clubs.C10_false"
   ],
   "note": "Full for tables without a custom order; for custom orders each code must appear once and degenerate shapes (as many ranks as cards, one suit or low-ace straight) are left out. C10_false shows both exclusions are needed."
  },
  {
   "property": "C100",
   "status": "proved",
   "theorems": [
    "Clubs.C100_offered",
    "Clubs.C100_looser",
    "Clubs.C100_reset",
    "Clubs.C100_hand",
    "Clubs.Numpy.C100_offered",
    "Clubs.Numpy.C100_looser",
    "Clubs.Numpy.C100_reset",
    "Clubs.Numpy.C100_hand"
   ],
   "note": "Props/Limits"
  },
  {
   "property": "C101",
   "status": "proved",
   "theorems": [
    "Clubs.C101_asked",
    "Clubs.C101_turn",
    "Clubs.C101_between",
    "Clubs.C101_street",
    "Clubs.C101_length",
    "Clubs.C101_bound",
    "Clubs.Numpy.C101_asked",
    "Clubs.Numpy.C101_turn",
    "Clubs.Numpy.C101_between",
    "Clubs.Numpy.C101_street",
    "Clubs.Numpy.C101_length",
    "Clubs.Numpy.C101_bound"
   ],
   "note": "All hands of both engines; hypotheses: nothing negative, everybody with chips can pay the forced bets of every position (C37 shows what happens otherwise). An example attains the bound of a street."
  },
  {
   "property": "C102",
   "status": "proved",
   "theorems": [
    "Clubs.C102_stays",
    "Clubs.C102_pays",
    "Clubs.C102_length",
    "Clubs.C102_end",
    "Clubs.C102_reaches",
    "Clubs.Numpy.C102_stays",
    "Clubs.Numpy.C102_pays",
    "Clubs.Numpy.C102_length",
    "Clubs.Numpy.C102_end",
    "Clubs.Numpy.C102_reaches"
   ],
   "note": "All tables of both engines, same hypotheses as C101. C102_reaches leaves open a showdown whose evaluation raises an exception; C70 and C37 say when hands get stuck."
  },
  {
   "property": "C103",
   "status": "proved",
   "theorems": [
    "Clubs.C103_stays",
    "Clubs.C103_floor",
    "Clubs.C103_nothing",
    "Clubs.C103_others",
    "Clubs.Numpy.C103_stays",
    "Clubs.Numpy.C103_floor",
    "Clubs.Numpy.C103_nothing",
    "Clubs.Numpy.C103_others"
   ],
   "note": "a guarantee against all behaviours of the opponents, by induction over the bets; hypotheses: stacks and forced bets not negative, raise sizes for C103_stays and the array engine, Covers for C103_nothing"
  },
  {
   "property": "C104",
   "status": "partial",
   "theorems": [
    "Clubs.C104_out",
    "Clubs.C104_end_partial",
    "Clubs.C104_false",
    "Clubs.Numpy.C104_out",
    "Clubs.Numpy.C104_session"
   ],
   "note": "complete for the array engine (over whole sessions). For engine.py complete while the hand runs and when it ends without a showdown; at a showdown C104_end_partial says exactly when the claim holds: the odd chip is given to seat w - button instead of seat w (as in C26), which may be a player without chips, who is then dealt into the next hand (C104_false)"
  },
  {
   "property": "C105",
   "status": "partial",
   "theorems": [
    "Clubs.C105_uncalled_partial",
    "Clubs.C105_false",
    "Clubs.Numpy.C105_uncalled"
   ],
   "note": "complete for the array engine. False for engine.py (C105_false: three equally good hands, 8, 8 and 14 chips; 3 of the 6 chips nobody matched are lost); proved there for all hands that end without a showdown and for all showdowns at which every equally good hand finds chips (always the case without ties)"
  },
  {
   "property": "C106",
   "status": "partial",
   "theorems": [
    "Clubs.C106_button",
    "Clubs.C106_pays_partial",
    "Clubs.C106_false",
    "Clubs.Numpy.C106_button",
    "Clubs.Numpy.C106_pays_partial",
    "Clubs.Numpy.C106_false"
   ],
   "note": "the button part holds without conditions; the payments are equal if everybody has more chips than every ante whenever a hand is dealt, and C106_false shows that they are not when somebody is broke"
  },
  {
   "property": "C107",
   "status": "partial",
   "theorems": [
    "Clubs.C107_cost_partial",
    "Clubs.C107_deep_partial",
    "Clubs.C107_shipped",
    "Clubs.C107_fresh",
    "Clubs.C107_false",
    "Clubs.Numpy.C107_cost_partial",
    "Clubs.Numpy.C107_deep_partial",
    "Clubs.Numpy.C107_shipped",
    "Clubs.Numpy.C107_fresh",
    "Clubs.Numpy.C107_false"
   ],
   "note": "for raise sizes that do not fall and are not smaller than the big blind; proved without that for the six limit games of configs.py, which meet it; C107_false: with raises of 4 and then 2 a hand costs 14 chips instead of at most 8"
  },
  {
   "property": "C108",
   "status": "proved",
   "theorems": [
    "Clubs.C108_pot",
    "Clubs.C108_four",
    "Clubs.Numpy.C108_pot",
    "Clubs.Numpy.C108_four"
   ],
   "note": "stacks, blinds and antes are not negative (array engine: also the big blind); an example reaches the bound"
  },
  {
   "property": "C109",
   "status": "proved",
   "theorems": [
    "Clubs.C109_bet",
    "Clubs.C109_hand",
    "Clubs.C109_deal",
    "Clubs.C109_false",
    "Clubs.Numpy.C109_bet",
    "Clubs.Numpy.C109_hand",
    "Clubs.Numpy.C109_deal",
    "Clubs.Numpy.C109_false"
   ],
   "note": "both engines; C109_false: without a big blind, where the smallest raise is the call, 30 chips are a bet with 40 chips in front of the player and a check with 1040; the array engine for stacks, blinds, antes and raise sizes that are not negative"
  },
  {
   "property": "C11",
   "status": "partial",
   "theorems": [
    "Clubs.C11_order_partial",
    "Clubs.C11_standard",
    "Clubs.C11_square_partial",
    "Clubs.C11_false"
   ],
   "note": "False for at least three cards from exactly as many ranks (C11_false: straight flush and straight share a value); proved for all other shapes, and with the explicit class list for the standard deck. For as many ranks as cards C11_square_partial says exactly what the order is instead: the same, with a straight flush counting as a straight."
  },
  {
   "property": "C110",
   "status": "partial",
   "theorems": [
    "Clubs.C110_even_partial",
    "Clubs.C110_odd_partial",
    "Clubs.C110_distinct",
    "Clubs.C110_two_players",
    "Clubs.C110_false",
    "Clubs.Numpy.C110_exchange"
   ],
   "note": "engine.py: proved for pots that are clear (see C24; exactly without odd chips, up to the odd chips with them), and completely for showdowns without ties and for two players; false in general, with a tie and a side pot (C110_false: the winnings of tied players depend on their seat numbers). Array engine: for all pots at tables with close antes where nobody has too few chips for blind and ante, up to the odd chips."
  },
  {
   "property": "C111",
   "status": "partial",
   "theorems": [
    "Clubs.C111_two_players",
    "Clubs.C111_distinct_partial",
    "Clubs.C111_everybody_partial",
    "Clubs.C111_false",
    "Clubs.Numpy.C111_two_players",
    "Clubs.Numpy.C111_equal",
    "Clubs.Numpy.C111_everybody"
   ],
   "note": "Proved for two players (with chips and equal antes; array engine: antes that differ by at most one chip): the mean payout over all orders of the deck is 0. Array engine: for all numbers of players, with ties and side pots, the means of two players who are in with as many chips differ by no more than the mean of the odd chips, and if everybody is in with as many chips no mean is further from 0. engine.py with three or more players: only if no order of the deck leads to a tie; with ties it is false (C111_false: of two players all in with 8 chips one wins 3 on average, the other nothing)."
  },
  {
   "property": "C112",
   "status": "proved",
   "theorems": [
    "Clubs.C112_ranks",
    "Clubs.C112_cards",
    "Clubs.C112_deals",
    "Clubs.C112_odds",
    "Clubs.Numpy.C112_ranks",
    "Clubs.Numpy.C112_cards",
    "Clubs.Numpy.C112_deals",
    "Clubs.Numpy.C112_odds"
   ],
   "note": "For both engines, without conditions on the chips, ties or side pots. C112_ranks needs the same ranks only, C112_cards the same cards of those who are in; C112_deals is C112_cards for two deals of the same table after the same bets. Numpy.C112_odds is for fewer than 1000 boards (from then on the values are random)."
  },
  {
   "property": "C113",
   "status": "proved",
   "theorems": [
    "Clubs.C113_order",
    "Clubs.C113_deals",
    "Clubs.Numpy.C113_order",
    "Clubs.Numpy.C113_deals"
   ],
   "note": "For both engines, without conditions on the chips, ties or side pots, also where the division of the pot fails. C113_deals is C113_order for two deals of the same table after the same bets."
  },
  {
   "property": "C114",
   "status": "proved",
   "theorems": [
    "Clubs.C114_card",
    "Clubs.C114_deck",
    "Clubs.C114_evaluator",
    "Clubs.C114_dealer",
    "Clubs.C114_classes"
   ],
   "note": "id(self) is a parameter"
  },
  {
   "property": "C115",
   "status": "partial",
   "theorems": [
    "Clubs.C115_evaluate_partial",
    "Clubs.C115_lookup_partial",
    "Clubs.C115_false_wheel",
    "Clubs.C115_false_default"
   ],
   "note": "False as stated: without a given order the classes are ordered by the numbers of hands of the deck, and in the short deck a flush beats a full house (C115_false_default); and the lowest straight of the short deck, ace to nine, is nothing in the full deck (C115_false_wheel). Proved for evaluators with the same given order and cards among which there is no lowest straight of the smaller deck; left out are as many ranks as cards (C11_false) and one suit against several."
  },
  {
   "property": "C116",
   "status": "proved",
   "theorems": [
    "Clubs.C116_free",
    "Clubs.C116_best",
    "Clubs.C116_where",
    "Clubs.C116_no_choice"
   ],
   "note": ""
  },
  {
   "property": "C117",
   "status": "proved",
   "theorems": [
    "Clubs.C117_least",
    "Clubs.C117_split",
    "Clubs.Numpy.C117_split"
   ],
   "note": "in the list engine a step may raise instead when there are odd chips (see C27); C117_split is about steps that return"
  },
  {
   "property": "C118",
   "status": "proved",
   "theorems": [
    "Clubs.C118_evaluate",
    "Clubs.C118_wheel"
   ],
   "note": ""
  },
  {
   "property": "C12",
   "status": "proved",
   "theorems": [
    "Clubs.C12_lookup_order",
    "Clubs.C12_evaluate_order",
    "Clubs.C12_lookup_suits",
    "Clubs.C12_evaluate_suits"
   ],
   "note": ""
  },
  {
   "property": "C13",
   "status": "proved",
   "theorems": [
    "Clubs.C13_minimum",
    "Clubs.C13_bad_mandatory",
    "Clubs.C13_real_cards"
   ],
   "note": ""
  },
  {
   "property": "C14",
   "status": "proved",
   "theorems": [
    "Clubs.C14_monotone"
   ],
   "note": ""
  },
  {
   "property": "C15",
   "status": "partial",
   "theorems": [
    "Clubs.C15_class_partial",
    "Clubs.C15_range_partial",
    "Clubs.C15_negative"
   ],
   "note": "Same shapes left out as in C10/C11."
  },
  {
   "property": "C16",
   "status": "partial",
   "theorems": [
    "Clubs.C16_sorted_partial",
    "Clubs.C16_standard",
    "Clubs.C16_counts",
    "Clubs.C16_listed",
    "Clubs.C16_rarity_partial",
    "Clubs.C16_beats_partial",
    "Clubs.C16_false"
   ],
   "note": "C16_rarity_partial says exactly for which shapes the order is that of rarity: false for two cards from two ranks and for three suits with five cards or with four cards from six or seven ranks. C16_counts says exactly when the code's numbers are the true numbers of hands (counted as sets of cards); C16_standard gives the nine known numbers for five cards of 52. C16_beats_partial leaves out the shapes of C11_false."
  },
  {
   "property": "C17",
   "status": "partial",
   "theorems": [
    "Clubs.C17_missing",
    "Clubs.C17_obeyed_partial",
    "Clubs.C17_square_partial",
    "Clubs.C17_accepted_partial",
    "Clubs.C17_accepted_exact_partial",
    "Clubs.C17_accepted_all_partial",
    "Clubs.C17_accepted_every_shape_partial",
    "Clubs.C17_default_partial",
    "Clubs.C17_false"
   ],
   "note": "False as stated (C17_false: repeated codes accepted, unknown strings give ValueError, some permutations crash). Proved: missing codes rejected; the order is obeyed when each code appears once (with as many ranks as cards: except that a straight flush counts as a straight if nothing is listed before the empty class of flushes, C17_square_partial); and, for every deck and number of cards, exactly which permutations are accepted (C17_accepted_every_shape_partial): those listing the classes without hands first, apart from named classes that may come anywhere, and only for shapes that work without an order (C17_default_partial)."
  },
  {
   "property": "C18",
   "status": "partial",
   "theorems": [
    "Clubs.C18_conserved_partial",
    "Clubs.C18_early",
    "Clubs.C18_heads_up",
    "Clubs.C18_equal_start",
    "Clubs.C18_false"
   ],
   "note": "Proved for every step that does not end the hand early (two or more players in, all of them all-in, streets left); at such an early end the sum drops by exactly the folded players' chips (C18_early), which is 0 heads-up (C18_heads_up). Complete for hands with equal antes and equal starting stacks of more than ante and blind (C18_equal_start). The unrestricted claim is false of the code (C18_false)."
  },
  {
   "property": "C19",
   "status": "proved",
   "theorems": [
    "Clubs.C19_pot",
    "Clubs.C19_street"
   ],
   "note": ""
  },
  {
   "property": "C20",
   "status": "partial",
   "theorems": [
    "Clubs.C20_stacks",
    "Clubs.C20_zero_sum_partial",
    "Clubs.C20_early",
    "Clubs.C20_heads_up",
    "Clubs.C20_equal_start",
    "Clubs.C20_false"
   ],
   "note": "Stack changes equal payouts always; zero sum unless the hand ended early, where the sum is minus the folded chips. Complete for hands with equal antes and equal starting stacks of more than ante and blind (C20_equal_start). Unrestricted claim false (C20_false)."
  },
  {
   "property": "C21",
   "status": "partial",
   "theorems": [
    "Clubs.C21_bet",
    "Clubs.C21_covered_partial",
    "Clubs.C21_after_hand",
    "Clubs.C21_false"
   ],
   "note": "A bet never exceeds the stack; stacks stay non-negative if every seat that is dealt in covers blind and ante. Unrestricted claim false: blinds and antes are taken without a cap (C21_false)."
  },
  {
   "property": "C22",
   "status": "partial",
   "theorems": [
    "Clubs.C22_session_partial",
    "Clubs.C22_heads_up",
    "Clubs.C22_false"
   ],
   "note": "Session total changes exactly by the chips lost at early ends; heads-up never. Unrestricted claim false (C22_false)."
  },
  {
   "property": "C23",
   "status": "proved",
   "theorems": [
    "Clubs.C23_fold_out"
   ],
   "note": ""
  },
  {
   "property": "C24",
   "status": "partial",
   "theorems": [
    "Clubs.C24_side_pots_partial",
    "Clubs.C24_false"
   ],
   "note": "Proved for clear pots (ClearPot: nobody who folded put in more than everybody else, no tied winner is found without chips); C24_false shows a showdown of the model where a player all in for 2 chips receives 32. The odd chips, which go to one seat, are apart."
  },
  {
   "property": "C25",
   "status": "partial",
   "theorems": [
    "Clubs.C25_ranked",
    "Clubs.C25_shares_partial",
    "Clubs.C25_exact_partial",
    "Clubs.C25_heads_up",
    "Clubs.C25_folds_covered",
    "Clubs.C25_distinct_partial",
    "Clubs.C25_equal_start",
    "Clubs.C25_two_players",
    "Clubs.C25_false",
    "Clubs.C25_division"
   ],
   "note": "Proved for clear pots: shares are layer by layer; without odd chips exactly. Complete for hands with equal antes and equal starting stacks (C25_equal_start), for two players with equal antes (C25_two_players), and (with antes that differ by at most one chip and stacks covering the blinds) for showdowns without ties. C25_false: with ties and unequal contributions the engine splits unmatched chips. C25_division states, for all pots without any condition, what the code pays (Spec/Division)."
  },
  {
   "property": "C26",
   "status": "partial",
   "theorems": [
    "Clubs.C26_no_showdown",
    "Clubs.C26_showdown_partial",
    "Clubs.C26_no_ties_partial",
    "Clubs.C26_standard_partial",
    "Clubs.C26_false",
    "Clubs.C26_false_antes",
    "Clubs.C26_exact",
    "Clubs.C26_even"
   ],
   "note": "Proved without showdown; at showdowns C26_exact says, for tables where nobody who folded put in more than everybody who did not, exactly which folded players get chips: only the seat that gets the chips left over. So it holds with the button at seat 0, without ties, or without chips left over. False otherwise (C26_false: odd chip paid to a folded seat; C26_false_antes: part of the ante is returned)."
  },
  {
   "property": "C27",
   "status": "partial",
   "theorems": [
    "Clubs.C27_exact",
    "Clubs.C27_first_winner_partial",
    "Clubs.C27_equal_start",
    "Clubs.C27_even",
    "Clubs.C27_false",
    "Clubs.C27_false_raises"
   ],
   "note": "C27_exact states what the code does at every button position; the property holds with the button at seat 0 for clear pots, in particular (C27_equal_start) with equal antes and equal starting stacks; C27_false and C27_false_raises show a wrong receiver and an IndexError with the button at seat 1."
  },
  {
   "property": "C28",
   "status": "partial",
   "theorems": [
    "Clubs.C28_end_partial",
    "Clubs.C28_goes_on",
    "Clubs.C28_heads_up",
    "Clubs.C28_equal_start",
    "Clubs.C28_false"
   ],
   "note": "Third possibility: two or more players in, all of them all-in, with one of them not yet having acted on the street. It cannot happen heads-up with stacks above blinds and antes, nor with equal antes and equal starting stacks above ante and blind (C28_equal_start). Unrestricted claim false (C28_false)."
  },
  {
   "property": "C29",
   "status": "partial",
   "theorems": [
    "Clubs.C29_nearest_partial",
    "Clubs.C29_integer",
    "Clubs.C29_false_half",
    "Clubs.C29_false_zero"
   ],
   "note": "Proved for integer bets (and for other finite bets after Python's round) when the player is not in debt, the big blind is positive, no raise size is negative and min_raise <= max_raise. False for half-integer bets (C29_false_half) and for no-limit games without a big blind (C29_false_zero)."
  },
  {
   "property": "C30",
   "status": "partial",
   "theorems": [
    "Clubs.C30_sizes_partial",
    "Clubs.C30_pot_partial",
    "Clubs.C30_deep",
    "Clubs.C30_false"
   ],
   "note": "Proved for players not in debt; min_raise <= max_raise in pot-limit games needs a big blind in the pot and stacks that cover the blinds, which is so when everybody starts with more than ante and blind (C30_deep). False otherwise (C30_false)."
  },
  {
   "property": "C31",
   "status": "proved",
   "theorems": [
    "Clubs.C31_cap"
   ],
   "note": ""
  },
  {
   "property": "C32",
   "status": "partial",
   "theorems": [
    "Clubs.C32_full_partial",
    "Clubs.C32_then_call",
    "Clubs.C32_counted",
    "Clubs.C32_false"
   ],
   "note": "Proved for full raises (at least the largest raise of the hand so far), with a positive big blind; C32_counted says when every raise is a full raise. False for raises in general (C32_false)."
  },
  {
   "property": "C33",
   "status": "proved",
   "theorems": [
    "Clubs.C33_no_reopen",
    "Clubs.C33_reported"
   ],
   "note": ""
  },
  {
   "property": "C34",
   "status": "proved",
   "theorems": [
    "Clubs.C34_fold_iff",
    "Clubs.C34_negative",
    "Clubs.C34_debt",
    "Clubs.C34_check",
    "Clubs.C34_others",
    "Clubs.C34_permanent"
   ],
   "note": "C34_fold_iff is for players not in debt; C34_debt covers players whose stack is negative (forced bets are not capped, see C21)."
  },
  {
   "property": "C35",
   "status": "proved",
   "theorems": [
    "Clubs.C35_isIn",
    "Clubs.C35_next"
   ],
   "note": ""
  },
  {
   "property": "C36",
   "status": "proved",
   "theorems": [
    "Clubs.C36_street_ends",
    "Clubs.C36_next_street"
   ],
   "note": ""
  },
  {
   "property": "C37",
   "status": "partial",
   "theorems": [
    "Clubs.C37_ends_partial",
    "Clubs.C37_sensible_partial",
    "Clubs.C37_equal_start",
    "Clubs.C37_heads_up",
    "Clubs.C37_shipped",
    "Clubs.C37_false",
    "Clubs.C37_false_ante",
    "Clubs.C37_false_shipped",
    "Clubs.C37_exact",
    "Clubs.C37_stuck",
    "Clubs.C37_step",
    "Clubs.C37_false_button"
   ],
   "note": "Every infinite sequence of finite bets ends the hand, except that the showdown may raise an exception and leave the table stuck with all streets dealt (C37_false). C37_exact and C37_stuck say exactly when: chips are left over and no seat with a number above the button's has a share. Complete for two players with equal antes, for equal antes and starting stacks with the button at seat 0, and so for the first hand of every shipped configuration but one; for that one C37_false_shipped is a hand that never ends. C37_false_button: stuck without antes and with the button at seat 0."
  },
  {
   "property": "C38",
   "status": "partial",
   "theorems": [
    "Clubs.C38_history_partial",
    "Clubs.C38_empty",
    "Clubs.C38_false"
   ],
   "note": "Seat and chips are recorded faithfully (players not in debt); the flag is the sign of the bet, not whether the player folded (C38_false: wrong in both directions)."
  },
  {
   "property": "C39",
   "status": "proved",
   "theorems": [
    "Clubs.C39_cards",
    "Clubs.C39_hole"
   ],
   "note": "for every history of constructor, reset, step, trick and untrick calls, exceptions included; `Enough` says the deck suffices"
  },
  {
   "property": "C40",
   "status": "proved",
   "theorems": [
    "Clubs.C40_size",
    "Clubs.C40_grow"
   ],
   "note": ""
  },
  {
   "property": "C41",
   "status": "proved",
   "theorems": [
    "Clubs.C41_clean"
   ],
   "note": "explicit description of every seat's ante, blind and stack after reset, for any table with the shape of a dealer"
  },
  {
   "property": "C42",
   "status": "partial",
   "theorems": [
    "Clubs.C42_few_partial",
    "Clubs.C42_false"
   ],
   "note": "the condition is proved in full; \"leaves the table as it was\" is false: `active` has been overwritten, visible in what step() reports (C42_false). Proved: nothing else changes"
  },
  {
   "property": "C43",
   "status": "partial",
   "theorems": [
    "Clubs.C43_new",
    "Clubs.C43_readonly",
    "Clubs.C43_showdown_partial",
    "Clubs.C43_early_partial",
    "Clubs.C43_false",
    "Clubs.C43_false_done"
   ],
   "note": "same report proved for showdowns (all) and, for hands that ended early, of the payouts; false for hands won by folds (C43_false: the pot was zeroed) and for the done flags of hands that ended early (C43_false_done)"
  },
  {
   "property": "C44",
   "status": "proved",
   "theorems": [
    "Clubs.C44_length",
    "Clubs.C44_raise_size",
    "Clubs.C44_scalar",
    "Clubs.C44_accepts",
    "Clubs.C44_values"
   ],
   "note": "Wrong lengths and bad raise sizes are refused, a scalar equals the constant list, and what the accepted arguments become."
  },
  {
   "property": "C45",
   "status": "proved",
   "theorems": [
    "Clubs.C45_shipped"
   ],
   "note": "Quantifies over the whole list ALL_CONFIGS; also shows the hypotheses of the other theorems (Enough, HandsFit, RaisesOk, ...) and that reset succeeds."
  },
  {
   "property": "C46",
   "status": "partial",
   "theorems": [
    "Clubs.C46_values_partial",
    "Clubs.C46_distribution",
    "Clubs.C46_no_ties",
    "Clubs.C46_returns",
    "Clubs.C46_raises",
    "Clubs.C46_false"
   ],
   "note": "Distribution, zero for folded players and the exact raise condition are proved. The value is the expected pot share only if no completion is a tie: the code counts a tie once per tied player without splitting it (C46_false is a table where the returned values are not the expected shares)."
  },
  {
   "property": "C47",
   "status": "proved",
   "theorems": [
    "Clubs.C47_step",
    "Clubs.C47_same",
    "Clubs.C47_told",
    "Clubs.C47_reset",
    "Clubs.C47_hand"
   ],
   "note": "two-run statement: tables alike for a seat stay alike and tell that seat the same, for single steps and whole hands"
  },
  {
   "property": "C48",
   "status": "partial",
   "theorems": [
    "Clubs.C48_running_partial",
    "Clubs.C48_step",
    "Clubs.C48_folded",
    "Clubs.C48_false"
   ],
   "note": "holds while some player in the hand has chips left; C48_false: when the blinds put everyone all-in at the deal the picture shows all hands although a player is still to act"
  },
  {
   "property": "C49",
   "status": "proved",
   "theorems": [
    "Clubs.C49_amount",
    "Clubs.C49_unique"
   ],
   "note": ""
  },
  {
   "property": "C50",
   "status": "partial",
   "theorems": [
    "Clubs.C50_message",
    "Clubs.C50_showdown_partial",
    "Clubs.C50_false",
    "Clubs.C50_false_early"
   ],
   "note": "holds for hands that end with a showdown; false after fold-outs (nobody named) and after hands that end too early (no message)"
  },
  {
   "property": "C51",
   "status": "proved",
   "theorems": [
    "Clubs.C51_order",
    "Clubs.C51_trick"
   ],
   "note": ""
  },
  {
   "property": "C52",
   "status": "partial",
   "theorems": [
    "Clubs.C52_posted_partial",
    "Clubs.C52_false"
   ],
   "note": "proved if every seat has more chips than the antes; false in general: blinds are counted by seats, so a broke seat after the small blind means nobody posts the big blind (C52_false)"
  },
  {
   "property": "C53",
   "status": "proved",
   "theorems": [
    "Clubs.C53_reset"
   ],
   "note": "Exact success condition of reset and the state it leaves."
  },
  {
   "property": "C54",
   "status": "proved",
   "theorems": [
    "Clubs.C54_showdown",
    "Clubs.C54_ranks"
   ],
   "note": "Every remaining hand is evaluated without an exception to the best of its selections."
  },
  {
   "property": "C55",
   "status": "partial",
   "theorems": [
    "Clubs.C55_line_partial",
    "Clubs.C55_dealt",
    "Clubs.C55_false"
   ],
   "note": "holds when exactly the negative bets are folds; C55_false: a fold by betting 0 is shown as a check, a check by betting -1 as a fold"
  },
  {
   "property": "C56",
   "status": "proved",
   "theorems": [
    "Clubs.C56_not_finite",
    "Clubs.C56_finite"
   ],
   "note": ""
  },
  {
   "property": "C57",
   "status": "proved",
   "theorems": [
    "Clubs.C57_picture",
    "Clubs.C57_template",
    "Clubs.C57_shown",
    "Clubs.C57_places",
    "Clubs.C57_size"
   ],
   "note": ""
  },
  {
   "property": "C58",
   "status": "proved",
   "theorems": [
    "Clubs.C58_table",
    "Clubs.C58_hole"
   ],
   "note": ""
  },
  {
   "property": "C59",
   "status": "proved",
   "theorems": [
    "Clubs.C59_call",
    "Clubs.C59_raise",
    "Clubs.C59_none"
   ],
   "note": ""
  },
  {
   "property": "C60",
   "status": "proved",
   "theorems": [
    "Clubs.C60_running",
    "Clubs.C60_ended"
   ],
   "note": ""
  },
  {
   "property": "C61",
   "status": "partial",
   "theorems": [
    "Clubs.C61_printed",
    "Clubs.C61_injective",
    "Clubs.C61_false",
    "Clubs.C61_reread_partial",
    "Clubs.C61_deck"
   ],
   "note": "Printed form and injectivity proved; reading a printed card back fails for every card (C61_false: InvalidSuitError), it works with the suit letter instead of the symbol."
  },
  {
   "property": "C62",
   "status": "partial",
   "theorems": [
    "Clubs.C62_first",
    "Clubs.C62_later_partial",
    "Clubs.C62_ascii",
    "Clubs.C62_false"
   ],
   "note": "First call: exact. Later calls ignore the mode, also an invalid one (C62_false)."
  },
  {
   "property": "C63",
   "status": "proved",
   "theorems": [
    "Clubs.C63_message"
   ],
   "note": "Hole cards non-empty: with no hole cards at all _convert_hands returns an empty flat list."
  },
  {
   "property": "C64",
   "status": "partial",
   "theorems": [
    "Clubs.C64_false"
   ],
   "note": "Negation proved for all reachable tables: the message determines the hole cards of all players."
  },
  {
   "property": "C65",
   "status": "partial",
   "theorems": [
    "Clubs.C65_border",
    "Clubs.C65_start",
    "Clubs.C65_mirror",
    "Clubs.C65_opposite",
    "Clubs.C65_injective",
    "Clubs.C65_continuous",
    "Clubs.C65_speed",
    "Clubs.C65_rounded",
    "Clubs.C65_rounded_collide",
    "Clubs.C65_table",
    "Clubs.C65_inexact",
    "Clubs.C65_distinct"
   ],
   "note": "Proved over the real numbers for edge before its final rounding; after rounding to pixels each place is within 0.505 pixels of its border point (C65_rounded). At tables of up to 500 players different seats have different places in the picture, also if the computed points are wrong by up to a twentieth of a pixel (C65_distinct, C65_inexact); for very many players different seats share a pixel (C65_rounded_collide). The players are drawn outside the border of the table, their bets inside (C65_table). Missing: a bound on the floating-point error, which is a parameter of C65_inexact. Even spacing is stated as continuity plus constant speed outside finitely many fractions."
  },
  {
   "property": "C66",
   "status": "proved",
   "theorems": [
    "Clubs.C66_total",
    "Clubs.C66_unique",
    "Clubs.C66_script",
    "Clubs.C66_hole_cards"
   ],
   "note": "Seat positions (edge, rounded) are a parameter. Serialisation to XML text is not modelled."
  },
  {
   "property": "C67",
   "status": "partial",
   "theorems": [
    "Clubs.C67_shows",
    "Clubs.C67_last",
    "Clubs.C67_folded",
    "Clubs.C67_server",
    "Clubs.C67_pages",
    "Clubs.C67_pages_same",
    "Clubs.C67_before_deal",
    "Clubs.C67_before_deal_false",
    "Clubs.C67_empty"
   ],
   "note": "Proved for every table that has been dealt (some reset has succeeded) with a sufficient deck and no negative number of community cards, on any page before; before the first reset it is false: the page shows 0 chips (C67_before_deal, C67_before_deal_false). Network and browser: messages arrive in order; a page is its tree plus text, fill and stroke by id."
  },
  {
   "property": "C68",
   "status": "partial",
   "theorems": [
    "Clubs.Numpy.C68_reset",
    "Clubs.Numpy.C68_step",
    "Clubs.Numpy.C68_session_partial",
    "Clubs.Numpy.C68_session_step_partial",
    "Clubs.Numpy.C68_early",
    "Clubs.Numpy.C68_done",
    "Clubs.Numpy.C68_false_early",
    "Clubs.Numpy.C68_false_ties",
    "Clubs.Numpy.C68_false_odd"
   ],
   "note": "Proved for resets, and for sessions of bets that neither end the hand early in the other engine nor lead to a showdown with a used-up tied winner or odd chips. Each of the three exceptions is a real difference (C68_false_early, C68_false_ties, C68_false_odd). The done flags differ for players without chips (C68_done). Needs non-negative sizes."
  },
  {
   "property": "C69",
   "status": "proved",
   "theorems": [
    "Clubs.Numpy.C69_conserved",
    "Clubs.Numpy.C69_payouts",
    "Clubs.Numpy.C69_after_hand",
    "Clubs.Numpy.C69_session",
    "Clubs.Numpy.C69_negative_size"
   ],
   "note": "Array elements are unbounded integers (no overflow). A negative fixed raise size would let a player take chips out of the pot (C69_negative_size)."
  },
  {
   "property": "C70",
   "status": "partial",
   "theorems": [
    "Clubs.Numpy.C70_ends_partial",
    "Clubs.Numpy.C70_ends",
    "Clubs.Numpy.C70_exact",
    "Clubs.Numpy.C70_stuck",
    "Clubs.Numpy.C70_covered",
    "Clubs.Numpy.C70_false",
    "Clubs.Numpy.C70_always_ends",
    "Clubs.Numpy.C70_shipped"
   ],
   "note": "False of the code when a player cannot pay their ante: the hand can stay at a showdown that raises ValueError for ever (C70_false). Proved in full for sensible tables (deck, hand size and evaluator fit) where everybody can pay blind and ante, whatever the antes (C70_covered), in particular the first hand of every shipped configuration (C70_shipped). For all sensible tables, which hands end and which stay is described exactly (C70_exact, C70_stuck)."
  },
  {
   "property": "C71",
   "status": "partial",
   "theorems": [
    "Clubs.Numpy.C71_division",
    "Clubs.Numpy.C71_shares",
    "Clubs.Numpy.C71_folds_covered",
    "Clubs.Numpy.C71_fair",
    "Clubs.Numpy.C71_first_winner_partial",
    "Clubs.Numpy.C71_lowest_winner",
    "Clubs.Numpy.C71_first_winner_false"
   ],
   "note": "The division of every pot is described exactly (C71_division), and is the fair one unless a player who folded put in more than all others (C71_shares). That the odd chips go to the first winner after the button is false once the button number is beyond the last seat: then the lowest-numbered winner gets them (C71_lowest_winner, C71_first_winner_false)."
  },
  {
   "property": "C72",
   "status": "partial",
   "theorems": [
    "Clubs.Numpy.C72_step",
    "Clubs.Numpy.C72_reset",
    "Clubs.Numpy.C72_false"
   ],
   "note": "The button moves one seat per hand modulo the number of seats, but its number never wraps, so the observation's button is not the number of a seat after the first round (C72_false)."
  },
  {
   "property": "C73",
   "status": "proved",
   "theorems": [
    "Clubs.Numpy.C73_exact",
    "Clubs.Numpy.C73_sampled",
    "Clubs.Numpy.C73_distribution",
    "Clubs.Numpy.C73_raises",
    "Clubs.Numpy.C73_returns"
   ],
   "note": "The outcome of np.random.choice is a parameter. As in C46 a tie is counted once per tied player, so the values are not expected shares of the pot, and the property does not say so. Quotients are exact rationals instead of floats."
  },
  {
   "property": "C74",
   "status": "proved",
   "theorems": [
    "Clubs.Numpy.C74_cards",
    "Clubs.Numpy.C74_shape",
    "Clubs.Numpy.C74_grow",
    "Clubs.Numpy.C74_order",
    "Clubs.Numpy.C74_showdown"
   ],
   "note": ""
  },
  {
   "property": "C75",
   "status": "proved",
   "theorems": [
    "Clubs.C75_refines",
    "Clubs.C75_reachable",
    "Clubs.C75_follows",
    "Clubs.C75_fixed",
    "Clubs.C75_frozen",
    "Clubs.C75_writeStacks",
    "Clubs.C75_writeHole",
    "Clubs.C75_changes",
    "Clubs.C75_false"
   ],
   "note": "That a dictionary is a record of the moment is false (C75_false)."
  },
  {
   "property": "C76",
   "status": "proved",
   "theorems": [
    "Clubs.Numpy.C76_refines",
    "Clubs.Numpy.C76_follows",
    "Clubs.Numpy.C76_frozen",
    "Clubs.Numpy.C76_changes"
   ],
   "note": "The lists of hole cards are shared too, but nothing in the code writes to them."
  },
  {
   "property": "C77",
   "status": "proved",
   "theorems": [
    "Clubs.C77_matched",
    "Clubs.C77_equal",
    "Clubs.C77_false_antes"
   ],
   "note": "Stated for equal antes; C77_false_antes shows why. All states of all hands with all streets played, also after the payout."
  },
  {
   "property": "C78",
   "status": "partial",
   "theorems": [
    "Clubs.C78_frequencies_partial",
    "Clubs.C78_readable",
    "Clubs.C78_false"
   ],
   "note": "Shares are proved right where the table's counts are (one suit, or hands of 3 to 5 cards with at least as many ranks, other than 3 suits with hands of 4 or 5); elsewhere they are wrong, e.g. for the shipped Leduc game (C78_false). Quotients are exact rationals instead of floats."
  },
  {
   "property": "C79",
   "status": "partial",
   "theorems": [
    "Clubs.C79_program_partial",
    "Clubs.C79_loop_partial",
    "Clubs.C79_two_players",
    "Clubs.C79_button",
    "Clubs.C79_one_outcome",
    "Clubs.C79_false",
    "Clubs.C79_false_example"
   ],
   "note": "False as stated: with three or more players the programs can end with an IndexError from a showdown with odd chips (C79_false, C79_false_example), because reset() puts the button at seat 1. C79_program_partial says that this is the only other outcome, for every shipped configuration but the one with a big-blind ante. Complete for two players and with reset(reset_button=True)."
  },
  {
   "property": "C80",
   "status": "partial",
   "theorems": [
    "Clubs.C80_counts_partial",
    "Clubs.C80_values_partial",
    "Clubs.C80_number_partial",
    "Clubs.C80_documented",
    "Clubs.C80_false",
    "Clubs.C80_false_ranks"
   ],
   "note": "False by one as stated (C80_false): one number is left out behind the values of the best class. Proved: exactly that number is left out (C80_values_partial), the value is the number of better hands, plus one outside the best class (C80_counts_partial), max_rank is the number of different hands (C80_number_partial), and the documented numbers (C80_documented). Left out: at least three cards from as many ranks, where two classes share values (C11_false), and more cards than ranks, where the code counts classes that do not exist (C80_false_ranks: two different hands, but max_rank 4 and the best hand has the value 2)."
  },
  {
   "property": "C81",
   "status": "partial",
   "theorems": [
    "Clubs.C81_runs_partial",
    "Clubs.C81_which",
    "Clubs.C81_average",
    "Clubs.C81_zero",
    "Clubs.C81_bad_mandatory",
    "Clubs.C81_program",
    "Clubs.C81_false"
   ],
   "note": "False of the code: the deck is never shuffled again, so only the first evaluations are of hands (C81_false: 7 of 100000 with 52 cards). Proved: for n >= 1 the returned number is the average of the n timed calls (C81_runs_partial), which evaluations are of a hand and that the others return max_rank (C81_which), bounds for a clock that does not run backwards (C81_average), the exceptions (C81_zero, C81_bad_mandatory), what speed_test.py prints (C81_program)."
  },
  {
   "property": "C82",
   "status": "partial",
   "theorems": [
    "Clubs.C82_step_partial",
    "Clubs.C82_bets_partial",
    "Clubs.C82_deal",
    "Clubs.C82_equals_partial",
    "Clubs.C82_false",
    "Clubs.C82_odd_false",
    "Clubs.Numpy.C82_step_partial",
    "Clubs.Numpy.C82_standard_partial",
    "Clubs.Numpy.C82_deal",
    "Clubs.Numpy.C82_false",
    "Clubs.Numpy.C82_hand_partial"
   ],
   "note": "false in general: which of two equal players gets more can depend on the seat number (C82_false), and so can the odd chips (C82_odd_false); proved for all steps, all whole hands and all deals that do not end in such a showdown. The array engine divides every pot independently of the seats as long as the button's number is that of a seat (Numpy.C82_standard_partial, for whole hands Numpy.C82_hand_partial)"
  },
  {
   "property": "C83",
   "status": "proved",
   "theorems": [
    "Clubs.C83_step",
    "Clubs.C83_bets",
    "Clubs.C83_replay",
    "Clubs.C83_determined",
    "Clubs.Numpy.C83_step",
    "Clubs.Numpy.C83_bets",
    "Clubs.Numpy.C83_replay"
   ],
   "note": "for stacks, blinds and antes that are not negative; the array engine for raise sizes that are not negative"
  },
  {
   "property": "C84",
   "status": "proved",
   "theorems": [
    "Clubs.C84_step",
    "Clubs.C84_bets",
    "Clubs.C84_odds",
    "Clubs.C84_deal",
    "Clubs.renameCard_renames",
    "Clubs.Numpy.C84_step",
    "Clubs.Numpy.C84_bets",
    "Clubs.Numpy.C84_deal"
   ],
   "note": "the deal for a deck that is not tricked; renameCard_renames: every permutation of the suits is one of the cards"
  },
  {
   "property": "C85",
   "status": "partial",
   "theorems": [
    "Clubs.Numpy.C85_new",
    "Clubs.Numpy.C85_reset",
    "Clubs.Numpy.C85_step",
    "Clubs.Numpy.C85_session",
    "Clubs.Numpy.C85_chips",
    "Clubs.Numpy.C85_numpy1",
    "Clubs.Numpy.C85_numpy2",
    "Clubs.Numpy.C85_shipped",
    "Clubs.Numpy.C85_shipped_session",
    "Clubs.Numpy.C85_false_start",
    "Clubs.Numpy.C85_false_winner",
    "Clubs.Numpy.C85_false_bet",
    "Clubs.Numpy.C85_false_version"
   ],
   "note": "Proved under the stated bound, for hands that reset starts and for sessions without reset in the middle of a hand. Without the bound false: two players with 1.5 billion chips each go all in and the winner has a negative stack; a bet of 2.2 billion is stored as a negative number; the smallest raise depends on the version of NumPy. 64-bit numbers are unbounded in the model, and NumPy 2's OverflowError for Python ints that do not fit is not modelled."
  },
  {
   "property": "C86",
   "status": "partial",
   "theorems": [
    "Clubs.Numpy.C86_readonly",
    "Clubs.Numpy.C86_done",
    "Clubs.Numpy.C86_showdown_partial",
    "Clubs.Numpy.C86_paid",
    "Clubs.Numpy.C86_equal_partial",
    "Clubs.Numpy.C86_folded",
    "Clubs.Numpy.C86_false",
    "Clubs.Numpy.C86_false_antes"
   ],
   "note": "The table never changes, done flags and observation are repeated. The payouts are repeated after showdowns to which everybody who is in has paid something (at tables with equal antes always). False after hands won by folding (the winner is then reported to have lost) and for showdowns of players who have paid nothing."
  },
  {
   "property": "C87",
   "status": "partial",
   "theorems": [
    "Clubs.Numpy.C87_exact",
    "Clubs.Numpy.C87_running_partial",
    "Clubs.Numpy.C87_dealt",
    "Clubs.Numpy.C87_false",
    "Clubs.Numpy.C87_picture",
    "Clubs.Numpy.C87_secret",
    "Clubs.Numpy.C87_folded",
    "Clubs.Numpy.C87_message",
    "Clubs.Numpy.C87_showdown_partial",
    "Clubs.Numpy.C87_false_message",
    "Clubs.Numpy.C87_line_partial",
    "Clubs.Numpy.C87_false_line",
    "Clubs.Numpy.C87_mode"
   ],
   "note": "A picture exists exactly while the button's number is a seat; from the second round on it is not and IndexError is raised. The picture shows the table as it is. The winners are named after showdowns; false after hands won by folding. The line about the last move is right if exactly the negative bets are folds; otherwise false."
  },
  {
   "property": "C88",
   "status": "partial",
   "theorems": [
    "Clubs.Numpy.C88_shows_partial",
    "Clubs.Numpy.C88_lost"
   ],
   "note": "Proved while the button's number is a seat. From then on false, for every message: the script stops with a TypeError, the page shows chips and cards but no button and nobody to act."
  },
  {
   "property": "C89",
   "status": "partial",
   "theorems": [
    "Clubs.C89_deal",
    "Clubs.C89_blind",
    "Clubs.C89_better_partial",
    "Clubs.C89_distinct",
    "Clubs.C89_two_players",
    "Clubs.C89_false",
    "Clubs.C89_false_odd",
    "Clubs.Numpy.C89_deal",
    "Clubs.Numpy.C89_blind",
    "Clubs.Numpy.C89_better",
    "Clubs.Numpy.C89_hand",
    "Clubs.Numpy.C89_others"
   ],
   "note": "Array engine: complete. engine.py: the betting part complete; the payouts complete for two players, for hands without ties, and for clear pots if the button is at seat 0 or no chips are odd. In general false of engine.py: C89_false (an ace pays less than a king), C89_false_odd (an ace raises IndexError where a king does not)."
  },
  {
   "property": "C90",
   "status": "partial",
   "theorems": [
    "Clubs.C90_connects",
    "Clubs.C90_gives_up",
    "Clubs.C90_ends",
    "Clubs.C90_start_ends",
    "Clubs.C90_starts",
    "Clubs.C90_started",
    "Clubs.C90_close",
    "Clubs.C90_failed",
    "Clubs.C90_leak",
    "Clubs.C90_false",
    "Clubs.C90_accumulate",
    "Clubs.C90_not_installed"
   ],
   "note": "All but the last sentence is proved. The last sentence is false: a start that fails before its first connection leaves a server process that close and __del__ do not end (C90_leak, C90_false), and every further rendering starts another one (C90_accumulate). What the surroundings do is a parameter; sending, terminating and joining are assumed to do what they say."
  },
  {
   "property": "C91",
   "status": "proved",
   "theorems": [
    "Clubs.C91_new",
    "Clubs.C91_reset",
    "Clubs.C91_step",
    "Clubs.C91_multiples",
    "Clubs.C91_bets",
    "Clubs.C91_odds",
    "Clubs.C91_odd",
    "Clubs.Numpy.C91_reset",
    "Clubs.Numpy.C91_step",
    "Clubs.Numpy.C91_multiples",
    "Clubs.Numpy.C91_bets",
    "Clubs.Numpy.C91_odds"
   ],
   "note": "Both engines. C91_step covers showdowns without odd chips and, for engine.py, without the ties on which it divides pots wrongly (see C24); C91_multiples covers every table at which all contributions are multiples of every number of winners, ties and wrong divisions included. C91_odd shows that odd chips do depend on the unit, as the statement says."
  },
  {
   "property": "C92",
   "status": "proved",
   "theorems": [
    "Clubs.C92_hand",
    "Clubs.C92_deal",
    "Clubs.C92_board",
    "Clubs.C92_odds",
    "Clubs.C92_odds_no_ties",
    "Clubs.Numpy.C92_hand",
    "Clubs.Numpy.C92_deal",
    "Clubs.Numpy.C92_board",
    "Clubs.Numpy.C92_odds"
   ],
   "note": "Both engines. Chances are shares of all orders of the full deck (fullDeck.permutations), each given to reset as the result of the shuffle. Conditions: the deck is not tricked and has enough cards for the whole hand. That random.shuffle makes all orders equally likely is a property of Python's generator and is not modelled."
  },
  {
   "property": "C93",
   "status": "partial",
   "theorems": [
    "Clubs.C93_same",
    "Clubs.C93_later",
    "Clubs.C93_stays",
    "Clubs.C93_record",
    "Clubs.C93_folded_partial",
    "Clubs.C93_done_partial",
    "Clubs.C93_false",
    "Clubs.Numpy.C93_same",
    "Clubs.Numpy.C93_later",
    "Clubs.Numpy.C93_stays",
    "Clubs.Numpy.C93_record",
    "Clubs.Numpy.C93_done"
   ],
   "note": "The first sentence is false of engine.py (C93_false): players without chips get the done flag and are asked again on every street; C93_done_partial: only they are. It is true of the array engine (Numpy.C93_done), whose done flag means folded. Everything else is proved for both engines. Array engine: amounts not negative."
  },
  {
   "property": "C94",
   "status": "proved",
   "theorems": [
    "Clubs.C94_more",
    "Clubs.Numpy.C94_more"
   ],
   "note": "Both engines; players in debt included."
  },
  {
   "property": "C95",
   "status": "partial",
   "theorems": [
    "Clubs.C95_account_partial",
    "Clubs.C95_false",
    "Clubs.Numpy.C95_account_partial",
    "Clubs.Numpy.C95_false"
   ],
   "note": "False in general (C95_false, both engines): a player who owes a part of a blind is recorded with 0 chips, while the amount owed goes from the pot back to the stack. Proved if every player can pay ante and blind of every position."
  },
  {
   "property": "C96",
   "status": "proved",
   "theorems": [
    "Clubs.C96_loss",
    "Clubs.C96_best",
    "Clubs.C96_single",
    "Clubs.C96_all",
    "Clubs.Numpy.C96_loss",
    "Clubs.Numpy.C96_best",
    "Clubs.Numpy.C96_single",
    "Clubs.Numpy.C96_all"
   ],
   "note": "Amounts not negative. Array engine: if nobody who folded put in more than everybody who did not (C71_folds_covered says when)."
  },
  {
   "property": "C97",
   "status": "partial",
   "theorems": [
    "Clubs.C97_compare_partial",
    "Clubs.C97_false",
    "Clubs.Numpy.C97_compare"
   ],
   "note": "True of the array engine (if nobody who folded put in more than everybody who did not). engine.py: proved for clear pots; false in general (C97_false: of two players all in with 2 chips the one with the best hand gets 8, the other 64)."
  },
  {
   "property": "C98",
   "status": "partial",
   "theorems": [
    "Clubs.C98_certain",
    "Clubs.C98_paid",
    "Clubs.C98_lost",
    "Clubs.C98_complete",
    "Clubs.Numpy.C98_certain_partial",
    "Clubs.Numpy.C98_lost_partial",
    "Clubs.Numpy.C98_paid_partial",
    "Clubs.Numpy.C98_false"
   ],
   "note": "engine.py: in full. Array engine: proved as long as fewer than 1000 boards are possible (and, for the payment, nobody who folded put in more than everybody who is in); from 1000 boards on it only looks at samples, and the claim is false (C98_false)."
  },
  {
   "property": "C99",
   "status": "proved",
   "theorems": [
    "Clubs.C99_reset",
    "Clubs.C99_hand",
    "Clubs.C99_fresh",
    "Clubs.C99_trick",
    "Clubs.Numpy.C99_reset",
    "Clubs.Numpy.C99_hand",
    "Clubs.Numpy.C99_fresh",
    "Clubs.Numpy.C99_trick"
   ],
   "note": "all tables made with the same constructor arguments share configuration and deck frame (no cards, no marks of trick) for ever, and reset overwrites everything else"
  }
 ]
}