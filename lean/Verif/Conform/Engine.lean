import Verif.Conform.Run

/-!
# The project's tests of the engine, on the model

The tests of `/repo/test/test_engine` (but rendering and `__str__`) and `/repo/test/test_poker/test_card.py`, with the values their
assertions name and, where a test depends on it, the shuffle that its seed makes (`Run.lean`). The project's authors ran them on the code; here Lean evaluates the
model on the same calls (`#guard`). These are tests of the model, not proofs about it.
-/

namespace Clubs.Conform

/-! ## `test_card.py` -/

/- `test_draw` (`test_card.py:8-22`) -/
#guard (Deck.new 2 3 id).map (fun d =>
    let r1 := d.draw 1; let r2 := r1.2.draw 3; let r3 := r2.2.draw 4; let r4 := r3.2.draw 1
    [r1.1.length, r2.1.length, r3.1.length, r4.1.length]) = .ok [1, 3, 2, 0]

/- `test_trick` (`test_card.py:25-44`), the last shuffle as seeded there -/
#guard (do
    let top ← mkCards [('A', 'h'), ('2', 's')]
    let deck ← (← Deck.new 4 13 id).trick top
    let r1 := (deck.shuffle List.reverse).draw 2
    let r2 := (r1.2.shuffle id).draw 2
    let r3 := (r2.2.untrick.shuffle (permute seed42trick)).draw 2
    return (r1.1 == top) && (r2.1 == top) && (r3.1.zip top).all fun p => !(p.1.eq p.2)) = .ok true

/- `test_invalid_init` (`test_card.py:47-62`) -/
#guard Card.new ['1', 's'] = .error .invalidRank ∧ Card.new ['1', 't'] = .error .invalidRank ∧
    Deck.new 0 0 id = .error .invalidRank ∧ Deck.new 2 14 id = .error .invalidRank ∧
    Card.new ['A', 't'] = .error .invalidSuit ∧ Deck.new 0 1 id = .error .invalidSuit ∧
    Deck.new 5 1 id = .error .invalidSuit

/-! ## `test_bets.py` -/

/- `test_bet_cleaning` (`test_bets.py:4-9`) -/
#guard cleanBet 0 2 4 200 = 0 ∧ cleanBet (-1) 2 4 200 = 0 ∧ cleanBet 1 0 4 200 = 0 ∧ cleanBet 20 2 4 200 = 20 ∧
    cleanBet 2000 0 4 200 = 200

/- `test_limit_bet_size` (`test_bets.py:12-45`) -/
#guard (do
    let (d, _) ← start LIMIT_HOLDEM_SIX_PLAYER [] id true true
    let (d, o1) ← bets d [21 / 10]
    let (d, o2) ← bets d [10]
    let (d, o3) ← bets d [6, 8]
    let (_, o4) ← bets d [7, -1]
    return (decide (o1.1.pot = 5 ∧ o1.1.streetCommits.sum = 5 ∧ o2.1.pot = 9 ∧ o2.1.streetCommits.sum = 9 ∧
      o3.1.pot = 23 ∧ o3.1.maxRaise = 0 ∧ o3.1.call = 7 ∧ o4.1.pot = 30 ∧ o4.1.streetCommits.sum = 30 ∧
      o4.1.active.all id = false))) = .ok true

/- `test_all_in_bet_size` (`test_bets.py:48-60`) -/
#guard (do
    let (d, _) ← start NO_LIMIT_HOLDEM_TWO_PLAYER [] (moveChips 0 1 150) true false
    let (_, o) ← bets d [100]
    return o.1.pot) = .ok 52

/- `test_incomplete_raise` (`test_bets.py:63-94`) -/
#guard (do
    let (d, _) ← start NO_LIMIT_HOLDEM_SIX_PLAYER [] (moveChips 1 2 190) true false
    let (d, o1) ← bets d [-1, -1, -1, 8]
    let (d, o2) ← bets d [9]
    let (_, o3) ← bets d [8]
    return (decide (o1.1.pot = 11 ∧ o1.1.call = 7 ∧ o1.1.minRaise = 9 ∧ o1.1.maxRaise = 9 ∧ o2.1.pot = 20 ∧ o2.1.call = 8 ∧
      o2.1.minRaise = 14 ∧ o3.1.pot = 28 ∧ o3.1.call = 2 ∧ o3.1.minRaise = 0 ∧ o3.1.maxRaise = 0))) = .ok true

/- `test_pot_limit_bet_size` (`test_bets.py:97-118`) -/
#guard (do
    let (d, o0) ← start POT_LIMIT_OMAHA_SIX_PLAYER [] id true true
    let (_, o1) ← bets d [4]
    return (decide (o0.minRaise = 4 ∧ o0.maxRaise = 7 ∧ o1.1.pot = 7 ∧ o1.1.call = 4 ∧ o1.1.minRaise = 6 ∧
      o1.1.maxRaise = 15))) = .ok true

/- `test_bet_rounding` (`test_bets.py:121-152`) -/
#guard (do
    let (d, _) ← start NO_LIMIT_HOLDEM_NINE_PLAYER [] id true true
    let (d, o1) ← bets d [1]
    let (d, o2) ← bets d [6]
    let (d, o3) ← bets d [3]
    let (d, o4) ← bets d [4]
    let (d, o5) ← bets d [8]
    let (_, o6) ← bets d [9]
    return ([o1.1.streetCommits[3]?, o2.1.streetCommits[4]?, o3.1.streetCommits[5]?, o4.1.streetCommits[6]?,
      o5.1.streetCommits[7]?, o6.1.streetCommits[8]?], o3.1.active[5]?)) =
    .ok ([some 0, some 6, some 0, some 6, some 6, some 10], some false)

/- `test_big_blind_raise_chance` (`test_bets.py:155-169`) -/
#guard (do
    let (d, _) ← start NO_LIMIT_HOLDEM_SIX_PLAYER [] id true true
    let (_, o) ← bets d [2, 2, 2, 2, 2]
    return (o.1.action, o.1.call, o.1.minRaise)) = .ok (2, 0, 2)

/-! ## `test_payout.py` -/

/- the hands and community cards of the three tests of `test_payout.py`; the ace of clubs is named twice, as there -/
def payoutCards (seat4 : List (Char × Char)) : List (Char × Char) :=
  [('6', 'c'), ('8', 's'), ('A', 'c'), ('A', 'd'), ('K', 'd'), ('2', 'h'), ('T', 'h'), ('9', 'c')] ++ seat4 ++
  [('6', 'h'), ('8', 'd'), ('5', 'c'), ('7', 'd'), ('Q', 'h'), ('2', 'c'), ('3', 'd'), ('4', 's'), ('4', 'd'), ('5', 'h'), ('7', 'c'), ('A', 'c'), ('K', 'h')]

/- `test_split_pot` (`test_payout.py:4-68`) -/
#guard (do
    let (d, _) ← start NO_LIMIT_HOLDEM_NINE_PLAYER (payoutCards [('J', 's'), ('J', 'c')]) id true true
    let (d, o1) ← bets d [-1, 5, 5, 5, -1, -1, 5, 4, -1]
    let (d, o2) ← bets d [4, -1, 4, 4, 4]
    let (_, o3) ← checkDown d 20
    return (o1.1.pot, o2.1.pot, o3.2.1)) = .ok (27, 43, [12, -9, -2, 0, -5, 13, -9, 0, 0])

/- `test_all_in` (`test_payout.py:71-129`) -/
#guard (do
    let (d, _) ← start NO_LIMIT_HOLDEM_NINE_PLAYER (payoutCards [('J', 's'), ('J', 'c')]) (moveChips 0 1 180) true false
    let (d, o1) ← bets d [-1, 50, 0, -1, -1, -1, 20, 49, -1]
    let (_, o2) ← checkDown d 20
    return (o1.1.pot, o2.2.1)) = .ok (122, [42, 10, -2, 0, -50, 0, 0, 0, 0])

/- `test_all_in_split_pot` (`test_payout.py:132-201`) -/
#guard (do
    let (d, _) ← start NO_LIMIT_HOLDEM_NINE_PLAYER (payoutCards [('6', 'd'), ('8', 'h')])
      (moveChips 5 7 165 ∘ moveChips 0 1 180) true false
    let (d, o1) ← bets d [-1, 45, 35, -1, -1, -1, 20, 44, -1]
    let (_, o2) ← checkDown d 20
    return (o1.1.pot, o2.2.1)) = .ok (147, [7, -45, -2, 0, 26, 14, 0, 0, 0])

/-! ## `test_end_round.py` -/

/- `test_all_but_one_fold` (`test_end_round.py:9-31`) -/
#guard (do
    let (d, _) ← start NO_LIMIT_HOLDEM_SIX_PLAYER [] id true true
    let (_, o) ← bets d [-1, -1, -1, -1, -1]
    return (o.2.2.all id, o.1.pot, o.2.1, o.1.stacks)) =
    .ok (true, 0, [0, -1, 1, 0, 0, 0], [200, 199, 201, 200, 200, 200])

/- `test_bet_after_round_end` (`test_end_round.py:60-83`) -/
#guard (do
    let (d, _) ← start NO_LIMIT_HOLDEM_SIX_PLAYER [] id true true (permute seed42)
    let (d, o1) ← bets d [200, 200, 200, 200, 200, 200]
    let (_, o2) ← bets d [200]
    return [(o1.2.2.all id, o1.1.call, o1.1.minRaise, o1.1.maxRaise, o1.1.action),
      (o2.2.2.all id, o2.1.call, o2.1.minRaise, o2.1.maxRaise, o2.1.action)]) =
    .ok [(true, 0, 0, 0, -1), (true, 0, 0, 0, -1)]

/- `test_all_all_in` and `test_too_few_players` (`test_end_round.py:34-57,86-114`), with the seeded shuffle -/
#guard (do
    let (d, _) ← start NO_LIMIT_HOLDEM_SIX_PLAYER [] id true true (permute seed42)
    let (d, o) ← bets d [200, 200, 200, 200, 200, 200]
    return (o.2.2.all id, o.1.pot, o.2.1, o.1.stacks, (d.reset false false id).2)) =
    .ok (true, 0, [-200, -200, -200, -200, -200, 1000], [0, 0, 0, 0, 0, 1200], .error .tooFewActivePlayers)

/-! ## `test_misc.py` -/

/- `test_game` (`test_misc.py:9-36`) -/
#guard (do
    let (d, _) ← start LEDUC_TWO_PLAYER [('Q', 's'), ('K', 's'), ('Q', 'h')] id true true
    let (_, o) ← bets d [2, 4, 2, 0, 2, 2]
    return (o.2.2.all id, o.2.1[0]?)) = .ok (true, some 7)

/- `test_heads_up` (`test_misc.py:39-57`) -/
#guard (do
    let (d, o0) ← start NO_LIMIT_HOLDEM_TWO_PLAYER [] id true true
    let (_, o1) ← bets d [1]
    return ((o0.action, o0.call, o0.minRaise, o0.maxRaise), (o1.1.call, o1.1.minRaise, o1.1.maxRaise))) =
    .ok ((0, 1, 3, 199), (0, 2, 198))

/- `test_reset` (`test_misc.py:60-74`): who is first to act in the first hand and in the six hands after it -/
#guard (do
    let (d, o) ← start NO_LIMIT_HOLDEM_SIX_PLAYER [] id true true
    let l ← firstToAct d 6
    return o.action :: l) = .ok [3, 4, 5, 0, 1, 2, 3]

/- which exception a constructor raises -/
def raises (a : DealerArgs) : Option Err :=
  match Dealer.new a id with
  | .error e => some e
  | .ok _ => none

/- `test_init` (`test_misc.py:77-137`), the invalid arguments -/
#guard
    raises { NO_LIMIT_HOLDEM_TWO_PLAYER with blinds := .list [0] } = some .invalidConfig ∧
    raises { NO_LIMIT_HOLDEM_TWO_PLAYER with antes := .list [0] } = some .invalidConfig ∧
    raises { NO_LIMIT_HOLDEM_TWO_PLAYER with raiseSizes := .list [.int 0] } = some .invalidConfig ∧
    raises { NO_LIMIT_HOLDEM_TWO_PLAYER with numRaises := .list [.fin 0] } = some .invalidConfig ∧
    raises { NO_LIMIT_HOLDEM_TWO_PLAYER with numCommunityCards := .list [0] } = some .invalidConfig ∧
    raises { NO_LIMIT_HOLDEM_TWO_PLAYER with raiseSizes := .scalar .other } = some .invalidRaiseSize

/- `test_init` (`test_misc.py:115-127`), single values for lists -/
#guard (Dealer.new { NO_LIMIT_HOLDEM_TWO_PLAYER with
      blinds := .scalar 0, antes := .scalar 0, raiseSizes := .scalar (.int 0), numRaises := .scalar (.fin 0)
      numCommunityCards := .scalar 0 } id).map
      (fun d => (d.cfg.blinds, d.cfg.antes, d.cfg.raiseSizes, d.cfg.numRaises, d.cfg.numCommunityCards)) =
    .ok ([0, 0], [0, 0], [.int 0, .int 0, .int 0, .int 0], [.fin 0, .fin 0, .fin 0, .fin 0], [0, 0, 0, 0])

/- `test_init_step` (`test_misc.py:154-161`) -/
#guard (do
    let d ← Dealer.new NO_LIMIT_HOLDEM_TWO_PLAYER id
    let (_, o) ← bets d [0]
    return o.1.pot) = .error .tableReset

/- `test_win_probabilities` (`test_misc.py:164-185`), with the seeded shuffle -/
#guard (do
    let (d, _) ← start NO_LIMIT_HOLDEM_NINE_PLAYER [] id false false (permute seed1)
    let (d, _) ← bets d [-1, 2, 2, 2, -1, 2, 2, 1, 0]
    let p ← d.winProbabilities
    return (p.sum == 1) && (p.zip d.active).all fun x => x.1 != 0 || !x.2) = .ok true

/-! ## `test_multi_round.py` -/

/- `test_button_move` (`test_multi_round.py:6-48`), two players -/
#guard (do
    let (d, o1) ← start NO_LIMIT_HOLDEM_TWO_PLAYER [] id true false
    let (d, _) ← checkDown d 20
    let o2 ← (d.reset false true id).2
    return ((o1.button, o1.action), (o2.button, o2.action))) = .ok ((0, 0), (1, 1))

/- `test_button_move` (`test_multi_round.py:6-48`), six players -/
#guard (do
    let (d, o1) ← start NO_LIMIT_HOLDEM_SIX_PLAYER [] id true true
    let (d, _) ← checkDown d 40
    let o2 ← (d.reset false true id).2
    return ((o1.button, o1.action), (o2.button, o2.action))) = .ok ((0, 3), (1, 4))

/- `test_inactive_players` (`test_multi_round.py:51-73`), with the seeded shuffle -/
#guard (do
    let (d, _) ← start NO_LIMIT_HOLDEM_SIX_PLAYER [] id true true (permute seed42)
    let (d, _) ← bets d [200, 200]
    let (d, _) ← foldDown d 20
    let o2 ← (d.reset false false id).2
    return (o2.button, o2.action)) = .ok (1, 5)

end Clubs.Conform
