{"id": "C01", "title": "Card parsing accepts exactly the documented strings", "statement": "Card(s) succeeds exactly when s has at least two characters, the first is one of 2-9,T,J,Q,K,A and the second one of S,H,D,C up to letter case; otherwise it raises InvalidRankError (bad rank, checked first), InvalidSuitError (bad suit) or IndexError (too short). Letter case and any characters after the second do not change the card.", "quantifier": "every string", "why_tests_cant": "the input space of strings is infinite; tests try a handful", "anchors": ["clubs/poker/card.py: Card.__init__"]}
{"id": "C02", "title": "Card integer is a faithful 32-bit encoding", "statement": "int(Card) has exactly the documented layout: low byte is the rank's prime, bits 8-11 the rank number, exactly one of bits 12-15 set for the suit, exactly one of bits 16-28 set for the rank and no other bit; so rank and suit can be read back from the integer, two cards compare equal iff rank and suit agree, and the integer fits in 32 bits.", "quantifier": "every rank/suit pair, every pair of cards", "why_tests_cant": "a layout collision shows only on the pair of cards that collide", "anchors": ["clubs/poker/card.py: Card.__init__, Card.__eq__, Card.__int__, PRIMES"]}
{"id": "C03", "title": "Deck contains each card of the sub-deck exactly once", "statement": "Deck(s, r) succeeds iff 1<=r<=13 and 1<=s<=4 (rank error first), and then holds s*r pairwise different cards: exactly the r highest ranks in the first s suits.", "quantifier": "every pair of integers (num_suits, num_ranks)", "why_tests_cant": "tests construct one or two decks", "anchors": ["clubs/poker/card.py: Deck.__init__"]}
{"id": "C04", "title": "Drawing and shuffling never lose or duplicate cards", "statement": "After any sequence of draw, shuffle, trick and untrick calls, the cards drawn since the last shuffle together with the cards left in the deck are a permutation of the full deck (tricking with distinct cards), draw(n) returns exactly min(n, len(deck)) cards in deck order and len drops by that number.", "quantifier": "every operation history, every outcome of the random shuffle, every draw size", "why_tests_cant": "histories and shuffle outcomes cannot be enumerated", "anchors": ["clubs/poker/card.py: Deck.draw, Deck.shuffle, Deck.trick, Deck.untrick, Deck.__len__"]}
{"id": "C05", "title": "A tricked deck deals the chosen cards first, on every shuffle until untricked", "statement": "After deck.trick(cards) with distinct cards of the deck, every later shuffle puts exactly those cards, in that order, on top, with the rest of the deck below in some order; untrick() removes this. A card not in the deck raises and leaves the deck unchanged.", "quantifier": "every list of distinct cards of the deck (including the whole deck), every shuffle outcome, every number of later shuffles", "why_tests_cant": "tests trick one deck with two cards", "anchors": ["clubs/poker/card.py: Deck.trick, Deck.untrick, Deck.shuffle"]}
{"id": "C06", "title": "Binomial helper counts subsets", "statement": "The combination count used to size every hand class equals the number of r-element subsets of n ranks.", "quantifier": "every n and every 0<=r<=n", "why_tests_cant": "infinite domain", "anchors": ["clubs/poker/evaluator.py: _ncr"]}
{"id": "C07", "title": "Bit-pattern generator enumerates every hand pattern exactly once in increasing order", "statement": "Starting from k low bits, the generator's first C(r,k) outputs are exactly the r-bit patterns with k bits set, each once, in strictly increasing order.", "quantifier": "every pattern width and every number of set bits", "why_tests_cant": "an off-by-one in the bit trick appears only for particular patterns", "anchors": ["clubs/poker/evaluator.py: _lexographic_next_bit, LookupTable._gen_flush"]}
{"id": "C08", "title": "Lookup keys do not collide", "statement": "Two hands get the same table key iff they consist of the same ranks with the same multiplicities; the key computed from the rank bits of a suited hand agrees with the key computed from its cards.", "quantifier": "every pair of hands of any size", "why_tests_cant": "pairs of hands cannot be enumerated by tests", "anchors": ["clubs/poker/evaluator.py: _prime_product_from_hand, _prime_product_from_rank_bits"]}
{"id": "C09", "title": "The evaluator can be built for every sub-deck and hand size", "statement": "Evaluator(suits, ranks, cards_for_hand) constructs without an internal error for every 1<=suits<=4, 1<=ranks<=13, 1<=cards_for_hand<=5, both settings of low_end_straight; outside 1..5 cards it raises InvalidHandSizeError.", "quantifier": "every deck shape, hand size and straight option", "why_tests_cant": "tests build about ten of the 520 tables", "anchors": ["clubs/poker/evaluator.py: Evaluator.__init__, LookupTable.__init__, LookupTable._flushes, LookupTable._multiples"]}
{"id": "C10", "title": "Every legal hand has a rank and it lies in range", "statement": "For every table that was built, evaluating any cards_for_hand different cards of the deck finds an entry, and the value lies between 0 and max_rank.", "quantifier": "every deck shape, every hand", "why_tests_cant": "2.6 million hands for the full deck alone, times all deck shapes", "anchors": ["clubs/poker/evaluator.py: LookupTable.lookup, LookupTable._flushes, LookupTable._multiples, LookupTable._get_rank"]}
{"id": "C11", "title": "Hand ranks order hands exactly as poker does", "statement": "For two hands of the deck, the lookup value of the first is smaller than that of the second iff the first beats the second: first by hand class in the table's class order, then inside a class by the multiplicity-sorted ranks compared from most significant to least (straights by their top card, the wheel lowest); equal value iff equal class and equal ranks.", "quantifier": "every deck shape, every ordered pair of hands", "why_tests_cant": "pairs of hands: over 10^12 for the full deck", "anchors": ["clubs/poker/evaluator.py: LookupTable.lookup, LookupTable._gen_straight_flush, LookupTable._gen_flush, LookupTable._multiples, LookupTable._get_rank"]}
{"id": "C12", "title": "Card order and suit names do not matter", "statement": "lookup and evaluate give the same rank for any reordering of the hand, of the hole cards, and of the community cards, and for any consistent renaming of the suits.", "quantifier": "every hand, every permutation of cards, every permutation of suits", "why_tests_cant": "all permutations of all hands", "anchors": ["clubs/poker/evaluator.py: LookupTable.lookup, Evaluator.evaluate"]}
{"id": "C13", "title": "evaluate returns the best rank over exactly the allowed five-card selections", "statement": "With no mandatory hole cards evaluate returns the minimum lookup value over all selections of cards_for_hand cards from hole and community cards; with 0<m<=cards_for_hand mandatory hole cards, over all selections using exactly m hole cards and cards_for_hand-m community cards; with no selection available it returns max_rank. Any other m makes evaluate raise ValueError. For different cards of the deck evaluate never fails otherwise.", "quantifier": "every list of hole cards, community cards, every hand size and mandatory count", "why_tests_cant": "tests check a few hands per game", "anchors": ["clubs/poker/evaluator.py: Evaluator.evaluate"]}
{"id": "C14", "title": "More community cards never make a hand worse", "statement": "Appending community cards (or, with no mandatory count, hole cards) never increases evaluate's result.", "quantifier": "every hand and every list of added cards", "why_tests_cant": "universally quantified over two inputs", "anchors": ["clubs/poker/evaluator.py: Evaluator.evaluate"]}
{"id": "C15", "title": "get_rank_class names the class of the evaluated hand and rejects ranks outside the range", "statement": "get_rank_class(lookup(hand)) is the name of the hand's class; negative ranks and ranks above max_rank raise InvalidHandRankError; every rank in 0..max_rank gets a class name.", "quantifier": "every deck shape, every hand, every integer", "why_tests_cant": "unbounded integers and all hands", "anchors": ["clubs/poker/evaluator.py: Evaluator.get_rank_class"]}
{"id": "C16", "title": "Without a custom order, hand classes are ranked by rarity", "statement": "With order=None, of two hand classes with different numbers of hands of the deck (counting suits) the one with fewer hands is ranked above, and every hand of it beats every hand of the other; every class that has hands is listed.", "quantifier": "every deck shape and hand size", "why_tests_cant": "tests compare one deck shape; the counts are combinatorial", "anchors": ["clubs/poker/evaluator.py: LookupTable.__init__, LookupTable._three_of_a_kind, LookupTable._high_card, LookupTable._straight, LookupTable._flush, LookupTable._pair, LookupTable._two_pair, LookupTable._full_house, LookupTable._four_of_a_kind"]}
{"id": "C17", "title": "A custom order is obeyed, and non-permutations are rejected", "statement": "With a custom order the classes that occur are ranked exactly in the given order; a list that is not a permutation of the nine codes raises InvalidOrderError; every permutation is accepted.", "quantifier": "every list of strings as order, every deck shape", "why_tests_cant": "9! orders times deck shapes", "anchors": ["clubs/poker/evaluator.py: LookupTable.__init__"]}
{"id": "C18", "title": "Chips are conserved by every step", "statement": "For every step() that returns, the sum of all stacks plus the pot after the step equals the sum before it (at hand end the pot is paid out).", "quantifier": "every reachable table state, every bet", "why_tests_cant": "all histories", "anchors": ["clubs/poker/engine.py: Dealer.step, Dealer._collect_bet, Dealer._payouts"]}
{"id": "C19", "title": "The pot is the sum of what the players put in this hand", "statement": "While a hand is running, pot equals the sum of the players' contributions of the hand, each seat's stack plus contribution stays equal to its stack at the start of the hand, and (blinds, antes and start stacks being non-negative) each seat's contribution is at least what it put in on the current street.", "quantifier": "every reachable state of every hand", "why_tests_cant": "all histories", "anchors": ["clubs/poker/engine.py: Dealer._collect_bet, Dealer._collect_multiple_bets, Dealer.step"]}
{"id": "C20", "title": "Payouts are zero-sum when the hand ends", "statement": "Whenever step() reports all players done, the returned payouts sum to zero, and each stack has changed over the whole hand by exactly that player's payout.", "quantifier": "every hand history, every dealing", "why_tests_cant": "all histories and all dealings", "anchors": ["clubs/poker/engine.py: Dealer.step, Dealer._payouts, Dealer._eval_round"]}
{"id": "C21", "title": "No player's stack is ever negative and nobody bets chips they do not have", "statement": "After every reset() and step(), every stack is >= 0; a bet moves at most the acting player's stack.", "quantifier": "every history, every configuration with non-negative blinds and antes", "why_tests_cant": "all histories and stack distributions", "anchors": ["clubs/poker/engine.py: Dealer._collect_multiple_bets, Dealer._collect_bet, Dealer.reset"]}
{"id": "C22", "title": "Chips are conserved over whole sessions", "statement": "If reset() is called only before the first hand or after a finished hand and reset_stacks is not used, the sum of all stacks plus the pot never changes over any number of hands.", "quantifier": "every sequence of hands", "why_tests_cant": "unbounded sequences of hands", "anchors": ["clubs/poker/engine.py: Dealer.reset, Dealer.step"]}
{"id": "C23", "title": "If all but one player fold, the remaining player wins the whole pot", "statement": "When a hand ends with one active player, that player's payout is the pot minus their own contribution and every other player's payout is minus their contribution.", "quantifier": "every hand that ends by folding", "why_tests_cant": "all histories", "anchors": ["clubs/poker/engine.py: Dealer._payouts, Dealer.step"]}
{"id": "C24", "title": "Side pots: a player wins at most their own contribution from each opponent", "statement": "At showdown a player's share of the pot is at most the sum over all players of min(their contribution, own contribution), apart from odd chips.", "quantifier": "every showdown: any contributions, any hand strengths, any number of players", "why_tests_cant": "all-in structures grow combinatorially", "anchors": ["clubs/poker/engine.py: Dealer._eval_round"]}
{"id": "C25", "title": "Showdown pays each chip layer to the best eligible hands", "statement": "At showdown, layer by layer (chip t of every contribution), the chips of the layer are split equally among the best hands of the active players whose contribution reaches the layer; odd chips apart, each player receives exactly the sum of these shares.", "quantifier": "every showdown: any contributions, strengths, number of players", "why_tests_cant": "all-in structures grow combinatorially", "anchors": ["clubs/poker/engine.py: Dealer._eval_round, Dealer._eval_hands"]}
{"id": "C26", "title": "A folded player never gets chips back", "statement": "A player who folded ends the hand with payout equal to minus their contribution.", "quantifier": "every hand history", "why_tests_cant": "all histories, contributions and strengths", "anchors": ["clubs/poker/engine.py: Dealer._payouts, Dealer._eval_round"]}
{"id": "C27", "title": "Odd chips go to the first winner after the button", "statement": "When a pot cannot be split evenly, the odd chips all go to the first player to the left of the button who wins part of the pot, and the showdown always completes.", "quantifier": "every showdown with a remainder, every button position", "why_tests_cant": "tests only use button position 0", "anchors": ["clubs/poker/engine.py: Dealer._eval_round"]}
{"id": "C28", "title": "A hand ends only when one player is left or after a showdown on the last street", "statement": "step() reports all players done only if at most one player is active, or all streets have been dealt and the hands were compared.", "quantifier": "every reachable state, every bet", "why_tests_cant": "all histories", "anchors": ["clubs/poker/engine.py: Dealer.step, Dealer._done, Dealer._all_agreed"]}
{"id": "C29", "title": "Bets are rounded to the nearest legal size, ties to the smaller", "statement": "The number of chips a step moves is the legal bet size nearest to the requested bet, where the legal sizes are 0, the call amount and everything from min_raise to max_raise; of two equally near sizes the smaller is used.", "quantifier": "every requested bet and every table state", "why_tests_cant": "all bets times all states", "anchors": ["clubs/poker/engine.py: Dealer._clean_bet, Dealer.step, argmin"]}
{"id": "C30", "title": "The reported bet sizes are affordable and ordered", "statement": "In every observation of a running hand 0 <= call <= stack, min_raise and max_raise are between 0 and the acting player's stack, and min_raise <= max_raise; if raising is allowed at all then call <= min_raise.", "quantifier": "every reachable state", "why_tests_cant": "all histories", "anchors": ["clubs/poker/engine.py: Dealer._bet_sizes, Dealer._observation"]}
{"id": "C31", "title": "No-limit, pot-limit and fixed-limit caps are enforced", "statement": "No step moves more than the cap: the stack in no-limit, pot + 2*call in pot-limit, call + raise size in fixed-limit (and never more than the stack).", "quantifier": "every reachable state, every bet however large", "why_tests_cant": "all bets times all states", "anchors": ["clubs/poker/engine.py: Dealer._bet_sizes, Dealer._clean_bet, Dealer._collect_bet"]}
{"id": "C32", "title": "The number of raises per street is capped", "statement": "On a street with num_raises = m at most m full raises are made; after that every step moves at most the call amount.", "quantifier": "every betting sequence on a street", "why_tests_cant": "all betting sequences", "anchors": ["clubs/poker/engine.py: Dealer._bet_sizes, Dealer.step"]}
{"id": "C33", "title": "An incomplete all-in raise does not reopen the betting for players who are already in for less than a full raise", "statement": "If a raise happened on this street and the amount to call is less than the last full raise, the acting player can only fold, call or check.", "quantifier": "every reachable state", "why_tests_cant": "all betting sequences", "anchors": ["clubs/poker/engine.py: Dealer._bet_sizes"]}
{"id": "C34", "title": "A player who can check is never folded; a player facing a bet who puts in less is folded; folds are permanent", "statement": "A step makes the acting player inactive iff there is an amount to call and the rounded bet is below it or the bet was negative; no other player's active flag changes, and nobody becomes active again before reset(). All-in players cannot be folded.", "quantifier": "every reachable state, every bet", "why_tests_cant": "all histories", "anchors": ["clubs/poker/engine.py: Dealer.step"]}
{"id": "C35", "title": "The player to act is always an active seat, and action moves clockwise", "statement": "In every observation of a running hand the acting seat exists and is active; after a step on the same street it is the next active seat clockwise; on a new street it is the first active seat after the button.", "quantifier": "every reachable state, every seat configuration", "why_tests_cant": "all histories", "anchors": ["clubs/poker/engine.py: Dealer._move_action, Dealer.step, Dealer.reset"]}
{"id": "C36", "title": "A street ends exactly when everyone has acted and matched, folded or is all-in", "statement": "After a step the street advances iff every active player has had the chance to act since the street began and every active player with chips has put in the street's maximum; if then at most one active player has chips, all remaining streets are dealt at once.", "quantifier": "every reachable state", "why_tests_cant": "all histories", "anchors": ["clubs/poker/engine.py: Dealer._all_agreed, Dealer.step"]}
{"id": "C37", "title": "Every hand ends", "statement": "From every state of a running hand, every infinite sequence of bets reaches the end of the hand after finitely many steps.", "quantifier": "every configuration, every state, every infinite sequence of bets", "why_tests_cant": "termination over infinite sequences is untestable", "anchors": ["clubs/poker/engine.py: Dealer.step, Dealer._all_agreed, Dealer._move_action"]}
{"id": "C38", "title": "The history records each action faithfully", "statement": "After each step the history has one more entry: the acting seat, the chips it put in, and a flag that is true iff the player folded.", "quantifier": "every history", "why_tests_cant": "all histories", "anchors": ["clubs/poker/engine.py: Dealer.step"]}
{"id": "C39", "title": "Dealt cards are all different and accounted for", "statement": "In every running hand the hole cards of all players, the community cards and the cards left in the deck are together a permutation of the full deck; each player holds num_hole_cards cards if the deck is large enough.", "quantifier": "every history, shuffle outcome and configuration", "why_tests_cant": "all shuffles and histories", "anchors": ["clubs/poker/engine.py: Dealer.reset, Dealer.step", "clubs/poker/card.py: Deck.draw"]}
{"id": "C40", "title": "Community cards appear street by street", "statement": "On street i the number of community cards is the sum of the first i+1 entries of num_community_cards (if the deck suffices), and earlier community cards never change.", "quantifier": "every history", "why_tests_cant": "all histories", "anchors": ["clubs/poker/engine.py: Dealer.step, Dealer.reset"]}
{"id": "C41", "title": "reset starts a clean hand", "statement": "reset() moves the button one seat (or to seat 0), posts every active seat's ante and blind counted from the first active seat after the button (from the button heads-up), sets the pot to the sum posted, clears history, street and raise counters, and gives the action to the second active seat after the blinds' start.", "quantifier": "every table state before reset, every configuration", "why_tests_cant": "all prior histories", "anchors": ["clubs/poker/engine.py: Dealer.reset, Dealer._collect_multiple_bets"]}
{"id": "C42", "title": "reset refuses to start with fewer than two players with chips and changes nothing", "statement": "reset() without reset_stacks raises TooFewActivePlayersError iff at most one player has chips, and then leaves the table as it was.", "quantifier": "every table state", "why_tests_cant": "all prior histories", "anchors": ["clubs/poker/engine.py: Dealer.reset"]}
{"id": "C43", "title": "step needs a reset first, and is read-only after the hand is over", "statement": "step() on a new table raises TableResetError; after the hand has ended every further step() leaves the table unchanged and reports the same payouts with all players done.", "quantifier": "every finished hand, every bet, any number of extra steps", "why_tests_cant": "all histories", "anchors": ["clubs/poker/engine.py: Dealer.step"]}
{"id": "C44", "title": "The constructor validates its lists and expands scalars", "statement": "A list of the wrong length for blinds, antes, raise_sizes, num_raises or num_community_cards raises InvalidConfigError; a raise size that is not an int, 'pot' or 'inf' raises InvalidRaiseSizeError; a scalar behaves exactly like the constant list.", "quantifier": "every constructor argument", "why_tests_cant": "infinite argument space", "anchors": ["clubs/poker/engine.py: Dealer.__init__, check_inp, clean_rs"]}
{"id": "C45", "title": "All shipped configurations are playable", "statement": "Every configuration in clubs.configs constructs, its evaluator builds, its deck is large enough for all hole and community cards, every start stack covers blinds and antes.", "quantifier": "every shipped configuration", "why_tests_cant": "finite, but the consequence (all other theorems apply to it) is not testable", "anchors": ["clubs/configs.py"]}
{"id": "C46", "title": "win_probabilities is each player's expected share of the pot", "statement": "When it returns, the values are >= 0, sum to 1, folded players get 0, and each value is the player's expected share of the pot over all completions of the board, a tie being split equally; it raises only if no completion exists.", "quantifier": "every table state", "why_tests_cant": "all states and boards", "anchors": ["clubs/poker/engine.py: Dealer.win_probabilities, Dealer._eval_hands"]}
{"id": "C47", "title": "Observations do not reveal other players' cards", "statement": "While a hand is running, what step() and reset() return depends on the hole cards only through those of the player to act: two tables that differ only in other players' hole cards return the same observation, payouts and done flags.", "quantifier": "every pair of tables differing in hidden cards, every bet", "why_tests_cant": "a two-run (relational) property", "anchors": ["clubs/poker/engine.py: Dealer._observation, Dealer.step, Dealer._payouts"]}
{"id": "C48", "title": "The ASCII view does not reveal other players' cards", "statement": "While a hand is running the rendered string depends on the hole cards only through those of the acting player; folded players' cards are never shown.", "quantifier": "every pair of render configurations differing in hidden cards", "why_tests_cant": "a two-run (relational) property", "anchors": ["clubs/render/ascii_viewer.py: ASCIIViewer._parse_string, ASCIIViewer._parse_players"]}
{"id": "C49", "title": "The ASCII view shows correct amounts", "statement": "The number printed for a stack, bet or pot, with thousands separators removed, is the decimal representation of the amount, and groups have three digits.", "quantifier": "every integer", "why_tests_cant": "unbounded integers", "anchors": ["clubs/render/ascii_viewer.py: ASCIIViewer._parse_string"]}
{"id": "C50", "title": "The end-of-hand message lists exactly the winners of the hand", "statement": "After a hand ends, the rendered win message lists exactly the players with a positive payout in the hand, with their payouts.", "quantifier": "every finished hand", "why_tests_cant": "all histories", "anchors": ["clubs/render/ascii_viewer.py: _parse_win_string", "clubs/poker/engine.py: Dealer._render_config, Dealer._payouts"]}
{"id": "C51", "title": "The order in which cards are dealt; a tricked deck deals the given cards", "statement": "reset() deals from the top of the shuffled deck: first the community cards of the first street, then num_hole_cards cards for seat 0, for seat 1, and so on. After dealer.deck.trick(top) with different cards of the game (not the whole deck) the next hand is dealt from top in the given order, whatever random.shuffle does.", "quantifier": "every table state before reset, every configuration, shuffle outcome and list of cards", "why_tests_cant": "unbounded histories, 52! orders, all tricked prefixes", "anchors": ["clubs/poker/engine.py: Dealer.reset", "clubs/poker/card.py: Deck.trick, Deck.shuffle, Deck.draw"]}
{"id": "C52", "title": "Every hand has its blinds posted", "statement": "Whenever a hand is dealt, for every position there is a player who posts the blind of this position; in particular somebody posts the big blind.", "quantifier": "every table state before reset, every configuration", "why_tests_cant": "needs the combination of a broke seat and a button position", "anchors": ["clubs/poker/engine.py: Dealer.reset, Dealer._collect_multiple_bets"]}
{"id": "C53", "title": "reset() succeeds exactly when there are players for a hand", "statement": "On a table that seats its players, reset() returns an observation iff there is at least one street and (the stacks are reset or at least two players have chips); then at least two players are in, the first street is on, and the player to act is in the hand.", "quantifier": "every reachable table, both flags, every shuffle", "why_tests_cant": "all reachable tables and shuffles", "anchors": ["clubs/poker/engine.py: Dealer.reset, Dealer._move_action, Dealer._observation"]}
{"id": "C54", "title": "At a showdown every remaining hand is evaluated to the best selection of its cards", "statement": "If the evaluator fits the table (a hand can be chosen from hole and full board), the evaluation of every player in at a showdown succeeds, and the rank it gets is that of the strongest hand over all legal selections of their hole and community cards.", "quantifier": "every showdown of every table whose evaluator fits", "why_tests_cant": "all cards and tables", "anchors": ["clubs/poker/engine.py: Dealer._eval_hands", "clubs/poker/evaluator.py: Evaluator.evaluate"]}
{"id": "C55", "title": "The line under the ASCII table tells the last move and whose turn it is", "statement": "After every step that does not end the hand the line under the picture names the seat that just acted, says 'folded', 'checked' or 'bet' with the chips it put in, whichever happened, and names the seat that is to act; after reset() it names the seat to act only.", "quantifier": "every step of every hand", "why_tests_cant": "all histories and amounts", "anchors": ["clubs/render/ascii_viewer.py: _parse_action_string", "clubs/poker/engine.py: Dealer._render_config, Dealer.step"]}
{"id": "C56", "title": "What makes step() raise, and what is left behind", "statement": "While somebody is to act, a bet of +-infinity raises OverflowError and nan raises ValueError, and the table is unchanged; a finite bet in a running hand raises only when the hands of at least two players are compared after the last street, and after that every further step() raises and changes nothing.", "quantifier": "every state of every hand, every bet", "why_tests_cant": "all histories, all bets", "anchors": ["clubs/poker/engine.py: Dealer.step, Dealer._payouts, Dealer._bet_sizes"]}
{"id": "C57", "title": "The ASCII view shows the table as it is", "statement": "In every state of a hand the picture shows, at the position of each seat, its number, its cards (dashes if it is not in, question marks if hidden), its stack and its bet of the street (at the end its payout), the dealer marker at the button only, 'A' at seats that are in without chips, 'X' at the seat to act, the pot, and the community cards with placeholders for those to come. The seats are placed clockwise at different places, every place of the layout occurs exactly once in the template, and as long as all texts fit into their fields the picture always has the same size.", "quantifier": "every state of every hand at a table of 2 to 10 seats", "why_tests_cant": "all histories and amounts, every table size", "anchors": ["clubs/render/ascii_viewer.py: ASCIIViewer._parse_string, ASCIIViewer._parse_players, POS_DICT", "clubs/render/ascii_table.txt"]}
{"id": "C58", "title": "Observations show the table as it is", "statement": "The observation returned by reset() and step() has the current active flags, button, community cards, pot, stacks and street commits; its action is the seat to act, or -1 if the hand is over, and its hole cards are those of the seat to act.", "quantifier": "every observation returned by any successful reset or step", "why_tests_cant": "all histories, bets and decks", "anchors": ["clubs/poker/engine.py: Dealer._observation, Dealer.reset, Dealer.step"]}
{"id": "C59", "title": "The bet sizes offered are those of the rules", "statement": "While somebody is to act, the observation offers as call the amount missing to the highest bet of the street, capped by the stack. If the number of raises of the street is not used up, and there was no raise on the street or the amount to call is at least the last full raise, then the minimum raise is the call plus the fixed raise size, or else the call plus the last full raise but at least a big blind, and the maximum is the call plus the fixed size, the call plus the pot after calling for pot limit, or the stack for no limit, all capped by the stack. Otherwise no raise is offered. The number and size of the full raises are those of the moves actually made.", "quantifier": "every history of moves of a hand with non-negative stacks and forced bets", "why_tests_cant": "all histories of bets and all limits", "anchors": ["clubs/poker/engine.py: Dealer._bet_sizes, Dealer._clean_bet, Dealer.step"]}
{"id": "C60", "title": "The done flags tell who can still act", "statement": "After a step that leaves the hand running, a seat's done flag is set exactly if it is out of the hand or has no chips left; after the step that ends the hand, all flags are set.", "quantifier": "every step of every hand", "why_tests_cant": "all histories of bets", "anchors": ["clubs/poker/engine.py: Dealer._done, Dealer.step"]}
{"id": "C61", "title": "Printed cards identify the card and can be read back", "statement": "str(card) is the rank symbol followed by the suit symbol, different cards print differently, and Card(str(card)) is the same card; a printed deck determines its cards.", "quantifier": "all cards the constructor accepts, all decks of such cards", "why_tests_cant": "Relates every pair of cards and decks of any length and order.", "anchors": ["clubs/poker/card.py: Card.__init__, Card.__str__, Deck.__str__, PRETTY_SUITS"]}
{"id": "C62", "title": "render uses the requested mode", "statement": "Each call of render shows the table in the mode it asks for; an unknown mode raises InvalidRenderModeError, and a viewer that fails to start leaves the dealer without a viewer.", "quantifier": "all dealers, all mode strings, all sequences of render calls", "why_tests_cant": "Ranges over every mode string and every sequence of calls.", "anchors": ["clubs/poker/engine.py: Dealer.render", "clubs/error.py: InvalidRenderModeError"]}
{"id": "C63", "title": "The message to the browser describes the table", "statement": "The dictionary sent to the browser holds the acting seat, active flags, all-in flags, button, pot, stacks, street commits, payouts, last action and done flag of the dealer, with every card as its printed form in its place.", "quantifier": "all dealers with at least one player's hole cards for which a message is sent", "why_tests_cant": "Ranges over every state and every number of players and cards.", "anchors": ["clubs/render/graphic.py: _convert_hands, _jsonify, GraphicViewer.render", "clubs/poker/engine.py: Dealer._render_config"]}
{"id": "C64", "title": "The message to the browser does not reveal hidden cards", "statement": "While a hand is running the message to the browser does not depend on the hole cards of players who are not acting.", "quantifier": "all reachable tables with equal public state", "why_tests_cant": "Non-interference: compares all pairs of tables.", "anchors": ["clubs/render/graphic.py: _jsonify, GraphicViewer.render"]}
{"id": "C65", "title": "Players sit evenly spaced around the table in the browser", "statement": "The positions of the players and of their bets lie on the border of a rectangle with round ends around the centre of the picture, seat 0 in the middle of the lower side, different seats at different places, mirror and opposite seats symmetric, at equal distances along the border; the players are outside the table, their bets on it.", "quantifier": "all widths and heights with 0 < height <= width, all fractions, all numbers of players", "why_tests_cant": "Continuous parameters; injectivity and spacing relate all pairs of positions for every number of players.", "anchors": ["clubs/render/graphic.py: _RoundedRectangle, _SVGPoker._base_svg, _SVGPoker.add_players, _SVGPoker.add_street_commits"]}
{"id": "C66", "title": "The SVG picture of the table is well formed", "statement": "For any number of players, hole cards and community cards the picture is built without error, no id occurs twice, every id the page's script looks up occurs, each player's box is centred at the seat's position, and its hole cards lie side by side inside it.", "quantifier": "all numbers of players, hole cards and community cards, all seat positions", "why_tests_cant": "The tree grows with three unbounded parameters; uniqueness relates all pairs of elements.", "anchors": ["clubs/render/graphic.py: _SVGElement, _SVGPoker._base_svg, _SVGPoker.new_player, _SVGPoker.add_players, _SVGPoker.add_community, _SVGPoker.add_street_commits", "clubs/render/resources/static/parse_config.js: getElementById calls"]}
{"id": "C67", "title": "The page in the browser shows the current table", "statement": "After a message from render every open page, whatever it showed before, shows exactly the table: stacks, bets, pot, button, the seat to act, the community cards and the hole cards of players who have not folded; nothing of earlier tables stays, and the page does not depend on the cards of folded players.", "quantifier": "all reachable tables, all earlier contents of the page, all sequences of messages and of pages connecting", "why_tests_cant": "Every earlier history of the page and every table; independence of the past and of hidden cards relates pairs of executions.", "anchors": ["clubs/render/resources/static/parse_config.js: reset_player, reset_community, reset_button, update_players, update_card, update_community, update_button, update_action", "clubs/render/graphic.py: GraphicViewer._run_flask"]}
{"id": "C68", "title": "The two engines play the same game", "statement": "Given the same constructor arguments, the same shuffles and the same bets, the Dealer of engine_numpy.py and the Dealer of clubs/poker/engine.py go through the same tables and return the same observations and payouts (the button number read modulo the number of seats).", "quantifier": "all constructor arguments that are accepted, all shuffles, all sequences of resets and bets", "why_tests_cant": "A relation between two programs over unbounded pairs of executions; they differ only at rare showdowns and all-ins.", "anchors": ["engine_numpy.py: Dealer.reset, Dealer.step, Dealer._eval_round, Dealer._done, Dealer._clean_bet", "clubs/poker/engine.py: Dealer.reset, Dealer.step, Dealer._eval_round"]}
{"id": "C69", "title": "The array engine keeps all chips", "statement": "With the Dealer of engine_numpy.py no step changes the sum of the stacks and the pot; when a hand ends the payouts sum to zero and are exactly the changes of the stacks, and no stack is negative; over a whole session no chip is lost or made.", "quantifier": "all tables with non-negative stacks, blinds, antes and raise sizes, all shuffles, all sequences of bets and hands", "why_tests_cant": "Invariant over unbounded sequences of hands and bets, including ties with side pots and odd chips.", "anchors": ["engine_numpy.py: Dealer.step, Dealer.reset, Dealer._payouts, Dealer._eval_round, Dealer._collect_bet, Dealer._collect_multiple_bets"]}
{"id": "C70", "title": "Every hand of the array engine ends", "statement": "With the Dealer of engine_numpy.py, whatever is bet, after finitely many steps nobody is to act, the pot is paid out and no stack is negative.", "quantifier": "all hands, all infinite sequences of bets", "why_tests_cant": "Liveness over infinite sequences of bets.", "anchors": ["engine_numpy.py: Dealer.step, Dealer._all_agreed, Dealer._move_action, Dealer._done, Dealer._eval_round"]}
{"id": "C71", "title": "Showdowns of the array engine are fair", "statement": "At a showdown with the Dealer of engine_numpy.py every player receives the exact share, rounded down, of every layer of chips they win, nobody wins from anybody more than they put in themselves, and the odd chips go to the first winner after the button.", "quantifier": "all hands that reach a showdown, all contributions, ranks, ties and folds", "why_tests_cant": "All combinations of ties, side pots, folds and button positions.", "anchors": ["engine_numpy.py: Dealer._eval_round, Dealer._payouts"]}
{"id": "C72", "title": "The button of the array engine moves one seat per hand", "statement": "With the Dealer of engine_numpy.py the button stays during a hand and each reset moves it to the next seat; the observation shows the number of the seat.", "quantifier": "all tables, all numbers of hands", "why_tests_cant": "Holds for the first hands and fails later; needs all numbers of hands.", "anchors": ["engine_numpy.py: Dealer.reset, Dealer._observation"]}
{"id": "C73", "title": "Winning chances of the array engine", "statement": "win_probabilities of engine_numpy.py returns, for fewer than 1000 possible boards, the exact values of the other engine, independent of chance; from 1000 boards on the relative frequencies with which the players win the samples; in both cases a distribution over the players in which a folded player has 0. It fails exactly when cards are missing or no sample is asked for.", "quantifier": "all tables, all numbers of samples, all outcomes of np.random.choice", "why_tests_cant": "All boards and all samples.", "anchors": ["engine_numpy.py: Dealer.win_probabilities", "clubs/poker/evaluator.py: _ncr"]}
{"id": "C74", "title": "The array engine deals every card once", "statement": "With the Dealer of engine_numpy.py hole cards, community cards and deck are at every moment all cards of the game, each once; cards are dealt from the top of the shuffled deck, in the numbers the configuration says, community cards are only added, and at the showdown every hand can be ranked.", "quantifier": "all histories of constructor, reset, step, trick and untrick calls, all shuffles", "why_tests_cant": "Invariant over unbounded histories, exceptions included.", "anchors": ["engine_numpy.py: Dealer.reset, Dealer.step, Dealer._eval_hands"]}
{"id": "C75", "title": "What a kept observation shows later", "statement": "The dictionary that reset and step return contains the dealer's own lists. When it is returned it is the observation of the moment. Kept while the hand goes on, its active and community_cards show the table as it is now, stacks until the hand ends and street_commits until the street ends; so it is not a record of the moment. hole_cards and the numbers never change, and once a new hand has been dealt the dictionary does not change at all. A program that writes into its lists changes the dealer.", "quantifier": "all tables, all histories of constructor, reset and step calls (exceptions included), all shuffles, all dictionaries returned, all calls made after that", "why_tests_cant": "Which objects are shared after every sequence of calls; a test compares one stored dictionary at one time.", "anchors": ["clubs/poker/engine.py: Dealer._observation, Dealer.reset, Dealer.step, Dealer._collect_bet, Dealer._collect_multiple_bets"]}
{"id": "C76", "title": "What a kept observation of the array engine shows later", "statement": "The dictionary that reset and step of engine_numpy.py return says later what it said when it was returned, except for community_cards, which within the hand are those of the table now and are frozen once a new hand has been dealt.", "quantifier": "all tables, all histories of constructor, reset and step calls (exceptions included), all shuffles, all dictionaries returned, all calls made after that", "why_tests_cant": "Which objects are shared after every sequence of calls.", "anchors": ["engine_numpy.py: Dealer._observation, Dealer.reset, Dealer.step"]}
{"id": "C77", "title": "Everybody at a showdown has paid to see it", "statement": "If all positions pay the same ante and everybody with chips can pay ante and blind, then at a showdown every player still in has put in as much as anybody else at the table, or all the chips they started the hand with. If moreover all started with the same chips, all players still in have put in the same and nobody more.", "quantifier": "every table with equal antes and covered blinds, every hand, every sequence of bets, every showdown", "why_tests_cant": "an invariant over all streets, all bet sequences and all stack sizes", "anchors": ["clubs/poker/engine.py: Dealer.step, Dealer._all_agreed, Dealer._clean_bet, Dealer._collect_bet"]}
{"id": "C78", "title": "What an evaluator says about itself is right", "statement": "str(evaluator) lists the hand classes from best to worst in the order in which they are ranked, each once and none left out that has hands, and behind each the share of all possible hands that are of this class, in percent, correctly rounded to four digits after the point. Two evaluators with the same text rank the same classes in the same order.", "quantifier": "every number of suits, ranks and cards per hand, with and without low straights, every order of classes without repetitions", "why_tests_cant": "counts hands over all deck shapes; the tests compare one string", "anchors": ["clubs/poker/evaluator.py: Evaluator.__init__, Evaluator.__str__, LookupTable"]}
{"id": "C79", "title": "The project's example programs end with fair rewards", "statement": "The program in README.md and example.py, which play a hand with random bets, end after finitely many turns without an exception and print one number per player; the numbers add up to zero and nobody loses more than they had.", "quantifier": "every shipped configuration, every shuffle, every sequence of random numbers", "why_tests_cant": "infinitely many sequences of random numbers and shuffles; the tests do not run the example programs", "anchors": ["README.md: Example", "example.py: main", "clubs/poker/engine.py: Dealer.reset, Dealer.step", "clubs/configs.py"]}
{"id": "C80", "title": "The value of a hand is the number of different hands that beat it", "statement": "The value the evaluator gives to a hand is the number of essentially different hands (class and ranks) that beat it, all numbers from 0 on occur, and max_rank is the number of essentially different hands. The numbers in the documentation (7462 hands, 167 for aces full of kings, 180 for kings full of queens) are right.", "quantifier": "every number of suits (1-4), ranks (up to 13) and cards per hand (1-5, fewer than ranks, or one or two cards from as many ranks), with and without low straights, every order of classes, every hand", "why_tests_cant": "counts hands over all deck shapes and orders; the tests look up a few hands of the standard deck", "anchors": ["clubs/poker/evaluator.py: LookupTable, _get_rank, Evaluator", "clubs/poker/README.md: Lookup Table"]}
{"id": "C81", "title": "The speed test times evaluations of hands", "statement": "speed_test(n) evaluates n hands of two hole cards and five community cards and returns the average time of an evaluation; speed_test.py prints this time and its inverse.", "quantifier": "every evaluator of a supported shape, every n, every shuffle, every sequence of clock readings", "why_tests_cant": "the test only checks that the returned time is below one second; which hands are evaluated is not visible from outside", "anchors": ["clubs/poker/evaluator.py: Evaluator.speed_test", "clubs/poker/card.py: Deck.draw", "speed_test.py: main", "README.md: Universal Deuces"]}
{"id": "C82", "title": "No seat is favoured", "statement": "If all players move the same number of seats, with their chips, their cards, the button and the turn, then every bet has the same effect and the same result for the same players, and a deal from the deck with the players' cards moved in the same way gives the moved hand. Players who put in the same and have equally strong hands get the same.", "quantifier": "every number of seats to move, all configurations, all states of all hands, all bets, all shuffles, both engines", "why_tests_cant": "relates two executions, for all tables and all rotations; a test compares with fixed numbers for one seating", "anchors": ["clubs/poker/engine.py: Dealer.step, Dealer.reset, Dealer._move_action, Dealer._collect_multiple_bets, Dealer._eval_round", "engine_numpy.py: Dealer.step, Dealer.reset, Dealer._eval_round"]}
{"id": "C83", "title": "A hand can be replayed from its history", "statement": "Every accepted call of step adds exactly one entry to the history, and making the recorded bet instead has exactly the same effect and result; a refused call adds nothing and changes nothing. So from the table as dealt, the recorded moves lead to the table as it is now, whatever was bet: illegal sizes, fractions, infinities, calls after the end of the hand. The deal and the history determine the table.", "quantifier": "all configurations and stacks that are not negative, all deals, all sequences of bets of any length, both engines (the array engine for raise sizes that are not negative)", "why_tests_cant": "relates two executions for all sequences of bets; tests look at single entries of the history", "anchors": ["clubs/poker/engine.py: Dealer.step, Dealer._clean_bet, Dealer._bet_sizes, Dealer._move_action", "engine_numpy.py: Dealer.step, Dealer._clean_bet"]}
{"id": "C84", "title": "No suit is favoured", "statement": "If the suits of all cards are exchanged, in the hands, on the board and in the deck, then every bet has the same effect, the same payouts, the same done flags and the same exceptions, the observation is the same with the suits exchanged, and the chances to win are the same. If the suits of the game are exchanged among themselves, the deck with the suits exchanged is another order of the same cards and deals the same hand with the suits exchanged.", "quantifier": "all permutations of the suits, all configurations, all states a program can reach, all bets, all shuffles, both engines", "why_tests_cant": "relates two executions, for all tables, all cards and all 24 permutations", "anchors": ["clubs/poker/engine.py: Dealer.step, Dealer.reset, Dealer._eval_hands, Dealer._payouts, Dealer.win_probabilities", "clubs/poker/evaluator.py: Evaluator.evaluate", "clubs/poker/card.py: Deck.shuffle, Deck.draw", "engine_numpy.py: Dealer.step, Dealer.reset"]}
{"id": "C85", "title": "The fixed width of the array engine's integers does not matter while the chips are few", "statement": "The arrays of engine_numpy.py hold 32-bit integers, which wrap around silently. If all chips on the table plus twice the antes and blinds of a hand are less than 2^31 (a third of that where single numbers have 32 bits too, as in NumPy 2), then every reset and every step of every session leaves the same table, returns the same and raises the same exceptions as with unbounded integers, and no chip is lost or made; this holds for every shipped configuration. With more chips it is false.", "quantifier": "all configurations, all shuffles, all sequences of bets, all sessions of hands, both behaviours of single numbers", "why_tests_cant": "the numbers that can arise in some hand have to be bounded over all sequences of bets", "anchors": ["engine_numpy.py: Dealer.__init__, Dealer.reset, Dealer.step, Dealer._bet_sizes, Dealer._collect_bet, Dealer._collect_multiple_bets, Dealer._payouts", "clubs/configs.py"]}
{"id": "C86", "title": "Steps after the end of a hand of the array engine change nothing and repeat its result", "statement": "After a step of engine_numpy.py has ended a hand, all players are done, and any number of further steps with any bets leave the table as it is and report the same observation, payouts and done flags as the step that ended the hand.", "quantifier": "all hands of the array engine, all ways a hand can end, all numbers of further steps with any bets", "why_tests_cant": "all histories of bets and every way to end a hand; the repeated payouts are computed again from the state that the first payout has changed", "anchors": ["engine_numpy.py: Dealer.step, Dealer._payouts, Dealer._eval_round, Dealer._done"]}
{"id": "C87", "title": "The pictures of the array engine show the table as it is", "statement": "In every state of a hand of engine_numpy.py there is a picture. It shows each seat's number, cards, stack and bet, the button, the pot, the community cards, whose turn it is and what was done last, as for the other engine (C57); cards that the player to act cannot see do not influence it; cards of folded players are never shown; after the hand it names the winners and their payouts.", "quantifier": "every state of every hand of every session of the array engine", "why_tests_cant": "all histories, sessions of any length, all pairs of tables that differ in hidden cards", "anchors": ["engine_numpy.py: Dealer.__str__, Dealer._render_config, Dealer.render", "clubs/render/ascii_viewer.py: ASCIIViewer._parse_string"]}
{"id": "C88", "title": "The page in the browser shows the tables of the array engine", "statement": "Whatever the page looked like before, after a message of a dealer of engine_numpy.py the script has run without error and the page shows the stacks, bets, pot, cards, the button and whose turn it is, for the table the message is about.", "quantifier": "all tables in all sessions of the array engine, all earlier states of the page", "why_tests_cant": "every session length and every earlier state of the page; the tests have no browser", "anchors": ["engine_numpy.py: Dealer.render, Dealer._render_config, Dealer.reset", "clubs/render/graphic.py: _jsonify, _SVGPoker", "clubs/render/resources/static/parse_config.js"]}
{"id": "C89", "title": "A better hand never wins less", "statement": "The cards have no influence on the betting: two deals of the same table are equal apart from the cards, and remain so under the same bets while the hand goes on. If at the showdown one player's hand is better in one deal than in the other, and the hands of the others are worth the same, then this player's payout in that deal is not lower, and the others' payouts are not higher (odd chips apart).", "quantifier": "all reachable tables, both engines, all pairs of shuffles, all sequences of bets to a showdown, all players", "why_tests_cant": "compares two runs, for all tables, bets, side pots, ties and pairs of deals", "anchors": ["clubs/poker/engine.py: Dealer.reset, Dealer.step, Dealer._payouts, Dealer._eval_round", "engine_numpy.py: Dealer.reset, Dealer.step, Dealer._payouts, Dealer._eval_round"]}
{"id": "C90", "title": "The browser viewer starts or gives up, and leaves nothing running", "statement": "Creating a GraphicViewer ends after at most about ten seconds for each of its two connections. It succeeds exactly if the packages are installed and both connections can be made in time, the web server answering with status 200; then its server process is running, and close ends the process; closing again does nothing. A start that fails leaves no process running.", "quantifier": "all outcomes of all attempts to connect, all readings of the clock, all sequences of calls of close, any number of renderings", "why_tests_cant": "ranges over all timings and all failures of the surroundings; the tests start one viewer, successfully", "anchors": ["clubs/render/graphic.py: GraphicViewer.__init__, GraphicViewer._test_socket_conn, GraphicViewer._test_flask_conn, GraphicViewer.close, GraphicViewer.__del__", "clubs/poker/engine.py: Dealer.render"]}
{"id": "C91", "title": "The unit of the chips does not matter", "statement": "Multiplying all amounts of chips (blinds, antes, raise sizes, start stacks, stacks, bets) by the same positive number multiplies everything that is counted in chips in the table, the observations and the payouts, and changes nothing else: same exceptions, same players to act, same done flags, same cards, same winning chances. At a showdown this holds if all contributions are multiples of every possible number of winners, and also if no odd chips are left over when the pots are divided correctly (for engine.py: and there is no tie of the kind on which it divides them wrongly, see C24).", "quantifier": "all positive factors, all constructor arguments, all reachable tables, both engines, all sequences of whole bets", "why_tests_cant": "relates every run to infinitely many others; a constant hidden in the rules of betting shows only for amounts near it", "anchors": ["clubs/poker/engine.py: Dealer.__init__, Dealer.reset, Dealer.step, Dealer._bet_sizes, Dealer._clean_bet, Dealer._payouts, Dealer._eval_round", "engine_numpy.py: Dealer.reset, Dealer.step, Dealer._bet_sizes, Dealer._clean_bet, Dealer._payouts, Dealer._eval_round"]}
{"id": "C92", "title": "Every deal is equally likely", "statement": "If every order of the deck is equally likely, then after reset every possible hand of a seat is equally likely (one over the number of hands, the same for every seat), every way to deal all hands and the first community cards is equally likely, and for given bets so is every combination of hands and board later in the hand. The numbers win_probabilities returns are, for each player, the chance to have a best hand if every order of the rest of the deck is equally likely, divided by the sum of these chances; without possible ties they are the chances themselves.", "quantifier": "all constructor arguments with a large enough deck that is not tricked, all reachable tables, all hands and boards of cards of the game, all sequences of bets, both engines", "why_tests_cant": "a statement about all orders of the deck; sampling can only make it plausible, and an unfair deal can hide in rare cards", "anchors": ["clubs/poker/engine.py: Dealer.reset, Dealer.step, Dealer.win_probabilities", "clubs/poker/card.py: Deck.shuffle, Deck.draw", "engine_numpy.py: Dealer.reset, Dealer.step, Dealer.win_probabilities"]}
{"id": "C93", "title": "Who is done has nothing more to decide", "statement": "A player for whom step has returned a done flag is not asked to act again in the hand. A player without chips who is asked cannot change anything: whatever finite bet they answer, the same observation, payouts and done flags are returned then and for all later bets of the hand, the same table is left (except for the fold flag in the history), no chips are moved and the player stays in the hand. What is recorded in the history never influences the play.", "quantifier": "all hands of all tables, all pairs of finite bets, all later sequences of bets, both engines", "why_tests_cant": "compares pairs of arbitrary continuations of a hand", "anchors": ["clubs/poker/engine.py: Dealer.step, Dealer._done, Dealer._move_action, Dealer._bet_sizes, Dealer._clean_bet", "engine_numpy.py: Dealer.step, Dealer._done, Dealer._move_action, Dealer._clean_bet"]}
{"id": "C94", "title": "Betting more never puts in less", "statement": "Of two finite bets at the same table, the larger one never moves fewer chips, and if the smaller one keeps the player in the hand, so does the larger one. This includes bets that are not whole numbers and bets between the legal sizes.", "quantifier": "all hands of all tables with blinds, antes, start stacks and raise sizes that are not negative, all pairs of rational bets, both engines", "why_tests_cant": "a comparison of all pairs of bets at all tables; rounding, snapping to legal sizes and the rules for folding could each break it for particular numbers", "anchors": ["clubs/poker/engine.py: Dealer.step, Dealer._clean_bet, Dealer._bet_sizes", "engine_numpy.py: Dealer.step, Dealer._clean_bet, Dealer._bet_sizes"]}
{"id": "C95", "title": "The history accounts for every chip", "statement": "At any time after a deal, the chips a seat has contributed are the forced bets of the deal plus the chips the history says the seat has put in. While the hand is going on, exactly these chips are missing from the stack, and the pot is the forced bets plus everything the history says has been put in.", "quantifier": "all tables, all deals, all sequences of bets (legal or not), all seats, both engines", "why_tests_cant": "an invariant of all sequences of bets; single wrong records show only for particular stacks", "anchors": ["clubs/poker/engine.py: Dealer.step, Dealer._collect_bet, Dealer.reset", "engine_numpy.py: Dealer.step, Dealer._collect_bet, Dealer.reset"]}
{"id": "C96", "title": "The best hand gets what it can win", "statement": "At a showdown nobody loses more than they put in. The players with the best hand, if they all put in the same, each get an equal part, rounded down, of all the chips they can win (of everybody's chips as many as they put in themselves), and on top of that at most the chips left over from rounding, as long as nobody who folded put in more than everybody who did not. A single player with the best hand who put in as much as everybody gets the whole pot, and the showdown does not fail. All this holds whatever the others put in and however they tie.", "quantifier": "all showdowns of all reachable tables, all contributions, all hands, both engines", "why_tests_cant": "the division depends on the order and the ties of all players; tests have a few hand-made pots", "anchors": ["clubs/poker/engine.py: Dealer._eval_round, Dealer._payouts", "engine_numpy.py: Dealer._eval_round, Dealer._payouts"]}
{"id": "C97", "title": "Better cards for as many chips never bring less", "statement": "Of two players at a showdown, the one who is in, has at least as good a hand and put in at least as much does not get less than the other, odd chips apart.", "quantifier": "all showdowns of all reachable tables, all pairs of players, both engines", "why_tests_cant": "a comparison of two players in every possible pot; it fails only for ties with particular side pots", "anchors": ["clubs/poker/engine.py: Dealer._eval_round", "engine_numpy.py: Dealer._eval_round"]}
{"id": "C98", "title": "What the winning chances promise, the showdown keeps", "statement": "A player whom win_probabilities gives 1 at some moment of a hand, and who stays in, has a better hand than everybody else at the showdown, whatever is bet in between, and is paid everybody's chips up to as many as they put in. A player whom it gives 0 does not have the best hand with the final board: somebody who was in at that moment has a better one. With the board complete, the values are the shares of the pot: the players with the best hand share equally.", "quantifier": "all reachable tables whose deck suffices, all moments of a hand, all sequences of bets up to a showdown, all seats, both engines", "why_tests_cant": "relates a call in the middle of a hand to all its continuations and all boards", "anchors": ["clubs/poker/engine.py: Dealer.win_probabilities, Dealer.step, Dealer._eval_round", "engine_numpy.py: Dealer.win_probabilities, Dealer.step, Dealer._eval_round"]}
{"id": "C99", "title": "Only chips and button carry over from hand to hand", "statement": "What reset returns, the table it leaves and every step of the hand that follows depend on nothing that happened at the table before, except for the chips the players have (unless they are reset) and the button (unless it is reset). In particular reset(reset_button=True, reset_stacks=True) makes every table as good as one that has just been created.", "quantifier": "all pairs of tables created with the same arguments and used in any way since then (hands played to the end or not, refused bets, exceptions, trick and untrick), all shuffles, all continuations, both engines; decks not tricked, or tricked with the same cards, before the reset", "why_tests_cant": "compares all pairs of pasts of a table; a field that reset forgets shows only after particular pasts", "anchors": ["clubs/poker/engine.py: Dealer.__init__, Dealer.reset, Dealer.step", "engine_numpy.py: Dealer.reset, Dealer.step", "clubs/poker/card.py: Deck.shuffle, Deck.trick, Deck.untrick"]}
{"id": "C100", "title": "A limit that nobody reaches changes nothing", "statement": "Raise sizes and the number of raises only limit bets. A bet of a size offered by two tables that differ in these limits only does exactly the same at both: the table afterwards, payouts and done flags agree, and so does the observation but for min_raise and max_raise. Lifting a pot limit or allowing more raises changes nothing for any bet up to the largest size offered before, so a whole hand in which nobody bets more than the limits allow is, bet by bet, the hand without the limits. Dealing does not depend on the limits either.", "quantifier": "all pairs of tables in a hand that differ in raise_sizes and num_raises only, all bets (after rounding) that are offered by both, or not larger than what the stricter one offers, all such sequences of bets, both engines; big blind positive, fixed raise sizes not negative, player to act not in debt, min_raise <= max_raise at both tables (engine_numpy.py: chips, blinds and antes not negative)", "why_tests_cant": "relates two tables with different rules over all states and all sequences of bets; a limit that leaks into something else (largest raise, order of play, cards) shows only in particular states", "anchors": ["clubs/poker/engine.py: Dealer._bet_sizes, Dealer._clean_bet, Dealer.step, Dealer.reset", "engine_numpy.py: Dealer._bet_sizes, Dealer._clean_bet, Dealer.step, Dealer.reset"]}
{"id": "C101", "title": "Nobody is asked twice without a reason", "statement": "A player who is asked to act has no chips left, has not acted on this street yet, or faces an amount to call. Between two actions of a player on the same street somebody else has raised. So a street takes at most one turn of everybody, plus one turn of everybody else for every raise; a hand takes at most players * streets + (players - 1) * raises actions, there are never more raises than chips at the table, and the history of a hand is never longer than players * streets + (players - 1) * all chips.", "quantifier": "all hands of all tables from reset on, finished or not, all bets (any integer or float), all shuffles, both engines; stacks, forced bets and (array engine) raise sizes not negative, every player with chips can pay the ante and the blind of every position", "why_tests_cant": "all betting sequences of all lengths with all-ins, folds and options; an error in who is asked next shows in particular constellations only", "anchors": ["clubs/poker/engine.py: Dealer.step, Dealer._move_action, Dealer._all_agreed, Dealer.street_option", "engine_numpy.py: Dealer.step, Dealer._move_action, Dealer._all_agreed"]}
{"id": "C102", "title": "When everybody only calls", "statement": "If after reset every player always bets exactly the call, nobody leaves the hand; once the first street is over everybody in the hand has put in the smaller of their chips and what matches the largest forced bet, and this never changes again; the hand takes at most one action of every player on every street; calling on and on ends the hand (or reaches a showdown that raises an exception), and it ends only when all streets have been played or everybody has put in everything (array engine: all streets have been played).", "quantifier": "all tables, all shuffles, all numbers of calls after reset, both engines; stacks, forced bets and (array engine) raise sizes not negative, every player with chips can pay the ante and the blind of every position", "why_tests_cant": "all tables, stacks, antes and blinds; a call that is one chip off or an extra turn shows only with short stacks or uncommon blinds", "anchors": ["clubs/poker/engine.py: Dealer.reset, Dealer.step, Dealer._bet_sizes, Dealer._clean_bet, Dealer._all_agreed", "engine_numpy.py: Dealer.reset, Dealer.step"]}
{"id": "C103", "title": "What a player can be sure of", "statement": "Whatever the others do: a player who from some moment of a hand on always bets zero or less has, ever after in this hand and when it is over, at least the chips in front of them at that moment, and (if everybody can pay the forced bets) puts in nothing more. A player who always bets at least the call stays in the hand. A bet of somebody else never takes chips from a player, never changes what they have put in and never puts them in or out of the hand.", "quantifier": "all hands of all tables from reset on, all strategies of the other players, all bets (any integer or float), all shuffles, both engines, hands that end included; stacks, forced bets and (where needed) raise sizes not negative", "why_tests_cant": "a guarantee against every behaviour of the opponents; tests can only try some of them", "anchors": ["clubs/poker/engine.py: Dealer.step, Dealer._clean_bet, Dealer._collect_bet, Dealer._payouts", "engine_numpy.py: Dealer.step, Dealer._payouts"]}
{"id": "C104", "title": "Who has lost all chips stays out", "statement": "A player without chips takes no part in a hand dealt by reset without reset_stacks: they are not in, are never to act, put in nothing, appear in no history entry and have no chips while the hand is running. When the hand is over they still have none: for ever, over any number of such hands. (The array engine keeps this. The other engine may give such a player the odd chip of a pot, and deal them into the next hand: the exact condition is stated.)", "quantifier": "all tables, all shuffles, all bets, all sequences of hands dealt without reset_stacks, both engines; stacks, forced bets and raise sizes not negative, for the end of a hand also antes that differ by at most one chip and players with no chips or enough for ante and blind", "why_tests_cant": "sessions of unbounded length; the wrong odd chip appears only for certain seats relative to the button and certain remainders", "anchors": ["clubs/poker/engine.py: Dealer.reset, Dealer.step, Dealer._payouts, Dealer._eval_round", "engine_numpy.py: Dealer.reset, Dealer.step, Dealer._eval_round"]}
{"id": "C105", "title": "Chips that nobody matched come back", "statement": "Whoever is still in when a hand is over has lost at most as many chips as the one of the other players who put in most: the part of a bet that nobody matched is returned. (The array engine keeps this always. The other engine keeps it unless, at a showdown, somebody with an equally good hand found no chips left in the pot: then the chips nobody matched are shared with them.)", "quantifier": "all finished hands of all tables, however they end, all bets, all shuffles, both engines; stacks, forced bets and (array engine) raise sizes not negative", "why_tests_cant": "ranges over all stacks and side pots; the engine's error needs three equally good hands with different all-ins", "anchors": ["clubs/poker/engine.py: Dealer.step, Dealer._payouts, Dealer._eval_round", "engine_numpy.py: Dealer._payouts, Dealer._eval_round"]}
{"id": "C106", "title": "Everybody has the button and pays the blinds equally often", "statement": "In any n consecutive hands of a table with n players (dealt without reset_button, whatever is bet in them) everybody has the button exactly once. If nobody is short of chips when these hands are dealt, everybody also pays each blind and each ante of the configuration exactly once, so all pay the same in total. (If a player has lost all chips, the others do not pay the same: the button also goes to the empty seat and blinds are counted by seats.)", "quantifier": "all tables of both engines, all sequences of as many hands as players, all bets in between, all shuffles, with or without reset_stacks; for the payments everybody has more chips than every ante when a hand is dealt", "why_tests_cant": "ranges over all sequences of hands and all numbers of players; a wrong rotation by one seat looks right in most single hands", "anchors": ["clubs/poker/engine.py: Dealer.reset, Dealer._collect_multiple_bets", "engine_numpy.py: Dealer.reset, Dealer._collect_multiple_bets"]}
{"id": "C107", "title": "What a hand of a limit game can cost", "statement": "In a game with fixed raise sizes and fixed numbers of raises a hand costs nobody more than the largest ante, the largest blind and all raises of the streets played; every player who is all-in can have made one raise that is not counted, so the bound grows by one raise of the last street for each of them. If everybody starts with more chips than that, nobody is ever all-in and the bound holds outright: 9 chips in Leduc poker, 2 in Kuhn poker, 48 in limit hold'em with the stacks of configs.py. (If the raise sizes fall from street to street or are smaller than the big blind, the raises are not counted and a hand costs more.)", "quantifier": "all tables of both engines with such rules, all stacks that cover the blinds and antes, all bets, all states of all hands; all six limit games of configs.py", "why_tests_cant": "the bound is over every sequence of bets of every length; a raise too many is possible only in particular orders of short and full raises", "anchors": ["clubs/poker/engine.py: Dealer.step, Dealer._bet_sizes, Dealer._clean_bet, Dealer._move_action", "engine_numpy.py: Dealer.step, Dealer._bet_sizes", "clubs/configs.py: LEDUC_TWO_PLAYER, KUHN_TWO_PLAYER, KUHN_THREE_PLAYER, LIMIT_HOLDEM_TWO_PLAYER, LIMIT_HOLDEM_SIX_PLAYER, LIMIT_HOLDEM_NINE_PLAYER"]}
{"id": "C108", "title": "How fast the pot of a pot-limit game grows", "statement": "In a pot-limit game the pot after k actions is at most what k largest raises on the blinds and antes make of it: every action turns a pot p with a highest bet m of the street into at most 2p + 2m with a highest bet of at most p + 2m. In particular no action makes the pot more than four times as large, so that after k actions there are at most 4^k times the forced bets in it.", "quantifier": "all pot-limit tables of both engines with any blinds, antes and stacks that are not negative, all bets, all states of all hands", "why_tests_cant": "a bound over all sequences of bets of any length; a pot-sized raise that is computed too large shows only for particular pots and calls", "anchors": ["clubs/poker/engine.py: Dealer._bet_sizes, Dealer._clean_bet, Dealer.step", "engine_numpy.py: Dealer._bet_sizes, Dealer._clean_bet, Dealer.step"]}
{"id": "C109", "title": "Chips that nobody puts at risk change nothing", "statement": "Take a hand in which every bet is nothing (a check or a fold), a call, or a raise of a size on offer, that leaves the player some chips, the smallest raise on offer being more than a call. If the players had more chips in front of them from the start, any number for each, every call of reset and step would do the same: the same cards, turns, pot, history, done flags and payouts, and the same observation, apart from those chips and the sizes of bets on offer. A player's last chip does make a difference, and so do the chips behind where there is no big blind: a bet on offer can then be a bet with few chips and a check with many.", "quantifier": "all tables of both engines in any state of a hand in which nobody is all-in, all lists of additional chips, all sequences of such bets of any length, all shuffles; dealing without new stacks if nobody is all-in after antes and blinds", "why_tests_cant": "relates two runs of a program for all stacks and all sequences of bets; a comparison with a stack in the wrong place shows only for particular stacks", "anchors": ["clubs/poker/engine.py: Dealer.reset, Dealer.step, Dealer._all_agreed, Dealer._bet_sizes, Dealer._clean_bet, Dealer._collect_multiple_bets, Dealer._done, Dealer._payouts", "engine_numpy.py: the same methods"]}
{"id": "C110", "title": "Who exchanges the cards exchanges the winnings", "statement": "The winnings depend on the cards a player holds and the chips they put in, not on who they are or where they sit. If two hands are the same but for the cards, and at the showdown players who put in as many chips hold each other's cards, each gets the payout the other had; everybody else gets the same as before. Odd chips apart: these go by seat.", "quantifier": "all pairs of tables that differ in nothing but the cards, in any state of a hand, all final bets, all permutations of the seats among players who are in with as many chips", "why_tests_cant": "relates two runs of a program for all cards, bets and permutations of the seats; the order of the seats matters only for certain combinations of ties and side pots", "anchors": ["clubs/poker/engine.py: Dealer._payouts, Dealer._eval_round, Dealer.step", "engine_numpy.py: Dealer._payouts, Dealer.step"]}
{"id": "C111", "title": "Nobody wins on average by betting without looking at the cards", "statement": "If the bets of a hand do not depend on the cards and lead to a showdown, players who are in with as many chips win the same on average over all orders of the deck, up to the average of the odd chips; in particular neither of two players wins anything on average, whoever put in more.", "quantifier": "all tables a program can reach with a deck of enough cards, all sequences of bets that end in a showdown, all pairs of players who are in with as many chips (with two players: all contributions); the mean is over all orders of the deck", "why_tests_cant": "an average over all orders of the deck (52! for most games), for all sequences of bets; a small bias of the engine towards a seat is invisible in samples", "anchors": ["clubs/poker/engine.py: Dealer.reset, Dealer.step, Dealer._payouts", "clubs/poker/deck.py: Deck.shuffle, Deck.draw", "engine_numpy.py: Dealer.reset, Dealer.step, Dealer._payouts"]}
{"id": "C112", "title": "Folded cards and the order of cards do not matter", "statement": "Two tables of a hand differ in nothing but the cards. If after the same bet everybody who is still in holds the same cards, in any order, and the same cards are on the board, in any order, step returns the same payouts and done flags or raises the same exception, and the tables still differ in nothing but the cards; it is enough that the hands of those who are in have the same ranks. The exact values of win_probabilities do not depend on the order of the cards in the hands, on the board and in the deck either.", "quantifier": "all tables of all hands, all pairs of deals, all bets, with any ties and side pots; for win_probabilities of engine_numpy.py: fewer than 1000 possible boards", "why_tests_cant": "it relates all pairs of deals, and a dependence on a folded hand would show only where that hand ranks well in a side pot", "anchors": ["clubs/poker/engine.py: Dealer.step, Dealer._payouts, Dealer._eval_round, Dealer._eval_hands, Dealer.win_probabilities", "clubs/poker/evaluator.py: Evaluator.evaluate", "engine_numpy.py: Dealer.step, Dealer._payouts, Dealer._eval_round, Dealer.win_probabilities"]}
{"id": "C113", "title": "Only the order of the hands matters", "statement": "Two tables of a hand differ in nothing but the cards. If after the same bet the hands of those who are in are ranked in the same order (who is better, who ties), step returns the same payouts and done flags or raises the same exception: by how much a hand is better than another does not matter, nor how good the hands are.", "quantifier": "all tables of all hands, all pairs of deals, all bets, all numbers of players, with any ties, side pots, odd chips and remainders", "why_tests_cant": "it relates all pairs of deals; a dependence on the values of the ranks would show only for special values in side pots, e.g. next to the rank that marks folded hands", "anchors": ["clubs/poker/engine.py: Dealer.step, Dealer._payouts, Dealer._eval_round", "engine_numpy.py: Dealer.step, Dealer._payouts, Dealer._eval_round"]}
{"id": "C114", "title": "What repr shows", "statement": "repr of a card shows which object it is and which card: two cards are shown alike only if they are the same object identity and the same card. repr of a deck determines its identity, the cards left in it and their order; repr of an evaluator its identity and the classes of hands in their order; repr of a dealer exactly its identity, the number of players and the number of streets. Objects of different classes are never shown alike.", "quantifier": "all identities, all cards that the constructor makes, all decks of such cards, all evaluators, all dealers of either engine (both have the same __repr__)", "why_tests_cant": "it is injectivity over all pairs of objects, including that the digits of the identity and of the two numbers cannot run into the text that follows", "anchors": ["clubs/poker/card.py: Card.__repr__, Deck.__repr__", "clubs/poker/evaluator.py: Evaluator.__repr__", "clubs/poker/engine.py: Dealer.__repr__", "engine_numpy.py: Dealer.__repr__"]}
{"id": "C115", "title": "Which hand is better does not depend on the deck", "statement": "Two evaluators are made for decks of different size (numbers of suits and ranks). Given hands that consist of cards of both decks, they agree on which hand is better and on whether the hands tie.", "quantifier": "all pairs of decks, all hand sizes, numbers of mandatory hole cards and orders of the classes, all pairs of sets of hole and community cards", "why_tests_cant": "every evaluator builds its own table with its own values; agreement is a statement about all pairs of tables and all pairs of hands", "anchors": ["clubs/poker/evaluator.py: Evaluator.__init__, Evaluator.evaluate, LookupTable.lookup, LookupTable._gen_straight_flush"]}
{"id": "C116", "title": "What having to use hole cards costs", "statement": "An evaluator with mandatory hole cards never gives a hand a better value than the evaluator without them. The value without mandatory hole cards is the best of the values with one, two, ... mandatory hole cards and of the value of the community cards alone. Without mandatory hole cards it does not matter which of the cards are in the hole and which on the table. With exactly the mandatory number of hole cards and exactly as many community cards as are needed, both evaluators say the same.", "quantifier": "all evaluators that can be made, with any deck, hand size and order of the classes, all lists of hole and community cards for which the evaluator without mandatory hole cards has a value", "why_tests_cant": "the two branches of evaluate enumerate their selections differently; that one is the union of the others is a statement about all cards and all numbers of mandatory hole cards", "anchors": ["clubs/poker/evaluator.py: Evaluator.evaluate, Evaluator.__init__"]}
{"id": "C117", "title": "Playing the board", "statement": "Where no hole cards are mandatory, nobody who is in has a worse hand at a showdown than the community cards alone. If nobody has a better one either, and those who are in put in the same and nobody more, and step returns (the array engine's always does), each of them gets at least an equal part of the pot, rounded down.", "quantifier": "all showdowns of all hands of both engines, all tables without mandatory hole cards, all numbers of players, in or folded", "why_tests_cant": "boards that nobody beats are rare in random play, and the claim is about all of them and all numbers of chips", "anchors": ["clubs/poker/engine.py: Dealer.step, Dealer._payouts, Dealer._eval_round", "engine_numpy.py: Dealer.step, Dealer._payouts", "clubs/poker/evaluator.py: Evaluator.evaluate"]}
{"id": "C118", "title": "low_end_straight changes nothing but the lowest straight", "statement": "Two evaluators are made with the same arguments, among them an order that lists every class once, except that one has low_end_straight and the other has not. Unless somebody has an ace and the lowest ranks of the deck that make the lowest straight, they agree on which of two players has the better cards and on whether they tie. The lowest straight itself beats three of a kind for the one and loses to it for the other.", "quantifier": "all decks, hand sizes, numbers of mandatory hole cards and orders for which both evaluators can be made, all pairs of sets of hole and community cards that allow a hand", "why_tests_cant": "it compares two tables with different values on all pairs of hands", "anchors": ["clubs/poker/evaluator.py: Evaluator.__init__, Evaluator.evaluate, LookupTable._gen_straight_flush, LookupTable._straight"]}
