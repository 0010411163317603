# Formal model of fschlatt/clubs in Lean 4 — design

## What is modelled

| code | model |
|---|---|
| `clubs/poker/card.py` (all of `Card`, `Deck`) | `Verif/Model/Card.lean`, `Verif/Model/Deck.lean` |
| `clubs/poker/evaluator.py` | `Verif/Model/Evaluator.lean`, `Verif/Model/Strings.lean`, `Verif/Model/SpeedTest.lean` |
| `clubs/poker/engine.py` (all of `Dealer` but the browser viewer) | `Verif/Model/Engine.lean` |
| `engine_numpy.py` (all of `Dealer`) | `Verif/Model/Numpy.lean`, `__str__` and `render` `Verif/Model/NumpyRender.lean`, with 32-bit integers `Verif/Model/Words.lean` |
| `clubs/render/ascii_viewer.py` | `Verif/Model/Ascii.lean` |
| `clubs/poker/engine.py` `render`, `clubs/render/graphic.py` `_convert_hands`, `_jsonify` | `Verif/Model/Render.lean` |
| `clubs/render/graphic.py` `_RoundedRectangle` (over the reals) | `Verif/Model/Rectangle.lean` |
| `clubs/render/graphic.py` `_SVGElement`, `_SVGPoker`, the templates `resources/static/images/*.svg` they use | `Verif/Model/Svg.lean` |
| `clubs/render/graphic.py` `GraphicViewer.__init__`, `_test_socket_conn`, `_test_flask_conn`, `close`, `__del__` (the surroundings are parameters) | `Verif/Model/Viewer.lean` |
| `clubs/render/resources/static/parse_config.js`, `resources/templates/index.html`, the handlers of `_run_flask` in `graphic.py` | `Verif/Model/Page.lean` |
| `clubs/configs.py` | `Verif/Model/Configs.lean` |
| `speed_test.py` | `Verif/Model/SpeedTest.lean` |
| the example program of `README.md`, `example.py` (without rendering and sleeping) | `Verif/Model/Program.lean` |
| which lists `reset` and `step` of both engines share with the dictionaries they return | `Verif/Model/Alias.lean`, `Verif/Model/NumpyAlias.lean` |
| `__repr__` of `Card`, `Deck`, `Evaluator`, `Dealer` (`id(self)` is a parameter) | `Verif/Model/Repr.lean` |
| Python built-ins used (`itertools`, `round`, slicing, `format`) | `Verif/Model/Py.lean` |

Every definition of the model cites the lines of `/repo` it stands for. The model follows the code function
by function and branch by branch; a difference is stated in the comment of the definition.

Not modelled: the rest of `clubs/render/graphic.py` (what the flask process and the sockets do, writing the SVG as text; for `render` whether the viewer starts is a parameter;
messages are assumed to arrive, in order; the browser is the page's tree and, by id, the text, `fill` and `stroke` of its elements),
`_SVGElement.__repr__`.

## Modelling decisions

* Python ints are `Int`/`Nat` (unbounded, as in Python). Floats occur in four places only: a bet
  passed to `step` (a finite float is an exact rational, so a bet is `ℚ` plus inf/nan and `round` is
  round-half-even), `num_raises` (`float(n)`, modelled as an integer or infinity),
  `win_probabilities` and the times of `speed_test` (exact rationals instead of rounded quotients). The readings of the clock are a parameter.
* The elements of numpy arrays are unbounded integers too in `Model/Numpy`; `Model/Words` has the same functions with 32-bit elements that wrap around,
  and C85 says when this makes no difference. 64-bit elements are unbounded. What `np.random.choice` returns is a parameter.
* Exceptions are values (`Except Err`). A method that mutates and may raise returns the state at the
  moment of the exception next to the result: `step : Dealer → Bet → Dealer × Except Err Out`.
* `random.shuffle` is a parameter: a function on lists of which theorems assume only that its
  result is a permutation of its argument (`IsShuffle`). All theorems hold for every outcome of the shuffle.
* The engine's `while` loops are functions with fuel; the fuel is shown to be enough where a property needs it.
* Properties are stated in `Verif/Props/*.lean`, with the vocabulary of `Verif/Spec/*.lean`
  (plain definitions that do not use the model's helpers). Helper lemmas are in `Verif/Lemmas/*.lean`.
* Where the property is false of the code the file contains a kernel-checked counterexample
  (`…_false`) on the model, and the strongest version found true is proved as `…_partial`.
* Next to the theorems stand `example`s that meet their hypotheses with concrete tables.

## How each property is proved

Cards and decks (`Props/Cards`, `Props/Decks`)

* C01, C02 case analysis over all ranks and suits (whole finite tables) lifted to all strings.
* C03 membership and no duplicates of the generated list. C04, C05 invariant by induction over the list of operations.

Evaluator (`Props/Counting`, `Props/Evaluator`, `Props/Rarity`, `Props/Orders`)

* C06 the product formula is `Nat.choose`. C07 the bit trick yields the successor in the order of k-subsets.
  C08 unique factorisation.
* C09–C15, C17 the table is, class by class, a contiguous block of ranks assigned to a strictly descending
  enumeration of the class' rank patterns (`Lemmas/Table`, `Ranking`, `Kinds`, `Lookup*`, `Build`). The order theorem follows.
  C09 and C17 say exactly when the constructor succeeds, C17 by comparing the number of keys generated for each class with the number counted for it
  (`Lemmas/Orders`, `Orders2`, `Orders3`; the numbers of keys are finite tables, the orders are treated by induction). With as many ranks as cards the
  suits may be ignored (`Props/Square`).
* C78 (`Props/Strings`) the percentages `str(evaluator)` prints, from the counting theorem of C16; the text can be parsed, entry by entry.
* C80 (`Props/Values`) every position in the block of a class is reached, because every rank pattern of the class has a choice of suits (from the counts of
  C16); together with the order theorem the value counts the better hands.
* C81 (`Props/SpeedTest`) the loop is unrolled: the `k`-th evaluation gets the cards `7k … 7k+6` of the one shuffled deck, if there are any.
* C82 (`Props/Turn`, `Props/NumpyTurn`) every method commutes with turning the table (`List.rotate` of all lists of seats); the division of the pot is
  invariant under every renumbering of the players, proved for the specification and carried over by the showdown theorems; the deal commutes if the
  block of the players' cards in the deck is turned too.
* C83 (`Props/Replay`, `Props/NumpyReplay`) what `_clean_bet` returns is returned again when it is bet again, and a recorded fold is the bet −1.
* C84 (`Props/Suits`, `Props/NumpySuits`) every method commutes with renaming the suits, from the suit invariance of the evaluator (C12).
* C85 (`Props/Words`) an invariant bounds every number that a hand can produce by the chips and the forced bets (what a player owes below zero is at most the
  forced bets), so cutting to 32 bits changes nothing; each method with cut numbers is then equal to the one without.
* C86 (`Props/NumpyAfter`) a step after the end computes the payouts again from a pot that is 0 by then; the division of the pots does not read it, the
  payout of a hand won by folding does.
* C87 (`Props/NumpyRender`) the fields of the picture as for C57, from the invariants of the array engine; a picture exists exactly if the button is a seat.
* C88 (`Props/NumpyPage`) the list of changes to the page as for C67; if the button is not a seat the script stops at the missing element, and the
  changes up to there are compared, element by element, with those of a message without a seat to act.
* C89 (`Props/Better`, `Props/NumpyBetter`) a step that does not end the hand reads no card (`Lemmas/Blind`); at the showdown the set of winners of every
  layer of the pot keeps the better player and gains nobody else (`Lemmas/Better`), which bounds share plus odd chips. The payouts are those of C25, C27
  and C71.
* C90 (`Props/Viewer`) induction over the attempts of the waiting loops; the surroundings (outcomes of attempts, readings of the clock) are arbitrary functions.
* C91 (`Props/Scale`, `Props/NumpyScale`) every function of the model commutes with multiplying all amounts of chips by `k` (`Lemmas/Scale`); the loop over
  the pots does so if it leaves no odd chips, which is shown either from the textbook division or from divisibility of the contributions. Bets that are not
  whole numbers are excluded (they are rounded to whole chips first). `C91_odd` is a witness that odd chips do depend on the unit.
* C92 (`Props/Fair`, `Props/NumpyFair`) the cards at the table are fixed stretches of the order of the deck; the orders with given cards in given places are
  counted by induction over the stretch (`Lemmas/Fair`), over all orders `fullDeck.permutations`. That `random.shuffle` makes all orders equally likely
  is a property of Python's generator and outside the model.
* C93–C95 (`Props/Ask`, `Props/Account`) every function commutes with replacing the history (`Lemmas/Hist`); the sizes offered to a player without chips
  are all 0. The chosen bet grows with the bet by cases on the nearest size, rounding by its characterisation. C95 is an induction over the bets.
* C96, C97 (`Props/Division`) the loop over the sorted hands is refined, for all pots, to a rule without loops (`Spec/Division`: who is served before whom, how
  far the pot has been given out by then, who shares; `C25_division`). The best hands are served first, which gives C96; C97 compares the textbook shares.
* C98 (`Props/Promise`) a relation between two moments of a hand (same hole cards, the board continued from the deck, nobody comes back) is preserved by
  every step; so the final board is one of the boards `win_probabilities` counted, and a count of 0 leaves nothing for it.
* C99 (`Props/Memory`) all tables made with the same constructor arguments share, for ever, their configuration and everything of the deck but its cards and
  the marks of `trick` (induction over any use); `reset` computes everything else from these, the chips and the button.
* C100 (`Props/Limits`) replacing the limits commutes with everything a bet does once its size is fixed (`act`, `_all_agreed`, dealing, payouts, dealing
  anew); `_bet_sizes` gives the same call, and with looser limits the same minimum or no raise before; the nearest offered size is then the same.
  Whole hands by induction over the bets.
* C101 (`Props/Orbit`) an invariant of every hand: the seats between the last raiser (or the first to act) and the player to act are exactly those that have
  acted since (`Lemmas/Ring`, `Lemmas/Orbit`: going round the table, jumping over folded and all-in players); the bounds count turns by induction, every
  raise costs a chip.
* C102 (`Props/Calls`) an invariant of tables on which only calls were made: nobody has more in the pot than the forced bets ask for, who has acted has
  matched them or is all in; the number of turns is C101 without raises, the end follows from the bound.
* C103 (`Props/Sure`) induction over the bets of a hand in which one seat keeps to a rule (`Keeps`) and the others do anything; at the end of the hand a
  player gets back at least what they have not put in because shares are not negative.
* C104 (`Props/Broke`) a seat that is dealt out stays so by C103; at the end of the hand C26 says exactly what it gets (engine.py, where the odd chip may go
  to it: `C104_false`), and the division into layers that it gets nothing (array engine), hence over whole sessions.
* C105 (`Props/Uncalled`) from the exact rules of division (`Spec/Division`): a player who put in more than everybody else is served last among equals and
  alone gets the chips above.
* C106 (`Props/Rounds`) what `reset` posts (C41) with the button counted on from hand to hand; the distances of a seat from the seat where the blinds start
  are a permutation of all positions over n hands. `C106_false`: with a broke seat the others pay unequal blinds.
* C107 (`Props/Cost`) an invariant of the hand: what a player has put in, counted up to the highest bet of the street, is at most the forced bets, the raises
  of the streets before and the counted raises of this street, plus one raise for everybody all-in. `C107_shipped`, `C107_fresh`: the six limit games of
  `configs.py`. `C107_false`: raises of 4 and then 2.
* C108 (`Props/PotLimit`) an invariant of the hand with the number of actions, which is the length of the history; it also holds when the forced bets are
  larger than the stacks.
* C109 (`Props/Behind`) a simulation: `Spec.behind K` adds chips to the stacks, and every method commutes with it as long as nobody in the hand has
  an empty stack and a bet leaves some chips; the bet is moved to the same size at both tables, although the largest raise on offer differs.
  `C109_false`: without a big blind it is not.
* C110 (`Props/Exchange`) what C25 and C71 say everybody is due is invariant under permutations of the seats (`Lemmas/Exchange`: the winners of a
  layer move with the cards, so do the sets of winners that share a pot). `C110_false`: with a tie and a side pot `engine.py` is not: it gives a
  share of the side pot to a player who has no part in it, and the seat number decides who that is.
* C111 (`Props/BlindGame`, `Props/NumpyBlindGame`) an involution on the orders of the deck: exchanging the places of two hands
  (`Lemmas/BlindGame: swapCards`) maps all orders onto all orders, exchanges the two hands and leaves the board (C92's `Laid`), and exchanges
  the winnings (C110). So the two sums over all orders are equal. `C111_false`: with ties and a side pot `engine.py` favours a seat.
* C112 (`Props/Folded`) the payouts read the cards only through `_eval_hands`, which evaluates the hands of those who are in, and `evaluate` does
  not depend on the order of the cards (`Lemmas/Eval: evaluate_perm`). For the odds the boards are compared as multisets of cards.
* C113 (`Props/HandOrder`) a map of the strengths that is strictly monotone on those that occur, and on the strength that marks folded hands, commutes with
  the sorting, every iteration of the loop and the division of the pot (`Lemmas/HandOrder: potPayouts_restrength`); `translate` is such a map.
* C114 (`Props/Repr`) a number followed by a character that is not a digit can be read back; the rest are C61 and C78.
* C115 (`Props/DeckSize`) the class of a hand and what decides within a class depend on the deck only by its lowest straight and by whether there are several suits
  (`handKind_deck`); then C17 for both tables, and C13 for the best selections.
* C116 (`Props/Mandatory`) C13 for both evaluators; a selection of any cards splits into its hole cards and its community cards.
* C117 (`Props/Board`) C14 with the hole cards added to nothing, then C96 with everybody tied.
* C118 (`Props/LowStraight`) as C115; that an evaluator with `low_end_straight` exists excludes the shapes that C17 leaves out.
* C16 hands of every kind are counted as sets of cards (`Finset.card`), by counting rank patterns and suit choices.

Money (`Props/Money`, `Props/Ends`, `Props/Showdown`)

* C18–C22 invariant `pot = Σ commits`, `stack + commit` constant along a hand; sessions by induction over hands.
* C23–C28 the payout loop is refined to layers of chips (`Spec/Showdown`).

* C77 and the complete cases of C25, C27, C37 (`Props/Level`): with equal antes everybody at a showdown has matched the
  highest contribution or is all in, which makes the pot clear. From it, with equal stacks, C18, C20, C28 (`Props/EqualStart`); C30 when everybody starts
  with more than ante and blind (`Props/Deep`).
* C79 (`Props/Program`) the loops of README.md and `example.py` around the engine; they end by the measure of C37.

Betting and flow (`Props/Betting`, `Props/Flow`)

* C29–C33 arithmetic on the sizing functions plus invariants of the hand.
* C34–C38 characterisation of `step`; C37 by a lexicographic measure (streets left, negative stacks, chips behind,
  active players, seats pending, distance). `Props/Stuck` combines it with the exact division of C25: which hands get stuck (`C37_exact`,
  `C37_stuck`) and which folded players are paid (`C26_exact`).

Dealing, constructor, configurations (`Props/Dealing`, `Props/Config`)

* C39–C43, C51–C53 invariants over histories of calls (constructor, reset, step, trick, untrick; exceptions included).
* C44 case analysis of the constructor. C45 the whole table of shipped configurations.
* C56 which calls raise, and the state they leave.

The array engine (`Props/NumpyMoney`, `NumpyFlow`, `NumpyShow`, `NumpySame`, `NumpyCards`, `NumpyOdds`)

* `engine_numpy.py` is a second `Dealer`. Functions with the same text are shared with the model of `engine.py`; the rest is
  written out in `Model/Numpy` and related to it by `atSeat`, which reads the button modulo the number of seats.
* C68 lock-step simulation: one bet leads to the same table unless the hand ends early or odd chips or used-up ties occur.
* C69–C72, C74 the invariants of the other engine carried over along the simulation; the payout loop is refined anew
  (`Lemmas/NumpyPot`), without the condition about ties. C73 counts rows instead of columns. `Props/NumpyStuck` describes the division for all pots and
  from it which hands get stuck; that somebody who is in has put in chips (`Lemmas/NumpyDivision`, `stake_of`) is an invariant if everybody can pay.

Probabilities, secrecy, view (`Props/Odds`, `Props/Secrecy`, `Props/Ascii`, `Props/Observation`)

* C46 sums over all completions, exact rationals. C54 composition of C13 with the engine.
* C47, C48 two-run (non-interference) statements. C49 round trip of the thousands separator.
* C50, C55, C57 the rendered text, character by character, as a function of the table.
* C75, C76 (`Props/Alias`, `Props/NumpyAlias`) lists are objects in a memory and dictionaries hold references; refinement of the
  value-level model under separation of the references, and which objects a call may write.
* C58–C60 observation, bet sizes offered and done flags as functions of the table.
* C61–C64 (`Props/Render`) printed cards, the choice of viewer, the message to the browser field by field; C64 is a
  two-run statement and its negation is proved for all reachable tables.
* C65 (`Props/Rectangle`) the path `edge` in a normal form of five pieces; border, symmetries, injectivity, continuity
  and constant speed by cases. The pixel a player is drawn at is at most
  0.505 away from the border point in each direction; with very many players two share a pixel (`C65_rounded_collide`).
  `C65_inexact`: points wrong by at most `ε` (floating-point error is this parameter) still give different places unless
  there are very many seats; `C65_distinct`: up to 500 seats with `ε ≤ 1/20` for the two rectangles that are used.
  Players are drawn outside the table, bets inside (`C65_table`).
  Partial: real numbers instead of floats.
* C66 (`Props/Svg`) the tree in closed form for all numbers of players and cards; ids taken apart at their dashes, which
  is injective because the parts are lower-case words or decimal numbers.
* C67 (`Props/Page`) the script as a list of changes of elements (`Lemmas/Page*`), the last change of every element, and
  what no change touches; the server by induction over connections and messages.

`MANIFEST.json` gives for every property the theorems and, for the partial ones, what is missing.

## Findings: where the code does not do what it says

Each is a theorem about the model with a concrete reachable witness.

1. Blinds and antes are taken without a cap: stacks become negative (`C21_false`).
2. A hand in which all active players are all-in but one has not acted yet ends without dealing the rest and
   without comparing hands; folded chips vanish (`C18_false`, `C20_false`, `C22_false`, `C28_false`).
3. The seat for odd chips is computed with a wrong operator precedence: wrong winner, a folded seat, or `IndexError`
   (`C26_false`, `C27_false`, `C27_false_raises`); the table is then stuck (`C37_false`).
4. At a showdown a tied winner whose chips are used up stays eligible and splits later layers (`C24_false`, `C25_false`).
5. A folded player with the larger ante gets part of it back (`C26_false_antes`).
6. After a fold-out the pot is zeroed, so the next `step` or `render` reports wrong payouts (`C43_false`, `C50_false`);
   after an early end the done flags differ and there is no win message (`C43_false_done`, `C50_false_early`).
7. A `reset` that raises has already overwritten `active` (`C42_false`).
8. Blinds are counted by seats: a broke seat after the small blind means that nobody posts the big blind (`C52_false`).
9. `win_probabilities` counts a tie once per tied player (`C46_false`) and raises in some legal situations (`C46_raises`).
10. If the blinds put everyone all-in, the ASCII view shows all hands while a player is still to act (`C48_false`).
11. The history's fold flag is the sign of the bet (`C38_false`, `C55_false`).
12. The evaluator cannot be built for some shapes (`C09_false`) and orders (`C17_false`); straight flush and straight
    share a value when there are as many ranks as cards (`C11_false`, `C11_square_partial`, `C17_square_partial`); with three suits the classes are not ordered by
    rarity, because `_three_of_a_kind` uses `ncr(suits, 3)**k` for the kickers (`C16_false`, `C16_rarity_partial`).
13. Tricking the whole deck has no effect (`C05_whole_deck_false`).
14. Rounding of half-integer bets is Python's round-half-even, and bet rounding fails without a big blind (`C29_false_half`,
    `C29_false_zero`); `min_raise > max_raise` can be offered in pot-limit games (`C30_false`).
15. `Card(str(card))` raises `InvalidSuitError` for every card (`C61_false`).
16. After the first `render` the mode is ignored, also an invalid one (`C62_false`).
17. The message to the browser holds the hole cards of all players at all times (`C64_false`), and the page shows those of
    all players who have not folded, face up, also while the hand is running (`C67_shows`).
18. Before the first `reset` the page shows 0 chips for every player, whatever their stacks (`C67_before_deal_false`).

19. `engine_numpy.py`: the button's number never wraps (`self.button + 1 % self.num_players`), so from the second round on the
    observation's button is no seat (`C72_false`) and odd chips go to the winner with the lowest seat number (`C71_first_winner_false`).
20. `engine_numpy.py` does not cap a bet at 0 from below: with a negative fixed raise size a player takes chips out of the pot
    (`C69_negative_size`).
21. The two engines disagree: `engine_numpy.py` has none of the faults 2, 3 (stuck tables) and 4 (`C68_false_early`, `C68_false_odd`,
    `C68_false_ties`, `C70_covered`; see finding 38 for the exception).
22. `_observation` hands out the dealer's own lists: a stored observation changes with the game, inconsistently with its pot
    (`C75_changes`, `C75_false`), and whoever writes into it changes the table (`C75_writeStacks`, `C75_writeHole`).
23. An ante that only one position pays makes the hand crash at the showdown (`IndexError`, then stuck) when the player who paid it ties for second
    place behind the button: `C37_false_ante`, and for the shipped `NO_LIMIT_HOLDEM_BB_ANTE_NINE_PLAYER` with concrete cards
    and bets in its first hand `C37_false_shipped`. With the other shipped configurations the first hand always ends (`C37_shipped`).
24. `str(Evaluator(2, 3, 2))` (the shipped Leduc game) says a third of the hands are pairs; it is a fifth (`C78_false`): hands of one suit
    are not counted as high cards, although there are no flushes of two cards.
25. The program in README.md and `example.py` can end with an `IndexError` instead of printing rewards (`C79_false`,
    `C79_false_example`): they call `dealer.reset()` for the first hand, which moves the button from seat 0 to seat 1, and then fault 3 applies.
    With two players, or with `reset(reset_button=True)`, they always print fair rewards (`C79_two_players`, `C79_button`).
26. One number is never the value of a hand, the one behind the values of the best class: with 52 cards no hand has the value 10, and the best four of a
    kind, which ten hands beat, has the value 11 (`C80_false`, `C80_values_partial`); `max_rank` is nevertheless the number of different hands, if a hand has fewer cards than there
    are ranks. Three cards of two ranks and two suits make two different hands, but `max_rank` is 4 and the better one has the value 2 (`C80_false_ranks`).
    The numbers in
    `clubs/poker/README.md` (7462, 167, 180) are right (`C80_documented`), except that the key is printed as 4877533 instead of 48677533 and that
    kings full of queens is the 14th best full house.
27. `speed_test` does not measure evaluations: it draws from one deck which it never shuffles again, and `draw` on an empty deck returns no cards. With 52
    cards only 7 of the default 100000 evaluations are of a hand; 99992 are of no cards at all and look nothing up (`C81_false`). The speed given in
    README.md is measured in this way.
28. What a player gets can depend on the number of their seat. Three players tie, two of them all in with 8 chips, the third put in 14: of
    the two equal players the one with the lower seat number gets 8, the other 11 (`C82_false`); and a showdown with an odd chip that works raises
    `IndexError` when everybody sits one chair further (`C82_odd_false`). In the array engine only the odd chips depend on the
    seat, from the hand on in which the button's number leaves the table (`Numpy.C82_false`).
29. The array engine stores stacks and bets in 32-bit integers that wrap around without an exception. Two players with 1.5 billion chips each go all in
    and the winner is left with −1294967296 chips (`C85_false_winner`); a start stack of 2^31 becomes negative (`C85_false_start`); after
    `reset(reset_stacks=True)` stacks have 64 bits but bets do not, and an opponent may see a bet of 2.2 billion for nothing (`C85_false_bet`). With NumPy 2
    the smallest raise is wrong earlier (`C85_false_version`). No shipped configuration comes near (`C85_shipped`).
30. The array engine sets the pot to 0 when a hand ends and then computes payouts from it again when asked: after a hand won by folding a further
    `step` reports that the winner lost what they had put in (`C86_false`, `C86_folded`), and the picture names no winner
    (`C87_false_message`).
31. From the hand on in which the button's number leaves the table (fault 19) `str(dealer)` and `render(mode="ascii")` of the array engine raise
    `IndexError` (`C87_exact`, `C87_false`). The page in the browser keeps showing cards and chips, but its script stops with an error before it
    draws the button and marks the player to act (`C88_lost`).
32. In `engine.py` a better card can be worth less: seat 0, all in with 2 chips, gets 32 chips with a king, and would get 4 with an ace
    (`C89_false`, a consequence of the wrong division of side pots, see `C24_false`). With the button at seat 1, a player who would lose with a king makes `step`
    raise `IndexError` with an ace, and nobody is paid (`C89_false_odd`). The array engine has neither fault (`Numpy.C89_better`).
33. A `GraphicViewer` whose first connection cannot be made within ten seconds raises, but its server process keeps running: `close` and `__del__` read
    `self.socket`, which was never set, raise `AttributeError` and do not reach `terminate` (`C90_leak`, `C90_false`). Every further call of
    `render(mode="human")` starts another process (`C90_accumulate`). The process is not a daemon, so Python waits for it at exit.
34. In `engine.py` a player without chips gets the done flag, but is still asked to act on every street (`C93_false`); a program that stops asking agents
    that are done does not get any further. The answer makes no difference (`C93_same`).
35. A player who owes a part of a blind is recorded in the history with 0 chips when they act, while the chips owed go from the pot back to the stack
    (`C95_false`, both engines): history, pot and stacks disagree.
36. Of two players who are all in with 2 chips each, the one with the best hand of the table gets 8 chips and the other one, with a worse hand, 64
    (`C97_false`, another consequence of finding 4).
37. A hand can get stuck without antes and with the button at seat 0 (`C37_false_button`): all in with 10, 9 and 11 chips, seat 0 best, the others tied. The
    last chip, which belongs to seat 2 alone, is split between seats 1 and 2.
38. In the array engine a hand can get stuck at a showdown, with `ValueError` from `np.argmin` of an empty array (`Numpy.C70_false`), if a player who
    cannot pay their ante folds and nobody else puts in a chip. If everybody can pay, every hand ends (`Numpy.C70_covered`).
39. The array engine's `win_probabilities` can give 1 to a player who then has to share the pot, and 0 to those who share it (`Numpy.C98_false`): from
    1000 boards on it only looks at samples. In `engine.py` 1 and 0 are promises (`C98_certain`, `C98_lost`).

## Conformance tests

`Verif/Conform` runs the tests of the project (`test/test_engine.py`, `test_card.py`, `test_evaluator.py`, `test_ascii.py` and the ascii part of
`test_render.py`) on the model with `#guard`: same tables, same cards (the seeded shuffles were computed with CPython's `random`), same
bets, same expected values. They are evidence that the model follows the code, not proofs of properties, and no theorem uses them.

## Mutation testing

`seeded/LOG.jsonl` has one line per wrong program tried: the definition edited in a scratch copy of the model, the
edit, the claim it breaks, the theorems whose proof no longer goes through (directly or because a lemma they use
fails), the lemmas that failed (`lemmas_failed`; if the edited model does not build past a lemma, `theorems_failed` is
empty and it is not known which property theorems would fail), and the theorems that were added or tightened because the edit survived.

## Trusted base

The Lean 4.33.0 kernel; the reading of the Python source that the comments of the model state; and the axioms below.
No axioms are added; there is no `sorry`, `native_decide` or `bv_decide`. Finite tables are decided as a whole with
`decide +kernel` and lifted by lemmas.

Axioms the property theorems depend on (`#print axioms`):

<!-- axioms -->
* no axioms (1 theorems): `C15_negative`.
* `propext` (7 theorems): `C04_duplicate_trick_false`, `C05_whole_deck_false`, `C05_untrick`, `C09_hand_size`, `C10_false`, `C57_template`, `Numpy.C85_numpy1`.
* `Quot.sound`, `propext` (24 theorems): `C01_accepts`, `C01_rejects`, `C01_same_card`, `C02_layout`, `C02_eq`, `C03_contents`, `C04_draw`, `C09_false`, `C12_lookup_order`, `C13_bad_mandatory`, `C17_missing`, `C17_false`, `C44_raise_size`, `C44_scalar`, `C49_unique`, `C61_printed`, `C61_injective`, `C61_false`, `C61_reread_partial`, `C61_deck`, `Numpy.C68_done`, `renameCard_renames`, `Numpy.C85_numpy2`, `C91_new`.
* `Classical.choice`, `Quot.sound`, `propext` (567 theorems): all others.
<!-- /axioms -->
