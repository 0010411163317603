import Verif.Conform.Run
import Verif.Model.Strings

/-!
# The project's tests of the evaluator, on the model

The tests of `/repo/test/test_poker/test_evaluator.py` (but `speed_test` and `__repr__`), comparison by comparison: each entry names
the line of its assertion. These are tests of the model, not proofs about it.
-/

namespace Clubs.Conform

/-- two hands (hole cards, community cards) and how their ranks compare in the test -/
abbrev Comparison := Nat × Ordering × (List (Char × Char) × List (Char × Char)) × List (Char × Char) × List (Char × Char)

/-- whether all comparisons come out as in the test -/
def agrees (e : Except Err Evaluator) (l : List Comparison) : Except Err Bool := do
  let e ← e
  let rs ← l.mapM fun (_, o, (h1, c1), h2, c2) => do
    let a ← e.evaluate (← mkCards h1) (← mkCards c1)
    let b ← e.evaluate (← mkCards h2) (← mkCards c2)
    return compare a b == o
  return rs.all id

/-- which exception a constructor raises -/
def error? {α : Type} : Except Err α → Option Err
  | .error e => some e
  | .ok _ => none

/- `test_init` (`test_evaluator.py:6-13`). The last one names a class that does not exist; the code raises `InvalidOrderError`
because the other eight are missing. -/
#guard error? (Evaluator.new 4 13 0 0 true none) = some .invalidHandSize ∧
  error? (Evaluator.new 4 13 6 0 true none) = some .invalidHandSize ∧
  error? (Table.new 4 13 5 true (some ["lala"])) = some .invalidOrder

/- `test_str_repr` (`test_evaluator.py:16-36`), without `repr`, which has the address in it -/
#guard (Evaluator.new 4 13 5 0 true none).map (fun e => String.ofList e.str) = .ok
  ("straight flush (0.0015%) > four of a kind (0.0240%) > full house (0.1441%) > flush (0.1965%) > straight (0.3925%) > " ++
    "three of a kind (2.1128%) > two pair (4.7539%) > pair (42.2569%) > high card (50.1177%)")

/- `test_hand_rank` (`test_evaluator.py:39-48`) -/
#guard (Evaluator.new 4 13 5 0 true none).map (fun e => [e.getRankClass 0, e.getRankClass 7462, e.getRankClass (-1),
    e.getRankClass 7463]) = .ok [.ok "straight flush", .ok "high card", .error .invalidHandRank, .error .invalidHandRank]

/- `test_1_card`: `Evaluator(1, 3, 1)` -/
#guard agrees (Evaluator.new 1 3 1 0 true none) [
  (60, .lt, ([('A', 's')], []),
    [('K', 's')], []),
  (66, .lt, ([('A', 's')], [('Q', 's')]),
    [('K', 's')], [('Q', 's')]),
  (71, .eq, ([('Q', 's')], [('A', 's')]),
    [('K', 's')], [('A', 's')])] = .ok true

/- `test_1_card`: `Evaluator(1, 3, 1, 1)` -/
#guard agrees (Evaluator.new 1 3 1 1 true none) [
  (80, .lt, ([('K', 's')], [('A', 's')]),
    [('Q', 's')], [('A', 's')])] = .ok true

/- `test_1_card`: `Evaluator(2, 3, 1)` -/
#guard agrees (Evaluator.new 2 3 1 0 true none) [
  (87, .eq, ([('A', 'h')], []),
    [('A', 's')], [])] = .ok true

/- `test_2_card`: `Evaluator(1, 3, 2)` -/
#guard agrees (Evaluator.new 1 3 2 0 true none) [
  (96, .lt, ([('K', 's')], [('A', 's')]),
    [('Q', 's')], [('A', 's')])] = .ok true

/- `test_2_card`: `Evaluator(2, 3, 2)` -/
#guard agrees (Evaluator.new 2 3 2 0 true none) [
  (104, .lt, ([('Q', 's')], [('Q', 'h')]),
    [('K', 's')], [('Q', 'h')]),
  (110, .lt, ([('A', 'h')], [('Q', 's')]),
    [('K', 's')], [('Q', 's')])] = .ok true

/- `test_3_card`: `Evaluator(1, 13, 3)` -/
#guard agrees (Evaluator.new 1 13 3 0 true none) [
  (120, .lt, ([('J', 's')], [('9', 's'), ('T', 's')]),
    [('Q', 's')], [('9', 's'), ('T', 's')]),
  (126, .lt, ([('K', 's')], [('5', 's'), ('T', 's')]),
    [('Q', 's')], [('5', 's'), ('T', 's')]),
  (132, .lt, ([('A', 's')], [('Q', 's'), ('K', 's')]),
    [('A', 's')], [('2', 's'), ('3', 's')])] = .ok true

/- `test_3_card`: `Evaluator(2, 13, 3)` -/
#guard agrees (Evaluator.new 2 13 3 0 true none) [
  (140, .lt, ([('J', 's')], [('9', 's'), ('T', 's')]),
    [('J', 'c')], [('9', 's'), ('T', 's')]),
  (146, .lt, ([('J', 'c')], [('9', 's'), ('T', 's')]),
    [('9', 'c')], [('9', 's'), ('T', 's')]),
  (152, .lt, ([('7', 'c')], [('7', 's'), ('T', 's')]),
    [('A', 's')], [('7', 's'), ('T', 's')]),
  (158, .lt, ([('9', 's')], [('7', 's'), ('T', 's')]),
    [('A', 'c')], [('7', 's'), ('T', 's')])] = .ok true

/- `test_3_card`: `Evaluator(4, 13, 3)` -/
#guard agrees (Evaluator.new 4 13 3 0 true none) [
  (166, .lt, ([('J', 's')], [('9', 's'), ('T', 's')]),
    [('J', 'c')], [('9', 's'), ('T', 's')]),
  (172, .lt, ([('J', 'c')], [('9', 's'), ('T', 's')]),
    [('9', 'c')], [('9', 's'), ('T', 's')]),
  (178, .lt, ([('A', 's')], [('7', 's'), ('T', 's')]),
    [('7', 'c')], [('7', 's'), ('T', 's')]),
  (184, .lt, ([('7', 'c')], [('7', 's'), ('T', 's')]),
    [('A', 'c')], [('7', 's'), ('T', 's')])] = .ok true

/- `test_4_card`: `Evaluator(1, 13, 4)` -/
#guard agrees (Evaluator.new 1 13 4 0 true none) [
  (194, .lt, ([('J', 's'), ('T', 's')], [('8', 's'), ('9', 's')]),
    [('Q', 's'), ('3', 's')], [('8', 's'), ('9', 's')]),
  (200, .lt, ([('K', 's'), ('2', 's')], [('5', 's'), ('T', 's')]),
    [('Q', 's'), ('3', 's')], [('5', 's'), ('T', 's')]),
  (206, .lt, ([('A', 's')], [('J', 's'), ('Q', 's'), ('K', 's')]),
    [('A', 's')], [('2', 's'), ('3', 's'), ('4', 's')])] = .ok true

/- `test_4_card`: `Evaluator(2, 13, 4)` -/
#guard agrees (Evaluator.new 2 13 4 0 true none) [
  (214, .lt, ([('J', 's'), ('T', 's')], [('8', 's'), ('9', 's')]),
    [('8', 'h'), ('9', 'h')], [('8', 's'), ('9', 's')]),
  (220, .lt, ([('8', 's'), ('9', 'h')], [('8', 'h'), ('9', 's')]),
    [('J', 's'), ('T', 's')], [('8', 'h'), ('9', 's')]),
  (226, .lt, ([('J', 's'), ('T', 's')], [('8', 'h'), ('9', 'h')]),
    [('4', 'h'), ('6', 'h')], [('8', 'h'), ('9', 'h')]),
  (232, .lt, ([('8', 's'), ('7', 's')], [('9', 's'), ('T', 's')]),
    [('T', 'h'), ('2', 's')], [('9', 's'), ('T', 's')]),
  (238, .lt, ([('8', 's'), ('7', 'h')], [('8', 'h'), ('9', 'h')]),
    [('T', 'h'), ('2', 's')], [('8', 'h'), ('9', 'h')])] = .ok true

/- `test_4_card`: `Evaluator(4, 13, 4)` -/
#guard agrees (Evaluator.new 4 13 4 0 true none) [
  (246, .lt, ([('A', 's'), ('A', 'c')], [('K', 'h'), ('A', 'h'), ('A', 'd')]),
    [('J', 'h'), ('Q', 'h')], [('K', 'h'), ('A', 'h'), ('A', 'd')]),
  (252, .lt, ([('J', 'h'), ('Q', 'h')], [('K', 'h'), ('A', 'h')]),
    [('A', 's'), ('A', 'c')], [('K', 'h'), ('A', 'h')]),
  (258, .lt, ([('A', 's'), ('A', 'c')], [('K', 'h'), ('A', 'h')]),
    [('J', 'd'), ('Q', 'd')], [('K', 'h'), ('A', 'h')]),
  (264, .lt, ([('J', 'd'), ('Q', 'd')], [('K', 'h'), ('A', 'h')]),
    [('A', 's'), ('K', 'c')], [('K', 'h'), ('A', 'h')]),
  (270, .lt, ([('9', 'h'), ('Q', 'h')], [('9', 's'), ('Q', 's')]),
    [('8', 's'), ('7', 's')], [('9', 's'), ('Q', 's')]),
  (276, .lt, ([('8', 's'), ('7', 's')], [('9', 's'), ('Q', 's')]),
    [('9', 'h'), ('2', 'h')], [('9', 's'), ('Q', 's')]),
  (282, .lt, ([('8', 's'), ('7', 'h')], [('8', 'h'), ('T', 's')]),
    [('A', 'h'), ('2', 's')], [('8', 'h'), ('T', 's')])] = .ok true

/- `test_5_card`: `Evaluator(1, 13, 5)` -/
#guard agrees (Evaluator.new 1 13 5 0 true none) [
  (292, .lt, ([('J', 's'), ('T', 's')], [('7', 's'), ('8', 's'), ('9', 's')]),
    [('Q', 's'), ('3', 's')], [('7', 's'), ('8', 's'), ('9', 's')]),
  (298, .lt, ([('K', 's'), ('2', 's')], [('4', 's'), ('5', 's'), ('T', 's')]),
    [('Q', 's'), ('3', 's')], [('4', 's'), ('5', 's'), ('T', 's')]),
  (314, .lt, ([('A', 's')], [('T', 's'), ('J', 's'), ('Q', 's'), ('K', 's')]),
    [('A', 's')], [('2', 's'), ('3', 's'), ('4', 's'), ('5', 's')])] = .ok true

/- `test_5_card`: `Evaluator(2, 13, 5)` -/
#guard agrees (Evaluator.new 2 13 5 0 true none) [
  (322, .lt, ([('J', 's'), ('T', 's')], [('7', 's'), ('8', 's'), ('9', 's')]),
    [('J', 'h'), ('T', 'h')], [('7', 's'), ('8', 's'), ('9', 's')]),
  (328, .lt, ([('J', 's'), ('T', 's')], [('7', 's'), ('8', 's'), ('9', 's')]),
    [('7', 'h'), ('8', 'h')], [('7', 's'), ('8', 's'), ('9', 's')]),
  (334, .lt, ([('7', 'h'), ('8', 'h')], [('7', 's'), ('8', 's'), ('2', 's')]),
    [('J', 's'), ('T', 's')], [('7', 's'), ('8', 's'), ('2', 's')]),
  (340, .lt, ([('8', 's'), ('7', 's')], [('9', 's'), ('T', 's'), ('A', 's')]),
    [('T', 'h'), ('2', 's')], [('9', 's'), ('T', 's'), ('A', 's')]),
  (346, .lt, ([('8', 's'), ('7', 'h')], [('8', 'h'), ('9', 'h'), ('A', 's')]),
    [('T', 'h'), ('2', 's')], [('8', 'h'), ('9', 'h'), ('A', 's')])] = .ok true

/- `test_5_card`: `Evaluator(3, 13, 5)` -/
#guard agrees (Evaluator.new 3 13 5 0 true none) [
  (359, .lt, ([('J', 'h'), ('Q', 'h')], [('T', 'h'), ('K', 'h'), ('A', 'h'), ('A', 'd')]),
    [('K', 'c'), ('K', 'd')], [('T', 'h'), ('K', 'h'), ('A', 'h'), ('A', 'd')]),
  (370, .lt, ([('K', 'c'), ('K', 'd')], [('T', 'h'), ('K', 'h'), ('A', 'h'), ('A', 'd')]),
    [('A', 'c'), ('Q', 'h')], [('T', 'h'), ('K', 'h'), ('A', 'h'), ('A', 'd')]),
  (381, .lt, ([('A', 'c'), ('Q', 'h')], [('T', 'h'), ('K', 'h'), ('A', 'h'), ('A', 'd')]),
    [('Q', 'c'), ('J', 'd')], [('T', 'h'), ('K', 'h'), ('A', 'h'), ('A', 'd')]),
  (387, .lt, ([('J', 'd'), ('T', 'd')], [('Q', 'h'), ('K', 'h'), ('A', 'h')]),
    [('Q', 'd'), ('K', 'd')], [('Q', 'h'), ('K', 'h'), ('A', 'h')]),
  (393, .lt, ([('Q', 'd'), ('K', 'd')], [('Q', 'h'), ('K', 'h'), ('A', 'h')]),
    [('Q', 'c'), ('T', 'd')], [('Q', 'h'), ('K', 'h'), ('A', 'h')]),
  (399, .lt, ([('8', 's'), ('7', 'h')], [('8', 'h'), ('9', 'h'), ('T', 's')]),
    [('A', 'h'), ('2', 's')], [('8', 'h'), ('9', 'h'), ('T', 's')])] = .ok true

/- `test_5_card`: `Evaluator(4, 13, 5)` -/
#guard agrees (Evaluator.new 4 13 5 0 true none) [
  (412, .lt, ([('J', 'h'), ('Q', 'h')], [('T', 'h'), ('K', 'h'), ('A', 'h'), ('A', 'd')]),
    [('A', 's'), ('A', 'c')], [('T', 'h'), ('K', 'h'), ('A', 'h'), ('A', 'd')]),
  (418, .lt, ([('A', 's'), ('A', 'c')], [('K', 'h'), ('A', 'h'), ('A', 'd')]),
    [('K', 'c'), ('K', 'd')], [('K', 'h'), ('A', 'h'), ('A', 'd')]),
  (429, .lt, ([('K', 'c'), ('K', 'd')], [('K', 'h'), ('A', 'h'), ('A', 'd'), ('2', 'h')]),
    [('T', 'h'), ('5', 'h')], [('K', 'h'), ('A', 'h'), ('A', 'd'), ('2', 'h')]),
  (435, .lt, ([('T', 'h'), ('5', 'h')], [('Q', 'h'), ('K', 'h'), ('A', 'h')]),
    [('J', 'd'), ('T', 'd')], [('Q', 'h'), ('K', 'h'), ('A', 'h')]),
  (441, .lt, ([('J', 'd'), ('T', 'd')], [('Q', 'h'), ('K', 'h'), ('A', 'h')]),
    [('Q', 'd'), ('Q', 'c')], [('Q', 'h'), ('K', 'h'), ('A', 'h')]),
  (447, .lt, ([('Q', 'd'), ('Q', 'c')], [('Q', 'h'), ('K', 'h'), ('A', 'h')]),
    [('K', 'd'), ('A', 'd')], [('Q', 'h'), ('K', 'h'), ('A', 'h')]),
  (453, .lt, ([('9', 'h'), ('Q', 'h')], [('9', 's'), ('Q', 's'), ('8', 'd')]),
    [('8', 's'), ('7', 's')], [('9', 's'), ('Q', 's'), ('8', 'd')]),
  (459, .lt, ([('8', 's'), ('7', 'h')], [('8', 'h'), ('9', 'h'), ('T', 's')]),
    [('A', 'h'), ('2', 's')], [('8', 'h'), ('9', 'h'), ('T', 's')])] = .ok true

/- `test_short_deck`: `Evaluator(4, 9, 5, 0, order=order)` -/
#guard agrees (Evaluator.new 4 9 5 0 true (some ["sf", "fk", "fl", "fh", "st", "tk", "tp", "pa", "hc"])) [
  (477, .lt, ([('8', 'h'), ('7', 'h')], [('J', 'h'), ('9', 'h'), ('A', 'h'), ('A', 'c')]),
    [('J', 'd'), ('A', 's')], [('J', 'h'), ('9', 'h'), ('A', 'h'), ('A', 'c')])] = .ok true

/- `test_mandatory_hole_cards`: `Evaluator(4, 13, 5, 2)` -/
#guard agrees (Evaluator.new 4 13 5 2 true none) [
  (494, .lt, ([('T', 'h'), ('J', 'c'), ('2', 'c'), ('5', 'c')], [('9', 's'), ('8', 'c'), ('7', 'd'), ('6', 'c'), ('5', 'd')]),
    [('A', 'h'), ('Q', 'c'), ('2', 'h'), ('5', 's')], [('9', 's'), ('8', 'c'), ('7', 'd'), ('6', 'c'), ('5', 'd')])] = .ok true

end Clubs.Conform
