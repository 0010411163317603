import Verif.Model.Configs

/-!
# Running the model like the project's tests run the code

Used by `Verif/Conform/*.lean` only.
-/

namespace Clubs.Conform

/-- `clubs.Card(...)` for each of a list of two-character strings -/
def mkCards (l : List (Char × Char)) : Except Err (List Card) := l.mapM fun p => Card.new [p.1, p.2]

/-- create a dealer, trick its deck (unless no cards are given), change its stacks, reset; `shuf` is the shuffle of the reset -/
def start (a : DealerArgs) (top : List (Char × Char)) (chips : List Int → List Int) (resetButton resetStacks : Bool)
    (shuf : Shuffle := id) : Except Err (Dealer × Observation) := do
  let d ← Dealer.new a id
  let deck ← if top.isEmpty then pure d.deck else do d.deck.trick (← mkCards top)
  let r := { d with deck, «stacks» := chips d.stacks }.reset resetButton resetStacks shuf
  return (r.1, ← r.2)

/-- the list at these positions -/
def permute (idx : List Nat) (l : List Card) : List Card := idx.filterMap (l[·]?)

/-- What the second `random.shuffle` of a list of 52 elements after `random.seed(42)` does in CPython 3 (the first one is that of
`Deck.__init__`): the `i`-th element of the result is the one that was at position `seed42[i]`. -/
def seed42 : List Nat :=
  [13, 43, 15, 9, 25, 46, 1, 0, 16, 3, 26, 33, 31, 42, 28, 37, 49, 7, 34, 38, 32, 19, 41, 20, 27, 22, 8,
    21, 44, 30, 11, 10, 45, 29, 17, 51, 6, 47, 50, 48, 14, 2, 4, 12, 36, 23, 39, 40, 18, 35, 5, 24]

/-- the same after `random.seed(1)` -/
def seed1 : List Nat :=
  [39, 23, 9, 8, 10, 1, 20, 6, 4, 36, 33, 0, 38, 47, 26, 41, 50, 28, 3, 16, 14, 34, 43, 29, 24, 22, 17,
    51, 5, 49, 13, 35, 15, 30, 2, 25, 42, 31, 37, 48, 19, 12, 44, 27, 32, 45, 21, 7, 18, 46, 40, 11]

/-- the same after `random.seed(42)`, a shuffle of 52 and two shuffles of 50 elements -/
def seed42trick : List Nat :=
  [50, 28, 5, 13, 37, 24, 22, 42, 27, 17, 14, 8, 21, 34, 47, 4, 31, 30, 41, 2, 18, 35, 1, 7, 36, 25, 26,
    44, 3, 39, 15, 20, 49, 33, 51, 23, 9, 12, 38, 43, 19, 40, 6, 45, 11, 32, 16, 48, 46, 0, 29, 10]

/-- `dealer.stacks[i] -= x; dealer.stacks[j] += x` -/
def moveChips (i j : Nat) (x : Int) (l : List Int) : List Int := (l.modify i (· - x)).modify j (· + x)

/-- one `step` per bet; what the last one returns -/
def bets (d : Dealer) : List Rat → Except Err (Dealer × StepOut)
  | [] => .error .assertionError
  | [b] => do
    let r := d.step (.fin b)
    return (r.1, ← r.2)
  | b :: l => do
    let r := d.step (.fin b)
    let _ ← r.2
    bets r.1 l

/-- the same bet until `all(done)`, at most `n` times -/
def untilDone (b : Rat) : Nat → Dealer → Except Err (Dealer × StepOut)
  | 0, _ => .error .assertionError
  | n + 1, d => do
    let r := d.step (.fin b)
    let o ← r.2
    if o.2.2.all id then return (r.1, o) else untilDone b n r.1

/-- bets of 0 until the hand is over -/
def checkDown (d : Dealer) (n : Nat) : Except Err (Dealer × StepOut) := untilDone 0 n d

/-- bets of -1 until the hand is over -/
def foldDown (d : Dealer) (n : Nat) : Except Err (Dealer × StepOut) := untilDone (-1) n d

/-- play `n` hands with bets of 0 and reset after each; who is to act first after each reset -/
def firstToAct (d : Dealer) : Nat → Except Err (List Int)
  | 0 => .ok []
  | n + 1 => do
    let (d, _) ← checkDown d 40
    let r := d.reset false false id
    let o ← r.2
    return o.action :: (← firstToAct r.1 n)

end Clubs.Conform
