/-!
# Python built-ins used by clubs

Exceptions are values of `Err`; a Python function that may raise is a function into `Except Err`.
-/

namespace Clubs

/-- The exceptions that the modelled code can raise: the classes of `clubs/error.py:1-46` that the
modelled code uses, and the built-in exceptions that an unguarded operation raises. -/
inductive Err
  | invalidConfig | invalidRaiseSize | invalidRank | invalidSuit | invalidOrder | invalidHandSize
  | invalidHandRank | tooFewActivePlayers | tableReset
  | invalidRenderMode | renderInitialization | missingImports
  | indexError | keyError | valueError | typeError | assertionError | zeroDivision | overflowError
  deriving DecidableEq, Repr

-- results can be compared (only used to check concrete cases)
deriving instance DecidableEq for Except

/-- `itertools.combinations(xs, k)` for `k ≥ 0`: the `k`-element sub-sequences of `xs`, in
lexicographic order of positions. Used at `evaluator.py:101,106,116,585,601`, `engine.py:509`. -/
def combinations {α : Type} : Nat → List α → List (List α)
  | 0, _ => [[]]
  | _ + 1, [] => []
  | k + 1, x :: xs => (combinations k xs).map (x :: ·) ++ combinations (k + 1) xs

/-- `itertools.combinations(xs, k)` for any integer `k`: a negative `k` raises `ValueError`. -/
def combinationsInt {α : Type} (k : Int) (xs : List α) : Except Err (List (List α)) :=
  if k < 0 then .error .valueError else .ok (combinations k.toNat xs)

/-- every element of a list together with the list without it, in order -/
def picks {α : Type} : List α → List (α × List α)
  | [] => []
  | x :: xs => (x, xs) :: (picks xs).map fun p => (p.1, x :: p.2)

/-- `itertools.permutations(xs, k)`: in lexicographic order of positions. Used at
`evaluator.py:581`. -/
def permutations {α : Type} : Nat → List α → List (List α)
  | 0, _ => [[]]
  | k + 1, xs => (picks xs).flatMap fun p => (permutations k p.2).map (p.1 :: ·)

/-- `itertools.product(as, bs)` followed by `sum(pair, ())`, i.e. concatenation of the two tuples
(`evaluator.py:109-110`). -/
def productConcat {α : Type} (as bs : List (List α)) : List (List α) :=
  as.flatMap fun a => bs.map fun b => a ++ b

/-- `l[i]` for a Python list and an integer index: negative indices count from the end,
an index outside `-len ≤ i < len` raises `IndexError`. -/
def pyGet {α : Type} (l : List α) (i : Int) : Except Err α :=
  let j := if i < 0 then i + l.length else i
  if j < 0 then .error .indexError
  else match l[j.toNat]? with
    | some a => .ok a
    | none => .error .indexError

/-- `l[-a:] + l[:-a]` for `a ≥ 0` (`engine.py:593`); for `a = 0` the slices are `l[0:]` and `l[:0]`. -/
def roll {α : Type} (l : List α) (a : Nat) : List α :=
  if a = 0 then l else l.drop (l.length - a) ++ l.take (l.length - a)

/-- `max(xs)` of a non-empty list of ints. (`max([])` raises in Python; the modelled code only
takes the maximum over the seats, of which there are at least two, `engine.py:193`.) -/
def pyMax : List Int → Int
  | [] => 0
  | x :: xs => xs.foldl max x

/-- `min(xs)` of a non-empty list of ints (same remark as `pyMax`). -/
def pyMin : List Int → Int
  | [] => 0
  | x :: xs => xs.foldl min x

/-- A Python number passed as a bet: finite floats (and ints) are exact rationals. -/
inductive PyNum
  | fin (q : Rat)
  | posInf
  | negInf
  | nan
  deriving DecidableEq, Repr

/-- `round(q)` for a finite number: nearest integer, halves to the even neighbour. -/
def roundHalfEven (q : Rat) : Int :=
  let f := q.floor
  let r := q - f
  if r < 1 / 2 then f
  else if 1 / 2 < r then f + 1
  else if f % 2 = 0 then f else f + 1

/-- `round(x)` of any Python float: infinities raise `OverflowError`, nan raises `ValueError`. -/
def pyRound : PyNum → Except Err Int
  | .fin q => .ok (roundHalfEven q)
  | .posInf => .error .overflowError
  | .negInf => .error .overflowError
  | .nan => .error .valueError

/-- `x < 0` of any Python float (false for nan). -/
def PyNum.isNeg : PyNum → Bool
  | .fin q => decide (q < 0)
  | .posInf => false
  | .negInf => true
  | .nan => false

/-- `sum(1 for b in l if b)`, i.e. Python's `sum` of a list of bools. -/
def countTrue (l : List Bool) : Nat := l.count true

/-- `range(lo, hi)` for `0 ≤ lo`. -/
def rangeFrom (lo hi : Nat) : List Nat := (List.range (hi - lo)).map (· + lo)

end Clubs
