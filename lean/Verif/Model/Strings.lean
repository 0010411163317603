import Verif.Model.Ascii

/-! # `__str__` of the evaluator -/

namespace Clubs

/-- a natural number with at least four digits, zeros in front -/
def fourDigits (n : Nat) : Str := List.replicate (4 - (decimal n).length) '0' ++ decimal n

/-- `"{:.4%}".format(q)` for `q ≥ 0`: `q` in percent with four digits after the point, correctly rounded. Simplified: `q` is an exact
rational. In the code it is a quotient of ints, rounded to a float, times 100, rounded again; the result differs only if the
exact value is within about `10 ^ -14` of the middle between two printable numbers. -/
def percent4 (q : Rat) : Str :=
  let n := (roundHalfEven (q * 1000000)).toNat
  decimal (n / 10000) ++ '.' :: fourDigits (n % 10000) ++ ['%']

/-- `total` (`evaluator.py:62-64`) -/
def Evaluator.total (e : Evaluator) : Int := (e.table.rankedHands.map fun c => (e.table.handDict c).suited).sum

/-- `self.hand_ranks` (`evaluator.py:66-70`), which is what `Evaluator.__str__` returns (`evaluator.py:72-73`) -/
def Evaluator.str (e : Evaluator) : Str :=
  join " > ".toList (e.table.rankedHands.map fun c =>
    c.name.toList ++ " (".toList ++ percent4 ((e.table.handDict c).suited / e.total) ++ ")".toList)

end Clubs
