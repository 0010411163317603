/-!
# What a card string and a card integer should be

Written from the documentation of `Card` (`clubs/poker/card.py:28-56`), without the model.
-/

namespace Clubs.Spec

/-- The rank number (0 for a deuce … 12 for an ace) denoted by a character. -/
def rankOf (c : Char) : Option Nat :=
  match c with
  | '2' => some 0 | '3' => some 1 | '4' => some 2 | '5' => some 3 | '6' => some 4 | '7' => some 5
  | '8' => some 6 | '9' => some 7
  | 'T' => some 8 | 't' => some 8
  | 'J' => some 9 | 'j' => some 9
  | 'Q' => some 10 | 'q' => some 10
  | 'K' => some 11 | 'k' => some 11
  | 'A' => some 12 | 'a' => some 12
  | _ => none

/-- The suit number (0 spades, 1 hearts, 2 diamonds, 3 clubs) denoted by a character. `ſ` (U+017F) is
a lower-case form of `S` in Unicode, and Python's `upper` treats it so. -/
def suitOf (c : Char) : Option Nat :=
  match c with
  | 'S' => some 0 | 's' => some 0 | 'ſ' => some 0
  | 'H' => some 1 | 'h' => some 1
  | 'D' => some 2 | 'd' => some 2
  | 'C' => some 3 | 'c' => some 3
  | _ => none

/-- The 13 primes used for the ranks. -/
def primeOf : Nat → Nat
  | 0 => 2 | 1 => 3 | 2 => 5 | 3 => 7 | 4 => 11 | 5 => 13 | 6 => 17 | 7 => 19 | 8 => 23 | 9 => 29
  | 10 => 31 | 11 => 37 | _ => 41

/-- The symbol shown for a suit -/
def suitSymbol : Nat → Char
  | 0 => '♠' | 1 => '♥' | 2 => '♦' | _ => '♣'

/-- The character shown for a rank -/
def rankSymbol : Nat → Char
  | 0 => '2' | 1 => '3' | 2 => '4' | 3 => '5' | 4 => '6' | 5 => '7' | 6 => '8' | 7 => '9' | 8 => 'T'
  | 9 => 'J' | 10 => 'Q' | 11 => 'K' | _ => 'A'

end Clubs.Spec
