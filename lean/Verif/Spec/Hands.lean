import Verif.Model.Card
import Verif.Spec.Decks
import Mathlib.Data.List.Forall2

/-!
# Poker hands: vocabulary for C06–C17

A card is written `(rank, suit)` with rank 0 (deuce) … 12 (ace) and suit 0 … 3.
-/

namespace Clubs.Spec

/-- the number of bits set in `x` among the lowest `w` bits -/
def bitCount (w x : Nat) : Nat := ((List.range w).filter fun i => x.testBit i).length

/-- The list of card objects `h` is what one gets by writing down the cards `ps`. -/
def Denotes (ps : List (Nat × Nat)) (h : List Card) : Prop :=
  List.Forall₂ (fun p c => Card.new [rankSymbol p.1, suitLetter p.2] = .ok c) ps h

/-- ranks below 13 and suits below 4 -/
def AreCards (ps : List (Nat × Nat)) : Prop := ∀ p ∈ ps, p.1 < 13 ∧ p.2 < 4

/-- `ps` are `c` different cards of the deck with `s` suits and the `r` highest ranks. -/
def IsHand (s r c : Nat) (ps : List (Nat × Nat)) : Prop :=
  ps.length = c ∧ ps.Nodup ∧ ∀ p ∈ ps, (13 - r ≤ p.1 ∧ p.1 < 13) ∧ p.2 < s

/-- the number of cards whose rank occurs exactly `k` times -/
def inGroups (rs : List Nat) (k : Nat) : Nat := (rs.filter fun x => rs.count x == k).length

/-- the ranks of a straight: consecutive -/
def IsRun (rs : List Nat) : Prop := ∃ lo < 13, ∀ i < rs.length, lo + i ∈ rs

instance (rs : List Nat) : Decidable (IsRun rs) :=
  inferInstanceAs (Decidable (∃ lo < 13, ∀ i < rs.length, lo + i ∈ rs))

/-- the lowest straight: an ace and the lowest ranks of the deck, all different -/
def IsWheel (r : Nat) (rs : List Nat) : Prop :=
  rs.Nodup ∧ 12 ∈ rs ∧ ∀ i < rs.length - 1, 13 - r + i ∈ rs

instance (r : Nat) (rs : List Nat) : Decidable (IsWheel r rs) := inferInstanceAs (Decidable (_ ∧ _))

/-- a straight of at least three cards -/
def IsStraight (r : Nat) (low : Bool) (rs : List Nat) : Prop :=
  3 ≤ rs.length ∧ (IsRun rs ∨ (low = true ∧ IsWheel r rs))

instance (r : Nat) (low : Bool) (rs : List Nat) : Decidable (IsStraight r low rs) :=
  inferInstanceAs (Decidable (_ ∧ _))

/-- at least three cards of one suit, if there are different suits at all -/
def IsFlush (s : Nat) (ps : List (Nat × Nat)) : Prop :=
  2 ≤ s ∧ 3 ≤ ps.length ∧ ∀ p ∈ ps, ∀ q ∈ ps, p.2 = q.2

instance (s : Nat) (ps : List (Nat × Nat)) : Decidable (IsFlush s ps) :=
  inferInstanceAs (Decidable (_ ∧ _))

/-- the nine hand classes -/
inductive HandKind
  | straightFlush | fourKind | fullHouse | flush | straight | threeKind | twoPair | pair | highCard
  deriving DecidableEq, Repr

/-- The class of a hand of a deck with `s` suits and `r` ranks. -/
def handKind (s r : Nat) (low : Bool) (ps : List (Nat × Nat)) : HandKind :=
  let rs := ps.map (·.1)
  if inGroups rs 4 ≠ 0 then .fourKind
  else if inGroups rs 3 ≠ 0 ∧ inGroups rs 2 ≠ 0 then .fullHouse
  else if inGroups rs 3 ≠ 0 then .threeKind
  else if inGroups rs 2 = 4 then .twoPair
  else if inGroups rs 2 ≠ 0 then .pair
  else if IsStraight r low rs then (if IsFlush s ps then .straightFlush else .straight)
  else if IsFlush s ps then .flush
  else .highCard

/-- the name of a class -/
def HandKind.name : HandKind → String
  | .straightFlush => "straight flush"
  | .fourKind => "four of a kind"
  | .fullHouse => "full house"
  | .flush => "flush"
  | .straight => "straight"
  | .threeKind => "three of a kind"
  | .twoPair => "two pair"
  | .pair => "pair"
  | .highCard => "high card"

/-- ranks by number of occurrences, then by rank, both descending -/
def byGroups (rs : List Nat) : List Nat :=
  rs.mergeSort fun a b => decide (rs.count b < rs.count a ∨ (rs.count a = rs.count b ∧ b ≤ a))

/-- the top card of a straight; the ace of the lowest straight counts low -/
def straightTop (r : Nat) (rs : List Nat) : Nat :=
  if IsRun rs then rs.foldl max 0 else 13 - r + (rs.length - 2)

/-- What decides between hands of the same class: compared from left to right, larger is better. -/
def tieKey (r : Nat) (low : Bool) (rs : List Nat) : List Nat :=
  if IsStraight r low rs then [straightTop r rs] else byGroups rs

/-- The orders for which the theorems about ranks are stated: no order given, or every code once. With a
custom order three degenerate shapes are left out. -/
def GoodOrder (s r c : Nat) (low : Bool) (order : Option (List String)) : Prop :=
  order = none ∨ ∃ o, order = some o ∧ o.Nodup ∧ c ≤ r + 1 ∧ ¬ (low = true ∧ c = r ∧ 3 ≤ c) ∧
    ¬ (s = 1 ∧ r = c ∧ 3 ≤ c)

/-- the code of a class in a custom order (`evaluator.py`, `LookupTable.ORDER_STRINGS`) -/
def HandKind.code : HandKind → String
  | .straightFlush => "sf"
  | .fourKind => "fk"
  | .fullHouse => "fh"
  | .flush => "fl"
  | .straight => "st"
  | .threeKind => "tk"
  | .twoPair => "tp"
  | .pair => "pa"
  | .highCard => "hc"

/-- The selections that the rules allow: `n` of all the cards, or, if `m` hole cards must be used,
exactly `m` hole cards and `n - m` community cards. -/
def Selection (n m : Int) (hole comm sel : List Card) : Prop :=
  if m = 0 then sel.Sublist (hole ++ comm) ∧ (sel.length : Int) = n
  else ∃ a b, a.Sublist hole ∧ (a.length : Int) = m ∧ b.Sublist comm ∧ (b.length : Int) = n - m ∧ sel = a ++ b

/-- the class order everybody knows -/
def standardNames : List String :=
  ["straight flush", "four of a kind", "full house", "flush", "straight", "three of a kind", "two pair",
   "pair", "high card"]

/-- the cards of the deck with `s` suits and `r` ranks -/
def deckCards (s r : Nat) : List (Nat × Nat) :=
  (List.range r).flatMap fun i => (List.range s).map fun u => (12 - i, u)

end Clubs.Spec
