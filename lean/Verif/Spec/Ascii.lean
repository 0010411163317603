import Verif.Spec.Table
import Verif.Model.Ascii

/-!
# What the ASCII picture should say: vocabulary for C49, C50, C55, C57
-/

namespace Clubs.Spec

/-- the number written in decimal, ignoring separators -/
def readNat (s : Str) : Nat :=
  (s.filter fun c => decide (c ≠ ',')).foldl (fun n c => 10 * n + (c.toNat - '0'.toNat)) 0

/-- `s` is a natural number written in decimal with a comma in front of every group of three digits -/
structure Numeral (s : Str) (n : Nat) : Prop where
  nonempty : s ≠ []
  chars : ∀ c ∈ s, c = ',' ∨ ('0'.toNat ≤ c.toNat ∧ c.toNat ≤ '9'.toNat)
  value : readNat s = n
  groups : ∀ k, ∀ h : k < s.length, (s[s.length - 1 - k]'(by omega) = ',' ↔ k % 4 = 3)
  start : s.head? ≠ some ','
  noZeros : s.head? = some '0' → s = ['0']

/-- `s` is an integer written that way -/
def Amount (s : Str) (i : Int) : Prop :=
  if i < 0 then ∃ t, s = '-' :: t ∧ Numeral t i.natAbs else Numeral s i.natAbs

/-- the seats (counted from 1) with a positive entry, with the entry, in order -/
def IsWinners (payouts : List Int) (ws : List (Nat × Int)) : Prop :=
  ws.Pairwise (fun a b => a.1 < b.1) ∧ ∀ i p, (i, p) ∈ ws ↔ 1 ≤ i ∧ i ≤ payouts.length ∧ p = payouts.getD (i - 1) 0 ∧ 0 < p

/-- nothing is left to decide: the last street is over, or only one player is left, or nobody in has chips -/
def AllDone (d : Dealer) : Prop :=
  d.cfg.numStreets ≤ d.street ∨ numIn d ≤ 1 ∨ ∀ i < d.cfg.numPlayers, isIn d i → stack d i = 0

/-- the text for the cards of seat `i`: dashes for players who are not in, the cards of the player to act and, when
nothing is left to decide, of everybody, question marks otherwise -/
def CardText (d : Dealer) (i : Nat) (t : Str) : Prop :=
  (¬ isIn d i ∧ t = join ",".toList (List.replicate d.cfg.numHoleCards.toNat "--".toList)) ∨
  (isIn d i ∧ (AllDone d ∨ d.action = some i) ∧ t = join ",".toList ((d.holeCards.getD i []).map Card.str)) ∨
  (isIn d i ∧ ¬ AllDone d ∧ d.action ≠ some i ∧ t = join ",".toList (List.replicate d.cfg.numHoleCards.toNat "??".toList))

/-- the text for the player at seat `i` -/
def SeatText (d : Dealer) (i : Nat) (t : Str) : Prop :=
  ∃ cards amount, t = pad .right 2 (decimal (i + 1)) ++ ". ".toList ++ cards ++ " ".toList ++ amount ∧ CardText d i cards ∧
    Amount amount (stack d i)

/-- the message about the winners -/
def winText (ws : List (Nat × Int)) : Str :=
  if 1 < ws.length then
    "Players ".toList ++ join ", ".toList (ws.map fun w => decimal w.1) ++ " won ".toList ++
      join ", ".toList (ws.map fun w => decimal w.2.toNat) ++ " respectively".toList
  else
    "Player ".toList ++ join ", ".toList (ws.map fun w => decimal w.1) ++ " won ".toList ++
      join ", ".toList (ws.map fun w => decimal w.2.toNat)

/-- what seat `a` did between `d` and `d'` -/
def DidText (d d' : Dealer) (a : Nat) (t : Str) : Prop :=
  (¬ isIn d' a ∧ t = "folded ".toList) ∨
  (isIn d' a ∧ moved d d' a = 0 ∧ t = "checked ".toList) ∨
  (isIn d' a ∧ 0 < moved d d' a ∧ t = "bet ".toList ++ decimal (moved d d' a).toNat ++ " ".toList)

/-- the keys of the fields in one row of seats: left player, right player, and below them their bets and markers -/
def rowKeys (l r : Nat) : List String :=
  ["p" ++ toString l, "p" ++ toString r, "p" ++ toString l ++ "c", "b" ++ toString l, "a" ++ toString l, "a" ++ toString r,
    "b" ++ toString r, "p" ++ toString r ++ "c"]

/-- the places around the table, clockwise from the top left: 0 and 1 at the top, 2 to 4 on the right, 5 and 6 at the bottom,
7 to 9 on the left -/
def layout : List String :=
  rowKeys 0 1 ++ rowKeys 9 2 ++ rowKeys 8 3 ++ ["ccs", "pot"] ++ rowKeys 7 4 ++ rowKeys 6 5 ++ ["action", "win"]

/-- the field of a segment -/
def fieldKey : Seg → Option String
  | .lit _ => none
  | .field key _ _ => some key

end Clubs.Spec
