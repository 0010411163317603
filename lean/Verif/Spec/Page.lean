import Verif.Spec.Dealing
import Verif.Model.Page

/-!
# What a page has to show

A page is given by the looks of its elements, by id.
-/

namespace Clubs.Spec

open Clubs

/-- the text on a card -/
def faceText (c : Card) : Str := if c.rank = 'T' then "10".toList else [c.rank]

/-- the picture on a card -/
def suitPattern (c : Card) : String :=
  if c.suit = '♣' then "url(#card-club)" else if c.suit = '♠' then "url(#card-spade)"
  else if c.suit = '♥' then "url(#card-heart)" else "url(#card-diamond)"

/-- black or red -/
def suitColour (c : Card) : String := if c.suit = '♣' ∨ c.suit = '♠' then "black" else "red"

/-- a place for a card, with a background and a text: the card is shown face up, or, if there is none, the picture `empty` and
no text -/
def ShowsCard (empty : String) (c : Option Card) (background text : Looks) : Prop :=
  match c with
  | some c => background.fill = some (suitPattern c) ∧ text.text = faceText c ∧ text.fill = some (suitColour c) ∧
      text.stroke = some (suitColour c)
  | none => background.fill = some empty ∧ text.text = []

/-- the page shows the table `d` (with `n` players, `h` hole cards and `c` community cards): stacks, bets, pot, button, the
seat to act, the community cards and the hole cards of the players who have not folded -/
structure ShowsTable (n h c : Nat) (d : Dealer) (p : Page) : Prop where
  stack : ∀ i < n, (p ("chips-text-".toList ++ decimal i)).text = intStr (stack d i)
  bet : ∀ i < n, (p ("street-commit-text-".toList ++ decimal i)).text = intStr (streetBet d i)
  pot : (p "pot-text".toList).text = intStr d.pot
  button : ∀ i < n, (p ("button-background-".toList ++ decimal i)).fill =
    some (if i = d.button then "url(#dealer)" else "transparent")
  action : ∀ i < n, (p ("player-background-".toList ++ decimal i)).fill =
    some (if d.action = some i then "#000000" else "#ffffff")
  board : ∀ j < c, ShowsCard "url(#card-blank)" d.communityCards[j]?
    (p ("card-background-community-".toList ++ decimal (j + 1))) (p ("card-text-community-".toList ++ decimal (j + 1)))
  deck : (p "card-background-community-0".toList).fill = some "url(#card-back)"
  hole : ∀ i < n, ∀ j < h, ShowsCard "url(#card-back)" (if isIn d i then (d.holeCards.getD i [])[j]? else none)
    (p ("card-background-".toList ++ decimal i ++ "-".toList ++ decimal j))
    (p ("card-text-".toList ++ decimal i ++ "-".toList ++ decimal j))

/-- `m` is the message that `render` sends for the table `d`, and the picture was made for `d`: with `n` players, `h` hole
cards and `c` community cards (`engine.py:464-494`). The deck suffices and no number of community cards is negative. -/
structure IsMessage (n h c : Nat) (d : Dealer) (m : Message) : Prop where
  reachable : Reachable d
  enough : Enough d.cfg
  community : ∀ k ∈ d.cfg.numCommunityCards, 0 ≤ k
  players : n = d.cfg.numPlayers
  hole : h = d.cfg.numHoleCards.toNat
  board : (c : Int) = d.cfg.numCommunityCards.sum
  sent : d.show .graphic = .ok (.sent m)

/-- two pages look the same: all elements have the same text, and the same colours, except that the colour of a card's text
may differ where there is no text -/
def LooksSame (p q : Page) : Prop :=
  ∀ s, (p s).text = (q s).text ∧
    (((p s).fill = (q s).fill ∧ (p s).stroke = (q s).stroke) ∨ ("card-text-".toList <+: s ∧ (p s).text = []))

end Clubs.Spec
