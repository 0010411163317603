import Verif.Model.Ascii

/-!
# `Dealer.render` and the message sent to the browser

`clubs/poker/engine.py:464-494`, `clubs/render/graphic.py:150-220`. Of `GraphicViewer.__init__`
(`graphic.py:28-64`), which starts a server process, only the outcome is a parameter: it returns or it raises.
-/

namespace Clubs

/-- `Deck.__str__` (`card.py:168-171`) -/
def Deck.str (d : Deck) : Str := '[' :: (join [','] (d.cards.map Card.str) ++ [']'])

/-- an element of the argument of `_convert_hands`: a card or a list of cards -/
inductive CardOrHand
  | card (c : Card)
  | hand (h : List Card)

/-- the loop of `_convert_hands` (`graphic.py:203-210`); `_cards` is shared by both branches -/
def convertLoop : List CardOrHand → (hands : List (List Str)) → (cards : List Str) → List (List Str) × List Str
  | [], hands, cards => (hands, cards)
  | .card c :: l, hands, cards => convertLoop l hands (cards ++ [c.str])
  | .hand h :: l, hands, _ => convertLoop l (hands ++ [h.map Card.str]) (h.map Card.str)

/-- a JSON value that is a list of strings or a list of lists of strings -/
inductive JsonCards
  | flat (l : List Str)
  | nested (l : List (List Str))
  deriving DecidableEq

/-- `_convert_hands` (`graphic.py:198-213`) -/
def convertHands (l : List CardOrHand) : JsonCards :=
  match convertLoop l [] [] with
  | ([], cards) => .flat cards
  | (hands, _) => .nested hands

/-- the dictionary that `_jsonify` returns (`graphic.py:216-220`): all entries of the render configuration, the cards as
strings -/
structure Message where
  action : Option Nat
  active : List Bool
  allIn : List Bool
  communityCards : JsonCards
  button : Nat
  done : Bool
  holeCards : JsonCards
  pot : Int
  payouts : List Int
  prevAction : Option (Nat × Int × Bool)
  streetCommits : List Int
  «stacks» : List Int
  deriving DecidableEq

/-- `_jsonify` (`graphic.py:216-220`) -/
def jsonify (c : RenderConfig) : Message where
  action := c.action
  active := c.active
  allIn := c.allIn
  communityCards := convertHands (c.communityCards.map .card)
  button := c.button
  done := c.done
  holeCards := convertHands (c.holeCards.map .hand)
  pot := c.pot
  payouts := c.payouts
  prevAction := c.prevAction
  streetCommits := c.streetCommits
  «stacks» := c.stacks

/-- the class of `self.viewer` -/
inductive ViewerKind
  | ascii
  | graphic
  deriving DecidableEq

/-- what rendering does: print a text or send a message to the browser -/
inductive Shown
  | printed (s : Str)
  | sent (m : Message)
  deriving DecidableEq

/-- `self.viewer.render(config)` (`ascii_viewer.py:211-212`, `graphic.py:183`) -/
def Dealer.show (d : Dealer) : ViewerKind → Except Err Shown
  | .ascii => match d.renderConfig with
    | .error e => .error e
    | .ok c => .ok (.printed (parseString d.viewer c))
  | .graphic => match d.renderConfig with
    | .error e => .error e
    | .ok c => .ok (.sent (jsonify c))

/-- `Dealer.render` (`engine.py:464-494`). `viewer` is `self.viewer`, `start` the outcome of `GraphicViewer(...)`. The
first component is `self.viewer` afterwards; nothing else of the dealer changes. -/
def Dealer.render (d : Dealer) (viewer : Option ViewerKind) (start : Except Err Unit) (mode : String) :
    Option ViewerKind × Except Err Shown :=
  match viewer with
  | some v => (some v, d.show v)
  | none =>
    if mode = "ascii" then (some .ascii, d.show .ascii)
    else if mode = "human" then
      match start with
      | .error e => (none, .error e)
      | .ok () => (some .graphic, d.show .graphic)
    else (none, .error .invalidRenderMode)

/-- a sequence of calls of `render` on the same dealer, between which the table may change -/
def renderAll : Option ViewerKind → List (Dealer × Except Err Unit × String) → List (Except Err Shown)
  | _, [] => []
  | v, (d, start, mode) :: l => (d.render v start mode).2 :: renderAll (d.render v start mode).1 l

end Clubs
