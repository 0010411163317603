import Verif.Model.Render
import Verif.Model.Svg

/-!
# `clubs/render/resources/static/parse_config.js`, and the server of `clubs/render/graphic.py`

The script that runs in the browser. It never changes the structure of the page, so the page is the tree made by
`_SVGPoker`, which stays, and the looks of its elements: text, `fill` and `stroke`. The looks are addressed by the
element's id; a change of an element without id is an error here (C67 shows that there is none). A null dereference
(`TypeError`) ends the script and leaves the page as it is at that point.
-/

namespace Clubs

/-- what the script can change of an element -/
structure Looks where
  /-- `innerHTML` of an element without children -/
  text : Str
  fill : Option String
  stroke : Option String

/-- the looks of all elements, by id -/
abbrev Page := Str → Looks

/-- a piece of script: it may change the page and may end with an exception -/
abbrev Js := EStateM Err Page

namespace Svg

mutual
/-- the proper descendants of an element, in document order -/
def desc : Svg → List Svg
  | node _ _ k => descList k
/-- the same for a list of elements, themselves included -/
def descList : List Svg → List Svg
  | [] => []
  | c :: cs => c :: (desc c ++ descList cs)
end

/-- `getElementById`: the first descendant with this id, or null -/
def byId (root : Svg) (i : Str) : Option Svg := root.desc.find? (hasId i)

/-- `getElementsByClassName`: the descendants of this class, in document order -/
def byClass (root : Svg) (name : String) : List Svg := root.desc.filter (hasClass name)

end Svg

open Svg

/-- the page that the server sends (`index.html:7-9`, `graphic.py:125-128`): the SVG tree in a `div` -/
def document (svg : Svg) : Svg := .node "html" {} [.node "body" {} [.node "div" { id := some "table-container".toList } [svg]]]

/-- an element on which a method is called or a property set: a `TypeError` if it is null -/
def nonNull : Option Svg → Js Svg
  | some e => pure e
  | none => throw .typeError

/-- change the looks of an element -/
def change (f : Looks → Looks) (e : Svg) : Js Unit :=
  match e.attrs.id with
  | some i => modify fun p j => if j = i then f (p j) else p j
  | none => throw .keyError

/-- `e.setAttribute("fill", v)` -/
def setFill (v : String) (e : Svg) : Js Unit := change (fun l => { l with fill := some v }) e

/-- `e.setAttribute("stroke", v)` -/
def setStroke (v : String) (e : Svg) : Js Unit := change (fun l => { l with stroke := some v }) e

/-- `e.innerHTML = t` -/
def setText (t : Str) (e : Svg) : Js Unit := change (fun l => { l with text := t }) e

/-- the text of a number of the message; an element past the end of a list is `undefined` -/
def numText (x : Option Int) : Str :=
  match x with
  | some i => intStr i
  | none => "undefined".toList

/-- `reset_player` (`parse_config.js:4-22`) -/
def resetPlayer (doc : Svg) : Js Unit := do
  (doc.byClass "player").zipIdx.forM fun (player, playerIdx) => do
    setText "0".toList (← nonNull (player.byId ("chips-text-".toList ++ decimal playerIdx)))
    (player.byClass "card-background").forM (setFill "url(#card-back)")
    (player.byClass "card-text").forM (setText [])
  (doc.byClass "player-background").forM (setFill "#ffffff")

/-- `reset_button` (`parse_config.js:24-29`) -/
def resetButton (doc : Svg) : Js Unit := (doc.byClass "button-background").forM (setFill "transparent")

/-- `reset_community` (`parse_config.js:31-44`) -/
def resetCommunity (doc : Svg) : Js Unit := do
  let community ← nonNull (doc.byId "community".toList)
  let cardBackgrounds := community.byClass "card-background"
  setFill "url(#card-back)" (← nonNull cardBackgrounds.head?)
  cardBackgrounds.tail.forM (setFill "url(#card-blank)")
  let cardTexts := community.byClass "card-text"
  setFill "url(#card-back)" (← nonNull cardTexts.head?)
  cardTexts.tail.forM (setText [])
  setText "0".toList (← nonNull (community.byId "pot-text".toList))

/-- a string or an array as something that can be indexed: `s[0]` of a string is its first character -/
def chars (s : Str) : List Str := s.map fun c => [c]

/-- `update_card` (`parse_config.js:61-89`); the card is what `card_string[0]`, `card_string[1]` are -/
def updateCard (card : Svg) (cardString : List Str) : Js Unit := do
  let value := (cardString[0]?).getD "undefined".toList
  let value := if value = "T".toList then "10".toList else value
  setText value (← nonNull (card.byClass "card-text").head?)
  let paint (pattern colour : String) : Js Unit := do
    setFill pattern (← nonNull (card.byClass "card-background").head?)
    let cardText ← nonNull (card.byClass "card-text").head?
    setStroke colour cardText
    setFill colour cardText
  let suit := cardString[1]?
  if suit = some "♣".toList then paint "url(#card-club)" "black"
  else if suit = some "♠".toList then paint "url(#card-spade)" "black"
  else if suit = some "♥".toList then paint "url(#card-heart)" "red"
  else if suit = some "♦".toList then paint "url(#card-diamond)" "red"
  else pure ()

/-- `config["hole_cards"]`: a list of hands, each a list of cards (if it were a list of strings, their characters would be
taken for the cards) -/
def JsonCards.hands : JsonCards → List (List (List Str))
  | .nested l => l.map fun hand => hand.map chars
  | .flat l => l.map fun s => (chars s).map chars

/-- `config["community_cards"]`: a list of cards -/
def JsonCards.cards : JsonCards → List (List Str)
  | .flat l => l.map chars
  | .nested l => l

/-- `update_players` (`parse_config.js:46-59`) -/
def updatePlayers (doc : Svg) (config : Message) : Js Unit :=
  config.holeCards.hands.zipIdx.forM fun (cards, playerIdx) => do
    setText (numText config.streetCommits[playerIdx]?)
      (← nonNull (doc.byId ("street-commit-text-".toList ++ decimal playerIdx)))
    setText (numText config.stacks[playerIdx]?) (← nonNull (doc.byId ("chips-text-".toList ++ decimal playerIdx)))
    if config.active[playerIdx]? = some true then
      cards.zipIdx.forM fun (cardString, cardIdx) => do
        -- the element is only used in `update_card`, where the first use raises if it is null
        let card ← nonNull (doc.byId ("card-".toList ++ decimal playerIdx ++ "-".toList ++ decimal cardIdx))
        updateCard card cardString

/-- `update_community` (`parse_config.js:91-100`) -/
def updateCommunity (doc : Svg) (config : Message) : Js Unit := do
  config.communityCards.cards.zipIdx.forM fun (cardString, cardIdx) => do
    let card ← nonNull (doc.byId ("card-community-".toList ++ decimal (cardIdx + 1)))
    updateCard card cardString
  setText (intStr config.pot) (← nonNull (doc.byId "pot-text".toList))

/-- `update_button` (`parse_config.js:102-105`) -/
def updateButton (doc : Svg) (config : Message) : Js Unit := do
  setFill "url(#dealer)" (← nonNull (doc.byId ("button-background-".toList ++ decimal config.button)))

/-- `update_action` (`parse_config.js:107-112`); `none` is −1 -/
def updateAction (doc : Svg) (config : Message) : Js Unit :=
  match config.action with
  | some a => do setFill "#000000" (← nonNull (doc.byId ("player-background-".toList ++ decimal a)))
  | none => pure ()

/-- the handler of 'config' (`parse_config.js:114-125`); `none` is the empty dictionary, which has no "hole_cards" -/
def onConfig (doc : Svg) (config : Option Message) : Js Unit := do
  resetPlayer doc
  resetCommunity doc
  resetButton doc
  match config with
  | some config => do
    updatePlayers doc config
    updateCommunity doc config
    updateButton doc config
    updateAction doc config
  | none => pure ()

/-- the page after a message, whether or not the script ended with an exception -/
def deliver (doc : Svg) (config : Option Message) (p : Page) : Page :=
  match onConfig doc config p with
  | .ok _ p => p
  | .error _ p => p

/-! ## the server -/

/-- the server (`graphic.py:104-148`): the last configuration, and the pages that are open -/
structure Server where
  config : Option Message
  pages : List Page

/-- what happens to the server: a page is opened and connects, or `render` sends a message -/
inductive ServerEvent
  /-- `p` is the page as loaded -/
  | connect (p : Page)
  | message (m : Message)

/-- `connect` (`graphic.py:121-123`; `socketio.emit` goes to all clients, the new one included) and
`listener` (`graphic.py:130-144`). Messages are assumed to arrive, in order. -/
def Server.step (svg : Svg) (s : Server) : ServerEvent → Server
  | .connect p => { s with pages := (s.pages ++ [p]).map (deliver (document svg) s.config) }
  | .message m => { config := some m, pages := s.pages.map (deliver (document svg) (some m)) }

/-- the server after some events; at first there is no configuration and no page is open -/
def Server.run (svg : Svg) (es : List ServerEvent) : Server := es.foldl (Server.step svg) ⟨none, []⟩

end Clubs
