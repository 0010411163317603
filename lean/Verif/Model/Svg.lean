import Verif.Model.Ascii
import Mathlib.Data.Rat.Defs

/-!
# `clubs/render/graphic.py`: `_SVGElement`, `_SVGPoker`

The SVG tree of the browser view. Of an element only the attributes are kept that the code or the page's script reads or
sets. Numbers are rationals: all that occur are multiples of one half, which floats represent exactly; attribute values
are kept as numbers and not as text. An attribute such as `width="100%"` is left out, the code never reads one as a number.
The positions of the seats (`edge`, rounded to integers) are a parameter.
-/

namespace Clubs

/-- the attributes of an element -/
structure Attrs where
  cls : Option String := none
  id : Option Str := none
  x : Option ℚ := none
  y : Option ℚ := none
  width : Option ℚ := none
  height : Option ℚ := none
  /-- width and height of `viewBox` -/
  viewBox : Option (ℚ × ℚ) := none
  fill : Option String := none
deriving DecidableEq

/-- an XML element: tag, attributes, children -/
inductive Svg where
  | node (tag : String) (attrs : Attrs) (kids : List Svg)

namespace Svg

def tag : Svg → String | node t _ _ => t
def attrs : Svg → Attrs | node _ a _ => a
def kids : Svg → List Svg | node _ _ k => k

/-- `set_svg_attr` and the property setters (`graphic.py:336-390`) -/
def setAttrs (f : Attrs → Attrs) : Svg → Svg | node t a k => node t (f a) k

/-- the `id` setter (`graphic.py:388-390`) -/
def setId (i : Str) (s : Svg) : Svg := s.setAttrs fun a => { a with id := some i }

/-- the `x` setter (`graphic.py:347-349`) -/
def setX (v : ℚ) (s : Svg) : Svg := s.setAttrs fun a => { a with x := some v }

/-- the `y` setter (`graphic.py:358-360`) -/
def setY (v : ℚ) (s : Svg) : Svg := s.setAttrs fun a => { a with y := some v }

/-- the `width` setter (`graphic.py:369-371`) -/
def setWidth (v : ℚ) (s : Svg) : Svg := s.setAttrs fun a => { a with width := some v }

/-- the `height` setter (`graphic.py:380-382`) -/
def setHeight (v : ℚ) (s : Svg) : Svg := s.setAttrs fun a => { a with height := some v }

/-- the `x` property (`graphic.py:340-345`); a missing attribute counts as 0 -/
def x (s : Svg) : ℚ := s.attrs.x.getD 0

/-- the `y` property (`graphic.py:351-356`) -/
def y (s : Svg) : ℚ := s.attrs.y.getD 0

/-- the `width` property (`graphic.py:362-367`) -/
def width (s : Svg) : ℚ := s.attrs.width.getD 0

/-- the `height` property (`graphic.py:373-378`) -/
def height (s : Svg) : ℚ := s.attrs.height.getD 0

/-- `center_x(other)` (`graphic.py:460-468`) -/
def centerXIn (other s : Svg) : Svg :=
  s.setX (((match other.attrs.viewBox with | some b => b.1 | none => other.width) - s.width) / 2)

/-- `center_y(other)` (`graphic.py:473-481`) -/
def centerYIn (other s : Svg) : Svg :=
  s.setY (((match other.attrs.viewBox with | some b => b.2 | none => other.height) - s.height) / 2)

/-- `center(other)` (`graphic.py:486-494`) -/
def centerIn (other s : Svg) : Svg := centerYIn other (centerXIn other s)

/-- `center(x=x, y=y)` (`graphic.py:469-471,482-484,486-494`) -/
def centerAt (p : ℚ × ℚ) (s : Svg) : Svg :=
  let s := s.setX (p.1 - s.width / 2)
  s.setY (p.2 - s.height / 2)

/-- `append` (`graphic.py:503-507`) -/
def append (s child : Svg) : Svg :=
  match s with | node t a k => node t a (k ++ [child])

/-- `extend` (`graphic.py:496-501`) -/
def extend (children : List Svg) (s : Svg) : Svg := children.foldl (fun s c => s.append c) s

mutual
/-- change the first proper descendant, in document order, that satisfies `p`; `none` if there is none -/
def updFirst (p : Svg → Bool) (f : Svg → Except Err Svg) : Svg → Option (Except Err Svg)
  | node t a k => (updFirstList p f k).map fun r => r.map fun k => node t a k
/-- the same in a list of children -/
def updFirstList (p : Svg → Bool) (f : Svg → Except Err Svg) : List Svg → Option (Except Err (List Svg))
  | [] => none
  | c :: cs =>
    if p c then some ((f c).map fun c => c :: cs)
    else match updFirst p f c with
      | some r => some (r.map fun c => c :: cs)
      | none => (updFirstList p f cs).map fun r => r.map fun cs => c :: cs
end

/-- `get_sub_svg(name, attr)` (`graphic.py:311-322`) followed by changes `f` to the element found, which is shared with the
tree. `find(".//*[@attr='name']")` is the first descendant in document order. -/
def withSub (p : Svg → Bool) (f : Svg → Except Err Svg) (s : Svg) : Except Err Svg :=
  match s.updFirst p f with
  | some r => r
  | none => .error .keyError

/-- `[@class='name']` -/
def hasClass (name : String) (s : Svg) : Bool := s.attrs.cls == some name

/-- `[@id='name']` -/
def hasId (name : Str) (s : Svg) : Bool := s.attrs.id == some name

/-- `remove(get_sub_svg(name, "class"))` (`graphic.py:509-511`) of an element that is a child of the tree; `remove` raises
`ValueError` for a deeper descendant, which cannot be told from a missing one here -/
def removeChild (p : Svg → Bool) : Svg → Except Err Svg
  | node t a k => if k.any p then .ok (node t a (k.eraseP p)) else .error .valueError

end Svg

open Svg

/-! ## the templates `clubs/render/resources/static/images/*.svg` -/

/-- `base.svg:1` -/
def baseSvg : Svg := .node "svg" { id := some "poker".toList, viewBox := some (1000, 1000) } []

/-- `table.svg:1` -/
def tableSvg : Svg := .node "rect" { cls := some "table", x := some 0, y := some 0, width := some 900, height := some 550 } []

/-- `card.svg:1-5` -/
def cardSvg : Svg := .node "svg" { cls := some "card", width := some 50, height := some 70 }
  [.node "rect" { cls := some "card-background", fill := some "url(#card-back)" } [],
   .node "text" { cls := some "card-text", x := some 7, y := some 25 } []]

/-- `player.svg:1-21` -/
def playerSvg : Svg := .node "svg" { cls := some "player", width := some 220, height := some 125 }
  [.node "rect" { cls := some "player-background", x := some 5, y := some 5, width := some 210, height := some 125 } [],
   .node "svg" { cls := some "cards", x := some 10, y := some 10 } [],
   .node "svg" { cls := some "chips", y := some 85, height := some 30 }
     [.node "rect" { cls := some "chips-background" } [], .node "text" { cls := some "chips-text", y := some 20 } []]]

/-- `street_commit.svg:1-9` -/
def streetCommitSvg : Svg := .node "svg" { cls := some "chips", width := some 100, height := some 30 }
  [.node "rect" { cls := some "chips-background" } [],
   .node "text" { cls := some "chips-text", x := some 30, y := some 20 } [],
   .node "svg" { cls := some "button", width := some 25, height := some 25, x := some (145 / 2), y := some (5 / 2) }
     [.node "rect" { cls := some "button-background", fill := some "black" } []]]

/-- the `pattern` elements of `patterns.svg:2-36`, without their drawings (which have neither class nor id) -/
def patternSvgs : List Svg :=
  [("dealer", "dealer", 25, 25), ("card-back", "card-back", 50, 70), ("card-blank", "card-blank", 50, 70),
   ("card-front", "card-club", 50, 70), ("card-front", "card-spade", 50, 70), ("card-front", "card-diamond", 50, 70),
   ("card-front", "card-heart", 50, 70)].map fun (c, i, w, h) =>
    .node "pattern" { cls := some c, id := some i.toList, width := some w, height := some h } []

/-! ## `_SVGPoker` -/

/-- an f-string such as `f"card-{label}-{card_idx}"`: its parts joined by dashes -/
def dashed : List Str → Str
  | [] => []
  | [p] => p
  | p :: q :: ps => p ++ '-' :: dashed (q :: ps)

/-- the loop body of `new_player` (`graphic.py:581-589`): the card with number `cardIdx` -/
def newCard (cards card : Svg) (label : Str) (numCards cardIdx : Nat) : Except Err Svg := do
  let cardWidth := card.width
  let new := centerXIn cards card
  let offset := (-cardWidth * numCards / 2) + cardWidth * ((cardIdx : ℚ) + 1 / 2)
  let new := new.setX (new.x + offset)
  let new := new.setId (dashed ["card".toList, label, decimal cardIdx])
  let new ← new.withSub (hasClass "card-background") fun b =>
    .ok (b.setId (dashed ["card".toList, "background".toList, label, decimal cardIdx]))
  new.withSub (hasClass "card-text") fun t =>
    .ok (t.setId (dashed ["card".toList, "text".toList, label, decimal cardIdx]))

/-- `new_player` (`graphic.py:562-591`) -/
def newPlayer (player : Svg) (label : Str) (card : Svg) (numCards : Nat) : Except Err Svg := do
  let new := player.setId label
  let new ← new.withSub (hasClass "cards") fun c => .ok (c.setId (dashed ["cards".toList, label]))
  let new ← new.withSub (hasClass "player-background") fun b =>
    .ok (b.setId (dashed ["player".toList, "background".toList, label]))
  let new ← new.withSub (hasClass "chips") fun chips => do
    let chips := chips.setId (dashed ["chips".toList, label])
    let chips ← chips.withSub (hasClass "chips-background") fun b =>
      .ok (b.setId (dashed ["chips".toList, "background".toList, label]))
    chips.withSub (hasClass "chips-text") fun t => .ok (t.setId (dashed ["chips".toList, "text".toList, label]))
  new.withSub (hasClass "cards") fun cards =>
    (List.range numCards).foldlM (fun cs i => do return cs.append (← newCard cs card label numCards i)) cards

/-- `add_players` (`graphic.py:593-629`); `seat i` is the rounded position `(round(x), round(y))` of player `i` -/
def addPlayers (player card : Svg) (seat : Nat → ℤ × ℤ) (numPlayers numHoleCards : Nat) : Except Err (List Svg) := do
  let player := player.setWidth (max player.width (card.width * numHoleCards + 20))
  let player ← player.withSub (hasClass "player-background") fun b =>
    let b := b.setWidth (player.width - 10)
    .ok (b.setHeight (b.height - 10))
  let player ← player.withSub (hasClass "cards") fun c =>
    .ok (centerXIn player (c.setWidth (numHoleCards * card.width)))
  let card ← card.withSub (hasClass "card-background") fun b =>
    .ok (b.setAttrs fun a => { a with fill := some "url(#card-back)" })
  let player ← player.withSub (hasClass "chips") fun c => .ok (centerXIn player (c.setWidth (player.width - 20)))
  (List.range numPlayers).mapM fun i => do
    let new ← newPlayer player (decimal i) card numHoleCards
    return new.centerAt ((seat i).1, (seat i).2)

/-- `add_community` (`graphic.py:631-661`) -/
def addCommunity (player card : Svg) (numCommunityCards : Nat) : Except Err Svg := do
  let community := player.setWidth (card.width * ((numCommunityCards : ℚ) + 1) + 20)
  let community ← community.withSub (hasClass "cards") fun c => .ok (c.setWidth community.width)
  let card ← card.withSub (hasClass "card-background") fun b =>
    .ok (b.setAttrs fun a => { a with fill := some "url(#card-blank)" })
  let community ← community.withSub (hasClass "cards") fun c => .ok (centerXIn community c)
  let community ← newPlayer community "community".toList card (numCommunityCards + 1)
  let community ← community.removeChild (hasClass "player-background")
  let community ← community.withSub (hasClass "chips") fun chips => do
    let chips := centerXIn community (chips.setWidth (community.width - 60))
    let chips := chips.setId "pot".toList
    let chips ← chips.withSub (hasClass "chips-background") fun b => .ok (b.setId (dashed ["pot".toList, "background".toList]))
    chips.withSub (hasClass "chips-text") fun t => .ok (t.setId (dashed ["pot".toList, "text".toList]))
  let community := community.setAttrs fun a => { a with cls := some "community" }
  community.withSub (hasId (dashed ["card".toList, "community".toList, decimal 0])) fun c => do
    let c ← c.withSub (hasClass "card-background") fun b =>
      .ok (b.setAttrs fun a => { a with fill := some "url(#card-back)" })
    return c.setX (c.x - 10)

/-- `add_street_commits` (`graphic.py:663-683`) -/
def addStreetCommits (streetCommit : Svg) (seat : Nat → ℤ × ℤ) (numPlayers : Nat) : Except Err (List Svg) :=
  (List.range numPlayers).mapM fun i => do
    let new := streetCommit.setId (dashed ["street".toList, "commit".toList, decimal i])
    let new ← new.withSub (hasClass "chips-background") fun b =>
      .ok (b.setId (dashed ["street".toList, "commit".toList, "background".toList, decimal i]))
    let new ← new.withSub (hasClass "chips-text") fun t =>
      .ok (t.setId (dashed ["street".toList, "commit".toList, "text".toList, decimal i]))
    let new ← new.withSub (hasClass "button") fun b => do
      let b := b.setId (dashed ["button".toList, decimal i])
      b.withSub (hasClass "button-background") fun g =>
        .ok (g.setId (dashed ["button".toList, "background".toList, decimal i]))
    return new.centerAt ((seat i).1, (seat i).2)

/-- `_base_svg` (`graphic.py:526-560`); `playerSeat` and `commitSeat` are the positions on the two rectangles -/
def svgPoker (playerSeat commitSeat : Nat → ℤ × ℤ) (numPlayers numHoleCards numCommunityCards : Nat) : Except Err Svg := do
  let base := baseSvg.extend patternSvgs
  let table := centerIn base tableSvg
  let base := base.append table
  let players ← addPlayers playerSvg cardSvg playerSeat numPlayers numHoleCards
  let commits ← addStreetCommits streetCommitSvg commitSeat numPlayers
  let community ← addCommunity playerSvg cardSvg numCommunityCards
  let community := centerIn table community
  let community := community.setX (community.x + table.x)
  let community := community.setY (community.y + (table.y - 40))
  return ((base.extend players).extend commits).append community

end Clubs
