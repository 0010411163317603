import Verif.Model.Engine

/-!
# `clubs/render/ascii_viewer.py`

Python strings are lists of characters.
-/

namespace Clubs

/-- A Python string -/
abbrev Str := List Char

/-! ## `str.format` -/

/-- decimal digits of a natural number (`str(n)`) -/
def decimal (n : Nat) : Str := Nat.toDigits 10 n

/-- `str(i)` of an int -/
def intStr (i : Int) : Str := if i < 0 then '-' :: decimal i.natAbs else decimal i.natAbs

/-- put a comma in front of every group of three digits counted from the right; the argument is the
reversed digit string -/
def groupRev : Str → Str
  | a :: b :: c :: d :: rest => a :: b :: c :: ',' :: groupRev (d :: rest)
  | l => l

/-- `"{:,}".format(i)`: thousands separators (`ascii_viewer.py:121,133,141,161,168,174`) -/
def commaFmt (i : Int) : Str :=
  let digits := (groupRev (decimal i.natAbs).reverse).reverse
  if i < 0 then '-' :: digits else digits

/-- Alignment in a format specification -/
inductive Align
  | left | right | center
  deriving DecidableEq, Repr

/-- `format(s, spec)` for alignment and minimal width: pad with spaces; for centring the extra space
goes to the right. -/
def pad (al : Align) (w : Nat) (s : Str) : Str :=
  let k := w - s.length
  match al with
  | .left => s ++ List.replicate k ' '
  | .right => List.replicate k ' ' ++ s
  | .center => List.replicate (k / 2) ' ' ++ s ++ List.replicate (k - k / 2) ' '

/-- `sep.join(parts)` -/
def join (sep : Str) : List Str → Str
  | [] => []
  | [s] => s
  | s :: ss => s ++ sep ++ join sep ss

/-! ## the table template -/

/-- A piece of the template: literal text or a replacement field `{key:spec}`. -/
inductive Seg
  | lit (s : String)
  | field (key : String) (al : Align) (width : Nat)
  deriving DecidableEq, Repr

/-- `clubs/render/ascii_table.txt:1-19`, read at `ascii_viewer.py:95-96` -/
def TABLE : List Seg :=
  [.lit "       _____________________________________________________\n      /  ",
   .field "p0" .left 23, .lit "   ", .field "p1" .right 23, .lit "  \\\n     /   ",
   .field "p0c" .left 7, .lit "   ", .field "b0" .left 2, .lit " ", .field "a0" .left 1,
   .lit "                     ", .field "a1" .left 1, .lit " ", .field "b1" .left 2, .lit "   ",
   .field "p1c" .right 7,
   .lit "   \\\n    /                                                         \\\n   /  ",
   .field "p9" .left 23, .lit "         ", .field "p2" .right 23, .lit "  \\\n  /   ",
   .field "p9c" .left 7, .lit "   ", .field "b9" .left 2, .lit " ", .field "a9" .left 1,
   .lit "                           ", .field "a2" .left 1, .lit " ", .field "b2" .left 2,
   .lit "   ", .field "p2c" .right 7,
   .lit "   \\\n /                                                               \\\n|  ",
   .field "p8" .left 23, .lit "               ", .field "p3" .right 23, .lit "  |\n|   ",
   .field "p8c" .left 7, .lit "   ", .field "b8" .left 2, .lit " ", .field "a8" .left 1,
   .lit "                               ", .field "a3" .left 1, .lit " ", .field "b3" .left 2,
   .lit "   ", .field "p3c" .right 7, .lit "   |\n|              ", .field "ccs" .center 16,
   .lit "          ", .field "pot" .right 9,
   .lit "                |\n|                                                                 |\n \\  ",
   .field "p7" .left 23, .lit "             ", .field "p4" .right 23, .lit "  /\n  \\   ",
   .field "p7c" .left 7, .lit "   ", .field "b7" .left 2, .lit " ", .field "a7" .left 1,
   .lit "                           ", .field "a4" .left 1, .lit " ", .field "b4" .left 2,
   .lit "   ", .field "p4c" .right 7,
   .lit "   /\n   \\                                                           /\n    \\  ",
   .field "p6" .left 23, .lit "       ", .field "p5" .right 23, .lit "  /\n     \\   ",
   .field "p6c" .left 7, .lit "   ", .field "b6" .left 2, .lit " ", .field "a6" .left 1,
   .lit "                     ", .field "a5" .left 1, .lit " ", .field "b5" .left 2, .lit "   ",
   .field "p5c" .right 7,
   .lit "   /\n      \\_____________________________________________________/\n",
   .field "action" .center 67, .lit "\n", .field "win" .center 67]

/-- `RenderConfig` (`viewer.py:12-24`) -/
structure RenderConfig where
  action : Option Nat
  active : List Bool
  allIn : List Bool
  communityCards : List Card
  button : Nat
  done : Bool
  holeCards : List (List Card)
  pot : Int
  payouts : List Int
  prevAction : Option (Nat × Int × Bool)
  streetCommits : List Int
  stacks : List Int

/-- `Dealer._render_config` (`engine.py:431-462`) -/
def Dealer.renderConfig (d : Dealer) : Except Err RenderConfig :=
  match d.payouts with
  | .error e => .error e
  | .ok payouts => .ok {
      action := d.action
      active := d.active
      allIn := List.zipWith (fun (active : Bool) stack => active && stack == 0) d.active d.stacks
      communityCards := d.communityCards
      button := d.button
      done := d.done.all id
      holeCards := d.holeCards
      pot := d.pot
      payouts
      prevAction := d.history.getLast?
      streetCommits := d.streetCommits
      stacks := d.stacks }

/-- An `ASCIIViewer` (`ascii_viewer.py:82-98`) -/
structure Viewer where
  numHoleCards : Int
  numCommunityCards : Int
  playerPos : List Nat

/-- The number printed for the acting player: `config["action"] + 1` -/
def actionNumber (a : Option Nat) : Int :=
  match a with
  | some a => (a : Int) + 1
  | none => 0

/-- `_parse_action_string` (`ascii_viewer.py:8-26`) -/
def parseActionString (c : RenderConfig) (done : Bool) : Str :=
  if done then []
  else
    let prev : Str := match c.prevAction with
      | none => []
      | some (player, bet, fold) =>
        let action : Str :=
          if fold then "folded ".toList
          else if bet ≠ 0 then "bet ".toList ++ intStr bet ++ " ".toList
          else "checked ".toList
        "Player ".toList ++ intStr (player + 1) ++ " ".toList ++ action
    prev ++ "Action on Player ".toList ++ intStr (actionNumber c.action)

/-- The lists `players` and `payouts` of `ascii_viewer.py:37-42`, as pairs. -/
def winners (payouts : List Int) : List (Nat × Int) :=
  payouts.zipIdx.filterMap fun (payout, player) =>
    if payout > 0 then some (player + 1, payout) else none

/-- `_parse_win_string` (`ascii_viewer.py:29-45`) -/
def parseWinString (c : RenderConfig) (done : Bool) : Str :=
  if done then
    let ws := winners c.payouts
    let players := join ", ".toList (ws.map fun w => intStr w.1)
    let payouts := join ", ".toList (ws.map fun w => intStr w.2)
    if (c.payouts.filter fun p => decide (p > 0)).length > 1 then
      "Players ".toList ++ players ++ " won ".toList ++ payouts ++ " respectively".toList
    else "Player ".toList ++ players ++ " won ".toList ++ payouts
  else []

/-- One entry of `_parse_players` (`ascii_viewer.py:156-175`) -/
def playerString (v : Viewer) (done : Bool) (action : Option Nat) (idx : Nat)
    (hand : List Card) (stack : Int) (active : Bool) : Str :=
  let front := pad .right 2 (intStr (idx + 1)) ++ ". ".toList
  let back := " ".toList ++ commaFmt stack
  if !active then
    front ++ join ",".toList (List.replicate v.numHoleCards.toNat "--".toList) ++ back
  else if done ∨ some idx = action then
    front ++ join ",".toList (hand.map Card.str) ++ back
  else front ++ join ",".toList (List.replicate v.numHoleCards.toNat "??".toList) ++ back

/-- `ASCIIViewer._parse_players` (`ascii_viewer.py:151-176`) -/
def parsePlayers (v : Viewer) (c : RenderConfig) (done : Bool) (action : Option Nat) : List Str :=
  (c.holeCards.zip (c.stacks.zip c.active)).zipIdx.map fun ((hand, stack, active), idx) =>
    playerString v done action idx hand stack active

/-- `str_config`, newest entry first. A key of `KEYS` (`ascii_viewer.py:74-80`) that was not assigned
is the empty string. -/
abbrev StrConfig := List (String × Str)

/-- The value of a field -/
def StrConfig.get (s : StrConfig) (key : String) : Str := (List.lookup key s).getD []

/-- The seat positions of `ascii_viewer.py:105`; `player_pos` has `num_players` elements. -/
def Viewer.pos (v : Viewer) (i : Nat) : Nat := v.playerPos.getD i 0

/-- The assignments `ascii_viewer.py:131-135` for one seat -/
def seatEntries (done : Bool) (player : Str) (commit : Int) (pos : Nat) (allIn : Bool) : StrConfig :=
  (if allIn && !done then [("a" ++ toString pos, "A".toList)] else []) ++
    [("p" ++ toString pos ++ "c", commaFmt commit), ("p" ++ toString pos, player)]

/-- `str_config` at `ascii_viewer.py:147`. `player_pos[action]` with `action = -1` is the last
position. -/
def strConfig (v : Viewer) (c : RenderConfig) : StrConfig :=
  let done := c.done
  let players := parsePlayers v c done c.action
  let ccs := c.communityCards.map Card.str
  let ccs := ccs ++ List.replicate (v.numCommunityCards - ccs.length).toNat "--".toList
  let s : StrConfig := [("ccs", "[".toList ++ join ",".toList ccs ++ "]".toList)]
  let s : StrConfig :=
    if !done then
      ("a" ++ toString (v.pos (c.action.getD (v.playerPos.length - 1))), "X".toList) ::
        ("pot", commaFmt c.pot) :: s
    else ("pot", "0".toList) :: s
  let s : StrConfig := ("b" ++ toString (v.pos c.button), "D ".toList) :: s
  let s := (players.zip (c.streetCommits.zip (v.playerPos.zip c.allIn))).foldl
    (fun s (player, commit, pos, allIn) => seatEntries done player commit pos allIn ++ s) s
  let s :=
    if done then
      (c.payouts.zip v.playerPos).foldl
        (fun s (payout, pos) => ("p" ++ toString pos ++ "c", commaFmt payout) :: s) s
    else s
  ("win", parseWinString c done) :: ("action", parseActionString c done) :: s

/-- `table.format(**str_config)` (`ascii_viewer.py:147`) -/
def formatTable (s : StrConfig) : List Seg → Str
  | [] => []
  | .lit t :: segs => t.toList ++ formatTable s segs
  | .field key al w :: segs => pad al w (s.get key) ++ formatTable s segs

/-- `ASCIIViewer._parse_string` (`ascii_viewer.py:100-149`) -/
def parseString (v : Viewer) (c : RenderConfig) : Str := formatTable (strConfig v c) TABLE

/-- `self.ascii_viewer` as created at `engine.py:232-234` -/
def Dealer.viewer (d : Dealer) : Viewer :=
  { numHoleCards := d.cfg.numHoleCards
    numCommunityCards := d.cfg.numCommunityCards.sum
    playerPos := (dictGet POS_DICT d.cfg.numPlayers).getD [] }

/-- `Dealer.__str__` (`engine.py:236-238`), also what `render(mode="ascii")` prints
(`ascii_viewer.py:211-212`). -/
def Dealer.str (d : Dealer) : Except Err Str :=
  match d.renderConfig with
  | .error e => .error e
  | .ok c => .ok (parseString d.viewer c)

end Clubs
