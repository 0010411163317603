import Verif.Conform.Run
import Verif.Model.Strings

/-!
# The project's tests of the text view, on the model

`/repo/test/test_render/test_ascii.py`, `test_ascii` of `/repo/test/test_engine/test_render.py`, `test_str_repr` of
`/repo/test/test_engine/test_misc.py`, and the template file. These are tests of the model, not proofs about it.
-/

namespace Clubs.Conform

/-- a piece of the template as it is written in the file -/
def rawSeg : Seg → String
  | .lit t => t
  | .field key al w => "{" ++ key ++ ":" ++ (match al with | .left => "" | .right => ">" | .center => "^") ++ toString w ++ "}"

/-- `clubs/render/ascii_table.txt:1-19` -/
def asciiTable : String :=
  "       _____________________________________________________\n" ++
  "      /  {p0:23}   {p1:>23}  \\\n" ++
  "     /   {p0c:7}   {b0:2} {a0:1}                     {a1:1} {b1:2}   {p1c:>7}   \\\n" ++
  "    /                                                         \\\n" ++
  "   /  {p9:23}         {p2:>23}  \\\n" ++
  "  /   {p9c:7}   {b9:2} {a9:1}                           {a2:1} {b2:2}   {p2c:>7}   \\\n" ++
  " /                                                               \\\n" ++
  "|  {p8:23}               {p3:>23}  |\n" ++
  "|   {p8c:7}   {b8:2} {a8:1}                               {a3:1} {b3:2}   {p3c:>7}   |\n" ++
  "|              {ccs:^16}          {pot:>9}                |\n" ++
  "|                                                                 |\n" ++
  " \\  {p7:23}             {p4:>23}  /\n" ++
  "  \\   {p7c:7}   {b7:2} {a7:1}                           {a4:1} {b4:2}   {p4c:>7}   /\n" ++
  "   \\                                                           /\n" ++
  "    \\  {p6:23}       {p5:>23}  /\n" ++
  "     \\   {p6c:7}   {b6:2} {a6:1}                     {a5:1} {b5:2}   {p5c:>7}   /\n" ++
  "      \\_____________________________________________________/\n" ++
  "{action:^67}\n" ++
  "{win:^67}"

#guard String.join (TABLE.map rawSeg) = asciiTable

/- `test_init` (`test_ascii.py:7-9`) -/
#guard asciiTable.length = 1061

/- `test_str_repr` (`test_misc.py:140-151`), without `repr`, which has the address in it -/
#guard (do
    let d ← Dealer.new NO_LIMIT_HOLDEM_TWO_PLAYER id
    return (← d.str).length) = .ok 1242

/-- whether one text is part of another one -/
def isPart (s : List Char) : List Char → Bool
  | [] => s.isEmpty
  | c :: t => s.isPrefixOf (c :: t) || isPart s t

/-- the viewer of `test_ascii.py` -/
def twoSeats : Viewer := { numHoleCards := 2, numCommunityCards := 5, playerPos := [0, 5] }

/-- the dictionary of `test_ascii.py:16-32` -/
def asciiConfig : Except Err RenderConfig := do
  return {
    action := some 0, active := [true, true], allIn := [false, false], communityCards := [], button := 0, done := false
    holeCards := [← mkCards [('A', 'h'), ('A', 'd')], ← mkCards [('K', 'h'), ('K', 'd')]]
    pot := 10, payouts := [0, 0], prevAction := some (1, 10, false), streetCommits := [10, 20], «stacks» := [100, 100] }

/-- the text shows all of these and none of those -/
def shows (v : Viewer) (c : Except Err RenderConfig) (l m : List String) : Except Err Bool := do
  let s := parseString v (← c)
  return (l.all fun x => isPart x.toList s) && (m.all fun x => !isPart x.toList s)

/- `test_render` (`test_ascii.py:12-148`), in the order of the test -/
#guard shows twoSeats asciiConfig ["A♥", "A♦", "??", "20"] ["K♥", "K♦"] = .ok true
#guard shows twoSeats (asciiConfig.map fun c => { c with active := [true, false] }) ["A♥", "A♦", "20"] ["??"] = .ok true
#guard shows twoSeats (asciiConfig.map fun c => { c with allIn := [false, true] }) ["A♥", "A♦", "20", "A"] ["K♥", "K♦"] = .ok true
#guard shows twoSeats (asciiConfig.map fun c => { c with prevAction := some (1, 200, false) })
  ["A♥", "A♦", "20", "Player 2 bet 200 Action on Player 1"] ["K♥", "K♦"] = .ok true
#guard shows twoSeats (asciiConfig.map fun c => { c with prevAction := some (1, 0, true) })
  ["A♥", "A♦", "20", "Player 2 folded Action on Player 1"] ["K♥", "K♦"] = .ok true
#guard shows twoSeats (asciiConfig.map fun c => { c with prevAction := some (1, 0, false) })
  ["A♥", "A♦", "20", "Player 2 checked Action on Player 1"] ["K♥", "K♦"] = .ok true
#guard shows twoSeats (asciiConfig.map fun c => { c with prevAction := none, payouts := [2, 2], done := true })
  ["A♥", "A♦", "K♥", "K♦", "Players 1, 2 won 2, 2 respectively"] [] = .ok true
#guard shows twoSeats (asciiConfig.map fun c => { c with prevAction := none, payouts := [10, 0], done := true })
  ["A♥", "A♦", "K♥", "K♦", "Player 1 won 10"] [] = .ok true

/- `test_ascii` (`test_render.py:47-61`): the table of the fixture (`test_render.py:18-42`) at six seats -/
#guard shows { numHoleCards := 2, numCommunityCards := 5, playerPos := [0, 1, 3, 5, 6, 8] }
  (asciiConfig.map fun c => { c with holeCards := [c.holeCards.getD 0 [], []], «stacks» := [200, 200] })
  ["A♥,A♦ 200", "??", "Action on Player 1"] [] = .ok true

end Clubs.Conform
