import Verif.Model.Numpy
import Verif.Model.Render

/-!
# `engine_numpy.py`: `__str__` and `render`

The viewers are those of the other engine (`Model/Ascii`, `Model/Render`). They get the number of the button as it is, which here can be larger than the
last seat; `player_pos[button]` (`ascii_viewer.py:127`) then raises `IndexError`.
-/

namespace Clubs.Numpy

/-- `_render_config` (`engine_numpy.py:420-448`) -/
def renderConfig (d : Dealer) : Except Err RenderConfig :=
  match payouts d with
  | .error e => .error e
  | .ok pays => .ok {
      action := d.action
      active := d.active
      allIn := List.zipWith (fun (active : Bool) stack => active && stack == 0) d.active d.stacks
      communityCards := d.communityCards
      button := d.button
      done := (done d).all id
      holeCards := d.holeCards
      pot := d.pot
      payouts := pays
      prevAction := d.history.getLast?
      streetCommits := d.streetCommits
      stacks := d.stacks }

/-- `ASCIIViewer._parse_string` (`ascii_viewer.py:100-149`) for any numbers of the seat to act and of the button: `player_pos[action]`
(`ascii_viewer.py:122`, only if the hand is not over) and `player_pos[button]` (`ascii_viewer.py:127`) can raise -/
def parseAny (v : Viewer) (c : RenderConfig) : Except Err Str :=
  if !c.done && (match c.action with | some a => decide (v.playerPos.length ≤ a) | none => false) then .error .indexError
  else if v.playerPos.length ≤ c.button then .error .indexError
  else .ok (parseString v c)

/-- `__str__` (`engine_numpy.py:233-235`), also what `render(mode="ascii")` prints; the viewer is made as at `engine_numpy.py:228-230` -/
def str (d : Dealer) : Except Err Str :=
  match renderConfig d with
  | .error e => .error e
  | .ok c => parseAny d.viewer c

/-- `self.viewer.render(config)` (`ascii_viewer.py:211-212`, `graphic.py:183`) -/
def «show» (d : Dealer) : ViewerKind → Except Err Shown
  | .ascii => match renderConfig d with
    | .error e => .error e
    | .ok c => match parseAny d.viewer c with
      | .error e => .error e
      | .ok s => .ok (.printed s)
  | .graphic => match renderConfig d with
    | .error e => .error e
    | .ok c => .ok (.sent (jsonify c))

/-- `render` (`engine_numpy.py:450-480`): the same as `engine.py:464-494` -/
def render (d : Dealer) (viewer : Option ViewerKind) (start : Except Err Unit) (mode : String) :
    Option ViewerKind × Except Err Shown :=
  match viewer with
  | some v => (some v, «show» d v)
  | none =>
    if mode = "ascii" then (some .ascii, «show» d .ascii)
    else if mode = "human" then
      match start with
      | .error e => (none, .error e)
      | .ok () => (some .graphic, «show» d .graphic)
    else (none, .error .invalidRenderMode)

end Clubs.Numpy
