import Verif.Model.Render
import Mathlib.Algebra.Order.Field.Rat

/-!
# Model of the life of a `GraphicViewer`: `clubs/render/graphic.py:28-104`

What the surroundings do is a parameter: whether the packages are installed, the outcomes of the attempts to connect, the readings of
`time.time()` (exact rationals instead of floats), and the outcome of sending. The number of iterations of the two waiting loops is bounded by
fuel; `none` means that the loop is still running.
-/

namespace Clubs

/-- the exceptions that leave the methods of a viewer; `other` is any exception that the loops do not catch -/
inductive ViewerErr
  | missingImports | renderInitialization | assertion | attribute | send | other
  deriving DecidableEq

/-- the outcome of one attempt to connect: success, an exception that is caught (`ConnectionRefusedError`, `OSError` at `graphic.py:69`,
`URLError` at `graphic.py:84`), or another one -/
inductive Attempt (α : Type)
  | ok (a : α)
  | refused
  | raised

/-- the loop of `_test_socket_conn` and of `_test_flask_conn` (`graphic.py:65-75`, `graphic.py:80-90`) from attempt `k` on, `start` is the
time at which it began, `clock k` the time that is read after the failed attempt `k` (and after sleeping) -/
def waitLoop {α : Type} (attempt : Nat → Attempt α) (clock : Nat → ℚ) (start : ℚ) : (fuel k : Nat) → Option (Except ViewerErr α)
  | 0, _ => none
  | fuel + 1, k => match attempt k with
    | .ok a => some (.ok a)
    | .raised => some (.error .other)
    | .refused => if clock k - start > 10 then some (.error .renderInitialization) else waitLoop attempt clock start fuel (k + 1)

/-- the surroundings of a start: installed packages (`graphic.py:18-24`), and for both loops the time of the start, the later readings of
the clock and the outcomes of the attempts. A connection to the web server has a status. -/
structure Surroundings where
  installed : Bool
  socketStart : ℚ
  socketClock : Nat → ℚ
  socketTry : Nat → Attempt Unit
  flaskStart : ℚ
  flaskClock : Nat → ℚ
  flaskTry : Nat → Attempt Nat

/-- the attributes of a viewer that matter: `self.process`, with whether it is alive, and whether `self.socket` has been set. An attribute
that has not been set is `none` (or `false`). -/
structure ViewerState where
  process : Option Bool
  socket : Bool
  deriving DecidableEq

/-- `GraphicViewer.__init__` (`graphic.py:28-61`): the attributes at the end, next to the result. Choosing the port and building the picture are
left out. -/
def startViewer (w : Surroundings) (fuel : Nat) : Option (ViewerState × Except ViewerErr Unit) :=
  if !w.installed then some (⟨none, false⟩, .error .missingImports)
  else match waitLoop w.socketTry w.socketClock w.socketStart fuel 0 with
    | none => none
    | some (.error e) => some (⟨some true, false⟩, .error e)
    | some (.ok ()) => match waitLoop w.flaskTry w.flaskClock w.flaskStart fuel 0 with
      | none => none
      | some (.error e) => some (⟨some true, true⟩, .error e)
      | some (.ok status) => if status = 200 then some (⟨some true, true⟩, .ok ()) else some (⟨some true, true⟩, .error .assertion)

/-- `close` (`graphic.py:94-98`). `sends` says whether `self.socket.send` works. `terminate` and `join` end the process. -/
def ViewerState.close (v : ViewerState) (sends : Bool) : ViewerState × Except ViewerErr Unit :=
  match v.process with
  | none => (v, .error .attribute)
  | some false => (v, .ok ())
  | some true =>
    if !v.socket then (v, .error .attribute)
    else if !sends then (v, .error .send)
    else ({ v with process := some false }, .ok ())

/-- `__del__` (`graphic.py:100-101`): Python ignores exceptions here -/
def ViewerState.del (v : ViewerState) (sends : Bool) : ViewerState := (v.close sends).1

/-- A sequence of calls of `Dealer.render(mode="human")` (`engine.py:464-494`) that start a viewer as long as none has been started: the viewers
that were given up, after their `__del__`, and the one that is kept. -/
def startAll : List (Surroundings × Nat × Bool) → Option (List ViewerState × Option ViewerState)
  | [] => some ([], none)
  | (w, fuel, sends) :: l => match startViewer w fuel with
    | none => none
    | some (v, .ok ()) => some ([], some v)
    | some (v, .error _) => match startAll l with
      | none => none
      | some (vs, kept) => some (v.del sends :: vs, kept)

end Clubs
