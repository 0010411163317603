import Verif.Model.Viewer

/-!
# Starting and closing the browser viewer: vocabulary for C90
-/

namespace Clubs.Spec

/-- attempt `k` is the first that is not refused -/
def FirstAnswer {α : Type} (attempt : Nat → Attempt α) (k : Nat) (a : Attempt α) : Prop :=
  attempt k = a ∧ a ≠ .refused ∧ ∀ i < k, attempt i = .refused

/-- the clock has not passed the ten seconds at any reading before attempt `k` -/
def InTime (clock : Nat → ℚ) (start : ℚ) (k : Nat) : Prop := ∀ i < k, clock i - start ≤ 10

/-- every reading is at least a hundredth of a second after the one before: the loops sleep for that time -/
def Sleeps (clock : Nat → ℚ) (start : ℚ) : Prop := start + 1 / 100 ≤ clock 0 ∧ ∀ k, clock k + 1 / 100 ≤ clock (k + 1)

/-- the ten seconds have passed at the reading after attempt `k`, not before, and everything up to there was refused -/
def TimedOut {α : Type} (attempt : Nat → Attempt α) (clock : Nat → ℚ) (start : ℚ) (k : Nat) : Prop :=
  InTime clock start k ∧ 10 < clock k - start ∧ ∀ i ≤ k, attempt i = .refused

/-- the server process of the viewer is running -/
def ViewerRuns (v : ViewerState) : Prop := v.process = some true

/-- any number of calls of `close` -/
def closeAll (v : ViewerState) (l : List Bool) : ViewerState := l.foldl (fun v b => (v.close b).1) v

end Clubs.Spec
