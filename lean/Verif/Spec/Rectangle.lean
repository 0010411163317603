import Mathlib.Data.Real.Basic

/-!
# The border of a rectangle with round ends

Used for the positions of the players around the table in the browser.
-/

namespace Clubs.Spec

/-- The point `p` is on the border of the rectangle of the given width and height around the point `c`, whose left and
right sides are half circles: above or below the straight part it is half the height away from the axis, beside it half the
height away from the end of the axis. -/
def OnBorder (c : ℝ × ℝ) (width height : ℝ) (p : ℝ × ℝ) : Prop :=
  (|p.1 - c.1| ≤ (width - height) / 2 ∧ |p.2 - c.2| = height / 2) ∨
  ((width - height) / 2 ≤ |p.1 - c.1| ∧
    (|p.1 - c.1| - (width - height) / 2) ^ 2 + (p.2 - c.2) ^ 2 = (height / 2) ^ 2)

/-- The point `p` is strictly inside that border. -/
def Inside (c : ℝ × ℝ) (width height : ℝ) (p : ℝ × ℝ) : Prop :=
  (|p.1 - c.1| ≤ (width - height) / 2 ∧ |p.2 - c.2| < height / 2) ∨
  ((width - height) / 2 ≤ |p.1 - c.1| ∧
    (|p.1 - c.1| - (width - height) / 2) ^ 2 + (p.2 - c.2) ^ 2 < (height / 2) ^ 2)

/-- The point `p` is strictly outside that border. -/
def Outside (c : ℝ × ℝ) (width height : ℝ) (p : ℝ × ℝ) : Prop :=
  (|p.1 - c.1| ≤ (width - height) / 2 ∧ height / 2 < |p.2 - c.2|) ∨
  ((width - height) / 2 ≤ |p.1 - c.1| ∧
    (height / 2) ^ 2 < (|p.1 - c.1| - (width - height) / 2) ^ 2 + (p.2 - c.2) ^ 2)

end Clubs.Spec
