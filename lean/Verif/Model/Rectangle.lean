import Mathlib.Analysis.SpecialFunctions.Trigonometric.Basic

/-!
# `clubs/render/graphic.py`: `_RoundedRectangle`

Floating-point numbers are modelled by real numbers, without rounding errors. `edge` is modelled before its final
`round(·, 2)` (`graphic.py:267`), which is part of `place`.
-/

namespace Clubs

/-- An instance of `_RoundedRectangle` (`graphic.py:223-230`). `width` and `height` are changed after construction
(`graphic.py:541-547`), the centre is not. -/
structure RoundedRectangle where
  x : ℝ
  y : ℝ
  width : ℝ
  height : ℝ
  centerX : ℝ
  centerY : ℝ

namespace RoundedRectangle

/-- `__init__` (`graphic.py:224-230`) -/
noncomputable def new (x y width height : ℝ) : RoundedRectangle :=
  { x, y, width, height, centerX := width * 0.5, centerY := height * 0.5 }

/-- `radius_height` (`graphic.py:269-271`) -/
noncomputable def radiusHeight (R : RoundedRectangle) : ℝ := R.height * 0.5

/-- `circle_perimeter` (`graphic.py:273-275`) -/
noncomputable def circlePerimeter (R : RoundedRectangle) : ℝ := Real.pi * R.height

/-- `straight_width` (`graphic.py:277-279`) -/
noncomputable def straightWidth (R : RoundedRectangle) : ℝ := R.width - R.height

/-- `perimeter` (`graphic.py:281-283`) -/
noncomputable def perimeter (R : RoundedRectangle) : ℝ := R.straightWidth * 2 + 2 * Real.pi * R.radiusHeight

open Classical in
/-- the five branches of `edge` (`graphic.py:234-264`); `frac` is already taken modulo 1 -/
noncomputable def offset (R : RoundedRectangle) (frac : ℝ) : ℝ × ℝ :=
  let p := frac * R.perimeter
  if p < R.straightWidth * 0.5 then (-p, R.radiusHeight)
  else if p < R.straightWidth * 0.5 + R.circlePerimeter * 0.5 then
    let circleFrac := (p - R.straightWidth * 0.5) / (R.circlePerimeter * 0.5)
    let angle := Real.pi * 0.5 + Real.pi * circleFrac
    (R.radiusHeight * Real.cos angle - R.straightWidth * 0.5, R.radiusHeight * Real.sin angle)
  else if p < R.straightWidth * 1.5 + R.circlePerimeter * 0.5 then
    let straightFrac := (p - R.straightWidth * 0.5 - R.circlePerimeter * 0.5) / R.straightWidth
    ((straightFrac - 0.5) * R.straightWidth, -R.radiusHeight)
  else if p < R.straightWidth * 1.5 + R.circlePerimeter then
    let circleFrac := (p - R.straightWidth * 1.5 + R.circlePerimeter * 0.5) / (R.circlePerimeter * 0.5)
    let angle := Real.pi * 1.5 + Real.pi * circleFrac
    (R.radiusHeight * Real.cos angle + R.straightWidth * 0.5, R.radiusHeight * Real.sin angle)
  else if frac ≤ 1 then
    let straightFrac := (p - R.straightWidth * 1.5 - R.circlePerimeter) / R.straightWidth
    ((-straightFrac + 0.5) * R.straightWidth, R.radiusHeight)
  else (0, 0)

/-- `edge` (`graphic.py:232-267`). `frac % 1` is the fractional part. -/
noncomputable def edge (R : RoundedRectangle) (frac : ℝ) : ℝ × ℝ :=
  let o := R.offset (Int.fract frac)
  (o.1 + (R.centerX + R.x), o.2 + (R.centerY + R.y))

open Classical in
/-- `round(x)` of a real number: the nearest integer, halves to the even neighbour. -/
noncomputable def roundReal (x : ℝ) : ℤ :=
  if Int.fract x < 1 / 2 then ⌊x⌋
  else if 1 / 2 < Int.fract x then ⌊x⌋ + 1
  else if ⌊x⌋ % 2 = 0 then ⌊x⌋ else ⌊x⌋ + 1

/-- `round(x, 2)` -/
noncomputable def roundCents (x : ℝ) : ℝ := (roundReal (100 * x) : ℝ) / 100

/-- A point rounded to two decimals (`graphic.py:267`) and then to integers (`graphic.py:623-627`, `664-681`). -/
noncomputable def pixel (p : ℝ × ℝ) : ℤ × ℤ := (roundReal (roundCents p.1), roundReal (roundCents p.2))

/-- Where the element of seat `i` of `n` is centred: `edge(player_idx / self.num_players)`, rounded
(`graphic.py:623-627`, `664-681`). -/
noncomputable def place (R : RoundedRectangle) (n i : ℕ) : ℤ × ℤ := pixel (R.edge ((i : ℝ) / n))

end RoundedRectangle

/-- `table.svg` (`resources/static/images/table.svg:1`) centred in `base.svg` (`graphic.py:535`, viewBox 1000 by
1000) -/
noncomputable def tableRectangle : RoundedRectangle := .new ((1000 - 900) / 2) ((1000 - 550) / 2) 900 550

/-- `player_rectangle` (`graphic.py:538-542`) -/
noncomputable def playerRectangle : RoundedRectangle :=
  { tableRectangle with width := tableRectangle.width + 100, height := tableRectangle.height + 100 }

/-- `street_commit_rectangle` (`graphic.py:543-547`) -/
noncomputable def commitRectangle : RoundedRectangle :=
  { tableRectangle with width := tableRectangle.width - 225, height := tableRectangle.height - 185 }

end Clubs
