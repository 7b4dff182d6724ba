import Mathlib.MeasureTheory.Integral.IntervalIntegral.Basic
import Mathlib.Analysis.Real.Sqrt
import Mathlib.Analysis.SpecialFunctions.Trigonometric.Basic

/-!
# Specification for C85 to C87: surface displacements of an elastic half space

Point loads on the surface (Boussinesq and Cerruti; K. L. Johnson, Contact Mechanics, eq. 3.18-3.19 and 3.75), and a uniform load on one cell of the grid.
-/

namespace Verif.Bouss

open Real

noncomputable section

/-- The displacement in the direction `a` at the point `(s, t)` under a unit load at the origin in the direction `b` (`z` into the body), shear modulus `G` and
Poisson's ratio `v`. -/
def pointLoad (G v : ℝ) (a b : Char) (s t : ℝ) : ℝ :=
  let r := √(s ^ 2 + t ^ 2)
  match a, b with
  | 'z', 'z' => (1 - v) / (2 * π * G) * (1 / r)
  | 'x', 'z' => -((1 - 2 * v) / (4 * π * G) * (s / r ^ 2))
  | 'y', 'z' => -((1 - 2 * v) / (4 * π * G) * (t / r ^ 2))
  | 'x', 'x' => 1 / (2 * π * G) * ((1 - v) * (1 / r) + v * (s ^ 2 / r ^ 3))
  | 'y', 'x' => v / (2 * π * G) * (s * t / r ^ 3)
  | 'z', 'x' => (1 - 2 * v) / (4 * π * G) * (s / r ^ 2)
  | 'y', 'y' => 1 / (2 * π * G) * ((1 - v) * (1 / r) + v * (t ^ 2 / r ^ 3))
  | 'x', 'y' => v / (2 * π * G) * (s * t / r ^ 3)
  | 'z', 'y' => (1 - 2 * v) / (4 * π * G) * (t / r ^ 2)
  | _, _ => 0

/-- The field `f` of a point load, integrated over a cell of size `hx` by `hy` with a unit pressure, at the node `(x, y)`. -/
def cell (f : ℝ → ℝ → ℝ) (hx hy : ℝ) (x y : ℤ) : ℝ :=
  ∫ η in (-(hy / 2))..(hy / 2), ∫ ξ in (-(hx / 2))..(hx / 2), f (x * hx - ξ) (y * hy - η)

end

end Verif.Bouss
