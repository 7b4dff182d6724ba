import Mathlib.MeasureTheory.Integral.IntervalIntegral.Basic
import Mathlib.Analysis.SpecialFunctions.Trigonometric.Basic

/-!
# Hertz's elliptical contact

The displacement into the surface of a half space under the pressure `p0 sqrt(1 - (x/a)² - (y/b)²)`, `b < a`: K. L. Johnson, Contact Mechanics,
the equations 3.61 to 3.63. The elliptic integrals have the eccentricity as their modulus.
-/

namespace Verif.Ellipse.Spec

open Real

/-- The complete elliptic integral of the first kind with the modulus `e`. -/
noncomputable def K (e : ℝ) : ℝ := ∫ t in (0 : ℝ)..(π / 2), (√(1 - e ^ 2 * sin t ^ 2))⁻¹

/-- The complete elliptic integral of the second kind with the modulus `e`. -/
noncomputable def E (e : ℝ) : ℝ := ∫ t in (0 : ℝ)..(π / 2), √(1 - e ^ 2 * sin t ^ 2)

/-- The eccentricity of the ellipse. -/
noncomputable def ecc (a b : ℝ) : ℝ := √(1 - b ^ 2 / a ^ 2)

/-- Johnson's coefficients. -/
noncomputable def L (a b p0 : ℝ) : ℝ := π * p0 * b * K (ecc a b)

noncomputable def M (a b p0 : ℝ) : ℝ := π * p0 * b / (ecc a b ^ 2 * a ^ 2) * (K (ecc a b) - E (ecc a b))

noncomputable def N (a b p0 : ℝ) : ℝ :=
  π * p0 * b / (ecc a b ^ 2 * a ^ 2) * (a ^ 2 / b ^ 2 * E (ecc a b) - K (ecc a b))

/-- The displacement of the surface of a body with the Poisson ratio `v` and Young's modulus `young`, inside of the ellipse. -/
noncomputable def displacement (a b p0 v young x y : ℝ) : ℝ :=
  (1 - v ^ 2) / (π * young) * (L a b p0 - M a b p0 * x ^ 2 - N a b p0 * y ^ 2)

/-- Hertz's condition: inside of the ellipse the two displacements close the gap between two bodies with the principal relative curvatures `μ`
(along x) and `κ` (along y), pressed together by `δ`. -/
def Closes (a b p0 v1 young1 v2 young2 κ μ δ : ℝ) : Prop :=
  ∀ x y, (x / a) ^ 2 + (y / b) ^ 2 < 1 →
    displacement a b p0 v1 young1 x y + displacement a b p0 v2 young2 x y = δ - (μ / 2 * x ^ 2 + κ / 2 * y ^ 2)

end Verif.Ellipse.Spec
