import Verif.HertzFull.Model

/-!
# The greatest shear stresses: model of `slippy/contact/hertz.py`, l.653-662 and l.690-695

`scipy.optimize.minimize(f, 0.48086782, bounds=[[0, 10]])` is a parameter of the model: the point found, or `none` if it reports no success. The value found (`out.fun`) is that of the function
at the point found. `ψ` is the depth divided by the contact half width or radius.
-/

namespace Verif.HertzFull

/-- `optimize.minimize` with the starting point and the bounds of l.659 and l.691-692. -/
abbrev Minimiser := (ℝ → ℝ) → Option ℝ

/-- The function that is minimised for a point contact, l.691. -/
noncomputable def sphereObjective (v ψ : ℝ) : ℝ := -0.5 * (-1 + 3 / 2 / (1 + ψ ^ 2) + ψ * (1 + v) * Real.arctan (1 / ψ))

/-- `line_opt_fn`, l.653-657. -/
noncomputable def lineObjective (v ψ : ℝ) : ℝ :=
  -1 * max (max (ψ - ψ * v + (-1 + 2 * ψ ^ 2 * (v - 1) + 2 * v) / (2 * Real.sqrt (1 + ψ ^ 2))) (ψ * (ψ / Real.sqrt (1 + ψ ^ 2) - 1)))
    (v * (Real.sqrt (1 + ψ ^ 1) - ψ) - 1 / (2 * Real.sqrt (1 + ψ ^ 2)))

/-- `max_shear_stress_b` and `max_shear_depth_b` of one body in a point contact, l.690-695. -/
noncomputable def sphereShear (minimise : Minimiser) (a p0 v : ℝ) : Option (ℝ × ℝ) :=
  (minimise (sphereObjective v)).map fun ψ => (sphereObjective v ψ * (-1 * p0), ψ * a)

/-- `max_shear_stress_b` and `depth_of_max_shear` of one body in a line contact, l.659-662. -/
noncomputable def lineShear (minimise : Minimiser) (a p0 v : ℝ) : Option (ℝ × ℝ) :=
  (minimise (lineObjective v)).map fun ψ => (lineObjective v ψ * -1 * p0, ψ * a)

end Verif.HertzFull
