import Mathlib.Analysis.SpecialFunctions.Pow.Real
import Mathlib.Analysis.SpecialFunctions.Log.Basic

/-!
# Viscosity and density laws: model of `slippy/contact/lubricant_models.py`

The closures are functions of one pressure (numpy applies them item by item). Numbers are real numbers: `x ** z` is `Real.rpow`, which
agrees with numpy for a positive base. Divisions by zero and logarithms of numbers that are not positive are excluded by hypotheses of
the theorems.
-/

namespace Verif.Fluid

/-- `roelands`, l.71-76. -/
noncomputable def roelands (eta0 pressure0 z pressure : ℝ) : ℝ :=
  let lnEta0 := Real.log eta0 + 9.67
  eta0 * Real.exp (lnEta0 * (-1 + (1 + pressure / pressure0) ^ z))

/-- `nd_roelands`, l.103-109. -/
noncomputable def ndRoelands (eta0 pressure0 pressureHertzian z ndPressure : ℝ) : ℝ :=
  let lnEta0 := Real.log eta0 + 9.67
  let pAll := pressureHertzian / pressure0
  Real.exp (lnEta0 * (-1 + (1 + pAll * ndPressure) ^ z))

/-- `barus`, l.132-135. -/
noncomputable def barus (eta0 alpha pressure : ℝ) : ℝ := eta0 * Real.exp (alpha * pressure)

/-- `nd_barus`, l.163-166. -/
noncomputable def ndBarus (pressureHertzian alpha ndPressure : ℝ) : ℝ := Real.exp (alpha * pressureHertzian * ndPressure)

/-- `dowson_higginson`, l.189-192. -/
noncomputable def dowsonHigginson (rho0 pressure : ℝ) : ℝ := rho0 * (5.9e8 + 1.34 * pressure) / (5.9e8 + pressure)

/-- `nd_dowson_higginson`, l.216-221. -/
noncomputable def ndDowsonHigginson (pressureHertzian ndPressure : ℝ) : ℝ :=
  let constant := 5.9e8 / pressureHertzian
  (constant + 1.34 * ndPressure) / (constant + ndPressure)

end Verif.Fluid
