import Mathlib.Analysis.SpecialFunctions.Log.Basic
import Mathlib.Analysis.SpecialFunctions.Trigonometric.Basic
import Mathlib.Analysis.Real.Sqrt

/-!
# Model of `slippy/contact/_model_utils.py:non_dimentional_height` (l.10-58)

Real numbers. The quotients of l.51-52 and l.58 are only used where the divisors are not zero.
-/

namespace Verif.Bouss

open Real

noncomputable section

open Classical in
/-- `load or 1` (l.47): `None` and zero become 1. -/
def loadOrOne (load : Option ℝ) : ℝ := match load with
  | none => 1
  | some l => if l = 0 then 1 else l

/-- `uz`, l.47-52. -/
def descriptiveHeight (youngs v : ℝ) (load : Option ℝ) (gsX : ℝ) (gsY : Option ℝ) : ℝ :=
  let load := loadOrOne load
  let a := gsX
  let b := match gsY with | none => gsX | some g => g
  let c := √(a ^ 2 + b ^ 2)
  let bigA := 2 * a * log ((b + c) / (c - b)) + 2 * b * log ((a + c) / (c - a))
  bigA * load * (1 - v ^ 2) / π / youngs / a / b

/-- `non_dimentional_height`, l.47-58. -/
def nonDimHeight (height youngs v : ℝ) (load : Option ℝ) (gsX : ℝ) (gsY : Option ℝ) (inverse returnUz : Bool) : ℝ :=
  let uz := descriptiveHeight youngs v load gsX gsY
  if returnUz then uz
  else if inverse then height * uz
  else height / uz

end

end Verif.Bouss
