import Mathlib.Analysis.SpecialFunctions.Log.Basic
import Mathlib.Analysis.Real.Sqrt
import Mathlib.Analysis.Real.Pi.Bounds
import Verif.Common

/-!
# The lognormal distributions: model of `slippy/surface/_johnsonsl.py` and `slippy/surface/johnsondists.py`

Arguments are Python floats, taken as real numbers: `math.log` of a number that is not positive is a `ValueError`. What `scipy.stats.rv_continuous` does with the methods is not modelled, only that
`a` and `b` of its constructor are the ends of the support.
-/

namespace Verif.JohnsonSL

noncomputable section

/-- The functions of the normal distribution that are used, `scipy.stats.norm` and `scipy.special`. -/
structure Normal where
  pdf : ℝ → ℝ
  cdf : ℝ → ℝ
  ppf : ℝ → ℝ

open Classical in
/-- `math.log`. -/
def mlog (x : ℝ) : Except PyErr ℝ := if x ≤ 0 then .error .valueError else .ok (Real.log x)

/-- `johnsonsl_gen._pdf`, `_johnsonsl.py` l.25-27. -/
def pdf (n : Normal) (x a b : ℝ) : Except PyErr ℝ := do
  let l ← mlog x
  let trm := n.pdf (a + b * l)
  return x * trm

/-- `johnsonsl_gen._cdf`, l.29-30, and `JohnsonSLGen._cdf`, `johnsondists.py` l.47-48. -/
def cdf (n : Normal) (x a b : ℝ) : Except PyErr ℝ := do
  let l ← mlog x
  return n.cdf (a + b * l)

/-- `johnsonsl_gen._ppf`, l.32-33, and `JohnsonSLGen._ppf`, `johnsondists.py` l.50-51, for `b` other than zero. -/
def ppf (n : Normal) (q a b : ℝ) : ℝ := Real.exp ((n.ppf q - a) / b)

/-- `_norm_pdf`, `johnsondists.py` l.9 and l.13-14. -/
def normPdf (x : ℝ) : ℝ := Real.exp (-x ^ 2 / 2) / √(2 * Real.pi)

/-- `JohnsonSLGen._pdf`, `johnsondists.py` l.43-45. -/
def pdf' (x a b : ℝ) : Except PyErr ℝ := do
  let l ← mlog x
  let trm := normPdf (a + b * l)
  return b * trm

/-- The ends of the support, `_johnsonsl.py` l.36 and `johnsondists.py` l.54. -/
def support : ℝ × ℝ := (0, 1)

end

end Verif.JohnsonSL
