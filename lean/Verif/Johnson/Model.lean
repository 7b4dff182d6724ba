import Mathlib.Analysis.SpecialFunctions.Arsinh
import Mathlib.Analysis.SpecialFunctions.Arcosh
import Mathlib.Analysis.SpecialFunctions.Pow.Real
import Verif.Common

/-!
# Model of `slippy/surface/_johnson_utils.py`

Numbers are real; the quantiles are taken to be increasing, so that no division by zero occurs in `_fit_johnson_by_quantiles`. A distribution of scipy is its family with its parameters; a parameter that is not a number in the code is `none`. Of the fit by moments, the iterations of `sb_fit` and of the skewed case of `su_fit` are inputs (they are modelled in `Iterations.lean`).
-/

namespace Verif.Johnson

noncomputable section

/-- The frozen distributions of scipy that are returned. -/
inductive Dist where
  /-- `scipy.stats.norm(loc, scale)` -/
  | norm (loc scale : ℝ)
  /-- `scipy.stats.lognorm(s, loc, scale)`; the scale may be nan. -/
  | lognorm (s loc : ℝ) (scale : Option ℝ)
  /-- `scipy.stats.johnsonsu(a, b, loc, scale)` -/
  | johnsonsu (a b loc scale : ℝ)
  /-- `scipy.stats.johnsonsb(a, b, loc, scale)` -/
  | johnsonsb (a b loc scale : ℝ)

/-- `_johnsonsl`, l.34-43. The logarithms of numbers that are not positive are not numbers, nor is the quotient zero by zero if `log(b / scale)` is zero. -/
def johnsonsl (a b loc scale : ℝ) : Dist :=
  let sq := Real.log (b / scale) * b ^ 2
  let lin := Real.log (b / scale) * (2 * a * b - 2 * b ^ 2 * Real.log scale)
  let scaleLog : Option ℝ := if 0 < scale ∧ 0 < b / scale ∧ sq ≠ 0 then some (Real.exp (lin / sq / -2)) else none
  .lognorm (1 / b) loc scaleLog

/-- `tol`, l.513. -/
def tol : ℝ := 1 / 10000

/-- The bounded branch, l.517-523, as a function of the four numbers it uses. -/
def bounded (m n p q0 : ℝ) : Dist :=
  let pm := p / m
  let pn := p / n
  let delta := 0.5 / Real.arcosh (0.5 * √((1 + pm) * (1 + pn)))
  let gamma := delta * Real.arsinh ((pn - pm) * √((1 + pm) * (1 + pn) - 4) / (2 * (pm * pn - 1)))
  let xlam := p * √(((1 + pm) * (1 + pn) - 2) ^ 2 - 4) / (pm * pn - 1)
  let xi := q0 - 0.5 * xlam + p * (pn - pm) / (2 * (pm * pn - 1))
  .johnsonsb gamma delta xi xlam

/-- The unbounded branch, l.527-531. -/
def unbounded (mp nop p q0 : ℝ) : Dist :=
  let delta := 1 / Real.arcosh (0.5 * (mp + nop))
  let gamma := delta * Real.arsinh ((nop - mp) / (2 * √(mp * nop - 1)))
  let xlam := 2 * p * √(mp * nop - 1) / ((mp + nop - 2) * √(mp + nop + 2))
  let xi := q0 + p * (nop - mp) / (2 * (mp + nop - 2))
  .johnsonsu gamma delta xi xlam

/-- The lognormal branch, l.535-539; `np.sign` is written out. -/
def lognormal (mp p q0 : ℝ) : Dist :=
  let delta := 1 / Real.log mp
  let gamma := delta * Real.log (|mp - 1| / (p * √mp))
  let xlam := if 0 < mp - 1 then 1 else if mp - 1 < 0 then -1 else 0
  let xi := q0 - 0.5 * p * (mp + 1) / (mp - 1)
  johnsonsl gamma delta xi xlam

/-- The normal branch, l.543-545. -/
def normal (m q0 : ℝ) : Dist :=
  let scale := 1 / m
  let loc := q0 * scale
  .norm loc scale

open Classical in
/-- `_fit_johnson_by_quantiles`, l.475-547. -/
def fitByQuantiles (x0 x1 x2 x3 : ℝ) : Dist :=
  let m := x3 - x2
  let n := x1 - x0
  let p := x2 - x1
  let q0 := (x1 + x2) * 0.5
  let mp := m / p
  let nop := n / p
  if mp * nop < 1 - tol then bounded m n p q0
  else if mp * nop > 1 + tol then unbounded mp nop p q0
  else if |mp - 1| > tol then lognormal mp p q0
  else normal m q0

/-! ## The fit by moments -/

/-- `sl_distribution_fit`, l.18-31, with `return_rv`. `1 / math.sqrt(math.log(omega))` raises for `omega = 1`. The other arguments of `math.log` are positive for `omega > 1` and `sd > 0`; `omega` is at least one for the values it is called with. -/
def slFit (mean sd rootBeta1 omega : ℝ) : Except PyErr Dist :=
  let xlam : ℝ := if rootBeta1 < 0 then -1 else 1
  let u := xlam * mean
  if √(Real.log omega) = 0 then .error .zeroDivisionError
  else
    let delta := 1 / √(Real.log omega)
    let gamma := 0.5 * delta * Real.log (omega * (omega - 1) / sd ^ 2)
    let xi := u - Real.exp ((0.5 / delta - gamma) / delta)
    .ok (johnsonsl gamma delta xi xlam)

/-- The end of `su_fit`, l.442-449, for the `w` and `y` found; `gamma = y * delta`. -/
def suEnd (mean sd w y : ℝ) : Dist :=
  let delta := √(1 / Real.log w)
  let gamma := y * delta
  let z := Real.exp y ^ 2
  let xlam := sd / √(0.5 * (w - 1) * (0.5 * w * (z + 1 / z) + 1))
  let xi := mean + xlam * Real.exp ((delta ^ 2)⁻¹ / 2) * Real.sinh (gamma / delta)
  .johnsonsu gamma delta xi xlam

/-- The first estimate of `w` in `su_fit`, l.420. -/
def suFirst (beta1 beta2 : ℝ) : ℝ := √(√(2 * beta2 - 2.8 * beta1 - 2) - 1)

/-- L.161-163. -/
def omegaOf (rootBeta1 : ℝ) : ℝ :=
  let beta1 := rootBeta1 ^ 2
  let x := 0.5 * beta1 + 1
  let y := rootBeta1 * √(0.25 * beta1 + 1)
  (x + y) ^ (1 / 3 : ℝ) + (x - y) ^ (1 / 3 : ℝ) - 1

/-- L.164. -/
def beta2Lognormal (omega : ℝ) : ℝ := omega * omega * (3 + omega * (2 + omega)) - 3

/-- The tolerance of the fit, l.114. -/
def tolerance : ℝ := 1 / 100

open Classical in
/-- `_fit_johnson_by_moments`, l.46-472, with `return_rv`. `sbFit` is the outcome of `sb_fit` and `suIteration` the pair `(w, y)` that the iteration in `su_fit` ends with if the skewness is not small. -/
def fitByMoments (sbFit : Except PyErr Dist) (suIteration : Except PyErr (ℝ × ℝ)) (mean sd rootBeta1 beta2 : ℝ) : Except PyErr Dist :=
  let beta1 := rootBeta1 ^ 2
  if sd < 0 then .error .valueError
  else if sd = 0 then .error .notImplementedError
  else if beta2 ≥ 0 ∧ beta2 < beta1 + 1 - tolerance then .error .valueError
  else if beta2 ≥ 0 ∧ beta2 ≤ beta1 + tolerance + 1 then .error .notImplementedError
  else if |rootBeta1| < tolerance ∧ |beta2 - 3| < tolerance then .ok (.norm mean sd)
  else
    let omega := omegaOf rootBeta1
    let beta2' := if beta2 < 0 then beta2Lognormal omega else beta2
    let x := beta2Lognormal omega - beta2'
    if |x| < tolerance then slFit mean sd rootBeta1 omega
    else if x > 0 then sbFit
    else if |rootBeta1| < tolerance then .ok (suEnd mean sd (suFirst beta1 beta2') 0)
    else match suIteration with
      | .error e => .error e
      | .ok (w, y) => .ok (suEnd mean sd w y)

end

end Verif.Johnson
