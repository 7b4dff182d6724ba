import Verif.Johnson.Model

/-!
# The quantiles of the distributions, as functions of the normal score
-/

namespace Verif.Johnson

open Classical in
/-- The value of the distribution at the probability that the standard normal distribution has at `z`; `none` if scipy gives nan because a parameter is out of its range (documentation of `scipy.stats`). -/
noncomputable def Dist.quantile : Dist → ℝ → Option ℝ
  | .norm loc scale, z => if 0 < scale then some (loc + scale * z) else none
  | .lognorm s loc (some scale), z => if 0 < s ∧ 0 < scale then some (loc + scale * Real.exp (s * z)) else none
  | .lognorm _ _ none, _ => none
  | .johnsonsu a b loc scale, z => if 0 < b ∧ 0 < scale then some (loc + scale * Real.sinh ((z - a) / b)) else none
  | .johnsonsb a b loc scale, z => if 0 < b ∧ 0 < scale then some (loc + scale * (1 / (1 + Real.exp (-((z - a) / b))))) else none

/-- The distribution has the four quantiles. -/
def Reproduces (d : Dist) (x0 x1 x2 x3 : ℝ) : Prop :=
  d.quantile (-3 / 2) = some x0 ∧ d.quantile (-1 / 2) = some x1 ∧ d.quantile (1 / 2) = some x2 ∧ d.quantile (3 / 2) = some x3

end Verif.Johnson
