import Mathlib.Analysis.SpecialFunctions.Exp
import Mathlib.Analysis.SpecialFunctions.Pow.Real
import Mathlib.Algebra.BigOperators.Group.Finset.Basic
import Verif.Common

/-!
# Model of `slippy/surface/ACF_class.py`

`scipy.signal.correlate` is modelled by the sum in its documentation. The bivariate spline made from the values (l.152) is an arbitrary function of two numbers that has the given values at the given knots.
-/

namespace Verif.Acf

/-- The profile continued with zeros. -/
noncomputable def padded (N M : ℕ) (p : ℕ → ℕ → ℝ) (i j : ℤ) : ℝ := if 0 ≤ i ∧ i < N ∧ 0 ≤ j ∧ j < M then p i.toNat j.toNat else 0

/-- `scipy.signal.correlate(p, p, 'full')[k, l]`: the sum over `a`, `b` of `p[a, b] * conj(p[a - k + N - 1, b - l + M - 1])`. -/
noncomputable def correlateFull (N M : ℕ) (p : ℕ → ℕ → ℝ) (k l : ℕ) : ℝ :=
  ∑ a ∈ Finset.range N, ∑ b ∈ Finset.range M, p a b * padded N M p ((a : ℤ) - k + N - 1) ((b : ℤ) - l + M - 1)

/-- `scipy.signal.correlate(p, p, 'same')`: the middle part of the full output, starting at (size of the output - size of the profile) // 2. -/
noncomputable def correlateSame (N M : ℕ) (p : ℕ → ℕ → ℝ) (i j : ℕ) : ℝ :=
  correlateFull N M p (i + (2 * N - 1 - N) / 2) (j + (2 * M - 1 - M) / 2)

/-- `self.original`, l.133. -/
noncomputable def original (N M : ℕ) (p : ℕ → ℕ → ℝ) (i j : ℕ) : ℝ := correlateSame N M p i j / (N * M)

/-- The positions of the knots, l.135-150: `np.arange(x) * grid_spacing` minus the mean. -/
noncomputable def knot (N : ℕ) (gs : ℝ) (i : ℕ) : ℝ := (i : ℝ) * gs - (∑ k ∈ Finset.range N, (k : ℝ) * gs) / N

/-- `f` has the values of the autocorrelation at the knots, like the spline of l.152. -/
def Interpolates (N M : ℕ) (p : ℕ → ℕ → ℝ) (gs : ℝ) (f : ℝ → ℝ → ℝ) : Prop := ∀ i j, i < N → j < M → f (knot N gs i) (knot M gs j) = original N M p i j

/-- `_exp_acf`, l.200-204. -/
noncomputable def expAcf (sigma beta_x beta_y x y : ℝ) : ℝ := sigma ^ 2 * Real.exp (-2.3 * Real.sqrt ((x / beta_x) ^ 2 + (y / beta_y) ^ 2))

/-- The source of the function, `acf_type`. -/
inductive Source where
  | array | surface | function | string

/-- `__call__`, l.185-189: the shape of the result and its entries. The spline evaluates on the grid with the first index for x; `np.meshgrid` makes arrays with the second index for x. -/
def call (src : Source) (f : ℝ → ℝ → ℝ) (x y : List ℝ) : (ℕ × ℕ) × (ℕ → ℕ → ℝ) :=
  match src with
  | .array | .surface => ((x.length, y.length), fun i j => f (x.getD i 0) (y.getD j 0))
  | .function | .string => ((y.length, x.length), fun i j => f (x.getD j 0) (y.getD i 0))

end Verif.Acf
