import Mathlib.Analysis.SpecialFunctions.Pow.Real
import Mathlib.Analysis.SpecialFunctions.Pow.Complex
import Mathlib.Algebra.BigOperators.Intervals
import Verif.Conv.Model

/-!
# Model of `RandomFilterSurface` and the functions of its optimisation in `slippy/surface/Random.py`

Arrays are functions of two indices, of which those below the shape count. `scipy.signal.fftconvolve` is the convolution sum it computes. `scipy.optimize.minimize` is not modelled.
-/

namespace Verif.Filter

noncomputable section

open Verif.Conv (Grid forward)

/-- Entry of the full convolution of an `n` by `m` with an `N` by `M` array. -/
def convFull (n m : ℕ) (a : ℕ → ℕ → ℝ) (N M : ℕ) (b : ℕ → ℕ → ℝ) (k l : ℕ) : ℝ :=
  ∑ i ∈ Finset.range n, ∑ j ∈ Finset.range m, if i ≤ k ∧ k - i < N ∧ j ≤ l ∧ l - j < M then a i j * b (k - i) (l - j) else 0

/-- `fftconvolve(a, b, 'same')`: the middle of the full convolution, of the size of the first array. -/
def convSame (n m : ℕ) (a : ℕ → ℕ → ℝ) (N M : ℕ) (b : ℕ → ℕ → ℝ) (k l : ℕ) : ℝ :=
  convFull n m a N M b (k + (n + N - 1 - n) / 2) (l + (m + M - 1 - m) / 2)

/-- `fftconvolve(a, b, 'valid')` for `a` at least as large as `b`: the entries where all of `b` is used; of shape `(n - N + 1, m - M + 1)`. -/
def convValid (n m : ℕ) (a : ℕ → ℕ → ℝ) (N M : ℕ) (b : ℕ → ℕ → ℝ) (k l : ℕ) : ℝ := convFull n m a N M b (k + (N - 1)) (l + (M - 1))

/-! ## The optimisation -/

/-- `_get_acf_estimate`, l.915-926. -/
def acfDirect (n m : ℕ) (alpha : ℕ → ℕ → ℝ) (p q : ℕ) : ℝ :=
  ∑ k ∈ Finset.range (n - p), ∑ el ∈ Finset.range (m - q), alpha k el * alpha (k + p) (el + q)

/-- `_get_acf_estimate_fft`, l.929-933. -/
def acfFft (n m : ℕ) (alpha : ℕ → ℕ → ℝ) (p q : ℕ) : ℝ :=
  convSame n m alpha (n + (n - 1)) (m + (m - 1)) (fun i j => if i < n ∧ j < m then alpha (n - 1 - i) (m - 1 - j) else 0) p q

/-- `_min_fun`, l.873-889. -/
def minFun (n m : ℕ) (target alpha : ℕ → ℕ → ℝ) : ℝ := ∑ p ∈ Finset.range n, ∑ q ∈ Finset.range m, (target p q - acfFft n m alpha p q) ^ 2

/-- `alpha_2`, l.908-910: the filter and its mirror image. -/
def mirrored (n1 : ℕ) (alpha : ℕ → ℕ → ℝ) : ℕ → ℕ → ℝ := fun r c => if n1 - 1 ≤ r then alpha (r - (n1 - 1)) c else alpha (n1 - 1 - r) c

/-- `_min_fun_symmetric`, l.892-912. -/
def minFunSymmetric (n1 m1 : ℕ) (target alpha : ℕ → ℕ → ℝ) : ℝ :=
  ∑ p ∈ Finset.range n1, ∑ q ∈ Finset.range m1, (target p q - acfFft (n1 * 2 - 1) m1 (mirrored n1 alpha) p q) ^ 2

/-- `_grad_min_fun`, l.955-986, at the entry `(i, j)`, counted from zero; `n1` is the number of rows of the target. -/
def gradMinFun (n m : ℕ) (alpha : ℕ → ℕ → ℝ) (n1 : ℕ) (target estimate : ℕ → ℕ → ℝ) (i j : ℕ) : ℝ :=
  2 * ((∑ p ∈ Finset.range (min (n - i) n1), ∑ q ∈ Finset.range (m - j), (target p q - estimate p q) * (-alpha (i + p) (j + q)))
    + ∑ p ∈ Finset.range (min (i + 1) n1), ∑ q ∈ Finset.range (j + 1), (target p q - estimate p q) * (-alpha (i - p) (j - q)))

/-- `_get_grad_min_fun`, l.936-939. -/
def getGrad (n m : ℕ) (target alpha : ℕ → ℕ → ℝ) : ℕ → ℕ → ℝ := gradMinFun n m alpha n target (acfFft n m alpha)

/-- `_get_grad_min_fun_symmetric`, l.942-952. -/
def getGradSymmetric (n1 m1 : ℕ) (target alpha : ℕ → ℕ → ℝ) : ℕ → ℕ → ℝ := fun r c =>
  let grads_2 := gradMinFun (n1 * 2 - 1) m1 (mirrored n1 alpha) n1 target (acfFft (n1 * 2 - 1) m1 (mirrored n1 alpha))
  grads_2 (n1 - 1 + r) c + if 1 ≤ r then grads_2 (n1 - 1 - r) c else 0

/-! ## Generating a surface -/

/-- A filter with its shape. -/
structure Coefficients where
  n : ℕ
  m : ℕ
  coef : ℕ → ℕ → ℝ

/-- A profile with its shape. -/
structure Profile where
  rows : ℕ
  cols : ℕ
  height : ℕ → ℕ → ℝ

/-- `RandomFilterSurface.discretise`, l.803-831, for shapes with at least one point: the profile that is set or returned. `rvs r c` is the array of the random numbers drawn for the size `(r, c)`. `np.pad(.., 'wrap')` repeats the array. -/
def discretise (filter : Option Coefficients) (outputShape ownShape : Option (ℕ × ℕ)) (periodic : Bool) (rvs : ℕ → ℕ → ℕ → ℕ → ℝ) : Except PyErr Profile :=
  match filter with
  | none => .error .attributeError
  | some f =>
    match outputShape <|> ownShape with
    | none => .error .valueError
    | some (outN, outM) =>
      let eta : ℕ → ℕ → ℝ := if periodic then fun i j => rvs outN outM (i % outN) (j % outM) else rvs (outN + f.n - 1) (outM + f.m - 1)
      .ok ⟨(outN + f.n - 1) - f.n + 1, (outM + f.m - 1) - f.m + 1, convValid (outN + f.n - 1) (outM + f.m - 1) eta f.n f.m f.coef⟩

/-- `fir_filter`, l.752-757: the coefficients are the square roots of the transform of the target. The filter keeps them as they are. -/
def firFilter {n m : ℕ} [NeZero n] [NeZero m] (acf : Grid n m → ℝ) : Grid n m → ℂ := fun k => (forward (fun a => (acf a : ℂ)) k) ^ (1 / 2 : ℂ)

/-! ## Moments -/

/-- L.640. -/
def sumSq (alpha : List ℝ) : ℝ := (alpha.map fun a => a ^ 2).sum

/-- L.642. -/
def seqSkew (alpha : List ℝ) (skew : ℝ) : ℝ := skew * sumSq alpha ^ (3 / 2 : ℝ) / (alpha.map fun a => a ^ 2 * a).sum

/-- L.645-649: the sum over `i` below `q - 1` and `j` from `i` on. -/
def quadTerm (alpha : List ℝ) : ℝ :=
  ∑ i ∈ Finset.range (alpha.length - 1), ∑ j ∈ Finset.Ico i alpha.length, alpha.getD i 0 ^ 2 * alpha.getD j 0 ^ 2

/-- L.651. -/
def seqKurt (alpha : List ℝ) (kurtosis : ℝ) : ℝ := (kurtosis * sumSq alpha ^ 2 - 6 * quadTerm alpha) / (alpha.map fun a => (a ^ 2) ^ 2).sum + 3

end

end Verif.Filter
