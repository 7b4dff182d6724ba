import Verif.Filter.Model
import Verif.Acf.Model
import Verif.Conv.Backends

/-!
# Filters by the linear transform method: model of `slippy/surface/Random.py` `RandomFilterSurface.linear_transform` (l.408-561) and `_initial_guess` (l.834-851)

`scipy.optimize.minimize` with its method, tolerance and further keywords is an arbitrary function of objective, gradient and first guess. The shape of the filter has two positive integers. First guesses that are `nan` are not modelled further. Of the surface only
the attributes that matter here are modelled; the rules that link the grid spacing to shape and extent are in `Verif.SurfaceGeo`.
-/

namespace Verif.Filter

noncomputable section

open Verif.Conv (ofData toData)

/-- An exception of Python, or a case that is not modelled. -/
inductive LErr where
  | py (e : PyErr)
  | unmodelled

/-- The attributes that are used. -/
structure Surf where
  acf : Option (Acf.Source × (ℝ → ℝ → ℝ))
  gs : Option ℝ
  coefficients : Option Coefficients
  surfaceType : String

/-- `self.grid_spacing * np.arange(n)`, l.528-529. -/
def lags (gs : ℝ) (n : ℕ) : List ℝ := (List.range n).map fun i : ℕ => gs * i

/-- `c` in `_initial_guess`, l.846-849. -/
def weighted (n m : ℕ) (t : ℕ → ℕ → ℝ) (i j : ℕ) : ℝ := t i j / ((n - i : ℕ) * (m - j : ℕ) : ℝ)

/-- The sum of the squares of the entries. -/
def energy (n m : ℕ) (c : ℕ → ℕ → ℝ) : ℝ := ∑ i ∈ Finset.range n, ∑ j ∈ Finset.range m, c i j ^ 2

open Classical in
/-- `_initial_guess`, l.845-851; `none` if it has `nan`: a division by zero, or the root of a negative number. -/
def initialGuess (n m : ℕ) (t : ℕ → ℕ → ℝ) : Option (List ℝ) :=
  if energy n m (weighted n m t) = 0 then none
  else if t 0 0 / energy n m (weighted n m t) < 0 then none
  else some (toData n m fun i j => weighted n m t i j * (t 0 0 / energy n m (weighted n m t)) ^ (1 / 2 : ℝ))

/-- `minimize(objective, x0, jac=gradient, …)`: the result and whether it reports success, or an exception. -/
abbrev Minimizer := (List ℝ → ℝ) → (List ℝ → List ℝ) → List ℝ → Except PyErr (List ℝ × Bool)

/-- The objective, l.535-541 with l.887-889 and l.906-912. -/
def objective (symmetric : Bool) (n m : ℕ) (t : ℕ → ℕ → ℝ) (x : List ℝ) : ℝ :=
  if symmetric then minFunSymmetric n m t (ofData m x) else minFun n m t (ofData m x)

/-- The gradient, l.936-952. -/
def gradient (symmetric : Bool) (n m : ℕ) (t : ℕ → ℕ → ℝ) (x : List ℝ) : List ℝ :=
  toData n m (if symmetric then getGradSymmetric n m t (ofData m x) else getGrad n m t (ofData m x))

/-- What is stored, l.546-554 and l.561. -/
def stored (symmetric : Bool) (n m : ℕ) (x : List ℝ) : Coefficients :=
  if symmetric then ⟨n * 2 - 1, m, mirrored n (ofData m x)⟩ else ⟨n, m, ofData m x⟩

/-- `linear_transform((n, m), symmetric, max_it, …)`, l.505-561: whether a warning of the minimisation is issued, and the surface. `max_it` is not used after l.519. -/
def linearTransform (mn : Minimizer) (n m : ℕ) (symmetric : Bool) (_maxIt : Option ℕ) (s : Surf) : Except LErr Bool × Surf :=
  let s := { s with surfaceType := "linear_transform" }
  match s.acf with
  | none => (.error (.py .valueError), s)
  | some (src, f) =>
    if n = 0 ∨ m = 0 then (.error .unmodelled, s)
    else
      let gs := s.gs.getD 1
      let s := { s with gs := some gs }
      let t := Acf.call src f (lags gs m) (lags gs n)
      match initialGuess t.1.1 t.1.2 t.2 with
      | none => (.error .unmodelled, s)
      | some x0 =>
        match mn (objective symmetric t.1.1 t.1.2 t.2) (gradient symmetric t.1.1 t.1.2 t.2) (if symmetric then x0.map (· / 2) else x0) with
        | .error e => (.error (.py e), s)
        | .ok (x, success) =>
          if x.length = n * m then (.ok (!success), { s with coefficients := some (stored symmetric n m x) })
          else (.error (.py .valueError), s)

end

end Verif.Filter
