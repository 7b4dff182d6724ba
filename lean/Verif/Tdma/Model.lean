import Mathlib.Data.Real.Basic
import Mathlib.Data.Real.Archimedean

/-!
# The cyclic tridiagonal solver

Model of `slippy/contact/_lubrication_utils.py`. An array of length `n` is a function of the index of which the items below `n` are
used. Numbers are real numbers; an array of integers is marked as such, since numpy truncates what is stored into it.

LAPACK's `dgtsv` is a parameter: it is given the length, the lower, main and upper diagonal and the right-hand side, and returns a vector
(its error flag is thrown away by the code, l.31 and l.63; it works on copies of its arguments since none of the `overwrite_` flags is
set). Two-dimensional right-hand sides are not modelled.
-/

namespace Verif.Tdma

/-- A solver for tridiagonal systems: length, lower diagonal (length `n - 1`), main diagonal, upper diagonal (length `n - 1`),
right-hand side. -/
abbrev Dgtsv := Nat → (Nat → ℝ) → (Nat → ℝ) → (Nat → ℝ) → (Nat → ℝ) → Nat → ℝ

/-- Storing a number into an array: integer arrays cut off the fraction. -/
noncomputable def store (isInt : Bool) (x : ℝ) : ℝ :=
  if isInt then (if 0 ≤ x then (⌊x⌋ : ℝ) else (⌈x⌉ : ℝ)) else x

/-- `tdma`, l.7-32: the result and the main diagonal after the call. -/
def tdma (dgtsv : Dgtsv) (n : Nat) (lower main upper rhs : Nat → ℝ) : (Nat → ℝ) × (Nat → ℝ) :=
  (dgtsv n lower main upper rhs, main)

/-- `gamma`, l.59. -/
noncomputable def gamma (main : Nat → ℝ) : ℝ := if main 0 ≠ 0 then -main 0 else 1

/-- The main diagonal after l.60-61: the assignments change the array of the caller. -/
noncomputable def changedMain (intMain : Bool) (n : Nat) (lower main upper : Nat → ℝ) : Nat → ℝ :=
  let m1 : Nat → ℝ := Function.update main 0 (store intMain (main 0 - gamma main))
  Function.update m1 (n - 1) (store intMain (m1 (n - 1) - lower 0 * upper (n - 1) / gamma main))

/-- `u`, l.65-67: an array of the type of the right-hand side. -/
noncomputable def uVector (intRhs : Bool) (n : Nat) (main upper : Nat → ℝ) : Nat → ℝ :=
  Function.update (Function.update (fun _ => 0) 0 (store intRhs (gamma main))) (n - 1) (store intRhs (upper (n - 1)))

/-- The denominator of the factor, l.72. -/
noncomputable def denominator (n : Nat) (lower main z : Nat → ℝ) : ℝ := 1 + z 0 + z (n - 1) * lower 0 / gamma main

/-- `cyclic_tdma`, l.35-74: the result and the main diagonal of the caller after the call. (If the denominator is zero the code
returns infinities or `nan`; here division by zero gives zero, and every theorem about the result assumes that it is not zero.) -/
noncomputable def cyclicTdma (dgtsv : Dgtsv) (intMain intRhs : Bool) (n : Nat) (lower main upper rhs : Nat → ℝ) :
    (Nat → ℝ) × (Nat → ℝ) :=
  let g := gamma main
  let main' := changedMain intMain n lower main upper
  let x := dgtsv n (fun i => lower (i + 1)) main' upper rhs
  let z := dgtsv n (fun i => lower (i + 1)) main' upper (uVector intRhs n main upper)
  let factor := (x 0 + x (n - 1) * lower 0 / g) / denominator n lower main z
  (fun i => x i - z i * factor, main')

end Verif.Tdma
