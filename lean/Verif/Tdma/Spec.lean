import Mathlib.Data.Real.Basic

/-!
# Specification of the cyclic tridiagonal solver

Systems of equations written out row by row. The arrays have length `n`; the lower and upper diagonal of a tridiagonal system have
length `n - 1` and do not include the corners.
-/

namespace Verif.Tdma

/-- `x` solves the tridiagonal system: row `i` is `lower[i-1] x[i-1] + main[i] x[i] + upper[i] x[i+1] = rhs[i]`. -/
def SolvesTri (n : Nat) (lower main upper x rhs : Nat → ℝ) : Prop :=
  ∀ i < n, (if i = 0 then 0 else lower (i - 1) * x (i - 1)) + main i * x i + (if i + 1 = n then 0 else upper i * x (i + 1)) = rhs i

/-- `x` solves the cyclic system: row `i` is `lower[i] x[i-1] + main[i] x[i] + upper[i] x[i+1] = rhs[i]` with the indices
taken modulo `n`. -/
def SolvesCyclic (n : Nat) (lower main upper x rhs : Nat → ℝ) : Prop :=
  ∀ i < n, lower i * x ((i + n - 1) % n) + main i * x i + upper i * x ((i + 1) % n) = rhs i

/-- The cyclic system has at most one solution for each right-hand side. -/
def Regular (n : Nat) (lower main upper : Nat → ℝ) : Prop :=
  ∀ x, SolvesCyclic n lower main upper x (fun _ => 0) → ∀ i < n, x i = 0

end Verif.Tdma
