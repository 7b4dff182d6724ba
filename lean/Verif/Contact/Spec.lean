import Mathlib.Data.Real.Basic
import Mathlib.Algebra.BigOperators.Group.Finset.Basic
import Mathlib.Algebra.Module.LinearMap.Defs
import Mathlib.Algebra.Module.Pi
import Mathlib.Data.Fintype.BigOperators

/-!
# Specification: the contact problem

`L` gives the displacements of the bodies under the pressures on the nodes, `b` is the overlap of the undeformed bodies at each node, `M` the largest pressure (`none`: no limit).
-/

namespace Verif.Contact

variable {ι : Type} [Fintype ι]

/-- The pressures `u` on the nodes `T` solve the contact problem: no tension, nothing above the limit, no pressure across an open gap, overlap only under the largest pressure. Nodes that are not in `T` carry no pressure. -/
structure Solution (T : ι → Prop) (L : (ι → ℝ) →ₗ[ℝ] (ι → ℝ)) (b : ι → ℝ) (M : ι → Option ℝ) (u : ι → ℝ) : Prop where
  outside : ∀ i, ¬T i → u i = 0
  nonneg : ∀ i, T i → 0 ≤ u i
  limit : ∀ i, T i → ∀ m, M i = some m → u i ≤ m
  gap : ∀ i, T i → b i < L u i → u i = 0
  overlap : ∀ i, T i → L u i < b i → M i = some (u i)

/-- The bodies resist every distribution of pressure. -/
def Definite (L : (ι → ℝ) →ₗ[ℝ] (ι → ℝ)) : Prop := ∀ w : ι → ℝ, w ≠ 0 → 0 < ∑ i, w i * L w i

end Verif.Contact
