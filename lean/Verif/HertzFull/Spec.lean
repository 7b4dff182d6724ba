import Mathlib.LinearAlgebra.Matrix.Determinant.Basic
import Mathlib.LinearAlgebra.Matrix.Notation
import Mathlib.LinearAlgebra.Matrix.Trace
import Verif.HertzFull.Model

/-!
# What the relative curvatures are

The second body is turned by the angle between the x axes; the relative curvatures of the two bodies are the eigenvalues of the sum of the
two curvature matrices.
-/

namespace Verif.HertzFull.Spec

open Matrix

/-- The matrix of relative curvature. -/
noncomputable def curvatureMatrix (k1x k1y k2x k2y angle : ℝ) : Matrix (Fin 2) (Fin 2) ℝ :=
  !![k1x, 0; 0, k1y] + !![Real.cos angle, -Real.sin angle; Real.sin angle, Real.cos angle] * !![k2x, 0; 0, k2y] *
    !![Real.cos angle, Real.sin angle; -Real.sin angle, Real.cos angle]

/-- `k` and `l` are the two eigenvalues of `m` (with multiplicity). -/
def Eigenvalues (m : Matrix (Fin 2) (Fin 2) ℝ) (k l : ℝ) : Prop := k + l = m.trace ∧ k * l = m.det

end Verif.HertzFull.Spec
