import Mathlib.Data.Fintype.BigOperators
import Mathlib.Data.Fintype.Pi
import Verif.XReal

/-!
# Loads from displacements: model of `slippy/contact/influence_matrix_utils.py:_solve_im_displacement`, l.96-210

`ι` is the set of all (direction, node) pairs of the directions in which displacements are given (`def_directions`, l.142).
`A` is `_solve_im_loading` with the given components (l.45-93) restricted to those directions; it is any function here, its
linearity is a hypothesis of the theorems (each component is a convolution, see `Verif.Conv`). Numbers are `XR`: exact, with the
`nan` and `inf` of numpy. The warning is modelled as a flag of the result. The loads are modelled as a value; in the code the
arrays of the initial guess are updated in place and returned.
-/

namespace Verif.Cg

open Verif

variable {ι : Type} [Fintype ι]

/-- `np.logical_not(np.isnan(displacements))`, l.144. -/
def prescribed (target : ι → XR) (i : ι) : Prop := target i ≠ .nan

/-- The prescribed entries: the index of the flat vectors `residual`, `search_direction`, `z`. -/
abbrev Dom (target : ι → XR) := { i : ι // prescribed target i }

/-- Values at the prescribed entries, l.153-155 and l.176-178. -/
def gather (target : ι → XR) (v : ι → XR) : Dom target → XR := fun i => v i.1

open Classical in
/-- Put a flat vector back into arrays of zeros, l.165-171. -/
noncomputable def scatter (target : ι → XR) (v : Dom target → XR) : ι → XR :=
  fun i => if h : prescribed target i then v ⟨i, h⟩ else .fin 0

/-- `np.matmul` of two vectors. -/
noncomputable def dot {κ : Type} [Fintype κ] (a b : κ → XR) : XR := ∑ i, a i * b i

/-- `np.linalg.norm`. -/
noncomputable def norm {κ : Type} [Fintype κ] (a : κ → XR) : XR := (dot a a).sqrt

noncomputable instance (target : ι → XR) : Fintype (Dom target) := by
  classical exact inferInstance

open Classical in
/-- `loads[sub_domain] += update`, l.184-189. -/
noncomputable def addOnDom (target : ι → XR) (loads : ι → XR) (upd : Dom target → XR) : ι → XR :=
  fun i => if h : prescribed target i then loads i + upd ⟨i, h⟩ else loads i

/-- The value returned: loads, displacements over the whole surface, and whether the non-convergence warning was issued. -/
structure Result (ι : Type) where
  loads : ι → XR
  displacements : ι → XR
  warned : Bool

/-- The loop of l.162-206, entered with `itnum = it`. -/
noncomputable def loop (A : (ι → XR) → ι → XR) (target : ι → XR) (maxIt : ℤ) (tol : XR)
    (loads : ι → XR) (r d : Dom target → XR) (it : ℤ) : Result ι :=
  if XR.le tol (norm r) then
    let z := gather target (A (scatter target d))
    let alpha := dot r r / dot d z
    let loads' := addOnDom target loads (fun i => alpha * d i)
    let rNew := fun i => r i - alpha * z i
    let beta := dot rNew rNew / dot r r
    let d' := fun i => rNew i + beta * d i
    if maxIt < it + 1 then ⟨loads', A loads', true⟩
    else loop A target maxIt tol loads' rNew d' (it + 1)
  else ⟨loads, A loads, false⟩
termination_by (maxIt - it).toNat
decreasing_by omega

/-- `_solve_im_displacement`, l.141-210. -/
noncomputable def solve (A : (ι → XR) → ι → XR) (target : ι → XR) (maxIt : ℤ) (tol : XR) (guess : ι → XR) : Result ι :=
  let r := gather target (fun i => target i - A guess i)
  loop A target maxIt tol guess r r 0

end Verif.Cg
