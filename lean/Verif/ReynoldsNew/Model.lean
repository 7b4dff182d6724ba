import Mathlib.Analysis.SpecialFunctions.Log.Basic
import Mathlib.Analysis.SpecialFunctions.Trigonometric.Basic
import Mathlib.Analysis.Real.Sqrt
import Verif.Reynolds.Model

/-!
# A new Reynolds solver: `UnifiedReynoldsSolver.__init__`, `nd_grid_spacing`, `nd_time_step` and `data_check`

`slippy/contact/unified_reynolds_solver.py` l.94-149 and l.206-212. The model of the solution is `Verif.Reynolds`; there the three coefficients of the
influence matrix are parameters, here they are computed. Real numbers for floats. Sets of names are lists; `data_check` only asks for members.
-/

namespace Verif.ReynoldsNew

open Verif Real

noncomputable section

/-- `stencil`, l.116-117. -/
def stencil (x y : ℝ) : ℝ := x + √(x ^ 2 + y ^ 2)

/-- `ak[i]`, l.121-130. -/
def kernel (i : Nat) : ℝ :=
  let xp : ℝ := i + 0.5
  let xm : ℝ := i - 0.5
  let ym : ℝ := -0.5
  let yp : ℝ := 0.5
  let a1 := stencil yp xp / stencil ym xp
  let a2 := stencil xm ym / stencil xp ym
  let a3 := stencil ym xm / stencil yp xm
  let a4 := stencil xp yp / stencil xm yp
  xp * log a1 + ym * log a2 + xm * log a3 + yp * log a4

/-- `self.ak00`, `self.ak10`, `self.ak20`, l.132-134. -/
def ak (i : Nat) : ℝ := 2 / π ^ 2 * kernel i

/-- The object. -/
structure Built where
  solver : Reynolds.Solver
  timeStep : ℝ
  gridSpacing : ℝ
  density : ℝ
  periodic : Bool
  ak00 : ℝ
  ak10 : ℝ
  ak20 : ℝ
  /-- `_step` -/
  step : ℤ
  /-- `_row_order`, l.84 -/
  rowOrder : Option (ℤ × ℤ)

/-- `__init__`, l.94-141. An error leaves no object. -/
def construct (timeStep gridSpacing pressure radius halfWidth viscosity density : ℝ) (direction : String) (periodic : Bool) : Except PyErr Built :=
  let made (step : ℤ) : Built :=
    { solver := Reynolds.Solver.init radius pressure halfWidth viscosity, timeStep := timeStep, gridSpacing := gridSpacing, density := density,
      periodic := periodic, ak00 := ak 0, ak10 := ak 1, ak20 := ak 2, step := step, rowOrder := none }
  if direction = "forward" then .ok (made 1)
  else if direction = "backward" then .ok (made (-1))
  else .error .valueError

open Classical in
/-- `nd_grid_spacing`, l.143-145; the half width can be set to `None`. -/
def Built.ndGridSpacing (b : Built) : Except PyErr ℝ :=
  match b.solver.params.halfWidth with
  | none => .error .typeError
  | some a => if a = 0 then .error .zeroDivisionError else .ok (b.gridSpacing / a)

open Classical in
/-- `nd_time_step`, l.147-149. The product is computed first: a missing speed raises even if the time step is zero. -/
def Built.ndTimeStep (b : Built) : Except PyErr ℝ :=
  match b.solver.params.speed, b.solver.params.halfWidth with
  | some u, some a => if a = 0 then .error .zeroDivisionError else .ok (b.timeStep * u / a)
  | _, _ => .error .typeError

/-- `requires`, l.82. -/
def requires : List String := ["nd_gap", "nd_pressure", "nd_viscosity", "nd_density"]

/-- `provides`, l.83. -/
def provides : List String := ["nd_pressure", "previous_nd_gap", "previous_nd_density"]

/-- `data_check`, l.206-212. -/
def dataCheck (previous : List String) : Except PyErr (List String) :=
  if requires.all (fun r => previous.contains r) then .ok provides else .error .valueError

end

end Verif.ReynoldsNew
