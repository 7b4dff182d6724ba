import Mathlib.Data.Real.Basic
import Verif.Common
import Verif.XReal
import Verif.Tdma.Model

/-!
# The Reynolds solver: model of `UnifiedReynoldsSolver`, `slippy/contact/unified_reynolds_solver.py`

Three parts: the parameters with the cached speed parameter (l.86-204), the conversions (l.293-316), and one solution
(l.214-291, l.319-359).

Fields of the shape `width` by `length` are functions of two indices. The parameters are Python floats, so that a division by zero
raises `ZeroDivisionError` in the first part. In the third part the divisions are done by numpy; theorems that depend on them assume that
the divisors are not zero. Numba's compilation of `_solve_row` is assumed to keep its meaning.
-/

namespace Verif.Reynolds

open Verif

/-! ## Parameters -/

/-- The parameters that the speed parameter depends on; `none` is `None`. -/
structure Params where
  pressure : Option ℝ
  halfWidth : Option ℝ
  viscosity : Option ℝ
  speed : Option ℝ
  radius : Option ℝ

/-- The object: the parameters and `_lambda_bar`. -/
structure Solver where
  params : Params
  cached : Option ℝ

/-- `__init__`, l.108-113. -/
def Solver.init (radius pressure halfWidth viscosity : ℝ) : Solver :=
  ⟨⟨some pressure, some halfWidth, some viscosity, none, some radius⟩, none⟩

/-- What can be done with the parameters: the setters l.165-204 and reading `lambda_bar`. -/
inductive Op
  | setPressure (x : Option ℝ)
  | setHalfWidth (x : Option ℝ)
  | setViscosity (x : Option ℝ)
  | setSpeed (x : Option ℝ)
  | setRadius (x : Option ℝ)
  | read

/-- The right-hand side of l.156-157. -/
noncomputable def lambdaOf (p : Params) : Except PyErr ℝ :=
  match p.speed, p.viscosity, p.radius, p.halfWidth, p.pressure with
  | some u, some eta, some r, some a, some ph =>
    if a ^ 3 * ph = 0 then .error .zeroDivisionError else .ok (12 * u * eta * r ^ 2 / (a ^ 3 * ph))
  | _, _, _, _, _ => .error .typeError

/-- `lambda_bar`, l.151-158. -/
noncomputable def Solver.lambdaBar (s : Solver) : Solver × Except PyErr ℝ :=
  match s.cached with
  | some l => (s, .ok l)
  | none =>
    match lambdaOf s.params with
    | .ok l => ({ s with cached := some l }, .ok l)
    | .error e => (s, .error e)

/-- One operation. -/
noncomputable def Solver.step (s : Solver) : Op → Solver
  | .setPressure x => ⟨{ s.params with pressure := x }, none⟩
  | .setHalfWidth x => ⟨{ s.params with halfWidth := x }, none⟩
  | .setViscosity x => ⟨{ s.params with viscosity := x }, none⟩
  | .setSpeed x => ⟨{ s.params with speed := x }, none⟩
  | .setRadius x => ⟨{ s.params with radius := x }, none⟩
  | .read => s.lambdaBar.1

/-- A history of operations. -/
noncomputable def Solver.run (s : Solver) (ops : List Op) : Solver := ops.foldl Solver.step s

/-! ## Conversions -/

/-- The parameters as numbers. -/
structure Scales where
  pressure : ℝ
  halfWidth : ℝ
  viscosity : ℝ
  density : ℝ
  radius : ℝ

/-- `dimensionalise_pressure`, l.293-296. -/
noncomputable def dimPressure (s : Scales) (x : ℝ) (un : Bool) : ℝ := if un then x / s.pressure else x * s.pressure
/-- `dimensionalise_viscosity`, l.298-301. -/
noncomputable def dimViscosity (s : Scales) (x : ℝ) (un : Bool) : ℝ := if un then x / s.viscosity else x * s.viscosity
/-- `dimensionalise_density`, l.303-306. -/
noncomputable def dimDensity (s : Scales) (x : ℝ) (un : Bool) : ℝ := if un then x / s.density else x * s.density
/-- `dimensionalise_gap`, l.308-311. -/
noncomputable def dimGap (s : Scales) (x : ℝ) (un : Bool) : ℝ :=
  if un then s.radius / s.halfWidth ^ 2 * x else s.halfWidth ^ 2 / s.radius * x
/-- `dimensionalise_length`, l.313-316. -/
noncomputable def dimLength (s : Scales) (x : ℝ) (un : Bool) : ℝ := if un then x / s.halfWidth else x * s.halfWidth

/-! ## Solution -/

/-- A field. -/
abbrev Field (α : Type) := Nat → Nat → α

/-- The row order made for a length, l.238-246: start and stop. `forward` is `_step == 1`. -/
def rowOrder (forward periodic : Bool) (length : Nat) : ℤ × ℤ :=
  let s : ℤ := if forward then 1 else -1
  let base : ℤ × ℤ := if forward then (1, (length : ℤ) - 1) else ((length : ℤ) - 2, 0)
  if periodic then (base.1 - s, base.2 + s) else base

/-- `range(start, stop, step)` for a step of 1 or -1. -/
def pyRange (forward : Bool) (start stop : ℤ) : List ℤ :=
  if forward then (List.range (stop - start).toNat).map (fun k : Nat => start + (k : ℤ))
  else (List.range (start - stop).toNat).map (fun k : Nat => start - (k : ℤ))

/-- One row, l.275-281: the inner items of a row are replaced by the solution of the row. -/
def sweepRow {α : Type} (clip : α → α) (rowSolve : Field α → Nat → Nat → α) (width : Nat) (p : Field α) (row : Nat) : Field α :=
  fun i j => if j = row ∧ 1 ≤ i ∧ i + 1 < width then clip (rowSolve p row i) else p i j

/-- All rows, l.274-281. Rows outside of the field raise `IndexError`; a negative row counts from the end (it can't happen with a row
order made for the same length). -/
def sweep {α : Type} (clip : α → α) (rowSolve : Field α → Nat → Nat → α) (width length : Nat) : List ℤ → Field α → Except PyErr (Field α)
  | [], p => .ok p
  | r :: rest, p =>
    if 0 ≤ r ∧ r < length then sweep clip rowSolve width length rest (sweepRow clip rowSolve width p r.toNat)
    else if r < 0 ∧ -(length : ℤ) ≤ r then
      sweep clip rowSolve width length rest (sweepRow clip rowSolve width p (r + length).toNat)
    else .error .indexError

/-- The part of `solve` that computes the pressure, l.236-283: the cached row order is used if there is one (l.237). Returns the row
order that is kept and the pressure. -/
def solveWith {α : Type} (clip : α → α) (rowSolve : Field α → Nat → Nat → α) (forward periodic : Bool) (cachedOrder : Option (ℤ × ℤ))
    (width length : Nat) (p : Field α) : (ℤ × ℤ) × Except PyErr (Field α) :=
  let order := match cachedOrder with
    | some o => o
    | none => rowOrder forward periodic length
  (order, sweep clip rowSolve width length (pyRange forward order.1 order.2) p)

/-- `np.clip(x, 0, max_pressure)` with the values of floating point numbers: `nan` stays. -/
noncomputable def clipX (m : XR) (x : XR) : XR :=
  match x, m with
  | .nan, _ => .nan
  | _, .nan => .nan
  | x, m =>
    let y := if XR.lt x (.fin 0) then .fin 0 else x
    if XR.lt m y then m else y

/-- The same for numbers. -/
noncomputable def clipR (m x : ℝ) : ℝ := min (max x 0) m

/-! ### The row system -/

/-- The fields and constants that a row system is made of. -/
structure Data where
  width : Nat
  length : Nat
  gap : Field ℝ
  viscosity : Field ℝ
  density : Field ℝ
  prevDensity : Field ℝ
  prevGap : Field ℝ
  /-- `nd_grid_spacing` -/
  dx : ℝ
  /-- `nd_time_step` -/
  dt : ℝ
  lambdaBar : ℝ
  /-- `dimensionalise_gap(0.47e-9, True)` -/
  minGap : ℝ
  ak00 : ℝ
  ak10 : ℝ
  ak20 : ℝ

open Classical in
/-- `_get_epsilon`, l.287-291. -/
noncomputable def Data.epsilon (d : Data) : Field ℝ := fun i j =>
  if d.gap i j < d.minGap then 0 else d.density i j * d.gap i j ^ 3 / d.viscosity i j * (1 / d.lambdaBar)

open Classical in
/-- `recip_dt`, l.232. -/
noncomputable def Data.recipDt (d : Data) : ℝ := if d.dt ≠ 0 then 1 / d.dt else 0

/-- `recip_dx`, l.231. -/
noncomputable def Data.recipDx (d : Data) : ℝ := 1 / d.dx

/-- `recip_dx_squared_rho`, l.230. -/
noncomputable def Data.recipDx2Rho (d : Data) : Field ℝ := fun i j => 1 / (d.dx ^ 2 * d.density i j)

/-- `row_plus_1`, l.322. -/
def Data.rowPlus (d : Data) (row : Nat) : Nat := if row + 1 < d.length then row + 1 else 0

/-- The index `row - 1`; `-1` is the last row. -/
def Data.rowMinus (d : Data) (row : Nat) : Nat := if row = 0 then d.length - 1 else row - 1

/-- `d1`, `d2`, `d4`, `d5`, l.323-326. -/
noncomputable def Data.d1 (d : Data) (row i : Nat) : ℝ := 0.5 * (d.epsilon i row + d.epsilon (i - 1) row)
/-- See `d1`. -/
noncomputable def Data.d2 (d : Data) (row i : Nat) : ℝ := 0.5 * (d.epsilon i row + d.epsilon (i + 1) row)
/-- See `d1`. -/
noncomputable def Data.d4 (d : Data) (row i : Nat) : ℝ := 0.5 * (d.epsilon i row + d.epsilon i (d.rowMinus row))
/-- See `d1`. -/
noncomputable def Data.d5 (d : Data) (row i : Nat) : ℝ := 0.5 * (d.epsilon i row + d.epsilon i (d.rowPlus row))

/-- `q1`, l.329. -/
noncomputable def Data.q1 (d : Data) (p : Field ℝ) (row i : Nat) : ℝ :=
  d.ak10 * p (i - 1) row + d.ak00 * p i row + d.ak10 * p (i + 1) row
/-- `q2`, l.330. -/
noncomputable def Data.q2 (d : Data) (p : Field ℝ) (row i : Nat) : ℝ :=
  d.ak00 * p (i - 1) row + d.ak10 * p i row + d.ak20 * p (i + 1) row

/-- The coefficient of the inner item `i` in the lower diagonal, l.333, 339, 347, 354. -/
noncomputable def Data.coefA (d : Data) (row i : Nat) : ℝ :=
  d.d1 row i * d.recipDx2Rho i row + -1 * d.ak10 * d.recipDt + (d.ak00 - d.ak10) * d.recipDx

/-- Main diagonal, l.334, 340, 348, 355. -/
noncomputable def Data.coefB (d : Data) (row i : Nat) : ℝ :=
  -(d.d1 row i + d.d2 row i + d.d4 row i + d.d5 row i) * d.recipDx2Rho i row + -1 * d.ak00 * d.recipDt + (d.ak10 - d.ak00) * d.recipDx

/-- Upper diagonal, l.335, 341, 349, 356. -/
noncomputable def Data.coefC (d : Data) (row i : Nat) : ℝ :=
  d.d2 row i * d.recipDx2Rho i row + -1 * d.ak10 * d.recipDt + (d.ak20 - d.ak10) * d.recipDx

/-- Right-hand side, l.336, 342-343, 350-351, 357. -/
noncomputable def Data.coefF (d : Data) (p : Field ℝ) (row i : Nat) : ℝ :=
  -(d.d5 row i * p i (d.rowPlus row) + d.d4 row i * p i (d.rowMinus row)) * d.recipDx2Rho i row +
    ((d.gap i row - d.q1 p row i) - (d.prevDensity i row / d.density i row) * d.prevGap i row) * d.recipDt +
    (((d.gap i row - d.q1 p row i) - (d.gap (i - 1) row - d.q2 p row i)) * d.recipDx +
      d.gap i row * (1 - (d.density (i - 1) row / d.density i row)) * d.recipDx)

/-- `a_all` (length `width - 1`): item `k` belongs to row `k + 1` of the system; the last one is zero, l.271, 354. -/
noncomputable def Data.aAll (d : Data) (row k : Nat) : ℝ := if k + 2 < d.width then d.coefA row (k + 1) else 0
/-- `b_all`: ones at both ends, l.272, 355. -/
noncomputable def Data.bAll (d : Data) (row k : Nat) : ℝ := if 1 ≤ k ∧ k + 1 < d.width then d.coefB row k else 1
/-- `c_all` (length `width - 1`): the first one is zero, l.271, 356. -/
noncomputable def Data.cAll (d : Data) (row k : Nat) : ℝ := if 1 ≤ k ∧ k + 1 < d.width then d.coefC row k else 0
/-- `f_all`: zeros at both ends, l.272, 357. -/
noncomputable def Data.fAll (d : Data) (p : Field ℝ) (row k : Nat) : ℝ := if 1 ≤ k ∧ k + 1 < d.width then d.coefF p row k else 0

/-- The solution of a row before it is clipped, l.275-279. -/
noncomputable def Data.rowSolve (d : Data) (dgtsv : Tdma.Dgtsv) (p : Field ℝ) (row : Nat) : Nat → ℝ :=
  (Tdma.tdma dgtsv d.width (d.aAll row) (d.bAll row) (d.cAll row) (d.fAll p row)).1

/-- `solve`, l.214-285: the row order that is kept and the new pressure. -/
noncomputable def solve (d : Data) (dgtsv : Tdma.Dgtsv) (maxPressure : ℝ) (forward periodic : Bool) (cachedOrder : Option (ℤ × ℤ))
    (p : Field ℝ) : (ℤ × ℤ) × Except PyErr (Field ℝ) :=
  solveWith (clipR maxPressure) (fun q row i => d.rowSolve dgtsv q row i) forward periodic cachedOrder d.width d.length p

/-- The previous fields, l.221-227: those of the last time step, or the current ones in the first one (where they are also written into
the state of the caller). -/
def previousFields (density gap : Field ℝ) (prev : Option (Field ℝ × Field ℝ)) : Field ℝ × Field ℝ :=
  match prev with
  | none => (density, gap)
  | some p => p

end Verif.Reynolds
