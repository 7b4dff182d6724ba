import Mathlib.Analysis.SpecialFunctions.Pow.Real
import Mathlib.Analysis.SpecialFunctions.Trigonometric.Basic
import Verif.Common

/-!
# Hertz parameter solvers: model of `slippy/contact/hertz.py`, l.23-476

Numbers are real numbers; `None` is `none`. An outcome is a value, a Python exception, or `notReal`: some field of the returned tuple is
`nan` (numpy square root of a negative number) or a complex number (Python power of a negative number with the exponent 1/3).

`max(solve(expr, symbol))` of sympy is `maxRoot` of the set of real solutions: sympy is trusted to return all of them. `dom` says where the
expression is defined over the reals (no denominator is zero, no fractional power of a negative number); if there is no real solution the
code raises an exception (`max` of an empty list or of complex numbers), modelled as `ValueError` in both cases.

A division of Python floats by zero raises `ZeroDivisionError`; this is modelled where the divisor is an argument of the solver.
`scipy.optimize.root` (l.372, only for a given tensile stress with one material parameter missing) is a parameter of the model.
-/

namespace Verif.Hertz

/-- What a solver call can end with. -/
inductive Outcome (α : Type) where
  | value (a : α)
  | notReal
  | raised (e : PyErr)

/-- Go on with a value; exceptions and values that are not real are passed on. -/
def Outcome.bind {α β : Type} (x : Outcome α) (f : α → Outcome β) : Outcome β :=
  match x with
  | .value a => f a
  | .notReal => .notReal
  | .raised e => .raised e

/-- Arithmetic on `None` is a `TypeError`. -/
def need (x : Option ℝ) : Outcome ℝ :=
  match x with
  | some a => .value a
  | none => .raised .typeError

open Classical in
/-- `max(solve(…))`: the largest real solution. -/
noncomputable def maxRoot (roots : Set ℝ) : Outcome ℝ :=
  if h : ∃ r, IsGreatest roots r then .value h.choose else .raised .valueError

/-- `np.sqrt`. -/
noncomputable def npSqrt (x : ℝ) : Outcome ℝ := if x < 0 then .notReal else .value (Real.sqrt x)

/-- `x ** (1 / 3)` of a Python float: a complex number for a negative base. -/
noncomputable def cubeRoot (x : ℝ) : Outcome ℝ := if x < 0 then .notReal else .value (x ^ ((1 : ℝ) / 3))

/-- l.117, l.188, l.307, l.379, l.458: `1 / ((1 - v1 ** 2) / e1 + (1 - v2 ** 2) / e2)`. -/
noncomputable def eStarOf (e1 e2 v1 v2 : ℝ) : Outcome ℝ :=
  if e1 = 0 ∨ e2 = 0 ∨ (1 - v1 ^ 2) / e1 + (1 - v2 ^ 2) / e2 = 0 then .raised .zeroDivisionError
  else .value (1 / ((1 - v1 ^ 2) / e1 + (1 - v2 ^ 2) / e2))

/-- The material parameters and the independent parameters of the `_system` dictionary, l.105 and l.294. -/
structure System where
  r : Option ℝ
  e1 : Option ℝ
  e2 : Option ℝ
  v1 : Option ℝ
  v2 : Option ℝ
  load : Option ℝ

/-- The key `is_none` of the parameter to be found. -/
inductive Unknown where
  | eStar
  | r
  | load
  deriving DecidableEq

/-- l.112-121 and l.303-311: which parameter is to be found. Given loads do not count: if everything is set the load is replaced. -/
def unknownOf (s : System) : Unknown :=
  if s.e1.isNone || s.e2.isNone || s.v1.isNone || s.v2.isNone then .eStar
  else if s.r.isNone then .r else .load

/-- l.117, l.307: the effective modulus if all material parameters are set. -/
noncomputable def knownEStar (s : System) : Outcome (Option ℝ) :=
  match s.e1, s.e2, s.v1, s.v2 with
  | some e1, some e2, some v1, some v2 => (eStarOf e1 e2 v1 v2).bind (fun e => .value (some e))
  | _, _, _, _ => .value none

/-- An equation in the load, the effective modulus and the radius, with its domain. -/
structure Equation where
  dom : ℝ → ℝ → ℝ → Prop
  expr : ℝ → ℝ → ℝ → ℝ

/-- The calls `max(solve(expr, _system[is_none]))`. -/
noncomputable def solveFor (u : Unknown) (q : Equation) (load eStar r : Option ℝ) : Outcome ℝ :=
  match u with
  | .load => (need eStar).bind fun e => (need r).bind fun r => maxRoot {x | q.dom x e r ∧ q.expr x e r = 0}
  | .eStar => (need load).bind fun p => (need r).bind fun r => maxRoot {x | q.dom p x r ∧ q.expr p x r = 0}
  | .r => (need load).bind fun p => (need eStar).bind fun e => maxRoot {x | q.dom p e x ∧ q.expr p e x = 0}

/-- The equation for the missing material parameter, l.163-165 and l.408-410. -/
noncomputable def materialExpr (e1 e2 v1 v2 eStar : ℝ) : ℝ := (1 - v1 ^ 2) / e1 + (1 - v2 ^ 2) / e2 - 1 / eStar

/-- l.143-167 and l.388-412: the missing material parameters from the effective modulus. -/
noncomputable def fillMaterials (s : System) (eStar : ℝ) : Outcome System :=
  match s.e1, s.e2, s.v1, s.v2 with
  | none, none, some v1, some v2 =>
      let e := eStar * (2 - v1 ^ 2 - v2 ^ 2)
      .value { s with e1 := some e, e2 := some e }
  | some e1, some e2, none, none =>
      if eStar = 0 ∨ e1 = 0 ∨ e2 = 0 then .raised .zeroDivisionError
      else (npSqrt ((1 / eStar * (1 / e1 + 1 / e2)) - 1)).bind fun v => .value { s with v1 := some v, v2 := some v }
  | none, some e2, some v1, some v2 =>
      if eStar = 0 ∨ e2 = 0 then .raised .zeroDivisionError
      else (maxRoot {x | x ≠ 0 ∧ materialExpr x e2 v1 v2 eStar = 0}).bind fun x => .value { s with e1 := some x }
  | some e1, none, some v1, some v2 =>
      if eStar = 0 ∨ e1 = 0 then .raised .zeroDivisionError
      else (maxRoot {x | x ≠ 0 ∧ materialExpr e1 x v1 v2 eStar = 0}).bind fun x => .value { s with e2 := some x }
  | some e1, some e2, none, some v2 =>
      if eStar = 0 ∨ e1 = 0 ∨ e2 = 0 then .raised .zeroDivisionError
      else (maxRoot {x | materialExpr e1 e2 x v2 eStar = 0}).bind fun x => .value { s with v1 := some x }
  | some e1, some e2, some v1, none =>
      if eStar = 0 ∨ e1 = 0 ∨ e2 = 0 then .raised .zeroDivisionError
      else (maxRoot {x | materialExpr e1 e2 v1 x eStar = 0}).bind fun x => .value { s with v2 := some x }
  | _, _, _, _ => .raised .valueError

/-- Put the number found where it belongs, l.141-167 and l.384-412. -/
noncomputable def storeFound (s : System) (u : Unknown) (x : ℝ) : Outcome System :=
  match u with
  | .load => .value { s with load := some x }
  | .r => .value { s with r := some x }
  | .eStar => fillMaterials s x

/-! ## Line contacts -/

/-- The named tuple `HertzLineSolution`, l.18-20. -/
structure LineSolution where
  r : ℝ
  e1 : ℝ
  e2 : ℝ
  v1 : ℝ
  v2 : ℝ
  load : ℝ
  eStar : ℝ
  width : ℝ
  maxPressure : ℝ
  maxShear : ℝ
  maxVonMises : ℝ

/-- l.189-190. -/
noncomputable def lineC (v1 : ℝ) : ℝ :=
  if v1 ≤ 0.1938 then 1 / (1 + 4 * (v1 - 1) * v1) ^ (0.5 : ℝ) else 1.164 + 2.975 * v1 - 2.906 * v1 ^ 2

/-- `_fill_hertz_solution_line`, l.172-201. -/
noncomputable def fillLine (s : System) : Outcome LineSolution :=
  (need s.v1).bind fun v1 => (need s.e1).bind fun e1 => (need s.v2).bind fun v2 => (need s.e2).bind fun e2 =>
  (need s.load).bind fun load => (need s.r).bind fun r =>
  (eStarOf e1 e2 v1 v2).bind fun eStar =>
  if r = 0 then .raised .zeroDivisionError else
  (npSqrt (4 * load * r / eStar / Real.pi)).bind fun width =>
  (npSqrt (load * eStar / Real.pi / r)).bind fun maxPressure =>
  .value { r := r, e1 := e1, e2 := e2, v1 := v1, v2 := v2, load := load, eStar := eStar, width := width,
           maxPressure := maxPressure, maxShear := maxPressure * 0.3, maxVonMises := maxPressure / lineC v1 }

/-- The derived arguments of `solve_hertz_line`, l.107. -/
structure LineDerived where
  maxPressure : Option ℝ
  maxShear : Option ℝ
  maxVonMises : Option ℝ
  width : Option ℝ

/-- l.126-127. -/
noncomputable def linePressureEq (p : ℝ) : Equation where
  dom := fun _ _ r => r ≠ 0
  expr := fun load e r => load * e / Real.pi / r - p ^ 2

/-- l.130-131. -/
noncomputable def lineShearEq (t : ℝ) : Equation where
  dom := fun _ _ r => r ≠ 0
  expr := fun load e r => 0.3 ^ 2 * load * e / Real.pi / r - t ^ 2

/-- l.137-138. -/
noncomputable def lineWidthEq (a : ℝ) : Equation where
  dom := fun _ e _ => e ≠ 0
  expr := fun load e r => 4 * load * r / Real.pi / e - a ^ 2

/-- l.124-140: the equation for the first derived argument that is set. -/
noncomputable def lineEquation (d : LineDerived) : Outcome Equation :=
  match d.maxPressure, d.maxShear, d.maxVonMises, d.width with
  | some p, _, _, _ => .value (linePressureEq p)
  | none, some t, _, _ => .value (lineShearEq t)
  | none, none, some _, _ => .raised .notImplementedError
  | none, none, none, some a => .value (lineWidthEq a)
  | none, none, none, none => .raised .valueError

/-- `solve_hertz_line`, l.23-169. -/
noncomputable def solveLine (s : System) (d : LineDerived) : Outcome LineSolution :=
  if d.maxPressure.isNone && d.maxShear.isNone && d.maxVonMises.isNone && d.width.isNone then fillLine s
  else
    (knownEStar s).bind fun eStar =>
    (lineEquation d).bind fun q =>
    (solveFor (unknownOf s) q s.load eStar s.r).bind fun x =>
    (storeFound s (unknownOf s) x).bind fun s' => fillLine s'

/-! ## Point contacts -/

/-- The named tuple `HertzPointSolution`, l.204-206. -/
structure PointSolution where
  r : ℝ
  e1 : ℝ
  e2 : ℝ
  v1 : ℝ
  v2 : ℝ
  load : ℝ
  eStar : ℝ
  radius : ℝ
  maxPressure : ℝ
  maxTensile : ℝ
  maxShear : ℝ
  maxVonMises : ℝ
  displacement : ℝ

/-- l.459. -/
noncomputable def pointC (v1 : ℝ) : ℝ := 1.30075 + 0.87825 * v1 + 0.54373 * v1 ^ 2

/-- `_fill_hertz_solution_point`, l.442-476. -/
noncomputable def fillPoint (s : System) : Outcome PointSolution :=
  (need s.v1).bind fun v1 => (need s.e1).bind fun e1 => (need s.v2).bind fun v2 => (need s.e2).bind fun e2 =>
  (need s.load).bind fun load => (need s.r).bind fun r =>
  (eStarOf e1 e2 v1 v2).bind fun eStar =>
  if r = 0 then .raised .zeroDivisionError else
  (cubeRoot (3 * load * r / 4 / eStar)).bind fun a =>
  (cubeRoot (6 * load * eStar ^ 2 / Real.pi ^ 3 / r ^ 2)).bind fun maxPressure =>
  .value { r := r, e1 := e1, e2 := e2, v1 := v1, v2 := v2, load := load, eStar := eStar, radius := a,
           maxPressure := maxPressure, maxTensile := (1 - 2 * v1) * maxPressure / 3, maxShear := 0.46 * maxPressure,
           maxVonMises := maxPressure * pointC v1, displacement := a ^ 2 / r }

/-- The derived arguments of `solve_hertz_point`, l.296. -/
structure PointDerived where
  maxPressure : Option ℝ
  maxShear : Option ℝ
  maxVonMises : Option ℝ
  radius : Option ℝ
  displacement : Option ℝ
  maxTensile : Option ℝ

/-- The cube of the maximum pressure, used in l.316, l.321, l.339, l.348, l.435. -/
noncomputable def pressureCubed (load e r : ℝ) : ℝ := 6 * load * e ^ 2 / Real.pi ^ 3 / r ^ 2

/-- l.316-317. -/
noncomputable def pointPressureEq (p : ℝ) : Equation where
  dom := fun _ _ r => r ≠ 0
  expr := fun load e r => pressureCubed load e r - p ^ 3

/-- l.321-322. -/
noncomputable def pointShearEq (t : ℝ) : Equation where
  dom := fun load e r => r ≠ 0 ∧ 0 ≤ pressureCubed load e r
  expr := fun load e r => 0.46 * (pressureCubed load e r ^ ((1 : ℝ) / 3)) - t

/-- l.330-331. -/
noncomputable def pointRadiusEq (a : ℝ) : Equation where
  dom := fun _ e _ => e ≠ 0
  expr := fun load e r => 3 * load * r / 4 / e - a ^ 3

/-- l.334-335. -/
noncomputable def pointDisplacementEq (d : ℝ) : Equation where
  dom := fun _ e r => e ≠ 0 ∧ r ≠ 0
  expr := fun load e r => 9 * load ^ 2 / 16 / r / e ^ 2 - d ^ 3

/-- l.339-342, the materials are known. -/
noncomputable def pointTensileEq (v1 t : ℝ) : Equation where
  dom := fun load e r => r ≠ 0 ∧ 0 ≤ pressureCubed load e r
  expr := fun load e r => (1 - 2 * v1) * (pressureCubed load e r ^ ((1 : ℝ) / 3)) / 3 - t

/-- l.314-335: the equation for the first derived argument that is set, if it is not the tensile stress. -/
noncomputable def pointEquation (d : PointDerived) : Outcome Equation :=
  match d.maxPressure, d.maxShear, d.maxVonMises, d.radius, d.displacement with
  | some p, _, _, _, _ => .value (pointPressureEq p)
  | none, some t, _, _, _ => .value (pointShearEq t)
  | none, none, some _, _, _ => .raised .notImplementedError
  | none, none, none, some a, _ => .value (pointRadiusEq a)
  | none, none, none, none, some u => .value (pointDisplacementEq u)
  | none, none, none, none, none => .raised .valueError

/-- l.435-437: the tensile stress as a function of the material parameters. -/
noncomputable def tensileOf (load r e1 e2 v1 v2 : ℝ) : ℝ :=
  (1 - 2 * v1) * (pressureCubed load (1 / ((1 - v1 ^ 2) / e1 + (1 - v2 ^ 2) / e2)) r ^ ((1 : ℝ) / 3)) / 3

/-- `scipy.optimize.root(f, x0)`: the point found, or `none` if it reports no success. -/
abbrev RootFinder := (ℝ → ℝ) → ℝ → Option ℝ

/-- l.366-377: one material parameter is missing and the tensile stress is given. The function handed to the root finder takes the absolute
value of the parameter, the value stored does not. -/
noncomputable def tensileOneMissing (root : RootFinder) (s : System) (t : ℝ) : Outcome System :=
  match s.load, s.r with
  | some load, some r =>
    match s.e1, s.e2, s.v1, s.v2 with
    | none, some e2, some v1, some v2 =>
        match root (fun x => tensileOf load r |x| e2 v1 v2 - t) 200e9 with
        | some x => .value { s with e1 := some x }
        | none => .raised .stopIteration
    | some e1, none, some v1, some v2 =>
        match root (fun x => tensileOf load r e1 |x| v1 v2 - t) 200e9 with
        | some x => .value { s with e2 := some x }
        | none => .raised .stopIteration
    | some e1, some e2, none, some v2 =>
        match root (fun x => tensileOf load r e1 e2 |x| v2 - t) 0.3 with
        | some x => .value { s with v1 := some x }
        | none => .raised .stopIteration
    | some e1, some e2, some v1, none =>
        match root (fun x => tensileOf load r e1 e2 v1 |x| - t) 0.3 with
        | some x => .value { s with v2 := some x }
        | none => .raised .stopIteration
    | _, _, _, _ => .raised .typeError
  | _, _ => .raised .typeError

/-- l.343-364: two material parameters are missing and the tensile stress is given. With both moduli missing the code looks up
`_system[None]`: `KeyError`. One modulus and one Poisson ratio missing: the materials stay `None`, which l.379 turns into `TypeError`. -/
noncomputable def tensileTwoMissing (s : System) (t : ℝ) : Outcome System :=
  match s.e1, s.e2, s.v1, s.v2 with
  | some e1, some e2, none, none =>
      (need s.load).bind fun load => (need s.r).bind fun r =>
      (maxRoot {v | v ^ 2 ≠ 1 ∧ r ≠ 0 ∧ 0 ≤ pressureCubed load (1 / ((1 - v ^ 2) / e1 + (1 - v ^ 2) / e2)) r ∧
        tensileOf load r e1 e2 v v - t = 0}).bind fun v =>
      .value { s with v1 := some v, v2 := some v }
  | none, none, some _, some _ => (need s.load).bind fun _ => (need s.r).bind fun _ => .raised .keyError
  | _, _, _, _ => .raised .typeError

/-- The number of missing material parameters, `sum(mats_none)`. -/
def missingCount (s : System) : ℕ :=
  s.e1.isNone.toNat + s.e2.isNone.toNat + s.v1.isNone.toNat + s.v2.isNone.toNat

/-- l.336-379 with the materials incomplete. With three or four missing the system still contains `None`: `TypeError` in l.379. -/
noncomputable def tensileMaterials (root : RootFinder) (s : System) (t : ℝ) : Outcome System :=
  if missingCount s = 2 then tensileTwoMissing s t
  else if missingCount s = 1 then tensileOneMissing root s t
  else .raised .typeError

/-- `solve_hertz_point`, l.209-414. -/
noncomputable def solvePoint (root : RootFinder) (s : System) (d : PointDerived) : Outcome PointSolution :=
  if d.maxPressure.isNone && d.maxShear.isNone && d.maxVonMises.isNone && d.radius.isNone && d.displacement.isNone &&
      d.maxTensile.isNone then fillPoint s
  else
    (knownEStar s).bind fun eStar =>
    if d.maxPressure.isNone && d.maxShear.isNone && d.maxVonMises.isNone && d.radius.isNone && d.displacement.isNone then
      (need d.maxTensile).bind fun t =>
      if unknownOf s = .eStar then (tensileMaterials root s t).bind fun s' => fillPoint s'
      else
        (need s.v1).bind fun v1 =>
        (solveFor (unknownOf s) (pointTensileEq v1 t) s.load eStar s.r).bind fun x =>
        (storeFound s (unknownOf s) x).bind fun s' => fillPoint s'
    else
      (pointEquation d).bind fun q =>
      (solveFor (unknownOf s) q s.load eStar s.r).bind fun x =>
      (storeFound s (unknownOf s) x).bind fun s' => fillPoint s'

end Verif.Hertz
