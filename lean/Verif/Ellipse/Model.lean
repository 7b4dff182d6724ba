import Mathlib.MeasureTheory.Integral.IntervalIntegral.Basic
import Mathlib.Analysis.SpecialFunctions.Trigonometric.Basic
import Verif.HertzFull.Model

/-!
# The elliptical contact: model of `slippy/contact/hertz.py`, l.721-756 and l.805-919

`scipy.integrate.quad` is the integral, `scipy.special.ellipk` and `ellipe` are the complete elliptic integrals of the parameter `m` that the
documentation of scipy defines. `scipy.optimize.brentq` is any function that gets the function, the ends of the bracket, and answers with a
number or with `ValueError`.
-/

namespace Verif.Ellipse

open Verif.HertzFull

/-! ## The integrals -/

/-- `scipy.special.ellipk(m)`. -/
noncomputable def ellipk (m : ℝ) : ℝ := ∫ t in (0 : ℝ)..(Real.pi / 2), 1 / Real.sqrt (1 - m * Real.sin t ^ 2)

/-- `scipy.special.ellipe(m)`. -/
noncomputable def ellipe (m : ℝ) : ℝ := ∫ t in (0 : ℝ)..(Real.pi / 2), Real.sqrt (1 - m * Real.sin t ^ 2)

/-- `_h`, l.895-900. -/
noncomputable def intH (k : ℝ) : ℝ := ∫ t in (0 : ℝ)..(Real.pi / 2), 1 / Real.sqrt (1 - (1 - k ^ 2) * Real.sin t ^ 2)

/-- `_i`, l.903-909. -/
noncomputable def intI (k : ℝ) : ℝ :=
  ∫ t in (0 : ℝ)..(Real.pi / 2), Real.cos t ^ 2 / Real.sqrt ((1 - (1 - k ^ 2) * Real.sin t ^ 2) ^ 3)

/-- `_j`, l.912-919. -/
noncomputable def intJ (k : ℝ) : ℝ :=
  if k = 0 then 0
  else ∫ t in (0 : ℝ)..(Real.pi / 2), Real.cos t ^ 2 / Real.sqrt ((1 - (1 - 1 / k ^ 2) * Real.sin t ^ 2) ^ 3)

/-! ## The radii of the contact -/

/-- `_k_root`, l.887-892. -/
noncomputable def kRoot (omega k : ℝ) : ℝ := k ^ 3 / Real.tan (omega / 2) ^ 2 - intJ k / intI k

/-- `scipy.optimize.brentq(f, lower, upper)`; `none` is `ValueError`. -/
abbrev RootFinder := (ℝ → ℝ) → ℝ → ℝ → Option ℝ

/-- l.721-731 and l.738: the factors `f` and `g` and the integral `_h(k)`, from the argument of `np.arccos`. Above one the angle is `nan`; what `brentq`
does with it is not modelled, here it fails. -/
noncomputable def finder (root : RootFinder) : EllipseFinder := fun cosOmega =>
  if 1 < cosOmega then none else
  let omega := Real.arccos cosOmega
  match root (kRoot omega) 0.00001 1 with
  | none => none
  | some k =>
    some ((2 * intI k / Real.pi / Real.sin (omega / 2) ^ 2) ^ ((1 : ℝ) / 3),
      (2 * intJ k / Real.pi / Real.cos (omega / 2) ^ 2) ^ ((1 : ℝ) / 3), intH k)

/-- `hertz_full` with the integrals and the root finder put in. -/
noncomputable def hertz (root : RootFinder) (p : Args) : Except PyErr Result := hertzFull (finder root) p

/-- `results['deflection_b']`, l.738-739 and l.753. -/
noncomputable def deflections (p : Args) (h a : ℝ) : ℝ × ℝ :=
  let theta1 := 4 * (1 - p.v1 ^ 2) / p.e1
  let theta2 := 4 * (1 - p.v2 ^ 2) / p.e2
  let alpha1 := 3 * p.load * theta1 * h / a / 8 / Real.pi
  (alpha1, alpha1 * theta2 / theta1)

/-! ## The displacement of the surface -/

/-- What the closure holds: the variables `l_johnson`, `m_johnson`, `n_johnson`, l.810-812. `unset` is `None`; `nan` are the values after a
division of zero by zero in numpy. -/
inductive Memo where
  | unset
  | nan
  | values (l m n : ℝ)

/-- The arguments of `_displacement_elliptical`, l.805. -/
structure Closure where
  a : ℝ
  b : ℝ
  p0 : ℝ
  alpha : ℝ
  beta : ℝ
  v : ℝ
  modulus : ℝ

/-- l.846-855. -/
noncomputable def Closure.fill (c : Closure) : Memo → Except PyErr Memo
  | .unset =>
    if c.a < c.b then .error .valueError
    else
      let e := (1 - c.b ^ 2 / c.a ^ 2) ^ (0.5 : ℝ)
      if e = 0 then .ok .nan
      else .ok (.values (Real.pi * c.p0 * c.b * ellipk e)
        (Real.pi * c.p0 * c.b / e ^ 2 / c.a ^ 2 * (ellipk e - ellipe e))
        (Real.pi * c.p0 * c.b / c.a ^ 2 / e ^ 2 * ((c.a ^ 2 / c.b ^ 2) * ellipe e - ellipk e)))
  | m => .ok m

/-- l.857-858: the list of two angles is indexed by `transform - 1`. -/
noncomputable def Closure.turn (c : Closure) (x y : ℝ) (transform : ℤ) : Except PyErr (ℝ × ℝ) :=
  if transform = 0 then .ok (x, y)
  else if transform = 1 ∨ transform = -1 then .ok (transformAxes x y c.alpha)
  else if transform = 2 then .ok (transformAxes x y c.beta)
  else .error .indexError

/-- One call at one point, l.845-865, with the variables that stay in the closure; a result `none` is `nan`. -/
noncomputable def Closure.call (c : Closure) (memo : Memo) (x y : ℝ) (transform : ℤ) : Memo × Except PyErr (Option ℝ) :=
  match c.fill memo with
  | .error e => (memo, .error e)
  | .ok memo =>
    (memo, do
      let (x, y) ← c.turn x y transform
      if max (1 - (x / c.a) ^ 2 - (y / c.b) ^ 2) 0 = 0 then return none
      match memo with
      | .values l m n => return some ((1 - c.v ^ 2) / c.modulus / Real.pi * (l - m * x ^ 2 - n * y ^ 2))
      | _ => return none)

/-- The answers of a sequence of calls. -/
noncomputable def Closure.calls (c : Closure) : Memo → List (ℝ × ℝ × ℤ) → List (Except PyErr (Option ℝ))
  | _, [] => []
  | memo, (x, y, t) :: rest =>
    let (memo, out) := c.call memo x y t
    out :: c.calls memo rest

/-- The closure of the body with the numbers `v` and `modulus`, l.742, l.744-745 and l.755-756. -/
noncomputable def closure (p : Args) (f g h : ℝ) (first : Bool) : Closure :=
  let c := (3 * p.load / 8 / (p.r1x.curv + p.r1y.curv + p.r2x.curv + p.r2y.curv) *
    (4 * (1 - p.v1 ^ 2) / p.e1 + 4 * (1 - p.v2 ^ 2) / p.e2)) ^ ((1 : ℝ) / 3)
  let a := f * c
  let b := g * c
  let p0 := 3 * p.load / 2 / (a * b * Real.pi)
  let swap := XR.lt (recip p.k1) (recip p.k2)
  { a := a, b := b, p0 := p0
    alpha := if swap then p.alpha + Real.pi / 2 else p.alpha
    beta := if swap then p.beta + Real.pi / 2 else p.beta
    v := if first then p.v1 else p.v2
    modulus := if first then p.e1 else p.e2 }

end Verif.Ellipse
