import Mathlib.Analysis.SpecialFunctions.Complex.Arg
import Mathlib.Analysis.SpecialFunctions.Pow.Real
import Mathlib.Analysis.SpecialFunctions.Trigonometric.Arctan
import Mathlib.Analysis.SpecialFunctions.Trigonometric.Inverse
import Verif.Common
import Verif.XReal

/-!
# The full Hertz solution: model of `slippy/contact/hertz.py`, l.479-759 and the closures l.765-1221

Numbers are real numbers. Radii are real numbers or infinity; a relative radius is a value of `XR`, because `1 / 0` is `inf` in numpy.
`np.arctan2` sees the sign of a zero: the model carries it along (`atan2`). The root of the elliptical contact (`brentq` and the numerical
integrals `_i`, `_j`, l.721-731 and l.903-919) is a parameter of the model. The depths and stresses found by `scipy.optimize.minimize`
(l.653-662, l.690-695) are in `ShearModel.lean`. Not modelled: the sanitising of arguments except for zero radii, moduli that are zero.
-/

namespace Verif.HertzFull

/-- A radius argument. -/
inductive Radius where
  | fin (x : ℝ)
  | inf

/-- `1 / radius`. -/
noncomputable def Radius.curv : Radius → ℝ
  | .fin x => 1 / x
  | .inf => 0

/-- l.585-586: `angle % np.pi`, moved into [-π/2, π/2). -/
noncomputable def reduceAngle (angle : ℝ) : ℝ :=
  let m := angle - Real.pi * ⌊angle / Real.pi⌋
  if m < Real.pi / 2 then m else m - Real.pi

open Classical in
/-- `np.arctan2(y, x)`. `neg` is the sign bit of `y` if `y` is zero; a zero `x` is `+0.0`. -/
noncomputable def atan2 (y x : ℝ) (neg : Bool) : ℝ := if y = 0 ∧ neg = true ∧ x < 0 then -Real.pi else Complex.arg ⟨x, y⟩

open Classical in
/-- The sign bit of the product of the curvature difference `c` and `sin t`, for `t` in [-π, π). (For `t = -π` the floating point
`sin t` is a small negative number.) -/
noncomputable def negZero (c t : ℝ) : Bool := xor (decide (c < 0)) (decide (t < 0))

/-- l.597. -/
noncomputable def alpha (a b t : ℝ) : ℝ := atan2 (a * Real.sin t) (a * Real.cos t + b) (negZero a t) / 2

/-- l.598. -/
noncomputable def beta (a b t : ℝ) : ℝ := atan2 (b * Real.sin t) (b * Real.cos t + a) (negZero b t) / 2

/-- The arguments of the contact problem. -/
structure Args where
  r1x : Radius
  r1y : Radius
  r2x : Radius
  r2y : Radius
  e1 : ℝ
  e2 : ℝ
  v1 : ℝ
  v2 : ℝ
  load : ℝ
  angle : ℝ
  line : Bool

/-- `const_a`, l.594. -/
noncomputable def Args.constA (p : Args) : ℝ := p.r2x.curv - p.r2y.curv

/-- `const_b`, l.595. -/
noncomputable def Args.constB (p : Args) : ℝ := p.r1x.curv - p.r1y.curv

/-- The reduced angle. -/
noncomputable def Args.ang (p : Args) : ℝ := reduceAngle p.angle

noncomputable def Args.alpha (p : Args) : ℝ := HertzFull.alpha p.constA p.constB (2 * p.ang)

noncomputable def Args.beta (p : Args) : ℝ := HertzFull.beta p.constA p.constB (2 * p.ang)

/-- l.613: the curvature whose inverse is `r1_rel`. -/
noncomputable def Args.k1 (p : Args) : ℝ :=
  Real.cos p.alpha ^ 2 * p.r1x.curv + Real.sin p.alpha ^ 2 * p.r1y.curv + Real.cos p.beta ^ 2 * p.r2x.curv + Real.sin p.beta ^ 2 * p.r2y.curv

/-- l.614: the curvature whose inverse is `r2_rel`. -/
noncomputable def Args.k2 (p : Args) : ℝ :=
  Real.sin p.alpha ^ 2 * p.r1x.curv + Real.cos p.alpha ^ 2 * p.r1y.curv + Real.sin p.beta ^ 2 * p.r2x.curv + Real.cos p.beta ^ 2 * p.r2y.curv

/-- l.618. -/
noncomputable def Args.eStar (p : Args) : ℝ := 1 / ((1 - p.v1 ^ 2) / p.e1 + (1 - p.v2 ^ 2) / p.e2)

/-- l.706-710: the argument of `np.arccos`. -/
noncomputable def Args.cosOmega (p : Args) : ℝ :=
  Real.sqrt (p.constB ^ 2 + p.constA ^ 2 + p.constB * p.constA * Real.cos (2 * p.ang)) /
    (p.r1x.curv + p.r1y.curv + p.r2x.curv + p.r2y.curv)

/-! ## The pressure closures -/

/-- `_pressure_line_contact(a, load, neg)(x)`, l.1037-1042. -/
noncomputable def pressureLine (a load : ℝ) (neg : Bool) (x : ℝ) : ℝ :=
  let x := max (-1 * a) (min x a)
  let pressure := 2 * load / Real.pi / a ^ 2 * (a ^ 2 - x ^ 2) ^ (0.5 : ℝ)
  if neg then -1 * pressure else pressure

/-- `_pressure_spherical_contact(a, p0)(x, y)`, l.1169-1171. -/
noncomputable def pressureSphere (a p0 x y : ℝ) : ℝ :=
  let r := Real.sqrt (x ^ 2 + y ^ 2)
  let squared := max (1 - (r / a) ^ 2) 0
  p0 * squared ^ (0.5 : ℝ)

/-- `_transform_axes`, l.878-881. -/
noncomputable def transformAxes (x y angle : ℝ) : ℝ × ℝ :=
  (x * Real.cos angle - y * Real.sin angle, x * Real.sin angle + y * Real.cos angle)

/-- `_pressure_elliptical_contact(a, b, p0, alpha, beta)(x, y, transform)`, l.797-800, for `transform` 0, 1, 2. -/
noncomputable def pressureEllipse (a b p0 alpha beta x y : ℝ) (transform : Fin 3) : ℝ :=
  let xy := if transform = 0 then (x, y) else if transform = 1 then transformAxes x y alpha else transformAxes x y beta
  let squared := max (1 - (xy.1 / a) ^ 2 - (xy.2 / b) ^ 2) 0
  p0 * squared ^ (0.5 : ℝ)

inductive Shape where
  | line
  | sphere
  | ellipse
  deriving DecidableEq

/-- The part of the results dictionary that is modelled. -/
structure Result where
  shape : Shape
  alpha : ℝ
  beta : ℝ
  r1Rel : XR
  r2Rel : XR
  radiusA : XR
  radiusB : XR
  area : XR
  meanPressure : ℝ
  maxPressure : ℝ
  deflection : ℝ
  /-- `pressure_f` with the default `transform=0`; for a line contact the second argument is not used. -/
  pressure : ℝ → ℝ → ℝ

/-- `brentq` and the integrals of the elliptical contact: the factors `f`, `g` and the integral `_h(k)` as a function of `cos omega`, or `none`
if no root is found. -/
abbrev EllipseFinder := ℝ → Option (ℝ × ℝ × ℝ)

/-- Some radius is zero, l.1246. -/
def Radius.isZero : Radius → Prop
  | .fin x => x = 0
  | .inf => False

/-- The line contact branch, l.628-649. The smaller of the two relative radii is finite. -/
noncomputable def lineResult (p : Args) (r : ℝ) (r1Rel r2Rel : XR) : Result :=
  let a := Real.sqrt (4 * p.load * r / Real.pi / p.eStar)
  { shape := .line, alpha := p.alpha, beta := p.beta, r1Rel := r1Rel, r2Rel := r2Rel
    radiusA := match r1Rel with | .pinf => .pinf | _ => .fin a
    radiusB := match r2Rel with | .pinf => .pinf | _ => .fin a
    area := .pinf
    meanPressure := p.load / a
    maxPressure := 2 * p.load / Real.pi / a
    deflection := 1 / Real.pi / p.eStar * p.load * (Real.log (4 * Real.pi * p.eStar * r / p.load) - 1)
    pressure := fun x _ => pressureLine a p.load false x }

/-- The spherical branch, l.668-676. -/
noncomputable def sphereResult (p : Args) (r : ℝ) (r1Rel r2Rel : XR) : Result :=
  let a := (3 * p.load * r / 4 / p.eStar) ^ ((1 : ℝ) / 3)
  let area := Real.pi * a ^ 2
  { shape := .sphere, alpha := p.alpha, beta := p.beta, r1Rel := r1Rel, r2Rel := r2Rel
    radiusA := .fin a, radiusB := .fin a, area := .fin area
    meanPressure := p.load / area
    maxPressure := 3 * p.load / (2 * Real.pi * a ^ 2)
    deflection := a ^ 2 / r
    pressure := pressureSphere a (3 * p.load / (2 * Real.pi * a ^ 2)) }

/-- The elliptical branch, l.705-752. -/
noncomputable def ellipseResult (p : Args) (f g h : ℝ) (r1Rel r2Rel : XR) : Result :=
  let theta1 := 4 * (1 - p.v1 ^ 2) / p.e1
  let theta2 := 4 * (1 - p.v2 ^ 2) / p.e2
  let r := p.r1x.curv + p.r1y.curv + p.r2x.curv + p.r2y.curv
  let a := f * (3 * p.load / 8 / r * (theta1 + theta2)) ^ ((1 : ℝ) / 3)
  let b := g * (3 * p.load / 8 / r * (theta1 + theta2)) ^ ((1 : ℝ) / 3)
  let q := a * b * Real.pi
  let alpha1 := 3 * p.load * theta1 * h / a / 8 / Real.pi
  let p0 := 3 * p.load / 2 / q
  { shape := .ellipse, alpha := p.alpha, beta := p.beta, r1Rel := r1Rel, r2Rel := r2Rel
    radiusA := .fin a, radiusB := .fin b, area := .fin q
    meanPressure := p0 / q
    maxPressure := p0
    deflection := alpha1 + alpha1 * theta2 / theta1
    pressure := fun x y => if XR.lt r1Rel r2Rel then pressureEllipse a b p0 (p.alpha + Real.pi / 2) (p.beta + Real.pi / 2) x y 0
      else pressureEllipse a b p0 p.alpha p.beta x y 0 }

/-- `1 / k` in numpy. -/
noncomputable def recip (k : ℝ) : XR := XR.fin 1 / XR.fin k

open Classical in
/-- `hertz_full`, l.577-759. -/
noncomputable def hertzFull (ell : EllipseFinder) (p : Args) : Except PyErr Result :=
  if p.r1x.isZero ∨ p.r1y.isZero ∨ p.r2x.isZero ∨ p.r2y.isZero then .error .valueError
  else if p.load ≤ 0 then .error .valueError
  else if 1e-8 < |p.alpha + p.beta - p.ang| then .error .valueError
  else
    let r1Rel := recip p.k1
    let r2Rel := recip p.k2
    if XR.lt r1Rel (.fin 0) ∨ XR.lt r2Rel (.fin 0) then .error .valueError
    else if r1Rel = .pinf ∧ r2Rel = .pinf then .error .valueError
    else if XR.lt (.fin 1e5) (r1Rel / r2Rel) ∨ XR.lt (.fin 1e5) (r2Rel / r1Rel) then
      if p.line = false then .error .valueError
      else .ok (lineResult p (1 / max p.k1 p.k2) r1Rel r2Rel)
    else if r1Rel = r2Rel then
      if p.line = true then .error .valueError
      else .ok (sphereResult p (1 / p.k1) r1Rel r2Rel)
    else if p.line = true then .error .valueError
    else
      match ell p.cosOmega with
      | none => .error .valueError
      | some (f, g, h) => .ok (ellipseResult p f g h r1Rel r2Rel)

/-! ## The displacement and stress closures -/

/-- `_displacement_spherical_contact(young_modulus, v, a, p0)(x, y)['uz']`, l.1202-1211. -/
noncomputable def axialSphere (e v a p0 x y : ℝ) : ℝ :=
  let r := Real.sqrt (x ^ 2 + y ^ 2)
  if r ≤ a then ((1 - v ^ 2) * Real.pi * p0) / (e * 4 * a) * (2 * a ^ 2 - r ^ 2)
  else ((1 - v ^ 2) * p0) / (e * 2 * a) * ((2 * a ^ 2 - r ^ 2) * Real.arcsin (a / r) + r * a * Real.sqrt (1 - a ^ 2 / r ^ 2))

/-- `_displacement_spherical_contact(…)(x, y)['ur']`, l.1212-1218; the `nan` at the centre is replaced by zero. -/
noncomputable def radialSphere (e v a p0 x y : ℝ) : ℝ :=
  let r := Real.sqrt (x ^ 2 + y ^ 2)
  if r ≤ a then
    if r = 0 then 0
    else (1 - 2 * v) * (1 + v) * a ^ 2 * p0 / (3 * e * r) * (1 - (1 - r ^ 2 / a ^ 2) ^ ((3 : ℝ) / 2))
  else (1 - 2 * v) * (1 + v) * p0 * a ^ 2 / (3 * e * r)

/-- l.644-647: the maximum von Mises stress of a line contact for the Poisson ratio of one body. -/
noncomputable def vonMisesLine (p0 v : ℝ) : ℝ :=
  (if v ≤ 0.1938 then 1 / (1 + 4 * (v - 1) * v) ^ (0.5 : ℝ) else 1.164 + 2.975 * v - 2.906 * v ^ 2) * p0

/-- Three stress components. -/
structure Stress where
  r : ℝ
  theta : ℝ
  z : ℝ

/-- `_stress_z_axis_spherical(a, p0, v)(z)`, l.1082-1086, for `z ≠ 0`. -/
noncomputable def stressAxis (a p0 v z : ℝ) : Stress :=
  let s := p0 * (-(1 + v) * (1 - (z / a) * Real.arctan (a / z)) + 0.5 * 1 / (1 + z ^ 2 / a ^ 2))
  ⟨s, s, -p0 / (1 + z ^ 2 / a ^ 2)⟩

/-- `_stress_surface_spherical(a, p0, v)(r)`, l.1118-1132, for `r > 0`. -/
noncomputable def stressSurface (a p0 v r : ℝ) : Stress :=
  let r2a2 := r ^ 2 / a ^ 2
  if r ≤ a then
    ⟨p0 * ((1 - 2 * v) / 3 * (a ^ 2 / r ^ 2) * (1 - (1 - r2a2) ^ ((3 : ℝ) / 2)) - Real.sqrt (1 - r2a2)),
     -p0 * ((1 - 2 * v) / 3 * (a ^ 2 / r ^ 2) * (1 - (1 - r2a2) ^ ((3 : ℝ) / 2)) - 2 * v * Real.sqrt (1 - r2a2)),
     -Real.sqrt (1 - r2a2) * p0⟩
  else
    let out := p0 * (1 - 2 * v) * a ^ 2 / 3 / r ^ 2
    ⟨out, -out, 0⟩

/-- The stresses of a line contact in the x and z directions and the shear stress. -/
structure PlaneStress where
  x : ℝ
  z : ℝ
  xz : ℝ

/-- `np.sign`. -/
noncomputable def npSign (x : ℝ) : ℝ := if 0 < x then 1 else if x < 0 then -1 else 0

/-- `_stress_line_contact(a, p0)(x, z)`, l.976-987, where `m ** 2 + n ** 2` is not zero. -/
noncomputable def stressLine (a p0 x z : ℝ) : PlaneStress :=
  let a2 := a ^ 2
  let c := 0.5 * (Real.sqrt ((a2 - x ^ 2 + z ^ 2) ^ 2 + 4 * x ^ 2 * z ^ 2) + (a2 - x ^ 2 + z ^ 2))
  let m := npSign z * c
  let n := npSign x * c
  ⟨-1 * p0 / a * (m * (1 + (z ^ 2 + n ^ 2) / (m ^ 2 + n ^ 2)) - 2 * z),
   -1 * p0 / a * m * (1 + (z ^ 2 + n ^ 2) / (m ^ 2 + n ^ 2)),
   -1 * p0 / a * n * ((m ^ 2 - z ^ 2) / (m ^ 2 + n ^ 2))⟩

end Verif.HertzFull
