import Mathlib.Analysis.SpecialFunctions.Trigonometric.Basic
import Verif.Johnson.Model

/-!
# The iterations of the fit by moments: model of `su_fit`, `get_moments` and `sb_fit`, `slippy/surface/_johnson_utils.py` l.175-451

The arguments are Python floats, taken as real numbers: `math.sqrt` of a negative number is a `ValueError`, a division by zero a `ZeroDivisionError`. Overflow and
underflow of `math.exp` are not modelled.
-/

namespace Verif.Johnson

noncomputable section

open Classical in
/-- `math.sqrt`. -/
def msqrt (x : ℝ) : Except PyErr ℝ := if x < 0 then .error .valueError else .ok (√x)

open Classical in
/-- Division of floats. -/
def mdiv (x y : ℝ) : Except PyErr ℝ := if y = 0 then .error .zeroDivisionError else .ok (x / y)

/-! ## Unbounded -/

/-- What a pass of the loop leaves. -/
structure SuPass where
  w : ℝ
  m : ℝ
  z : ℝ

/-- One pass of the loop of `su_fit`, l.428-438. -/
def suStep (beta1 beta2 w : ℝ) : Except PyErr SuPass := do
  let b3 := beta2 - 3
  let w1 := w + 1
  let wm1 := w - 1
  let z := w1 * b3
  let v := w * (6 + w * (3 + w))
  let a := 8 * (wm1 * (3 + w * (7 + v)) - z)
  let b := 16 * (wm1 * (6 + v) - b3)
  let root ← msqrt (a ^ 2 - 2 * b * (wm1 * (3 + w * (9 + w * (10 + v))) - 2 * w1 * z))
  let m ← mdiv (root - a) b
  let z ← mdiv (m * wm1 * (4 * (w + 2) * m + 3 * w1 ^ 2) ^ 2) (2 * (2 * m + w1) ^ 3)
  let v := w ^ 2
  let q ← mdiv (beta1 * (beta2 - 1.5 - v * (1 + 0.5 * v))) z
  let root ← msqrt (1 - 2 * (1.5 - beta2 + q))
  let w ← msqrt (root - 1)
  return ⟨w, m, z⟩

open Classical in
/-- The loop, l.425-438, with at most `n` passes; `none` if it has not ended. -/
def suLoop (beta1 beta2 : ℝ) : ℕ → ℝ → Option (Except PyErr SuPass)
  | 0, _ => none
  | n + 1, w => match suStep beta1 beta2 w with
    | .error e => some (.error e)
    | .ok s => if tolerance < |beta1 - s.z| then suLoop beta1 beta2 n s.w else some (.ok s)

open Classical in
/-- `y`, l.439-441. -/
def suShape (rootBeta1 : ℝ) (s : SuPass) : Except PyErr ℝ := do
  let q ← mdiv s.m s.w
  let r1 ← msqrt q
  let r2 ← msqrt (q + 1)
  let y := Real.log (r1 + r2)
  return if 0 < rootBeta1 then y * -1 else y

/-- `su_fit` up to `y`, l.415-441, for skewness that is not small: `w` and `y`. The root of the first estimate is that of numbers that are large enough (`C136_first`). -/
def suIteration (n : ℕ) (rootBeta1 beta2 : ℝ) : Option (Except PyErr (ℝ × ℝ)) :=
  match suLoop (rootBeta1 ^ 2) beta2 n (suFirst (rootBeta1 ^ 2) beta2) with
  | none => none
  | some (.error e) => some (.error e)
  | some (.ok s) => match suShape rootBeta1 s with
    | .error e => some (.error e)
    | .ok y => some (.ok (s.w, y))

/-! ## The moments of bounded distributions -/

/-- The six moments; `a 0` is `moments[0]`, the mean. -/
abbrev Six := Fin 6 → ℝ

/-- `any([abs(A - B) / A > tol for A, B in zip(a, b)])`. -/
def Apart (tol : ℝ) (a b : Six) : Prop := ∃ i, tol < |a i - b i| / a i

/-- The variables of the inner loop. -/
structure Inner where
  a : Six
  b : Six
  u : ℝ
  t : ℝ
  y : ℝ
  v : ℝ

open Classical in
/-- The body of the inner loop, l.255-279. The quotients `p / z / z ..` are written as powers; as real numbers they are never zero, so that the `break` and the second assignment to `el` do nothing. -/
def innerBody (x f : ℝ) (s : Inner) : Inner :=
  let u := s.u - f
  let z := Real.exp u + 1
  let t := s.t + f
  let p := Real.exp (-s.v)
  let a : Six := fun i => if 23.7 < t then s.a i + p / z ^ (i.val + 1) else s.a i + p / z ^ (i.val + 1) + p / (Real.exp t + 1) ^ (i.val + 1)
  let y := s.y + x
  ⟨a, s.a, u, t, y, s.v + y⟩

open Classical in
/-- The inner loop, l.251-283, with `n` passes left before `StopIteration`. -/
def inner (x f : ℝ) : ℕ → Inner → Except PyErr Inner
  | 0, s => if Apart 1e-8 s.a s.b then .error .stopIteration else .ok s
  | n + 1, s =>
    if Apart 1e-8 s.a s.b then
      if ∃ i, (innerBody x f s).a i = 0 then .error .valueError else inner x f n (innerBody x f s)
    else .ok s

/-- The variables of the outer loop. -/
structure Outer where
  a : Six
  b : Six
  c : Six
  h : ℝ

/-- What the inner loop starts with, l.237-248; `b` is that of the previous pass of the outer loop. -/
def innerStart (w e h : ℝ) (b : Six) : Inner := ⟨fun i => 1 / e ^ (i.val + 1), b, w, w, h ^ 2, h ^ 2⟩

/-- The body of the outer loop, l.231-286. -/
def outerBody (w e r : ℝ) (first : Bool) (s : Outer) : Except PyErr Outer :=
  match inner (2 * (s.h * 0.5) ^ 2) (r * (s.h * 0.5)) 500 (innerStart w e (s.h * 0.5) s.b) with
  | .error err => .error err
  | .ok i => .ok ⟨fun j => i.a j * (1 / √Real.pi * (s.h * 0.5)), i.b, if first then s.c else s.a, s.h * 0.5⟩

open Classical in
/-- The outer loop, l.227-288. -/
def outer (w e r : ℝ) : ℕ → Bool → Outer → Except PyErr Outer
  | 0, _, s => if Apart 1e-5 s.a s.c then .error .stopIteration else .ok s
  | n + 1, first, s =>
    if Apart 1e-5 s.a s.c then
      match outerBody w e r first s with
      | .error err => .error err
      | .ok s' => outer w e r n false s'
    else .ok s

open Classical in
/-- `get_moments`, l.175-289, with the default arguments, which are those of its only call. -/
def getMoments (g d : ℝ) : Except PyErr Six :=
  match mdiv g d with
  | .error err => .error err
  | .ok w =>
    if 80 < w then .error .valueError
    else
      match outer w (Real.exp w + 1) (√2 / d) 500 true ⟨fun _ => 1, fun _ => 0, fun _ => 0, (if d < 3 then 0.25 * d else 0.75) * 2⟩ with
      | .error err => .error err
      | .ok s => .ok s.a

/-! ## Bounded -/

open Classical in
/-- `f` of l.306-313: a factor of the first estimate. -/
def sbFactor (rootBeta1 : ℝ) : ℝ :=
  if |rootBeta1| < tolerance then 2
  else
    let d := 1 / √(Real.log (omegaOf |rootBeta1|))
    if 0.04 ≤ d then 2 - 8.5245 / (d * (d * (d - 2.163) + 11.346)) else 1.25 * d

open Classical in
/-- The first estimate of `delta`, l.294-319. The bases of the power are positive (`C137_first_partial`). -/
def sbFirstDelta (rootBeta1 beta2 : ℝ) : ℝ :=
  let beta1 := rootBeta1 ^ 2
  let e := (beta2 - (beta1 + 1)) / (beta2Lognormal (omegaOf |rootBeta1|) - (beta1 + 1))
  let f := e * sbFactor rootBeta1 + 1
  if f < 1.8 then 0.8 * (f - 1) else (0.626 * f - 0.408) * (3 - f) ^ (-0.479 : ℝ)

open Classical in
/-- The first estimate of `gamma`, l.323-334, for a `delta` that is not negative. -/
def sbFirstGamma (rootBeta1 d : ℝ) : ℝ :=
  let beta1 := rootBeta1 ^ 2
  if tolerance ^ 2 < beta1 then
    if d ≤ 1 then (0.7466 * d ^ (1.7973 : ℝ) + 0.5955) * beta1 ^ (0.485 : ℝ)
    else if d ≤ 2.5 then beta1 ^ (0.0623 * d + 0.5291) * (0.9281 + d * (1.0614 * d - 0.7077))
    else beta1 ^ (0.0124 * d + 0.5291) * (0.9281 + d * (1.0614 * d - 0.7077))
  else 0

/-- `h2`, `h3` and `h4`, l.353-363. -/
def central2 (a : Six) : ℝ := a 1 - a 0 ^ 2
def central3 (a : Six) : ℝ := a 2 - a 0 * (3 * a 1 - 2 * a 0 ^ 2)
def central4 (a : Six) : ℝ := a 3 - a 0 * (4 * a 2 - a 0 * (6 * a 1 - 3 * a 0 ^ 2))

/-- `rbet` and `bet2`, l.361-364. -/
def skewOf (a : Six) : ℝ := central3 a / (√(central2 a) * central2 a)
def kurtosisOf (a : Six) : ℝ := central4 a / central2 a ^ 2

/-- `dd[k - 1]` for `j = 1` and for `j = 2`, l.365-378; `k` from 1 to 4. -/
def ddGamma (d : ℝ) (a : Six) (k : Fin 4) : ℝ := ((k.val + 1 : ℕ) : ℝ) * (a k.succ.castSucc - a k.castSucc.castSucc) / d
def ddDelta (g d : ℝ) (a : Six) (k : Fin 4) : ℝ :=
  let t : ℝ := ((k.val + 1 : ℕ) : ℝ)
  t * (((g * d - t) * (a k.castSucc.castSucc - a k.succ.castSucc) + (t + 1) * (a k.succ.castSucc - a k.succ.succ)) / d ^ 2) / d

/-- `deriv[j - 1]`, l.379-383. -/
def dSkew (a : Six) (dd : Fin 4 → ℝ) : ℝ :=
  let t := 2 * a 0 * dd 0
  let s := a 0 * dd 1
  let y := dd 1 - t
  (dd 2 - 3 * (s + a 1 * dd 0 - t * a 0) * (-1.5) * central3 a * y / central2 a) / (√(central2 a) * central2 a)

/-- `deriv[j + 1]`, l.384-386. -/
def dKurt (a : Six) (dd : Fin 4 → ℝ) : ℝ :=
  let t := 2 * a 0 * dd 0
  let s := a 0 * dd 1
  let y := dd 1 - t
  (dd 3 - 4 * (dd 2 * a 0 + dd 0 * a 2) + 6 * (a 1 * t + a 0 * (s - t * a 0)) - 2 * central4 a * y / central2 a) / central2 a ^ 2

/-- What a pass leaves: the moments, the steps and the new estimates. -/
structure SbPass where
  a : Six
  u : ℝ
  y : ℝ
  g : ℝ
  d : ℝ

open Classical in
/-- A pass of the iteration of `sb_fit`, l.351-397. `moments` is `get_moments`. -/
def sbStep (moments : ℝ → ℝ → Except PyErr Six) (rootBeta1 beta2 g d : ℝ) : Except PyErr SbPass :=
  match moments g d with
  | .error err => .error err
  | .ok a =>
    if central2 a ≤ 0 then .error .valueError
    else
      let d0 := dSkew a (ddGamma d a)
      let d1 := dSkew a (ddDelta g d a)
      let d2 := dKurt a (ddGamma d a)
      let d3 := dKurt a (ddDelta g d a)
      match mdiv 1 (d0 * d3 - d1 * d2) with
      | .error err => .error err
      | .ok t =>
        let u := (d3 * (skewOf a - |rootBeta1|) - d1 * (kurtosisOf a - beta2)) * t
        let y := (d0 * (kurtosisOf a - beta2) - d2 * (skewOf a - |rootBeta1|)) * t
        .ok ⟨a, u, y, if rootBeta1 ^ 2 = 0 ∨ g - u < 0 then 0 else g - u, d - y⟩

open Classical in
/-- The iteration, l.337-397, with `n` passes left. -/
def sbLoop (moments : ℝ → ℝ → Except PyErr Six) (rootBeta1 beta2 : ℝ) : ℕ → ℝ → ℝ → Except PyErr SbPass
  | 0, _, _ => .error .valueError
  | n + 1, g, d =>
    match sbStep moments rootBeta1 beta2 g d with
    | .error err => .error err
    | .ok s => if tolerance ^ 2 < |s.u| ∨ tolerance ^ 2 < |s.y| then sbLoop moments rootBeta1 beta2 n s.g s.d else .ok s

open Classical in
/-- The end of `sb_fit`, l.401-410, and the distribution, l.463. -/
def sbEnd (mean sd rootBeta1 : ℝ) (s : SbPass) : Dist :=
  let xlam := sd / √(central2 s.a)
  .johnsonsb (if rootBeta1 < 0 then -s.g else s.g) s.d (mean - xlam * (if rootBeta1 < 0 then 1 - s.a 0 else s.a 0)) xlam

open Classical in
/-- `sb_fit`, l.291-410. A negative first estimate of `delta` makes the first estimate of `gamma` a complex number, and the comparison in `get_moments` a `TypeError`. -/
def sbFit (moments : ℝ → ℝ → Except PyErr Six) (mean sd rootBeta1 beta2 : ℝ) : Except PyErr Dist :=
  let d := sbFirstDelta rootBeta1 beta2
  if d < 0 then .error .typeError
  else match sbLoop moments rootBeta1 beta2 1000 (sbFirstGamma rootBeta1 d) d with
    | .error err => .error err
    | .ok s => .ok (sbEnd mean sd rootBeta1 s)

/-- The bounded branch of `_fit_johnson_by_moments`, l.453-463: a `TypeError` is caught. -/
def sbBranch (moments : ℝ → ℝ → Except PyErr Six) (mean sd rootBeta1 beta2 : ℝ) : Except PyErr Dist :=
  match sbFit moments mean sd rootBeta1 beta2 with
  | .error .typeError => slFit mean sd rootBeta1 (omegaOf rootBeta1)
  | r => r

end

end Verif.Johnson
