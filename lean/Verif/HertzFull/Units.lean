import Verif.HertzFull.ShearProps
import Verif.HertzFull.Solution
import Verif.HertzFull.Fields
import Verif.Hertz.Units

/-!
# C173: the full Hertz solution in other units

`hertz_full`, `slippy/contact/hertz.py` l.479-759 and the closures l.765-1221 (models `Model` and `ShearModel`), with lengths, moduli and loads given in other units. `Units` is that of C172: the load of a line contact is a force for each unit of length.
-/

namespace Verif.HertzFull

open Hertz (Units)

/-! ## Specification -/

/-- A radius in another unit. -/
def Radius.times (k : ℝ) : Radius → Radius
  | .fin x => .fin (k * x)
  | .inf => .inf

/-- A number that may be infinite in another unit. -/
def timesXR (k : ℝ) : XR → XR
  | .fin x => .fin (k * x)
  | .pinf => .pinf
  | .ninf => .ninf
  | .nan => .nan

/-- The unit of the load. -/
def loadUnit (u : Units) (line : Bool) : ℝ := if line then u.lineLoad else u.pointLoad

/-- The arguments in other units. -/
def Args.inUnits (u : Units) (p : Args) : Args :=
  { p with r1x := p.r1x.times u.length, r1y := p.r1y.times u.length, r2x := p.r2x.times u.length, r2y := p.r2y.times u.length
           e1 := u.stress * p.e1, e2 := u.stress * p.e2, load := loadUnit u p.line * p.load }

/-- The results in other units: angles stay, radii and the deflection are lengths, the area is an area, pressures are stresses, and the pressure at a point is that at the same point. -/
noncomputable def Result.inUnits (u : Units) (r : Result) : Result where
  shape := r.shape
  alpha := r.alpha
  beta := r.beta
  r1Rel := timesXR u.length r.r1Rel
  r2Rel := timesXR u.length r.r2Rel
  radiusA := timesXR u.length r.radiusA
  radiusB := timesXR u.length r.radiusB
  area := timesXR (u.length ^ 2) r.area
  meanPressure := u.stress * r.meanPressure
  maxPressure := u.stress * r.maxPressure
  deflection := u.length * r.deflection
  pressure := fun x y => u.stress * r.pressure (x / u.length) (y / u.length)

/-! ## Curvatures and angles -/

theorem curv_units (k : ℝ) (r : Radius) : (r.times k).curv = k⁻¹ * r.curv := by
  cases r with
  | inf => simp [Radius.times, Radius.curv]
  | fin x => simp only [Radius.times, Radius.curv, one_div, mul_inv]

theorem isZero_units {k : ℝ} (hk : 0 < k) (r : Radius) : (r.times k).isZero ↔ r.isZero := by
  cases r with
  | inf => rfl
  | fin x => simp [Radius.times, Radius.isZero, hk.ne']

theorem atan2_scale {k : ℝ} (hk : 0 < k) (y x : ℝ) (neg : Bool) : atan2 (k * y) (k * x) neg = atan2 y x neg := by
  unfold atan2
  have h1 : (k * y = 0 ∧ neg = true ∧ k * x < 0) ↔ (y = 0 ∧ neg = true ∧ x < 0) := by
    rw [mul_eq_zero, or_iff_right hk.ne', mul_neg_iff]
    simp [hk, not_lt.2 hk.le]
  have h2 : Complex.arg ⟨k * x, k * y⟩ = Complex.arg ⟨x, y⟩ := by
    rw [← Complex.arg_real_mul ⟨x, y⟩ hk]
    congr 1
    apply Complex.ext <;> simp
  by_cases h : y = 0 ∧ neg = true ∧ x < 0
  · rw [if_pos h, if_pos (h1.2 h)]
  · rw [if_neg h, if_neg fun e => h (h1.1 e), h2]

theorem negZero_scale {k : ℝ} (hk : 0 < k) (c t : ℝ) : negZero (k * c) t = negZero c t := by
  unfold negZero
  have : (k * c < 0) = (c < 0) := by
    rw [mul_neg_iff]
    simp [hk, not_lt.2 hk.le]
  simp only [this]

section
variable (u : Units) (p : Args)

theorem constA_units : (p.inUnits u).constA = u.length⁻¹ * p.constA := by
  unfold Args.constA
  simp only [Args.inUnits, curv_units]
  ring

theorem constB_units : (p.inUnits u).constB = u.length⁻¹ * p.constB := by
  unfold Args.constB
  simp only [Args.inUnits, curv_units]
  ring

theorem ang_units : (p.inUnits u).ang = p.ang := rfl

theorem alpha_units : (p.inUnits u).alpha = p.alpha := by
  have hk := inv_pos.2 u.length_pos
  unfold Args.alpha HertzFull.alpha
  rw [constA_units, constB_units, ang_units, negZero_scale hk, mul_assoc, mul_assoc, ← mul_add, atan2_scale hk]

theorem beta_units : (p.inUnits u).beta = p.beta := by
  have hk := inv_pos.2 u.length_pos
  unfold Args.beta HertzFull.beta
  rw [constA_units, constB_units, ang_units, negZero_scale hk, mul_assoc, mul_assoc, ← mul_add, atan2_scale hk]

theorem k1_units : (p.inUnits u).k1 = u.length⁻¹ * p.k1 := by
  unfold Args.k1
  rw [alpha_units, beta_units]
  simp only [Args.inUnits, curv_units]
  ring

theorem k2_units : (p.inUnits u).k2 = u.length⁻¹ * p.k2 := by
  unfold Args.k2
  rw [alpha_units, beta_units]
  simp only [Args.inUnits, curv_units]
  ring

theorem eStar_units : (p.inUnits u).eStar = u.stress * p.eStar := by
  unfold Args.eStar
  simp only [Args.inUnits]
  rw [Hertz.comp_scale, one_div, mul_inv, inv_inv, one_div]

theorem cosOmega_units : (p.inUnits u).cosOmega = p.cosOmega := by
  have hk := inv_pos.2 u.length_pos
  unfold Args.cosOmega
  rw [constA_units, constB_units, ang_units]
  simp only [Args.inUnits, curv_units]
  rw [show (u.length⁻¹ * p.constB) ^ 2 + (u.length⁻¹ * p.constA) ^ 2 + u.length⁻¹ * p.constB * (u.length⁻¹ * p.constA) * Real.cos (2 * p.ang) =
      u.length⁻¹ ^ 2 * (p.constB ^ 2 + p.constA ^ 2 + p.constB * p.constA * Real.cos (2 * p.ang)) by ring, Real.sqrt_mul (sq_nonneg _), Real.sqrt_sq hk.le, ← mul_add, ← mul_add, ← mul_add, mul_div_mul_left _ _ hk.ne']

end

/-! ## Numbers that may be infinite -/

theorem signInf_scale {k : ℝ} (hk : 0 < k) (x : ℝ) : XR.signInf (k * x) = XR.signInf x := by
  unfold XR.signInf
  have h1 : (0 < k * x) = (0 < x) := propext (mul_pos_iff_of_pos_left hk)
  have h2 : (k * x < 0) = (x < 0) := by rw [mul_neg_iff]; simp [hk, not_lt.2 hk.le]
  simp only [h1, h2]

theorem recip_units {k : ℝ} (hk : 0 < k) (x : ℝ) : recip (k⁻¹ * x) = timesXR k (recip x) := by
  unfold recip
  by_cases h : x = 0
  · subst h
    simp [XR.div_def, XR.div, XR.signInf, timesXR]
  · rw [XR.fin_div _ h, XR.fin_div _ (mul_ne_zero (inv_pos.2 hk).ne' h)]
    simp only [timesXR, XR.fin_inj]
    field_simp

theorem lt_units {k : ℝ} (hk : 0 < k) (a b : XR) : XR.lt (timesXR k a) (timesXR k b) = XR.lt a b := by
  cases a <;> cases b <;> simp [timesXR, XR.lt, hk]

theorem lt_zero_units {k : ℝ} (hk : 0 < k) (a : XR) : XR.lt (timesXR k a) (.fin 0) = XR.lt a (.fin 0) := by
  have := lt_units hk a (.fin 0)
  simpa [timesXR] using this

theorem ratio_units {k : ℝ} (hk : 0 < k) (a b : XR) : timesXR k a / timesXR k b = a / b := by
  have h2 : ∀ y : ℝ, (k * y < 0) = (y < 0) := fun y => by rw [mul_neg_iff]; simp [hk, not_lt.2 hk.le]
  cases a <;> cases b <;> simp only [timesXR, XR.div_def, XR.div, signInf_scale hk, mul_eq_zero, hk.ne', false_or, h2, mul_div_mul_left _ _ hk.ne']

theorem eq_units {k : ℝ} (hk : 0 < k) (a b : XR) : timesXR k a = timesXR k b ↔ a = b := by
  cases a <;> cases b <;> simp [timesXR, hk.ne']

theorem pinf_units (k : ℝ) (a : XR) : timesXR k a = .pinf ↔ a = .pinf := by
  cases a <;> simp [timesXR]

/-! ## Powers -/

theorem rpow_scale {k : ℝ} (hk : 0 < k) (x y : ℝ) : (k * x) ^ y = k ^ y * x ^ y := by
  rcases le_or_gt 0 x with h | h
  · exact Real.mul_rpow hk.le h
  · rw [Real.rpow_def_of_neg (mul_neg_of_pos_of_neg hk h), Real.rpow_def_of_neg h, Real.rpow_def_of_pos hk, Real.log_mul hk.ne' h.ne, add_mul, Real.exp_add]
    ring

theorem third_scale {k : ℝ} (hk : 0 < k) (x : ℝ) : (k ^ 3 * x) ^ ((1 : ℝ) / 3) = k * x ^ ((1 : ℝ) / 3) := by
  rw [rpow_scale (pow_pos hk 3)]
  congr 1
  rw [← Real.rpow_natCast k 3, ← Real.rpow_mul hk.le]
  norm_num

theorem half_scale {k : ℝ} (hk : 0 < k) (x : ℝ) : (k ^ 2 * x) ^ (0.5 : ℝ) = k * x ^ (0.5 : ℝ) := by
  rw [rpow_scale (pow_pos hk 2)]
  congr 1
  rw [← Real.rpow_natCast k 2, ← Real.rpow_mul hk.le]
  norm_num

theorem sqrt_scale {k : ℝ} (hk : 0 < k) (x : ℝ) : Real.sqrt (k ^ 2 * x) = k * Real.sqrt x := by
  rw [Real.sqrt_mul (sq_nonneg k), Real.sqrt_sq hk.le]

/-! ## Closures -/

theorem pressureLine_units (u : Units) (a load : ℝ) (neg : Bool) (x : ℝ) : pressureLine (u.length * a) (u.lineLoad * load) neg x = u.stress * pressureLine a load neg (x / u.length) := by
  have hl := u.length_pos
  unfold pressureLine
  have hx : max (-1 * (u.length * a)) (min x (u.length * a)) = u.length * max (-1 * a) (min (x / u.length) a) := by
    rw [mul_max_of_nonneg _ _ hl.le, mul_min_of_nonneg _ _ hl.le, mul_div_cancel₀ _ hl.ne']
    ring_nf
  simp only [hx]
  generalize max (-1 * a) (min (x / u.length) a) = t
  rw [show (u.length * a) ^ 2 - (u.length * t) ^ 2 = u.length ^ 2 * (a ^ 2 - t ^ 2) by ring, half_scale hl]
  have : 2 * (u.lineLoad * load) / Real.pi / (u.length * a) ^ 2 * (u.length * (a ^ 2 - t ^ 2) ^ (0.5 : ℝ)) = u.stress * (2 * load / Real.pi / a ^ 2 * (a ^ 2 - t ^ 2) ^ (0.5 : ℝ)) := by
    unfold Units.lineLoad
    generalize (a ^ 2 - t ^ 2) ^ (0.5 : ℝ) = w
    by_cases ha : a = 0
    · simp [ha]
    · have := Real.pi_ne_zero
      field_simp
  rw [this]
  split <;> ring

theorem pressureSphere_units (u : Units) (a p0 x y : ℝ) : pressureSphere (u.length * a) (u.stress * p0) x y = u.stress * pressureSphere a p0 (x / u.length) (y / u.length) := by
  have hl := u.length_pos
  unfold pressureSphere
  have : Real.sqrt (x ^ 2 + y ^ 2) = u.length * Real.sqrt ((x / u.length) ^ 2 + (y / u.length) ^ 2) := by
    rw [← sqrt_scale hl]
    congr 1
    field_simp
  simp only [this, mul_div_mul_left _ _ hl.ne', mul_assoc]

theorem pressureEllipse_units (u : Units) (a b p0 alpha beta x y : ℝ) : pressureEllipse (u.length * a) (u.length * b) (u.stress * p0) alpha beta x y 0 = u.stress * pressureEllipse a b p0 alpha beta (x / u.length) (y / u.length) 0 := by
  unfold pressureEllipse
  simp only [if_true, div_mul_eq_div_div, mul_assoc]

/-! ## The results of the three branches -/

theorem lineResult_units (u : Units) {p : Args} (hp : p.line = true) (r : ℝ) (a b : XR) :
    lineResult (p.inUnits u) (u.length * r) (timesXR u.length a) (timesXR u.length b) = (lineResult p r a b).inUnits u := by
  have hl := u.length_pos
  have hs := u.stress_pos
  have hload : (p.inUnits u).load = u.lineLoad * p.load := by simp [Args.inUnits, loadUnit, hp]
  have hw : Real.sqrt (4 * (u.lineLoad * p.load) * (u.length * r) / Real.pi / (u.stress * p.eStar)) = u.length * Real.sqrt (4 * p.load * r / Real.pi / p.eStar) := by
    rw [← sqrt_scale hl]
    congr 1
    unfold Units.lineLoad
    by_cases he : p.eStar = 0
    · simp [he]
    · have := Real.pi_ne_zero
      field_simp
  unfold lineResult Result.inUnits
  rw [hload, eStar_units, alpha_units, beta_units, hw]
  generalize Real.sqrt (4 * p.load * r / Real.pi / p.eStar) = w
  have m1 : u.lineLoad * p.load / (u.length * w) = u.stress * (p.load / w) := by
    unfold Units.lineLoad
    rw [show u.stress * u.length * p.load = u.length * (u.stress * p.load) by ring, mul_div_mul_left _ _ hl.ne', mul_div_assoc]
  have m2 : 2 * (u.lineLoad * p.load) / Real.pi / (u.length * w) = u.stress * (2 * p.load / Real.pi / w) := by
    unfold Units.lineLoad
    rw [show 2 * (u.stress * u.length * p.load) / Real.pi = u.length * (u.stress * (2 * p.load / Real.pi)) by ring, mul_div_mul_left _ _ hl.ne', mul_div_assoc]
  have m3 : 1 / Real.pi / (u.stress * p.eStar) * (u.lineLoad * p.load) * (Real.log (4 * Real.pi * (u.stress * p.eStar) * (u.length * r) / (u.lineLoad * p.load)) - 1) =
      u.length * (1 / Real.pi / p.eStar * p.load * (Real.log (4 * Real.pi * p.eStar * r / p.load) - 1)) := by
    unfold Units.lineLoad
    rw [show 4 * Real.pi * (u.stress * p.eStar) * (u.length * r) = (u.stress * u.length) * (4 * Real.pi * p.eStar * r) by ring, mul_assoc u.stress, mul_assoc u.stress, mul_div_mul_left _ _ hs.ne', mul_div_mul_left _ _ hl.ne',
      div_mul_eq_div_div_swap]
    field_simp
  simp only [m1, m2, m3, Result.mk.injEq, true_and]
  refine ⟨?_, ?_, rfl, ?_⟩
  · cases a <;> rfl
  · cases b <;> rfl
  · funext x y
    exact pressureLine_units u w p.load false x

theorem sphereResult_units (u : Units) {p : Args} (hp : p.line = false) (r : ℝ) (a b : XR) :
    sphereResult (p.inUnits u) (u.length * r) (timesXR u.length a) (timesXR u.length b) = (sphereResult p r a b).inUnits u := by
  have hl := u.length_pos
  have hs := u.stress_pos
  have hload : (p.inUnits u).load = u.pointLoad * p.load := by simp [Args.inUnits, loadUnit, hp]
  have hw : (3 * (u.pointLoad * p.load) * (u.length * r) / 4 / (u.stress * p.eStar)) ^ ((1 : ℝ) / 3) = u.length * (3 * p.load * r / 4 / p.eStar) ^ ((1 : ℝ) / 3) := by
    rw [← third_scale hl]
    congr 1
    unfold Units.pointLoad
    by_cases he : p.eStar = 0
    · simp [he]
    · field_simp
  unfold sphereResult Result.inUnits
  rw [hload, eStar_units, alpha_units, beta_units, hw]
  generalize (3 * p.load * r / 4 / p.eStar) ^ ((1 : ℝ) / 3) = w
  have m0 : Real.pi * (u.length * w) ^ 2 = u.length ^ 2 * (Real.pi * w ^ 2) := by ring
  have m1 : u.pointLoad * p.load / (u.length ^ 2 * (Real.pi * w ^ 2)) = u.stress * (p.load / (Real.pi * w ^ 2)) := by
    unfold Units.pointLoad
    rw [show u.stress * u.length ^ 2 * p.load = u.length ^ 2 * (u.stress * p.load) by ring, mul_div_mul_left _ _ (pow_pos hl 2).ne', mul_div_assoc]
  have m2 : 3 * (u.pointLoad * p.load) / (2 * Real.pi * (u.length * w) ^ 2) = u.stress * (3 * p.load / (2 * Real.pi * w ^ 2)) := by
    unfold Units.pointLoad
    rw [show 3 * (u.stress * u.length ^ 2 * p.load) = u.length ^ 2 * (u.stress * (3 * p.load)) by ring, show 2 * Real.pi * (u.length * w) ^ 2 = u.length ^ 2 * (2 * Real.pi * w ^ 2) by ring, mul_div_mul_left _ _ (pow_pos hl 2).ne', mul_div_assoc]
  have m3 : (u.length * w) ^ 2 / (u.length * r) = u.length * (w ^ 2 / r) := by
    rw [show (u.length * w) ^ 2 = u.length * (u.length * w ^ 2) by ring, mul_div_mul_left _ _ hl.ne', mul_div_assoc]
  simp only [m0, m1, m2, m3, timesXR]
  congr 1
  funext x y
  exact pressureSphere_units u w _ x y

/-- The mean pressure of an ellipse is the one entry that is not a stress. -/
theorem ellipseResult_units (u : Units) {p : Args} (hp : p.line = false) (f g h : ℝ) (a b : XR) :
    ellipseResult (p.inUnits u) f g h (timesXR u.length a) (timesXR u.length b) = { (ellipseResult p f g h a b).inUnits u with meanPressure := u.stress / u.length ^ 2 * (ellipseResult p f g h a b).meanPressure } := by
  have hl := u.length_pos
  have hs := u.stress_pos
  have hload : (p.inUnits u).load = u.pointLoad * p.load := by simp [Args.inUnits, loadUnit, hp]
  have t1 : 4 * (1 - (p.inUnits u).v1 ^ 2) / (p.inUnits u).e1 = u.stress⁻¹ * (4 * (1 - p.v1 ^ 2) / p.e1) := by
    simp only [Args.inUnits, div_mul_eq_div_div_swap]
    ring
  have t2 : 4 * (1 - (p.inUnits u).v2 ^ 2) / (p.inUnits u).e2 = u.stress⁻¹ * (4 * (1 - p.v2 ^ 2) / p.e2) := by
    simp only [Args.inUnits, div_mul_eq_div_div_swap]
    ring
  have t3 : (p.inUnits u).r1x.curv + (p.inUnits u).r1y.curv + (p.inUnits u).r2x.curv + (p.inUnits u).r2y.curv = u.length⁻¹ * (p.r1x.curv + p.r1y.curv + p.r2x.curv + p.r2y.curv) := by
    simp only [Args.inUnits, curv_units]
    ring
  unfold ellipseResult Result.inUnits
  rw [hload, alpha_units, beta_units, t1, t2, t3]
  generalize 4 * (1 - p.v1 ^ 2) / p.e1 = θ₁
  generalize 4 * (1 - p.v2 ^ 2) / p.e2 = θ₂
  generalize p.r1x.curv + p.r1y.curv + p.r2x.curv + p.r2y.curv = r
  have hw : (3 * (u.pointLoad * p.load) / 8 / (u.length⁻¹ * r) * (u.stress⁻¹ * θ₁ + u.stress⁻¹ * θ₂)) ^ ((1 : ℝ) / 3) = u.length * (3 * p.load / 8 / r * (θ₁ + θ₂)) ^ ((1 : ℝ) / 3) := by
    rw [← third_scale hl]
    congr 1
    unfold Units.pointLoad
    by_cases hr : r = 0
    · simp [hr]
    · field_simp
  simp only [hw]
  generalize (3 * p.load / 8 / r * (θ₁ + θ₂)) ^ ((1 : ℝ) / 3) = w
  have m0 : f * (u.length * w) = u.length * (f * w) := by ring
  have m0' : g * (u.length * w) = u.length * (g * w) := by ring
  simp only [m0, m0']
  generalize f * w = A
  generalize g * w = B
  have m1 : u.length * A * (u.length * B) * Real.pi = u.length ^ 2 * (A * B * Real.pi) := by ring
  simp only [m1]
  generalize A * B * Real.pi = q
  have m2 : 3 * (u.pointLoad * p.load) / 2 / (u.length ^ 2 * q) = u.stress * (3 * p.load / 2 / q) := by
    unfold Units.pointLoad
    rw [show 3 * (u.stress * u.length ^ 2 * p.load) / 2 = u.length ^ 2 * (u.stress * (3 * p.load / 2)) by ring, mul_div_mul_left _ _ (pow_pos hl 2).ne', mul_div_assoc]
  have m3 : 3 * (u.pointLoad * p.load) * (u.stress⁻¹ * θ₁) * h / (u.length * A) / 8 / Real.pi = u.length * (3 * p.load * θ₁ * h / A / 8 / Real.pi) := by
    unfold Units.pointLoad
    rw [show 3 * (u.stress * u.length ^ 2 * p.load) * (u.stress⁻¹ * θ₁) * h = u.length * (u.length * (3 * p.load * θ₁ * h)) * (u.stress * u.stress⁻¹) by ring, mul_inv_cancel₀ hs.ne', mul_one, mul_div_mul_left _ _ hl.ne']
    ring
  have m4 : ∀ c, u.length * c + u.length * c * (u.stress⁻¹ * θ₂) / (u.stress⁻¹ * θ₁) = u.length * (c + c * θ₂ / θ₁) := by
    intro c
    rw [show u.length * c * (u.stress⁻¹ * θ₂) = u.stress⁻¹ * (u.length * c * θ₂) by ring, mul_div_mul_left _ _ (inv_pos.2 hs).ne']
    ring
  simp only [m2, m3, m4, lt_units hl]
  have m5 : u.stress * (3 * p.load / 2 / q) / (u.length ^ 2 * q) = u.stress / u.length ^ 2 * (3 * p.load / 2 / q / q) := by
    rw [mul_div_mul_comm]
  simp only [m5, Result.mk.injEq, true_and]
  refine ⟨rfl, rfl, rfl, ?_⟩
  funext x y
  simp only [pressureEllipse_units]
  by_cases hlt : XR.lt a b = true
  · simp only [if_pos hlt]
  · simp only [if_neg hlt]

/-! ## The call -/

/-- The outcome of a call in other units: the same exception, or the same result but for the mean pressure of an ellipse. -/
theorem full_units (ell : EllipseFinder) (u : Units) (p : Args) :
    match hertzFull ell p with
    | .error e => hertzFull ell (p.inUnits u) = .error e
    | .ok r => hertzFull ell (p.inUnits u) = .ok { r.inUnits u with meanPressure := (if r.shape = .ellipse then u.stress / u.length ^ 2 else u.stress) * r.meanPressure } := by
  have hl := u.length_pos
  have hf : 0 < loadUnit u p.line := by
    unfold loadUnit
    split
    · exact Hertz.lineLoad_pos u
    · exact Hertz.pointLoad_pos u
  have c1 : ((p.inUnits u).r1x.isZero ∨ (p.inUnits u).r1y.isZero ∨ (p.inUnits u).r2x.isZero ∨ (p.inUnits u).r2y.isZero) ↔ (p.r1x.isZero ∨ p.r1y.isZero ∨ p.r2x.isZero ∨ p.r2y.isZero) := by
    simp only [Args.inUnits, isZero_units hl]
  have c2 : (p.inUnits u).load ≤ 0 ↔ p.load ≤ 0 := by
    show loadUnit u p.line * p.load ≤ 0 ↔ _
    rw [mul_nonpos_iff]
    constructor
    · rintro (⟨_, h⟩ | ⟨h, _⟩)
      · exact h
      · exact absurd h (not_le.2 hf)
    · exact fun h => .inl ⟨hf.le, h⟩
  have c3 : (p.inUnits u).line = p.line := rfl
  have c5 : (recip (p.inUnits u).k1 = .pinf ∧ recip (p.inUnits u).k2 = .pinf) ↔ (recip p.k1 = .pinf ∧ recip p.k2 = .pinf) := by
    rw [k1_units, k2_units, recip_units hl, recip_units hl, pinf_units, pinf_units]
  have c7 : recip (p.inUnits u).k1 = recip (p.inUnits u).k2 ↔ recip p.k1 = recip p.k2 := by
    rw [k1_units, k2_units, recip_units hl, recip_units hl, eq_units hl]
  generalize hH : hertzFull ell (p.inUnits u) = H
  unfold hertzFull at hH ⊢
  simp only [c2, c3, alpha_units, beta_units, ang_units, k1_units, k2_units, recip_units hl, lt_zero_units hl, pinf_units, ratio_units hl, eq_units hl, cosOmega_units] at hH
  subst hH
  by_cases h1 : p.r1x.isZero ∨ p.r1y.isZero ∨ p.r2x.isZero ∨ p.r2y.isZero
  · simp only [if_pos h1, if_pos (c1.2 h1)]
  simp only [if_neg h1, if_neg (mt c1.1 h1)]
  by_cases h2 : p.load ≤ 0
  · simp only [if_pos h2]
  simp only [if_neg h2]
  by_cases h3 : 1e-8 < |p.alpha + p.beta - p.ang|
  · simp only [if_pos h3]
  simp only [if_neg h3]
  by_cases h4 : XR.lt (recip p.k1) (.fin 0) = true ∨ XR.lt (recip p.k2) (.fin 0) = true
  · simp only [if_pos h4]
  simp only [if_neg h4]
  by_cases h5 : recip p.k1 = .pinf ∧ recip p.k2 = .pinf
  · simp only [if_pos h5, if_pos (c5.2 h5)]
  simp only [if_neg h5, if_neg (mt c5.1 h5)]
  by_cases h6 : XR.lt (.fin 1e5) (recip p.k1 / recip p.k2) = true ∨ XR.lt (.fin 1e5) (recip p.k2 / recip p.k1) = true
  · simp only [if_pos h6]
    cases h7 : p.line with
    | false => simp
    | true =>
      have hm : 1 / max (u.length⁻¹ * p.k1) (u.length⁻¹ * p.k2) = u.length * (1 / max p.k1 p.k2) := by
        rw [← mul_max_of_nonneg _ _ (inv_pos.2 hl).le, one_div, mul_inv, inv_inv, one_div]
      simp only [Bool.true_eq_false, if_false, hm, lineResult_units u h7]
      rfl
  simp only [if_neg h6]
  by_cases h7 : recip p.k1 = recip p.k2
  · simp only [if_pos h7, if_pos (c7.2 h7)]
    cases h8 : p.line with
    | true => simp
    | false =>
      have hm : 1 / (u.length⁻¹ * p.k1) = u.length * (1 / p.k1) := by
        rw [one_div, mul_inv, inv_inv, one_div]
      simp only [Bool.false_eq_true, if_false, hm, sphereResult_units u h8]
      rfl
  simp only [if_neg h7, if_neg (mt c7.1 h7)]
  cases h8 : p.line with
  | true => simp
  | false =>
    simp only [Bool.false_eq_true, if_false]
    cases ell p.cosOmega with
    | none => rfl
    | some t =>
      obtain ⟨f, g, h⟩ := t
      simp only [ellipseResult_units u h8]
      rfl

/-- **C173, the results.** With radii, moduli and load given in other units the call raises the same exception or gives the same result in these units: the angles, relative radii, radii of the contact, area, maximum pressure, deflection and the pressure at each point, and for line contacts
and round contacts the mean pressure. -/
theorem C173_results_partial (ell : EllipseFinder) (u : Units) (p : Args) :
    (∀ e, hertzFull ell p = .error e → hertzFull ell (p.inUnits u) = .error e) ∧
    ∀ r, hertzFull ell p = .ok r → ∃ r', hertzFull ell (p.inUnits u) = .ok r' ∧ { r' with meanPressure := 0 } = { r.inUnits u with meanPressure := 0 } ∧ (r.shape ≠ .ellipse → r' = r.inUnits u) := by
  have h := full_units ell u p
  refine ⟨fun e he => ?_, fun r hr => ?_⟩
  · rw [he] at h
    exact h
  · rw [hr] at h
    refine ⟨_, h, rfl, fun hs => ?_⟩
    rw [if_neg hs]
    rfl

/-- The three kinds of contacts. -/
example : (∃ r, hertzFull (fun _ => none) ballOnFlat = .ok r ∧ r.shape ≠ .ellipse) ∧ ∃ u : Units, u.length = 1000 ∧ u.stress = 1e-6 := by
  obtain ⟨r, h1, h2, -⟩ := ball_solution
  exact ⟨⟨r, h1, by rw [h2]; decide⟩, ⟨1000, 1e-6, by norm_num, by norm_num⟩, rfl, rfl⟩

/-- **C173 is false for the mean pressure of an ellipse.** It is divided by the area twice, so that it is not a stress: another unit of length changes it. -/
theorem C173_mean_wrong {ell : EllipseFinder} (hell : ∀ c f g k, ell c = some (f, g, k) → 0 < f ∧ 0 < g) {p : Args} (hm : Ordinary p) {r : Result} (hr : hertzFull ell p = .ok r) (hs : r.shape = .ellipse) (u : Units) (hu : u.length ≠ 1) :
    ∃ r', hertzFull ell (p.inUnits u) = .ok r' ∧ r'.meanPressure ≠ u.stress * r.meanPressure := by
  have h := full_units ell u p
  rw [hr] at h
  refine ⟨_, h, ?_⟩
  simp only [if_pos hs]
  have hpos : 0 < r.meanPressure := by
    obtain ⟨hload, hs'⟩ := solved_of_ok hr
    cases hs' with
    | line => cases hs
    | sphere => cases hs
    | ellipse f g k he hsum a b =>
      obtain ⟨hf, hg⟩ := hell _ _ _ _ he
      have hsc := ellScale_pos hm hload hsum
      have hpi := Real.pi_pos
      change 0 < 3 * p.load / 2 / (f * ellScale p * (g * ellScale p) * Real.pi) / (f * ellScale p * (g * ellScale p) * Real.pi)
      positivity
  intro e
  have hs0 := u.stress_pos
  have hl := u.length_pos
  rw [mul_left_inj' hpos.ne', div_eq_iff (by positivity)] at e
  have : u.length ^ 2 = 1 := by
    have := mul_left_cancel₀ hs0.ne' (show u.stress * 1 = u.stress * u.length ^ 2 by rw [mul_one]; exact e)
    exact this.symm
  exact hu (by nlinarith)

/-- An elliptical contact. -/
example : (∀ c f g k : ℝ, (fun _ : ℝ => some ((1 : ℝ), (1 : ℝ), (1 : ℝ))) c = some (f, g, k) → 0 < f ∧ 0 < g) ∧ Ordinary aligned ∧ ∃ r, hertzFull (fun _ => some (1, 1, 1)) aligned = .ok r ∧ r.shape = .ellipse := by
  refine ⟨?_, ⟨by norm_num [aligned], by norm_num [aligned], by norm_num [aligned], by norm_num [aligned]⟩, ?_⟩
  · intro c f g k h
    simp only [Option.some.injEq, Prod.mk.injEq] at h
    rw [← h.1, ← h.2.1]
    norm_num
  · obtain ⟨r, h1, h2, -⟩ := C37_elliptical_contact_partial (ell := fun _ => some (1, 1, 1)) aligned_accepted aligned_determined (Or.inl (by norm_num [aligned, Radius.curv])) aligned_eigen (by norm_num) one_pos (by norm_num) rfl rfl
    exact ⟨r, h1, h2⟩

/-! ## Displacements and stresses -/

theorem root_units {l : ℝ} (hl : 0 < l) (x y : ℝ) : Real.sqrt ((l * x) ^ 2 + (l * y) ^ 2) = l * Real.sqrt (x ^ 2 + y ^ 2) := by
  rw [← sqrt_scale hl]
  congr 1
  ring

/-- **C173, displacements and stresses of round contacts, and greatest shear stresses.** The displacements in other units are the displacements, and the stresses the stresses, at the same point; so are the greatest shear stresses with their depths and the greatest von Mises stress of a
line contact. -/
theorem C173_fields (u : Units) (e v a p0 : ℝ) (minimise : Minimiser) :
    (∀ x y, axialSphere (u.stress * e) v (u.length * a) (u.stress * p0) (u.length * x) (u.length * y) = u.length * axialSphere e v a p0 x y) ∧
    (∀ x y, radialSphere (u.stress * e) v (u.length * a) (u.stress * p0) (u.length * x) (u.length * y) = u.length * radialSphere e v a p0 x y) ∧
    (∀ z, let s := stressAxis a p0 v z; stressAxis (u.length * a) (u.stress * p0) v (u.length * z) = ⟨u.stress * s.r, u.stress * s.theta, u.stress * s.z⟩) ∧
    (∀ r, let s := stressSurface a p0 v r; stressSurface (u.length * a) (u.stress * p0) v (u.length * r) = ⟨u.stress * s.r, u.stress * s.theta, u.stress * s.z⟩) ∧
    sphereShear minimise (u.length * a) (u.stress * p0) v = (sphereShear minimise a p0 v).map (fun q => (u.stress * q.1, u.length * q.2)) ∧
    lineShear minimise (u.length * a) (u.stress * p0) v = (lineShear minimise a p0 v).map (fun q => (u.stress * q.1, u.length * q.2)) ∧
    vonMisesLine (u.stress * p0) v = u.stress * vonMisesLine p0 v := by
  have hl := u.length_pos
  have hs := u.stress_pos
  have cancel : ∀ x y : ℝ, (u.length * x) ^ 2 / (u.length * y) ^ 2 = x ^ 2 / y ^ 2 := fun x y => by
    rw [mul_pow, mul_pow, mul_div_mul_left _ _ (pow_pos hl 2).ne']
  refine ⟨fun x y => ?_, fun x y => ?_, fun z => ?_, fun r => ?_, ?_, ?_, ?_⟩
  · unfold axialSphere
    rw [root_units hl]
    generalize Real.sqrt (x ^ 2 + y ^ 2) = r
    simp only [mul_le_mul_iff_of_pos_left hl, cancel, mul_div_mul_left _ _ hl.ne']
    have d1 : ∀ c k : ℝ, c * (u.stress * p0) / (u.stress * e * k * (u.length * a)) = u.length⁻¹ * (c * p0 / (e * k * a)) := by
      intro c k
      rw [show c * (u.stress * p0) = u.stress * (c * p0) by ring, show u.stress * e * k * (u.length * a) = u.stress * (u.length * (e * k * a)) by ring, mul_div_mul_left _ _ hs.ne', div_mul_eq_div_div_swap]
      ring
    by_cases h : r ≤ a
    · rw [if_pos h, if_pos h, d1]
      have := hl.ne'
      field_simp
    · rw [if_neg h, if_neg h, d1]
      generalize Real.arcsin (a / r) = A
      generalize Real.sqrt (1 - a ^ 2 / r ^ 2) = B
      generalize (1 - v ^ 2) * p0 / (e * 2 * a) = C
      have := hl.ne'
      field_simp
  · unfold radialSphere
    rw [root_units hl]
    generalize Real.sqrt (x ^ 2 + y ^ 2) = r
    simp only [mul_le_mul_iff_of_pos_left hl, cancel, mul_eq_zero, hl.ne', false_or]
    have d1 : ∀ c : ℝ, c * (u.length * a) ^ 2 * (u.stress * p0) / (3 * (u.stress * e) * (u.length * r)) = u.length * (c * a ^ 2 * p0 / (3 * e * r)) := by
      intro c
      rw [show c * (u.length * a) ^ 2 * (u.stress * p0) = u.stress * u.length * (u.length * (c * a ^ 2 * p0)) by ring, show 3 * (u.stress * e) * (u.length * r) = u.stress * u.length * (3 * e * r) by ring, mul_div_mul_left _ _ (mul_pos hs hl).ne', mul_div_assoc]
    have d2 : ∀ c : ℝ, c * (u.stress * p0) * (u.length * a) ^ 2 / (3 * (u.stress * e) * (u.length * r)) = u.length * (c * p0 * a ^ 2 / (3 * e * r)) := by
      intro c
      rw [show c * (u.stress * p0) * (u.length * a) ^ 2 = u.stress * u.length * (u.length * (c * p0 * a ^ 2)) by ring, show 3 * (u.stress * e) * (u.length * r) = u.stress * u.length * (3 * e * r) by ring, mul_div_mul_left _ _ (mul_pos hs hl).ne', mul_div_assoc]
    rw [d1, d2]
    by_cases h : r ≤ a
    · rw [if_pos h, if_pos h]
      by_cases h0 : r = 0
      · rw [if_pos h0, if_pos h0, mul_zero]
      · rw [if_neg h0, if_neg h0, mul_assoc]
    · rw [if_neg h, if_neg h]
  · simp only [stressAxis, cancel, mul_div_mul_left _ _ hl.ne', Stress.mk.injEq]
    refine ⟨by ring, by ring, by ring⟩
  · simp only [stressSurface, cancel, mul_le_mul_iff_of_pos_left hl]
    by_cases h : r ≤ a
    · simp only [if_pos h, Stress.mk.injEq]
      refine ⟨by ring, by ring, by ring⟩
    · simp only [if_neg h, Stress.mk.injEq, mul_zero, and_true]
      have : u.stress * p0 * (1 - 2 * v) * (u.length * a) ^ 2 / 3 / (u.length * r) ^ 2 = u.stress * (p0 * (1 - 2 * v) * a ^ 2 / 3 / r ^ 2) := by
        rw [show u.stress * p0 * (1 - 2 * v) * (u.length * a) ^ 2 / 3 = u.length ^ 2 * (u.stress * (p0 * (1 - 2 * v) * a ^ 2 / 3)) by ring, mul_pow, mul_div_mul_left _ _ (pow_pos hl 2).ne', mul_div_assoc]
      rw [this]
      exact ⟨rfl, by ring⟩
  · unfold sphereShear
    cases minimise (sphereObjective v) with
    | none => rfl
    | some ψ =>
      simp only [Option.map_some, Option.some.injEq, Prod.mk.injEq]
      exact ⟨by ring, by ring⟩
  · unfold lineShear
    cases minimise (lineObjective v) with
    | none => rfl
    | some ψ =>
      simp only [Option.map_some, Option.some.injEq, Prod.mk.injEq]
      exact ⟨by ring, by ring⟩
  · unfold vonMisesLine
    ring

/-- **C173 is false for the stresses inside a line contact.** A root is missing, so that areas are added to lengths: at the same point of the same contact the stress is -5/2 in one unit and -17/4 in a unit of half the length. -/
theorem C173_line_stress_wrong : (stressLine 1 1 0 1).z = -(5 / 2) ∧ (stressLine (2 * 1) 1 (2 * 0) (2 * 1)).z = -(17 / 4) := by
  have r1 : Real.sqrt ((1 ^ 2 - 0 ^ 2 + 1 ^ 2) ^ 2 + 4 * 0 ^ 2 * 1 ^ 2) = 2 := by
    rw [show ((1 : ℝ) ^ 2 - 0 ^ 2 + 1 ^ 2) ^ 2 + 4 * 0 ^ 2 * 1 ^ 2 = 2 ^ 2 by norm_num, Real.sqrt_sq (by norm_num)]
  have r2 : Real.sqrt (((2 * 1) ^ 2 - (2 * 0) ^ 2 + (2 * 1) ^ 2) ^ 2 + 4 * (2 * 0) ^ 2 * (2 * 1) ^ 2) = 8 := by
    rw [show ((2 * 1 : ℝ) ^ 2 - (2 * 0) ^ 2 + (2 * 1) ^ 2) ^ 2 + 4 * (2 * 0) ^ 2 * (2 * 1) ^ 2 = 8 ^ 2 by norm_num, Real.sqrt_sq (by norm_num)]
  constructor
  · simp only [stressLine, r1, npSign]
    norm_num
  · simp only [stressLine, r2, npSign]
    norm_num

end Verif.HertzFull
