import Mathlib.Analysis.SpecialFunctions.Trigonometric.Bounds
import Mathlib.Analysis.SpecialFunctions.Trigonometric.ArctanDeriv
import Verif.HertzFull.Pressure
import Verif.Hertz.Model

/-!
# C65 to C70: exchange of the bodies, the auxiliary angle, displacements and stresses of the full Hertz solution
-/

namespace Verif.HertzFull

open Real MeasureTheory Filter Topology

/-! ## C65: exchange of the bodies -/

/-- The two bodies exchanged. -/
def exchange (p : Args) : Args :=
  { p with r1x := p.r2x, r1y := p.r2y, r2x := p.r1x, r2y := p.r1y, e1 := p.e2, e2 := p.e1, v1 := p.v2, v2 := p.v1 }

theorem exchange_k1 (p : Args) : (exchange p).k1 = p.k1 := by
  show cos p.beta ^ 2 * p.r2x.curv + sin p.beta ^ 2 * p.r2y.curv + cos p.alpha ^ 2 * p.r1x.curv + sin p.alpha ^ 2 * p.r1y.curv = _
  unfold Args.k1
  ring

theorem exchange_k2 (p : Args) : (exchange p).k2 = p.k2 := by
  show sin p.beta ^ 2 * p.r2x.curv + cos p.beta ^ 2 * p.r2y.curv + sin p.alpha ^ 2 * p.r1x.curv + cos p.alpha ^ 2 * p.r1y.curv = _
  unfold Args.k2
  ring

theorem exchange_eStar (p : Args) : (exchange p).eStar = p.eStar := by
  unfold Args.eStar
  simp only [exchange]
  rw [add_comm]

theorem exchange_cosOmega (p : Args) : (exchange p).cosOmega = p.cosOmega := by
  unfold Args.cosOmega
  have h1 : (exchange p).constA = p.constB := rfl
  have h2 : (exchange p).constB = p.constA := rfl
  have h3 : (exchange p).ang = p.ang := rfl
  rw [h1, h2, h3]
  simp only [exchange]
  congr 1
  · congr 1
    ring
  · ring

/-- The parts of two results that do not name a body agree. -/
structure SameContact (r s : Result) : Prop where
  shape : r.shape = s.shape
  r1Rel : r.r1Rel = s.r1Rel
  r2Rel : r.r2Rel = s.r2Rel
  radiusA : r.radiusA = s.radiusA
  radiusB : r.radiusB = s.radiusB
  area : r.area = s.area
  mean : r.meanPressure = s.meanPressure
  max : r.maxPressure = s.maxPressure
  deflection : r.deflection = s.deflection
  pressure : r.pressure = s.pressure
  angles : r.alpha = s.beta ∧ r.beta = s.alpha

theorem exchange_line (p : Args) (r : ℝ) (x y : XR) : SameContact (lineResult (exchange p) r x y) (lineResult p r x y) := by
  have he := exchange_eStar p
  have hl : (exchange p).load = p.load := rfl
  constructor <;> first | rfl | (constructor <;> rfl) | skip
  all_goals simp only [lineResult, he, hl]

theorem exchange_sphere (p : Args) (r : ℝ) (x y : XR) : SameContact (sphereResult (exchange p) r x y) (sphereResult p r x y) := by
  have he := exchange_eStar p
  have hl : (exchange p).load = p.load := rfl
  constructor <;> first | rfl | (constructor <;> rfl) | skip
  all_goals simp only [sphereResult, he, hl]

theorem exchange_ellipse {p : Args} (hm : Ordinary p) (f g h : ℝ) (x y : XR) :
    SameContact (ellipseResult (exchange p) f g h x y) (ellipseResult p f g h x y) := by
  have hl : (exchange p).load = p.load := rfl
  have hs : (exchange p).r1x.curv + (exchange p).r1y.curv + (exchange p).r2x.curv + (exchange p).r2y.curv =
      p.r1x.curv + p.r1y.curv + p.r2x.curv + p.r2y.curv := by
    simp only [exchange]
    ring
  have t1 : (1 - p.v1 ^ 2) ≠ 0 := by linarith [hm.v1]
  have t2 : (1 - p.v2 ^ 2) ≠ 0 := by linarith [hm.v2]
  have q1 := hm.e1.ne'
  have q2 := hm.e2.ne'
  have ht : 4 * (1 - (exchange p).v1 ^ 2) / (exchange p).e1 + 4 * (1 - (exchange p).v2 ^ 2) / (exchange p).e2 =
      4 * (1 - p.v1 ^ 2) / p.e1 + 4 * (1 - p.v2 ^ 2) / p.e2 := by
    simp only [exchange]
    ring
  constructor <;> first | rfl | (constructor <;> rfl) | skip
  case deflection =>
    simp only [ellipseResult, hs, ht, hl]
    simp only [exchange]
    generalize f * _ ^ ((1 : ℝ) / 3) = a
    field_simp
    ring
  case pressure =>
    funext u w
    simp only [ellipseResult, hs, ht, hl, pressureEllipse_eq]
  all_goals simp only [ellipseResult, hs, ht, hl]

/-- Exceptions are the same, results describe the same contact. -/
def Agree (x y : Except PyErr Result) : Prop :=
  match x, y with
  | .ok r, .ok s => SameContact r s
  | .error e, .error f => e = f
  | _, _ => False

/-- **C65**: it does not matter which of the two bodies is named first. -/
theorem C65_exchange_bodies {p : Args} (hm : Ordinary p) (ell : EllipseFinder) : Agree (hertzFull ell (exchange p)) (hertzFull ell p) := by
  classical
  have hi : InternalError (exchange p) ↔ InternalError p := by
    unfold InternalError
    show 1e-8 < |p.beta + p.alpha - p.ang| ↔ _
    rw [add_comm]
  by_cases hz : p.r1x.isZero ∨ p.r1y.isZero ∨ p.r2x.isZero ∨ p.r2y.isZero
  · have hz' : (exchange p).r1x.isZero ∨ (exchange p).r1y.isZero ∨ (exchange p).r2x.isZero ∨ (exchange p).r2y.isZero := by
      simp only [exchange]
      tauto
    unfold hertzFull
    rw [if_pos hz, if_pos hz']
    rfl
  by_cases hl : p.load ≤ 0
  · have hz' : ¬ ((exchange p).r1x.isZero ∨ (exchange p).r1y.isZero ∨ (exchange p).r2x.isZero ∨ (exchange p).r2y.isZero) := by
      simp only [exchange]
      tauto
    unfold hertzFull
    rw [if_neg hz, if_neg hz', if_pos hl, if_pos (show (exchange p).load ≤ 0 from hl)]
    rfl
  by_cases hint : InternalError p
  · rw [hertzFull_internal ell hint, hertzFull_internal ell (hi.mpr hint)]
    rfl
  have hacc : Accepted p := by
    push Not at hz hl
    exact ⟨hz.1, hz.2.1, hz.2.2.1, hz.2.2.2, hl⟩
  have hacc' : Accepted (exchange p) := ⟨hacc.r2x, hacc.r2y, hacc.r1x, hacc.r1y, hacc.load⟩
  rw [hertzFull_checked ell hacc hint, hertzFull_checked ell hacc' (fun h => hint (hi.mp h)), exchange_k1, exchange_k2, exchange_cosOmega]
  have hline : (exchange p).line = p.line := rfl
  rw [hline]
  split
  · rfl
  split
  · rfl
  split
  · split
    · rfl
    · exact exchange_line p _ _ _
  split
  · split
    · rfl
    · exact exchange_sphere p _ _ _
  split
  · rfl
  split
  · rfl
  · exact exchange_ellipse hm _ _ _ _ _

example : Ordinary aligned ∧ ∃ r, hertzFull (fun _ => some (1, 1, 1)) aligned = .ok r := by
  obtain ⟨r, h1, _⟩ := C37_elliptical_contact_partial (ell := fun _ => some (1, 1, 1)) aligned_accepted aligned_determined
    (Or.inl (by norm_num [aligned, Radius.curv])) aligned_eigen (by norm_num) one_pos (by norm_num) rfl rfl
  exact ⟨⟨by norm_num [aligned], by norm_num [aligned], by norm_num [aligned], by norm_num [aligned]⟩, r, h1⟩

/-! ## C66: the auxiliary angle -/

/-- **C66 (negation)**: the cosine of the auxiliary angle is the ratio of the difference to the sum of the principal relative curvatures only if the
product of the curvature differences and the cosine of twice the angle vanishes. -/
theorem C66_auxiliary_angle_iff {p : Args} (h : Determined p) (hs : 0 < (bodies p).trace) {κ μ : ℝ} (hE : Spec.Eigenvalues (bodies p) κ μ)
    (hle : μ ≤ κ) : p.cosOmega = (κ - μ) / (κ + μ) ↔ p.constA * p.constB * cos (2 * p.angle) = 0 := by
  obtain ⟨hk, hlt⟩ := C37_principal_curvatures h
  obtain ⟨e1, e2⟩ := eigen_unique hk hE hlt.le hle
  rw [trace_bodies] at hs
  rw [← e1, ← e2, diff_k_determined h, sum_k]
  unfold Args.cosOmega
  rw [cos_two_ang, div_left_inj' hs.ne']
  have n1 := gap_nonneg p.constA p.constB (2 * p.angle)
  have n2 : 0 ≤ p.constB ^ 2 + p.constA ^ 2 + p.constB * p.constA * cos (2 * p.angle) := by
    nlinarith [sq_nonneg p.constA, sq_nonneg p.constB]
  rw [sqrt_inj n2 n1]
  constructor <;> intro h' <;> linarith

/-- **C66 (partial)**: for a ball or a flat against any body (and for bodies at 45 degrees) the auxiliary angle is right. Missing: all other cases. -/
theorem C66_auxiliary_angle_partial {p : Args} (h : Determined p) (hs : 0 < (bodies p).trace) {κ μ : ℝ} (hE : Spec.Eigenvalues (bodies p) κ μ)
    (hle : μ ≤ κ) (hround : p.r1x = p.r1y ∨ p.r2x = p.r2y) : p.cosOmega = (κ - μ) / (κ + μ) := by
  rw [C66_auxiliary_angle_iff h hs hE hle]
  rcases hround with h1 | h1
  · simp [Args.constB, h1]
  · simp [Args.constA, h1]

example : aligned.cosOmega ≠ (2 - 1) / (2 + 1) := by
  rw [ne_eq, C66_auxiliary_angle_iff aligned_determined (by rw [← aligned_eigen.1]; norm_num) aligned_eigen (by norm_num)]
  norm_num [aligned, Args.constA, Args.constB, Radius.curv]

example : Determined ⟨.fin 1, .fin 2, .inf, .inf, 1, 1, 0, 0, 1, 0, false⟩ := by
  unfold Determined Args.constA Args.constB Radius.curv
  norm_num

/-! ## C67: von Mises stresses -/

theorem axis_difference {a p0 v z : ℝ} : (stressAxis a p0 v z).r - (stressAxis a p0 v z).z =
    p0 * (3 / 2 / (1 + z ^ 2 / a ^ 2) - (1 + v) * (1 - (z / a) * arctan (a / z))) := by
  unfold stressAxis
  simp only
  ring

/-- **C67 (negation)**: the maximum von Mises stress reported for a point contact (`Hertz.fillPoint`, l.459-470) is not attained on the axis of the
contact: the von Mises stress there, the difference of the axial and radial stress, stays below it at every depth. -/
theorem C67_point_not_attained {a p0 v z : ℝ} (ha : 0 < a) (hp : 0 < p0) (hv0 : 0 ≤ v) (hv1 : v ≤ 1 / 2) (hz : 0 < z) :
    |(stressAxis a p0 v z).r - (stressAxis a p0 v z).z| < p0 * Hertz.pointC v := by
  rw [axis_difference, abs_mul, abs_of_pos hp]
  apply mul_lt_mul_of_pos_left _ hp
  have hs : 0 < z / a := by positivity
  have hinv : a / z = (z / a)⁻¹ := by rw [inv_div]
  have hsq : z ^ 2 / a ^ 2 = (z / a) ^ 2 := by rw [div_pow]
  rw [hinv, hsq]
  generalize z / a = s at hs
  have hA0 : 0 < s * arctan s⁻¹ := mul_pos hs (arctan_pos.mpr (by positivity))
  have hA1 : s * arctan s⁻¹ < 1 := by
    have := lt_tan (x := arctan s⁻¹) (arctan_pos.mpr (by positivity)) (arctan_lt_pi_div_two _)
    rw [tan_arctan] at this
    calc s * arctan s⁻¹ < s * s⁻¹ := by gcongr
      _ = 1 := by field_simp
  have hA2 : s * arctan s⁻¹ ≤ s * (π / 2) := by
    have := (arctan_lt_pi_div_two s⁻¹).le
    gcongr
  have hpi : π < 3.15 := pi_lt_d2
  have hden : 0 < 1 + s ^ 2 := by positivity
  have hB0 : 0 < 3 / 2 / (1 + s ^ 2) := by positivity
  generalize s * arctan s⁻¹ = A at *
  unfold Hertz.pointC
  rw [abs_lt]
  constructor
  · nlinarith
  · rcases le_total s 0.5 with h | h
    · have hB : 3 / 2 / (1 + s ^ 2) ≤ 3 / 2 := by
        rw [div_le_iff₀ hden]
        nlinarith
      have : A ≤ 0.7875 := by nlinarith
      nlinarith
    · have hB : 3 / 2 / (1 + s ^ 2) ≤ 1.2 := by
        rw [div_le_iff₀ hden]
        nlinarith
      nlinarith

example := C67_point_not_attained (a := 1) (p0 := 5) (v := 0.3) (z := 0.5) (by norm_num) (by norm_num) (by norm_num) (by norm_num) (by norm_num)

/-- The von Mises stress of three principal stresses. -/
noncomputable def vonMises (x y z : ℝ) : ℝ := sqrt (((x - y) ^ 2 + (y - z) ^ 2 + (z - x) ^ 2) / 2)

/-- **C67 (negation)**: for Poisson's ratios up to 0.1938 the maximum von Mises stress of a line contact is at the centre of the surface, where the stresses
are `-p0`, `-p0` and `-2 v p0`. `solve_hertz_line` reports this value, `hertz_full` reports another one (if `v` is positive). -/
theorem C67_line_disagree {p0 v : ℝ} (hp : 0 < p0) (h0 : 0 < v) (h1 : v ≤ 0.1938) :
    vonMises (-p0) (-p0) (-(2 * v * p0)) = p0 / Hertz.lineC v ∧ p0 / Hertz.lineC v < vonMisesLine p0 v := by
  have hq : 0 < 1 - 2 * v := by norm_num at h1 ⊢; linarith
  have hc : Hertz.lineC v = 1 / (1 - 2 * v) := by
    unfold Hertz.lineC
    rw [if_pos h1, show 1 + 4 * (v - 1) * v = (1 - 2 * v) ^ 2 by ring, half_pow _ (by positivity), sqrt_sq hq.le]
  have hc2 : vonMisesLine p0 v = 1 / (1 - 2 * v) * p0 := by
    unfold vonMisesLine
    rw [if_pos h1, show 1 + 4 * (v - 1) * v = (1 - 2 * v) ^ 2 by ring, half_pow _ (by positivity), sqrt_sq hq.le]
  constructor
  · rw [hc]
    unfold vonMises
    rw [show ((-p0 - -p0) ^ 2 + (-p0 - -(2 * v * p0)) ^ 2 + (-(2 * v * p0) - -p0) ^ 2) / 2 = (p0 * (1 - 2 * v)) ^ 2 by ring,
      sqrt_sq (by positivity)]
    field_simp
  · rw [hc, hc2, div_div_eq_mul_div, div_one]
    have : 1 - 2 * v < 1 / (1 - 2 * v) := by
      rw [lt_div_iff₀ hq]
      nlinarith
    nlinarith

example : (0 : ℝ) < 1 ∧ (0 : ℝ) < 0.1 ∧ (0.1 : ℝ) ≤ 0.1938 := by norm_num

end Verif.HertzFull
