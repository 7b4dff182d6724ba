import Mathlib.Analysis.SpecialFunctions.Pow.Deriv
import Mathlib.Tactic.LinearCombination
import Verif.HertzFull.Fields

/-!
# C84: the stresses on the surface of a spherical contact and its displacements; rotated elliptical pressures (C35); continuity of the
radial displacement (C68)
-/

namespace Verif.HertzFull

open Real Filter Topology

/-! ## C35: the pressure of an elliptical contact in the axes of the bodies -/

/-- **C35**: with `transform` 1 (2) the half axis `a` of the pressure ellipse points in the direction `(cos α, -sin α)` of the axes of body 1 (2): the point
with the coordinates `(u, w)` along the half axes is the point `u (cos α, -sin α) + w (sin α, cos α)`. -/
theorem C35_ellipse_turned {a b p0 alpha beta u w : ℝ} :
    pressureEllipse a b p0 alpha beta (u * cos alpha + w * sin alpha) (-u * sin alpha + w * cos alpha) 1 =
      p0 * sqrt (max (1 - (u / a) ^ 2 - (w / b) ^ 2) 0) ∧
    pressureEllipse a b p0 alpha beta (u * cos beta + w * sin beta) (-u * sin beta + w * cos beta) 2 =
      p0 * sqrt (max (1 - (u / a) ^ 2 - (w / b) ^ 2) 0) := by
  have h1 : ∀ t : ℝ, (u * cos t + w * sin t) * cos t - (-u * sin t + w * cos t) * sin t = u := fun t => by
    linear_combination u * sin_sq_add_cos_sq t
  have h2 : ∀ t : ℝ, (u * cos t + w * sin t) * sin t + (-u * sin t + w * cos t) * cos t = w := fun t => by
    linear_combination w * sin_sq_add_cos_sq t
  have e1 : ((1 : Fin 3) = 0) = False := by simp
  have e2 : ((2 : Fin 3) = 0) = False := by simp
  have e3 : ((2 : Fin 3) = 1) = False := by simp
  constructor
  · simp only [pressureEllipse, transformAxes, e1, if_true, if_false, h1, h2]
    rw [sqrt_eq_rpow]
    norm_num
  · simp only [pressureEllipse, transformAxes, e2, e3, if_false, h1, h2]
    rw [sqrt_eq_rpow]
    norm_num

/-- The rotation matters: at 90 degrees the half axes change places. -/
example : pressureEllipse 2 1 3 (π / 2) 0 0 (-2) 1 = 0 ∧ pressureEllipse 2 1 3 (π / 2) 0 0 (-1) 1 = 3 * sqrt (3 / 4) := by
  have h := fun u => (C35_ellipse_turned (a := 2) (b := 1) (p0 := 3) (alpha := π / 2) (beta := 0) (u := u) (w := 0)).1
  have h1 := h 2
  have h2 := h 1
  simp only [cos_pi_div_two, sin_pi_div_two] at h1 h2
  norm_num at h1 h2
  exact ⟨h1, by rw [h2]; norm_num⟩

/-! ## C68: the radial displacement -/

/-- Outside of the contact the power vanishes, so that both branches are one formula (a real power of a negative number with the exponent 3/2 is zero in
Mathlib). -/
theorem neg_three_halves {x : ℝ} (hx : x < 0) : x ^ ((3 : ℝ) / 2) = 0 := by
  rw [rpow_def_of_neg hx, show (3 : ℝ) / 2 * π = π / 2 + π by ring, cos_add_pi, cos_pi_div_two, neg_zero, mul_zero]

theorem radial_formula {e v a p0 r : ℝ} (ha : 0 < a) (hr : 0 < r) :
    radialSphere e v a p0 r 0 = (1 - 2 * v) * (1 + v) * a ^ 2 * p0 / (3 * e) * ((1 - (1 - r ^ 2 / a ^ 2) ^ ((3 : ℝ) / 2)) / r) := by
  have hs : sqrt (r ^ 2 + 0 ^ 2) = r := by rw [zero_pow two_ne_zero, add_zero, sqrt_sq hr.le]
  unfold radialSphere
  simp only [hs, if_neg hr.ne']
  split
  · rw [show 3 * e * r = (3 * e) * r by ring, ← div_div]
    ring
  · rename_i h
    have h1 : 1 - r ^ 2 / a ^ 2 < 0 := by
      rw [sub_neg, lt_div_iff₀ (by positivity)]
      nlinarith
    rw [neg_three_halves h1, show 3 * e * r = (3 * e) * r by ring, ← div_div]
    ring

theorem radial_rotation (e v a p0 x y : ℝ) : radialSphere e v a p0 x y = radialSphere e v a p0 (sqrt (x ^ 2 + y ^ 2)) 0 := by
  unfold radialSphere
  rw [zero_pow two_ne_zero, add_zero, sqrt_sq (sqrt_nonneg _)]

/-- The formula without the singularity at the centre. -/
noncomputable def smoothRadial (k a r : ℝ) : ℝ :=
  let u := sqrt (1 - r ^ 2 / a ^ 2)
  k * (r / (max r a) ^ 2 * ((1 + u + u ^ 2) / (1 + u)))

theorem radial_smooth {e v a p0 r : ℝ} (ha : 0 < a) (hr : 0 ≤ r) :
    radialSphere e v a p0 r 0 = smoothRadial ((1 - 2 * v) * (1 + v) * a ^ 2 * p0 / (3 * e)) a r := by
  rcases eq_or_lt_of_le hr with h0 | h0
  · subst h0
    rw [(C68_radial_edge ha).2]
    simp [smoothRadial]
  · rw [radial_formula ha h0]
    unfold smoothRadial
    simp only
    congr 1
    rcases le_or_gt r a with h | h
    · rw [← cubic_term ha h0 h, max_eq_right h]
      field_simp
    · have h1 : 1 - r ^ 2 / a ^ 2 < 0 := by
        rw [sub_neg, lt_div_iff₀ (by positivity)]
        nlinarith
      rw [neg_three_halves h1, sqrt_eq_zero_of_nonpos h1.le, max_eq_left h.le]
      field_simp
      norm_num

/-- **C68**: the radial displacement is continuous on the whole surface, at the edge of the contact and at its centre too. -/
theorem C68_radial_continuous {e v a p0 : ℝ} (ha : 0 < a) : Continuous fun q : ℝ × ℝ => radialSphere e v a p0 q.1 q.2 := by
  have heq : (fun q : ℝ × ℝ => radialSphere e v a p0 q.1 q.2) =
      fun q : ℝ × ℝ => smoothRadial ((1 - 2 * v) * (1 + v) * a ^ 2 * p0 / (3 * e)) a (sqrt (q.1 ^ 2 + q.2 ^ 2)) := by
    funext q
    rw [radial_rotation, radial_smooth ha (sqrt_nonneg _)]
  rw [heq]
  have h1 : ∀ r : ℝ, max r a ^ 2 ≠ 0 := fun r => pow_ne_zero 2 (lt_of_lt_of_le ha (le_max_right _ _)).ne'
  have h2 : ∀ r : ℝ, 1 + sqrt (1 - r ^ 2 / a ^ 2) ≠ 0 := fun r => by positivity
  have hc : Continuous fun r : ℝ => smoothRadial ((1 - 2 * v) * (1 + v) * a ^ 2 * p0 / (3 * e)) a r := by
    unfold smoothRadial
    simp only
    have h3 : Continuous fun r : ℝ => r / max r a ^ 2 := continuous_id.div (by fun_prop) h1
    have h4 : Continuous fun r : ℝ => (1 + sqrt (1 - r ^ 2 / a ^ 2) + sqrt (1 - r ^ 2 / a ^ 2) ^ 2) / (1 + sqrt (1 - r ^ 2 / a ^ 2)) :=
      Continuous.div (by fun_prop) (by fun_prop) h2
    exact continuous_const.mul (h3.mul h4)
  exact hc.comp (by fun_prop)

example : (0 : ℝ) < 1 := one_pos

/-! ## C84: Hooke's law on the surface -/

/-- The stresses in the radial and the hoop direction that Hooke's law gives for a radial displacement `u` with the derivative `u'` at the distance `r` and
a normal stress `sz` (isotropic body, no shear). -/
noncomputable def hookeR (e v u u' r sz : ℝ) : ℝ := e / (1 - v ^ 2) * (u' + v * (u / r)) + v / (1 - v) * sz

noncomputable def hookeTheta (e v u u' r sz : ℝ) : ℝ := e / (1 - v ^ 2) * (u / r + v * u') + v / (1 - v) * sz

/-- These are the stresses of the isotropic law: the strains follow back from them. -/
theorem hooke_strains {e v u u' r sz : ℝ} (he : e ≠ 0) (h1 : v ≠ 1) (h2 : v ≠ -1) :
    u' = (hookeR e v u u' r sz - v * (hookeTheta e v u u' r sz + sz)) / e ∧
    u / r = (hookeTheta e v u u' r sz - v * (hookeR e v u u' r sz + sz)) / e := by
  have h3 : 1 - v ≠ 0 := sub_ne_zero.mpr (Ne.symm h1)
  have h4 : 1 + v ≠ 0 := fun h => h2 (by linarith)
  have h5 : 1 - v ^ 2 = (1 - v) * (1 + v) := by ring
  unfold hookeR hookeTheta
  rw [h5]
  generalize u / r = w
  constructor <;> field_simp <;> ring

/-- The derivative of the radial displacement. -/
theorem radial_deriv {e v a p0 r : ℝ} (ha : 0 < a) (hr : 0 < r) :
    HasDerivAt (fun s => radialSphere e v a p0 s 0)
      ((1 - 2 * v) * (1 + v) * a ^ 2 * p0 / (3 * e) * (3 * sqrt (1 - r ^ 2 / a ^ 2) / a ^ 2 - (1 - (1 - r ^ 2 / a ^ 2) ^ ((3 : ℝ) / 2)) / r ^ 2)) r := by
  have h1 : HasDerivAt (fun s : ℝ => 1 - s ^ 2 / a ^ 2) (-(2 * r / a ^ 2)) r := by
    have := ((hasDerivAt_pow 2 r).div_const (a ^ 2)).const_sub 1
    simpa using this
  have h2 := h1.rpow_const (p := (3 : ℝ) / 2) (Or.inr (by norm_num))
  have h3 := (h2.const_sub 1).div (hasDerivAt_id' r) hr.ne'
  have h4 := h3.const_mul ((1 - 2 * v) * (1 + v) * a ^ 2 * p0 / (3 * e))
  have h5 : HasDerivAt (fun s => radialSphere e v a p0 s 0) _ r := h4.congr_of_eventuallyEq (by
    filter_upwards [lt_mem_nhds hr] with s hs
    exact radial_formula ha hs)
  refine h5.congr_deriv ?_
  congr 1
  rw [show (3 : ℝ) / 2 - 1 = 1 / 2 by norm_num, ← sqrt_eq_rpow]
  generalize sqrt (1 - r ^ 2 / a ^ 2) = q
  generalize (1 - r ^ 2 / a ^ 2) ^ ((3 : ℝ) / 2) = w
  field_simp

/-- Both branches of the radial stress in one formula. -/
theorem stress_r_formula {a p0 v r : ℝ} (ha : 0 < a) (hr : 0 < r) :
    (stressSurface a p0 v r).r = p0 * ((1 - 2 * v) / 3 * (a ^ 2 / r ^ 2) * (1 - (1 - r ^ 2 / a ^ 2) ^ ((3 : ℝ) / 2)) - sqrt (1 - r ^ 2 / a ^ 2)) := by
  unfold stressSurface
  simp only
  split
  · rfl
  · rename_i h
    have h1 : 1 - r ^ 2 / a ^ 2 < 0 := by
      rw [sub_neg, lt_div_iff₀ (by positivity)]
      nlinarith
    rw [neg_three_halves h1, sqrt_eq_zero_of_nonpos h1.le]
    field_simp
    ring

theorem stress_z_formula {a p0 v r : ℝ} (ha : 0 < a) (hr : 0 < r) : (stressSurface a p0 v r).z = -(p0 * sqrt (1 - r ^ 2 / a ^ 2)) := by
  unfold stressSurface
  simp only
  split
  · ring
  · rename_i h
    have h1 : 1 - r ^ 2 / a ^ 2 < 0 := by
      rw [sub_neg, lt_div_iff₀ (by positivity)]
      nlinarith
    rw [sqrt_eq_zero_of_nonpos h1.le]
    ring

/-- **C84 (partial)**: on the whole surface the radial stress is the one that Hooke's law gives for the *negative* of the radial displacement that the code
reports. Missing: the displacement has the wrong sign, see `C84_displacement_sign`. -/
theorem C84_radial_stress_partial {e v a p0 r : ℝ} (ha : 0 < a) (hr : 0 < r) (he : e ≠ 0) (h1 : v ≠ 1) (h2 : v ≠ -1) :
    ∃ u', HasDerivAt (fun s => -radialSphere e v a p0 s 0) u' r ∧
      (stressSurface a p0 v r).r = hookeR e v (-radialSphere e v a p0 r 0) u' r (stressSurface a p0 v r).z := by
  refine ⟨_, (radial_deriv ha hr).neg, ?_⟩
  rw [stress_r_formula ha hr, stress_z_formula ha hr, radial_formula ha hr]
  have h3 : 1 - v ≠ 0 := sub_ne_zero.mpr (Ne.symm h1)
  have h4 : 1 + v ≠ 0 := fun h => h2 (by linarith)
  have h5 : 1 - v ^ 2 = (1 - v) * (1 + v) := by ring
  unfold hookeR
  rw [h5]
  generalize sqrt (1 - r ^ 2 / a ^ 2) = q
  generalize (1 - r ^ 2 / a ^ 2) ^ ((3 : ℝ) / 2) = w
  field_simp
  ring

example := C84_radial_stress_partial (e := 200) (v := 0.3) (a := 2) (p0 := 5) (r := 1) two_pos one_pos (by norm_num) (by norm_num) (by norm_num)

/-- The hoop stress by Hooke's law. -/
theorem hoop_formula {e v a p0 r : ℝ} (ha : 0 < a) (hr : 0 < r) (he : e ≠ 0) (h1 : v ≠ 1) (h2 : v ≠ -1) :
    hookeTheta e v (-radialSphere e v a p0 r 0) (-((1 - 2 * v) * (1 + v) * a ^ 2 * p0 / (3 * e) * (3 * sqrt (1 - r ^ 2 / a ^ 2) / a ^ 2 -
      (1 - (1 - r ^ 2 / a ^ 2) ^ ((3 : ℝ) / 2)) / r ^ 2))) r (stressSurface a p0 v r).z =
    -p0 * ((1 - 2 * v) / 3 * (a ^ 2 / r ^ 2) * (1 - (1 - r ^ 2 / a ^ 2) ^ ((3 : ℝ) / 2)) + 2 * v * sqrt (1 - r ^ 2 / a ^ 2)) := by
  rw [stress_z_formula ha hr, radial_formula ha hr]
  have h3 : 1 - v ≠ 0 := sub_ne_zero.mpr (Ne.symm h1)
  have h4 : 1 + v ≠ 0 := fun h => h2 (by linarith)
  have h5 : 1 - v ^ 2 = (1 - v) * (1 + v) := by ring
  unfold hookeTheta
  rw [h5]
  generalize sqrt (1 - r ^ 2 / a ^ 2) = q
  generalize (1 - r ^ 2 / a ^ 2) ^ ((3 : ℝ) / 2) = w
  field_simp
  ring

/-- **C84 (partial)**: from the edge of the contact outwards the hoop stress is the one of Hooke's law for the negative of the reported displacement. Missing:
the inside of the contact, where it is not, see `C84_hoop_stress_inside`. -/
theorem C84_hoop_stress_partial {e v a p0 r : ℝ} (ha : 0 < a) (hr : a ≤ r) (he : e ≠ 0) (h1 : v ≠ 1) (h2 : v ≠ -1) :
    ∃ u', HasDerivAt (fun s => -radialSphere e v a p0 s 0) u' r ∧
      (stressSurface a p0 v r).theta = hookeTheta e v (-radialSphere e v a p0 r 0) u' r (stressSurface a p0 v r).z := by
  have hr0 : 0 < r := by linarith
  refine ⟨_, (radial_deriv ha hr0).neg, ?_⟩
  rw [hoop_formula ha hr0 he h1 h2]
  have h5 : 1 - r ^ 2 / a ^ 2 ≤ 0 := by
    rw [sub_nonpos, le_div_iff₀ (by positivity)]
    nlinarith
  have h6 : (1 - r ^ 2 / a ^ 2) ^ ((3 : ℝ) / 2) = 0 := by
    rcases eq_or_lt_of_le h5 with h | h
    · rw [h, zero_rpow (by norm_num)]
    · exact neg_three_halves h
  rw [h6, sqrt_eq_zero_of_nonpos h5]
  unfold stressSurface
  simp only
  split
  · simp only [h6, sqrt_eq_zero_of_nonpos h5]
    ring
  · simp only
    field_simp
    ring

example := C84_hoop_stress_partial (e := 200) (v := 0.3) (a := 2) (p0 := 5) (r := 3) two_pos (by norm_num) (by norm_num) (by norm_num) (by norm_num)

/-- **C84 (negation)**: inside of the contact the hoop stress differs from Hooke's law by `4 v` times the pressure. -/
theorem C84_hoop_stress_inside {e v a p0 r : ℝ} (hr : 0 < r) (hra : r < a) (he : e ≠ 0) (h1 : v ≠ 1) (h2 : v ≠ -1) :
    ∃ u', HasDerivAt (fun s => -radialSphere e v a p0 s 0) u' r ∧
      (stressSurface a p0 v r).theta - hookeTheta e v (-radialSphere e v a p0 r 0) u' r (stressSurface a p0 v r).z = 4 * v * pressureSphere a p0 r 0 := by
  have ha : 0 < a := by linarith
  refine ⟨_, (radial_deriv ha hr).neg, ?_⟩
  rw [hoop_formula ha hr he h1 h2, pressureSphere_eq]
  unfold stressSurface
  simp only [if_pos hra.le, div_pow]
  simp
  ring

example := C84_hoop_stress_inside (e := 200) (v := 0.3) (a := 2) (p0 := 5) (r := 1) one_pos one_lt_two (by norm_num) (by norm_num) (by norm_num)

/-- **C84 (negation)**: with the displacement as reported (positive outwards), the radial stress outside of the contact is the negative of Hooke's law: it
is different unless the body is incompressible or the pressure is zero. -/
theorem C84_displacement_sign {e v a p0 r u' : ℝ} (ha : 0 < a) (hr : a < r) (he : e ≠ 0) (h1 : v ≠ 1) (h2 : v ≠ -1) (hp : p0 ≠ 0) (hv : v ≠ 1 / 2)
    (hu : HasDerivAt (fun s => radialSphere e v a p0 s 0) u' r) :
    (stressSurface a p0 v r).r = -hookeR e v (radialSphere e v a p0 r 0) u' r (stressSurface a p0 v r).z ∧
    (stressSurface a p0 v r).r ≠ hookeR e v (radialSphere e v a p0 r 0) u' r (stressSurface a p0 v r).z := by
  have hr0 : 0 < r := by linarith
  obtain ⟨w, hw, hs⟩ := C84_radial_stress_partial (e := e) (v := v) (a := a) (p0 := p0) ha hr0 he h1 h2
  have huw : w = -u' := hw.unique hu.neg
  have hz : (stressSurface a p0 v r).z = 0 := by
    unfold stressSurface
    simp only [if_neg (not_le.mpr hr)]
  have hr' : (stressSurface a p0 v r).r = p0 * (1 - 2 * v) * a ^ 2 / 3 / r ^ 2 := by
    unfold stressSurface
    simp only [if_neg (not_le.mpr hr)]
  have hne : (stressSurface a p0 v r).r ≠ 0 := by
    rw [hr']
    have h3 : 1 - 2 * v ≠ 0 := fun h => hv (by linarith)
    positivity
  rw [hz, huw] at hs
  rw [hz]
  have hneg : hookeR e v (-radialSphere e v a p0 r 0) (-u') r 0 = -hookeR e v (radialSphere e v a p0 r 0) u' r 0 := by
    unfold hookeR
    ring
  rw [hneg] at hs
  refine ⟨hs, fun h => hne ?_⟩
  linarith

example : (0 : ℝ) < 1 ∧ (1 : ℝ) < 2 ∧ (200 : ℝ) ≠ 0 ∧ (0.3 : ℝ) ≠ 1 ∧ (0.3 : ℝ) ≠ -1 ∧ (5 : ℝ) ≠ 0 ∧ (0.3 : ℝ) ≠ 1 / 2 ∧
    ∃ u', HasDerivAt (fun s => radialSphere 200 0.3 1 5 s 0) u' 2 := by
  refine ⟨by norm_num, by norm_num, by norm_num, by norm_num, by norm_num, by norm_num, by norm_num, _, radial_deriv one_pos two_pos⟩

end Verif.HertzFull
