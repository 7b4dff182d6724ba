import Mathlib.MeasureTheory.Integral.IntervalIntegral.FundThmCalculus
import Mathlib.Analysis.SpecialFunctions.Integrals.Basic
import Mathlib.Analysis.SpecialFunctions.Sqrt
import Verif.Ellipse.Model

/-! # Relations between elliptic integrals -/

namespace Verif.Ellipse

open Real intervalIntegral

/-- The root in the elliptic integrals. -/
noncomputable def dl (m t : ℝ) : ℝ := √(1 - m * sin t ^ 2)

theorem arg_pos {m : ℝ} (hm : m < 1) (t : ℝ) : 0 < 1 - m * sin t ^ 2 := by
  have h1 := sin_sq_le_one t
  have h0 := sq_nonneg (sin t)
  rcases le_total m 0 with h | h
  · have := mul_nonpos_of_nonpos_of_nonneg h h0
    linarith
  · have := mul_le_of_le_one_right h h1
    linarith

theorem dl_pos {m : ℝ} (hm : m < 1) (t : ℝ) : 0 < dl m t := Real.sqrt_pos.mpr (arg_pos hm t)

theorem dl_sq {m : ℝ} (hm : m < 1) (t : ℝ) : dl m t ^ 2 = 1 - m * sin t ^ 2 := Real.sq_sqrt (arg_pos hm t).le

theorem dl_cube {m : ℝ} (hm : m < 1) (t : ℝ) : √((1 - m * sin t ^ 2) ^ 3) = dl m t ^ 3 := by
  rw [← dl_sq hm, ← pow_mul, show 2 * 3 = 3 * 2 by norm_num, pow_mul, Real.sqrt_sq (pow_pos (dl_pos hm t) 3).le]

theorem continuous_dl (m : ℝ) : Continuous (dl m) := by
  unfold dl
  fun_prop

theorem cont_div {m : ℝ} (hm : m < 1) {f : ℝ → ℝ} (hf : Continuous f) (n : ℕ) : Continuous fun t => f t / dl m t ^ n :=
  hf.div ((continuous_dl m).pow n) (fun t => (pow_pos (dl_pos hm t) n).ne')

theorem deriv_dl {m : ℝ} (hm : m < 1) (t : ℝ) : HasDerivAt (dl m) (-(m * sin t * cos t) / dl m t) t := by
  have h : HasDerivAt (fun t => 1 - m * sin t ^ 2) (-(m * (2 * sin t * cos t))) t := by
    have := (((hasDerivAt_sin t).pow 2).const_mul m).const_sub 1
    refine this.congr_deriv ?_
    norm_num
  refine (h.sqrt (arg_pos hm t).ne').congr_deriv ?_
  have := (dl_pos hm t).ne'
  unfold dl at this ⊢
  field_simp

/-- The derivative of `sin cos / Δ`. -/
theorem deriv_quot {m : ℝ} (hm : m < 1) (t : ℝ) :
    HasDerivAt (fun t => sin t * cos t / dl m t) (cos t ^ 2 / dl m t ^ 3 - sin t ^ 2 / dl m t ^ 1) t := by
  have hp := (dl_pos hm t).ne'
  refine (((hasDerivAt_sin t).mul (hasDerivAt_cos t)).div (deriv_dl hm t) hp).congr_deriv ?_
  have hs := dl_sq hm t
  simp only [Pi.mul_apply]
  field_simp
  have : dl m t ^ 4 = (dl m t ^ 2) ^ 2 := by ring
  ring_nf
  rw [hs]
  ring

theorem int_quot {m : ℝ} (hm : m < 1) :
    ∫ t in (0 : ℝ)..(π / 2), (cos t ^ 2 / dl m t ^ 3 - sin t ^ 2 / dl m t ^ 1) = 0 := by
  rw [integral_eq_sub_of_hasDerivAt (fun t _ => deriv_quot hm t)]
  · simp
  · exact ((cont_div hm (by fun_prop) 3).sub (cont_div hm (by fun_prop) 1)).intervalIntegrable _ _

theorem integrable {m : ℝ} (hm : m < 1) {f : ℝ → ℝ} (hf : Continuous f) (n : ℕ) (a b : ℝ) :
    IntervalIntegrable (fun t => f t / dl m t ^ n) MeasureTheory.volume a b := (cont_div hm hf n).intervalIntegrable _ _

/-- `∫ cos² / Δ³ = ∫ sin² / Δ`. -/
theorem int_cos_cube {m : ℝ} (hm : m < 1) :
    ∫ t in (0 : ℝ)..(π / 2), cos t ^ 2 / dl m t ^ 3 = ∫ t in (0 : ℝ)..(π / 2), sin t ^ 2 / dl m t ^ 1 := by
  have h := int_quot hm
  rw [integral_sub (integrable hm (by fun_prop) 3 _ _) (integrable hm (by fun_prop) 1 _ _)] at h
  linarith

theorem ellipk_eq (m : ℝ) : ellipk m = ∫ t in (0 : ℝ)..(π / 2), 1 / dl m t ^ 1 := by simp [ellipk, dl]

theorem ellipe_eq (m : ℝ) : ellipe m = ∫ t in (0 : ℝ)..(π / 2), dl m t := rfl

theorem intH_eq (k : ℝ) : intH k = ellipk (1 - k ^ 2) := rfl

/-- `m ∫ sin² / Δ = K - E`. -/
theorem int_sin {m : ℝ} (hm : m < 1) :
    m * ∫ t in (0 : ℝ)..(π / 2), sin t ^ 2 / dl m t ^ 1 = ellipk m - ellipe m := by
  rw [ellipk_eq, ellipe_eq, ← integral_sub (integrable hm (by fun_prop) 1 _ _) ((continuous_dl m).intervalIntegrable _ _),
    ← integral_const_mul]
  refine integral_congr fun t _ => ?_
  have hp := (dl_pos hm t).ne'
  have hs := dl_sq hm t
  field_simp
  linarith

/-- `(1 - m) ∫ 1 / Δ³ = E`. -/
theorem int_one_cube {m : ℝ} (hm : m < 1) :
    (1 - m) * ∫ t in (0 : ℝ)..(π / 2), 1 / dl m t ^ 3 = ellipe m := by
  have h0 := int_quot hm
  have h : (m * ∫ t in (0 : ℝ)..(π / 2), (cos t ^ 2 / dl m t ^ 3 - sin t ^ 2 / dl m t ^ 1)) =
      ∫ t in (0 : ℝ)..(π / 2), (dl m t - (1 - m) * (1 / dl m t ^ 3)) := by
    rw [← integral_const_mul]
    refine integral_congr fun t _ => ?_
    have hp := (dl_pos hm t).ne'
    have hs := dl_sq hm t
    have hc : cos t ^ 2 = 1 - sin t ^ 2 := by rw [← sin_sq_add_cos_sq t]; ring
    have h4 : dl m t ^ 4 = (1 - m * sin t ^ 2) ^ 2 := by rw [← hs]; ring
    field_simp
    rw [h4, hs, hc]
    ring
  rw [h0, mul_zero, integral_sub ((continuous_dl m).intervalIntegrable _ _) ((integrable hm (by fun_prop) 3 _ _).const_mul _),
    integral_const_mul, ← ellipe_eq] at h
  linarith

/-- `m ∫ sin² / Δ³ = ∫ 1 / Δ³ - K`. -/
theorem int_sin_cube {m : ℝ} (hm : m < 1) :
    m * ∫ t in (0 : ℝ)..(π / 2), sin t ^ 2 / dl m t ^ 3 = (∫ t in (0 : ℝ)..(π / 2), 1 / dl m t ^ 3) - ellipk m := by
  rw [ellipk_eq, ← integral_sub (integrable hm (by fun_prop) 3 _ _) (integrable hm (by fun_prop) 1 _ _), ← integral_const_mul]
  refine integral_congr fun t _ => ?_
  have hp := (dl_pos hm t).ne'
  have hs := dl_sq hm t
  field_simp
  rw [hs]
  ring

theorem lt_of_pos {k : ℝ} (hk : 0 < k) : 1 - k ^ 2 < 1 := by nlinarith

theorem intI_eq {k : ℝ} (hk : 0 < k) : intI k = ∫ t in (0 : ℝ)..(π / 2), sin t ^ 2 / dl (1 - k ^ 2) t ^ 1 := by
  rw [← int_cos_cube (lt_of_pos hk)]
  unfold intI
  refine integral_congr fun t _ => ?_
  simp only [dl_cube (lt_of_pos hk)]

theorem intJ_eq {k : ℝ} (hk : 0 < k) : intJ k = k ^ 3 * ∫ t in (0 : ℝ)..(π / 2), sin t ^ 2 / dl (1 - k ^ 2) t ^ 3 := by
  unfold intJ
  rw [if_neg hk.ne', ← integral_const_mul]
  have := integral_comp_sub_left (a := 0) (b := π / 2) (fun t => k ^ 3 * (sin t ^ 2 / dl (1 - k ^ 2) t ^ 3)) (π / 2)
  rw [sub_self, sub_zero] at this
  rw [← this]
  refine integral_congr fun t _ => ?_
  have hp := (dl_pos (lt_of_pos hk) (π / 2 - t)).ne'
  have h1 : √((1 - (1 - 1 / k ^ 2) * sin t ^ 2) ^ 3) = (dl (1 - k ^ 2) (π / 2 - t) / k) ^ 3 := by
    have h2 : 1 - (1 - 1 / k ^ 2) * sin t ^ 2 = (dl (1 - k ^ 2) (π / 2 - t) / k) ^ 2 := by
      rw [div_pow, dl_sq (lt_of_pos hk), sin_pi_div_two_sub, eq_div_iff (pow_pos hk 2).ne', cos_sq']
      field_simp
      ring
    rw [h2, ← pow_mul, show 2 * 3 = 3 * 2 by norm_num, pow_mul,
      Real.sqrt_sq (pow_pos (div_pos (dl_pos (lt_of_pos hk) _) hk) 3).le]
  simp only [h1, sin_pi_div_two_sub]
  field_simp

/-! ## Signs and sizes -/

theorem int_pos {f : ℝ → ℝ} (hf : Continuous f) (h0 : ∀ t, 0 < t → t < π / 2 → 0 < f t) :
    0 < ∫ t in (0 : ℝ)..(π / 2), f t :=
  intervalIntegral_pos_of_pos_on (hf.intervalIntegrable _ _) (fun t ht => h0 t ht.1 ht.2) (by positivity)

theorem sin_pos' {t : ℝ} (h0 : 0 < t) (h1 : t < π / 2) : 0 < sin t := sin_pos_of_pos_of_lt_pi h0 (by linarith [pi_pos])

theorem sin_cube_pos {m : ℝ} (hm : m < 1) (n : ℕ) : 0 < ∫ t in (0 : ℝ)..(π / 2), sin t ^ 2 / dl m t ^ n :=
  int_pos (cont_div hm (by fun_prop) n) fun t h0 h1 => div_pos (pow_pos (sin_pos' h0 h1) 2) (pow_pos (dl_pos hm t) n)

theorem intI_pos {k : ℝ} (hk : 0 < k) : 0 < intI k := by
  rw [intI_eq hk]
  exact sin_cube_pos (lt_of_pos hk) 1

theorem intJ_pos {k : ℝ} (hk : 0 < k) : 0 < intJ k := by
  rw [intJ_eq hk]
  exact mul_pos (pow_pos hk 3) (sin_cube_pos (lt_of_pos hk) 3)

theorem ellipk_pos {m : ℝ} (hm : m < 1) : 0 < ellipk m := by
  rw [ellipk_eq]
  exact int_pos (cont_div hm (by fun_prop) 1) fun t _ _ => div_pos one_pos (pow_pos (dl_pos hm t) 1)

theorem dl_anti {m n : ℝ} (h : m < n) {t : ℝ} (h0 : 0 < t) (h1 : t < π / 2) (hn : n < 1) : dl n t < dl m t := by
  unfold dl
  refine Real.sqrt_lt_sqrt (arg_pos hn t).le ?_
  have := pow_pos (sin_pos' h0 h1) 2
  nlinarith

/-- `K` grows strictly. -/
theorem ellipk_lt {m n : ℝ} (h : m < n) (hn : n < 1) : ellipk m < ellipk n := by
  have hm : m < 1 := h.trans hn
  rw [← sub_pos, ellipk_eq, ellipk_eq, ← integral_sub (integrable hn (by fun_prop) 1 _ _) (integrable hm (by fun_prop) 1 _ _)]
  refine int_pos ((cont_div hn (by fun_prop) 1).sub (cont_div hm (by fun_prop) 1)) fun t h0 h1 => ?_
  have := dl_anti h h0 h1 hn
  rw [sub_pos, pow_one, pow_one]
  exact one_div_lt_one_div_of_lt (dl_pos hn t) this

theorem int_sin_sq : ∫ t in (0 : ℝ)..(π / 2), sin t ^ 2 = π / 4 := by
  rw [integral_sin_sq]
  simp
  ring

/-- `K - E ≥ m π / 4`. -/
theorem sub_ge {m : ℝ} (h0 : 0 ≤ m) (hm : m < 1) : m * (π / 4) ≤ ellipk m - ellipe m := by
  rw [← int_sin hm]
  refine mul_le_mul_of_nonneg_left ?_ h0
  rw [← int_sin_sq]
  refine integral_mono_on (by positivity) ((by fun_prop : Continuous fun t : ℝ => sin t ^ 2).intervalIntegrable _ _)
    (integrable hm (by fun_prop) 1 _ _) fun t _ => ?_
  have hp := dl_pos hm t
  have h1 : dl m t ≤ 1 := by
    unfold dl
    rw [Real.sqrt_le_iff]
    refine ⟨zero_le_one, ?_⟩
    have := mul_nonneg h0 (sq_nonneg (sin t))
    linarith
  rw [pow_one, le_div_iff₀ hp]
  exact mul_le_of_le_one_right (sq_nonneg _) h1

/-- `E ≤ π / 2`. -/
theorem ellipe_le {m : ℝ} (h0 : 0 ≤ m) : ellipe m ≤ π / 2 := by
  rw [ellipe_eq]
  have : ∫ t in (0 : ℝ)..(π / 2), dl m t ≤ ∫ _ in (0 : ℝ)..(π / 2), (1 : ℝ) := by
    refine integral_mono_on (by positivity) ((continuous_dl m).intervalIntegrable _ _) (continuous_const.intervalIntegrable _ _)
      fun t _ => ?_
    unfold dl
    rw [Real.sqrt_le_iff]
    refine ⟨zero_le_one, ?_⟩
    have := mul_nonneg h0 (sq_nonneg (sin t))
    linarith
  simpa using this

end Verif.Ellipse
