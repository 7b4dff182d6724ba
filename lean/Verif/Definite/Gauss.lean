import Mathlib.Analysis.SpecialFunctions.Gaussian.FourierTransform
import Mathlib.MeasureTheory.Integral.Prod
import Verif.Definite.Fold

/-!
# Lemmas for C153: the integral of a Gaussian over each cell of a line as an integral of cosines against the weight
-/

namespace Verif.Definite

open Real MeasureTheory Set Filter

theorem integrable_gauss_cos {b : ℝ} (hb : 0 < b) (t : ℝ) : Integrable fun ξ : ℝ => exp (-b * ξ ^ 2) * cos (t * ξ) := by
  refine (integrable_exp_neg_mul_sq hb).mono (by fun_prop) (ae_of_all _ fun x => ?_)
  rw [norm_mul]
  exact mul_le_of_le_one_right (norm_nonneg _) (abs_cos_le_one _)

theorem gauss_cos {b : ℝ} (hb : 0 < b) (t : ℝ) : ∫ ξ : ℝ, exp (-b * ξ ^ 2) * cos (t * ξ) = √(π / b) * exp (-t ^ 2 / (4 * b)) := by
  have h := fourierIntegral_gaussian (b := (b : ℂ)) (by simpa using hb) (t : ℂ)
  have hr : ((π / b : ℂ)) ^ (1 / 2 : ℂ) * Complex.exp (-(t : ℂ) ^ 2 / (4 * b)) = ((√(π / b) * exp (-t ^ 2 / (4 * b)) : ℝ) : ℂ) := by
    rw [sqrt_eq_rpow]
    push_cast
    rw [Complex.ofReal_cpow (by positivity)]
    push_cast
    rfl
  rw [hr] at h
  have hi : Integrable fun x : ℝ => Complex.exp (Complex.I * t * x) * Complex.exp (-b * x ^ 2) := by
    have := integrable_cexp_quadratic (b := (b : ℂ)) (by simpa using hb) (Complex.I * t) 0
    refine this.congr (ae_of_all _ fun x => ?_)
    beta_reduce
    rw [← Complex.exp_add]
    congr 1
    ring
  have h2 := congrArg Complex.re h
  rw [Complex.ofReal_re, ← Complex.reCLM_apply, ← ContinuousLinearMap.integral_comp_comm _ hi] at h2
  rw [← h2]
  refine integral_congr_ae (ae_of_all _ fun x => ?_)
  beta_reduce
  rw [Complex.reCLM_apply, show Complex.exp (-(b : ℂ) * (x : ℂ) ^ 2) = ((exp (-b * x ^ 2) : ℝ) : ℂ) by push_cast; rfl, mul_comm (Complex.exp _), Complex.re_ofReal_mul,
    show Complex.I * (t : ℂ) * (x : ℂ) = ((t * x : ℝ) : ℂ) * Complex.I by push_cast; ring, Complex.exp_ofReal_mul_I_re]

theorem cos_box (ξ n : ℝ) : ∫ s in (n - 1 / 2)..(n + 1 / 2), cos (2 * π * s * ξ) = sinc (π * ξ) * cos (2 * π * n * ξ) := by
  rcases eq_or_ne ξ 0 with rfl | h
  · simp; norm_num
  · have hk : 2 * π * ξ ≠ 0 := by positivity
    have := intervalIntegral.integral_comp_mul_right (a := n - 1 / 2) (b := n + 1 / 2) cos hk
    rw [integral_cos] at this
    rw [sinc_of_ne_zero (by positivity)]
    have e : ∀ s, cos (2 * π * s * ξ) = cos (s * (2 * π * ξ)) := fun s => by ring_nf
    simp_rw [e]
    rw [this, show (n + 1 / 2) * (2 * π * ξ) = 2 * π * n * ξ + π * ξ by ring, show (n - 1 / 2) * (2 * π * ξ) = 2 * π * n * ξ - π * ξ by ring, sin_add, sin_sub, smul_eq_mul,
      show n * (2 * π * ξ) = 2 * π * n * ξ by ring]
    field_simp
    ring

/-- A Gaussian over one cell. -/
noncomputable def box (b : ℝ) (n : ℤ) : ℝ := ∫ s in ((n : ℝ) - 1 / 2)..((n : ℝ) + 1 / 2), exp (-(π ^ 2 / b) * s ^ 2)

theorem box_eq {b : ℝ} (hb : 0 < b) (n : ℤ) : √(π / b) * box b n = ∫ ξ : ℝ, weight b ξ * cos (2 * π * n * ξ) := by
  have e : ∀ s : ℝ, √(π / b) * exp (-(π ^ 2 / b) * s ^ 2) = ∫ ξ : ℝ, exp (-b * ξ ^ 2) * cos (2 * π * s * ξ) := by
    intro s
    rw [gauss_cos hb]
    congr 2
    field_simp
    ring
  unfold box
  rw [← intervalIntegral.integral_const_mul]
  simp_rw [e]
  rw [intervalIntegral_integral_swap]
  · refine integral_congr_ae (ae_of_all _ fun ξ => ?_)
    beta_reduce
    rw [intervalIntegral.integral_const_mul, cos_box]
    unfold weight
    ring
  · have h1 : Integrable (fun z : ℝ × ℝ => (1 : ℝ) * exp (-b * z.2 ^ 2)) ((volume.restrict (uIoc ((n : ℝ) - 1 / 2) ((n : ℝ) + 1 / 2))).prod volume) :=
      haveI : IsFiniteMeasure (volume.restrict (uIoc ((n : ℝ) - 1 / 2) ((n : ℝ) + 1 / 2))) := ⟨by rw [Measure.restrict_apply_univ, uIoc]; exact measure_Ioc_lt_top⟩
      Integrable.mul_prod (integrable_const 1) (integrable_exp_neg_mul_sq hb)
    refine h1.mono (by fun_prop) (ae_of_all _ fun z => ?_)
    simp only [Function.uncurry, norm_mul, one_mul, norm_one]
    exact mul_le_of_le_one_right (norm_nonneg _) (abs_cos_le_one _)

theorem box_half {b : ℝ} (hb : 0 < b) (n : ℤ) : √(π / b) * box b n = 2 * ∫ ξ in Ioi (0 : ℝ), weight b ξ * cos (2 * π * n * ξ) := by
  rw [box_eq hb]
  have h := integral_comp_abs (f := fun ξ => weight b ξ * cos (2 * π * n * ξ))
  rw [← h]
  refine integral_congr_ae (ae_of_all _ fun ξ => ?_)
  beta_reduce
  rcases abs_choice ξ with h | h <;> rw [h]
  rw [weight_neg, mul_neg, cos_neg]

end Verif.Definite
