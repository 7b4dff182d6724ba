import Verif.Definite.Form
import Verif.Bouss.Props

/-!
# Lemmas for C153: the reciprocal distance as an integral of Gaussians
-/

namespace Verif.Definite

open Real MeasureTheory Set Filter

/-- A Gaussian over the interval from `a` to `b`. -/
noncomputable def bell (a b u : ℝ) : ℝ := ∫ s in a..b, exp (-(u ^ 2) * s ^ 2)

theorem continuous_bell (a b : ℝ) : Continuous (bell a b) :=
  intervalIntegral.continuous_parametric_intervalIntegral_of_continuous' (f := fun u s : ℝ => exp (-(u ^ 2) * s ^ 2)) (by fun_prop) a b

theorem finite_uIoc (a b : ℝ) : IsFiniteMeasure (volume.restrict (uIoc a b)) := ⟨by rw [Measure.restrict_apply_univ, uIoc]; exact measure_Ioc_lt_top⟩

theorem recip_eq {s t : ℝ} (ht : t ≠ 0) : 1 / √(s ^ 2 + t ^ 2) = 2 / √π * ∫ u in Ioi (0 : ℝ), exp (-(u ^ 2) * s ^ 2) * exp (-(t ^ 2) * u ^ 2) := by
  have e : ∀ u : ℝ, exp (-(u ^ 2) * s ^ 2) * exp (-(t ^ 2) * u ^ 2) = exp (-(s ^ 2 + t ^ 2) * u ^ 2) := fun u => by
    rw [← exp_add]
    ring_nf
  simp_rw [e]
  rw [integral_gaussian_Ioi, sqrt_div pi_pos.le]
  have : 0 < √(s ^ 2 + t ^ 2) := sqrt_pos.mpr (by positivity)
  have : 0 < √π := sqrt_pos.mpr pi_pos
  field_simp

theorem integrable_inner {t : ℝ} (ht : t ≠ 0) (a b : ℝ) :
    Integrable (fun z : ℝ × ℝ => exp (-(z.2 ^ 2) * z.1 ^ 2) * exp (-(t ^ 2) * z.2 ^ 2)) ((volume.restrict (uIoc a b)).prod (volume.restrict (Ioi 0))) := by
  haveI := finite_uIoc a b
  have h1 : Integrable (fun z : ℝ × ℝ => (1 : ℝ) * exp (-(t ^ 2) * z.2 ^ 2)) ((volume.restrict (uIoc a b)).prod (volume.restrict (Ioi 0))) :=
    Integrable.mul_prod (integrable_const 1) (integrable_exp_neg_mul_sq (by positivity : 0 < t ^ 2)).integrableOn
  refine h1.mono (by fun_prop) (ae_of_all _ fun z => ?_)
  rw [norm_mul, norm_mul, norm_one, norm_eq_abs, abs_exp]
  exact mul_le_mul_of_nonneg_right (exp_le_one_iff.mpr (by nlinarith [mul_nonneg (sq_nonneg z.2) (sq_nonneg z.1)])) (norm_nonneg _)

theorem inner_eq {t : ℝ} (ht : t ≠ 0) (a b : ℝ) : ∫ s in a..b, 1 / √(s ^ 2 + t ^ 2) = 2 / √π * ∫ u in Ioi (0 : ℝ), bell a b u * exp (-(t ^ 2) * u ^ 2) := by
  simp_rw [recip_eq ht]
  rw [intervalIntegral.integral_const_mul, intervalIntegral_integral_swap (integrable_inner ht a b)]
  simp_rw [intervalIntegral.integral_mul_const]
  rfl

theorem integrable_bell {t : ℝ} (ht : t ≠ 0) (a b : ℝ) : Integrable (fun u => bell a b u * exp (-(t ^ 2) * u ^ 2)) (volume.restrict (Ioi 0)) := by
  refine ((integrable_exp_neg_mul_sq (by positivity : 0 < t ^ 2)).integrableOn.const_mul |b - a|).mono
    (((continuous_bell a b).mul (by fun_prop)).aestronglyMeasurable) (ae_of_all _ fun u => ?_)
  rw [norm_mul, norm_mul, norm_eq_abs |b - a|, abs_abs]
  refine mul_le_mul_of_nonneg_right ?_ (norm_nonneg _)
  have := intervalIntegral.norm_integral_le_of_norm_le_const (a := a) (b := b) (f := fun s => exp (-(u ^ 2) * s ^ 2)) (C := 1) fun s _ => by
    rw [norm_eq_abs, abs_exp]
    exact exp_le_one_iff.mpr (by nlinarith [mul_nonneg (sq_nonneg u) (sq_nonneg s)])
  rwa [one_mul] at this

theorem bell_nonneg {a b : ℝ} (h : a ≤ b) (u : ℝ) : 0 ≤ bell a b u := intervalIntegral.integral_nonneg h fun _ _ => (exp_pos _).le

theorem integrable_outer {a b : ℝ} (hab : a ≤ b) (ha : a ≠ 0) (hb : b ≠ 0) (c d : ℝ) :
    Integrable (fun z : ℝ × ℝ => bell a b z.2 * exp (-(z.1 ^ 2) * z.2 ^ 2)) ((volume.restrict (uIoc c d)).prod (volume.restrict (Ioi 0))) := by
  have hae : ∀ᵐ t ∂(volume.restrict (uIoc c d)), t ≠ 0 := ae_restrict_of_ae (Measure.ae_ne volume 0)
  refine (integrable_prod_iff (((continuous_bell a b).comp continuous_snd).mul (by fun_prop)).aestronglyMeasurable).mpr ⟨?_, ?_⟩
  · filter_upwards [hae] with t ht
    exact integrable_bell ht a b
  · have h := (((Bouss.integrable_L hb c d).sub (Bouss.integrable_L ha c d)).const_mul (√π / 2))
    rw [intervalIntegrable_iff] at h
    refine Integrable.congr h ?_
    filter_upwards [hae] with t ht
    have e : ∀ u, ‖bell a b u * exp (-(t ^ 2) * u ^ 2)‖ = bell a b u * exp (-(t ^ 2) * u ^ 2) := fun u => by
      rw [norm_eq_abs, abs_of_nonneg (mul_nonneg (bell_nonneg hab u) (exp_pos _).le)]
    have e2 : ∫ u in Ioi (0 : ℝ), ‖bell a b u * exp (-(t ^ 2) * u ^ 2)‖ = ∫ u in Ioi (0 : ℝ), bell a b u * exp (-(t ^ 2) * u ^ 2) := integral_congr_ae (ae_of_all _ e)
    have h1 := inner_eq ht a b
    rw [Bouss.inner_recip ht] at h1
    have : 0 < √π := sqrt_pos.mpr pi_pos
    refine Eq.trans ?_ e2.symm
    show √π / 2 * (Bouss.L b t - Bouss.L a t) = _
    rw [h1]
    field_simp

theorem outer_eq {a b : ℝ} (hab : a ≤ b) (ha : a ≠ 0) (hb : b ≠ 0) (c d : ℝ) :
    ∫ t in c..d, ∫ s in a..b, 1 / √(s ^ 2 + t ^ 2) = 2 / √π * ∫ u in Ioi (0 : ℝ), bell a b u * bell c d u := by
  rw [Bouss.integral_of_inner fun t ht => inner_eq ht a b, intervalIntegral.integral_const_mul, intervalIntegral_integral_swap (integrable_outer hab ha hb c d)]
  congr 1
  refine integral_congr_ae (ae_of_all _ fun u => ?_)
  beta_reduce
  rw [intervalIntegral.integral_const_mul]
  congr 1
  exact intervalIntegral.integral_congr fun t _ => by rw [neg_mul, neg_mul, mul_comm]

theorem integrable_bells {a b : ℝ} (hab : a ≤ b) (ha : a ≠ 0) (hb : b ≠ 0) {c d : ℝ} (hcd : c ≤ d) : Integrable (fun u => bell a b u * bell c d u) (volume.restrict (Ioi 0)) := by
  refine (integrable_outer hab ha hb c d).integral_prod_right.congr (ae_of_all _ fun u => ?_)
  show ∫ t in uIoc c d, bell a b u * exp (-(t ^ 2) * u ^ 2) = _
  rw [integral_const_mul, uIoc_of_le hcd, ← intervalIntegral.integral_of_le hcd]
  congr 1
  exact intervalIntegral.integral_congr fun t _ => by rw [neg_mul, neg_mul, mul_comm]

theorem bell_box {u : ℝ} (hu : 0 < u) (n : ℤ) : bell (InfMat.lo n) (InfMat.hi n) u = box (π ^ 2 / u ^ 2) n := by
  unfold bell box
  rw [show π ^ 2 / (π ^ 2 / u ^ 2) = u ^ 2 by field_simp]
  rfl

/-- The reciprocal of the distance, integrated over the cell of each node. -/
theorem terms_eq (x y : ℤ) : InfMat.termX x y + InfMat.termY x y = 2 / √π * ∫ u in Ioi (0 : ℝ), bell (InfMat.lo x) (InfMat.hi x) u * bell (InfMat.lo y) (InfMat.hi y) u := by
  have h := Bouss.cell_recip (h := 1) one_pos x y
  rw [Bouss.cell_eq] at h
  simp only [one_mul] at h
  rw [← h, outer_eq (Bouss.lo_lt_hi x).le (Bouss.lo_ne x) (Bouss.hi_ne x)]

theorem form_terms_pos {A : Finset (ℤ × ℤ)} {w : ℤ × ℤ → ℝ} (h : ∃ p ∈ A, w p ≠ 0) : 0 < form A w fun x y => InfMat.termX x y + InfMat.termY x y := by
  simp_rw [terms_eq]
  have hint : ∀ x y, Integrable (fun u => bell (InfMat.lo x) (InfMat.hi x) u * bell (InfMat.lo y) (InfMat.hi y) u) (volume.restrict (Ioi 0)) :=
    fun x y => integrable_bells (Bouss.lo_lt_hi x).le (Bouss.lo_ne x) (Bouss.hi_ne x) (Bouss.lo_lt_hi y).le
  rw [form_mul, ← integral_form A w hint]
  refine mul_pos (by positivity) ?_
  have hpos : ∀ u ∈ Ioi (0 : ℝ), 0 < form A w fun x y => bell (InfMat.lo x) (InfMat.hi x) u * bell (InfMat.lo y) (InfMat.hi y) u := by
    intro u hu
    simp_rw [bell_box hu]
    exact form_box_pos (by have : 0 < u := hu; positivity) h
  rw [setIntegral_pos_iff_support_of_nonneg_ae]
  · refine (by simp : (0 : ENNReal) < volume (Ioi (0 : ℝ))).trans_le (measure_mono fun u hu => ⟨(hpos u hu).ne', hu⟩)
  · filter_upwards [ae_restrict_mem measurableSet_Ioi] with u hu using (hpos u hu).le
  · unfold form
    exact integrable_finset_sum _ fun p _ => integrable_finset_sum _ fun q _ => (hint _ _).const_mul _

end Verif.Definite
