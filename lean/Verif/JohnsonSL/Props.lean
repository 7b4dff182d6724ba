import Mathlib.MeasureTheory.Function.JacobianOneDim
import Mathlib.MeasureTheory.Integral.IntervalIntegral.FundThmCalculus
import Mathlib.Probability.CDF
import Mathlib.Analysis.Complex.ExponentialBounds
import Verif.Johnson.Moments
import Verif.JohnsonSL.Model

/-!
# C139: the lognormal distributions

Density, distribution function and quantiles belong to one distribution.
-/

namespace Verif.JohnsonSL

open Real MeasureTheory ProbabilityTheory Filter Topology Set
open Verif.Johnson (std expect expect_exp)

/-! ## Specification -/

/-- The functions of the standard normal distribution: its density, its distribution function, and an inverse of this. -/
structure Normal.Right (n : Normal) : Prop where
  pdf : ∀ x, n.pdf x = gaussianPDFReal 0 1 x
  cdf : ∀ x, n.cdf x = ProbabilityTheory.cdf std x
  ppf : ∀ q, 0 < q → q < 1 → n.cdf (n.ppf q) = q

/-! ## Lemmas: the normal distribution -/

theorem Phi_eq (x : ℝ) : ProbabilityTheory.cdf std x = ∫ t in Iic x, gaussianPDFReal 0 1 t := by
  rw [cdf_eq_real, Measure.real, gaussianReal_apply_eq_integral _ one_ne_zero, ENNReal.toReal_ofReal]
  exact integral_nonneg fun t => gaussianPDFReal_nonneg 0 1 t

theorem Phi_deriv (x : ℝ) : HasDerivAt (fun x => ProbabilityTheory.cdf std x) (gaussianPDFReal 0 1 x) x := by
  have hi := integrable_gaussianPDFReal 0 1
  have hc : Continuous (gaussianPDFReal 0 1) := by
    rw [gaussianPDFReal_def]
    fun_prop
  have e : (fun x => ProbabilityTheory.cdf std x) = fun x => (∫ t in Iic 0, gaussianPDFReal 0 1 t) + ∫ t in (0 : ℝ)..x, gaussianPDFReal 0 1 t := by
    funext y
    rw [Phi_eq, ← intervalIntegral.integral_Iic_sub_Iic hi.integrableOn hi.integrableOn]
    ring
  rw [e]
  exact (intervalIntegral.integral_hasDerivAt_right (hi.intervalIntegrable) (hc.stronglyMeasurableAtFilter _ _) hc.continuousAt).const_add _

theorem Phi_strictMono : StrictMono fun x => ProbabilityTheory.cdf std x :=
  strictMono_of_hasDerivAt_pos (fun x => Phi_deriv x) fun x => gaussianPDFReal_pos 0 1 x one_ne_zero

theorem Phi_mem (x : ℝ) : 0 < ProbabilityTheory.cdf std x ∧ ProbabilityTheory.cdf std x < 1 :=
  ⟨(cdf_nonneg std (x - 1)).trans_lt (Phi_strictMono (by linarith)), (Phi_strictMono (by linarith : x < x + 1)).trans_le (cdf_le_one std (x + 1))⟩

theorem Normal.Right.back {n : Normal} (hn : n.Right) (z : ℝ) : n.ppf (n.cdf z) = z := by
  have h := Phi_mem z
  rw [← hn.cdf] at h
  have h2 := hn.ppf _ h.1 h.2
  rw [hn.cdf, hn.cdf z] at h2
  rw [hn.cdf]
  exact Phi_strictMono.injective h2

/-- There are such functions. -/
theorem exists_right : ∃ n : Normal, n.Right := by
  have h : ∀ q : ℝ, ∃ z, 0 < q → q < 1 → ProbabilityTheory.cdf std z = q := by
    intro q
    by_cases hq : 0 < q ∧ q < 1
    · have hc : Continuous fun x => ProbabilityTheory.cdf std x := continuous_iff_continuousAt.2 fun x => (Phi_deriv x).continuousAt
      obtain ⟨a, ha⟩ := ((tendsto_cdf_atBot std).eventually (gt_mem_nhds hq.1)).exists
      obtain ⟨b, hb⟩ := ((tendsto_cdf_atTop std).eventually (lt_mem_nhds hq.2)).exists
      obtain ⟨z, hz⟩ := mem_range_of_exists_le_of_exists_ge hc ⟨a, ha.le⟩ ⟨b, hb.le⟩
      exact ⟨z, fun _ _ => hz⟩
    · exact ⟨0, fun h1 h2 => absurd ⟨h1, h2⟩ hq⟩
  choose f hf using h
  exact ⟨⟨gaussianPDFReal 0 1, fun x => ProbabilityTheory.cdf std x, f⟩, fun _ => rfl, fun _ => rfl, hf⟩

theorem normPdf_eq (x : ℝ) : normPdf x = gaussianPDFReal 0 1 x := by
  rw [gaussianPDFReal_def]
  unfold normPdf
  simp only [NNReal.coe_one, sub_zero, mul_one]
  rw [div_eq_inv_mul]

theorem mlog_ok {x : ℝ} (hx : 0 < x) : mlog x = .ok (log x) := by
  unfold mlog
  rw [if_neg (not_le.2 hx)]

/-! ## The claim -/

/-- **C139, quantiles and distribution function.** They are inverse to each other: the quantile of a probability is a positive number where the distribution function has this value, and each positive number is the
quantile of the value of the distribution function; -/
theorem C139_inverse {n : Normal} (hn : n.Right) (a b : ℝ) (hb : 0 < b) :
    (∀ q, 0 < q → q < 1 → 0 < ppf n q a b ∧ cdf n (ppf n q a b) a b = .ok q) ∧
    (∀ x, 0 < x → ∃ q, cdf n x a b = .ok q ∧ 0 < q ∧ q < 1 ∧ ppf n q a b = x) := by
  constructor
  · intro q h0 h1
    have hp : 0 < ppf n q a b := exp_pos _
    refine ⟨hp, ?_⟩
    unfold cdf
    rw [mlog_ok hp]
    show Except.ok _ = _
    unfold ppf
    rw [log_exp, mul_div_cancel₀ _ hb.ne', add_sub_cancel, hn.ppf q h0 h1]
  · intro x hx
    refine ⟨n.cdf (a + b * log x), ?_, ?_, ?_, ?_⟩
    · unfold cdf
      rw [mlog_ok hx]
      rfl
    · rw [hn.cdf]; exact (Phi_mem _).1
    · rw [hn.cdf]; exact (Phi_mem _).2
    · unfold ppf
      rw [hn.back, add_sub_cancel_left, mul_div_cancel_left₀ _ hb.ne', exp_log hx]

/-- it grows, -/
theorem C139_increasing {n : Normal} (hn : n.Right) (a b : ℝ) (hb : 0 < b) {x y p q : ℝ} (hx : 0 < x) (hxy : x < y) (hp : cdf n x a b = .ok p) (hq : cdf n y a b = .ok q) : p < q := by
  unfold cdf at hp hq
  rw [mlog_ok hx] at hp
  rw [mlog_ok (hx.trans hxy)] at hq
  cases hp
  cases hq
  rw [hn.cdf, hn.cdf]
  exact Phi_strictMono (by have := log_lt_log hx hxy; nlinarith)

/-- and numbers that are not positive are refused. -/
theorem C139_refused (n : Normal) (x a b : ℝ) (hx : x ≤ 0) : pdf n x a b = .error .valueError ∧ cdf n x a b = .error .valueError ∧ pdf' x a b = .error .valueError := by
  have : mlog x = .error .valueError := by unfold mlog; rw [if_pos hx]
  unfold pdf cdf pdf'
  rw [this]
  exact ⟨rfl, rfl, rfl⟩

example (n : Normal) := C139_refused n (-1) 0 2 (by norm_num)

/-- The distribution function. -/
theorem cdf_deriv {n : Normal} (hn : n.Right) (a b x : ℝ) (hx : 0 < x) : HasDerivAt (fun x => n.cdf (a + b * log x)) (b / x * gaussianPDFReal 0 1 (a + b * log x)) x := by
  have e : (fun x => n.cdf (a + b * log x)) = fun x => ProbabilityTheory.cdf std (a + b * log x) := funext fun x => hn.cdf _
  rw [e]
  have h := (Phi_deriv (a + b * log x)).comp x (((hasDerivAt_log hx.ne').const_mul b).const_add a)
  refine h.congr_deriv ?_
  ring

/-- **C139 (negation), densities.** Neither of the two densities is the derivative of the distribution function: the first one (`_johnsonsl.py`) only at the root of `b`, the second one (`johnsondists.py`) only at 1. -/
theorem C139_density_wrong {n : Normal} (hn : n.Right) (a b : ℝ) (hb : 0 < b) (F : ℝ → ℝ) (hF : ∀ x, 0 < x → cdf n x a b = .ok (F x)) (x : ℝ) (hx : 0 < x) :
    (∃ p, pdf n x a b = .ok p ∧ (HasDerivAt F p x ↔ x ^ 2 = b)) ∧ (∃ p, pdf' x a b = .ok p ∧ (HasDerivAt F p x ↔ x = 1)) := by
  have hF' : HasDerivAt F (b / x * gaussianPDFReal 0 1 (a + b * log x)) x := by
    refine (cdf_deriv hn a b x hx).congr_of_eventuallyEq ?_
    filter_upwards [Ioi_mem_nhds hx] with y hy
    have h := hF y hy
    unfold cdf at h
    rw [mlog_ok hy] at h
    have h' : (Except.ok (n.cdf (a + b * log y)) : Except PyErr ℝ) = .ok (F y) := h
    exact (Except.ok.inj h').symm
  have hp := gaussianPDFReal_pos 0 1 (a + b * log x) one_ne_zero
  have key : ∀ c : ℝ, HasDerivAt F (c * gaussianPDFReal 0 1 (a + b * log x)) x ↔ c = b / x := by
    intro c
    constructor
    · intro h
      exact mul_right_cancel₀ hp.ne' (h.unique hF')
    · rintro rfl
      exact hF'
  constructor
  · refine ⟨x * gaussianPDFReal 0 1 (a + b * log x), ?_, ?_⟩
    · unfold pdf
      rw [mlog_ok hx, ← hn.pdf]
      rfl
    · rw [key, eq_div_iff hx.ne', pow_two]
  · refine ⟨b * gaussianPDFReal 0 1 (a + b * log x), ?_, ?_⟩
    · unfold pdf'
      rw [mlog_ok hx, ← normPdf_eq]
      rfl
    · rw [key, eq_div_iff hx.ne']
      constructor
      · intro h
        exact mul_left_cancel₀ hb.ne' (by linarith)
      · rintro rfl; ring

/-- Substitution of the normal score. -/
theorem score (a b : ℝ) (hb : 0 < b) (g : ℝ → ℝ) : ∫ x in Ioi 0, g x = ∫ z, exp ((z - a) / b) / b * g (exp ((z - a) / b)) := by
  have him : (fun z => exp ((z - a) / b)) '' univ = Ioi 0 := by
    ext x
    simp only [image_univ, mem_range, mem_Ioi]
    constructor
    · rintro ⟨z, rfl⟩
      exact exp_pos _
    · intro hx
      exact ⟨a + b * log x, by rw [add_sub_cancel_left, mul_div_cancel_left₀ _ hb.ne', exp_log hx]⟩
  have hd : ∀ z ∈ (univ : Set ℝ), HasDerivWithinAt (fun z => exp ((z - a) / b)) (exp ((z - a) / b) / b) univ z := by
    intro z _
    refine ((((hasDerivAt_id z).sub_const a).div_const b).exp.congr_deriv ?_).hasDerivWithinAt
    simp only [id]
    ring
  have hinj : InjOn (fun z => exp ((z - a) / b)) univ := by
    intro z _ w _ h
    have h1 : (z - a) / b = (w - a) / b := exp_injective h
    have h2 := (div_left_inj' hb.ne').1 h1
    linarith
  rw [← him, integral_image_eq_integral_abs_deriv_smul MeasurableSet.univ hd hinj]
  simp only [Measure.restrict_univ, smul_eq_mul]
  refine integral_congr_ae (ae_of_all _ fun z => ?_)
  show |exp ((z - a) / b) / b| * _ = _
  rw [abs_of_pos (div_pos (exp_pos _) hb)]

theorem expect_eq (f : ℝ → ℝ) : expect f = ∫ z, gaussianPDFReal 0 1 z * f z := by
  unfold expect
  rw [integral_gaussianReal_eq_integral_smul one_ne_zero]
  rfl

theorem power_score (a b t : ℝ) : expect (fun z => exp (t * ((z - a) / b))) = exp (t ^ 2 / (2 * b ^ 2) - t * a / b) := by
  have e : (fun z => exp (t * ((z - a) / b))) = fun z => exp (-(t * a / b)) * exp (t / b * z) := by
    funext z
    rw [← exp_add]
    congr 1
    ring
  have h := expect_exp (t / b)
  rw [e]
  unfold expect at *
  rw [integral_const_mul, h, ← exp_add]
  congr 1
  rw [div_pow]
  ring

/-- **C139 (negation), total probability.** The integrals of the densities over all positive numbers: the first one is `exp (2 / b² - 2 a / b) / b`, the second one `exp (1 / (2 b²) - a / b)`, -/
theorem C139_total_wrong {n : Normal} (hn : n.Right) (a b : ℝ) (hb : 0 < b) (f f' : ℝ → ℝ) (hf : ∀ x, 0 < x → pdf n x a b = .ok (f x)) (hf' : ∀ x, 0 < x → pdf' x a b = .ok (f' x)) :
    ∫ x in Ioi 0, f x = exp (2 / b ^ 2 - 2 * a / b) / b ∧ ∫ x in Ioi 0, f' x = exp (1 / (2 * b ^ 2) - a / b) := by
  have e : ∀ z, a + b * log (exp ((z - a) / b)) = z := by
    intro z
    rw [log_exp, mul_div_cancel₀ _ hb.ne', add_sub_cancel]
  constructor
  · rw [score a b hb]
    have h := power_score a b 2
    rw [expect_eq] at h
    have e2 : (fun z => exp ((z - a) / b) / b * f (exp ((z - a) / b))) = fun z => (1 / b) * (gaussianPDFReal 0 1 z * exp (2 * ((z - a) / b))) := by
      funext z
      have h1 := hf _ (exp_pos ((z - a) / b))
      unfold pdf at h1
      rw [mlog_ok (exp_pos _)] at h1
      have h2 : exp ((z - a) / b) * n.pdf (a + b * log (exp ((z - a) / b))) = f (exp ((z - a) / b)) := Except.ok.inj h1
      rw [← h2, e, hn.pdf, two_mul, exp_add]
      ring
    rw [e2, integral_const_mul, h, show (2 : ℝ) ^ 2 / (2 * b ^ 2) = 2 / b ^ 2 by field_simp]
    ring
  · rw [score a b hb]
    have h := power_score a b 1
    rw [expect_eq] at h
    have e2 : (fun z => exp ((z - a) / b) / b * f' (exp ((z - a) / b))) = fun z => gaussianPDFReal 0 1 z * exp (1 * ((z - a) / b)) := by
      funext z
      have h1 := hf' _ (exp_pos ((z - a) / b))
      unfold pdf' at h1
      rw [mlog_ok (exp_pos _)] at h1
      have h2 : b * normPdf (a + b * log (exp ((z - a) / b))) = f' (exp ((z - a) / b)) := Except.ok.inj h1
      rw [← h2, e, normPdf_eq, one_mul]
      field_simp
    rw [e2, h]
    congr 1
    ring

/-- neither of which is 1 for `a = 0` and `b = 2`. -/
theorem C139_not_one_wrong : exp (2 / 2 ^ 2 - 2 * 0 / 2) / 2 < (1 : ℝ) ∧ 1 < exp (1 / (2 * 2 ^ 2) - 0 / 2 : ℝ) := by
  constructor
  · rw [div_lt_one (by norm_num)]
    have h : exp (2 / 2 ^ 2 - 2 * 0 / 2 : ℝ) ^ 2 < 2 ^ 2 := by
      rw [← exp_nat_mul]
      have := exp_one_lt_d9
      norm_num
      linarith
    exact lt_of_pow_lt_pow_left₀ 2 (by norm_num) h
  · rw [one_lt_exp_iff]
    norm_num

/-- **C139 (negation), support.** The support is declared to end at 1, but with a probability other than zero the values are greater. -/
theorem C139_support_wrong {n : Normal} (hn : n.Right) (a b : ℝ) (hb : 0 < b) : ∃ p, p < 1 ∧ cdf n support.2 a b = .ok p ∧ ∀ q, p < q → q < 1 → support.2 < ppf n q a b := by
  refine ⟨n.cdf a, by rw [hn.cdf]; exact (Phi_mem a).2, ?_, ?_⟩
  · unfold cdf support
    rw [mlog_ok (by norm_num : (0 : ℝ) < (0, 1).2)]
    show Except.ok _ = _
    simp
  · intro q hq h1
    have h0 : 0 < q := by have := (Phi_mem a).1; rw [← hn.cdf] at this; linarith
    have h := hn.ppf q h0 h1
    have hlt : a < n.ppf q := by
      rw [← h, hn.cdf, hn.cdf] at hq
      exact Phi_strictMono.lt_iff_lt.1 hq
    show 1 < exp _
    rw [one_lt_exp_iff]
    exact div_pos (by linarith) hb

/-- The hypotheses of `C139_inverse`, `C139_density_wrong` and `C139_total_wrong`: there are such functions of the normal distribution, and functions as in the theorems. -/
example : ∃ (n : Normal) (F f f' : ℝ → ℝ), n.Right ∧ (∀ x, 0 < x → cdf n x 0 2 = .ok (F x)) ∧ (∀ x, 0 < x → pdf n x 0 2 = .ok (f x)) ∧ (∀ x, 0 < x → pdf' x 0 2 = .ok (f' x)) := by
  obtain ⟨n, hn⟩ := exists_right
  refine ⟨n, fun x => n.cdf (0 + 2 * log x), fun x => x * n.pdf (0 + 2 * log x), fun x => 2 * normPdf (0 + 2 * log x), hn, ?_, ?_, ?_⟩ <;> intro x hx
  · unfold cdf; rw [mlog_ok hx]; rfl
  · unfold pdf; rw [mlog_ok hx]; rfl
  · unfold pdf'; rw [mlog_ok hx]; rfl

/-- Numbers that grow, with values of the distribution function, as in `C139_increasing`. -/
example : ∃ (n : Normal) (p q : ℝ), n.Right ∧ (0 : ℝ) < 1 ∧ (1 : ℝ) < 2 ∧ cdf n 1 0 2 = .ok p ∧ cdf n 2 0 2 = .ok q := by
  obtain ⟨n, hn⟩ := exists_right
  refine ⟨n, n.cdf (0 + 2 * log 1), n.cdf (0 + 2 * log 2), hn, by norm_num, by norm_num, ?_, ?_⟩
  · unfold cdf; rw [mlog_ok one_pos]; rfl
  · unfold cdf; rw [mlog_ok two_pos]; rfl

end Verif.JohnsonSL
