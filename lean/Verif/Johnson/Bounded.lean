import Mathlib.Analysis.SpecialFunctions.Sigmoid
import Mathlib.Analysis.Calculus.ParametricIntegral
import Mathlib.MeasureTheory.Integral.IntegralEqImproper
import Verif.Johnson.Iterations
import Verif.Johnson.Moments

/-!
# C137: the moments of bounded distributions and their derivatives
-/

namespace Verif.Johnson

open Real MeasureTheory ProbabilityTheory Filter Topology

/-- The standard bounded variable as a function of the normal score. -/
noncomputable def boundedY (g d z : ℝ) : ℝ := 1 / (1 + exp (-((z - g) / d)))

/-- Its moments. -/
noncomputable def momentY (k : ℕ) (g d : ℝ) : ℝ := expect fun z => boundedY g d z ^ k

/-- The six moments that `get_moments` is asked for. -/
noncomputable def exactSix (g d : ℝ) : Six := fun i => momentY (i.val + 1) g d

theorem boundedY_eq (g d z : ℝ) : boundedY g d z = sigmoid ((z - g) / d) := by unfold boundedY; rw [sigmoid_def, one_div]

theorem boundedY_pos (g d z : ℝ) : 0 < boundedY g d z := by rw [boundedY_eq]; exact sigmoid_pos _

theorem boundedY_lt (g d z : ℝ) : boundedY g d z < 1 := by rw [boundedY_eq]; exact sigmoid_lt_one _

theorem hasDerivAt_sigmoid' (x : ℝ) : HasDerivAt sigmoid (sigmoid x - sigmoid x ^ 2) x := by
  have := hasDerivAt_sigmoid x
  convert this using 1
  ring

theorem continuous_boundedY (g d : ℝ) : Continuous (boundedY g d) := by
  have : boundedY g d = fun z => sigmoid ((z - g) / d) := funext (boundedY_eq g d)
  rw [this]
  exact continuous_sigmoid.comp (by fun_prop)

theorem boundedY_z (g d z : ℝ) : HasDerivAt (boundedY g d) ((boundedY g d z - boundedY g d z ^ 2) / d) z := by
  have : boundedY g d = fun z => sigmoid ((z - g) / d) := funext (boundedY_eq g d)
  rw [this]
  have h := (hasDerivAt_sigmoid' ((z - g) / d)).comp z (((hasDerivAt_id z).sub_const g).div_const d)
  refine h.congr_deriv ?_
  try simp only [id]
  ring

theorem boundedY_g (g d z : ℝ) : HasDerivAt (fun g => boundedY g d z) (-(boundedY g d z - boundedY g d z ^ 2) / d) g := by
  have : (fun g => boundedY g d z) = fun g => sigmoid ((z - g) / d) := funext fun g => boundedY_eq g d z
  rw [this, boundedY_eq]
  have h := (hasDerivAt_sigmoid' ((z - g) / d)).comp g (((hasDerivAt_id g).const_sub z).div_const d)
  refine h.congr_deriv ?_
  try simp only [id]
  ring

theorem boundedY_d (g d z : ℝ) (hd : d ≠ 0) : HasDerivAt (fun d => boundedY g d z) ((g - z) / d ^ 2 * (boundedY g d z - boundedY g d z ^ 2)) d := by
  have : (fun d => boundedY g d z) = fun d => sigmoid ((z - g) / d) := funext fun d => boundedY_eq g d z
  rw [this, boundedY_eq]
  have h := (hasDerivAt_sigmoid' ((z - g) / d)).comp d ((hasDerivAt_const d (z - g)).div (hasDerivAt_id d) hd)
  refine h.congr_deriv ?_
  try simp only [id]
  ring

theorem bounded_integrable {f : ℝ → ℝ} (hf : Continuous f) {C : ℝ} (hC : ∀ z, |f z| ≤ C) : Integrable f std :=
  Integrable.of_bound hf.aestronglyMeasurable C (ae_of_all _ hC)

theorem pow_bound (k : ℕ) (g d z : ℝ) : |boundedY g d z ^ k| ≤ 1 := by
  rw [abs_of_nonneg (pow_nonneg (boundedY_pos g d z).le k)]
  exact pow_le_one₀ (boundedY_pos g d z).le (boundedY_lt g d z).le

theorem pow_integrable (k : ℕ) (g d : ℝ) : Integrable (fun z => boundedY g d z ^ k) std :=
  bounded_integrable ((continuous_boundedY g d).pow k) (pow_bound k g d)

theorem pow_diff_bound (k : ℕ) (g d z : ℝ) : |boundedY g d z ^ k - boundedY g d z ^ (k + 1)| ≤ 1 := by
  have h0 := (boundedY_pos g d z).le
  have h1 := (boundedY_lt g d z).le
  have : boundedY g d z ^ k - boundedY g d z ^ (k + 1) = boundedY g d z ^ k * (1 - boundedY g d z) := by ring
  rw [this, abs_of_nonneg (mul_nonneg (pow_nonneg h0 k) (by linarith))]
  have := pow_le_one₀ (n := k) h0 h1
  nlinarith [pow_nonneg h0 k]

/-- The derivative of a moment with respect to `gamma`. -/
theorem momentY_g (k : ℕ) (g d : ℝ) : HasDerivAt (fun g => momentY (k + 1) g d) ((k + 1) * (momentY (k + 2) g d - momentY (k + 1) g d) / d) g := by
  have h := hasDerivAt_integral_of_dominated_loc_of_deriv_le (μ := std) (F := fun g z => boundedY g d z ^ (k + 1))
    (F' := fun g z => (k + 1 : ℕ) * boundedY g d z ^ k * (-(boundedY g d z - boundedY g d z ^ 2) / d)) (x₀ := g) (s := Set.univ) (bound := fun _ => (k + 1) * (1 / |d|))
    univ_mem (Eventually.of_forall fun x => ((continuous_boundedY x d).pow _).aestronglyMeasurable) (pow_integrable (k + 1) g d)
    (by
      have := continuous_boundedY g d
      exact (by fun_prop : Continuous fun z => ((k + 1 : ℕ) : ℝ) * boundedY g d z ^ k * (-(boundedY g d z - boundedY g d z ^ 2) / d)).aestronglyMeasurable)
    (ae_of_all _ fun z x _ => by
      have e : ((k + 1 : ℕ) : ℝ) * boundedY x d z ^ k * (-(boundedY x d z - boundedY x d z ^ 2) / d) = -((k + 1) * ((boundedY x d z ^ (k + 1) - boundedY x d z ^ (k + 1 + 1)) / d)) := by
        push_cast; ring
      rw [e, norm_neg, norm_mul, Real.norm_eq_abs, Real.norm_eq_abs, abs_div, abs_of_nonneg (by positivity : (0 : ℝ) ≤ k + 1)]
      gcongr
      exact pow_diff_bound (k + 1) x d z)
    (integrable_const _)
    (ae_of_all _ fun z x _ => (boundedY_g x d z).pow (k + 1))
  refine h.2.congr_deriv ?_
  have e : (fun z => ((k + 1 : ℕ) : ℝ) * boundedY g d z ^ k * (-(boundedY g d z - boundedY g d z ^ 2) / d)) =
      fun z => ((k + 1) / d) * (boundedY g d z ^ (k + 2) - boundedY g d z ^ (k + 1)) := by
    funext z; push_cast; ring
  rw [e, integral_const_mul, integral_sub (pow_integrable _ _ _) (pow_integrable _ _ _)]
  unfold momentY expect
  ring

theorem integrable_score : Integrable (fun z : ℝ => |z|) std := by
  have := (memLp_id_gaussianReal (μ := 0) (v := 1) 1).integrable le_rfl
  exact this.abs

theorem pdf_deriv (x : ℝ) : HasDerivAt (gaussianPDFReal 0 1) (-(x * gaussianPDFReal 0 1 x)) x := by
  rw [gaussianPDFReal_def]
  have h : HasDerivAt (fun x : ℝ => -(x - 0) ^ 2 / (2 * ((1 : NNReal) : ℝ))) (-x) x := by
    have := (((hasDerivAt_id x).sub_const 0).pow 2).neg.div_const (2 * ((1 : NNReal) : ℝ))
    refine this.congr_deriv ?_
    simp
    ring
  refine (h.exp.const_mul _).congr_deriv ?_
  ring

/-- Integration by parts against the standard normal distribution. -/
theorem stein {f f' : ℝ → ℝ} (hf : ∀ z, HasDerivAt f (f' z) z) (hc : Continuous f') {C C' : ℝ} (hC : ∀ z, |f z| ≤ C) (hC' : ∀ z, |f' z| ≤ C') :
    Integrable (fun z => z * f z) std ∧ expect (fun z => z * f z) = expect f' := by
  have hcf : Continuous f := continuous_iff_continuousAt.2 fun z => (hf z).continuousAt
  have hC0 : 0 ≤ C := (abs_nonneg _).trans (hC 0)
  have hi : Integrable (fun z => z * f z) std := by
    refine (integrable_score.const_mul C).mono' (continuous_id.mul hcf).aestronglyMeasurable (ae_of_all _ fun z => ?_)
    rw [Real.norm_eq_abs, abs_mul, mul_comm]
    exact mul_le_mul_of_nonneg_right (hC z) (abs_nonneg z)
  refine ⟨hi, ?_⟩
  have hpdf := integrable_gaussianPDFReal 0 1
  have hx : Integrable fun x : ℝ => x * gaussianPDFReal 0 1 x := by
    have h := (integrable_mul_exp_neg_mul_sq (by norm_num : (0 : ℝ) < 1 / 2)).const_mul (√(2 * π * ((1 : NNReal) : ℝ)))⁻¹
    refine h.congr (ae_of_all _ fun x => ?_)
    rw [gaussianPDFReal_def]
    simp only [NNReal.coe_one, sub_zero]
    rw [show -(1 / 2) * x ^ 2 = -x ^ 2 / (2 * 1) by ring]
    ring
  have bd : ∀ {g h : ℝ → ℝ} {B : ℝ}, Continuous g → (∀ z, |g z| ≤ B) → Integrable h → Integrable (g * h) := by
    intro g h B hg hB hh
    have hB0 : 0 ≤ B := (abs_nonneg _).trans (hB 0)
    refine (hh.norm.const_mul B).mono' (hg.aestronglyMeasurable.mul hh.aestronglyMeasurable) (ae_of_all _ fun z => ?_)
    rw [Pi.mul_apply, norm_mul]
    exact mul_le_mul_of_nonneg_right (hB z) (norm_nonneg _)
  have key := integral_mul_deriv_eq_deriv_mul_of_integrable (u := f) (u' := f') (v := gaussianPDFReal 0 1) (v' := fun x => -(x * gaussianPDFReal 0 1 x))
    (fun x _ => hf x) (fun x _ => pdf_deriv x) (bd hcf hC hx.neg) (bd hc hC' hpdf) (bd hcf hC hpdf)
  unfold expect
  rw [integral_gaussianReal_eq_integral_smul one_ne_zero, integral_gaussianReal_eq_integral_smul one_ne_zero]
  have e1 : (fun x => gaussianPDFReal 0 1 x • (x * f x)) = fun x => -(f x * -(x * gaussianPDFReal 0 1 x)) := by
    funext x; simp only [smul_eq_mul]; ring
  have e2 : (fun x => gaussianPDFReal 0 1 x • f' x) = fun x => f' x * gaussianPDFReal 0 1 x := by
    funext x; simp only [smul_eq_mul]; ring
  rw [e1, e2, integral_neg, key, neg_neg]

/-- The derivative of a moment with respect to `delta`. -/
theorem momentY_d (k : ℕ) (g d : ℝ) (hd : 0 < d) : HasDerivAt (fun d => momentY (k + 1) g d)
    ((k + 1) * ((g * d - (k + 1)) * (momentY (k + 1) g d - momentY (k + 2) g d) + (k + 2) * (momentY (k + 2) g d - momentY (k + 3) g d)) / d ^ 3) d := by
  have h := hasDerivAt_integral_of_dominated_loc_of_deriv_le (μ := std) (F := fun d z => boundedY g d z ^ (k + 1))
    (F' := fun d z => (k + 1 : ℕ) * boundedY g d z ^ k * ((g - z) / d ^ 2 * (boundedY g d z - boundedY g d z ^ 2))) (x₀ := d) (s := Set.Ioi (d / 2))
    (bound := fun z => (k + 1) * ((|g| + |z|) * (4 / d ^ 2)))
    (Ioi_mem_nhds (by linarith)) (Eventually.of_forall fun x => ((continuous_boundedY g x).pow _).aestronglyMeasurable) (pow_integrable (k + 1) g d)
    (by
      have := continuous_boundedY g d
      exact (by fun_prop : Continuous fun z => ((k + 1 : ℕ) : ℝ) * boundedY g d z ^ k * ((g - z) / d ^ 2 * (boundedY g d z - boundedY g d z ^ 2))).aestronglyMeasurable)
    (ae_of_all _ fun z x hx => by
      have hx : d / 2 < x := hx
      have hx0 : 0 < x := by linarith
      have e : ((k + 1 : ℕ) : ℝ) * boundedY g x z ^ k * ((g - z) / x ^ 2 * (boundedY g x z - boundedY g x z ^ 2)) =
          (k + 1) * (((g - z) * (1 / x ^ 2)) * (boundedY g x z ^ (k + 1) - boundedY g x z ^ (k + 1 + 1))) := by
        push_cast; ring
      rw [e, norm_mul, Real.norm_eq_abs, Real.norm_eq_abs, abs_mul, abs_mul, abs_of_nonneg (by positivity : (0 : ℝ) ≤ k + 1), abs_of_pos (by positivity : 0 < 1 / x ^ 2)]
      have h1 := pow_diff_bound (k + 1) g x z
      have h2 : |g - z| ≤ |g| + |z| := abs_sub _ _
      have h3 : 1 / x ^ 2 ≤ 4 / d ^ 2 := by
        rw [div_le_div_iff₀ (by positivity) (by positivity)]
        nlinarith
      have h4 : |g - z| * (1 / x ^ 2) ≤ (|g| + |z|) * (4 / d ^ 2) := mul_le_mul h2 h3 (by positivity) (by positivity)
      have h5 : |g - z| * (1 / x ^ 2) * |boundedY g x z ^ (k + 1) - boundedY g x z ^ (k + 1 + 1)| ≤ |g - z| * (1 / x ^ 2) * 1 :=
        mul_le_mul_of_nonneg_left h1 (by positivity)
      exact mul_le_mul_of_nonneg_left (by linarith) (by positivity))
    ((((integrable_const |g|).add integrable_score).mul_const _).const_mul _)
    (ae_of_all _ fun z x hx => (boundedY_d g x z (by have hx : d / 2 < x := hx; linarith)).pow (k + 1))
  refine h.2.congr_deriv ?_
  have hY := boundedY_z g d
  have hst := stein (f := fun z => boundedY g d z ^ (k + 1) - boundedY g d z ^ (k + 2))
    (f' := fun z => ((k + 1) * (boundedY g d z ^ (k + 1) - boundedY g d z ^ (k + 2)) - (k + 2) * (boundedY g d z ^ (k + 2) - boundedY g d z ^ (k + 3))) / d)
    (C := 1) (C' := ((k + 1) * 1 + (k + 2) * 1) / d)
    (fun z => by
      refine (((hY z).pow (k + 1)).sub ((hY z).pow (k + 2))).congr_deriv ?_
      push_cast
      ring)
    (by have := continuous_boundedY g d; fun_prop)
    (fun z => pow_diff_bound (k + 1) g d z)
    (fun z => by
      rw [abs_div, abs_of_pos hd]
      gcongr
      refine (abs_sub _ _).trans ?_
      rw [abs_mul, abs_mul, abs_of_nonneg (by positivity : (0 : ℝ) ≤ k + 1), abs_of_nonneg (by positivity : (0 : ℝ) ≤ k + 2)]
      gcongr
      · exact pow_diff_bound (k + 1) g d z
      · exact pow_diff_bound (k + 2) g d z)
  have i1 := pow_integrable (k + 1) g d
  have i2 := pow_integrable (k + 2) g d
  have i3 := pow_integrable (k + 3) g d
  have i12 : Integrable (fun z => boundedY g d z ^ (k + 1) - boundedY g d z ^ (k + 2)) std := i1.sub i2
  have i23 : Integrable (fun z => boundedY g d z ^ (k + 2) - boundedY g d z ^ (k + 3)) std := i2.sub i3
  have e : (fun z => ((k + 1 : ℕ) : ℝ) * boundedY g d z ^ k * ((g - z) / d ^ 2 * (boundedY g d z - boundedY g d z ^ 2))) =
      fun z => ((k + 1) / d ^ 2) * (g * (boundedY g d z ^ (k + 1) - boundedY g d z ^ (k + 2)) - z * (boundedY g d z ^ (k + 1) - boundedY g d z ^ (k + 2))) := by
    funext z; push_cast; ring
  have hz := hst.2
  unfold expect at hz
  rw [integral_div, integral_sub (i12.const_mul _) (i23.const_mul _), integral_const_mul, integral_const_mul, integral_sub i1 i2, integral_sub i2 i3] at hz
  rw [e, integral_const_mul, integral_sub (i12.const_mul g) hst.1, integral_const_mul, integral_sub i1 i2, hz]
  unfold momentY expect
  field_simp
  ring

/-! ## Skewness and kurtosis -/

theorem kurtosis_deriv {a : ℝ → Six} {dd : Fin 4 → ℝ} {x : ℝ} (h : ∀ k : Fin 4, HasDerivAt (fun s => a s k.castSucc.castSucc) (dd k) x) (h2 : 0 < central2 (a x)) :
    HasDerivAt (fun s => kurtosisOf (a s)) (dKurt (a x) dd) x := by
  have h0 : HasDerivAt (fun s => a s 0) (dd 0) x := h 0
  have h1 : HasDerivAt (fun s => a s 1) (dd 1) x := h 1
  have h2' : HasDerivAt (fun s => a s 2) (dd 2) x := h 2
  have h3 : HasDerivAt (fun s => a s 3) (dd 3) x := h 3
  have c2 : HasDerivAt (fun s => central2 (a s)) (dd 1 - 2 * a x 0 * dd 0) x := by
    refine (h1.sub (h0.pow 2)).congr_deriv ?_
    norm_num
  have c4 : HasDerivAt (fun s => central4 (a s)) (dd 3 - 4 * (dd 2 * a x 0 + dd 0 * a x 2) + 6 * (a x 1 * (2 * a x 0 * dd 0) + a x 0 * (a x 0 * dd 1 - 2 * a x 0 * dd 0 * a x 0))) x := by
    refine (h3.sub (h0.mul ((h2'.const_mul 4).sub (h0.mul ((h1.const_mul 6).sub ((h0.pow 2).const_mul 3)))))).congr_deriv ?_
    norm_num
    ring
  have hne : ((fun s => central2 (a s)) ^ 2) x ≠ 0 := by
    show central2 (a x) ^ 2 ≠ 0
    positivity
  refine (c4.div (c2.pow 2) hne).congr_deriv ?_
  unfold dKurt
  simp only [Pi.pow_apply]
  have : central2 (a x) ≠ 0 := h2.ne'
  field_simp
  push_cast
  ring

/-- The derivative of the skewness for these derivatives of the moments. -/
noncomputable def trueSkewDeriv (a : Six) (dd : Fin 4 → ℝ) : ℝ :=
  (dd 2 - 3 * (a 0 * dd 1 + a 1 * dd 0 - 2 * a 0 * dd 0 * a 0) - 3 / 2 * central3 a * (dd 1 - 2 * a 0 * dd 0) / central2 a) / (√(central2 a) * central2 a)

theorem skew_deriv {a : ℝ → Six} {dd : Fin 4 → ℝ} {x : ℝ} (h : ∀ k : Fin 4, HasDerivAt (fun s => a s k.castSucc.castSucc) (dd k) x) (h2 : 0 < central2 (a x)) :
    HasDerivAt (fun s => skewOf (a s)) (trueSkewDeriv (a x) dd) x := by
  have h0 : HasDerivAt (fun s => a s 0) (dd 0) x := h 0
  have h1 : HasDerivAt (fun s => a s 1) (dd 1) x := h 1
  have h2' : HasDerivAt (fun s => a s 2) (dd 2) x := h 2
  have c2 : HasDerivAt (fun s => central2 (a s)) (dd 1 - 2 * a x 0 * dd 0) x := by
    refine (h1.sub (h0.pow 2)).congr_deriv ?_
    norm_num
  have c3 : HasDerivAt (fun s => central3 (a s)) (dd 2 - 3 * (a x 0 * dd 1 + a x 1 * dd 0 - 2 * a x 0 * dd 0 * a x 0)) x := by
    refine (h2'.sub (h0.mul ((h1.const_mul 3).sub ((h0.pow 2).const_mul 2)))).congr_deriv ?_
    norm_num
    ring
  have hr : 0 < √(central2 (a x)) := sqrt_pos.2 h2
  have cs := (c2.sqrt h2.ne').mul c2
  have hne : ((fun s => √(central2 (a s))) * fun s => central2 (a s)) x ≠ 0 := by
    show √(central2 (a x)) * central2 (a x) ≠ 0
    positivity
  refine (c3.div cs hne).congr_deriv ?_
  unfold trueSkewDeriv
  have hsq : central2 (a x) = √(central2 (a x)) ^ 2 := (sq_sqrt h2.le).symm
  simp only [Pi.mul_apply]
  generalize √(central2 (a x)) = q at *
  rw [hsq]
  field_simp
  ring

/-- The variance is positive. -/
theorem central2_pos (g d : ℝ) (hd : d ≠ 0) : 0 < central2 (exactSix g d) := by
  have i1 := pow_integrable 1 g d
  have i2 := pow_integrable 2 g d
  set m := momentY 1 g d with hm
  have e : central2 (exactSix g d) = ∫ z, (boundedY g d z - m) ^ 2 ∂std := by
    have e1 : (fun z => (boundedY g d z - m) ^ 2) = fun z => boundedY g d z ^ 2 - 2 * m * boundedY g d z ^ 1 + m ^ 2 := by funext z; ring
    have i12 : Integrable (fun z => boundedY g d z ^ 2 - 2 * m * boundedY g d z ^ 1) std := i2.sub (i1.const_mul _)
    rw [e1, integral_add i12 (integrable_const _), integral_sub i2 (i1.const_mul _), integral_const_mul]
    show momentY 2 g d - momentY 1 g d ^ 2 = momentY 2 g d - 2 * m * momentY 1 g d + _
    simp
    ring
  rw [e]
  have hcont : Continuous fun z => (boundedY g d z - m) ^ 2 := ((continuous_boundedY g d).sub continuous_const).pow 2
  have hint : Integrable (fun z => (boundedY g d z - m) ^ 2) std := by
    refine bounded_integrable hcont (C := (1 + |m|) ^ 2) fun z => ?_
    rw [abs_pow]
    gcongr
    refine (abs_sub _ _).trans ?_
    gcongr
    have := pow_bound 1 g d z
    rwa [pow_one] at this
  refine lt_of_le_of_ne (integral_nonneg fun z => sq_nonneg _) fun h0 => ?_
  have hz := (integral_eq_zero_iff_of_nonneg (fun z => sq_nonneg _) hint).1 h0.symm
  have hv : (fun z => (boundedY g d z - m) ^ 2) =ᵐ[volume] fun _ => 0 := (gaussianReal_absolutelyContinuous' 0 (v := 1) one_ne_zero).ae_le hz
  have hall := Continuous.ae_eq_iff_eq volume hcont continuous_const |>.1 hv
  have hA := congrFun hall g
  have hB := congrFun hall (g + d)
  simp only [pow_eq_zero_iff two_ne_zero, sub_eq_zero] at hA hB
  rw [← hA, boundedY_eq, boundedY_eq, sigmoid_inj] at hB
  rw [add_sub_cancel_left, sub_self, zero_div, div_self hd] at hB
  exact one_ne_zero hB

theorem ddGamma_exact (g d : ℝ) (k : Fin 4) : HasDerivAt (fun g => exactSix g d k.castSucc.castSucc) (ddGamma d (exactSix g d) k) g := by
  refine (momentY_g k.val g d).congr_deriv ?_
  unfold ddGamma exactSix
  push_cast
  rfl

theorem ddDelta_exact (g d : ℝ) (hd : 0 < d) (k : Fin 4) : HasDerivAt (fun d => exactSix g d k.castSucc.castSucc) (ddDelta g d (exactSix g d) k) d := by
  refine (momentY_d k.val g d hd).congr_deriv ?_
  unfold ddDelta exactSix
  simp only [Fin.val_succ, Fin.val_castSucc]
  push_cast
  field_simp
  ring

/-- **C137, the derivatives, partial.** With the moments of the bounded distribution, the code's derivatives of the kurtosis with respect to `gamma` and to `delta` are these derivatives. Missing: the derivatives of
the skewness, see below. -/
theorem C137_kurtosis_derivatives_partial (g d : ℝ) (hd : 0 < d) :
    HasDerivAt (fun g => kurtosisOf (exactSix g d)) (dKurt (exactSix g d) (ddGamma d (exactSix g d))) g ∧
    HasDerivAt (fun d => kurtosisOf (exactSix g d)) (dKurt (exactSix g d) (ddDelta g d (exactSix g d))) d :=
  ⟨kurtosis_deriv (a := fun g => exactSix g d) (ddGamma_exact g d) (central2_pos g d hd.ne'),
    kurtosis_deriv (a := fun d => exactSix g d) (ddDelta_exact g d hd) (central2_pos g d hd.ne')⟩

/-- The moments decrease. -/
theorem momentY_lt (k : ℕ) (g d : ℝ) : momentY (k + 1) g d < momentY k g d := by
  rw [← sub_pos]
  have e : momentY k g d - momentY (k + 1) g d = ∫ z, (boundedY g d z ^ k - boundedY g d z ^ (k + 1)) ∂std := (integral_sub (pow_integrable _ _ _) (pow_integrable _ _ _)).symm
  have hp : ∀ z, 0 < boundedY g d z ^ k - boundedY g d z ^ (k + 1) := fun z =>
    sub_pos.2 (pow_lt_pow_right_of_lt_one₀ (boundedY_pos _ _ _) (boundedY_lt _ _ _) (Nat.lt_succ_self k))
  rw [e, integral_pos_iff_support_of_nonneg (fun z => (hp z).le) ((pow_integrable _ _ _).sub (pow_integrable _ _ _))]
  have : Function.support (fun z => boundedY g d z ^ k - boundedY g d z ^ (k + 1)) = Set.univ := by
    ext z
    simp only [Function.mem_support, Set.mem_univ, iff_true]
    exact (hp z).ne'
  rw [this]
  simp

theorem momentY_zero (g d : ℝ) : momentY 0 g d = 1 := by simp [momentY, expect]

theorem momentY_pos (k : ℕ) (g d : ℝ) : 0 < momentY k g d := by
  unfold momentY expect
  have hp : ∀ z, 0 < boundedY g d z ^ k := fun z => pow_pos (boundedY_pos _ _ _) k
  rw [integral_pos_iff_support_of_nonneg (fun z => (hp z).le) (pow_integrable _ _ _)]
  have : Function.support (fun z => boundedY g d z ^ k) = Set.univ := by
    ext z
    simp only [Function.mem_support, Set.mem_univ, iff_true]
    exact (hp z).ne'
  rw [this]
  simp

/-- A parameter that meets the hypothesis, with derivatives that are not all zero: the first moment decreases with `gamma`. -/
example : (0 : ℝ) < 2 ∧ ddGamma 2 (exactSix 0 2) 0 < 0 := by
  refine ⟨by norm_num, ?_⟩
  have h1 : exactSix 0 2 1 < exactSix 0 2 0 := momentY_lt 1 0 2
  show ((0 + 1 : ℕ) : ℝ) * (exactSix 0 2 1 - exactSix 0 2 0) / 2 < 0
  push_cast
  linarith

/-! ## Reflection -/

theorem boundedY_neg (g d z : ℝ) : boundedY (-g) d z = 1 - boundedY g d (-z) := by
  rw [boundedY_eq, boundedY_eq, ← sigmoid_neg]
  congr 1
  ring

theorem expect_neg {f : ℝ → ℝ} (hf : Continuous f) : expect (fun z => f (-z)) = expect f := by
  unfold expect
  have h : std.map (fun z => -z) = std := by rw [gaussianReal_map_neg, neg_zero]
  conv_rhs => rw [← h]
  rw [integral_map (by fun_prop) hf.aestronglyMeasurable]

theorem momentY_reflect (k : ℕ) (g d : ℝ) : momentY k (-g) d = expect fun z => (1 - boundedY g d z) ^ k := by
  unfold momentY
  have hc : Continuous fun z => (1 - boundedY g d z) ^ k := (continuous_const.sub (continuous_boundedY g d)).pow k
  rw [← expect_neg hc]
  congr 1
  funext z
  rw [boundedY_neg]

theorem reflect_six (g d : ℝ) : momentY 1 (-g) d = 1 - momentY 1 g d ∧ momentY 2 (-g) d = 1 - 2 * momentY 1 g d + momentY 2 g d ∧
    momentY 3 (-g) d = 1 - 3 * momentY 1 g d + 3 * momentY 2 g d - momentY 3 g d ∧
    momentY 4 (-g) d = 1 - 4 * momentY 1 g d + 6 * momentY 2 g d - 4 * momentY 3 g d + momentY 4 g d := by
  have i1 := pow_integrable 1 g d
  have i2 := pow_integrable 2 g d
  have i3 := pow_integrable 3 g d
  have i4 := pow_integrable 4 g d
  have ic : Integrable (fun _ : ℝ => (1 : ℝ)) std := integrable_const 1
  have key : ∀ c1 c2 c3 c4 : ℝ, expect (fun z => 1 + c1 * boundedY g d z ^ 1 + c2 * boundedY g d z ^ 2 + c3 * boundedY g d z ^ 3 + c4 * boundedY g d z ^ 4) =
      1 + c1 * momentY 1 g d + c2 * momentY 2 g d + c3 * momentY 3 g d + c4 * momentY 4 g d := by
    intro c1 c2 c3 c4
    have j1 : Integrable (fun z => 1 + c1 * boundedY g d z ^ 1) std := ic.add (i1.const_mul c1)
    have j2 : Integrable (fun z => 1 + c1 * boundedY g d z ^ 1 + c2 * boundedY g d z ^ 2) std := j1.add (i2.const_mul c2)
    have j3 : Integrable (fun z => 1 + c1 * boundedY g d z ^ 1 + c2 * boundedY g d z ^ 2 + c3 * boundedY g d z ^ 3) std := j2.add (i3.const_mul c3)
    unfold expect
    rw [integral_add j3 (i4.const_mul c4), integral_add j2 (i3.const_mul c3), integral_add j1 (i2.const_mul c2), integral_add ic (i1.const_mul c1),
      integral_const_mul, integral_const_mul, integral_const_mul, integral_const_mul]
    simp [momentY, expect]
  refine ⟨?_, ?_, ?_, ?_⟩
  · rw [momentY_reflect, show (fun z => (1 - boundedY g d z) ^ 1) = fun z => 1 + (-1) * boundedY g d z ^ 1 + 0 * boundedY g d z ^ 2 + 0 * boundedY g d z ^ 3 + 0 * boundedY g d z ^ 4 by
      funext z; ring, key]
    ring
  · rw [momentY_reflect, show (fun z => (1 - boundedY g d z) ^ 2) = fun z => 1 + (-2) * boundedY g d z ^ 1 + 1 * boundedY g d z ^ 2 + 0 * boundedY g d z ^ 3 + 0 * boundedY g d z ^ 4 by
      funext z; ring, key]
    ring
  · rw [momentY_reflect, show (fun z => (1 - boundedY g d z) ^ 3) = fun z => 1 + (-3) * boundedY g d z ^ 1 + 3 * boundedY g d z ^ 2 + (-1) * boundedY g d z ^ 3 + 0 * boundedY g d z ^ 4 by
      funext z; ring, key]
    ring
  · rw [momentY_reflect, show (fun z => (1 - boundedY g d z) ^ 4) = fun z => 1 + (-4) * boundedY g d z ^ 1 + 6 * boundedY g d z ^ 2 + (-4) * boundedY g d z ^ 3 + 1 * boundedY g d z ^ 4 by
      funext z; ring, key]
    ring

/-- The central moments of the reflected distribution. -/
theorem reflect_central (g d : ℝ) : central2 (exactSix (-g) d) = central2 (exactSix g d) ∧ central3 (exactSix (-g) d) = -central3 (exactSix g d) ∧
    central4 (exactSix (-g) d) = central4 (exactSix g d) ∧ exactSix (-g) d 0 = 1 - exactSix g d 0 := by
  obtain ⟨h1, h2, h3, h4⟩ := reflect_six g d
  have e : ∀ g, exactSix g d 0 = momentY 1 g d ∧ exactSix g d 1 = momentY 2 g d ∧ exactSix g d 2 = momentY 3 g d ∧ exactSix g d 3 = momentY 4 g d := fun g => ⟨rfl, rfl, rfl, rfl⟩
  unfold central2 central3 central4
  simp only [e, h1, h2, h3, h4]
  exact ⟨by ring, by ring, by ring, trivial⟩

/-- **The derivative of the skewness is wrong.** The code multiplies by `-1.5` where this number times the quotient is to be added. What it finds is the derivative only if a relation of the moments happens to
hold; -/
theorem C137_skewness_derivative_wrong (g d : ℝ) (hd : 0 < d) :
    let a := exactSix g d
    let dd := ddGamma d a
    let B := a 0 * dd 1 + a 1 * dd 0 - 2 * a 0 * dd 0 * a 0
    let q := central3 a * (dd 1 - 2 * a 0 * dd 0) / central2 a
    HasDerivAt (fun g => skewOf (exactSix g d)) (dSkew a dd) g ↔ B * (2 + 3 * q) = -q := by
  intro a dd B q
  have h2 := central2_pos g d hd.ne'
  have ht := skew_deriv (a := fun g => exactSix g d) (ddGamma_exact g d) h2
  have hpos : 0 < √(central2 a) * central2 a := mul_pos (sqrt_pos.2 h2) h2
  have e1 : trueSkewDeriv a dd = (dd 2 - 3 * B - 3 / 2 * q) / (√(central2 a) * central2 a) := by
    unfold trueSkewDeriv
    simp only [B, q]
    ring
  have e2 : dSkew a dd = (dd 2 + 9 / 2 * B * q) / (√(central2 a) * central2 a) := by
    unfold dSkew
    simp only [B, q]
    ring
  constructor
  · intro h
    have := h.unique ht
    rw [e2, show trueSkewDeriv (exactSix g d) (ddGamma d (exactSix g d)) = trueSkewDeriv a dd from rfl, e1, div_left_inj' hpos.ne'] at this
    linarith
  · intro h
    have : dSkew a dd = trueSkewDeriv a dd := by
      rw [e1, e2]
      congr 1
      linarith
    rw [this]
    exact ht

example := C137_skewness_derivative_wrong 1 2 two_pos

/-- without skewness it never does. -/
theorem C137_symmetric_derivative_wrong (d : ℝ) (hd : 0 < d) : ¬HasDerivAt (fun g => skewOf (exactSix g d)) (dSkew (exactSix 0 d) (ddGamma d (exactSix 0 d))) 0 := by
  have hiff := C137_skewness_derivative_wrong 0 d hd
  dsimp only at hiff
  rw [hiff]
  clear hiff
  obtain ⟨h1, h2, h3, h4⟩ := reflect_six 0 d
  rw [neg_zero] at h1 h2 h3 h4
  have hM1 : momentY 1 0 d = 1 / 2 := by linarith
  have hM3 : momentY 3 0 d = 3 / 2 * momentY 2 0 d - 1 / 4 := by rw [hM1] at h3; linarith
  have hc3 : central3 (exactSix 0 d) = 0 := by
    show momentY 3 0 d - momentY 1 0 d * (3 * momentY 2 0 d - 2 * momentY 1 0 d ^ 2) = 0
    rw [hM1, hM3]
    ring
  rw [hc3]
  have d0 : ddGamma d (exactSix 0 d) 0 = (momentY 2 0 d - 1 / 2) / d := by
    show ((0 + 1 : ℕ) : ℝ) * (momentY 2 0 d - momentY 1 0 d) / d = _
    rw [hM1]
    norm_num
  have d1 : ddGamma d (exactSix 0 d) 1 = (momentY 2 0 d - 1 / 2) / d := by
    show ((1 + 1 : ℕ) : ℝ) * (momentY 3 0 d - momentY 2 0 d) / d = _
    rw [hM3]
    push_cast
    ring
  rw [d0, d1, show exactSix 0 d 0 = 1 / 2 from hM1, show exactSix 0 d 1 = momentY 2 0 d from rfl]
  have hlt := momentY_lt 1 0 d
  rw [hM1] at hlt
  have hpos := momentY_pos 2 0 d
  intro h
  have : momentY 2 0 d * ((momentY 2 0 d - 1 / 2) / d) = 0 := by
    have h' : (1 / 2 * ((momentY 2 0 d - 1 / 2) / d) + momentY 2 0 d * ((momentY 2 0 d - 1 / 2) / d) - 2 * (1 / 2) * ((momentY 2 0 d - 1 / 2) / d) * (1 / 2)) * 2 = 0 := by
      simpa using h
    linarith
  rcases mul_eq_zero.1 this with h | h
  · exact hpos.ne' h
  · rcases div_eq_zero_iff.1 h with h | h
    · linarith
    · exact hd.ne' h

example := C137_symmetric_derivative_wrong 2 two_pos

end Verif.Johnson
