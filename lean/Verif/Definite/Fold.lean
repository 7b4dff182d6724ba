import Mathlib.Analysis.SpecialFunctions.Gaussian.GaussianIntegral
import Mathlib.Analysis.SpecialFunctions.Trigonometric.Sinc
import Mathlib.MeasureTheory.Integral.IntegralEqImproper
import Mathlib.MeasureTheory.Integral.IntervalIntegral.Basic

/-!
# Lemmas for C153: integrals of periodic functions against a damped oscillating weight

The weight `exp (-b ξ²) sinc (π ξ)` changes sign at each whole number, yet its integral against a function of period one that is nowhere negative is not negative: each positive arch outweighs the next negative one.
-/

namespace Verif.Definite

open Real MeasureTheory Set Filter

/-- The weight. -/
noncomputable def weight (b ξ : ℝ) : ℝ := exp (-b * ξ ^ 2) * sinc (π * ξ)

theorem continuous_weight (b : ℝ) : Continuous (weight b) := by
  unfold weight
  exact (by fun_prop : Continuous fun ξ : ℝ => exp (-b * ξ ^ 2)).mul (continuous_sinc.comp (by fun_prop))

theorem weight_neg (b ξ : ℝ) : weight b (-ξ) = weight b ξ := by
  unfold weight
  rw [neg_sq, mul_neg, sinc_neg]

theorem integrable_weight {b : ℝ} (hb : 0 < b) {T : ℝ → ℝ} (hT : Continuous T) {B : ℝ} (hB : ∀ x, |T x| ≤ B) : Integrable fun ξ => weight b ξ * T ξ := by
  refine ((integrable_exp_neg_mul_sq hb).mul_const B).mono ((continuous_weight b).mul hT).aestronglyMeasurable (ae_of_all _ fun x => ?_)
  have h1 := abs_sinc_le_one (π * x)
  have hB0 : 0 ≤ B := (abs_nonneg _).trans (hB x)
  rw [norm_mul, norm_mul, norm_eq_abs, norm_eq_abs, norm_eq_abs, norm_eq_abs, weight, abs_mul, abs_of_nonneg hB0]
  refine mul_le_mul ?_ (hB x) (abs_nonneg _) (abs_nonneg _)
  nlinarith [abs_nonneg (exp (-b * x ^ 2))]

/-- One arch and the next. -/
theorem arches {b : ℝ} (hb : 0 < b) (j : ℕ) {ξ : ℝ} (h0 : 0 < ξ) (h1 : ξ < 1) : 0 < weight b (ξ + 2 * j) + weight b (ξ + 2 * j + 1) := by
  have hj : (0 : ℝ) ≤ j := Nat.cast_nonneg j
  have hs : 0 < sin (π * ξ) := sin_pos_of_pos_of_lt_pi (by positivity) (by nlinarith [pi_pos])
  have hx : 0 < ξ + 2 * j := by positivity
  have e1 : sin (π * (ξ + 2 * j)) = sin (π * ξ) := by
    rw [show π * (ξ + 2 * j) = π * ξ + (j : ℝ) * (2 * π) by ring, sin_add_nat_mul_two_pi]
  have e2 : sin (π * (ξ + 2 * j + 1)) = -sin (π * ξ) := by
    rw [show π * (ξ + 2 * j + 1) = π * (ξ + 2 * j) + π by ring, sin_add_pi, e1]
  unfold weight
  rw [sinc_of_ne_zero (by positivity), sinc_of_ne_zero (by positivity), e1, e2]
  have hexp : exp (-b * (ξ + 2 * j + 1) ^ 2) < exp (-b * (ξ + 2 * j) ^ 2) := exp_lt_exp.mpr (by nlinarith)
  have hdiv : 1 / (π * (ξ + 2 * j + 1)) < 1 / (π * (ξ + 2 * j)) := one_div_lt_one_div_of_lt (by positivity) (by nlinarith [pi_pos])
  have := mul_lt_mul'' hexp hdiv (exp_pos _).le (by positivity)
  have := mul_pos hs (sub_pos.mpr this)
  calc 0 < _ := this
    _ = _ := by ring

theorem pair_eq {b : ℝ} {T : ℝ → ℝ} (hT : Continuous T) (hp : ∀ x, T (x + 1) = T x) (j : ℕ) :
    ∫ ξ in (2 * j : ℝ)..(2 * (j + 1 : ℕ) : ℝ), weight b ξ * T ξ = ∫ ξ in (0 : ℝ)..1, (weight b (ξ + 2 * j) + weight b (ξ + 2 * j + 1)) * T ξ := by
  have hc : Continuous fun ξ => weight b ξ * T ξ := (continuous_weight b).mul hT
  have hper : ∀ (n : ℕ) (x : ℝ), T (x + n) = T x := by
    intro n
    induction n with
    | zero => simp
    | succ n ih => intro x; rw [Nat.cast_succ, ← add_assoc, hp, ih]
  rw [← intervalIntegral.integral_add_adjacent_intervals (b := (2 * j : ℝ) + 1) (hc.intervalIntegrable _ _) (hc.intervalIntegrable _ _)]
  have e1 := intervalIntegral.integral_comp_add_right (a := 0) (b := 1) (fun ξ => weight b ξ * T ξ) (2 * j : ℝ)
  have e2 := intervalIntegral.integral_comp_add_right (a := 0) (b := 1) (fun ξ => weight b ξ * T ξ) (2 * j + 1 : ℝ)
  rw [zero_add, add_comm 1 (2 * (j : ℝ))] at e1
  rw [zero_add, show (1 + (2 * j + 1) : ℝ) = 2 * ((j + 1 : ℕ) : ℝ) by push_cast; ring] at e2
  rw [← e1, ← e2, ← intervalIntegral.integral_add]
  · refine intervalIntegral.integral_congr fun x _ => ?_
    beta_reduce
    have h1 : T (x + 2 * j) = T x := by have := hper (2 * j) x; push_cast at this; exact this
    have h2 : T (x + (2 * j + 1)) = T x := by have := hper (2 * j + 1) x; push_cast at this; exact this
    rw [h1, h2, ← add_assoc]
    ring
  · exact (hc.comp (by fun_prop : Continuous fun x : ℝ => x + 2 * (j : ℝ))).intervalIntegrable _ _
  · exact (hc.comp (by fun_prop : Continuous fun x : ℝ => x + (2 * (j : ℝ) + 1))).intervalIntegrable _ _

theorem pair_nonneg {b : ℝ} (hb : 0 < b) {T : ℝ → ℝ} (hT : Continuous T) (hp : ∀ x, T (x + 1) = T x) (h0 : ∀ x, 0 ≤ T x) (j : ℕ) :
    0 ≤ ∫ ξ in (2 * j : ℝ)..(2 * (j + 1 : ℕ) : ℝ), weight b ξ * T ξ := by
  rw [pair_eq hT hp]
  have hc : Continuous fun ξ => (weight b (ξ + 2 * j) + weight b (ξ + 2 * j + 1)) * T ξ :=
    (((continuous_weight b).comp (by fun_prop)).add ((continuous_weight b).comp (by fun_prop))).mul hT
  rw [intervalIntegral.integral_of_le zero_le_one, integral_Ioc_eq_integral_Ioo]
  exact setIntegral_nonneg measurableSet_Ioo fun x hx => mul_nonneg (arches hb j hx.1 hx.2).le (h0 x)

theorem limit {b : ℝ} (hb : 0 < b) {T : ℝ → ℝ} (hT : Continuous T) {B : ℝ} (hB : ∀ x, |T x| ≤ B) :
    Tendsto (fun n : ℕ => ∑ j ∈ Finset.range n, ∫ ξ in (2 * j : ℝ)..(2 * (j + 1 : ℕ) : ℝ), weight b ξ * T ξ) atTop (nhds (∫ ξ in Ioi 0, weight b ξ * T ξ)) := by
  have hc : Continuous fun ξ => weight b ξ * T ξ := (continuous_weight b).mul hT
  have h := intervalIntegral_tendsto_integral_Ioi (μ := volume) 0 (integrable_weight hb hT hB).integrableOn (b := fun n : ℕ => (2 * n : ℝ)) (l := atTop)
    (tendsto_natCast_atTop_atTop.const_mul_atTop (by norm_num))
  refine h.congr fun n => ?_
  have := intervalIntegral.sum_integral_adjacent_intervals (f := fun ξ => weight b ξ * T ξ) (μ := volume) (a := fun j : ℕ => (2 * j : ℝ)) (n := n) fun k _ => hc.intervalIntegrable _ _
  rw [this]
  norm_num

theorem fold_nonneg {b : ℝ} (hb : 0 < b) {T : ℝ → ℝ} (hT : Continuous T) {B : ℝ} (hB : ∀ x, |T x| ≤ B) (hp : ∀ x, T (x + 1) = T x) (h0 : ∀ x, 0 ≤ T x) :
    0 ≤ ∫ ξ in Ioi 0, weight b ξ * T ξ :=
  ge_of_tendsto' (limit hb hT hB) fun _ => Finset.sum_nonneg fun j _ => pair_nonneg hb hT hp h0 j

theorem fold_pos {b : ℝ} (hb : 0 < b) {T : ℝ → ℝ} (hT : Continuous T) {B : ℝ} (hB : ∀ x, |T x| ≤ B) (hp : ∀ x, T (x + 1) = T x) (h0 : ∀ x, 0 ≤ T x)
    (hpos : ∃ c, 0 < c ∧ c < 1 ∧ 0 < T c) : 0 < ∫ ξ in Ioi 0, weight b ξ * T ξ := by
  obtain ⟨c, hc0, hc1, hc⟩ := hpos
  have h1 : 0 < ∫ ξ in (2 * (0 : ℕ) : ℝ)..(2 * (0 + 1 : ℕ) : ℝ), weight b ξ * T ξ := by
    rw [pair_eq hT hp]
    have hcont : Continuous fun ξ => (weight b (ξ + 2 * (0 : ℕ)) + weight b (ξ + 2 * (0 : ℕ) + 1)) * T ξ :=
      (((continuous_weight b).comp (by fun_prop)).add ((continuous_weight b).comp (by fun_prop))).mul hT
    refine intervalIntegral.integral_pos zero_lt_one hcont.continuousOn (fun x hx => ?_) ⟨c, ⟨hc0.le, hc1.le⟩, mul_pos (arches hb 0 hc0 hc1) hc⟩
    rcases eq_or_lt_of_le hx.2 with h | h
    · have : Tendsto (fun y => (weight b (y + 2 * (0 : ℕ)) + weight b (y + 2 * (0 : ℕ) + 1)) * T y) (nhdsWithin 1 (Iio 1)) (nhds ((weight b (1 + 2 * (0 : ℕ)) + weight b (1 + 2 * (0 : ℕ) + 1)) * T 1)) :=
        hcont.continuousAt.mono_left nhdsWithin_le_nhds
      rw [h]
      refine ge_of_tendsto this ?_
      filter_upwards [Ioo_mem_nhdsLT (zero_lt_one : (0 : ℝ) < 1)] with y hy
      exact mul_nonneg (arches hb 0 hy.1 hy.2).le (h0 y)
    · exact mul_nonneg (arches hb 0 hx.1 h).le (h0 x)
  refine h1.trans_le (ge_of_tendsto (limit hb hT hB) ?_)
  filter_upwards [eventually_ge_atTop 1] with n hn
  have := Finset.single_le_sum (f := fun j : ℕ => ∫ ξ in (2 * j : ℝ)..(2 * (j + 1 : ℕ) : ℝ), weight b ξ * T ξ) (s := Finset.range n)
    (fun j _ => pair_nonneg hb hT hp h0 j) (Finset.mem_range.mpr hn)
  exact_mod_cast this

end Verif.Definite
