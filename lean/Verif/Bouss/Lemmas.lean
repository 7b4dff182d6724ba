import Mathlib.Analysis.SpecialFunctions.Integrals.Basic
import Mathlib.MeasureTheory.Integral.DivergenceTheorem
import Mathlib.Analysis.SpecialFunctions.Trigonometric.ArctanDeriv
import Mathlib.Analysis.SpecialFunctions.Sqrt
import Mathlib.Tactic.LinearCombination
import Mathlib.Tactic.FieldSimp

/-!
# The double integrals behind the influence coefficients
-/

namespace Verif.Bouss

open Real MeasureTheory

noncomputable section

/-- `log (s + r)`. -/
def L (s t : ℝ) : ℝ := log (s + √(s ^ 2 + t ^ 2))

theorem root_pos {s t : ℝ} (ht : t ≠ 0) : 0 < √(s ^ 2 + t ^ 2) := sqrt_pos.mpr (by positivity)

theorem root_pos' {s t : ℝ} (hs : s ≠ 0) : 0 < √(s ^ 2 + t ^ 2) := sqrt_pos.mpr (by positivity)

theorem arg_pos {s t : ℝ} (ht : t ≠ 0) : 0 < s + √(s ^ 2 + t ^ 2) := by
  have h : |s| < √(s ^ 2 + t ^ 2) := by
    rw [← sqrt_sq_eq_abs]
    exact sqrt_lt_sqrt (sq_nonneg s) (by have : 0 < t ^ 2 := by positivity
                                         linarith)
  linarith [neg_abs_le s]

theorem arg_pos' {s t : ℝ} (hs : 0 < s) : 0 < s + √(s ^ 2 + t ^ 2) := by positivity

theorem sq_root (s t : ℝ) : √(s ^ 2 + t ^ 2) ^ 2 = s ^ 2 + t ^ 2 := sq_sqrt (by positivity)

theorem deriv_root {s t : ℝ} (h : s ≠ 0 ∨ t ≠ 0) : HasDerivAt (fun u => √(u ^ 2 + t ^ 2)) (s / √(s ^ 2 + t ^ 2)) s := by
  have hne : s ^ 2 + t ^ 2 ≠ 0 := by
    rcases h with h | h <;> positivity
  have h1 : HasDerivAt (fun u : ℝ => u ^ 2 + t ^ 2) (2 * s) s := by
    have := (hasDerivAt_pow 2 s).add_const (t ^ 2)
    simpa using this
  refine (h1.sqrt hne).congr_deriv ?_
  have : √(s ^ 2 + t ^ 2) ≠ 0 := by
    rcases h with h | h
    · exact (root_pos' h).ne'
    · exact (root_pos h).ne'
  field_simp

theorem deriv_root' {s t : ℝ} (h : s ≠ 0 ∨ t ≠ 0) : HasDerivAt (fun u => √(s ^ 2 + u ^ 2)) (t / √(s ^ 2 + t ^ 2)) t := by
  have := deriv_root (s := t) (t := s) h.symm
  simpa only [add_comm] using this

/-- In the first variable. -/
theorem deriv_L {s t : ℝ} (ht : t ≠ 0) : HasDerivAt (fun u => L u t) (1 / √(s ^ 2 + t ^ 2)) s := by
  have h := ((hasDerivAt_id' s).fun_add (deriv_root (s := s) (Or.inr ht))).log (arg_pos ht).ne'
  refine HasDerivAt.congr_deriv (f := fun u => L u t) h ?_
  have h1 := (root_pos (s := s) ht).ne'
  have h2 := (arg_pos (s := s) ht).ne'
  field_simp
  ring

/-- In the second variable. -/
theorem deriv_L' {s t : ℝ} (h : 0 < s ∨ t ≠ 0) : HasDerivAt (fun u => L s u) (t / (√(s ^ 2 + t ^ 2) * (s + √(s ^ 2 + t ^ 2)))) t := by
  have hn : s ≠ 0 ∨ t ≠ 0 := h.imp (fun h => h.ne') id
  have hp : 0 < s + √(s ^ 2 + t ^ 2) := h.elim arg_pos' arg_pos
  have hd := ((deriv_root' hn).const_add s).log hp.ne'
  refine HasDerivAt.congr_deriv (f := fun u => L s u) hd ?_
  rw [div_div]

theorem continuous_L {t : ℝ} (ht : t ≠ 0) : Continuous fun s => L s t :=
  continuous_iff_continuousAt.mpr fun _ => (deriv_L ht).continuousAt

theorem continuous_L' {s : ℝ} (hs : 0 < s) : Continuous fun t => L s t :=
  continuous_iff_continuousAt.mpr fun _ => (deriv_L' (Or.inl hs)).continuousAt

/-- A negative first argument. -/
theorem L_neg {s t : ℝ} (ht : t ≠ 0) : L (-s) t = 2 * log t - L s t := by
  have h1 := arg_pos (s := s) ht
  have h2 := arg_pos (s := -s) ht
  have h3 : (-s + √((-s) ^ 2 + t ^ 2)) * (s + √(s ^ 2 + t ^ 2)) = t ^ 2 := by
    rw [neg_sq]
    linear_combination sq_root s t
  have h4 := log_mul h2.ne' h1.ne'
  rw [h3, log_pow] at h4
  unfold L
  push_cast at h4
  linarith

/-! ## One dimensional integrals -/

theorem inner_recip {t : ℝ} (ht : t ≠ 0) (a b : ℝ) : ∫ s in a..b, 1 / √(s ^ 2 + t ^ 2) = L b t - L a t := by
  refine intervalIntegral.integral_eq_sub_of_hasDerivAt (fun s _ => deriv_L ht) ?_
  refine Continuous.intervalIntegrable ?_ a b
  exact continuous_const.div (by fun_prop) fun s => (root_pos ht).ne'

theorem integrable_recip {t : ℝ} (ht : t ≠ 0) (a b : ℝ) : IntervalIntegrable (fun s => 1 / √(s ^ 2 + t ^ 2)) volume a b :=
  (continuous_const.div (by fun_prop) fun s => (root_pos ht).ne').intervalIntegrable a b

theorem cube {s t : ℝ} : √(s ^ 2 + t ^ 2) ^ 3 = (s ^ 2 + t ^ 2) * √(s ^ 2 + t ^ 2) := by
  rw [pow_succ, sq_root]

theorem integrable_sq {t : ℝ} (ht : t ≠ 0) (a b : ℝ) : IntervalIntegrable (fun s => s ^ 2 / √(s ^ 2 + t ^ 2) ^ 3) volume a b :=
  (Continuous.div (by fun_prop) (by fun_prop) fun s => pow_ne_zero 3 (root_pos ht).ne').intervalIntegrable a b

theorem inner_sq {t : ℝ} (ht : t ≠ 0) (a b : ℝ) :
    ∫ s in a..b, s ^ 2 / √(s ^ 2 + t ^ 2) ^ 3 = (L b t - b / √(b ^ 2 + t ^ 2)) - (L a t - a / √(a ^ 2 + t ^ 2)) := by
  refine intervalIntegral.integral_eq_sub_of_hasDerivAt (f := fun s => L s t - s / √(s ^ 2 + t ^ 2)) (fun s _ => ?_) (integrable_sq ht a b)
  have hr := (root_pos (s := s) ht).ne'
  have h := (deriv_L (s := s) ht).sub ((hasDerivAt_id' s).div (deriv_root (s := s) (Or.inr ht)) hr)
  refine HasDerivAt.congr_deriv (f := fun s => L s t - s / √(s ^ 2 + t ^ 2)) h ?_
  field_simp
  ring

theorem inner_mixed {t : ℝ} (ht : t ≠ 0) (a b : ℝ) :
    ∫ s in a..b, s * t / √(s ^ 2 + t ^ 2) ^ 3 = -(t / √(b ^ 2 + t ^ 2)) - -(t / √(a ^ 2 + t ^ 2)) := by
  refine intervalIntegral.integral_eq_sub_of_hasDerivAt (f := fun s => -(t / √(s ^ 2 + t ^ 2))) (fun s _ => ?_) ?_
  · have hr := (root_pos (s := s) ht).ne'
    have h := ((hasDerivAt_const s t).div (deriv_root (s := s) (Or.inr ht)) hr).neg
    refine HasDerivAt.congr_deriv (f := fun s => -(t / √(s ^ 2 + t ^ 2))) h ?_
    field_simp
    ring
  · exact (Continuous.div (by fun_prop) (by fun_prop) fun s => pow_ne_zero 3 (root_pos ht).ne').intervalIntegrable a b

theorem inner_first {t : ℝ} (ht : t ≠ 0) (a b : ℝ) :
    ∫ s in a..b, s / √(s ^ 2 + t ^ 2) ^ 2 = log (b ^ 2 + t ^ 2) / 2 - log (a ^ 2 + t ^ 2) / 2 := by
  refine intervalIntegral.integral_eq_sub_of_hasDerivAt (f := fun s => log (s ^ 2 + t ^ 2) / 2) (fun s _ => ?_) ?_
  · have hne : s ^ 2 + t ^ 2 ≠ 0 := by positivity
    have h1 : HasDerivAt (fun u : ℝ => u ^ 2 + t ^ 2) (2 * s) s := by
      have := (hasDerivAt_pow 2 s).add_const (t ^ 2)
      simpa using this
    refine ((h1.log hne).div_const 2).congr_deriv ?_
    rw [sq_root]
    field_simp
  · exact (Continuous.div (by fun_prop) (by fun_prop) fun s => pow_ne_zero 2 (root_pos ht).ne').intervalIntegrable a b

theorem inner_second {t : ℝ} (ht : t ≠ 0) (a b : ℝ) : ∫ s in a..b, t / √(s ^ 2 + t ^ 2) ^ 2 = arctan (b / t) - arctan (a / t) := by
  refine intervalIntegral.integral_eq_sub_of_hasDerivAt (f := fun s => arctan (s / t)) (fun s _ => ?_) ?_
  · have h := ((hasDerivAt_id' s).div_const t).arctan
    refine h.congr_deriv ?_
    have hne : s ^ 2 + t ^ 2 ≠ 0 := by positivity
    have hne2 : t ^ 2 + s ^ 2 ≠ 0 := by positivity
    rw [sq_root]
    field_simp
    first | done | ring
  · exact (Continuous.div (by fun_prop) (by fun_prop) fun s => pow_ne_zero 2 (root_pos ht).ne').intervalIntegrable a b

/-! ## The outer integrals -/

/-- An antiderivative of `L s` for a positive `s`. -/
theorem outer_L_pos {s : ℝ} (hs : 0 < s) (c d : ℝ) :
    ∫ t in c..d, L s t = (d * L s d + s * L d s - d) - (c * L s c + s * L c s - c) := by
  refine intervalIntegral.integral_eq_sub_of_hasDerivAt (f := fun t => t * L s t + s * L t s - t) (fun t _ => ?_) ((continuous_L' hs).intervalIntegrable _ _)
  have h := (((hasDerivAt_id' t).mul (deriv_L' (s := s) (t := t) (Or.inl hs))).add ((deriv_L (s := t) (t := s) hs.ne').const_mul s)).sub (hasDerivAt_id' t)
  refine HasDerivAt.congr_deriv (f := fun t => t * L s t + s * L t s - t) h ?_
  have e : √(t ^ 2 + s ^ 2) = √(s ^ 2 + t ^ 2) := by rw [add_comm]
  rw [e]
  have hq := sq_root s t
  have hr := (root_pos' (s := s) (t := t) hs.ne').ne'
  have hp := (arg_pos' (s := s) (t := t) hs).ne'
  field_simp
  linear_combination -hq

theorem ae_ne_zero {c d : ℝ} {f g : ℝ → ℝ} (h : ∀ t, t ≠ 0 → f t = g t) : ∫ t in c..d, f t = ∫ t in c..d, g t := by
  refine intervalIntegral.integral_congr_ae ?_
  have : ∀ᵐ t : ℝ, t ≠ 0 := by
    have := (Set.countable_singleton (0 : ℝ)).ae_notMem volume
    simpa using this
  filter_upwards [this] with t ht _
  exact h t ht

theorem integrable_congr_ne {c d : ℝ} {f g : ℝ → ℝ} (h : ∀ t, t ≠ 0 → f t = g t) (hf : IntervalIntegrable f volume c d) : IntervalIntegrable g volume c d := by
  refine hf.congr_ae ?_
  have : ∀ᵐ t : ℝ, t ≠ 0 := by
    have := (Set.countable_singleton (0 : ℝ)).ae_notMem volume
    simpa using this
  filter_upwards [ae_restrict_of_ae this] with t ht
  exact h t ht

theorem integrable_L {s : ℝ} (hs : s ≠ 0) (c d : ℝ) : IntervalIntegrable (fun t => L s t) volume c d := by
  rcases lt_or_gt_of_ne hs with h | h
  · have h1 : IntervalIntegrable (fun t => 2 * log t - L (-s) t) volume c d :=
      (intervalIntegral.intervalIntegrable_log'.const_mul 2).sub ((continuous_L' (by linarith)).intervalIntegrable _ _)
    refine integrable_congr_ne (fun t ht => ?_) h1
    have := L_neg (s := -s) ht
    rw [neg_neg] at this
    exact this.symm
  · exact (continuous_L' h).intervalIntegrable _ _

theorem outer_L {s : ℝ} (hs : s ≠ 0) (c d : ℝ) :
    ∫ t in c..d, L s t = (d * L s d + s * L d s - d) - (c * L s c + s * L c s - c) := by
  rcases lt_or_gt_of_ne hs with h | h
  · have e : ∀ t, t ≠ 0 → L s t = 2 * log t - L (-s) t := fun t ht => by
      have := L_neg (s := -s) ht
      rwa [neg_neg] at this
    have e2 : ∀ t, t * L s t = t * (2 * log t - L (-s) t) := fun t => by
      rcases eq_or_ne t 0 with h0 | h0
      · rw [h0, zero_mul, zero_mul]
      · rw [e t h0]
    have e3 : ∀ t, L t (-s) = L t s := fun t => by
      unfold L
      rw [neg_sq]
    rw [ae_ne_zero e, intervalIntegral.integral_sub (intervalIntegral.intervalIntegrable_log'.const_mul 2) ((continuous_L' (by linarith)).intervalIntegrable _ _),
      intervalIntegral.integral_const_mul, integral_log, outer_L_pos (by linarith), e2, e2, e3, e3]
    ring
  · exact outer_L_pos h c d

theorem integrable_over {s : ℝ} (hs : s ≠ 0) (c d : ℝ) : IntervalIntegrable (fun t => s / √(s ^ 2 + t ^ 2)) volume c d :=
  (continuous_const.div (by fun_prop) fun t => (root_pos' hs).ne').intervalIntegrable _ _

theorem outer_over {s : ℝ} (hs : s ≠ 0) (c d : ℝ) : ∫ t in c..d, s / √(s ^ 2 + t ^ 2) = s * L d s - s * L c s := by
  have h := inner_recip hs c d
  rw [← mul_sub, ← h, ← intervalIntegral.integral_const_mul]
  congr 1
  funext t
  rw [add_comm (t ^ 2), mul_one_div]

theorem integrable_ratio {s : ℝ} (hs : s ≠ 0) (c d : ℝ) : IntervalIntegrable (fun t => t / √(s ^ 2 + t ^ 2)) volume c d :=
  (continuous_id.div (by fun_prop) fun t => (root_pos' hs).ne').intervalIntegrable _ _

theorem outer_ratio {s : ℝ} (hs : s ≠ 0) (c d : ℝ) : ∫ t in c..d, t / √(s ^ 2 + t ^ 2) = √(s ^ 2 + d ^ 2) - √(s ^ 2 + c ^ 2) :=
  intervalIntegral.integral_eq_sub_of_hasDerivAt (fun _ _ => deriv_root' (Or.inl hs)) (integrable_ratio hs c d)

theorem integrable_log_sq {s : ℝ} (hs : s ≠ 0) (c d : ℝ) : IntervalIntegrable (fun t => log (s ^ 2 + t ^ 2) / 2) volume c d := by
  have h : Continuous fun t : ℝ => log (s ^ 2 + t ^ 2) / 2 := (Continuous.log (by fun_prop) (fun t => by positivity)).div_const 2
  exact h.intervalIntegrable _ _

theorem outer_log_sq {s : ℝ} (hs : s ≠ 0) (c d : ℝ) :
    ∫ t in c..d, log (s ^ 2 + t ^ 2) / 2 = (d * log (s ^ 2 + d ^ 2) / 2 + s * arctan (d / s) - d) - (c * log (s ^ 2 + c ^ 2) / 2 + s * arctan (c / s) - c) := by
  refine intervalIntegral.integral_eq_sub_of_hasDerivAt (f := fun t => t * log (s ^ 2 + t ^ 2) / 2 + s * arctan (t / s) - t) (fun t _ => ?_) (integrable_log_sq hs c d)
  have hne : s ^ 2 + t ^ 2 ≠ 0 := by positivity
  have h1 : HasDerivAt (fun u : ℝ => s ^ 2 + u ^ 2) (2 * t) t := by
    have := (hasDerivAt_pow 2 t).const_add (s ^ 2)
    simpa using this
  have h := (((hasDerivAt_id' t).mul (h1.log hne)).div_const 2).add (((hasDerivAt_id' t).div_const s).arctan.const_mul s)
  have h2 := h.sub (hasDerivAt_id' t)
  refine HasDerivAt.congr_deriv (f := fun t => t * log (s ^ 2 + t ^ 2) / 2 + s * arctan (t / s) - t) h2 ?_
  field_simp
  ring

theorem integrable_arctan (s : ℝ) (c d : ℝ) : IntervalIntegrable (fun t => arctan (s / t)) volume c d := by
  have hm : Measurable fun t : ℝ => arctan (s / t) := continuous_arctan.measurable.comp (measurable_const.div measurable_id)
  have hb : IntervalIntegrable (fun _ : ℝ => π / 2) volume c d := intervalIntegrable_const
  refine hb.mono_fun hm.aestronglyMeasurable ?_
  refine Filter.Eventually.of_forall fun t => ?_
  show |arctan (s / t)| ≤ |π / 2|
  rw [abs_of_pos (by positivity : 0 < π / 2), abs_le]
  exact ⟨(neg_pi_div_two_lt_arctan _).le, (arctan_lt_pi_div_two _).le⟩

theorem continuous_mul_arctan (s : ℝ) : Continuous fun t : ℝ => t * arctan (s / t) := by
  rw [continuous_iff_continuousAt]
  intro t
  rcases eq_or_ne t 0 with h | h
  · subst h
    have hb : ∀ t : ℝ, |t * arctan (s / t)| ≤ |t| * (π / 2) := fun t => by
      rw [abs_mul]
      refine mul_le_mul_of_nonneg_left ?_ (abs_nonneg t)
      rw [abs_le]
      exact ⟨(neg_pi_div_two_lt_arctan _).le, (arctan_lt_pi_div_two _).le⟩
    have h0 : Filter.Tendsto (fun t : ℝ => |t| * (π / 2)) (nhds 0) (nhds 0) := by
      have : Continuous fun t : ℝ => |t| * (π / 2) := by fun_prop
      simpa using this.tendsto 0
    have := squeeze_zero_norm (f := fun t : ℝ => t * arctan (s / t)) (fun t => hb t) h0
    unfold ContinuousAt
    simpa using this
  · exact continuousAt_id.mul (continuous_arctan.continuousAt.comp (continuousAt_const.div continuousAt_id h))

theorem outer_arctan {s : ℝ} (hs : s ≠ 0) (c d : ℝ) :
    ∫ t in c..d, arctan (s / t) = (d * arctan (s / d) + s * log (s ^ 2 + d ^ 2) / 2) - (c * arctan (s / c) + s * log (s ^ 2 + c ^ 2) / 2) := by
  refine integral_eq_of_hasDerivAt_off_countable (fun t => t * arctan (s / t) + s * log (s ^ 2 + t ^ 2) / 2) _ (Set.countable_singleton 0) ?_ ?_
    (integrable_arctan s c d)
  · refine Continuous.continuousOn ?_
    refine (continuous_mul_arctan s).add ((continuous_const.mul (Continuous.log (by fun_prop) (fun t => by positivity))).div_const 2)
  · rintro t ⟨_, ht⟩
    have ht0 : t ≠ 0 := ht
    have hne : s ^ 2 + t ^ 2 ≠ 0 := by positivity
    have h1 : HasDerivAt (fun u : ℝ => s ^ 2 + u ^ 2) (2 * t) t := by
      have := (hasDerivAt_pow 2 t).const_add (s ^ 2)
      simpa using this
    have h2 := ((hasDerivAt_const t s).fun_div (hasDerivAt_id' t) ht0).arctan
    have h := ((hasDerivAt_id' t).mul h2).add (((h1.log hne).const_mul s).div_const 2)
    refine HasDerivAt.congr_deriv (f := fun t => t * arctan (s / t) + s * log (s ^ 2 + t ^ 2) / 2) h ?_
    have hne2 : t ^ 2 + s ^ 2 ≠ 0 := by positivity
    field_simp
    ring

end

end Verif.Bouss
