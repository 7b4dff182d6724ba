import Mathlib.MeasureTheory.Integral.IntervalIntegral.IntegrationByParts
import Mathlib.Analysis.SpecialFunctions.Trigonometric.Bounds
import Verif.LowPass.Model

/-!
# Property C120: the low pass filter
-/

namespace Verif.LowPass

open Verif

/-! ## The Bessel function -/

/-- The integral in the definition. -/
noncomputable def poisson (x : ℝ) : ℝ := ∫ t in (0 : ℝ)..Real.pi, Real.cos (x * Real.cos t) * Real.sin t ^ 2

lemma bessel_eq (x : ℝ) : besselJ1 x = x / Real.pi * poisson x := rfl

lemma poisson_cont (x : ℝ) : Continuous fun t => Real.cos (x * Real.cos t) * Real.sin t ^ 2 := by fun_prop

lemma poisson_zero : poisson 0 = Real.pi / 2 := by
  unfold poisson
  simp [integral_sin_sq]

lemma abs_poisson (x : ℝ) : |poisson x| ≤ Real.pi / 2 := by
  rw [← poisson_zero]
  unfold poisson
  calc |∫ t in (0 : ℝ)..Real.pi, Real.cos (x * Real.cos t) * Real.sin t ^ 2| ≤ ∫ t in (0 : ℝ)..Real.pi, |Real.cos (x * Real.cos t) * Real.sin t ^ 2| :=
        intervalIntegral.abs_integral_le_integral_abs Real.pi_pos.le
    _ ≤ ∫ t in (0 : ℝ)..Real.pi, Real.cos (0 * Real.cos t) * Real.sin t ^ 2 := by
        apply intervalIntegral.integral_mono_on Real.pi_pos.le
        · exact (poisson_cont x).abs.intervalIntegrable _ _
        · exact (poisson_cont 0).intervalIntegrable _ _
        · intro t _
          rw [zero_mul, Real.cos_zero, abs_mul, abs_of_nonneg (sq_nonneg (Real.sin t))]
          exact mul_le_mul_of_nonneg_right (Real.abs_cos_le_one _) (sq_nonneg _)

lemma poisson_lt {x y : ℝ} (hx : 0 ≤ x) (hxy : x < y) (hy : y ≤ Real.pi) : poisson y < poisson x := by
  unfold poisson
  have hcos : ∀ t : ℝ, Real.cos (y * Real.cos t) ≤ Real.cos (x * Real.cos t) := by
    intro t
    rw [← Real.cos_abs (y * Real.cos t), ← Real.cos_abs (x * Real.cos t), abs_mul, abs_mul, abs_of_nonneg hx, abs_of_nonneg (hx.trans hxy.le)]
    apply Real.cos_le_cos_of_nonneg_of_le_pi (by positivity)
    · calc y * |Real.cos t| ≤ y * 1 := mul_le_mul_of_nonneg_left (Real.abs_cos_le_one t) (hx.trans hxy.le)
        _ ≤ Real.pi := by linarith
    · exact mul_le_mul_of_nonneg_right hxy.le (abs_nonneg _)
  apply intervalIntegral.integral_lt_integral_of_continuousOn_of_le_of_exists_lt Real.pi_pos (poisson_cont y).continuousOn (poisson_cont x).continuousOn
  · intro t _
    exact mul_le_mul_of_nonneg_right (hcos t) (sq_nonneg _)
  · refine ⟨Real.pi / 4, ⟨by positivity, by linarith [Real.pi_pos]⟩, ?_⟩
    have hc : 0 < Real.cos (Real.pi / 4) := by rw [Real.cos_pi_div_four]; positivity
    have hc1 : Real.cos (Real.pi / 4) ≤ 1 := Real.cos_le_one _
    have hs : 0 < Real.sin (Real.pi / 4) := by rw [Real.sin_pi_div_four]; positivity
    apply mul_lt_mul_of_pos_right _ (by positivity)
    apply Real.cos_lt_cos_of_nonneg_of_le_pi (by positivity)
    · nlinarith
    · exact mul_lt_mul_of_pos_right hxy hc

/-! ## The kernel -/

lemma distance_pos (r c : ℕ) : 0 < distance r c := by
  unfold distance
  apply Real.sqrt_pos.2
  positivity

lemma kernel_eq (ratio : ℝ) (r c : ℕ) : kernel ratio r c = 2 * ratio ^ 2 * poisson (2 * Real.pi * ratio * distance r c) := by
  unfold kernel
  rw [bessel_eq]
  have := (distance_pos r c).ne'
  have := Real.pi_pos.ne'
  field_simp

lemma abs_kernel (ratio : ℝ) (r c : ℕ) : |kernel ratio r c| ≤ Real.pi * ratio ^ 2 := by
  rw [kernel_eq, abs_mul, abs_of_nonneg (by positivity)]
  nlinarith [abs_poisson (2 * Real.pi * ratio * distance r c), sq_nonneg ratio]

/-! ## C120 -/

/-- The ratio of the frequencies. -/
lemma ratioOf_fin (cut g : ℝ) (hg : g ≠ 0) : ratioOf cut (.fin g) = .ok (cut * g) := by
  unfold ratioOf
  dsimp only
  rw [if_neg hg]
  congr 1
  have := Real.pi_pos.ne'
  field_simp

/-- C120: the grid spacing that is used: a given finite one, else that of the surface; without any the result is a `ValueError`, and a spacing of zero is a `ZeroDivisionError`. -/
theorem C120_spacing (p : Profile) (cut : ℝ) :
    lowPassFilter (.array p) cut none = .error .valueError ∧
    lowPassFilter (.surface p none) cut none = .error .valueError ∧
    (∀ g, lowPassFilter (.surface p (some g)) cut none = lowPassFilter (.array p) cut (some (.fin g))) ∧
    (∀ g, lowPassFilter (.surface p g) cut (some .inf) = lowPassFilter (.surface p g) cut none) ∧
    (∀ g g', lowPassFilter (.surface p g) cut (some (.fin g')) = lowPassFilter (.array p) cut (some (.fin g'))) ∧
    lowPassFilter (.array p) cut (some (.fin 0)) = .error .zeroDivisionError :=
  ⟨rfl, rfl, fun _ => rfl, fun _ => rfl, fun _ _ => rfl, by simp [lowPassFilter, checkSurface, ratioOf]⟩

/-- C120: for every other spacing there is a result, of the shape of the profile, that depends linearly on the profile. -/
theorem C120_linear (n m : ℕ) (p q : ℕ → ℕ → ℝ) (s t cut g : ℝ) (hg : g ≠ 0) :
    ∃ P Q R : ℕ → ℕ → ℝ, lowPassFilter (.array ⟨n, m, p⟩) cut (some (.fin g)) = .ok ⟨n, m, P⟩ ∧ lowPassFilter (.array ⟨n, m, q⟩) cut (some (.fin g)) = .ok ⟨n, m, Q⟩ ∧
      lowPassFilter (.array ⟨n, m, fun a b => s * p a b + t * q a b⟩) cut (some (.fin g)) = .ok ⟨n, m, R⟩ ∧ ∀ i j, R i j = s * P i j + t * Q i j := by
  have h : ∀ x : ℕ → ℕ → ℝ, lowPassFilter (.array ⟨n, m, x⟩) cut (some (.fin g)) = .ok ⟨n, m, convolveSame ⟨n, m, x⟩ m n (kernel (cut * g))⟩ := by
    intro x
    simp only [lowPassFilter, checkSurface, ratioOf_fin cut g hg]
  refine ⟨_, _, _, h _, h _, h _, fun i j => ?_⟩
  unfold convolveSame
  dsimp only
  rw [Finset.mul_sum, Finset.mul_sum, ← Finset.sum_add_distrib]
  refine Finset.sum_congr rfl fun a _ => ?_
  rw [Finset.mul_sum, Finset.mul_sum, ← Finset.sum_add_distrib]
  refine Finset.sum_congr rfl fun b _ => ?_
  split_ifs <;> ring

example := C120_linear 3 4 (fun i j => i + j) (fun i j => i * j) 2 5 (1 / 10) 1 one_ne_zero

/-- C120: a surface is filtered in place, or the result is returned and the surface stays as it is. -/
theorem C120_method (p : Profile) (g cut : ℝ) (hg : g ≠ 0) :
    ∃ q, lowPassFilter (.array p) cut (some (.fin g)) = .ok q ∧ method p (some g) cut true = (.ok (some q), p) ∧ method p (some g) cut false = (.ok none, q) := by
  have h : lowPassFilter (.array p) cut (some (.fin g)) = .ok ⟨p.n, p.m, convolveSame p p.m p.n (kernel (cut * g))⟩ := by
    simp only [lowPassFilter, checkSurface, ratioOf_fin cut g hg]
  refine ⟨_, h, ?_, ?_⟩ <;> unfold method <;> rw [(C120_spacing p cut).2.2.1 g, h] <;> rfl

example := C120_method ⟨3, 4, fun i j => i + j⟩ 1 (1 / 10) one_ne_zero

/-- C120: a low pass filter keeps a level surface, this one does not: for a cut off wave length of more than `√(π n m)` points every height of the filtered surface is strictly smaller in magnitude. -/
theorem C120_level_wrong (n m : ℕ) (hn : 0 < n) (hm : 0 < m) (height cut g : ℝ) (hh : height ≠ 0) (hg : g ≠ 0) (hc : Real.pi * (cut * g) ^ 2 * (n * m) < 1) :
    ∃ P, lowPassFilter (.array ⟨n, m, fun _ _ => height⟩) cut (some (.fin g)) = .ok ⟨n, m, P⟩ ∧ ∀ i j, |P i j| < |height| := by
  refine ⟨convolveSame ⟨n, m, fun _ _ => height⟩ m n (kernel (cut * g)), by simp only [lowPassFilter, checkSurface, ratioOf_fin cut g hg], fun i j => ?_⟩
  unfold convolveSame
  dsimp only
  calc _ ≤ ∑ a ∈ Finset.range n, ∑ b ∈ Finset.range m, |height| * (Real.pi * (cut * g) ^ 2) := by
        refine (Finset.abs_sum_le_sum_abs _ _).trans (Finset.sum_le_sum fun a _ => (Finset.abs_sum_le_sum_abs _ _).trans (Finset.sum_le_sum fun b _ => ?_))
        split_ifs
        · rw [abs_mul]
          exact mul_le_mul_of_nonneg_left (abs_kernel _ _ _) (abs_nonneg _)
        · rw [abs_zero]; have := Real.pi_pos; positivity
    _ = |height| * (Real.pi * (cut * g) ^ 2 * (n * m)) := by
        simp only [Finset.sum_const, Finset.card_range, nsmul_eq_mul]; ring
    _ < |height| := mul_lt_of_lt_one_right (abs_pos.2 hh) hc

example := C120_level_wrong 3 3 (by norm_num) (by norm_num) 5 (1 / 10) 1 (by norm_num) one_ne_zero (by
  have := Real.pi_le_four
  push_cast
  linarith)

/-- A single point of height one at `(a, b)`. -/
def impulse (n m a b : ℕ) : Profile := ⟨n, m, fun i j => if i = a ∧ j = b then 1 else 0⟩

lemma filter_impulse (n m a b : ℕ) (ha : a < n) (hb : b < m) (h : ℕ → ℕ → ℝ) (hn hm i j : ℕ) :
    convolveSame (impulse n m a b) hn hm h i j = if a ≤ i + (hn - 1) / 2 ∧ i + (hn - 1) / 2 - a < hn ∧ b ≤ j + (hm - 1) / 2 ∧ j + (hm - 1) / 2 - b < hm
      then h (i + (hn - 1) / 2 - a) (j + (hm - 1) / 2 - b) else 0 := by
  unfold convolveSame impulse
  dsimp only
  rw [Finset.sum_eq_single a, Finset.sum_eq_single b]
  · rw [if_pos (show a = a ∧ b = b from ⟨rfl, rfl⟩), one_mul]
  · intro b' _ hb'; rw [if_neg (show ¬ (a = a ∧ b' = b) from fun h => hb' h.2), zero_mul, ite_self]
  · intro h; exact absurd (Finset.mem_range.2 hb) h
  · intro a' _ ha'
    apply Finset.sum_eq_zero
    intro b' _
    rw [if_neg (show ¬ (a' = a ∧ b' = b) from fun h => ha' h.1), zero_mul, ite_self]
  · intro h; exact absurd (Finset.mem_range.2 ha) h

/-- C120: the response to a single point of height one. The filter is one sided: only points with both indices from about half the size before the source on are reached. -/
theorem C120_response (n m a b : ℕ) (ha : a < n) (hb : b < m) (cut g : ℝ) (hg : g ≠ 0) :
    ∃ P, lowPassFilter (.array (impulse n m a b)) cut (some (.fin g)) = .ok ⟨n, m, P⟩ ∧
      ∀ i j, i < n → j < m → P i j =
        if a ≤ i + (m - 1) / 2 ∧ i + (m - 1) / 2 - a < m ∧ b ≤ j + (n - 1) / 2 ∧ j + (n - 1) / 2 - b < n then
          cut * g * besselJ1 (2 * Real.pi * (cut * g) * Real.sqrt (((i : ℝ) - a + ((m - 1) / 2 : ℕ) + 1) ^ 2 + ((j : ℝ) - b + ((n - 1) / 2 : ℕ) + 1) ^ 2)) /
            Real.sqrt (((i : ℝ) - a + ((m - 1) / 2 : ℕ) + 1) ^ 2 + ((j : ℝ) - b + ((n - 1) / 2 : ℕ) + 1) ^ 2)
        else 0 := by
  refine ⟨convolveSame (impulse n m a b) m n (kernel (cut * g)), by simp only [lowPassFilter, checkSurface, ratioOf_fin cut g hg]; rfl, fun i j _ _ => ?_⟩
  rw [filter_impulse _ _ _ _ ha hb]
  split_ifs with h
  · obtain ⟨h1, -, h2, -⟩ := h
    have e : distance (i + (m - 1) / 2 - a) (j + (n - 1) / 2 - b) = Real.sqrt (((i : ℝ) - a + ((m - 1) / 2 : ℕ) + 1) ^ 2 + ((j : ℝ) - b + ((n - 1) / 2 : ℕ) + 1) ^ 2) := by
      unfold distance
      congr 1
      rw [Nat.cast_add, Nat.cast_add, Nat.cast_sub h1, Nat.cast_sub h2, Nat.cast_add, Nat.cast_add]
      push_cast
      ring
    unfold kernel
    rw [e]
  · rfl

example := C120_response 3 4 1 2 (by norm_num) (by norm_num) (1 / 10) 1 one_ne_zero

/-- C120: a filter does not move features, this one does: a single high point in the middle of a square surface becomes highest in the corner, for all cut off wave lengths of at least `2 √2 (2 s + 1)` points, where `2 s + 1` is the size. -/
theorem C120_moved_wrong (s : ℕ) (cut g : ℝ) (hc : 0 < cut * g) (hc2 : 2 * Real.sqrt 2 * (cut * g) * (2 * s + 1) ≤ 1) :
    ∃ P, lowPassFilter (.array (impulse (2 * s + 1) (2 * s + 1) s s)) cut (some (.fin g)) = .ok ⟨2 * s + 1, 2 * s + 1, P⟩ ∧
      ∀ i j, i < 2 * s + 1 → j < 2 * s + 1 → (i, j) ≠ (0, 0) → P i j < P 0 0 := by
  have hg : g ≠ 0 := by rintro rfl; simp at hc
  refine ⟨convolveSame (impulse (2 * s + 1) (2 * s + 1) s s) (2 * s + 1) (2 * s + 1) (kernel (cut * g)), by simp only [lowPassFilter, checkSurface, ratioOf_fin cut g hg]; rfl, fun i j hi hj hne => ?_⟩
  rw [filter_impulse _ _ _ _ (by omega) (by omega), filter_impulse _ _ _ _ (by omega) (by omega), if_pos (by omega), if_pos (by omega)]
  have e1 : ∀ i, i + (2 * s + 1 - 1) / 2 - s = i := fun i => by omega
  rw [e1, e1, e1, kernel_eq, kernel_eq]
  have hd0 : distance 0 0 = Real.sqrt 2 := by unfold distance; norm_num
  have hlt : distance 0 0 < distance i j := by
    unfold distance
    apply Real.sqrt_lt_sqrt (by positivity)
    have hi' : (0 : ℝ) ≤ i := Nat.cast_nonneg i
    have hj' : (0 : ℝ) ≤ j := Nat.cast_nonneg j
    have : (1 : ℝ) ≤ i + j := by
      have : 1 ≤ i + j := by
        by_contra h
        exact hne (by rw [Prod.mk.injEq]; omega)
      exact_mod_cast this
    push_cast
    nlinarith
  have hle : distance i j ≤ Real.sqrt 2 * (2 * s + 1) := by
    unfold distance
    rw [show Real.sqrt 2 * (2 * (s : ℝ) + 1) = Real.sqrt (2 * (2 * s + 1) ^ 2) by rw [Real.sqrt_mul (by norm_num), Real.sqrt_sq (by positivity)]]
    apply Real.sqrt_le_sqrt
    have hi' : (i : ℝ) ≤ 2 * s := by exact_mod_cast Nat.lt_succ_iff.1 hi
    have hj' : (j : ℝ) ≤ 2 * s := by exact_mod_cast Nat.lt_succ_iff.1 hj
    have hi0 : (0 : ℝ) ≤ i := Nat.cast_nonneg i
    have hj0 : (0 : ℝ) ≤ j := Nat.cast_nonneg j
    push_cast
    nlinarith
  apply mul_lt_mul_of_pos_left _ (by positivity)
  have hp := Real.pi_pos
  apply poisson_lt
  · have := distance_pos 0 0; positivity
  · exact mul_lt_mul_of_pos_left hlt (by positivity)
  · calc 2 * Real.pi * (cut * g) * distance i j ≤ 2 * Real.pi * (cut * g) * (Real.sqrt 2 * (2 * s + 1)) := mul_le_mul_of_nonneg_left hle (by positivity)
      _ = Real.pi * (2 * Real.sqrt 2 * (cut * g) * (2 * s + 1)) := by ring
      _ ≤ Real.pi := mul_le_of_le_one_right hp.le hc2

/-- Concrete cases of the hypotheses: 3 x 3 points and a cut off wave length of ten points. -/
example : (0 : ℝ) < 1 / 10 * 1 ∧ 2 * Real.sqrt 2 * (1 / 10 * 1) * (2 * (1 : ℕ) + 1) ≤ 1 ∧ Real.pi * (1 / 10 * 1) ^ 2 * (((3 : ℕ) : ℝ) * (3 : ℕ)) < 1 := by
  refine ⟨by norm_num, ?_, ?_⟩
  · have : Real.sqrt 2 ≤ 3 / 2 := by rw [Real.sqrt_le_left (by norm_num)]; norm_num
    push_cast
    linarith
  · have := Real.pi_le_four
    push_cast
    linarith

end Verif.LowPass
