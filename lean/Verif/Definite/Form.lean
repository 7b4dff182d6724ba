import Verif.Definite.Gauss

/-!
# Lemmas for C153: the quadratic form of products of Gaussians over the cells of a grid
-/

namespace Verif.Definite

open Real MeasureTheory Set Filter Finset

/-- The sum over the pairs of nodes of `A` of the weights times a function of the offset. -/
noncomputable def form (A : Finset (ℤ × ℤ)) (w : ℤ × ℤ → ℝ) (k : ℤ → ℤ → ℝ) : ℝ := ∑ p ∈ A, ∑ q ∈ A, w p * w q * k (p.1 - q.1) (p.2 - q.2)

theorem form_mul (A : Finset (ℤ × ℤ)) (w : ℤ × ℤ → ℝ) (k : ℤ → ℤ → ℝ) (c : ℝ) : form A w (fun x y => c * k x y) = c * form A w k := by
  unfold form
  simp only [mul_sum]
  exact sum_congr rfl fun p _ => sum_congr rfl fun q _ => by ring

theorem abs_form_le (A : Finset (ℤ × ℤ)) (w : ℤ × ℤ → ℝ) {k : ℤ → ℤ → ℝ} {B : ℝ} (hk : ∀ x y, |k x y| ≤ B) : |form A w k| ≤ ∑ p ∈ A, ∑ q ∈ A, |w p * w q| * B := by
  unfold form
  refine (abs_sum_le_sum_abs _ _).trans (sum_le_sum fun p _ => (abs_sum_le_sum_abs _ _).trans (sum_le_sum fun q _ => ?_))
  rw [abs_mul]
  exact mul_le_mul_of_nonneg_left (hk _ _) (abs_nonneg _)

theorem integral_form {α : Type*} [MeasurableSpace α] {μ : Measure α} (A : Finset (ℤ × ℤ)) (w : ℤ × ℤ → ℝ) {k : α → ℤ → ℤ → ℝ} (hk : ∀ x y, Integrable (fun a => k a x y) μ) :
    ∫ a, form A w (k a) ∂μ = form A w fun x y => ∫ a, k a x y ∂μ := by
  unfold form
  rw [integral_finset_sum]
  · refine sum_congr rfl fun p _ => ?_
    rw [integral_finset_sum]
    · exact sum_congr rfl fun q _ => integral_const_mul _ _
    · exact fun q _ => (hk _ _).const_mul _
  · exact fun p _ => integrable_finset_sum _ fun q _ => (hk _ _).const_mul _

theorem intervalIntegral_form (A : Finset (ℤ × ℤ)) (w : ℤ × ℤ → ℝ) {k : ℝ → ℤ → ℤ → ℝ} (a b : ℝ) (hk : ∀ x y, Continuous (fun a => k a x y)) :
    ∫ t in a..b, form A w (k t) = form A w fun x y => ∫ t in a..b, k t x y := by
  unfold form
  rw [intervalIntegral.integral_finset_sum]
  · refine sum_congr rfl fun p _ => ?_
    rw [intervalIntegral.integral_finset_sum]
    · exact sum_congr rfl fun q _ => intervalIntegral.integral_const_mul _ _
    · exact fun q _ => ((hk _ _).const_mul _).intervalIntegrable _ _
  · exact fun p _ => (continuous_finset_sum _ fun q _ => (hk _ _).const_mul _).intervalIntegrable _ _

/-- The form of the cosines. -/
noncomputable def waves (A : Finset (ℤ × ℤ)) (w : ℤ × ℤ → ℝ) (ξ η : ℝ) : ℝ := form A w fun x y => cos (2 * π * x * ξ) * cos (2 * π * y * η)

theorem sum_sq_split (A : Finset (ℤ × ℤ)) (f : ℤ × ℤ → ℝ) : ∑ p ∈ A, ∑ q ∈ A, f p * f q = (∑ p ∈ A, f p) ^ 2 := by
  rw [sq, sum_mul_sum]

theorem waves_nonneg (A : Finset (ℤ × ℤ)) (w : ℤ × ℤ → ℝ) (ξ η : ℝ) : 0 ≤ waves A w ξ η := by
  have e : waves A w ξ η = (∑ p ∈ A, w p * (cos (2 * π * p.1 * ξ) * cos (2 * π * p.2 * η))) ^ 2 + (∑ p ∈ A, w p * (cos (2 * π * p.1 * ξ) * sin (2 * π * p.2 * η))) ^ 2 +
      (∑ p ∈ A, w p * (sin (2 * π * p.1 * ξ) * cos (2 * π * p.2 * η))) ^ 2 + (∑ p ∈ A, w p * (sin (2 * π * p.1 * ξ) * sin (2 * π * p.2 * η))) ^ 2 := by
    simp only [← sum_sq_split, ← sum_add_distrib]
    unfold waves form
    refine sum_congr rfl fun p _ => sum_congr rfl fun q _ => ?_
    beta_reduce
    rw [Int.cast_sub, Int.cast_sub, show 2 * π * ((p.1 : ℝ) - q.1) * ξ = 2 * π * p.1 * ξ - 2 * π * q.1 * ξ by ring,
      show 2 * π * ((p.2 : ℝ) - q.2) * η = 2 * π * p.2 * η - 2 * π * q.2 * η by ring, cos_sub, cos_sub]
    ring
  rw [e]
  positivity

theorem cos_shift (n : ℤ) (ξ : ℝ) : cos (2 * π * n * (ξ + 1)) = cos (2 * π * n * ξ) := by
  rw [show 2 * π * n * (ξ + 1) = 2 * π * n * ξ + n * (2 * π) by ring, cos_add_int_mul_two_pi]

theorem abs_cos_cos (a b : ℝ) : |cos a * cos b| ≤ 1 := by
  rw [abs_mul]
  exact mul_le_one₀ (abs_cos_le_one _) (abs_nonneg _) (abs_cos_le_one _)

theorem cos_mean (n : ℤ) : ∫ ξ in (0 : ℝ)..1, cos (2 * π * n * ξ) = if n = 0 then 1 else 0 := by
  split_ifs with h
  · simp [h]
  · have hk : 2 * π * (n : ℝ) ≠ 0 := by
      have : (n : ℝ) ≠ 0 := by exact_mod_cast h
      positivity
    rw [intervalIntegral.integral_comp_mul_left cos hk, integral_cos]
    rw [mul_zero, sin_zero, mul_one, show 2 * π * (n : ℝ) = ((2 * n : ℤ) : ℝ) * π by push_cast; ring, sin_int_mul_pi]
    simp

/-- The mean of the form of the cosines. -/
theorem waves_mean (A : Finset (ℤ × ℤ)) (w : ℤ × ℤ → ℝ) : ∫ ξ in (0 : ℝ)..1, ∫ η in (0 : ℝ)..1, waves A w ξ η = ∑ p ∈ A, w p ^ 2 := by
  have e : ∀ ξ : ℝ, ∫ η in (0 : ℝ)..1, waves A w ξ η = form A w fun x y => cos (2 * π * x * ξ) * if y = 0 then 1 else 0 := by
    intro ξ
    unfold waves
    rw [intervalIntegral_form A w 0 1 fun x y => by fun_prop]
    congr 1
    funext x y
    rw [intervalIntegral.integral_const_mul, cos_mean]
  simp_rw [e]
  rw [intervalIntegral_form A w 0 1 fun x y => by fun_prop]
  unfold form
  refine sum_congr rfl fun p hp => ?_
  rw [sum_eq_single p]
  · beta_reduce
    rw [intervalIntegral.integral_mul_const, cos_mean]
    simp [sq]
  · intro q _ hq
    beta_reduce
    rw [intervalIntegral.integral_mul_const, cos_mean]
    have : ¬(p.1 - q.1 = 0 ∧ p.2 - q.2 = 0) := fun h => hq (Prod.ext (by omega) (by omega))
    by_cases h1 : p.1 - q.1 = 0
    · rw [if_neg (fun h => this ⟨h1, h⟩)]; ring
    · rw [if_neg h1]; ring
  · exact fun h => absurd hp h

theorem waves_pos {A : Finset (ℤ × ℤ)} {w : ℤ × ℤ → ℝ} (h : ∃ p ∈ A, w p ≠ 0) : ∃ c d, 0 < c ∧ c < 1 ∧ 0 < d ∧ d < 1 ∧ 0 < waves A w c d := by
  by_contra hcon
  push Not at hcon
  have hz : ∀ c ∈ Ioo (0 : ℝ) 1, ∀ d ∈ Ioo (0 : ℝ) 1, waves A w c d = 0 := fun c hc d hd => le_antisymm (hcon c d hc.1 hc.2 hd.1 hd.2) (waves_nonneg A w c d)
  have h1 : ∫ ξ in (0 : ℝ)..1, ∫ η in (0 : ℝ)..1, waves A w ξ η = 0 := by
    rw [intervalIntegral.integral_of_le zero_le_one, integral_Ioc_eq_integral_Ioo]
    refine setIntegral_eq_zero_of_forall_eq_zero fun c hc => ?_
    rw [intervalIntegral.integral_of_le zero_le_one, integral_Ioc_eq_integral_Ioo]
    exact setIntegral_eq_zero_of_forall_eq_zero fun d hd => hz c hc d hd
  rw [waves_mean] at h1
  obtain ⟨p, hp, hw⟩ := h
  exact absurd ((sum_eq_zero_iff_of_nonneg fun q _ => sq_nonneg (w q)).mp h1 p hp) (by positivity)

/-- The form with the second factor integrated. -/
theorem row_eq {b : ℝ} (hb : 0 < b) (A : Finset (ℤ × ℤ)) (w : ℤ × ℤ → ℝ) (ξ : ℝ) :
    form A w (fun x y => cos (2 * π * x * ξ) * (√(π / b) * box b y)) = 2 * ∫ η in Ioi (0 : ℝ), weight b η * waves A w ξ η := by
  have e : ∀ η : ℝ, weight b η * waves A w ξ η = form A w fun x y => cos (2 * π * x * ξ) * (weight b η * cos (2 * π * y * η)) := by
    intro η
    unfold waves
    rw [← form_mul]
    congr 1
    funext x y
    ring
  simp_rw [e]
  rw [integral_form A w fun x y => ((integrable_weight hb (by fun_prop) (fun _ => abs_cos_le_one _)).integrableOn).const_mul _, ← form_mul]
  congr 1
  funext x y
  rw [integral_const_mul, box_half hb]
  ring

theorem form_box {b : ℝ} (hb : 0 < b) (A : Finset (ℤ × ℤ)) (w : ℤ × ℤ → ℝ) :
    π / b * form A w (fun x y => box b x * box b y) = 2 * ∫ ξ in Ioi (0 : ℝ), weight b ξ * form A w fun x y => cos (2 * π * x * ξ) * (√(π / b) * box b y) := by
  have e : ∀ ξ : ℝ, weight b ξ * form A w (fun x y => cos (2 * π * x * ξ) * (√(π / b) * box b y)) = form A w fun x y => weight b ξ * cos (2 * π * x * ξ) * (√(π / b) * box b y) := by
    intro ξ
    rw [← form_mul]
    congr 1
    funext x y
    ring
  simp_rw [e]
  rw [integral_form A w fun x y => ((integrable_weight hb (by fun_prop) (fun _ => abs_cos_le_one _)).integrableOn).mul_const _, ← form_mul, ← form_mul]
  congr 1
  funext x y
  have hs : √(π / b) * √(π / b) = π / b := mul_self_sqrt (by positivity)
  rw [integral_mul_const, ← mul_assoc 2, ← box_half hb]
  linear_combination -(box b x * box b y) * hs

/-- The form of a product of Gaussians over the cells is positive. -/
theorem form_box_pos {b : ℝ} (hb : 0 < b) {A : Finset (ℤ × ℤ)} {w : ℤ × ℤ → ℝ} (h : ∃ p ∈ A, w p ≠ 0) : 0 < form A w fun x y => box b x * box b y := by
  obtain ⟨c, d, hc0, hc1, hd0, hd1, hp⟩ := waves_pos h
  have hcont : ∀ ξ, Continuous fun η => waves A w ξ η := fun ξ => by unfold waves form; fun_prop
  have hbd : ∀ ξ η, |waves A w ξ η| ≤ ∑ p ∈ A, ∑ q ∈ A, |w p * w q| * 1 := fun ξ η => abs_form_le A w fun x y => abs_cos_cos _ _
  have hper : ∀ ξ η, waves A w ξ (η + 1) = waves A w ξ η := fun ξ η => by unfold waves; simp_rw [cos_shift]
  have hrow : ∀ ξ, 0 ≤ form A w fun x y => cos (2 * π * x * ξ) * (√(π / b) * box b y) := fun ξ => by
    rw [row_eq hb]
    exact mul_nonneg two_pos.le (fold_nonneg hb (hcont ξ) (hbd ξ) (hper ξ) (waves_nonneg A w ξ))
  have hrowc : 0 < form A w fun x y => cos (2 * π * x * c) * (√(π / b) * box b y) := by
    rw [row_eq hb]
    exact mul_pos two_pos (fold_pos hb (hcont c) (hbd c) (hper c) (waves_nonneg A w c) ⟨d, hd0, hd1, hp⟩)
  have hpos : 0 < π / b * form A w (fun x y => box b x * box b y) := by
    rw [form_box hb]
    have hB : ∀ ξ : ℝ, |form A w fun x y => cos (2 * π * x * ξ) * (√(π / b) * box b y)| ≤ ∑ p ∈ A, ∑ q ∈ A, |w p * w q| * |√(π / b) * box b (p.2 - q.2)| := by
      intro ξ
      unfold form
      refine (abs_sum_le_sum_abs _ _).trans (sum_le_sum fun p _ => (abs_sum_le_sum_abs _ _).trans (sum_le_sum fun q _ => ?_))
      rw [abs_mul, abs_mul (cos _)]
      exact mul_le_mul_of_nonneg_left (mul_le_of_le_one_left (abs_nonneg _) (abs_cos_le_one _)) (abs_nonneg _)
    refine mul_pos two_pos (fold_pos hb (by unfold form; fun_prop) hB (fun ξ => by simp_rw [cos_shift]) hrow ⟨c, hc0, hc1, hrowc⟩)
  exact pos_of_mul_pos_right hpos (by positivity)

end Verif.Definite
