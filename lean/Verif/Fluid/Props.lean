import Verif.Fluid.Model
import Mathlib.Tactic.Linarith
import Mathlib.Tactic.NormNum
import Mathlib.Tactic.Ring
import Mathlib.Tactic.FieldSimp
import Mathlib.Tactic.Positivity

/-!
# C31: the viscosity and density laws are physical and dimension-consistent
-/

namespace Verif.Fluid

/-! ## Viscosity -/

/-- **C31**: at zero (ambient) pressure the Roelands viscosity is the reference viscosity. -/
theorem C31_roelands_reference (eta0 pressure0 z : ℝ) : roelands eta0 pressure0 z 0 = eta0 := by
  simp [roelands]

/-- **C31**: the Roelands viscosity increases strictly with the pressure if the reference viscosity is above `exp(-9.67)`. -/
theorem C31_roelands_increases (eta0 pressure0 z p q : ℝ) (h0 : Real.exp (-9.67) < eta0) (hp0 : 0 < pressure0) (hz : 0 < z) (hp : 0 ≤ p)
    (hpq : p < q) : roelands eta0 pressure0 z p < roelands eta0 pressure0 z q := by
  have heta : 0 < eta0 := (Real.exp_pos _).trans h0
  have hl : 0 < Real.log eta0 + 9.67 := by
    have := (Real.lt_log_iff_exp_lt heta).2 h0
    linarith
  unfold roelands
  dsimp only
  apply mul_lt_mul_of_pos_left _ heta
  apply Real.exp_lt_exp.2
  apply mul_lt_mul_of_pos_left _ hl
  have : (1 + p / pressure0) ^ z < (1 + q / pressure0) ^ z := by
    apply Real.rpow_lt_rpow _ _ hz
    · have := div_nonneg hp hp0.le
      linarith
    · have : p / pressure0 < q / pressure0 := div_lt_div_of_pos_right hpq hp0
      linarith
  linarith

example : Real.exp (-9.67) < 0.01 ∧ (0 : ℝ) < 1.96e8 ∧ (0 : ℝ) < 0.68 := by
  refine ⟨?_, by norm_num, by norm_num⟩
  have h1 : Real.exp (-9.67) < Real.exp (-9) := Real.exp_lt_exp.2 (by norm_num)
  have h2 : Real.exp (-9) = (Real.exp 9)⁻¹ := Real.exp_neg 9
  have h3 : (2 : ℝ) ≤ Real.exp 1 := by
    have := Real.add_one_le_exp (1 : ℝ)
    linarith
  have h4 : Real.exp 9 = Real.exp 1 ^ (9 : ℕ) := by rw [← Real.exp_nat_mul]; norm_num
  have h5 : (2 : ℝ) ^ 9 ≤ Real.exp 1 ^ (9 : ℕ) := pow_le_pow_left₀ (by norm_num) h3 9
  rw [h2, h4] at h1
  have h6 : (Real.exp 1 ^ (9 : ℕ))⁻¹ ≤ ((2 : ℝ) ^ 9)⁻¹ := inv_anti₀ (by positivity) h5
  have h7 : ((2 : ℝ) ^ 9)⁻¹ < 0.01 := by norm_num
  linarith

/-- The condition on the reference viscosity is needed: below `exp(-9.67)` the viscosity of the model falls with the pressure. -/
theorem C31_roelands_falls_for_thin_fluids (eta0 pressure0 z p q : ℝ) (heta : 0 < eta0) (h0 : eta0 < Real.exp (-9.67)) (hp0 : 0 < pressure0)
    (hz : 0 < z) (hp : 0 ≤ p) (hpq : p < q) : roelands eta0 pressure0 z q < roelands eta0 pressure0 z p := by
  have hl : Real.log eta0 + 9.67 < 0 := by
    have := (Real.log_lt_iff_lt_exp heta).2 h0
    linarith
  unfold roelands
  dsimp only
  apply mul_lt_mul_of_pos_left _ heta
  apply Real.exp_lt_exp.2
  apply mul_lt_mul_of_neg_left _ hl
  have : (1 + p / pressure0) ^ z < (1 + q / pressure0) ^ z := by
    apply Real.rpow_lt_rpow _ _ hz
    · have := div_nonneg hp hp0.le
      linarith
    · have : p / pressure0 < q / pressure0 := div_lt_div_of_pos_right hpq hp0
      linarith
  linarith

example := C31_roelands_falls_for_thin_fluids (Real.exp (-10)) 1.96e8 0.68 1e8 5e8 (Real.exp_pos _) (Real.exp_lt_exp.2 (by norm_num)) (by norm_num) (by norm_num) (by norm_num) (by norm_num)

/-- **C31**: the Roelands viscosity is positive. -/
theorem C31_roelands_positive (eta0 pressure0 z p : ℝ) (h0 : 0 < eta0) : 0 < roelands eta0 pressure0 z p :=
  mul_pos h0 (Real.exp_pos _)

example := C31_roelands_positive 0.04 1.96e8 0.68 1e8 (by norm_num)

/-- **C31**: the non-dimensional Roelands law is the dimensional one at the dimensional pressure, divided by the reference viscosity. -/
theorem C31_roelands_consistent (eta0 pressure0 pressureHertzian z p : ℝ) (h0 : 0 < eta0) :
    ndRoelands eta0 pressure0 pressureHertzian z p = roelands eta0 pressure0 z (p * pressureHertzian) / eta0 := by
  have e : pressureHertzian / pressure0 * p = p * pressureHertzian / pressure0 := by ring
  unfold ndRoelands roelands
  dsimp only
  rw [e, mul_div_cancel_left₀ _ h0.ne']

example := C31_roelands_consistent 0.04 1.96e8 1e9 0.68 0.5 (by norm_num)

/-- **C31**: at zero pressure the Barus viscosity is the reference viscosity. -/
theorem C31_barus_reference (eta0 alpha : ℝ) : barus eta0 alpha 0 = eta0 := by simp [barus]

/-- **C31**: the Barus viscosity increases strictly with the pressure. -/
theorem C31_barus_increases (eta0 alpha p q : ℝ) (h0 : 0 < eta0) (ha : 0 < alpha) (hpq : p < q) : barus eta0 alpha p < barus eta0 alpha q :=
  mul_lt_mul_of_pos_left (Real.exp_lt_exp.2 (mul_lt_mul_of_pos_left hpq ha)) h0

example := C31_barus_increases 0.04 2e-8 1e8 5e8 (by norm_num) (by norm_num) (by norm_num)

/-- **C31**: to first order the relative increase of the Barus viscosity is `alpha` times the pressure: it is at least `1 + alpha p`. -/
theorem C31_barus_lower_bound (eta0 alpha p : ℝ) (h0 : 0 < eta0) : eta0 * (1 + alpha * p) ≤ barus eta0 alpha p := by
  unfold barus
  apply mul_le_mul_of_nonneg_left _ h0.le
  have := Real.add_one_le_exp (alpha * p)
  linarith

example := C31_barus_lower_bound 0.04 2e-8 1e8 (by norm_num)

/-- **C31**: the non-dimensional Barus law is the dimensional one at the dimensional pressure, divided by the reference viscosity. -/
theorem C31_barus_consistent (eta0 alpha pressureHertzian p : ℝ) (h0 : eta0 ≠ 0) :
    ndBarus pressureHertzian alpha p = barus eta0 alpha (p * pressureHertzian) / eta0 := by
  unfold ndBarus barus
  rw [mul_div_cancel_left₀ _ h0]
  congr 1
  ring

example := C31_barus_consistent 0.04 2e-8 1e9 0.5 (by norm_num)

/-! ## Density -/

/-- **C31**: at zero pressure the density is the reference density, relative density 1. -/
theorem C31_density_reference (rho0 ph : ℝ) (hph : ph ≠ 0) : dowsonHigginson rho0 0 = rho0 ∧ ndDowsonHigginson ph 0 = 1 := by
  constructor
  · unfold dowsonHigginson
    norm_num
  · unfold ndDowsonHigginson
    dsimp only
    rw [mul_zero, add_zero]
    exact div_self (div_ne_zero (by norm_num) hph)

example := C31_density_reference 870 1e9 (by norm_num)

/-- **C31**: the density increases strictly with the pressure and stays below the limiting compression of 1.34 times the reference. -/
theorem C31_density_increases_bounded (rho0 p q : ℝ) (h0 : 0 < rho0) (hp : 0 ≤ p) (hpq : p < q) :
    dowsonHigginson rho0 p < dowsonHigginson rho0 q ∧ rho0 ≤ dowsonHigginson rho0 p ∧ dowsonHigginson rho0 p < 1.34 * rho0 := by
  have hq : 0 < q := lt_of_le_of_lt hp hpq
  unfold dowsonHigginson
  refine ⟨?_, ?_, ?_⟩
  · rw [div_lt_div_iff₀ (by linarith) (by linarith)]
    nlinarith
  · rw [le_div_iff₀ (by linarith)]
    nlinarith
  · rw [div_lt_iff₀ (by linarith)]
    nlinarith

example := C31_density_increases_bounded 870 1e8 5e8 (by norm_num) (by norm_num) (by norm_num)

/-- **C31**: the bound is the limit: every smaller bound is exceeded at some pressure. -/
theorem C31_density_limit (rho0 c : ℝ) (h0 : 0 < rho0) (hc : c < 1.34 * rho0) : ∃ p, 0 ≤ p ∧ c < dowsonHigginson rho0 p := by
  refine ⟨max 0 (5.9e8 * c / (1.34 * rho0 - c)), le_max_left _ _, ?_⟩
  have hd : 0 < 1.34 * rho0 - c := by linarith
  have h1 := le_max_right 0 (5.9e8 * c / (1.34 * rho0 - c))
  have h2 := le_max_left 0 (5.9e8 * c / (1.34 * rho0 - c))
  generalize max 0 (5.9e8 * c / (1.34 * rho0 - c)) = p at *
  rw [div_le_iff₀ hd] at h1
  unfold dowsonHigginson
  rw [lt_div_iff₀ (by linarith)]
  nlinarith

example := C31_density_limit 870 1165 (by norm_num) (by norm_num)

/-- **C31**: the non-dimensional density law is the dimensional one at the dimensional pressure, divided by the reference density. -/
theorem C31_density_consistent (rho0 ph p : ℝ) (h0 : rho0 ≠ 0) (hph : ph ≠ 0) :
    ndDowsonHigginson ph p = dowsonHigginson rho0 (p * ph) / rho0 := by
  unfold ndDowsonHigginson dowsonHigginson
  dsimp only
  rw [mul_div_assoc, mul_div_cancel_left₀ _ h0]
  rw [show 5.9e8 / ph + 1.34 * p = (5.9e8 + 1.34 * (p * ph)) / ph by field_simp,
    show 5.9e8 / ph + p = (5.9e8 + p * ph) / ph by field_simp, div_div_div_cancel_right₀ hph]

example := C31_density_consistent 870 1e9 0.5 (by norm_num) (by norm_num)

/-- **C31**: the non-dimensional density lies between 1 and 1.34 and increases. -/
theorem C31_nd_density_range (ph p q : ℝ) (hph : 0 < ph) (hp : 0 ≤ p) (hpq : p < q) :
    1 ≤ ndDowsonHigginson ph p ∧ ndDowsonHigginson ph p < 1.34 ∧ ndDowsonHigginson ph p < ndDowsonHigginson ph q := by
  have h := C31_density_increases_bounded 1 (p * ph) (q * ph) one_pos (by positivity) (mul_lt_mul_of_pos_right hpq hph)
  rw [C31_density_consistent 1 ph p one_ne_zero hph.ne', C31_density_consistent 1 ph q one_ne_zero hph.ne', div_one, div_one]
  refine ⟨h.2.1, ?_, h.1⟩
  linarith [h.2.2]

example : (0 : ℝ) < 870 ∧ (0 : ℝ) ≤ 1e8 ∧ (1e8 : ℝ) < 5e8 := by norm_num

end Verif.Fluid
