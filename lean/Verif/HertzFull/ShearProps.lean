import Mathlib.MeasureTheory.Integral.IntervalIntegral.FundThmCalculus
import Mathlib.Analysis.SpecialFunctions.Trigonometric.InverseDeriv
import Mathlib.Analysis.SpecialFunctions.Sqrt
import Verif.Hertz.Materials
import Verif.HertzFull.ShearModel
import Verif.HertzFull.Extras

/-!
# C158: the greatest shear stresses of Hertz contacts
-/

namespace Verif.HertzFull

open Real MeasureTheory Set

/-! ## Specification -/

/-- The stresses at the depth `z` below the middle of a strip with the pressure `p0 √(1 - (s / a)²)`: the sum of those of line loads on a half space (Flamant). -/
noncomputable def stripX (a p0 z : ℝ) : ℝ := -(2 * z / π) * ∫ s in -a..a, p0 / a * √(a ^ 2 - s ^ 2) * s ^ 2 / (s ^ 2 + z ^ 2) ^ 2

noncomputable def stripZ (a p0 z : ℝ) : ℝ := -(2 * z ^ 3 / π) * ∫ s in -a..a, p0 / a * √(a ^ 2 - s ^ 2) / (s ^ 2 + z ^ 2) ^ 2

/-- The minimiser stays within its bounds. -/
def Bounded (minimise : Minimiser) : Prop := ∀ f ψ, minimise f = some ψ → 0 ≤ ψ ∧ ψ ≤ 10

/-- The minimiser finds a minimum within its bounds. -/
def Minimises (minimise : Minimiser) : Prop := ∀ f ψ, minimise f = some ψ → (0 ≤ ψ ∧ ψ ≤ 10) ∧ ∀ χ, 0 ≤ χ → χ ≤ 10 → f ψ ≤ f χ

/-! ## The integrals -/

theorem arcsin_deriv {a z s : ℝ} (ha : 0 < a) (hz : 0 < z) (hs : s ∈ Ioo (-a) a) :
    HasDerivAt (fun s => arcsin (s * √(a ^ 2 + z ^ 2) / (a * √(s ^ 2 + z ^ 2)))) (√(a ^ 2 + z ^ 2) * z / ((s ^ 2 + z ^ 2) * √(a ^ 2 - s ^ 2))) s := by
  have hd : 0 < a ^ 2 - s ^ 2 := by nlinarith [hs.1, hs.2]
  have hD : 0 < s ^ 2 + z ^ 2 := by positivity
  have hw : 0 < a ^ 2 + z ^ 2 := by positivity
  set w := √(a ^ 2 + z ^ 2) with hwdef
  have hw2 : w ^ 2 = a ^ 2 + z ^ 2 := sq_sqrt hw.le
  have hw0 : 0 < w := sqrt_pos.2 hw
  have h1 : HasDerivAt (fun s => √(s ^ 2 + z ^ 2)) (s / √(s ^ 2 + z ^ 2)) s := by
    have := (((hasDerivAt_id s).pow 2).add_const (z ^ 2)).sqrt (by simpa using hD.ne')
    refine this.congr_deriv ?_
    simp
    ring
  set D := √(s ^ 2 + z ^ 2) with hDdef
  have hD2 : D ^ 2 = s ^ 2 + z ^ 2 := sq_sqrt hD.le
  have hD0 : 0 < D := sqrt_pos.2 hD
  set q := √(a ^ 2 - s ^ 2) with hq
  have hq2 : q ^ 2 = a ^ 2 - s ^ 2 := sq_sqrt hd.le
  have hq0 : 0 < q := sqrt_pos.2 hd
  have hsq : 1 - (s * w / (a * D)) ^ 2 = (z * q / (a * D)) ^ 2 := by
    have : a * D ≠ 0 := by positivity
    field_simp
    rw [hw2, hD2, hq2]
    ring
  have hlt : 0 < (z * q / (a * D)) ^ 2 := by positivity
  have hne : s * w / (a * D) ≠ -1 ∧ s * w / (a * D) ≠ 1 := by
    constructor <;> intro h <;> rw [h] at hsq <;> norm_num at hsq <;> linarith
  have h2 : HasDerivAt (fun s => s * w / (a * √(s ^ 2 + z ^ 2))) ((1 * w * (a * D) - s * w * (a * (s / D))) / (a * D) ^ 2) s :=
    ((hasDerivAt_id s).mul_const w).div (h1.const_mul a) (by positivity)
  refine ((hasDerivAt_arcsin hne.1 hne.2).comp s h2).congr_deriv ?_
  rw [hsq, sqrt_sq (by positivity), ← hD2]
  field_simp
  rw [hD2]
  ring

/-- The argument of the arc sine at the edge. -/
theorem arcsin_edge {a z : ℝ} (ha : 0 < a) (hz : 0 < z) : a * √(a ^ 2 + z ^ 2) / (a * √(a ^ 2 + z ^ 2)) = 1 ∧ -a * √(a ^ 2 + z ^ 2) / (a * √((-a) ^ 2 + z ^ 2)) = -1 := by
  have : a * √(a ^ 2 + z ^ 2) ≠ 0 := by positivity
  refine ⟨div_self this, ?_⟩
  rw [neg_sq, neg_mul, neg_div, div_self this]

theorem integral_first {a z : ℝ} (ha : 0 < a) (hz : 0 < z) : ∫ s in -a..a, √(a ^ 2 - s ^ 2) / (s ^ 2 + z ^ 2) = π * (√(a ^ 2 + z ^ 2) / z - 1) := by
  have hD : ∀ s : ℝ, s ^ 2 + z ^ 2 ≠ 0 := fun s => by positivity
  have hD' : ∀ s : ℝ, a * √(s ^ 2 + z ^ 2) ≠ 0 := fun s => by positivity
  have hw2 : √(a ^ 2 + z ^ 2) ^ 2 = a ^ 2 + z ^ 2 := sq_sqrt (by positivity)
  rw [intervalIntegral.integral_eq_sub_of_hasDerivAt_of_le (by linarith) (f := fun s => -arcsin (s / a) + √(a ^ 2 + z ^ 2) / z * arcsin (s * √(a ^ 2 + z ^ 2) / (a * √(s ^ 2 + z ^ 2))))]
  · rw [(arcsin_edge ha hz).1, (arcsin_edge ha hz).2, div_self ha.ne', neg_div, div_self ha.ne', arcsin_neg, arcsin_one]
    ring
  · fun_prop (disch := assumption)
  · intro s hs
    have hd : 0 < a ^ 2 - s ^ 2 := by nlinarith [hs.1, hs.2]
    have hq2 : √(a ^ 2 - s ^ 2) ^ 2 = a ^ 2 - s ^ 2 := sq_sqrt hd.le
    have hq0 : 0 < √(a ^ 2 - s ^ 2) := sqrt_pos.2 hd
    have hlt : |s / a| < 1 := by rw [abs_div, abs_of_pos ha, div_lt_one ha, abs_lt]; exact hs
    rw [abs_lt] at hlt
    have h0 : HasDerivAt (fun s => -arcsin (s / a)) (-(1 / √(a ^ 2 - s ^ 2))) s := by
      refine ((hasDerivAt_arcsin hlt.1.ne' hlt.2.ne).comp s ((hasDerivAt_id s).div_const a)).neg.congr_deriv ?_
      have : 1 - (s / a) ^ 2 = (√(a ^ 2 - s ^ 2) / a) ^ 2 := by rw [div_pow, div_pow, hq2]; field_simp
      rw [this, sqrt_sq (by positivity)]
      field_simp
    refine (h0.add ((arcsin_deriv ha hz hs).const_mul (√(a ^ 2 + z ^ 2) / z))).congr_deriv ?_
    have := hD s
    field_simp
    rw [hw2, hq2]
    ring
  · apply Continuous.intervalIntegrable
    fun_prop (disch := assumption)

theorem integral_second {a z : ℝ} (ha : 0 < a) (hz : 0 < z) : ∫ s in -a..a, √(a ^ 2 - s ^ 2) / (s ^ 2 + z ^ 2) ^ 2 = π * a ^ 2 / (2 * z ^ 3 * √(a ^ 2 + z ^ 2)) := by
  have hD : ∀ s : ℝ, s ^ 2 + z ^ 2 ≠ 0 := fun s => by positivity
  have hD1 : ∀ s : ℝ, (s ^ 2 + z ^ 2) ^ 2 ≠ 0 := fun s => by positivity
  have hD2 : ∀ s : ℝ, 2 * z ^ 2 * (s ^ 2 + z ^ 2) ≠ 0 := fun s => by positivity
  have hD' : ∀ s : ℝ, a * √(s ^ 2 + z ^ 2) ≠ 0 := fun s => by positivity
  have hw0 : 0 < √(a ^ 2 + z ^ 2) := by positivity
  rw [intervalIntegral.integral_eq_sub_of_hasDerivAt_of_le (by linarith)
    (f := fun s => s * √(a ^ 2 - s ^ 2) / (2 * z ^ 2 * (s ^ 2 + z ^ 2)) + a ^ 2 / (2 * z ^ 3 * √(a ^ 2 + z ^ 2)) * arcsin (s * √(a ^ 2 + z ^ 2) / (a * √(s ^ 2 + z ^ 2))))]
  · rw [(arcsin_edge ha hz).1, (arcsin_edge ha hz).2, arcsin_neg, arcsin_one, neg_sq, sub_self, sqrt_zero]
    ring
  · fun_prop (disch := assumption)
  · intro s hs
    have hd : 0 < a ^ 2 - s ^ 2 := by nlinarith [hs.1, hs.2]
    have hq2 : √(a ^ 2 - s ^ 2) ^ 2 = a ^ 2 - s ^ 2 := sq_sqrt hd.le
    have hq0 : 0 < √(a ^ 2 - s ^ 2) := sqrt_pos.2 hd
    have h1 : HasDerivAt (fun s => √(a ^ 2 - s ^ 2)) (-s / √(a ^ 2 - s ^ 2)) s := by
      have := (((hasDerivAt_id s).pow 2).const_sub (a ^ 2)).sqrt (by simpa using hd.ne')
      refine this.congr_deriv ?_
      simp
      ring
    have h2 : HasDerivAt (fun s => 2 * z ^ 2 * (s ^ 2 + z ^ 2)) (2 * z ^ 2 * (2 * s)) s := by
      have := (((hasDerivAt_id s).pow 2).add_const (z ^ 2)).const_mul (2 * z ^ 2)
      refine this.congr_deriv ?_
      simp
    refine ((((hasDerivAt_id s).mul h1).div h2 (hD2 s)).add ((arcsin_deriv ha hz hs).const_mul (a ^ 2 / (2 * z ^ 3 * √(a ^ 2 + z ^ 2))))).congr_deriv ?_
    have := hD s
    simp only [id_eq, Pi.mul_apply]
    generalize √(a ^ 2 - s ^ 2) = q at *
    field_simp
    rw [hq2]
    ring
  · apply Continuous.intervalIntegrable
    fun_prop (disch := assumption)

/-- The closed form of the stresses on the axis. -/
theorem stripZ_eq {a p0 z : ℝ} (ha : 0 < a) (hz : 0 < z) : stripZ a p0 z = -p0 * a / √(a ^ 2 + z ^ 2) := by
  unfold stripZ
  simp only [mul_div_assoc]
  rw [intervalIntegral.integral_const_mul, integral_second ha hz]
  have : √(a ^ 2 + z ^ 2) ≠ 0 := by positivity
  field_simp

theorem stripX_eq {a p0 z : ℝ} (ha : 0 < a) (hz : 0 < z) : stripX a p0 z = -p0 / a * ((a ^ 2 + 2 * z ^ 2) / √(a ^ 2 + z ^ 2) - 2 * z) := by
  have hD : ∀ s : ℝ, s ^ 2 + z ^ 2 ≠ 0 := fun s => by positivity
  have hD1 : ∀ s : ℝ, (s ^ 2 + z ^ 2) ^ 2 ≠ 0 := fun s => by positivity
  have e : ∀ s : ℝ, p0 / a * √(a ^ 2 - s ^ 2) * s ^ 2 / (s ^ 2 + z ^ 2) ^ 2 = p0 / a * (√(a ^ 2 - s ^ 2) / (s ^ 2 + z ^ 2) - z ^ 2 * (√(a ^ 2 - s ^ 2) / (s ^ 2 + z ^ 2) ^ 2)) := by
    intro s
    have := hD s
    field_simp
    ring
  unfold stripX
  simp only [e]
  rw [intervalIntegral.integral_const_mul, intervalIntegral.integral_sub, intervalIntegral.integral_const_mul, integral_first ha hz, integral_second ha hz]
  · have hw : √(a ^ 2 + z ^ 2) ≠ 0 := by positivity
    have hw2 : √(a ^ 2 + z ^ 2) ^ 2 = a ^ 2 + z ^ 2 := sq_sqrt (by positivity)
    field_simp
    linear_combination (-2 * p0) * hw2
  · apply Continuous.intervalIntegrable
    fun_prop (disch := assumption)
  · apply Continuous.intervalIntegrable
    fun_prop (disch := assumption)

/-- Half the difference of the principal stresses in the plane, on the axis. -/
theorem strip_shear {a p0 z : ℝ} (ha : 0 < a) (hz : 0 < z) : (stripX a p0 z - stripZ a p0 z) / 2 = p0 * (z / a - (z / a) ^ 2 / √(1 + (z / a) ^ 2)) := by
  have hw2 : √(a ^ 2 + z ^ 2) ^ 2 = a ^ 2 + z ^ 2 := sq_sqrt (by positivity)
  have hw : √(a ^ 2 + z ^ 2) ≠ 0 := by positivity
  have e : √(1 + (z / a) ^ 2) = √(a ^ 2 + z ^ 2) / a := by
    rw [show 1 + (z / a) ^ 2 = (a ^ 2 + z ^ 2) / a ^ 2 by field_simp, sqrt_div' _ (by positivity), sqrt_sq ha.le]
  rw [stripX_eq ha hz, stripZ_eq ha hz, e]
  field_simp
  ring

/-! ## Point contacts -/

theorem sphereObjective_eq {a p0 v ψ : ℝ} (ha : 0 < a) : sphereObjective v ψ * (-1 * p0) = ((stressAxis a p0 v (ψ * a)).r - (stressAxis a p0 v (ψ * a)).z) / 2 + v * p0 / 2 := by
  rw [axis_difference, mul_div_assoc ψ a a, div_self ha.ne', mul_one, mul_pow, mul_div_assoc (ψ ^ 2), div_self (by positivity), mul_one, div_mul_cancel_right₀ ha.ne']
  unfold sphereObjective
  rw [one_div]
  ring

theorem arctan_lower {t : ℝ} (ht : 0 ≤ t) : t / (1 + t ^ 2) ≤ arctan t := by
  have h := sin_le (x := 2 * arctan t) (by have := arctan_nonneg.2 ht; linarith)
  rw [sin_two_mul, sin_arctan, cos_arctan] at h
  have hq : √(1 + t ^ 2) ^ 2 = 1 + t ^ 2 := sq_sqrt (by positivity)
  have : t / √(1 + t ^ 2) * (1 / √(1 + t ^ 2)) = t / (1 + t ^ 2) := by rw [div_mul_div_comm, mul_one, ← sq, hq]
  nlinarith

/-- The factor in the radial stress: bounds from below and above. -/
theorem axis_factor {s : ℝ} (hs : 0 < s) : s ^ 2 / (1 + s ^ 2) ≤ s * arctan s⁻¹ ∧ s * arctan s⁻¹ ≤ 1 ∧ s * arctan s⁻¹ ≤ s * (1.575 - s / (1 + s ^ 2)) := by
  refine ⟨?_, ?_, ?_⟩
  · have := mul_le_mul_of_nonneg_left (arctan_lower (t := s⁻¹) (by positivity)) hs.le
    refine le_trans (le_of_eq ?_) this
    field_simp
    ring
  · have h := lt_tan (x := arctan s⁻¹) (arctan_pos.mpr (by positivity)) (arctan_lt_pi_div_two _)
    rw [tan_arctan] at h
    calc s * arctan s⁻¹ ≤ s * s⁻¹ := by gcongr
      _ = 1 := mul_inv_cancel₀ hs.ne'
  · rw [arctan_inv_of_pos hs]
    have := arctan_lower hs.le
    have hpi : π < 3.15 := pi_lt_d2
    apply mul_le_mul_of_nonneg_left _ hs.le
    linarith

theorem axis_difference' {a p0 v z : ℝ} : (stressAxis a p0 v z).r - (stressAxis a p0 v z).z = p0 * (3 / 2 / (1 + (z / a) ^ 2) - (1 + v) * (1 - (z / a) * arctan (z / a)⁻¹)) := by
  rw [axis_difference, div_pow, inv_div]

/-- The difference of the stresses on the axis is not negative. -/
theorem axis_nonneg {a p0 v z : ℝ} (ha : 0 < a) (hp : 0 ≤ p0) (hv : v ≤ 1 / 2) (hz : 0 ≤ z) : 0 ≤ (stressAxis a p0 v z).r - (stressAxis a p0 v z).z := by
  rw [axis_difference']
  apply mul_nonneg hp
  rcases hz.eq_or_lt with rfl | hz
  · norm_num
    linarith
  · have hs : 0 < z / a := by positivity
    obtain ⟨h1, h2, -⟩ := axis_factor hs
    generalize z / a = s at *
    generalize s * arctan s⁻¹ = g at *
    have e : 3 / 2 / (1 + s ^ 2) = 3 / 2 * (1 - s ^ 2 / (1 + s ^ 2)) := by field_simp; ring
    rw [e]
    nlinarith

/-- **C158 (partial)**: the depth that `hertz_full` reports for a point contact is that of the greatest shear stress on the axis of the contact, down to ten times the contact radius. Missing: the stress, see
`C158_sphere_wrong`. -/
theorem C158_depth_partial {minimise : Minimiser} (hm : Minimises minimise) {a p0 v τ d : ℝ} (ha : 0 < a) (hp : 0 < p0) (hv : v ≤ 1 / 2) (h : sphereShear minimise a p0 v = some (τ, d)) :
    (0 ≤ d ∧ d ≤ 10 * a) ∧ ∀ z, 0 ≤ z → z ≤ 10 * a → |(stressAxis a p0 v z).r - (stressAxis a p0 v z).z| / 2 ≤ |(stressAxis a p0 v d).r - (stressAxis a p0 v d).z| / 2 := by
  unfold sphereShear at h
  obtain ⟨ψ, hψ, e⟩ := Option.map_eq_some_iff.1 h
  obtain ⟨rfl, rfl⟩ := Prod.mk.injEq .. ▸ e
  obtain ⟨⟨h0, h10⟩, hle⟩ := hm _ _ hψ
  refine ⟨⟨by positivity, by nlinarith⟩, fun z hz hza => ?_⟩
  rw [abs_of_nonneg (axis_nonneg ha hp.le hv hz), abs_of_nonneg (axis_nonneg ha hp.le hv (by positivity))]
  have := hle (z / a) (by positivity) (by rw [div_le_iff₀ ha]; exact hza)
  have e1 := sphereObjective_eq (p0 := p0) (v := v) (ψ := z / a) ha
  rw [div_mul_cancel₀ _ ha.ne'] at e1
  have e2 := sphereObjective_eq (p0 := p0) (v := v) (ψ := ψ) ha
  nlinarith

/-- A minimiser that fails only where there is no minimum. -/
noncomputable def leastOf : Minimiser := by
  classical
  exact fun f => if h : ∃ ψ, (0 ≤ ψ ∧ ψ ≤ 10) ∧ ∀ χ, 0 ≤ χ → χ ≤ 10 → f ψ ≤ f χ then some h.choose else none

theorem leastOf_minimises : Minimises leastOf := by
  intro f ψ h
  unfold leastOf at h
  split at h
  · rename_i hex
    cases h
    exact hex.choose_spec
  · cases h

/-- It finds a minimum of the function of point contacts. -/
theorem leastOf_sphere (v : ℝ) : ∃ ψ, leastOf (sphereObjective v) = some ψ := by
  have hc : ContinuousOn (sphereObjective v) (Icc 0 10) := by
    have hg : Continuous fun ψ : ℝ => -0.5 * (-1 + 3 / 2 / (1 + ψ ^ 2) + ψ * (1 + v) * (π / 2 - arctan ψ)) := by
      have : ∀ ψ : ℝ, 1 + ψ ^ 2 ≠ 0 := fun ψ => by positivity
      fun_prop (disch := assumption)
    refine hg.continuousOn.congr fun ψ hψ => ?_
    unfold sphereObjective
    rcases hψ.1.eq_or_lt with h | h
    · rw [← h]; simp
    · rw [one_div, arctan_inv_of_pos h]
  obtain ⟨ψ, hψ, hmin⟩ := isCompact_Icc.exists_isMinOn (nonempty_Icc.2 (by norm_num)) hc
  have hex : ∃ ψ, (0 ≤ ψ ∧ ψ ≤ 10) ∧ ∀ χ, 0 ≤ χ → χ ≤ 10 → sphereObjective v ψ ≤ sphereObjective v χ := ⟨ψ, hψ, fun χ h0 h1 => hmin ⟨h0, h1⟩⟩
  exact ⟨_, by unfold leastOf; rw [dif_pos hex]⟩

/-- A contact of radius 1 mm with the greatest pressure 1 GPa and the Poisson's ratio 0.3. -/
example : ∃ τ d, sphereShear leastOf 0.001 1e9 0.3 = some (τ, d) ∧
    ∀ z, 0 ≤ z → z ≤ 10 * 0.001 → |(stressAxis 0.001 1e9 0.3 z).r - (stressAxis 0.001 1e9 0.3 z).z| / 2 ≤ |(stressAxis 0.001 1e9 0.3 d).r - (stressAxis 0.001 1e9 0.3 d).z| / 2 := by
  obtain ⟨ψ, hψ⟩ := leastOf_sphere 0.3
  have h : sphereShear leastOf 0.001 1e9 0.3 = some (sphereObjective 0.3 ψ * (-1 * 1e9), ψ * 0.001) := by unfold sphereShear; rw [hψ]; rfl
  exact ⟨_, _, h, (C158_depth_partial leastOf_minimises (by norm_num) (by norm_num) (by norm_num) h).2⟩

/-- **C158 (negation)**: the greatest shear stress that `hertz_full` reports for a body in a point contact is too great by half the Poisson's ratio times the greatest pressure. -/
theorem C158_sphere_wrong {minimise : Minimiser} (hm : Bounded minimise) {a p0 v τ d : ℝ} (ha : 0 < a) (hp : 0 < p0) (hv : v ≤ 1 / 2) (h : sphereShear minimise a p0 v = some (τ, d)) :
    τ = |(stressAxis a p0 v d).r - (stressAxis a p0 v d).z| / 2 + v * p0 / 2 := by
  unfold sphereShear at h
  obtain ⟨ψ, hψ, e⟩ := Option.map_eq_some_iff.1 h
  obtain ⟨rfl, rfl⟩ := Prod.mk.injEq .. ▸ e
  have h0 := (hm _ _ hψ).1
  rw [abs_of_nonneg (axis_nonneg ha hp.le hv (by positivity)), sphereObjective_eq ha]

example : ∃ τ d, sphereShear leastOf 0.001 1e9 0.3 = some (τ, d) ∧ τ = |(stressAxis 0.001 1e9 0.3 d).r - (stressAxis 0.001 1e9 0.3 d).z| / 2 + 0.3 * 1e9 / 2 := by
  obtain ⟨ψ, hψ⟩ := leastOf_sphere 0.3
  have h : sphereShear leastOf 0.001 1e9 0.3 = some (sphereObjective 0.3 ψ * (-1 * 1e9), ψ * 0.001) := by unfold sphereShear; rw [hψ]; rfl
  exact ⟨_, _, h, C158_sphere_wrong (fun f ψ h => (leastOf_minimises f ψ h).1) (by norm_num) (by norm_num) (by norm_num) h⟩

/-- **C158 (negation)**: the greatest shear stress that `solve_hertz_point` reports is greater than the shear stress at every point on the axis of the contact. -/
theorem C158_point_wrong {s : Hertz.System} {r : Hertz.PointSolution} (h : Hertz.fillPoint s = .value r) (ha : 0 < r.radius) (hp : 0 < r.maxPressure) (h0 : 0 ≤ r.v1) (h1 : r.v1 ≤ 1 / 2) {z : ℝ} (hz : 0 ≤ z) :
    |(stressAxis r.radius r.maxPressure r.v1 z).r - (stressAxis r.radius r.maxPressure r.v1 z).z| / 2 < r.maxShear := by
  have hr : r.maxShear = 0.46 * r.maxPressure := by
    unfold Hertz.fillPoint at h
    obtain ⟨_, _, h⟩ := Hertz.bind_eq_value h
    obtain ⟨_, _, h⟩ := Hertz.bind_eq_value h
    obtain ⟨_, _, h⟩ := Hertz.bind_eq_value h
    obtain ⟨_, _, h⟩ := Hertz.bind_eq_value h
    obtain ⟨_, _, h⟩ := Hertz.bind_eq_value h
    obtain ⟨_, _, h⟩ := Hertz.bind_eq_value h
    obtain ⟨_, _, h⟩ := Hertz.bind_eq_value h
    split at h
    · cases h
    · obtain ⟨_, _, h⟩ := Hertz.bind_eq_value h
      obtain ⟨_, _, h⟩ := Hertz.bind_eq_value h
      cases h
      rfl
  rw [abs_of_nonneg (axis_nonneg ha hp.le h1 hz), axis_difference', hr, mul_div_assoc, mul_comm 0.46]
  apply mul_lt_mul_of_pos_left _ hp
  rcases hz.eq_or_lt with rfl | hz
  · norm_num
    linarith
  · have hs : 0 < z / r.radius := by positivity
    obtain ⟨-, g1, g2⟩ := axis_factor hs
    generalize z / r.radius = s at *
    generalize s * arctan s⁻¹ = g at *
    have hv : 1 - g ≤ (1 + r.v1) * (1 - g) := by nlinarith
    have hden : 0 < 1 + s ^ 2 := by positivity
    suffices 3 / 2 / (1 + s ^ 2) + g < 1.92 by
      norm_num at this ⊢
      linarith
    rcases le_total s 1 with h | h
    · have e : 3 / 2 / (1 + s ^ 2) + s * (1.575 - s / (1 + s ^ 2)) < 1.92 := by
        rw [show 3 / 2 / (1 + s ^ 2) + s * (1.575 - s / (1 + s ^ 2)) = (3 / 2 + 1.575 * s * (1 + s ^ 2) - s ^ 2) / (1 + s ^ 2) by field_simp; ring, div_lt_iff₀ hden]
        nlinarith [mul_nonneg hs.le (sq_nonneg (s - 0.45)), sq_nonneg (s - 0.45), mul_nonneg hs.le (sub_nonneg.2 h)]
      linarith
    · have : 3 / 2 / (1 + s ^ 2) ≤ 3 / 4 := by
        rw [div_le_iff₀ hden]
        nlinarith
      norm_num
      linarith

example (z : ℝ) (hz : 0 ≤ z) : ∃ T, Hertz.fillPoint (Hertz.full Hertz.pointExample.r Hertz.pointExample.e1 Hertz.pointExample.e2 Hertz.pointExample.v1 Hertz.pointExample.v2 Hertz.pointExample.load) = .value T ∧
    |(stressAxis T.radius T.maxPressure T.v1 z).r - (stressAxis T.radius T.maxPressure T.v1 z).z| / 2 < T.maxShear := by
  obtain ⟨T, h, hT⟩ := Hertz.fillPoint_contact Hertz.pointExample_contact
  refine ⟨T, h, C158_point_wrong h ?_ ?_ ?_ ?_ hz⟩
  · rw [hT.radius]; exact Hertz.pointExample_contact.radius
  · rw [hT.maxPressure]; exact Hertz.point_pressure_pos Hertz.pointExample_contact
  · rw [hT.v1]; norm_num [Hertz.pointExample]
  · rw [hT.v1]; norm_num [Hertz.pointExample]

/-! ## Line contacts -/

/-- **C158 (negation)**: the greatest shear stress that `hertz_full` reports for a body in a line contact is at most half of the shear stress at the depth reported. -/
theorem C158_line_wrong {minimise : Minimiser} (hm : Bounded minimise) {a p0 v τ d : ℝ} (ha : 0 < a) (hp : 0 < p0) (h0 : 0 ≤ v) (h1 : v ≤ 1 / 2) (h : lineShear minimise a p0 v = some (τ, d)) :
    0 ≤ d ∧ (d = 0 → τ = 0) ∧ (0 < d → 0 < |stripX a p0 d - stripZ a p0 d| / 2 ∧ τ ≤ |stripX a p0 d - stripZ a p0 d| / 2 / 2) := by
  unfold lineShear at h
  obtain ⟨ψ, hψ, e⟩ := Option.map_eq_some_iff.1 h
  obtain ⟨rfl, rfl⟩ := Prod.mk.injEq .. ▸ e
  have hψ0 := (hm _ _ hψ).1
  have hq2 : √(1 + ψ ^ 2) ^ 2 = 1 + ψ ^ 2 := sq_sqrt (by positivity)
  have hq0 : 0 < √(1 + ψ ^ 2) := sqrt_pos.2 (by positivity)
  refine ⟨by positivity, fun hd => ?_, fun hd => ?_⟩
  · have hz : ψ = 0 := by
      rcases mul_eq_zero.1 hd with h | h
      · exact h
      · exact absurd h ha.ne'
    subst hz
    unfold lineObjective
    norm_num
    left
    exact le_antisymm (max_le (max_le (by linarith) le_rfl) (by linarith)) (le_max_of_le_left (le_max_right _ _))
  · have hψ1 : 0 < ψ := by
      rcases hψ0.eq_or_lt with h | h
      · rw [← h] at hd; simp at hd
      · exact h
    have hs := strip_shear (p0 := p0) ha hd
    rw [mul_div_assoc, div_self ha.ne', mul_one] at hs
    have hqψ : ψ < √(1 + ψ ^ 2) := by nlinarith
    have hT : ψ - ψ ^ 2 / √(1 + ψ ^ 2) = ψ * (√(1 + ψ ^ 2) - ψ) / √(1 + ψ ^ 2) := by field_simp
    have hTpos : 0 < ψ - ψ ^ 2 / √(1 + ψ ^ 2) := by
      rw [hT]
      exact div_pos (mul_pos hψ1 (sub_pos.2 hqψ)) hq0
    have habs : |stripX a p0 (ψ * a) - stripZ a p0 (ψ * a)| / 2 = p0 * (ψ - ψ ^ 2 / √(1 + ψ ^ 2)) := by
      rw [← hs, ← abs_of_pos (a := (stripX a p0 (ψ * a) - stripZ a p0 (ψ * a)) / 2) (by rw [hs]; exact mul_pos hp hTpos), abs_div, abs_of_pos (zero_lt_two' ℝ)]
    rw [habs]
    refine ⟨mul_pos hp hTpos, ?_⟩
    have key : -lineObjective v ψ ≤ (ψ - ψ ^ 2 / √(1 + ψ ^ 2)) / 2 := by
      unfold lineObjective
      rw [neg_mul, one_mul, neg_neg]
      refine max_le (max_le ?_ ?_) ?_
      · have : (1 / 2 - v) * (√(1 + ψ ^ 2) - ψ) = (ψ - ψ ^ 2 / √(1 + ψ ^ 2)) / 2 - (ψ - ψ * v + (-1 + 2 * ψ ^ 2 * (v - 1) + 2 * v) / (2 * √(1 + ψ ^ 2))) := by
          field_simp
          ring_nf
          nlinarith
        nlinarith [mul_nonneg (sub_nonneg.2 h1) (sub_nonneg.2 hqψ.le)]
      · have : ψ * (ψ / √(1 + ψ ^ 2) - 1) = -(ψ - ψ ^ 2 / √(1 + ψ ^ 2)) := by ring
        rw [this]
        linarith
      · suffices v * (√(1 + ψ ^ 1) - ψ) ≤ 1 / (2 * √(1 + ψ ^ 2)) by linarith
        have hr : √(1 + ψ ^ 1) ≤ 1 + ψ / 2 := by
          rw [sqrt_le_left (by positivity)]
          nlinarith
        have hmain : √(1 + ψ ^ 2) * (1 - ψ / 2) ≤ 1 := by
          rcases le_total 2 ψ with h | h
          · nlinarith
          · apply le_of_sq_le_sq _ zero_le_one
            rw [mul_pow, hq2]
            nlinarith [mul_nonneg hψ0 (sub_nonneg.2 h), mul_nonneg hψ0 (sq_nonneg (ψ - 1))]
        have hhalf : (1 - ψ / 2) / 2 ≤ 1 / (2 * √(1 + ψ ^ 2)) := by
          rw [div_le_div_iff₀ (by norm_num) (by positivity)]
          linarith
        rcases le_total (√(1 + ψ ^ 1) - ψ) 0 with h | h
        · have : 0 ≤ 1 / (2 * √(1 + ψ ^ 2)) := by positivity
          nlinarith
        · nlinarith
    nlinarith

/-- With a minimiser that finds the depth 0.786 of the half width. -/
example := C158_line_wrong (minimise := fun _ => some 0.786) (fun _ _ h => by cases h; norm_num) (a := 0.001) (p0 := 1e9) (v := 0.3) (by norm_num) (by norm_num) (by norm_num) (by norm_num) rfl

/-- The shear stress below a strip is less than 0.3003 of the greatest pressure. -/
theorem strip_bound {s : ℝ} (hs : 0 < s) : 0 < s - s ^ 2 / √(1 + s ^ 2) ∧ s - s ^ 2 / √(1 + s ^ 2) < 0.3003 := by
  have hq2 : √(1 + s ^ 2) ^ 2 = 1 + s ^ 2 := sq_sqrt (by positivity)
  have hq0 : 0 < √(1 + s ^ 2) := sqrt_pos.2 (by positivity)
  have hk : 0.7862 * (1 + 0.786 * s) ≤ √(1 + s ^ 2) := by
    apply le_sqrt_of_sq_le
    nlinarith [sq_nonneg (s - 0.786)]
  generalize √(1 + s ^ 2) = q at *
  have hqs : s < q := by nlinarith
  have e : s - s ^ 2 / q = s / (q * (q + s)) := by
    field_simp
    nlinarith
  rw [e]
  refine ⟨by positivity, ?_⟩
  rw [div_lt_iff₀ (by positivity)]
  have h1 := mul_le_mul_of_nonneg_right hk hs.le
  nlinarith [sq_nonneg (s - 0.7861)]

/-- **C158 (partial)**: the greatest shear stress that `solve_hertz_line` reports is that on the axis of the contact to one part in a thousand: it is reached somewhere and nowhere exceeded by more than that. Missing: the depth is not reported; for `hertz_full` see `C158_line_wrong`. -/
theorem C158_line_solution_partial {s : Hertz.System} {r : Hertz.LineSolution} (h : Hertz.fillLine s = .value r) (ha : 0 < r.width) (hp : 0 < r.maxPressure) :
    (∃ z, 0 < z ∧ z < r.width ∧ r.maxShear ≤ |stripX r.width r.maxPressure z - stripZ r.width r.maxPressure z| / 2) ∧
      ∀ z, 0 < z → |stripX r.width r.maxPressure z - stripZ r.width r.maxPressure z| / 2 < 1.001 * r.maxShear := by
  have hr : r.maxShear = r.maxPressure * 0.3 := by
    unfold Hertz.fillLine at h
    obtain ⟨_, _, h⟩ := Hertz.bind_eq_value h
    obtain ⟨_, _, h⟩ := Hertz.bind_eq_value h
    obtain ⟨_, _, h⟩ := Hertz.bind_eq_value h
    obtain ⟨_, _, h⟩ := Hertz.bind_eq_value h
    obtain ⟨_, _, h⟩ := Hertz.bind_eq_value h
    obtain ⟨_, _, h⟩ := Hertz.bind_eq_value h
    obtain ⟨_, _, h⟩ := Hertz.bind_eq_value h
    split at h
    · cases h
    · obtain ⟨_, _, h⟩ := Hertz.bind_eq_value h
      obtain ⟨_, _, h⟩ := Hertz.bind_eq_value h
      cases h
      rfl
  have habs : ∀ z, 0 < z → |stripX r.width r.maxPressure z - stripZ r.width r.maxPressure z| / 2 = r.maxPressure * (z / r.width - (z / r.width) ^ 2 / √(1 + (z / r.width) ^ 2)) := by
    intro z hz
    have hs := strip_shear (p0 := r.maxPressure) ha hz
    have hpos := mul_pos hp (strip_bound (s := z / r.width) (by positivity)).1
    rw [← hs] at hpos ⊢
    rw [abs_of_pos (by linarith)]
  rw [hr]
  refine ⟨⟨0.786 * r.width, by positivity, by linarith, ?_⟩, fun z hz => ?_⟩
  · rw [habs _ (by positivity), mul_div_assoc, div_self ha.ne', mul_one]
    apply mul_le_mul_of_nonneg_left _ hp.le
    have h1 : (1.2719 : ℝ) ≤ √(1 + 0.786 ^ 2) := le_sqrt_of_sq_le (by norm_num)
    have h2 : (0.786 : ℝ) ^ 2 / √(1 + 0.786 ^ 2) ≤ 0.786 ^ 2 / 1.2719 := by gcongr
    norm_num at h1 h2 ⊢
    linarith
  · rw [habs z hz]
    have := mul_lt_mul_of_pos_left (strip_bound (s := z / r.width) (by positivity)).2 hp
    norm_num at this ⊢
    linarith

example : (∃ z, 0 < z ∧ z < Hertz.lineExample.width ∧
      Hertz.lineExample.maxShear ≤ |stripX Hertz.lineExample.width Hertz.lineExample.maxPressure z - stripZ Hertz.lineExample.width Hertz.lineExample.maxPressure z| / 2) :=
  (C158_line_solution_partial (Hertz.fillLine_contact Hertz.lineExample_contact) (by norm_num [Hertz.lineExample]) (by norm_num [Hertz.lineExample])).1

end Verif.HertzFull
