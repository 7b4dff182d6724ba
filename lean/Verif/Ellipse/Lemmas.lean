import Mathlib.Analysis.SpecialFunctions.Pow.Real
import Verif.Ellipse.Integrals
import Verif.Ellipse.Spec
import Verif.HertzFull.Pressure

/-! # The contact ellipse from the root -/

namespace Verif.Ellipse

open Real HertzFull

theorem specK_eq (e : ℝ) : Spec.K e = ellipk (e ^ 2) := by
  unfold Spec.K ellipk
  simp only [one_div]

theorem specE_eq (e : ℝ) : Spec.E e = ellipe (e ^ 2) := rfl

/-- The coefficients of an ellipse with `b = k a`. -/
theorem ecc_sq {a k : ℝ} (ha : 0 < a) (hk : 0 < k) (hk1 : k ≤ 1) : Spec.ecc a (k * a) ^ 2 = 1 - k ^ 2 := by
  unfold Spec.ecc
  have : (k * a) ^ 2 / a ^ 2 = k ^ 2 := by field_simp
  rw [this, sq_sqrt]
  nlinarith

theorem specL_eq {a k p0 : ℝ} (ha : 0 < a) (hk : 0 < k) (hk1 : k ≤ 1) : Spec.L a (k * a) p0 = π * p0 * (k * a) * intH k := by
  unfold Spec.L
  rw [specK_eq, ecc_sq ha hk hk1, intH_eq]

theorem specM_eq {a k p0 : ℝ} (ha : 0 < a) (hk : 0 < k) (hk1 : k < 1) : Spec.M a (k * a) p0 = π * p0 * (k * a) / a ^ 2 * intI k := by
  have hm : 1 - k ^ 2 ≠ 0 := by nlinarith
  unfold Spec.M
  rw [specK_eq, specE_eq, ecc_sq ha hk hk1.le, ← int_sin (lt_of_pos hk), intI_eq hk]
  field_simp

theorem specN_eq {a k p0 : ℝ} (ha : 0 < a) (hk : 0 < k) (hk1 : k < 1) :
    Spec.N a (k * a) p0 = π * p0 * (k * a) / a ^ 2 * (intJ k / k ^ 3) := by
  have hm : 1 - k ^ 2 ≠ 0 := by nlinarith
  unfold Spec.N
  have h1 := int_one_cube (lt_of_pos hk)
  have h2 := int_sin_cube (lt_of_pos hk)
  have h3 : a ^ 2 / (k * a) ^ 2 * ellipe (1 - k ^ 2) = ∫ t in (0 : ℝ)..(π / 2), 1 / dl (1 - k ^ 2) t ^ 3 := by
    rw [← h1]
    field_simp
    ring
  rw [specK_eq, specE_eq, ecc_sq ha hk hk1.le, h3, ← h2, intJ_eq hk]
  field_simp

theorem cos_half_sq {c : ℝ} (h0 : 0 < c) (h1 : c < 1) : cos (arccos c / 2) ^ 2 = (1 + c) / 2 := by
  rw [cos_sq, show 2 * (arccos c / 2) = arccos c by ring, cos_arccos (by linarith) h1.le]
  ring

theorem sin_half_sq {c : ℝ} (h0 : 0 < c) (h1 : c < 1) : sin (arccos c / 2) ^ 2 = (1 - c) / 2 := by
  rw [sin_sq, cos_half_sq h0 h1]
  ring

/-- The equation for the ratio of the semi axes. -/
theorem root_eq {c k : ℝ} (h0 : 0 < c) (h1 : c < 1) (hk : 0 < k) (h : kRoot (arccos c) k = 0) :
    intJ k * (1 - c) = k ^ 3 * intI k * (1 + c) := by
  have hs := sin_half_sq h0 h1
  have hc := cos_half_sq h0 h1
  unfold kRoot at h
  have hI := (intI_pos hk).ne'
  rw [tan_eq_sin_div_cos, div_pow, hs, hc, sub_eq_zero] at h
  have n1 : (1 - c) ≠ 0 := by linarith
  have n2 : (1 + c) ≠ 0 := by linarith
  field_simp at h
  linarith

theorem cube_root {x : ℝ} (hx : 0 ≤ x) : (x ^ ((1 : ℝ) / 3)) ^ 3 = x := by
  rw [← rpow_natCast, ← rpow_mul hx]
  norm_num

theorem cube_inj {x y : ℝ} (hx : 0 ≤ x) (hy : 0 ≤ y) (h : x ^ 3 = y ^ 3) : x = y := (pow_left_inj₀ hx hy (by norm_num)).mp h

/-- The factors found from an exact root. -/
theorem finder_spec {root : RootFinder} {c f g h : ℝ} (hroot : ∀ F l u k, root F l u = some k → F k = 0 ∧ l ≤ k ∧ k ≤ u)
    (h0 : 0 < c) (h1 : c < 1) (hf : finder root c = some (f, g, h)) :
    ∃ k, 0 < k ∧ k < 1 ∧ 0 < f ∧ g = k * f ∧ h = intH k ∧ f ^ 3 = 4 * intI k / (π * (1 - c)) ∧
      intJ k * (1 - c) = k ^ 3 * intI k * (1 + c) := by
  unfold finder at hf
  rw [if_neg (not_lt.mpr h1.le)] at hf
  dsimp only at hf
  split at hf
  · cases hf
  · rename_i k hk
    cases hf
    obtain ⟨hz, hl, hu⟩ := hroot _ _ _ _ hk
    have k0 : 0 < k := by linarith
    have hJ := intJ_pos k0
    have hI := intI_pos k0
    have he := root_eq h0 h1 k0 hz
    have hs := sin_half_sq h0 h1
    have hc := cos_half_sq h0 h1
    have hc1 : 0 < 1 - c := by linarith
    have hc2 : 0 < 1 + c := by linarith
    have hpi := pi_pos
    refine ⟨k, k0, ?_, ?_, ?_, rfl, ?_, he⟩
    · refine lt_of_le_of_ne hu ?_
      rintro rfl
      rw [intI_eq one_pos, intJ_eq one_pos] at he
      have h3 : ∫ t in (0 : ℝ)..(π / 2), sin t ^ 2 / dl (1 - 1 ^ 2) t ^ 3 = ∫ t in (0 : ℝ)..(π / 2), sin t ^ 2 / dl (1 - 1 ^ 2) t ^ 1 := by
        simp [dl]
      rw [h3] at he
      have := sin_cube_pos (m := 1 - 1 ^ 2) (by norm_num) 1
      nlinarith
    · rw [hs]
      positivity
    · rw [hs, hc]
      refine cube_inj (by positivity) (by positivity) ?_
      rw [mul_pow, cube_root (by positivity), cube_root (by positivity)]
      field_simp
      linarith
    · rw [hs, cube_root (by positivity)]
      field_simp
      norm_num

/-- The elliptical branch with an exact root: the semi axes, the largest pressure and the deflections. -/
theorem ellipse_numbers {root : RootFinder} {p : Args} {f g h : ℝ} (hm : Ordinary p) (hload : 0 < p.load)
    (hsum : 0 < p.r1x.curv + p.r1y.curv + p.r2x.curv + p.r2y.curv)
    (hroot : ∀ F l u k, root F l u = some k → F k = 0 ∧ l ≤ k ∧ k ≤ u) (h0 : 0 < p.cosOmega) (h1 : p.cosOmega < 1)
    (hf : finder root p.cosOmega = some (f, g, h)) :
    ∃ k a, 0 < k ∧ k < 1 ∧ 0 < a ∧ f * ellScale p = a ∧ g * ellScale p = k * a ∧ h = intH k ∧
      a ^ 3 * ((1 - p.cosOmega) * (p.r1x.curv + p.r1y.curv + p.r2x.curv + p.r2y.curv)) =
        6 * p.load / π * intI k * ((1 - p.v1 ^ 2) / p.e1 + (1 - p.v2 ^ 2) / p.e2) ∧
      intJ k * (1 - p.cosOmega) = k ^ 3 * intI k * (1 + p.cosOmega) := by
  obtain ⟨k, hk, hk1, hf0, hg, hh, hf3, he⟩ := finder_spec hroot h0 h1 hf
  have hS := ellScale_pos hm hload hsum
  refine ⟨k, f * ellScale p, hk, hk1, mul_pos hf0 hS, rfl, by rw [hg]; ring, hh, ?_, he⟩
  have t1 : 0 < (1 - p.v1 ^ 2) / p.e1 := div_pos (by linarith [hm.v1]) hm.e1
  have t2 : 0 < (1 - p.v2 ^ 2) / p.e2 := div_pos (by linarith [hm.v2]) hm.e2
  have e1 : 4 * (1 - p.v1 ^ 2) / p.e1 = 4 * ((1 - p.v1 ^ 2) / p.e1) := by ring
  have e2 : 4 * (1 - p.v2 ^ 2) / p.e2 = 4 * ((1 - p.v2 ^ 2) / p.e2) := by ring
  have hS3 : ellScale p ^ 3 = 3 * p.load / 8 / (p.r1x.curv + p.r1y.curv + p.r2x.curv + p.r2y.curv) *
      (4 * ((1 - p.v1 ^ 2) / p.e1) + 4 * ((1 - p.v2 ^ 2) / p.e2)) := by
    unfold ellScale
    rw [e1, e2, cube_root (by positivity)]
  rw [mul_pow, hf3, hS3]
  generalize (1 - p.v1 ^ 2) / p.e1 = A at *
  generalize (1 - p.v2 ^ 2) / p.e2 = B at *
  have hc : 1 - p.cosOmega ≠ 0 := by linarith
  have hpi := pi_ne_zero
  field_simp
  ring

end Verif.Ellipse
