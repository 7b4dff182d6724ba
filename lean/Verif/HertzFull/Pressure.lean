import Mathlib.Analysis.SpecialFunctions.Integrals.Basic
import Mathlib.MeasureTheory.Measure.Haar.NormedSpace
import Verif.HertzFull.Solution

/-!
# C35 and C36: pressure distributions and mean pressures
-/

namespace Verif.HertzFull

open Real MeasureTheory

/-! ## Integrals -/

theorem integral_disc_unit : ∫ u : ℝ, sqrt (1 - u ^ 2) = π / 2 := by
  rw [← integral_sqrt_one_sub_sq, intervalIntegral.integral_eq_integral_of_support_subset]
  intro u hu
  have h1 : 0 < 1 - u ^ 2 := by
    by_contra hc
    exact hu (sqrt_eq_zero_of_nonpos (not_lt.mp hc))
  constructor <;> nlinarith

/-- A slice through a half ellipsoid. -/
theorem integral_slice {b : ℝ} (hb : 0 < b) (c : ℝ) : ∫ y : ℝ, sqrt (c - (y / b) ^ 2) = π * b / 2 * max c 0 := by
  rcases le_or_gt c 0 with hc | hc
  · have : (fun y : ℝ => sqrt (c - (y / b) ^ 2)) = fun _ => 0 := by
      funext y
      exact sqrt_eq_zero_of_nonpos (by nlinarith [sq_nonneg (y / b)])
    rw [this, max_eq_right hc]
    simp
  · have hs : 0 < sqrt c := sqrt_pos.mpr hc
    have hsq : sqrt c ^ 2 = c := sq_sqrt hc.le
    have hm : (b * sqrt c)⁻¹ ≠ 0 := by positivity
    have e : (fun y : ℝ => sqrt (c - (y / b) ^ 2)) = fun y => sqrt c * (fun u => sqrt (1 - u ^ 2)) ((b * sqrt c)⁻¹ * y) := by
      funext y
      show _ = sqrt c * sqrt (1 - ((b * sqrt c)⁻¹ * y) ^ 2)
      rw [← sqrt_mul hc.le]
      congr 1
      rw [mul_pow, inv_pow, mul_pow, hsq]
      field_simp
    rw [e, integral_const_mul, Measure.integral_comp_mul_left (fun u => sqrt (1 - u ^ 2)) (b * sqrt c)⁻¹, integral_disc_unit, inv_inv, abs_of_pos (by positivity), max_eq_left hc.le, smul_eq_mul]
    linear_combination b * π / 2 * hsq

theorem integral_parabola {a : ℝ} (ha : 0 < a) : ∫ x : ℝ, max (1 - (x / a) ^ 2) 0 = 4 * a / 3 := by
  rw [← intervalIntegral.integral_eq_integral_of_support_subset (a := -a) (b := a)]
  · have : Set.EqOn (fun x : ℝ => max (1 - (x / a) ^ 2) 0) (fun x => 1 - x ^ 2 * (1 / a ^ 2)) (Set.uIcc (-a) a) := by
      intro x hx
      rw [Set.uIcc_of_le (by linarith)] at hx
      show max (1 - (x / a) ^ 2) 0 = _
      rw [max_eq_left]
      · field_simp
      · have : (x / a) ^ 2 ≤ 1 := by
          rw [div_pow, div_le_one (by positivity)]
          nlinarith [hx.1, hx.2]
        linarith
    rw [intervalIntegral.integral_congr this, intervalIntegral.integral_sub (by simp) (by apply Continuous.intervalIntegrable; fun_prop),
      intervalIntegral.integral_mul_const, integral_pow]
    simp
    field_simp
    ring
  · intro x hx
    have h1 : 0 < 1 - (x / a) ^ 2 := by
      by_contra hc
      exact hx (max_eq_right (not_lt.mp hc))
    rw [div_pow, sub_pos, div_lt_one (by positivity)] at h1
    have := abs_lt_of_sq_lt_sq h1 ha.le
    exact ⟨(abs_lt.mp this).1, (abs_lt.mp this).2.le⟩

theorem half_pow (x : ℝ) (h : 0 ≤ x) : x ^ (0.5 : ℝ) = sqrt x := by
  rw [sqrt_eq_rpow]
  norm_num

/-- The volume of a half ellipsoid. -/
theorem integral_ellipsoid {a b : ℝ} (ha : 0 < a) (hb : 0 < b) :
    ∫ x : ℝ, ∫ y : ℝ, sqrt (1 - (x / a) ^ 2 - (y / b) ^ 2) = 2 * π * a * b / 3 := by
  simp only [integral_slice hb]
  rw [integral_const_mul, integral_parabola ha]
  ring

/-! ## The specification -/

namespace Spec

/-- A pressure distribution with the given contact area and maximum. -/
structure ContactPressure (inside : ℝ → ℝ → Prop) (top : ℝ) (pressure : ℝ → ℝ → ℝ) : Prop where
  outside_zero : ∀ x y, ¬ inside x y → pressure x y = 0
  inside_pos : ∀ x y, inside x y → 0 < pressure x y
  bounded : ∀ x y, pressure x y ≤ top
  centre : pressure 0 0 = top

/-- Inside a strip of half width `a`. -/
def Strip (a : ℝ) (x _y : ℝ) : Prop := |x| < a

/-- Inside an ellipse. -/
def Ellipse (a b : ℝ) (x y : ℝ) : Prop := (x / a) ^ 2 + (y / b) ^ 2 < 1

end Spec

open Spec

/-- The materials are ordinary: positive moduli, Poisson's ratios between -1 and 1. -/
structure Ordinary (p : Args) : Prop where
  e1 : 0 < p.e1
  e2 : 0 < p.e2
  v1 : p.v1 ^ 2 < 1
  v2 : p.v2 ^ 2 < 1

theorem eStar_pos {p : Args} (h : Ordinary p) : 0 < p.eStar := by
  unfold Args.eStar
  have h1 : 0 < (1 - p.v1 ^ 2) / p.e1 := div_pos (by linarith [h.v1]) h.e1
  have h2 : 0 < (1 - p.v2 ^ 2) / p.e2 := div_pos (by linarith [h.v2]) h.e2
  positivity

/-- The common factor of the semi axes of an elliptical contact. -/
noncomputable def ellScale (p : Args) : ℝ := (3 * p.load / 8 / (p.r1x.curv + p.r1y.curv + p.r2x.curv + p.r2y.curv) *
  (4 * (1 - p.v1 ^ 2) / p.e1 + 4 * (1 - p.v2 ^ 2) / p.e2)) ^ ((1 : ℝ) / 3)

theorem ellScale_pos {p : Args} (hm : Ordinary p) (hload : 0 < p.load) (hs : 0 < p.r1x.curv + p.r1y.curv + p.r2x.curv + p.r2y.curv) :
    0 < ellScale p := by
  have t1 : 0 < 4 * (1 - p.v1 ^ 2) / p.e1 := div_pos (by linarith [hm.v1]) hm.e1
  have t2 : 0 < 4 * (1 - p.v2 ^ 2) / p.e2 := div_pos (by linarith [hm.v2]) hm.e2
  exact rpow_pos_of_pos (by positivity) _

/-! ## What a result looks like -/

inductive Solved (ell : EllipseFinder) (p : Args) : Result → Prop where
  | line (r : ℝ) (hr : 0 < r) (r1Rel r2Rel : XR) (h : r1Rel = .fin r ∨ r2Rel = .fin r) : Solved ell p (lineResult p r r1Rel r2Rel)
  | sphere (r : ℝ) (hr : 0 < r) (r1Rel r2Rel : XR) (h : r1Rel = .fin r) : Solved ell p (sphereResult p r r1Rel r2Rel)
  | ellipse (f g h : ℝ) (hell : ell p.cosOmega = some (f, g, h)) (hs : 0 < p.r1x.curv + p.r1y.curv + p.r2x.curv + p.r2y.curv)
      (r1Rel r2Rel : XR) : Solved ell p (ellipseResult p f g h r1Rel r2Rel)

theorem recip_nonneg {k : ℝ} (h : ¬ XR.lt (recip k) (.fin 0) = true) : 0 ≤ k := by
  by_contra hc
  push Not at hc
  apply h
  rw [recip_neg hc, XR.lt_fin]
  exact one_div_neg.mpr hc

theorem recip_eq_pinf {k : ℝ} (h : k = 0) : recip k = .pinf := by rw [h, recip_zero]

theorem solved_of_ok {ell : EllipseFinder} {p : Args} {r : Result} (h : hertzFull ell p = .ok r) : 0 < p.load ∧ Solved ell p r := by
  unfold hertzFull at h
  simp only at h
  split at h
  · cases h
  split at h
  · cases h
  rename_i hload
  refine ⟨not_le.mp hload, ?_⟩
  split at h
  · cases h
  split at h
  · cases h
  rename_i hneg
  push Not at hneg
  have n1 := recip_nonneg hneg.1
  have n2 := recip_nonneg hneg.2
  split at h
  · cases h
  rename_i hinf
  have hpos : 0 < p.k1 ∨ 0 < p.k2 := by
    by_contra hc
    push Not at hc
    exact hinf ⟨recip_eq_pinf (le_antisymm hc.1 n1), recip_eq_pinf (le_antisymm hc.2 n2)⟩
  split at h
  · split at h
    · cases h
    · cases h
      have hm : 0 < max p.k1 p.k2 := by
        rcases hpos with h1 | h1
        · exact lt_max_of_lt_left h1
        · exact lt_max_of_lt_right h1
      refine Solved.line _ (by positivity) _ _ ?_
      rcases le_total p.k1 p.k2 with hle | hle
      · right
        rw [max_eq_right hle] at hm ⊢
        exact recip_pos hm
      · left
        rw [max_eq_left hle] at hm ⊢
        exact recip_pos hm
  split at h
  · rename_i heq
    split at h
    · cases h
    · cases h
      have : 0 < p.k1 := by
        rcases n1.lt_or_eq with h1 | h1
        · exact h1
        · exact absurd ⟨recip_eq_pinf h1.symm, by rw [← heq]; exact recip_eq_pinf h1.symm⟩ hinf
      exact Solved.sphere _ (by positivity) _ _ (recip_pos this)
  split at h
  · cases h
  split at h
  · cases h
  · rename_i f g hh hell
    cases h
    refine Solved.ellipse f g hh hell ?_ _ _
    rw [← sum_k]
    rcases hpos with h1 | h1 <;> linarith

/-! ## The closures -/

theorem pressureLine_eq {a load : ℝ} (ha : 0 < a) (x : ℝ) : pressureLine a load false x = 2 * load / π / a * sqrt (1 - (x / a) ^ 2) := by
  unfold pressureLine
  have hc : ∀ y : ℝ, |y| ≤ a → 0 ≤ a ^ 2 - y ^ 2 := by
    intro y hy
    have := abs_le.mp hy
    nlinarith
  have hs : ∀ y : ℝ, sqrt (a ^ 2 - y ^ 2) = a * sqrt (1 - (y / a) ^ 2) := by
    intro y
    rw [← sqrt_sq ha.le, ← sqrt_mul (by positivity), sqrt_sq ha.le]
    congr 1
    field_simp
  simp only [Bool.false_eq_true, if_false]
  have hclip : |max (-1 * a) (min x a)| ≤ a := by
    rw [abs_le]
    refine ⟨by have := le_max_left (-1 * a) (min x a); linarith, max_le (by linarith) (min_le_right _ _)⟩
  rw [half_pow _ (hc _ hclip)]
  by_cases hx : |x| ≤ a
  · have h1 := abs_le.mp hx
    rw [min_eq_left h1.2, max_eq_right (by linarith), hs]
    field_simp
  · have hz : sqrt (1 - (x / a) ^ 2) = 0 := by
      apply sqrt_eq_zero_of_nonpos
      push Not at hx
      rw [div_pow, sub_nonpos, one_le_div (by positivity), ← sq_abs x]
      nlinarith
    have he : (max (-1 * a) (min x a)) ^ 2 = a ^ 2 := by
      push Not at hx
      rcases lt_abs.mp hx with h1 | h1
      · rw [min_eq_right h1.le, max_eq_right (by linarith)]
      · rw [min_eq_left (by linarith), max_eq_left (by linarith)]
        ring
    rw [hz, he, sub_self, sqrt_zero, mul_zero, mul_zero]

theorem pressureEllipse_eq (a b p0 al be x y : ℝ) : pressureEllipse a b p0 al be x y 0 = p0 * sqrt (1 - (x / a) ^ 2 - (y / b) ^ 2) := by
  unfold pressureEllipse
  simp only [if_true]
  rw [half_pow _ (le_max_right _ _)]
  rcases le_total (1 - (x / a) ^ 2 - (y / b) ^ 2) 0 with h | h
  · rw [max_eq_right h, sqrt_zero, sqrt_eq_zero_of_nonpos h]
  · rw [max_eq_left h]

theorem pressureSphere_eq (a p0 x y : ℝ) : pressureSphere a p0 x y = p0 * sqrt (1 - (x / a) ^ 2 - (y / a) ^ 2) := by
  unfold pressureSphere
  simp only
  have e : 1 - (sqrt (x ^ 2 + y ^ 2) / a) ^ 2 = 1 - (x / a) ^ 2 - (y / a) ^ 2 := by
    rw [div_pow, sq_sqrt (by positivity), div_pow, div_pow, add_div]
    ring
  rw [half_pow _ (le_max_right _ _), e]
  rcases le_total (1 - (x / a) ^ 2 - (y / a) ^ 2) 0 with h | h
  · rw [max_eq_right h, sqrt_zero, sqrt_eq_zero_of_nonpos h]
  · rw [max_eq_left h]

theorem ellipse_pressure {a b p0 : ℝ} (hp : 0 < p0) {q : ℝ → ℝ → ℝ} (hq : ∀ x y, q x y = p0 * sqrt (1 - (x / a) ^ 2 - (y / b) ^ 2)) :
    ContactPressure (Ellipse a b) p0 q where
  outside_zero x y h := by
    unfold Ellipse at h
    rw [hq, sqrt_eq_zero_of_nonpos (by linarith), mul_zero]
  inside_pos x y h := by
    unfold Ellipse at h
    rw [hq]
    exact mul_pos hp (sqrt_pos.mpr (by linarith))
  bounded x y := by
    rw [hq]
    have : sqrt (1 - (x / a) ^ 2 - (y / b) ^ 2) ≤ 1 := by
      apply Real.sqrt_le_one.mpr
      nlinarith [sq_nonneg (x / a), sq_nonneg (y / b)]
    nlinarith
  centre := by rw [hq]; simp

theorem strip_pressure {a p0 : ℝ} (ha : 0 < a) (hp : 0 < p0) {q : ℝ → ℝ → ℝ} (hq : ∀ x y, q x y = p0 * sqrt (1 - (x / a) ^ 2)) :
    ContactPressure (Strip a) p0 q where
  outside_zero x y h := by
    unfold Strip at h
    push Not at h
    rw [hq, sqrt_eq_zero_of_nonpos, mul_zero]
    rw [div_pow, sub_nonpos, one_le_div (by positivity), ← sq_abs x]
    nlinarith
  inside_pos x y h := by
    unfold Strip at h
    rw [hq]
    refine mul_pos hp (sqrt_pos.mpr ?_)
    rw [div_pow, sub_pos, div_lt_one (by positivity), ← sq_abs x]
    nlinarith [abs_nonneg x]
  bounded x y := by
    rw [hq]
    have : sqrt (1 - (x / a) ^ 2) ≤ 1 := by
      apply Real.sqrt_le_one.mpr
      nlinarith [sq_nonneg (x / a)]
    nlinarith
  centre := by rw [hq]; simp

/-- **C35**, line contacts: the pressure vanishes outside of the contact, has the reported maximum at the centre and carries the load per unit
length. -/
theorem C35_line {ell : EllipseFinder} {p : Args} {r : Result} (hm : Ordinary p) (h : hertzFull ell p = .ok r) (hl : r.shape = .line) :
    ∃ a, 0 < a ∧ (r.radiusA = .fin a ∨ r.radiusB = .fin a) ∧ ContactPressure (Strip a) r.maxPressure r.pressure ∧
      ∀ y, ∫ x, r.pressure x y = p.load := by
  obtain ⟨hload, hs⟩ := solved_of_ok h
  have hE := eStar_pos hm
  have hpi := pi_pos
  cases hs with
  | sphere => cases hl
  | ellipse => cases hl
  | line R hR r1Rel r2Rel hfin =>
    have ha : 0 < sqrt (4 * p.load * R / π / p.eStar) := sqrt_pos.mpr (by positivity)
    have hq : ∀ x y, (lineResult p R r1Rel r2Rel).pressure x y = (lineResult p R r1Rel r2Rel).maxPressure * sqrt (1 - (x / sqrt (4 * p.load * R / π / p.eStar)) ^ 2) :=
      fun x y => pressureLine_eq ha x
    refine ⟨sqrt (4 * p.load * R / π / p.eStar), ha, ?_, strip_pressure ha ?_ hq, ?_⟩
    · rcases hfin with hf | hf
      · left
        simp only [lineResult, hf]
      · right
        simp only [lineResult, hf]
    · show 0 < 2 * p.load / π / sqrt (4 * p.load * R / π / p.eStar)
      positivity
    · intro y
      simp only [hq]
      rw [integral_const_mul, integral_slice ha]
      show 2 * p.load / π / sqrt (4 * p.load * R / π / p.eStar) * _ = _
      rw [max_eq_left zero_le_one]
      field_simp

/-- **C35**, point contacts: the same with the load on the whole plane. -/
theorem C35_sphere {ell : EllipseFinder} {p : Args} {r : Result} (hm : Ordinary p) (h : hertzFull ell p = .ok r) (hl : r.shape = .sphere) :
    ∃ a, 0 < a ∧ r.radiusA = .fin a ∧ r.radiusB = .fin a ∧ ContactPressure (Ellipse a a) r.maxPressure r.pressure ∧
      ∫ x, ∫ y, r.pressure x y = p.load := by
  obtain ⟨hload, hs⟩ := solved_of_ok h
  have hE := eStar_pos hm
  have hpi := pi_pos
  cases hs with
  | line => cases hl
  | ellipse => cases hl
  | sphere R hR r1Rel r2Rel hrel =>
    have ha : 0 < (3 * p.load * R / 4 / p.eStar) ^ ((1 : ℝ) / 3) := rpow_pos_of_pos (by positivity) _
    refine ⟨_, ha, rfl, rfl, ellipse_pressure ?_ (fun x y => pressureSphere_eq _ _ x y), ?_⟩
    · show 0 < 3 * p.load / (2 * π * ((3 * p.load * R / 4 / p.eStar) ^ ((1 : ℝ) / 3)) ^ 2)
      positivity
    · have : ∀ x y, (sphereResult p R r1Rel r2Rel).pressure x y = _ := fun x y => pressureSphere_eq _ _ x y
      simp only [this, integral_const_mul]
      rw [integral_ellipsoid ha ha]
      field_simp

/-- **C35**, elliptical contacts, for a root finder that returns positive factors. -/
theorem C35_ellipse {ell : EllipseFinder} {p : Args} {r : Result} (hm : Ordinary p)
    (hell : ∀ c f g k, ell c = some (f, g, k) → 0 < f ∧ 0 < g) (h : hertzFull ell p = .ok r) (hl : r.shape = .ellipse) :
    ∃ a b, 0 < a ∧ 0 < b ∧ r.radiusA = .fin a ∧ r.radiusB = .fin b ∧ ContactPressure (Ellipse a b) r.maxPressure r.pressure ∧
      ∫ x, ∫ y, r.pressure x y = p.load := by
  obtain ⟨hload, hs⟩ := solved_of_ok h
  have hpi := pi_pos
  cases hs with
  | line => cases hl
  | sphere => cases hl
  | ellipse f g k hfound hsum r1Rel r2Rel =>
    obtain ⟨hf, hg⟩ := hell _ _ _ _ hfound
    have hc := ellScale_pos hm hload hsum
    have ha := mul_pos hf hc
    have hb := mul_pos hg hc
    have hq : ∀ x y, (ellipseResult p f g k r1Rel r2Rel).pressure x y = (ellipseResult p f g k r1Rel r2Rel).maxPressure * sqrt (1 - (x / (f * ellScale p)) ^ 2 - (y / (g * ellScale p)) ^ 2) := by
      intro x y
      simp only [ellipseResult]
      split <;> exact pressureEllipse_eq _ _ _ _ _ x y
    have hmax : (ellipseResult p f g k r1Rel r2Rel).maxPressure = 3 * p.load / 2 / (f * ellScale p * (g * ellScale p) * π) := rfl
    refine ⟨_, _, ha, hb, rfl, rfl, ellipse_pressure ?_ hq, ?_⟩
    · rw [hmax]
      positivity
    · simp only [hq, integral_const_mul]
      rw [integral_ellipsoid ha hb, hmax]
      field_simp

/-! ## C36: mean pressures -/

/-- **C36**, spheres: the mean pressure is the load over the area. -/
theorem C36_sphere_partial {ell : EllipseFinder} {p : Args} {r : Result} (h : hertzFull ell p = .ok r) (hl : r.shape = .sphere) :
    ∃ a, r.radiusA = .fin a ∧ r.radiusB = .fin a ∧ r.area = .fin (π * a ^ 2) ∧ r.meanPressure = p.load / (π * a ^ 2) := by
  obtain ⟨_, hs⟩ := solved_of_ok h
  cases hs with
  | line => cases hl
  | ellipse => cases hl
  | sphere R hR r1Rel r2Rel hrel => exact ⟨_, rfl, rfl, rfl, rfl⟩

/-- **C36 (negation)**, line contacts: the reported mean pressure is twice the load per length over the width of the contact. It exceeds the reported
maximum pressure. -/
theorem C36_line_mean_is_double {ell : EllipseFinder} {p : Args} {r : Result} (hm : Ordinary p) (h : hertzFull ell p = .ok r)
    (hl : r.shape = .line) :
    ∃ a, 0 < a ∧ (r.radiusA = .fin a ∨ r.radiusB = .fin a) ∧ r.meanPressure = 2 * (p.load / (2 * a)) ∧ r.meanPressure ≠ p.load / (2 * a) ∧
      r.maxPressure < r.meanPressure := by
  obtain ⟨hload, hs⟩ := solved_of_ok h
  have hE := eStar_pos hm
  have hpi := pi_pos
  cases hs with
  | sphere => cases hl
  | ellipse => cases hl
  | line R hR r1Rel r2Rel hfin =>
    have ha : 0 < sqrt (4 * p.load * R / π / p.eStar) := sqrt_pos.mpr (by positivity)
    have hmean : (lineResult p R r1Rel r2Rel).meanPressure = p.load / sqrt (4 * p.load * R / π / p.eStar) := rfl
    have hmax : (lineResult p R r1Rel r2Rel).maxPressure = 2 * p.load / π / sqrt (4 * p.load * R / π / p.eStar) := rfl
    have e : p.load / sqrt (4 * p.load * R / π / p.eStar) = 2 * (p.load / (2 * sqrt (4 * p.load * R / π / p.eStar))) := by field_simp
    have hp : 0 < p.load / (2 * sqrt (4 * p.load * R / π / p.eStar)) := by positivity
    refine ⟨sqrt (4 * p.load * R / π / p.eStar), ha, ?_, by rw [hmean, e], by rw [hmean, e]; linarith, ?_⟩
    · rcases hfin with hf | hf
      · left
        simp only [lineResult, hf]
      · right
        simp only [lineResult, hf]
    · rw [hmean, hmax]
      have h3 := pi_gt_three
      apply div_lt_div_of_pos_right _ ha
      rw [div_lt_iff₀ hpi]
      nlinarith

/-- **C36 (negation)**, elliptical contacts: the reported mean pressure is the load over the area only if the area is 3/2, whatever the units. -/
theorem C36_ellipse_mean_is_wrong {ell : EllipseFinder} {p : Args} {r : Result} (hm : Ordinary p)
    (hell : ∀ c f g k, ell c = some (f, g, k) → 0 < f ∧ 0 < g) (h : hertzFull ell p = .ok r) (hl : r.shape = .ellipse) :
    ∃ q, 0 < q ∧ r.area = .fin q ∧ (r.meanPressure = p.load / q ↔ q = 3 / 2) := by
  obtain ⟨hload, hs⟩ := solved_of_ok h
  have hpi := pi_pos
  cases hs with
  | line => cases hl
  | sphere => cases hl
  | ellipse f g k hfound hsum r1Rel r2Rel =>
    obtain ⟨hf, hg⟩ := hell _ _ _ _ hfound
    have hc := ellScale_pos hm hload hsum
    have ha := mul_pos hf hc
    have hb := mul_pos hg hc
    have hq := mul_pos (mul_pos ha hb) hpi
    refine ⟨_, hq, rfl, ?_⟩
    show 3 * p.load / 2 / (f * ellScale p * (g * ellScale p) * π) / (f * ellScale p * (g * ellScale p) * π) = p.load / _ ↔ _
    generalize f * ellScale p * (g * ellScale p) * π = q at hq ⊢
    rw [div_left_inj' hq.ne', div_eq_iff hq.ne']
    constructor
    · intro he
      apply mul_left_cancel₀ hload.ne'
      linarith
    · rintro rfl
      ring

/-! ## Cases that meet the hypotheses -/

/-- The hypotheses of `C35_line` and `C36_line_mean_is_double`. -/
example : ∃ r, Ordinary cylinders ∧ hertzFull (fun _ => none) cylinders = .ok r ∧ r.shape = .line := by
  obtain ⟨r, h1, h2, _⟩ := C37_line_contact_partial (p := cylinders)
    ⟨by norm_num [cylinders, Radius.isZero], by simp [cylinders, Radius.isZero], by norm_num [cylinders, Radius.isZero],
      by simp [cylinders, Radius.isZero], by norm_num [cylinders]⟩
    (by unfold Determined Args.constA Args.constB cylinders Radius.curv; norm_num)
    (Or.inl (by norm_num [cylinders, Radius.curv])) (κ := 2)
    ⟨by simp [bodies, curvatureMatrix, cylinders, Radius.curv, Matrix.trace, Fin.sum_univ_two]; norm_num,
      by simp [bodies, curvatureMatrix, cylinders, Radius.curv, Matrix.det_fin_two]⟩ (by norm_num) rfl (fun _ => none)
  exact ⟨r, ⟨by norm_num [cylinders], by norm_num [cylinders], by norm_num [cylinders], by norm_num [cylinders]⟩, h1, h2⟩

/-- The hypotheses of `C35_sphere` and `C36_sphere_partial`. -/
example : ∃ r, Ordinary ballOnFlat ∧ hertzFull (fun _ => none) ballOnFlat = .ok r ∧ r.shape = .sphere := by
  obtain ⟨r, h1, h2, _⟩ := ball_solution
  exact ⟨r, ⟨by norm_num [ballOnFlat], by norm_num [ballOnFlat], by norm_num [ballOnFlat], by norm_num [ballOnFlat]⟩, h1, h2⟩

/-- The hypotheses of `C35_ellipse`. -/
example : ∃ r, Ordinary aligned ∧ (∀ c f g k, (fun _ : ℝ => some ((1 : ℝ), (1 : ℝ), (1 : ℝ))) c = some (f, g, k) → 0 < f ∧ 0 < g) ∧
    hertzFull (fun _ => some (1, 1, 1)) aligned = .ok r ∧ r.shape = .ellipse := by
  obtain ⟨r, h1, h2, _⟩ := C37_elliptical_contact_partial (ell := fun _ => some (1, 1, 1)) aligned_accepted aligned_determined
    (Or.inl (by norm_num [aligned, Radius.curv])) aligned_eigen (by norm_num) one_pos (by norm_num) rfl rfl
  refine ⟨r, ⟨by norm_num [aligned], by norm_num [aligned], by norm_num [aligned], by norm_num [aligned]⟩, ?_, h1, h2⟩
  intro c f g k hh
  simp only [Option.some.injEq, Prod.mk.injEq] at hh
  obtain ⟨rfl, rfl, _⟩ := hh
  exact ⟨one_pos, one_pos⟩

end Verif.HertzFull
