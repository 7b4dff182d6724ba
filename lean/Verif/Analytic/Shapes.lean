import Verif.Analytic.Model
import Mathlib.Tactic.FieldSimp
import Mathlib.Tactic.Ring
import Mathlib.Tactic.NormNum
import Mathlib.Tactic.Linarith
import Mathlib.Tactic.Positivity

/-! # C46: the geometric shapes -/

namespace Verif.Analytic

/-- The point `(x, y)` is on or inside of the ellipse over which a round surface is defined; an infinite radius does not limit. -/
def Inside (rx ry : Option ℝ) (x y : ℝ) : Prop :=
  (match rx with | some r => (x / r) ^ 2 | none => 0) + (match ry with | some r => (y / r) ^ 2 | none => 0) ≤ 1

theorem inside_iff (rx ry : Option ℝ) (x y : ℝ) : Inside rx ry x y ↔ ¬ (1 - overRadius x rx ^ 2 - overRadius y ry ^ 2 < 0) := by
  unfold Inside
  cases rx <;> cases ry <;> simp only [overRadius, not_lt] <;> constructor <;> intro h <;> linarith

/-- **C46, round surfaces (partial).** Over the ellipse the height is zero at the origin and nowhere positive. Missing: the points outside of the ellipse, where the height is wrong, see `C46_round_outside`. -/
theorem C46_round_inside_partial (rx ry : Option ℝ) (rz : ℝ) (hz : 0 < rz) (x y : ℝ) (h : Inside rx ry x y) :
    round rx ry rz 0 0 = 0 ∧ round rx ry rz x y ≤ 0 ∧ -rz ≤ round rx ry rz x y := by
  have h0 : ∀ r, overRadius 0 r = 0 := by intro r; cases r <;> simp [overRadius]
  refine ⟨by simp [round, h0], ?_, ?_⟩
  · unfold round
    simp only [if_neg ((inside_iff rx ry x y).1 h)]
    have h1 : Real.sqrt (1 - overRadius x rx ^ 2 - overRadius y ry ^ 2) ≤ 1 :=
      Real.sqrt_le_one.2 (by nlinarith [sq_nonneg (overRadius x rx), sq_nonneg (overRadius y ry)])
    nlinarith
  · unfold round
    simp only [if_neg ((inside_iff rx ry x y).1 h)]
    have := Real.sqrt_nonneg (1 - overRadius x rx ^ 2 - overRadius y ry ^ 2)
    nlinarith

example : round (some 2) (some 2) 1 1 1 ≤ 0 := (C46_round_inside_partial (some 2) (some 2) 1 (by norm_num) 1 1 (by simp only [Inside]; norm_num)).2.1

/-- **C46, round surfaces fall (partial).** With finite radii the height falls strictly along every ray from the origin, as far as the ellipse goes. Missing: as above. -/
theorem C46_round_falls_partial (rx ry rz : ℝ) (hx : rx ≠ 0) (hy : ry ≠ 0) (hz : 0 < rz) (x y s t : ℝ) (hne : x ≠ 0 ∨ y ≠ 0) (hs : 0 ≤ s) (hst : s < t)
    (h : Inside (some rx) (some ry) (t * x) (t * y)) : round (some rx) (some ry) rz (t * x) (t * y) < round (some rx) (some ry) rz (s * x) (s * y) := by
  have hq : ∀ u : ℝ, 1 - overRadius (u * x) (some rx) ^ 2 - overRadius (u * y) (some ry) ^ 2 = 1 - u ^ 2 * ((x / rx) ^ 2 + (y / ry) ^ 2) := by
    intro u; simp only [overRadius]; field_simp; ring
  have hpos : 0 < (x / rx) ^ 2 + (y / ry) ^ 2 := by
    rcases hne with hne | hne
    · have : 0 < (x / rx) ^ 2 := by positivity
      positivity
    · have : 0 < (y / ry) ^ 2 := by positivity
      positivity
  have h1 := (inside_iff _ _ _ _).1 h
  rw [hq, not_lt] at h1
  have hsq : s ^ 2 < t ^ 2 := by nlinarith
  have hlt : 1 - t ^ 2 * ((x / rx) ^ 2 + (y / ry) ^ 2) < 1 - s ^ 2 * ((x / rx) ^ 2 + (y / ry) ^ 2) := by nlinarith
  unfold round
  simp only [hq]
  rw [if_neg (not_lt.2 h1), if_neg (not_lt.2 (h1.trans hlt.le))]
  have := Real.sqrt_lt_sqrt h1 hlt
  nlinarith

/-- The hypotheses can be met. -/
example : ∃ rx ry x y s t : ℝ, rx ≠ 0 ∧ ry ≠ 0 ∧ (x ≠ 0 ∨ y ≠ 0) ∧ 0 ≤ s ∧ s < t ∧ Inside (some rx) (some ry) (t * x) (t * y) :=
  ⟨2, 3, 1, 1, 1 / 2, 1, by norm_num, by norm_num, by norm_num, by norm_num, by norm_num, by simp only [Inside]; norm_num⟩

/-- **C46 is false for round surfaces.** Outside of the ellipse the height is zero, the height of the highest point; so for every radius the height rises again away from the origin: at the distance `rx` it is `-rz`, at twice
that distance it is zero. -/
theorem C46_round_outside (rx ry : Option ℝ) (rz x y : ℝ) (r : ℝ) (hr : r ≠ 0) :
    (¬ Inside rx ry x y → round rx ry rz x y = 0) ∧ round (some r) ry rz r 0 = -rz ∧ round (some r) ry rz (2 * r) 0 = 0 := by
  have h0 : overRadius 0 ry = 0 := by cases ry <;> simp [overRadius]
  refine ⟨fun h => ?_, ?_, ?_⟩
  · unfold round
    rw [inside_iff, not_not] at h
    simp only [if_pos h]
  · have h1 : overRadius r (some r) = 1 := by simp [overRadius, hr]
    unfold round
    norm_num [h1, h0]
  · have h1 : overRadius (2 * r) (some r) = 2 := by simp only [overRadius]; field_simp
    unfold round
    norm_num [h1, h0]

/-- There are such points. -/
example : ¬ Inside (some 1) none 2 5 := by simp only [Inside]; norm_num

/-- **C46, pyramids.** With positive lengths the height is zero at the origin, negative everywhere else, and falls strictly along every ray from the origin. -/
theorem C46_pyramid (a b c : ℝ) (ha : 0 < a) (hb : 0 < b) (hc : 0 < c) :
    pyramid a b c 0 0 = 0 ∧ (∀ x y, (x, y) ≠ (0, 0) → pyramid a b c x y < 0) ∧
    ∀ x y s t, (x, y) ≠ (0, 0) → 0 ≤ s → s < t → pyramid a b c (t * x) (t * y) < pyramid a b c (s * x) (s * y) := by
  have neg : ∀ x y : ℝ, (x, y) ≠ (0, 0) → pyramid a b c x y < 0 := by
    intro x y h
    have h1 : 0 ≤ |x| / a := by positivity
    have h2 : 0 ≤ |y| / b := by positivity
    have h3 : 0 < |x| / a + |y| / b := by
      by_cases hx : x = 0
      · have hy : y ≠ 0 := fun hy => h (by rw [hx, hy])
        have : 0 < |y| / b := by positivity
        linarith
      · have : 0 < |x| / a := by positivity
        linarith
    unfold pyramid
    nlinarith
  have lin : ∀ x y u : ℝ, 0 ≤ u → pyramid a b c (u * x) (u * y) = u * pyramid a b c x y := by
    intro x y u hu
    unfold pyramid
    rw [abs_mul, abs_mul, abs_of_nonneg hu]
    ring
  refine ⟨by simp [pyramid], neg, fun x y s t h hs hst => ?_⟩
  rw [lin x y t (hs.trans hst.le), lin x y s hs]
  have := neg x y h
  nlinarith

/-- The hypotheses can be met. -/
example : ∃ a b c x y s t : ℝ, 0 < a ∧ 0 < b ∧ 0 < c ∧ (x, y) ≠ (0, 0) ∧ 0 ≤ s ∧ s < t :=
  ⟨1, 2, 3, 1, 0, 0, 1, by norm_num, by norm_num, by norm_num, by norm_num, by norm_num, by norm_num⟩

/-- **C46, lengths.** Lengths given as a number or as a tuple of three give that pyramid; lengths given as a list (as in the example of the documentation) give an `AttributeError` as soon as a height is asked for. -/
theorem C46_pyramid_lengths (a b c : ℝ) (l : List ℝ) (x y : ℝ) :
    pyramidHeight (.number a) x y = .ok (pyramid a a a x y) ∧ pyramidHeight (.tuple [a, b, c]) x y = .ok (pyramid a b c x y) ∧
    (l.length ≠ 3 → pyramidHeight (.tuple l) x y = .error .valueError) ∧ pyramidHeight (.list l) x y = .error .attributeError := by
  refine ⟨rfl, rfl, fun h => ?_, rfl⟩
  rcases l with _ | ⟨a, _ | ⟨b, _ | ⟨c, _ | ⟨d, l⟩⟩⟩⟩ <;> simp [pyramidHeight] at h ⊢

/-- **C46, flat surfaces.** The height is zero at the origin; it is nowhere positive exactly if both slopes are zero. -/
theorem C46_flat (s0 s1 : ℝ) : flat s0 s1 0 0 = 0 ∧ ((∀ x y, flat s0 s1 x y ≤ 0) ↔ s0 = 0 ∧ s1 = 0) := by
  refine ⟨by simp [flat], ⟨fun h => ?_, fun h x y => by simp [flat, h.1, h.2]⟩⟩
  have h1 := h s0 s1
  unfold flat at h1
  constructor <;> nlinarith [sq_nonneg s0, sq_nonneg s1]

end Verif.Analytic
