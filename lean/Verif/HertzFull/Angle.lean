import Mathlib.Tactic.Linarith
import Mathlib.Tactic.LinearCombination
import Mathlib.Tactic.FieldSimp
import Verif.HertzFull.Spec

/-! # The angles to the principal directions -/

namespace Verif.HertzFull

open Real

theorem arg_cos_sin (x y : ℝ) (h : x ≠ 0 ∨ y ≠ 0) :
    sqrt (x ^ 2 + y ^ 2) * cos (Complex.arg ⟨x, y⟩) = x ∧ sqrt (x ^ 2 + y ^ 2) * sin (Complex.arg ⟨x, y⟩) = y := by
  have hn : ‖(⟨x, y⟩ : ℂ)‖ = sqrt (x ^ 2 + y ^ 2) := by
    rw [Complex.norm_def, Complex.normSq_mk]; ring_nf
  have h0 : (⟨x, y⟩ : ℂ) ≠ 0 := by
    intro he
    have h1 := congrArg Complex.re he
    have h2 := congrArg Complex.im he
    simp at h1 h2
    tauto
  have hne : ‖(⟨x, y⟩ : ℂ)‖ ≠ 0 := norm_ne_zero_iff.mpr h0
  constructor
  · rw [Complex.cos_arg h0, ← hn]
    field_simp
  · rw [Complex.sin_arg, ← hn]
    field_simp

/-- Whatever the sign of a zero, `atan2` is an angle of the point `(x, y)`. -/
theorem atan2_cos_sin (x y : ℝ) (s : Bool) (h : x ≠ 0 ∨ y ≠ 0) :
    sqrt (x ^ 2 + y ^ 2) * cos (atan2 y x s) = x ∧ sqrt (x ^ 2 + y ^ 2) * sin (atan2 y x s) = y := by
  unfold atan2
  split
  · rename_i hc
    obtain ⟨h1, _, h3⟩ := hc
    subst h1
    rw [cos_neg, sin_neg, cos_pi, sin_pi]
    constructor
    · rw [show x ^ 2 + 0 ^ 2 = (-x) ^ 2 by ring, sqrt_sq (by linarith)]; ring
    · simp
  · exact arg_cos_sin x y h

theorem atan2_pos {x y : ℝ} (s : Bool) (h : 0 < y) : 0 < atan2 y x s ∧ atan2 y x s < π := by
  rw [atan2, if_neg (fun hc => h.ne' hc.1)]
  constructor
  · have h1 : 0 ≤ Complex.arg ⟨x, y⟩ := Complex.arg_nonneg_iff.mpr h.le
    rcases h1.lt_or_eq with h2 | h2
    · exact h2
    · have := (Complex.arg_eq_zero_iff.mp h2.symm).2
      exact absurd this h.ne'
  · apply lt_of_le_of_ne (Complex.arg_le_pi _)
    intro he
    exact h.ne' (Complex.arg_eq_pi_iff.mp he).2

theorem atan2_neg {x y : ℝ} (s : Bool) (h : y < 0) : -π < atan2 y x s ∧ atan2 y x s < 0 := by
  rw [atan2, if_neg (fun hc => h.ne hc.1)]
  exact ⟨Complex.neg_pi_lt_arg _, Complex.arg_neg_iff.mpr h⟩

theorem atan2_zero_pos {x : ℝ} (s : Bool) (h : 0 ≤ x) : atan2 0 x s = 0 := by
  rw [atan2, if_neg (fun hc => absurd hc.2.2 (not_lt.mpr h))]
  exact Complex.arg_eq_zero_iff.mpr ⟨h, rfl⟩

theorem atan2_zero_neg {x : ℝ} (s : Bool) (h : x < 0) : atan2 0 x s = if s then -π else π := by
  cases s
  · rw [atan2, if_neg (by simp)]
    exact Complex.arg_eq_pi_iff.mpr ⟨h, rfl⟩
  · rw [atan2, if_pos ⟨rfl, rfl, h⟩]
    rfl

/-- The square of the length of both numerators. -/
theorem modulus_eq (a b t : ℝ) :
    (a * cos t + b) ^ 2 + (a * sin t) ^ 2 = a ^ 2 + b ^ 2 + 2 * a * b * cos t := by
  have := sin_sq_add_cos_sq t
  linear_combination a ^ 2 * this

/-- The two angles add up to the angle between the bodies, up to a multiple of `2 π` (in doubled angles). -/
theorem sum_mod {a b t : ℝ} (h : a ^ 2 + b ^ 2 + 2 * a * b * cos t ≠ 0) :
    ∃ n : ℤ, 2 * alpha a b t + 2 * beta a b t - t = n * (2 * π) := by
  have hm1 := modulus_eq a b t
  have hm2 := modulus_eq b a t
  have nz1 : a * cos t + b ≠ 0 ∨ a * sin t ≠ 0 := by
    by_contra hc
    push Not at hc
    rw [hc.1, hc.2] at hm1
    apply h
    linarith
  have nz2 : b * cos t + a ≠ 0 ∨ b * sin t ≠ 0 := by
    by_contra hc
    push Not at hc
    rw [hc.1, hc.2] at hm2
    apply h
    linarith
  obtain ⟨c1, s1⟩ := atan2_cos_sin (a * cos t + b) (a * sin t) (negZero a t) nz1
  obtain ⟨c2, s2⟩ := atan2_cos_sin (b * cos t + a) (b * sin t) (negZero b t) nz2
  have ha : 2 * alpha a b t = atan2 (a * sin t) (a * cos t + b) (negZero a t) := by unfold alpha; ring
  have hb : 2 * beta a b t = atan2 (b * sin t) (b * cos t + a) (negZero b t) := by unfold beta; ring
  rw [ha, hb]
  set A := atan2 (a * sin t) (a * cos t + b) (negZero a t)
  set B := atan2 (b * sin t) (b * cos t + a) (negZero b t)
  rw [hm1] at c1 s1
  rw [hm2, show b ^ 2 + a ^ 2 + 2 * b * a * cos t = a ^ 2 + b ^ 2 + 2 * a * b * cos t by ring] at c2 s2
  have hnn : 0 ≤ a ^ 2 + b ^ 2 + 2 * a * b * cos t := by rw [← hm1]; positivity
  have hR : sqrt (a ^ 2 + b ^ 2 + 2 * a * b * cos t) ^ 2 = a ^ 2 + b ^ 2 + 2 * a * b * cos t := sq_sqrt hnn
  set R := sqrt (a ^ 2 + b ^ 2 + 2 * a * b * cos t)
  have hR0 : R ^ 2 ≠ 0 := by rw [hR]; exact h
  have hst := sin_sq_add_cos_sq t
  have k1 : R ^ 2 * cos (A + B) = R ^ 2 * cos t := by
    rw [cos_add]
    have : R ^ 2 * (cos A * cos B - sin A * sin B) = (R * cos A) * (R * cos B) - (R * sin A) * (R * sin B) := by ring
    rw [this, c1, c2, s1, s2, hR]
    linear_combination (-(a * b)) * hst
  have k2 : R ^ 2 * sin (A + B) = R ^ 2 * sin t := by
    rw [sin_add]
    have : R ^ 2 * (sin A * cos B + cos A * sin B) = (R * sin A) * (R * cos B) + (R * cos A) * (R * sin B) := by ring
    rw [this, c1, c2, s1, s2, hR]
    ring
  have e1 := mul_left_cancel₀ hR0 k1
  have e2 := mul_left_cancel₀ hR0 k2
  have : cos (A + B - t) = 1 := by
    rw [cos_sub, e1, e2]
    linarith [hst]
  obtain ⟨n, hn⟩ := (cos_eq_one_iff _).mp this
  exact ⟨n, hn.symm⟩

/-- The range of an angle `atan2 (c * sin t) (c * cos t + d)` for `t` in (0, π). -/
theorem range_pos {c d t : ℝ} (h0 : 0 < t) (h1 : t < π) (hz : c ^ 2 + d ^ 2 + 2 * c * d * cos t ≠ 0) :
    let A := atan2 (c * sin t) (c * cos t + d) (negZero c t)
    (0 < c ∧ 0 < A ∧ A < π) ∨ (c < 0 ∧ -π < A ∧ A < 0) ∨ (c = 0 ∧ 0 < d ∧ A = 0) ∨ (c = 0 ∧ d < 0 ∧ A = π) := by
  intro A
  have hs := sin_pos_of_pos_of_lt_pi h0 h1
  rcases lt_trichotomy c 0 with hc | hc | hc
  · exact Or.inr (Or.inl ⟨hc, atan2_neg _ (mul_neg_of_neg_of_pos hc hs)⟩)
  · subst hc
    have hf : negZero 0 t = false := by simp [negZero, not_lt.mpr h0.le]
    have hA : A = atan2 0 d false := by simp only [A, hf, zero_mul, zero_add]
    rcases lt_trichotomy d 0 with hd | hd | hd
    · exact Or.inr (Or.inr (Or.inr ⟨rfl, hd, by rw [hA, atan2_zero_neg _ hd]; rfl⟩))
    · subst hd
      simp at hz
    · exact Or.inr (Or.inr (Or.inl ⟨rfl, hd, by rw [hA, atan2_zero_pos _ hd.le]⟩))
  · exact Or.inl ⟨hc, atan2_pos _ (mul_pos hc hs)⟩

/-- The same for `t` in (-π, 0). -/
theorem range_neg {c d t : ℝ} (h0 : t < 0) (h1 : -π < t) (hz : c ^ 2 + d ^ 2 + 2 * c * d * cos t ≠ 0) :
    let A := atan2 (c * sin t) (c * cos t + d) (negZero c t)
    (0 < c ∧ -π < A ∧ A < 0) ∨ (c < 0 ∧ 0 < A ∧ A < π) ∨ (c = 0 ∧ 0 < d ∧ A = 0) ∨ (c = 0 ∧ d < 0 ∧ A = -π) := by
  intro A
  have hs := sin_neg_of_neg_of_neg_pi_lt h0 h1
  rcases lt_trichotomy c 0 with hc | hc | hc
  · exact Or.inr (Or.inl ⟨hc, atan2_pos _ (mul_pos_of_neg_of_neg hc hs)⟩)
  · subst hc
    have hf : negZero 0 t = true := by simp [negZero, h0]
    have hA : A = atan2 0 d true := by simp only [A, hf, zero_mul, zero_add]
    rcases lt_trichotomy d 0 with hd | hd | hd
    · exact Or.inr (Or.inr (Or.inr ⟨rfl, hd, by rw [hA, atan2_zero_neg _ hd]; rfl⟩))
    · subst hd
      simp at hz
    · exact Or.inr (Or.inr (Or.inl ⟨rfl, hd, by rw [hA, atan2_zero_pos _ hd.le]⟩))
  · exact Or.inl ⟨hc, atan2_neg _ (mul_neg_of_pos_of_neg hc hs)⟩

theorem int_zero {n : ℤ} {x : ℝ} (h : x = n * (2 * π)) (h1 : -(2 * π) < x) (h2 : x < 2 * π) : n = 0 := by
  have hp : 0 < 2 * π := by have := pi_pos; linarith
  rw [h] at h1 h2
  have a1 : (-1 : ℝ) < n := by
    by_contra hc
    have := not_lt.mp hc
    nlinarith
  have a2 : (n : ℝ) < 1 := by
    by_contra hc
    have := not_lt.mp hc
    nlinarith
  have b1 : -1 < n := by exact_mod_cast a1
  have b2 : n < 1 := by exact_mod_cast a2
  omega

theorem int_ne_zero {n : ℤ} {x : ℝ} (h : x = n * (2 * π)) (h1 : x ≠ 0) : n ≠ 0 := by
  rintro rfl
  apply h1
  rw [h]
  simp

/-- The two angles add up to the angle between the bodies unless both curvature differences are negative. -/
theorem sum_iff {a b t : ℝ} (h0 : -π ≤ t) (h1 : t < π) (hz : a ^ 2 + b ^ 2 + 2 * a * b * cos t ≠ 0) :
    ∃ n : ℤ, 2 * alpha a b t + 2 * beta a b t - t = n * (2 * π) ∧ (n = 0 ↔ ¬ (a < 0 ∧ b < 0)) := by
  obtain ⟨n, hn⟩ := sum_mod hz
  refine ⟨n, hn, ?_⟩
  have hp := pi_pos
  have hz' : b ^ 2 + a ^ 2 + 2 * b * a * cos t ≠ 0 := by
    intro he; apply hz; linarith
  have ha : 2 * alpha a b t = atan2 (a * sin t) (a * cos t + b) (negZero a t) := by unfold alpha; ring
  have hb : 2 * beta a b t = atan2 (b * sin t) (b * cos t + a) (negZero b t) := by unfold beta; ring
  rw [ha, hb] at hn
  rcases lt_trichotomy t 0 with ht | ht | ht
  · rcases h0.lt_or_eq with ht' | ht'
    · have rA := range_neg ht ht' hz
      have rB := range_neg ht ht' hz'
      simp only at rA rB
      rcases rA with ⟨c1, c2, c3⟩ | ⟨c1, c2, c3⟩ | ⟨c1, c2, c3⟩ | ⟨c1, c2, c3⟩ <;>
        rcases rB with ⟨d1, d2, d3⟩ | ⟨d1, d2, d3⟩ | ⟨d1, d2, d3⟩ | ⟨d1, d2, d3⟩
      all_goals first
        | (exfalso; linarith)
        | exact ⟨fun _ hc => by linarith [hc.1, hc.2], fun _ => int_zero hn (by linarith) (by linarith)⟩
        | exact ⟨fun h => absurd h (int_ne_zero hn (by linarith)), fun hc => absurd ⟨by linarith, by linarith⟩ hc⟩
        | exact ⟨fun h => absurd h (int_ne_zero hn (ne_of_gt (by linarith))), fun hc => absurd ⟨by linarith, by linarith⟩ hc⟩
    · subst ht'
      rw [sin_neg, sin_pi, cos_neg, cos_pi] at hn
      rw [cos_neg, cos_pi] at hz
      have hab : a ≠ b := by
        rintro rfl
        apply hz
        ring
      have fa : negZero a (-π) = !decide (a < 0) := by simp [negZero, hp]
      have fb : negZero b (-π) = !decide (b < 0) := by simp [negZero, hp]
      rw [neg_zero, mul_zero, mul_zero, fa, fb] at hn
      rcases lt_or_gt_of_ne hab with hlt | hlt
      · rw [atan2_zero_pos _ (by linarith), atan2_zero_neg _ (by linarith)] at hn
        by_cases hb0 : b < 0
        · simp only [hb0, decide_true, Bool.not_true, Bool.false_eq_true, if_false] at hn
          exact ⟨fun h => absurd h (int_ne_zero hn (by linarith)), fun hc => absurd ⟨by linarith, by linarith⟩ hc⟩
        · simp only [hb0, decide_false, Bool.not_false, if_true] at hn
          exact ⟨fun _ hc => hb0 hc.2, fun _ => int_zero hn (by linarith) (by linarith)⟩
      · rw [atan2_zero_neg _ (by linarith), atan2_zero_pos _ (by linarith)] at hn
        by_cases ha0 : a < 0
        · simp only [ha0, decide_true, Bool.not_true, Bool.false_eq_true, if_false] at hn
          exact ⟨fun h => absurd h (int_ne_zero hn (by linarith)), fun hc => absurd ⟨by linarith, by linarith⟩ hc⟩
        · simp only [ha0, decide_false, Bool.not_false, if_true] at hn
          exact ⟨fun _ hc => ha0 hc.1, fun _ => int_zero hn (by linarith) (by linarith)⟩
  · subst ht
    rw [sin_zero, cos_zero, mul_zero, mul_zero, mul_one, mul_one] at hn
    rw [cos_zero] at hz
    have hab : a + b ≠ 0 := by
      intro he
      apply hz
      nlinarith
    have fa : negZero a 0 = decide (a < 0) := by simp [negZero]
    have fb : negZero b 0 = decide (b < 0) := by simp [negZero]
    rw [fa, fb, add_comm b a] at hn
    rcases lt_or_gt_of_ne hab with hlt | hlt
    · rw [atan2_zero_neg _ hlt, atan2_zero_neg _ hlt] at hn
      by_cases ha0 : a < 0 <;> by_cases hb0 : b < 0
      · simp only [ha0, hb0, decide_true, if_true] at hn
        exact ⟨fun h => absurd h (int_ne_zero hn (by linarith)), fun hc => absurd ⟨ha0, hb0⟩ hc⟩
      · simp only [ha0, hb0, decide_true, decide_false, if_true, Bool.false_eq_true, if_false] at hn
        exact ⟨fun _ hc => hb0 hc.2, fun _ => int_zero hn (by linarith) (by linarith)⟩
      · simp only [ha0, hb0, decide_true, decide_false, if_true, Bool.false_eq_true, if_false] at hn
        exact ⟨fun _ hc => ha0 hc.1, fun _ => int_zero hn (by linarith) (by linarith)⟩
      · exfalso; linarith
    · rw [atan2_zero_pos _ hlt.le, atan2_zero_pos _ hlt.le] at hn
      exact ⟨fun _ hc => by linarith [hc.1, hc.2], fun _ => int_zero hn (by linarith) (by linarith)⟩
  · have rA := range_pos ht h1 hz
    have rB := range_pos ht h1 hz'
    simp only at rA rB
    rcases rA with ⟨c1, c2, c3⟩ | ⟨c1, c2, c3⟩ | ⟨c1, c2, c3⟩ | ⟨c1, c2, c3⟩ <;>
      rcases rB with ⟨d1, d2, d3⟩ | ⟨d1, d2, d3⟩ | ⟨d1, d2, d3⟩ | ⟨d1, d2, d3⟩
    all_goals first
      | (exfalso; linarith)
      | exact ⟨fun _ hc => by linarith [hc.1, hc.2], fun _ => int_zero hn (by linarith) (by linarith)⟩
      | exact ⟨fun h => absurd h (int_ne_zero hn (ne_of_lt (by linarith))), fun hc => absurd ⟨by linarith, by linarith⟩ hc⟩

/-- The reduced angle. -/
theorem reduceAngle_range (x : ℝ) : -(π / 2) ≤ reduceAngle x ∧ reduceAngle x < π / 2 := by
  have hp := pi_pos
  have h1 : 0 ≤ x - π * ⌊x / π⌋ := by
    have := Int.floor_le (x / π)
    have h2 : π * ⌊x / π⌋ ≤ π * (x / π) := by gcongr
    rw [mul_div_cancel₀ _ hp.ne'] at h2
    linarith
  have h2 : x - π * ⌊x / π⌋ < π := by
    have := Int.lt_floor_add_one (x / π)
    have h2 : π * (x / π) < π * (⌊x / π⌋ + 1) := by gcongr
    rw [mul_div_cancel₀ _ hp.ne'] at h2
    linarith
  unfold reduceAngle
  simp only
  split
  · constructor <;> linarith
  · constructor <;> linarith

/-- Reducing changes the angle by a multiple of π. -/
theorem reduceAngle_mod (x : ℝ) : ∃ n : ℤ, reduceAngle x = x - n * π := by
  unfold reduceAngle
  simp only
  split
  · exact ⟨⌊x / π⌋, by ring⟩
  · exact ⟨⌊x / π⌋ + 1, by push_cast; ring⟩

/-- Angles that differ by half turns are the same. -/
theorem reduceAngle_add_pi (x : ℝ) : reduceAngle (x + π) = reduceAngle x := by
  have hp := pi_pos
  unfold reduceAngle
  rw [add_div, div_self hp.ne', Int.floor_add_one]
  push_cast
  rw [show x + π - π * (⌊x / π⌋ + 1) = x - π * ⌊x / π⌋ by ring]

/-- The difference of the two curvatures, whenever the direction is determined. -/
theorem curv_diff {a b t : ℝ} (hz : a ^ 2 + b ^ 2 + 2 * a * b * cos t ≠ 0) :
    b * cos (2 * alpha a b t) + a * cos (2 * beta a b t) = sqrt (a ^ 2 + b ^ 2 + 2 * a * b * cos t) := by
  have hm1 := modulus_eq a b t
  have hm2 := modulus_eq b a t
  have nz1 : a * cos t + b ≠ 0 ∨ a * sin t ≠ 0 := by
    by_contra hc
    push Not at hc
    rw [hc.1, hc.2] at hm1
    apply hz
    linarith
  have nz2 : b * cos t + a ≠ 0 ∨ b * sin t ≠ 0 := by
    by_contra hc
    push Not at hc
    rw [hc.1, hc.2] at hm2
    apply hz
    linarith
  obtain ⟨c1, _⟩ := atan2_cos_sin (a * cos t + b) (a * sin t) (negZero a t) nz1
  obtain ⟨c2, _⟩ := atan2_cos_sin (b * cos t + a) (b * sin t) (negZero b t) nz2
  have ha : 2 * alpha a b t = atan2 (a * sin t) (a * cos t + b) (negZero a t) := by unfold alpha; ring
  have hb : 2 * beta a b t = atan2 (b * sin t) (b * cos t + a) (negZero b t) := by unfold beta; ring
  rw [ha, hb]
  rw [hm1] at c1
  rw [hm2, show b ^ 2 + a ^ 2 + 2 * b * a * cos t = a ^ 2 + b ^ 2 + 2 * a * b * cos t by ring] at c2
  have hnn : 0 ≤ a ^ 2 + b ^ 2 + 2 * a * b * cos t := by rw [← hm1]; positivity
  have hR : sqrt (a ^ 2 + b ^ 2 + 2 * a * b * cos t) ^ 2 = a ^ 2 + b ^ 2 + 2 * a * b * cos t := sq_sqrt hnn
  set R := sqrt (a ^ 2 + b ^ 2 + 2 * a * b * cos t)
  have hR0 : R ≠ 0 := by
    intro h0
    rw [h0] at hR
    apply hz
    linarith
  apply mul_left_cancel₀ hR0
  have : R * (b * cos (atan2 (a * sin t) (a * cos t + b) (negZero a t)) + a * cos (atan2 (b * sin t) (b * cos t + a) (negZero b t))) =
    b * (R * cos (atan2 (a * sin t) (a * cos t + b) (negZero a t))) + a * (R * cos (atan2 (b * sin t) (b * cos t + a) (negZero b t))) := by
      ring
  rw [this, c1, c2]
  linear_combination -hR

end Verif.HertzFull
