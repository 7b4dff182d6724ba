import Verif.Bouss.Spec
import Verif.Bouss.Model
import Verif.Bouss.Lemmas
import Verif.InfMat.Model

/-!
# C85, C86: the influence coefficients are the displacements under a uniformly loaded cell
-/

namespace Verif.Bouss

open Real MeasureTheory InfMat

noncomputable section

/-- The cell integral in the coordinates of the distance. -/
theorem cell_eq (f : ℝ → ℝ → ℝ) (hx hy : ℝ) (x y : ℤ) :
    cell f hx hy x y = ∫ t in (hy * lo y)..(hy * hi y), ∫ s in (hx * lo x)..(hx * hi x), f s t := by
  have hin : ∀ t, (∫ ξ in (-(hx / 2))..(hx / 2), f (x * hx - ξ) t) = ∫ s in (hx * lo x)..(hx * hi x), f s t := fun t => by
    rw [intervalIntegral.integral_comp_sub_left (fun s => f s t)]
    congr 1 <;> simp only [lo, hi] <;> ring
  unfold cell
  simp only [hin]
  rw [intervalIntegral.integral_comp_sub_left (fun t => ∫ s in (hx * lo x)..(hx * hi x), f s t)]
  congr 1 <;> simp only [lo, hi] <;> ring

theorem half_ne (d : ℤ) : (d : ℝ) + 1 / 2 ≠ 0 := by
  intro h
  have h2 : ((2 * d + 1 : ℤ) : ℝ) = 0 := by
    push_cast
    linarith
  have := Int.cast_eq_zero.mp h2
  omega

theorem hi_ne (d : ℤ) : hi d ≠ 0 := half_ne d

theorem lo_ne (d : ℤ) : lo d ≠ 0 := by
  have := half_ne (d - 1)
  push_cast at this
  unfold lo
  intro h
  apply this
  linarith

theorem integral_of_inner {f : ℝ → ℝ → ℝ} {g : ℝ → ℝ} {a b c d : ℝ} (h : ∀ t, t ≠ 0 → ∫ s in a..b, f s t = g t) :
    ∫ t in c..d, ∫ s in a..b, f s t = ∫ t in c..d, g t := ae_ne_zero h

/-! ## The five double integrals over a rectangle away from the axes -/

theorem double_recip {a b c d : ℝ} (ha : a ≠ 0) (hb : b ≠ 0) :
    ∫ t in c..d, ∫ s in a..b, 1 / √(s ^ 2 + t ^ 2) =
      b * (L d b - L c b) + a * (L c a - L d a) + (d * (L b d - L a d) + c * (L a c - L b c)) := by
  rw [integral_of_inner (fun t ht => inner_recip ht a b), intervalIntegral.integral_sub (integrable_L hb c d) (integrable_L ha c d), outer_L hb, outer_L ha]
  ring

theorem double_sq {a b c d : ℝ} (ha : a ≠ 0) (hb : b ≠ 0) :
    ∫ t in c..d, ∫ s in a..b, s ^ 2 / √(s ^ 2 + t ^ 2) ^ 3 = d * (L b d - L a d) + c * (L a c - L b c) := by
  rw [integral_of_inner (fun t ht => inner_sq ht a b), intervalIntegral.integral_sub ((integrable_L hb c d).sub (integrable_over hb c d))
    ((integrable_L ha c d).sub (integrable_over ha c d)), intervalIntegral.integral_sub (integrable_L hb c d) (integrable_over hb c d),
    intervalIntegral.integral_sub (integrable_L ha c d) (integrable_over ha c d), outer_L hb, outer_L ha, outer_over hb, outer_over ha]
  ring

theorem double_mixed {a b c d : ℝ} (ha : a ≠ 0) (hb : b ≠ 0) :
    ∫ t in c..d, ∫ s in a..b, s * t / √(s ^ 2 + t ^ 2) ^ 3 =
      √(b ^ 2 + c ^ 2) - √(b ^ 2 + d ^ 2) + √(a ^ 2 + d ^ 2) - √(a ^ 2 + c ^ 2) := by
  have e : ∀ t : ℝ, -(t / √(b ^ 2 + t ^ 2)) - -(t / √(a ^ 2 + t ^ 2)) = t / √(a ^ 2 + t ^ 2) - t / √(b ^ 2 + t ^ 2) := fun t => by ring
  rw [integral_of_inner (fun t ht => inner_mixed ht a b)]
  simp only [e]
  rw [intervalIntegral.integral_sub (integrable_ratio ha c d) (integrable_ratio hb c d), outer_ratio hb, outer_ratio ha]
  ring

theorem double_first {a b c d : ℝ} (ha : a ≠ 0) (hb : b ≠ 0) :
    ∫ t in c..d, ∫ s in a..b, s / √(s ^ 2 + t ^ 2) ^ 2 =
      (d * (log (b ^ 2 + d ^ 2) - log (a ^ 2 + d ^ 2)) + c * (log (a ^ 2 + c ^ 2) - log (b ^ 2 + c ^ 2))) / 2 +
        (b * (arctan (d / b) - arctan (c / b)) + a * (arctan (c / a) - arctan (d / a))) := by
  rw [integral_of_inner (fun t ht => inner_first ht a b), intervalIntegral.integral_sub (integrable_log_sq hb c d) (integrable_log_sq ha c d), outer_log_sq hb,
    outer_log_sq ha]
  ring

theorem double_second {a b c d : ℝ} (ha : a ≠ 0) (hb : b ≠ 0) :
    ∫ t in c..d, ∫ s in a..b, t / √(s ^ 2 + t ^ 2) ^ 2 =
      (b * (log (b ^ 2 + d ^ 2) - log (b ^ 2 + c ^ 2)) + a * (log (a ^ 2 + c ^ 2) - log (a ^ 2 + d ^ 2))) / 2 +
        (d * (arctan (b / d) - arctan (a / d)) + c * (arctan (a / c) - arctan (b / c))) := by
  rw [integral_of_inner (fun t ht => inner_second ht a b), intervalIntegral.integral_sub (integrable_arctan b c d) (integrable_arctan a c d), outer_arctan hb,
    outer_arctan ha]
  ring

/-! ## Scaling -/

theorem L_scale {h s t : ℝ} (hh : 0 < h) (ht : t ≠ 0) : L (h * s) (h * t) = log h + L s t := by
  have e : √((h * s) ^ 2 + (h * t) ^ 2) = h * √(s ^ 2 + t ^ 2) := by
    rw [mul_pow, mul_pow, ← mul_add, sqrt_mul (by positivity), sqrt_sq hh.le]
  unfold L
  rw [e, ← mul_add, log_mul hh.ne' (arg_pos ht).ne']

theorem log_ratio {s s' t t' : ℝ} (ht : t ≠ 0) (ht' : t' ≠ 0) :
    log ((s + √(s ^ 2 + t ^ 2)) / (s' + √(s' ^ 2 + t' ^ 2))) = L s t - L s' t' := log_div (arg_pos ht).ne' (arg_pos ht').ne'

theorem termX_eq (x y : ℤ) : termX x y = hi x * (L (hi y) (hi x) - L (lo y) (hi x)) + lo x * (L (lo y) (lo x) - L (hi y) (lo x)) := by
  have h1 := hi_ne x
  have h2 := lo_ne x
  unfold termX
  simp only
  rw [add_comm (hi x ^ 2) (hi y ^ 2), add_comm (hi x ^ 2) (lo y ^ 2), add_comm (lo x ^ 2) (lo y ^ 2), add_comm (lo x ^ 2) (hi y ^ 2), log_ratio h1 h1, log_ratio h2 h2]

theorem termY_eq (x y : ℤ) : termY x y = hi y * (L (hi x) (hi y) - L (lo x) (hi y)) + lo y * (L (lo x) (lo y) - L (hi x) (lo y)) := by
  have h1 := hi_ne y
  have h2 := lo_ne y
  unfold termY
  simp only
  rw [log_ratio h1 h1, log_ratio h2 h2]

/-- The integral of the reciprocal distance over a square cell. -/
theorem cell_recip {h : ℝ} (hh : 0 < h) (x y : ℤ) : cell (fun s t => 1 / √(s ^ 2 + t ^ 2)) h h x y = h * termX x y + h * termY x y := by
  have h1 := hi_ne x
  have h2 := lo_ne x
  have h3 := hi_ne y
  have h4 := lo_ne y
  rw [cell_eq, double_recip (mul_ne_zero hh.ne' h2) (mul_ne_zero hh.ne' h1), termX_eq, termY_eq]
  simp only [L_scale hh h1, L_scale hh h2, L_scale hh h3, L_scale hh h4]
  ring

theorem cell_sq {h : ℝ} (hh : 0 < h) (x y : ℤ) : cell (fun s t => s ^ 2 / √(s ^ 2 + t ^ 2) ^ 3) h h x y = h * termY x y := by
  have h1 := hi_ne x
  have h2 := lo_ne x
  have h3 := hi_ne y
  have h4 := lo_ne y
  rw [cell_eq, double_sq (mul_ne_zero hh.ne' h2) (mul_ne_zero hh.ne' h1), termY_eq]
  simp only [L_scale hh h3, L_scale hh h4]
  ring

theorem cell_mixed {hx hy : ℝ} (h0 : hx ≠ 0) (x y : ℤ) : cell (fun s t => s * t / √(s ^ 2 + t ^ 2) ^ 3) hx hy x y = termXY hx hy x y := by
  rw [cell_eq, double_mixed (mul_ne_zero h0 (lo_ne x)) (mul_ne_zero h0 (hi_ne x))]
  unfold termXY
  simp only [mul_pow]
  rw [add_comm (hx ^ 2 * hi x ^ 2) (hy ^ 2 * lo y ^ 2), add_comm (hx ^ 2 * hi x ^ 2) (hy ^ 2 * hi y ^ 2), add_comm (hx ^ 2 * lo x ^ 2) (hy ^ 2 * lo y ^ 2),
    add_comm (hx ^ 2 * lo x ^ 2) (hy ^ 2 * hi y ^ 2)]

theorem log_sq_scale {h s t : ℝ} (hh : 0 < h) (hs : s ≠ 0) : log ((h * s) ^ 2 + (h * t) ^ 2) = 2 * log h + log (s ^ 2 + t ^ 2) := by
  have hne : s ^ 2 + t ^ 2 ≠ 0 := by positivity
  rw [mul_pow, mul_pow, ← mul_add, log_mul (by positivity) hne, log_pow]
  norm_num

theorem log_sq_ratio {s s' t t' : ℝ} (hs : s ≠ 0) (hs' : s' ≠ 0) : log ((s ^ 2 + t ^ 2) / (s' ^ 2 + t' ^ 2)) = log (s ^ 2 + t ^ 2) - log (s' ^ 2 + t' ^ 2) :=
  log_div (by positivity) (by positivity)

theorem cell_first {h : ℝ} (hh : 0 < h) (x y : ℤ) : cell (fun s t => s / √(s ^ 2 + t ^ 2) ^ 2) h h x y = termXZ h h x y := by
  have h1 := hi_ne x
  have h2 := lo_ne x
  have e : ∀ s t : ℝ, h * s / (h * t) = s / t := fun s t => mul_div_mul_left s t hh.ne'
  rw [cell_eq, double_first (mul_ne_zero hh.ne' h2) (mul_ne_zero hh.ne' h1)]
  unfold termXZ
  simp only [log_sq_scale hh h1, log_sq_scale hh h2, e, log_sq_ratio h1 h2, log_sq_ratio h2 h1]
  ring

theorem cell_second {h : ℝ} (hh : 0 < h) (x y : ℤ) : cell (fun s t => t / √(s ^ 2 + t ^ 2) ^ 2) h h x y = termZY h h x y := by
  have h1 := hi_ne x
  have h2 := lo_ne x
  have h3 := hi_ne y
  have h4 := lo_ne y
  have e : ∀ s t : ℝ, h * s / (h * t) = s / t := fun s t => mul_div_mul_left s t hh.ne'
  have r1 : log ((hi x ^ 2 + hi y ^ 2) / (lo y ^ 2 + hi x ^ 2)) = log (hi x ^ 2 + hi y ^ 2) - log (hi x ^ 2 + lo y ^ 2) := by
    rw [add_comm (lo y ^ 2), log_sq_ratio h1 h1]
  have r2 : log ((lo x ^ 2 + lo y ^ 2) / (hi y ^ 2 + lo x ^ 2)) = log (lo x ^ 2 + lo y ^ 2) - log (lo x ^ 2 + hi y ^ 2) := by
    rw [add_comm (hi y ^ 2), log_sq_ratio h2 h2]
  rw [cell_eq, double_second (mul_ne_zero hh.ne' h2) (mul_ne_zero hh.ne' h1)]
  unfold termZY
  simp only [log_sq_scale hh h1, log_sq_scale hh h2, e, r1, r2]
  ring

/-! ## C85 -/

theorem cell_const (k : ℝ) (f : ℝ → ℝ → ℝ) (hx hy : ℝ) (x y : ℤ) : cell (fun s t => k * f s t) hx hy x y = k * cell f hx hy x y := by
  unfold cell
  simp only [intervalIntegral.integral_const_mul]

/-- **C85**: on a grid with the same spacing in both directions the normal coefficient is the displacement under a cell with unit pressure, for every
offset; for a pair of bodies it is the sum of both displacements. -/
theorem C85_normal_partial {h G v : ℝ} (hh : 0 < h) (x y : ℤ) :
    coefficient "zz" h h G v none none x y = some (cell (pointLoad G v 'z' 'z') h h x y) := by
  have e : cell (pointLoad G v 'z' 'z') h h x y = (1 - v) / (2 * π * G) * cell (fun s t => 1 / √(s ^ 2 + t ^ 2)) h h x y := cell_const _ _ _ _ _ _
  rw [e, cell_recip hh]
  simp [coefficient]

example := C85_normal_partial (h := 1e-6) (G := 80e9) (v := 0.3) (by norm_num) 2 (-3)

theorem C85_pair_partial {h G v G2 v2 : ℝ} (hh : 0 < h) (x y : ℤ) :
    coefficient "zz" h h G v (some G2) (some v2) x y = some (cell (pointLoad G v 'z' 'z') h h x y + cell (pointLoad G2 v2 'z' 'z') h h x y) := by
  have e : ∀ G v : ℝ, cell (pointLoad G v 'z' 'z') h h x y = (1 - v) / (2 * π * G) * cell (fun s t => 1 / √(s ^ 2 + t ^ 2)) h h x y :=
    fun G v => cell_const _ _ _ _ _ _
  rw [e, e, cell_recip hh]
  simp [coefficient]
  ring

example : (0 : ℝ) < 1e-6 := by norm_num

/-- The antiderivative at the own cell, as a function of one side. -/
def own (b d : ℝ) : ℝ := b * (L d b - log b) + d * (L b d - log d)

theorem deriv_own {b d : ℝ} (hb : 0 < b) (hd : 0 < d) : HasDerivAt (own b) (L b d - log d) d := by
  have h1 := ((deriv_L (s := d) (t := b) hb.ne').sub_const (log b)).const_mul b
  have h2 := (hasDerivAt_id' d).fun_mul ((deriv_L' (s := b) (t := d) (Or.inl hb)).fun_sub (hasDerivAt_log hd.ne'))
  have h := h1.fun_add h2
  refine HasDerivAt.congr_deriv (f := own b) h ?_
  have e : √(d ^ 2 + b ^ 2) = √(b ^ 2 + d ^ 2) := by rw [add_comm]
  rw [e]
  have hq := sq_root b d
  have hr := (root_pos' (s := b) (t := d) hb.ne').ne'
  have hp := (arg_pos' (s := b) (t := d) hb).ne'
  field_simp
  linear_combination -hq

theorem own_square {b : ℝ} (hb : 0 < b) : own b b = (b + b) * log (1 + √2) := by
  have e : b + √(b ^ 2 + b ^ 2) = b * (1 + √2) := by
    rw [← two_mul, sqrt_mul (by norm_num), sqrt_sq hb.le]
    ring
  unfold own L
  rw [e, log_mul hb.ne' (by positivity)]
  ring

theorem slope_sign {b d : ℝ} (hb : 0 < b) (hd : 0 < d) (h : b < d) : L b d - log d < log (1 + √2) := by
  have h2 : b + √(b ^ 2 + d ^ 2) < d * (1 + √2) := by
    have : √(b ^ 2 + d ^ 2) < d * √2 := by
      rw [sqrt_lt' (by positivity), mul_pow, sq_sqrt (by norm_num)]
      nlinarith
    linarith
  unfold L
  rw [sub_lt_iff_lt_add, add_comm (log (1 + √2)), ← log_mul hd.ne' (by positivity)]
  exact log_lt_log (arg_pos' hb) h2

theorem slope_sign' {b d : ℝ} (hb : 0 < b) (hd : 0 < d) (h : d < b) : log (1 + √2) < L b d - log d := by
  have h2 : d * (1 + √2) < b + √(b ^ 2 + d ^ 2) := by
    have : d * √2 < √(b ^ 2 + d ^ 2) := by
      rw [lt_sqrt (by positivity), mul_pow, sq_sqrt (by norm_num)]
      nlinarith
    linarith
  unfold L
  rw [lt_sub_iff_add_lt, add_comm (log (1 + √2)), ← log_mul hd.ne' (by positivity)]
  exact log_lt_log (by positivity) h2

theorem own_lt {b d : ℝ} (hb : 0 < b) (hd : 0 < d) (h : b ≠ d) : own b d < (b + d) * log (1 + √2) := by
  have hder : ∀ x, 0 < x → HasDerivAt (fun x => own b x - (b + x) * log (1 + √2)) (L b x - log x - log (1 + √2)) x := fun x hx => by
    have h1 := ((hasDerivAt_id' x).const_add b).mul_const (log (1 + √2))
    have := (deriv_own hb hx).fun_sub h1
    simpa using this
  have hsq := own_square hb
  rcases lt_or_gt_of_ne h with h | h
  · obtain ⟨c, hc, he⟩ := exists_hasDerivAt_eq_slope (fun x => own b x - (b + x) * log (1 + √2)) _ h
      (fun x hx => (hder x (by linarith [hx.1])).continuousAt.continuousWithinAt) (fun x hx => hder x (by linarith [hx.1]))
    have hs := slope_sign hb (by linarith [hc.1]) hc.1
    have hneg : L b c - log c - log (1 + √2) < 0 := by linarith
    rw [he, div_lt_iff₀ (by linarith), zero_mul] at hneg
    linarith
  · obtain ⟨c, hc, he⟩ := exists_hasDerivAt_eq_slope (fun x => own b x - (b + x) * log (1 + √2)) _ h
      (fun x hx => (hder x (by linarith [hx.1])).continuousAt.continuousWithinAt) (fun x hx => hder x (by linarith [hx.1]))
    have hs := slope_sign' hb (by linarith [hc.1]) hc.2
    have hpos : 0 < L b c - log c - log (1 + √2) := by linarith
    rw [he, lt_div_iff₀ (by linarith), zero_mul] at hpos
    linarith

theorem term_own : termX 0 0 = 2 * log (1 + √2) ∧ termY 0 0 = 2 * log (1 + √2) := by
  have h := own_square (b := 1 / 2) (by norm_num)
  have e1 : hi 0 = 1 / 2 := by norm_num [hi]
  have e2 : lo 0 = -(1 / 2) := by norm_num [lo]
  have hn := L_neg (s := 1 / 2) (t := 1 / 2) (by norm_num)
  have hs : ∀ s t, L s (-t) = L s t := fun s t => by unfold L; rw [neg_sq]
  unfold own at h
  rw [termX_eq, termY_eq, e1, e2]
  simp only [hs, hn]
  constructor <;> linarith

/-- **C85 (negation)**: with different spacings the coefficient of the own cell is too large (the square roots in the code do not know the spacings). -/
theorem C85_rectangular_wrong {hx hy G v : ℝ} (h1 : 0 < hx) (h2 : 0 < hy) (h : hx ≠ hy) (hG : 0 < G) (hv : v < 1) :
    ∃ c, coefficient "zz" hx hy G v none none 0 0 = some c ∧ cell (pointLoad G v 'z' 'z') hx hy 0 0 < c := by
  have e : cell (pointLoad G v 'z' 'z') hx hy 0 0 = (1 - v) / (2 * π * G) * cell (fun s t => 1 / √(s ^ 2 + t ^ 2)) hx hy 0 0 := cell_const _ _ _ _ _ _
  refine ⟨(1 - v) / (2 * π * G) * (hx * termX 0 0 + hy * termY 0 0), by simp [coefficient], ?_⟩
  rw [e]
  have hpos : 0 < (1 - v) / (2 * π * G) := div_pos (by linarith) (by positivity)
  refine mul_lt_mul_of_pos_left ?_ hpos
  have b1 : hx * lo 0 = -(hx / 2) := by norm_num [lo]; ring
  have b2 : hx * hi 0 = hx / 2 := by norm_num [hi]; ring
  have b3 : hy * lo 0 = -(hy / 2) := by norm_num [lo]; ring
  have b4 : hy * hi 0 = hy / 2 := by norm_num [hi]; ring
  have hs : ∀ s t, L s (-t) = L s t := fun s t => by unfold L; rw [neg_sq]
  have hn1 := L_neg (s := hx / 2) (t := hy / 2) (by positivity)
  have hn2 := L_neg (s := hy / 2) (t := hx / 2) (by positivity)
  have hlt := own_lt (b := hx / 2) (d := hy / 2) (by positivity) (by positivity) (fun h' => h (by linarith))
  rw [cell_eq, double_recip (by rw [b1]; exact (by linarith : -(hx / 2) < 0).ne) (by rw [b2]; positivity), b1, b2, b3, b4, term_own.1, term_own.2]
  simp only [hs, hn1, hn2]
  unfold own at hlt
  linarith

example : (0 : ℝ) < 1 ∧ (0 : ℝ) < 2 ∧ (1 : ℝ) ≠ 2 ∧ (0 : ℝ) < 80 ∧ (0.3 : ℝ) < 1 := by norm_num

/-! ## C86 -/

/-- A combination of two of the fields. -/
theorem double_comb {a b c d : ℝ} (ha : a ≠ 0) (hb : b ≠ 0) (p q : ℝ) :
    ∫ t in c..d, ∫ s in a..b, (p * (1 / √(s ^ 2 + t ^ 2)) + q * (s ^ 2 / √(s ^ 2 + t ^ 2) ^ 3)) =
      p * (∫ t in c..d, ∫ s in a..b, 1 / √(s ^ 2 + t ^ 2)) + q * (∫ t in c..d, ∫ s in a..b, s ^ 2 / √(s ^ 2 + t ^ 2) ^ 3) := by
  have e : ∀ t : ℝ, t ≠ 0 → ∫ s in a..b, (p * (1 / √(s ^ 2 + t ^ 2)) + q * (s ^ 2 / √(s ^ 2 + t ^ 2) ^ 3)) =
      p * (L b t - L a t) + q * ((L b t - b / √(b ^ 2 + t ^ 2)) - (L a t - a / √(a ^ 2 + t ^ 2))) := fun t ht => by
    rw [intervalIntegral.integral_add ((integrable_recip ht a b).const_mul p) ((integrable_sq ht a b).const_mul q), intervalIntegral.integral_const_mul,
      intervalIntegral.integral_const_mul, inner_recip ht, inner_sq ht]
  rw [integral_of_inner e, integral_of_inner (fun t ht => inner_recip ht a b), integral_of_inner (fun t ht => inner_sq ht a b),
    intervalIntegral.integral_add (((integrable_L hb c d).sub (integrable_L ha c d)).const_mul p)
      ((((integrable_L hb c d).sub (integrable_over hb c d)).sub ((integrable_L ha c d).sub (integrable_over ha c d))).const_mul q),
    intervalIntegral.integral_const_mul, intervalIntegral.integral_const_mul]

theorem cell_comb {h : ℝ} (hh : 0 < h) (x y : ℤ) (p q : ℝ) :
    cell (fun s t => p * (1 / √(s ^ 2 + t ^ 2)) + q * (s ^ 2 / √(s ^ 2 + t ^ 2) ^ 3)) h h x y = p * (h * termX x y + h * termY x y) + q * (h * termY x y) := by
  rw [← cell_recip hh, ← cell_sq hh, cell_eq, cell_eq, cell_eq, double_comb (mul_ne_zero hh.ne' (lo_ne x)) (mul_ne_zero hh.ne' (hi_ne x))]

theorem cell_congr {f g : ℝ → ℝ → ℝ} {hx hy : ℝ} {x y : ℤ} (h : ∀ s t, t ≠ 0 → f s t = g s t) : cell f hx hy x y = cell g hx hy x y := by
  rw [cell_eq, cell_eq]
  refine ae_ne_zero fun t ht => ?_
  simp only [h _ t ht]

/-- **C86 (partial)**: the tangential and the coupling coefficients of a square grid are the displacements under a cell with unit traction, for these
components (the first letter is the direction of the displacement). Missing: the components `zx` and `yz` (they have the wrong sign) and rectangular grids
(except for `xy` and `yx`). -/
theorem C86_components_partial {h G v : ℝ} (hh : 0 < h) (x y : ℤ) :
    coefficient "xx" h h G v none none x y = some (cell (pointLoad G v 'x' 'x') h h x y) ∧
    coefficient "yy" h h G v none none x y = some (cell (pointLoad G v 'y' 'y') h h x y) ∧
    coefficient "xz" h h G v none none x y = some (cell (pointLoad G v 'x' 'z') h h x y) ∧
    coefficient "zy" h h G v none none x y = some (cell (pointLoad G v 'z' 'y') h h x y) := by
  refine ⟨?_, ?_, ?_, ?_⟩
  · have e : pointLoad G v 'x' 'x' = fun s t => 1 / (2 * π * G) * ((1 - v) * (1 / √(s ^ 2 + t ^ 2)) + v * (s ^ 2 / √(s ^ 2 + t ^ 2) ^ 3)) := rfl
    rw [e, cell_const, cell_comb hh]
    simp [coefficient]
    exact Or.inl (by ring)
  · have e : pointLoad G v 'y' 'y' = fun s t => 1 / (2 * π * G) * ((1 - v) * (1 / √(s ^ 2 + t ^ 2)) + v * (t ^ 2 / √(s ^ 2 + t ^ 2) ^ 3)) := rfl
    have e2 : cell (fun s t => (1 - v) * (1 / √(s ^ 2 + t ^ 2)) + v * (t ^ 2 / √(s ^ 2 + t ^ 2) ^ 3)) h h x y =
        cell (fun s t => 1 * (1 / √(s ^ 2 + t ^ 2)) + -v * (s ^ 2 / √(s ^ 2 + t ^ 2) ^ 3)) h h x y := by
      refine cell_congr fun s t ht => ?_
      have hr := (root_pos (s := s) ht).ne'
      have hq := sq_root s t
      field_simp
      linear_combination -v * hq
    rw [e, cell_const, e2, cell_comb hh]
    simp [coefficient]
    exact Or.inl (by ring)
  · have e : pointLoad G v 'x' 'z' = fun s t => -((1 - 2 * v) / (4 * π * G)) * (s / √(s ^ 2 + t ^ 2) ^ 2) := by
      funext s t
      simp only [pointLoad]
      ring
    rw [e, cell_const, cell_first hh]
    simp [coefficient]
    ring
  · have e : pointLoad G v 'z' 'y' = fun s t => (1 - 2 * v) / (4 * π * G) * (t / √(s ^ 2 + t ^ 2) ^ 2) := rfl
    rw [e, cell_const, cell_second hh]
    simp [coefficient]

example : (0 : ℝ) < 0.001 := by norm_num

/-- **C86 (partial)**: `xy` and `yx` on every grid. -/
theorem C86_shear {hx hy G v : ℝ} (h0 : hx ≠ 0) (x y : ℤ) :
    coefficient "xy" hx hy G v none none x y = some (cell (pointLoad G v 'x' 'y') hx hy x y) ∧
    coefficient "yx" hx hy G v none none x y = some (cell (pointLoad G v 'y' 'x') hx hy x y) := by
  have e1 : pointLoad G v 'x' 'y' = fun s t => v / (2 * π * G) * (s * t / √(s ^ 2 + t ^ 2) ^ 3) := rfl
  have e2 : pointLoad G v 'y' 'x' = fun s t => v / (2 * π * G) * (s * t / √(s ^ 2 + t ^ 2) ^ 3) := rfl
  rw [e1, e2, cell_const, cell_mixed h0]
  constructor <;> simp [coefficient]

example : (2 : ℝ) ≠ 0 := by norm_num

/-- **C86**: the two remaining components have the opposite sign of the displacement. -/
theorem C86_opposite {h G v : ℝ} (hh : 0 < h) (x y : ℤ) :
    coefficient "zx" h h G v none none x y = some (-cell (pointLoad G v 'z' 'x') h h x y) ∧
    coefficient "yz" h h G v none none x y = some (-cell (pointLoad G v 'y' 'z') h h x y) := by
  constructor
  · have e : pointLoad G v 'z' 'x' = fun s t => (1 - 2 * v) / (4 * π * G) * (s / √(s ^ 2 + t ^ 2) ^ 2) := rfl
    rw [e, cell_const, cell_first hh]
    simp [coefficient]
    ring
  · have e : pointLoad G v 'y' 'z' = fun s t => -((1 - 2 * v) / (4 * π * G)) * (t / √(s ^ 2 + t ^ 2) ^ 2) := by
      funext s t
      simp only [pointLoad]
      ring
    rw [e, cell_const, cell_second hh]
    simp [coefficient]

example := C86_opposite (h := 1e-6) (G := 80e9) (v := 0.3) (by norm_num) 2 (-3)

/-- A function that is positive away from 0 has a positive integral. -/
theorem integral_pos_ne {f : ℝ → ℝ} {c d : ℝ} (hcd : c < d) (hi : ∀ a b, IntervalIntegrable f volume a b) (hf : ∀ t, t ≠ 0 → c < t → t < d → 0 < f t) :
    0 < ∫ t in c..d, f t := by
  have one : ∀ a b, a < b → c ≤ a → b ≤ d → (b ≤ 0 ∨ 0 ≤ a) → 0 < ∫ t in a..b, f t := fun a b hab ha hb h0 => by
    refine intervalIntegral.intervalIntegral_pos_of_pos_on (hi a b) (fun t ht => hf t ?_ (by linarith [ht.1]) (by linarith [ht.2])) hab
    rcases h0 with h | h
    · exact (by linarith [ht.2] : t < 0).ne
    · exact (by linarith [ht.1] : 0 < t).ne'
  rcases le_or_gt d 0 with h | h
  · exact one c d hcd le_rfl le_rfl (Or.inl h)
  rcases le_or_gt 0 c with h' | h'
  · exact one c d hcd le_rfl le_rfl (Or.inr h')
  rw [← intervalIntegral.integral_add_adjacent_intervals (hi c 0) (hi 0 d)]
  exact add_pos (one c 0 h' le_rfl h.le (Or.inl le_rfl)) (one 0 d h h'.le le_rfl (Or.inr le_rfl))

theorem termXZ_pos {h : ℝ} (hh : 0 < h) {x : ℤ} (hx : 0 < x) (y : ℤ) : 0 < termXZ h h x y := by
  have h1 : (1 : ℝ) ≤ x := by exact_mod_cast hx
  have ha : 0 < h * lo x := mul_pos hh (by unfold lo; linarith)
  have hb : h * lo x < h * hi x := mul_lt_mul_of_pos_left (by unfold lo hi; linarith) hh
  have hc : h * lo y < h * hi y := mul_lt_mul_of_pos_left (by unfold lo hi; linarith) hh
  rw [← cell_first hh, cell_eq, integral_of_inner (fun t ht => inner_first ht (h * lo x) (h * hi x))]
  refine integral_pos_ne hc (fun a b => (integrable_log_sq (by linarith : h * hi x ≠ 0 ) a b).sub (integrable_log_sq ha.ne' a b)) (fun t ht _ _ => ?_)
  have : log ((h * lo x) ^ 2 + t ^ 2) < log ((h * hi x) ^ 2 + t ^ 2) := log_lt_log (by positivity) (by nlinarith)
  linarith

/-- **C86 (negation)**: the reciprocity of an elastic body fails between the normal direction and the x direction (away from the incompressible case):
the displacement along x under a normal load is not the normal displacement under a load along x with the offset reversed, whichever letter names the load. -/
theorem C86_reciprocity_wrong {h G v : ℝ} (hh : 0 < h) (hG : 0 < G) (hv : v ≠ 1 / 2) {x : ℤ} (hx : 0 < x) (y : ℤ) :
    coefficient "xz" h h G v none none x y ≠ coefficient "zx" h h G v none none (-x) (-y) := by
  have hp := termXZ_pos hh hx y
  have hn : termXZ h h (-x) (-y) = -termXZ h h x y := by
    unfold termXZ
    have e1 : hi (-x) = -lo x := by simp only [hi, lo]; push_cast; ring
    have e2 : lo (-x) = -hi x := by simp only [hi, lo]; push_cast; ring
    have e3 : hi (-y) = -lo y := by simp only [hi, lo]; push_cast; ring
    have e4 : lo (-y) = -hi y := by simp only [hi, lo]; push_cast; ring
    have r : ∀ s t s' t' : ℝ, log ((s ^ 2 + t ^ 2) / (s' ^ 2 + t' ^ 2)) = - log ((s' ^ 2 + t' ^ 2) / (s ^ 2 + t ^ 2)) := fun s t s' t' => by
      rw [← log_inv, inv_div]
    simp only [e1, e2, e3, e4, neg_sq, neg_div_neg_eq]
    rw [r (lo x) (lo y), r (hi x) (hi y)]
    ring
  simp only [coefficient]
  simp [hn]
  intro h0
  have h1 : (2 * v - 1) / (4 * π * G) * termXZ h h x y = 0 := by linarith
  rcases mul_eq_zero.mp h1 with h2 | h2
  · rcases div_eq_zero_iff.mp h2 with h3 | h3
    · exact hv (by linarith)
    · have : 0 < 4 * π * G := by positivity
      linarith
  · linarith

example := C86_reciprocity_wrong (h := 1) (G := 80) (v := 0.3) (by norm_num) (by norm_num) (by norm_num) (x := 2) (by norm_num) (-3)

/-- The displacements themselves are reciprocal (the specification is not at fault). -/
theorem C86_spec_reciprocal (G v s t : ℝ) (a b : Char) : pointLoad G v a b s t = pointLoad G v b a (-s) (-t) := by
  by_cases ax : a = 'x' <;> by_cases ay : a = 'y' <;> by_cases az : a = 'z' <;> by_cases bx : b = 'x' <;> by_cases byy : b = 'y' <;> by_cases bz : b = 'z' <;>
    simp_all [pointLoad] <;> ring_nf

example : (0 : ℝ) < 1 ∧ (0 : ℝ) < 80 ∧ (0.3 : ℝ) ≠ 1 / 2 ∧ (0 : ℤ) < 1 := by norm_num

/-- **C86, exchange of the axes**, on every grid: `yy` is `xx` and `zy` is the negative of `xz` with offsets and spacings exchanged. -/
theorem C86_exchange (hx hy G v : ℝ) (x y : ℤ) :
    coefficient "yy" hx hy G v none none x y = coefficient "xx" hy hx G v none none y x ∧
    coefficient "zy" hx hy G v none none x y = (coefficient "xz" hy hx G v none none y x).map Neg.neg := by
  have e1 : ∀ a b : ℤ, termX a b = termY b a := fun a b => by rw [termX_eq, termY_eq]
  have e2 : termZY hx hy x y = termXZ hy hx y x := by
    unfold termZY termXZ
    simp only [add_comm (hi y ^ 2), add_comm (lo y ^ 2)]
  simp only [coefficient]
  simp [e1, e2]
  constructor <;> ring_nf <;> tauto

/-! ## C87 -/

theorem L_strict {a b t : ℝ} (h : a < b) (ht : t ≠ 0) : L a t < L b t := by
  have := intervalIntegral.intervalIntegral_pos_of_pos_on (integrable_recip ht a b) (fun s _ => one_div_pos.mpr (root_pos ht)) h
  rw [inner_recip ht] at this
  linarith

theorem lo_lt_hi (d : ℤ) : lo d < hi d := by unfold lo hi; linarith

theorem termY_pos (x y : ℤ) : 0 < termY x y := by
  have h := cell_sq one_pos x y
  rw [cell_eq] at h
  have e := integral_of_inner (c := 1 * lo y) (d := 1 * hi y) (fun t ht => inner_sq ht (1 * lo x) (1 * hi x))
  rw [e] at h
  rw [one_mul (termY x y)] at h
  rw [← h]
  have n1 : 1 * hi x ≠ 0 := by rw [one_mul]; exact hi_ne x
  have n2 : 1 * lo x ≠ 0 := by rw [one_mul]; exact lo_ne x
  refine integral_pos_ne (by rw [one_mul, one_mul]; exact lo_lt_hi y)
    (fun a b => ((integrable_L n1 a b).sub (integrable_over n1 a b)).sub ((integrable_L n2 a b).sub (integrable_over n2 a b))) (fun t ht _ _ => ?_)
  rw [← inner_sq ht]
  refine integral_pos_ne (by rw [one_mul, one_mul]; exact lo_lt_hi x) (fun a b => integrable_sq ht a b) (fun s hs _ _ => ?_)
  have := root_pos (s := s) ht
  positivity

/-- **C87**: the normal coefficient is positive, for every offset and all spacings. -/
theorem C87_positive {hx hy G v : ℝ} (h1 : 0 < hx) (h2 : 0 < hy) (hG : 0 < G) (hv : v < 1) (x y : ℤ) :
    ∃ c, coefficient "zz" hx hy G v none none x y = some c ∧ 0 < c := by
  refine ⟨(1 - v) / (2 * π * G) * (hx * termX x y + hy * termY x y), by simp [coefficient], ?_⟩
  have hX : 0 < termX x y := by
    have := termY_pos y x
    rw [termY_eq] at this
    rwa [termX_eq]
  have := termY_pos x y
  have : 0 < 1 - v := by linarith
  positivity

example : (0 : ℝ) < 1 ∧ (0 : ℝ) < 2 ∧ (0 : ℝ) < 80 ∧ (0.3 : ℝ) < 1 := by norm_num

/-- The sum of both brackets falls with the distance along x. -/
theorem recip_decay {x : ℤ} (hx : 0 ≤ x) (y : ℤ) : termX (x + 1) y + termY (x + 1) y < termX x y + termY x y := by
  have c1 := cell_recip one_pos x y
  have c2 := cell_recip one_pos (x + 1) y
  rw [cell_eq, integral_of_inner (fun t ht => inner_recip ht _ _)] at c1 c2
  simp only [one_mul] at c1 c2
  rw [← c1, ← c2, ← sub_pos, ← intervalIntegral.integral_sub ((integrable_L (hi_ne x) _ _).sub (integrable_L (lo_ne x) _ _))
    ((integrable_L (hi_ne _) _ _).sub (integrable_L (lo_ne _) _ _))]
  refine integral_pos_ne (lo_lt_hi y) (fun a b => ((integrable_L (hi_ne x) _ _).sub (integrable_L (lo_ne x) _ _)).sub
    ((integrable_L (hi_ne _) _ _).sub (integrable_L (lo_ne _) _ _))) (fun t ht _ _ => ?_)
  have e1 : hi (x + 1) = hi x + 1 := by unfold hi; push_cast; ring
  have e2 : lo (x + 1) = lo x + 1 := by unfold lo; push_cast; ring
  have hs : L (hi (x + 1)) t - L (lo (x + 1)) t = ∫ s in (lo x)..(hi x), 1 / √((s + 1) ^ 2 + t ^ 2) := by
    rw [intervalIntegral.integral_comp_add_right (fun s => 1 / √(s ^ 2 + t ^ 2)), inner_recip ht, e1, e2]
  have hcont : Continuous fun s : ℝ => 1 / √((s + 1) ^ 2 + t ^ 2) := continuous_const.div (by fun_prop) fun s => (root_pos ht).ne'
  rw [hs, ← inner_recip ht, ← intervalIntegral.integral_sub (integrable_recip ht _ _) (hcont.intervalIntegrable _ _)]
  refine intervalIntegral.intervalIntegral_pos_of_pos_on ((integrable_recip ht _ _).sub (hcont.intervalIntegrable _ _)) (fun s hs => ?_) (lo_lt_hi x)
  have h0 : (0 : ℝ) ≤ x := by exact_mod_cast hx
  have hlo : -(1 / 2) ≤ lo x := by unfold lo; linarith
  have hs1 := hs.1
  rw [sub_pos]
  refine one_div_lt_one_div_of_lt (root_pos ht) (sqrt_lt_sqrt (by positivity) ?_)
  nlinarith

/-- **C87**: on a square grid the normal coefficient falls strictly with the distance along either axis. -/
theorem C87_decay {h G v : ℝ} (hh : 0 < h) (hG : 0 < G) (hv : v < 1) {x y : ℤ} (hx : 0 ≤ x) :
    (∃ c d, coefficient "zz" h h G v none none x y = some c ∧ coefficient "zz" h h G v none none (x + 1) y = some d ∧ d < c) ∧
    (∃ c d, coefficient "zz" h h G v none none y x = some c ∧ coefficient "zz" h h G v none none y (x + 1) = some d ∧ d < c) := by
  have hp : 0 < (1 - v) / (2 * π * G) := div_pos (by linarith) (by positivity)
  have hd := recip_decay hx y
  constructor
  · refine ⟨(1 - v) / (2 * π * G) * (h * termX x y + h * termY x y), (1 - v) / (2 * π * G) * (h * termX (x + 1) y + h * termY (x + 1) y),
      by simp [coefficient], by simp [coefficient], mul_lt_mul_of_pos_left ?_ hp⟩
    rw [← mul_add, ← mul_add]
    exact mul_lt_mul_of_pos_left hd hh
  · refine ⟨(1 - v) / (2 * π * G) * (h * termX y x + h * termY y x), (1 - v) / (2 * π * G) * (h * termX y (x + 1) + h * termY y (x + 1)),
      by simp [coefficient], by simp [coefficient], mul_lt_mul_of_pos_left ?_ hp⟩
    have s1 : ∀ a b : ℤ, termX a b = termY b a := fun a b => by rw [termX_eq, termY_eq]
    rw [← mul_add, ← mul_add, s1 y x, s1 y (x + 1), ← s1 x y, ← s1 (x + 1) y]
    have := mul_lt_mul_of_pos_left hd hh
    linarith

example : (0 : ℝ) < 1 ∧ (0 : ℝ) < 80 ∧ (0.3 : ℝ) < 1 ∧ (0 : ℤ) ≤ 3 := by norm_num

/-! ## C88 -/

theorem log_conj {a b : ℝ} (ha : 0 < a) (hb : 0 < b) : log ((b + √(a ^ 2 + b ^ 2)) / (√(a ^ 2 + b ^ 2) - b)) = 2 * (L b a - log a) := by
  have hq := sq_root a b
  have hlt : b < √(a ^ 2 + b ^ 2) := lt_sqrt_of_sq_lt (by nlinarith)
  have hs : √(a ^ 2 + b ^ 2) = √(b ^ 2 + a ^ 2) := by rw [add_comm]
  have e : (b + √(a ^ 2 + b ^ 2)) / (√(a ^ 2 + b ^ 2) - b) = ((b + √(a ^ 2 + b ^ 2)) / a) ^ 2 := by
    have : √(a ^ 2 + b ^ 2) - b ≠ 0 := by linarith
    field_simp
    linear_combination (-1) * hq
  rw [e, log_pow, log_div (by positivity) ha.ne']
  unfold L
  rw [hs]
  norm_num

theorem own_pos {b d : ℝ} (hb : 0 < b) (hd : 0 < d) : 0 < own b d := by
  have key : ∀ p q : ℝ, 0 < p → 0 < q → log p < L q p := fun p q hp hq => by
    refine log_lt_log hp ?_
    have : p ≤ √(q ^ 2 + p ^ 2) := le_sqrt_of_sq_le (by nlinarith)
    linarith
  have h1 := key b d hb hd
  have h2 := key d b hd hb
  unfold own
  have : 0 < L d b - log b := by linarith
  have : 0 < L b d - log d := by linarith
  positivity

theorem descriptive_eq {youngs v a b : ℝ} (load : Option ℝ) (ha : 0 < a) (hb : 0 < b) :
    descriptiveHeight youngs v load a (some b) = 4 * own a b * loadOrOne load * (1 - v ^ 2) / π / youngs / a / b := by
  unfold descriptiveHeight
  simp only
  rw [log_conj ha hb, add_comm (a ^ 2) (b ^ 2), log_conj hb ha]
  unfold own
  ring

/-- The displacement at the centre of a grid square under a total load spread over it. -/
theorem cell_own {G v a b : ℝ} (ha : 0 < a) (hb : 0 < b) : cell (pointLoad G v 'z' 'z') a b 0 0 = (1 - v) / (2 * π * G) * (2 * own a b) := by
  have e : cell (pointLoad G v 'z' 'z') a b 0 0 = (1 - v) / (2 * π * G) * cell (fun s t => 1 / √(s ^ 2 + t ^ 2)) a b 0 0 := cell_const _ _ _ _ _ _
  rw [e]
  congr 1
  have b1 : a * lo 0 = -(a / 2) := by norm_num [lo]; ring
  have b2 : a * hi 0 = a / 2 := by norm_num [hi]; ring
  have b3 : b * lo 0 = -(b / 2) := by norm_num [lo]; ring
  have b4 : b * hi 0 = b / 2 := by norm_num [hi]; ring
  have hs : ∀ s t, L s (-t) = L s t := fun s t => by unfold L; rw [neg_sq]
  have hn1 := L_neg (s := a / 2) (t := b / 2) (by positivity)
  have hn2 := L_neg (s := b / 2) (t := a / 2) (by positivity)
  have s1 := L_scale (h := 1 / 2) (s := a) (t := b) (by norm_num) hb.ne'
  have s2 := L_scale (h := 1 / 2) (s := b) (t := a) (by norm_num) ha.ne'
  have l1 : log (a / 2) = log (1 / 2) + log a := by rw [← log_mul (by norm_num) ha.ne']; congr 1; ring
  have l2 : log (b / 2) = log (1 / 2) + log b := by rw [← log_mul (by norm_num) hb.ne']; congr 1; ring
  rw [one_div_mul_eq_div, one_div_mul_eq_div] at s1 s2
  rw [cell_eq, double_recip (by rw [b1]; exact (by linarith : -(a / 2) < 0).ne) (by rw [b2]; positivity), b1, b2, b3, b4]
  simp only [hs, hn1, hn2, s1, s2, l1, l2]
  unfold own
  ring

/-- **C88 (partial)**: the descriptive height is twice the displacement at the centre of one grid square that carries the total load; a missing or zero load
counts as 1. -/
theorem C88_twice_partial {youngs v a b : ℝ} (hv : -1 < v) (hE : 0 < youngs) (ha : 0 < a) (hb : 0 < b) (height : ℝ) (load : Option ℝ) (inverse : Bool) :
    nonDimHeight height youngs v load a (some b) inverse true =
      2 * (loadOrOne load / (a * b) * cell (pointLoad (youngs / (2 * (1 + v))) v 'z' 'z') a b 0 0) := by
  have h1 : 1 + v ≠ 0 := by linarith
  have e : nonDimHeight height youngs v load a (some b) inverse true = descriptiveHeight youngs v load a (some b) := by simp [nonDimHeight]
  rw [e, descriptive_eq load ha hb, cell_own ha hb]
  field_simp
  ring

example := C88_twice_partial (youngs := 200) (v := 0.3) (a := 1) (b := 2) (by norm_num) (by norm_num) (by norm_num) (by norm_num) 3 (some 5) true

/-- **C88**: without a second spacing the grid is square. -/
theorem C88_square (height youngs v : ℝ) (load : Option ℝ) (a : ℝ) (inverse uz : Bool) :
    nonDimHeight height youngs v load a none inverse uz = nonDimHeight height youngs v load a (some a) inverse uz := rfl

theorem descriptive_ne {youngs v a b load : ℝ} (hv : |v| < 1) (hE : 0 < youngs) (ha : 0 < a) (hb : 0 < b) (hl : 0 ≤ load) :
    0 < descriptiveHeight youngs v (some load) a (some b) := by
  have hw : 0 < loadOrOne (some load) := by
    unfold loadOrOne
    simp only
    split_ifs with h
    · norm_num
    · exact lt_of_le_of_ne hl (Ne.symm h)
  have ho := own_pos ha hb
  have h1 : 0 < 1 - v ^ 2 := by
    have := sq_abs v
    nlinarith [abs_nonneg v]
  rw [descriptive_eq (some load) ha hb]
  positivity

/-- **C88 (negation)**: it is not the displacement caused by the load on one grid square (the documented meaning, eq. 3.25 with half widths). -/
theorem C88_documented_wrong {youngs v a b load : ℝ} (hv : |v| < 1) (hE : 0 < youngs) (ha : 0 < a) (hb : 0 < b) (hl : 0 < load) (height : ℝ) (inverse : Bool) :
    nonDimHeight height youngs v (some load) a (some b) inverse true ≠ load / (a * b) * cell (pointLoad (youngs / (2 * (1 + v))) v 'z' 'z') a b 0 0 := by
  have hp := descriptive_ne hv hE ha hb hl.le
  have h2 := C88_twice_partial (abs_lt.mp hv).1 hE ha hb height (some load) inverse
  have e : nonDimHeight height youngs v (some load) a (some b) inverse true = descriptiveHeight youngs v (some load) a (some b) := by simp [nonDimHeight]
  have el : loadOrOne (some load) = load := by simp [loadOrOne, hl.ne']
  rw [el] at h2
  rw [e] at h2 ⊢
  intro h
  linarith

example := C88_documented_wrong (youngs := 200) (v := 0.3) (a := 1) (b := 2) (load := 5) (by norm_num [abs_lt]) (by norm_num) (by norm_num) (by norm_num) (by norm_num) 3 true

/-- **C88**: making a height dimensional again gives the height back. -/
theorem C88_round_trip {youngs v a b load : ℝ} (hv : |v| < 1) (hE : 0 < youngs) (ha : 0 < a) (hb : 0 < b) (hl : 0 ≤ load) (height : ℝ) :
    nonDimHeight (nonDimHeight height youngs v (some load) a (some b) false false) youngs v (some load) a (some b) true false = height ∧
    nonDimHeight (nonDimHeight height youngs v (some load) a (some b) true false) youngs v (some load) a (some b) false false = height := by
  have h := (descriptive_ne hv hE ha hb hl).ne'
  simp [nonDimHeight, h]

example := C88_round_trip (youngs := 200) (v := 0.3) (a := 1) (b := 2) (load := 5) (by norm_num [abs_lt]) (by norm_num) (by norm_num) (by norm_num) (by norm_num) 3

/-- **C88**: the height scales with one over the load. -/
theorem C88_load {youngs v a b load : ℝ} (ha : 0 < a) (hb : 0 < b) (hl : 0 < load) (height : ℝ) :
    nonDimHeight height youngs v (some load) a (some b) false false = nonDimHeight height youngs v none a (some b) false false / load := by
  simp only [nonDimHeight, descriptive_eq _ ha hb]
  simp [loadOrOne, hl.ne']
  field_simp

example : |(0.3 : ℝ)| < 1 ∧ (0 : ℝ) < 200 ∧ (0 : ℝ) < 1 ∧ (0 : ℝ) < 2 ∧ (0 : ℝ) ≤ 0 := by norm_num [abs_lt]

end

end Verif.Bouss
