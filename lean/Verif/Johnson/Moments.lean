import Mathlib.Probability.Distributions.Gaussian.Real
import Mathlib.Tactic.Linarith
import Mathlib.Tactic.FieldSimp
import Mathlib.Tactic.Positivity
import Mathlib.Tactic.Ring
import Mathlib.Tactic.LinearCombination
import Verif.Johnson.Spec

/-!
# C82: Johnson distributions by moments

A distribution with quantile function `Q` (of the normal score) is the distribution of `Q(Z)` for a standard normal `Z`; its moments are integrals against the Gaussian measure of Mathlib.
-/

namespace Verif.Johnson

open Real MeasureTheory ProbabilityTheory

/-- The standard normal distribution. -/
noncomputable abbrev std : Measure ℝ := gaussianReal 0 1

/-- The expectation of `f(Z)`. -/
noncomputable def expect (f : ℝ → ℝ) : ℝ := ∫ z, f z ∂std

/-- The distribution has this mean and central moments of this second, third and fourth order; the expectations exist. -/
structure HasMoments (d : Dist) (mean m2 m3 m4 : ℝ) : Prop where
  exists_quantile : ∃ Q : ℝ → ℝ, (∀ z, d.quantile z = some (Q z)) ∧ (∀ k ≤ 4, Integrable (fun z => (Q z - mean) ^ k) std) ∧
    expect Q = mean ∧ expect (fun z => (Q z - mean) ^ 2) = m2 ∧ expect (fun z => (Q z - mean) ^ 3) = m3 ∧ expect (fun z => (Q z - mean) ^ 4) = m4

/-- A sum of exponentials. -/
noncomputable def expSum (l : List (ℝ × ℝ)) (z : ℝ) : ℝ := (l.map fun c => c.1 * exp (c.2 * z)).sum

theorem integrable_expSum (l : List (ℝ × ℝ)) : Integrable (expSum l) std := by
  induction l with
  | nil =>
    have : expSum [] = fun _ => (0 : ℝ) := by funext z; simp [expSum]
    rw [this]
    exact integrable_const 0
  | cons c l ih =>
    have : expSum (c :: l) = fun z => c.1 * exp (c.2 * z) + expSum l z := by
      funext z; simp [expSum]
    rw [this]
    exact ((integrable_exp_mul_gaussianReal c.2).const_mul c.1).add ih

theorem expect_exp (t : ℝ) : expect (fun z => exp (t * z)) = exp (t ^ 2 / 2) := by
  have h := congrFun (mgf_fun_id_gaussianReal (μ := 0) (v := 1)) t
  unfold mgf at h
  unfold expect
  rw [h]
  congr 1
  simp

theorem expect_expSum (l : List (ℝ × ℝ)) : expect (expSum l) = (l.map fun c => c.1 * exp (c.2 ^ 2 / 2)).sum := by
  induction l with
  | nil => simp [expSum, expect]
  | cons c l ih =>
    have : expSum (c :: l) = fun z => c.1 * exp (c.2 * z) + expSum l z := by
      funext z; simp [expSum]
    rw [this]
    unfold expect at *
    rw [integral_add ((integrable_exp_mul_gaussianReal c.2).const_mul c.1) (integrable_expSum l), ih, integral_const_mul]
    have h := expect_exp c.2
    unfold expect at h
    rw [h]
    simp

theorem expect_of_eq {f : ℝ → ℝ} (l : List (ℝ × ℝ)) (h : ∀ z, f z = expSum l z) : Integrable f std ∧ expect f = (l.map fun c => c.1 * exp (c.2 ^ 2 / 2)).sum := by
  rw [funext h]
  exact ⟨integrable_expSum l, expect_expSum l⟩

/-! ## Lognormal -/

/-- The moments of a shifted lognormal distribution. -/
theorem lognorm_moments (s loc scale w : ℝ) (hs : 0 < s) (hscale : 0 < scale) (hw : exp (s ^ 2) = w) :
    HasMoments (.lognorm s loc (some scale)) (loc + scale * exp (s ^ 2 / 2)) (scale ^ 2 * (w * (w - 1))) (scale ^ 3 * exp (s ^ 2 / 2) ^ 3 * ((w - 1) ^ 2 * (w + 2)))
      (scale ^ 4 * (w ^ 2 * (w - 1) ^ 2 * (w ^ 4 + 2 * w ^ 3 + 3 * w ^ 2 - 3))) := by
  set h := exp (s ^ 2 / 2) with hh
  have hw2 : w = h ^ 2 := by rw [← hw, hh, ← exp_nat_mul]; congr 1; push_cast; ring
  have e0 : ∀ z, exp (0 * z) = 1 := fun z => by rw [zero_mul, exp_zero]
  have ek : ∀ (k : ℕ) (z : ℝ), exp ((k * s) * z) = exp (s * z) ^ k := by
    intro k z; rw [← exp_nat_mul]; congr 1; ring
  have e2 := ek 2; have e3 := ek 3; have e4 := ek 4
  have hk : ∀ k : ℕ, exp ((k * s) ^ 2 / 2) = h ^ (k ^ 2) := by
    intro k; rw [hh, ← exp_nat_mul]; congr 1; push_cast; ring
  have h2 := hk 2; have h3 := hk 3; have h4 := hk 4
  push_cast at e2 e3 e4 h2 h3 h4
  have h0 : exp ((0 : ℝ) ^ 2 / 2) = 1 := by norm_num
  have mean := expect_of_eq (f := fun z => loc + scale * exp (s * z)) [(loc, 0), (scale, s)] (by intro z; simp [expSum])
  have sub : ∀ z, loc + scale * exp (s * z) - (loc + scale * h) = scale * (exp (s * z) - h) := fun z => by ring
  have c1 := expect_of_eq (f := fun z => loc + scale * exp (s * z) - (loc + scale * h)) [(-scale * h, 0), (scale, s)]
    (by intro z; simp only [expSum, List.map_cons, List.map_nil, List.sum_cons, List.sum_nil, e0]; ring)
  have c2 := expect_of_eq (f := fun z => (loc + scale * exp (s * z) - (loc + scale * h)) ^ 2) [(scale ^ 2 * h ^ 2, 0), (-2 * scale ^ 2 * h, s), (scale ^ 2, 2 * s)]
    (by intro z; simp only [expSum, List.map_cons, List.map_nil, List.sum_cons, List.sum_nil, e0, e2]; ring)
  have c3 := expect_of_eq (f := fun z => (loc + scale * exp (s * z) - (loc + scale * h)) ^ 3) [(-scale ^ 3 * h ^ 3, 0), (3 * scale ^ 3 * h ^ 2, s), (-3 * scale ^ 3 * h, 2 * s), (scale ^ 3, 3 * s)]
    (by intro z; simp only [expSum, List.map_cons, List.map_nil, List.sum_cons, List.sum_nil, e0, e2, e3]; ring)
  have c4 := expect_of_eq (f := fun z => (loc + scale * exp (s * z) - (loc + scale * h)) ^ 4)
    [(scale ^ 4 * h ^ 4, 0), (-4 * scale ^ 4 * h ^ 3, s), (6 * scale ^ 4 * h ^ 2, 2 * s), (-4 * scale ^ 4 * h, 3 * s), (scale ^ 4, 4 * s)]
    (by intro z; simp only [expSum, List.map_cons, List.map_nil, List.sum_cons, List.sum_nil, e0, e2, e3, e4]; ring)
  simp only [List.map_cons, List.map_nil, List.sum_cons, List.sum_nil, h0, h2, h3, h4, ← hh] at mean c1 c2 c3 c4
  refine ⟨fun z => loc + scale * exp (s * z), fun z => ?_, fun k hk => ?_, ?_, ?_, ?_, ?_⟩
  · simp only [Dist.quantile]
    rw [if_pos ⟨hs, hscale⟩]
  · interval_cases k
    · simpa using (integrable_const (1 : ℝ) : Integrable (fun _ : ℝ => (1 : ℝ)) std)
    · simpa using c1.1
    · exact c2.1
    · exact c3.1
    · exact c4.1
  · rw [mean.2]; ring
  · rw [c2.2, hw2]; ring
  · rw [c3.2, hw2]; ring
  · rw [c4.2, hw2]; ring

/-- The root in `omegaOf` is the solution of the cubic equation for the skewness of the lognormal distribution. -/
theorem omega_cubic (r : ℝ) : (omegaOf r + 2) ^ 2 * (omegaOf r - 1) = r ^ 2 ∧ 1 ≤ omegaOf r ∧ (r ≠ 0 → 1 < omegaOf r) := by
  unfold omegaOf
  dsimp only
  set x := 0.5 * r ^ 2 + 1 with hx
  set y := r * √(0.25 * r ^ 2 + 1) with hy
  have hy2 : y ^ 2 = r ^ 2 * (0.25 * r ^ 2 + 1) := by rw [hy, mul_pow, sq_sqrt (by positivity)]
  have hprod : (x + y) * (x - y) = 1 := by
    rw [show (x + y) * (x - y) = x ^ 2 - y ^ 2 by ring, hy2, hx]; ring
  have hxpos : 0 < x := by rw [hx]; positivity
  have h1 : 0 < x + y := by
    by_contra hc
    have h2 : 0 < x - y := by linarith
    nlinarith
  have h2 : 0 < x - y := by
    by_contra hc
    nlinarith
  set a := (x + y) ^ (1 / 3 : ℝ) with ha
  set b := (x - y) ^ (1 / 3 : ℝ) with hb
  have ha3 : a ^ 3 = x + y := by
    rw [ha, ← rpow_natCast, ← rpow_mul h1.le]; norm_num
  have hb3 : b ^ 3 = x - y := by
    rw [hb, ← rpow_natCast, ← rpow_mul h2.le]; norm_num
  have hab : a * b = 1 := by rw [ha, hb, ← mul_rpow h1.le h2.le, hprod, one_rpow]
  have hapos : 0 < a := rpow_pos_of_pos h1 _
  have hbpos : 0 < b := rpow_pos_of_pos h2 _
  have hcube : (a + b - 1 + 2) ^ 2 * (a + b - 1 - 1) = r ^ 2 := by
    have hsum : a ^ 3 + b ^ 3 = r ^ 2 + 2 := by rw [ha3, hb3, hx]; ring
    linear_combination hsum + 3 * (a + b) * hab
  have hge : 2 ≤ a + b := by nlinarith [sq_nonneg (a - b)]
  refine ⟨hcube, by linarith, fun hr => ?_⟩
  rcases hge.lt_or_eq with h | h
  · linarith
  · exfalso
    rw [← h] at hcube
    norm_num at hcube
    exact hr (pow_eq_zero_iff (two_ne_zero)|>.1 hcube.symm)

theorem slFit_parameters (sd omega : ℝ) (hsd : 0 < sd) (ho : 1 < omega) (hne : omega ≠ exp 1) (mean r : ℝ) (hr : 0 < r) :
    ∃ loc scale, slFit mean sd r omega = .ok (.lognorm √(log omega) loc (some scale)) ∧ 0 < scale ∧ scale ^ 2 * (omega * (omega - 1)) = sd ^ 2 ∧ loc + scale * exp (√(log omega) ^ 2 / 2) = mean := by
  have hlog : 0 < log omega := log_pos ho
  set s := √(log omega) with hs
  have hspos : 0 < s := sqrt_pos.2 hlog
  have hs2 : s ^ 2 = log omega := sq_sqrt hlog.le
  have hs1 : s ≠ 1 := by
    intro h1
    rw [h1] at hs2
    apply hne
    rw [← exp_log (by linarith : 0 < omega), ← hs2]; norm_num
  have hlogd : log (1 / s) ≠ 0 := by
    rw [one_div, log_inv, neg_ne_zero]
    intro h0
    rcases log_eq_zero.1 h0 with h | h | h
    · linarith
    · exact hs1 h
    · linarith
  have hsq : log (1 / s) * (1 / s) ^ 2 ≠ 0 := mul_ne_zero hlogd (by positivity)
  set q := omega * (omega - 1) / sd ^ 2 with hq
  have hqpos : 0 < q := by rw [hq]; have : 0 < omega - 1 := by linarith
                           positivity
  refine ⟨1 * mean - exp ((0.5 / (1 / s) - 0.5 * (1 / s) * log q) / (1 / s)), exp (-(log q / 2)), ?_, exp_pos _, ?_, ?_⟩
  · unfold slFit johnsonsl
    dsimp only
    rw [if_neg (by linarith : ¬r < 0), ← hs, if_neg hspos.ne', div_one, log_one, if_pos ⟨one_pos, by positivity, hsq⟩, ← hq, one_div_one_div]
    congr 5
    have : s ≠ 0 := hspos.ne'
    field_simp
    ring
  · rw [← exp_nat_mul, show ((2 : ℕ) : ℝ) * -(log q / 2) = -log q by push_cast; ring, exp_neg, exp_log hqpos, hq]
    have : omega - 1 ≠ 0 := by linarith
    have : omega ≠ 0 := by linarith
    field_simp
  · rw [← exp_add, show (0.5 / (1 / s) - 0.5 * (1 / s) * log q) / (1 / s) = -(log q / 2) + s ^ 2 / 2 by
      have : s ≠ 0 := hspos.ne'
      field_simp
      ring]
    ring

/-- The conditions under which the fit by moments is lognormal. -/
def InLognormalCase (sd r beta2 : ℝ) : Prop :=
  0 < sd ∧ (0 ≤ beta2 → r ^ 2 + 1 + 1 / 100 < beta2) ∧ ¬(|r| < 1 / 100 ∧ |beta2 - 3| < 1 / 100) ∧ (beta2 < 0 ∨ |beta2Lognormal (omegaOf r) - beta2| < 1 / 100)

theorem fit_sl (sb : Except PyErr Dist) (su : Except PyErr (ℝ × ℝ)) (mean sd r beta2 : ℝ) (h : InLognormalCase sd r beta2) : fitByMoments sb su mean sd r beta2 = slFit mean sd r (omegaOf r) := by
  obtain ⟨h1, h2, h3, h4⟩ := h
  unfold fitByMoments
  dsimp only
  rw [if_neg (by linarith), if_neg h1.ne', if_neg (by rintro ⟨a, b⟩; have := h2 a; unfold tolerance at b; linarith), if_neg (by rintro ⟨a, b⟩; have := h2 a; unfold tolerance at b; linarith),
    if_neg (by unfold tolerance; exact h3), if_pos]
  unfold tolerance
  rcases h4 with h | h
  · rw [if_pos h, sub_self]; norm_num
  · by_cases hb : beta2 < 0
    · rw [if_pos hb, sub_self]; norm_num
    · rw [if_neg hb]; exact h

/-- **C82, lognormal distributions with positive skewness, partial.** The mean, the standard deviation and the skewness are those asked for (the kurtosis is that of the lognormal distribution, which is within the tolerance). Not included are parameters for which the result is nan, see below. -/
theorem C82_lognormal_partial (sb : Except PyErr Dist) (su : Except PyErr (ℝ × ℝ)) (mean sd r beta2 : ℝ) (h : InLognormalCase sd r beta2) (hr : 0 < r) (hne : omegaOf r ≠ exp 1) :
    ∃ d, fitByMoments sb su mean sd r beta2 = .ok d ∧ HasMoments d mean (sd ^ 2) (r * sd ^ 3) (beta2Lognormal (omegaOf r) * sd ^ 4) := by
  rw [fit_sl sb su mean sd r beta2 h]
  obtain ⟨hsd, -⟩ := h
  obtain ⟨hc, -, ho⟩ := omega_cubic r
  have ho := ho hr.ne'
  obtain ⟨loc, scale, he, hsc, hvar, hmean⟩ := slFit_parameters sd (omegaOf r) hsd ho hne mean r hr
  refine ⟨_, he, ?_⟩
  set w := omegaOf r with hw
  have hlog : 0 < log w := log_pos ho
  set s := √(log w) with hs
  have hs2 : s ^ 2 = log w := sq_sqrt hlog.le
  have hexp : exp (s ^ 2) = w := by rw [hs2, exp_log (by linarith)]
  have M := lognorm_moments s loc scale w (sqrt_pos.2 hlog) hsc hexp
  rw [hmean, hvar] at M
  have h2 : exp (s ^ 2 / 2) ^ 2 = w := by rw [← exp_nat_mul, ← hexp]; congr 1; push_cast; ring
  set g := exp (s ^ 2 / 2) with hg
  have hgpos : 0 < g := exp_pos _
  have e3 : scale ^ 3 * g ^ 3 * ((w - 1) ^ 2 * (w + 2)) = r * sd ^ 3 := by
    have hsq : (scale ^ 3 * g ^ 3 * ((w - 1) ^ 2 * (w + 2))) ^ 2 = (r * sd ^ 3) ^ 2 := by
      have e : (r * sd ^ 3) ^ 2 = r ^ 2 * (sd ^ 2) ^ 3 := by ring
      rw [e, ← hvar, ← hc]
      calc (scale ^ 3 * g ^ 3 * ((w - 1) ^ 2 * (w + 2))) ^ 2 = scale ^ 6 * (g ^ 2) ^ 3 * ((w - 1) ^ 4 * (w + 2) ^ 2) := by ring
        _ = scale ^ 6 * w ^ 3 * ((w - 1) ^ 4 * (w + 2) ^ 2) := by rw [h2]
        _ = _ := by ring
    have hw1 : 0 < w - 1 := by linarith
    exact (sq_eq_sq₀ (by positivity) (by positivity)).1 hsq
  have e4 : scale ^ 4 * (w ^ 2 * (w - 1) ^ 2 * (w ^ 4 + 2 * w ^ 3 + 3 * w ^ 2 - 3)) = beta2Lognormal w * sd ^ 4 := by
    rw [show sd ^ 4 = (sd ^ 2) ^ 2 by ring, ← hvar]
    unfold beta2Lognormal
    ring
  rw [e3, e4] at M
  exact M

/-- **C82 is false for negative skewness on the lognormal line**: the distribution returned has no quantiles (they are nan). -/
theorem C82_negative_skewness_nan (sb : Except PyErr Dist) (su : Except PyErr (ℝ × ℝ)) (mean sd r beta2 : ℝ) (h : InLognormalCase sd r beta2) (hr : r < 0) :
    ∃ d, fitByMoments sb su mean sd r beta2 = .ok d ∧ ∀ z, d.quantile z = none := by
  rw [fit_sl sb su mean sd r beta2 h]
  obtain ⟨-, -, ho⟩ := omega_cubic r
  have hs : √(log (omegaOf r)) ≠ 0 := (sqrt_pos.2 (log_pos (ho hr.ne))).ne'
  unfold slFit johnsonsl
  dsimp only
  rw [if_pos hr, if_neg hs, if_neg (by norm_num)]
  exact ⟨_, rfl, fun _ => rfl⟩

/-- **C82: a negative kurtosis with no skewness** ends in a division by zero. -/
theorem C82_negative_kurtosis_raises (sb : Except PyErr Dist) (su : Except PyErr (ℝ × ℝ)) (mean sd beta2 : ℝ) (hsd : 0 < sd) (hb : beta2 < 0) :
    fitByMoments sb su mean sd 0 beta2 = .error .zeroDivisionError := by
  have hcase : InLognormalCase sd 0 beta2 := by
    refine ⟨hsd, fun h => absurd hb (by linarith), ?_, Or.inl hb⟩
    rintro ⟨-, h⟩
    rw [abs_lt] at h
    linarith
  rw [fit_sl sb su mean sd 0 beta2 hcase]
  have ho : omegaOf 0 = 1 := by
    unfold omegaOf
    norm_num
  unfold slFit
  rw [ho, log_one, sqrt_zero, if_pos rfl]

theorem omega_bound_witness : InLognormalCase 1 1 (-1) ∧ InLognormalCase 1 (-1) (-1) := by
  refine ⟨⟨by norm_num, fun h => absurd h (by norm_num), by norm_num, Or.inl (by norm_num)⟩, ⟨by norm_num, fun h => absurd h (by norm_num), by norm_num, Or.inl (by norm_num)⟩⟩

/-- The hypotheses of `C82_lognormal_partial` can be met: a skewness of one, lognormal by request. -/
example : InLognormalCase 1 1 (-1) ∧ (0 : ℝ) < 1 ∧ omegaOf 1 ≠ exp 1 := by
  refine ⟨omega_bound_witness.1, one_pos, fun h => ?_⟩
  obtain ⟨hc, -, -⟩ := omega_cubic 1
  rw [h] at hc
  have h1 : 1 + 1 ≤ exp 1 := add_one_le_exp 1
  nlinarith [sq_nonneg (exp 1 + 2)]

/-- The hypotheses of `C82_negative_skewness_nan` can be met. -/
example : InLognormalCase 1 (-1) (-1) ∧ (-1 : ℝ) < 0 := ⟨omega_bound_witness.2, by norm_num⟩

/-! ## Normal -/

/-- **C82, normal distributions.** In the normal case the distribution is the normal distribution of the mean and standard deviation asked for. -/
theorem C82_normal (sb : Except PyErr Dist) (su : Except PyErr (ℝ × ℝ)) (mean sd r beta2 : ℝ) (hsd : 0 < sd) (hr : |r| < 1 / 100) (hb : |beta2 - 3| < 1 / 100) :
    ∃ d, fitByMoments sb su mean sd r beta2 = .ok d ∧ ∀ z, d.quantile z = some (mean + sd * z) := by
  have hb' := abs_lt.1 hb
  have hr2 : r ^ 2 < 1 := by
    have := abs_lt.1 hr
    nlinarith
  refine ⟨.norm mean sd, ?_, fun z => ?_⟩
  · unfold fitByMoments tolerance
    dsimp only
    rw [if_neg (by linarith), if_neg hsd.ne', if_neg (by rintro ⟨-, b⟩; linarith), if_neg (by rintro ⟨-, b⟩; linarith), if_pos ⟨hr, hb⟩]
  · simp only [Dist.quantile]
    rw [if_pos hsd]

/-- The hypotheses can be met. -/
example : (0 : ℝ) < 1 ∧ |(0 : ℝ)| < 1 / 100 ∧ |(3 : ℝ) - 3| < 1 / 100 := by norm_num

/-! ## Unbounded -/

theorem johnsonsu_mean_var (mean sd w y : ℝ) (hsd : 0 < sd) (hw : 1 < w) :
    ∃ Q : ℝ → ℝ, (∀ z, (suEnd mean sd w y).quantile z = some (Q z)) ∧ Integrable Q std ∧ Integrable (fun z => (Q z - mean) ^ 2) std ∧ expect Q = mean ∧ expect (fun z => (Q z - mean) ^ 2) = sd ^ 2 := by
  have hlog : 0 < log w := log_pos hw
  set s := √(log w) with hs
  have hspos : 0 < s := sqrt_pos.2 hlog
  have hs2 : s ^ 2 = log w := sq_sqrt hlog.le
  have hdelta : √(1 / log w) = 1 / s := by rw [sqrt_div zero_le_one, sqrt_one]
  set V := 0.5 * (w - 1) * (0.5 * w * (exp y ^ 2 + 1 / exp y ^ 2) + 1) with hV
  have hVpos : 0 < V := by
    have : 0 < w - 1 := by linarith
    have : 0 < w := by linarith
    rw [hV]; positivity
  set L := sd / √V with hL
  have hLpos : 0 < L := div_pos hsd (sqrt_pos.2 hVpos)
  have hL2 : L ^ 2 * V = sd ^ 2 := by rw [hL, div_pow, sq_sqrt hVpos.le]; field_simp
  set h := exp (s ^ 2 / 2) with hh
  have hw2 : w = h ^ 2 := by rw [hh, ← exp_nat_mul, hs2, ← exp_log (by linarith : 0 < w)]; congr 1; rw [exp_log (by linarith)]; push_cast; ring
  set E := exp y with hE
  have hEpos : 0 < E := exp_pos y
  have hE' : exp (-y) = 1 / E := by rw [exp_neg, one_div]
  have hsinh : sinh y = (E - 1 / E) / 2 := by rw [sinh_eq, hE']
  set c := mean + L * h * ((E - 1 / E) / 2) with hc
  have hval : ∀ z, (suEnd mean sd w y).quantile z = some (c + L * ((exp (s * z) / E - exp (-s * z) * E) / 2)) := by
    intro z
    unfold suEnd
    dsimp only
    rw [hdelta, ← hV, ← hL]
    simp only [Dist.quantile]
    rw [if_pos ⟨by positivity, hLpos⟩]
    have e1 : y * (1 / s) / (1 / s) = y := by field_simp
    have e2 : (z - y * (1 / s)) / (1 / s) = s * z - y := by field_simp
    have e3 : ((1 / s) ^ 2)⁻¹ / 2 = s ^ 2 / 2 := by field_simp
    rw [e1, e2, e3, ← hh, hsinh, sinh_eq, exp_sub, show -(s * z - y) = -s * z + y by ring, exp_add]
  have e0 : ∀ z, exp (0 * z) = 1 := fun z => by rw [zero_mul, exp_zero]
  have e2 : ∀ z, exp (2 * s * z) = exp (s * z) ^ 2 := by intro z; rw [← exp_nat_mul]; congr 1; push_cast; ring
  have e2' : ∀ z, exp (-2 * s * z) = exp (-s * z) ^ 2 := by intro z; rw [← exp_nat_mul]; congr 1; push_cast; ring
  have einv : ∀ z, exp (s * z) * exp (-s * z) = 1 := by intro z; rw [← exp_add]; norm_num
  have h0 : exp ((0 : ℝ) ^ 2 / 2) = 1 := by norm_num
  have h1' : exp ((-s) ^ 2 / 2) = h := by rw [hh, neg_sq]
  have h2 : exp ((2 * s) ^ 2 / 2) = h ^ 4 := by rw [hh, ← exp_nat_mul]; congr 1; push_cast; ring
  have h2' : exp ((-2 * s) ^ 2 / 2) = h ^ 4 := by rw [hh, ← exp_nat_mul]; congr 1; push_cast; ring
  have M1 := expect_of_eq (f := fun z => c + L * ((exp (s * z) / E - exp (-s * z) * E) / 2)) [(c, 0), (L / E / 2, s), (-L * E / 2, -s)]
    (by intro z; simp only [expSum, List.map_cons, List.map_nil, List.sum_cons, List.sum_nil, e0]; ring)
  set k := h * ((E - 1 / E) / 2) with hk
  have M2 := expect_of_eq (f := fun z => (c + L * ((exp (s * z) / E - exp (-s * z) * E) / 2) - mean) ^ 2)
    [(L ^ 2 * (k ^ 2 - 1 / 2), 0), (L ^ 2 * k / E, s), (-L ^ 2 * k * E, -s), (L ^ 2 / (4 * E ^ 2), 2 * s), (L ^ 2 * E ^ 2 / 4, -2 * s)]
    (by
      intro z
      simp only [expSum, List.map_cons, List.map_nil, List.sum_cons, List.sum_nil, e0, e2, e2']
      rw [hc, show mean + L * h * ((E - 1 / E) / 2) = mean + L * k by rw [hk]; ring]
      have : exp (s * z) * exp (-(s * z)) = 1 := by rw [← neg_mul]; exact einv z
      field_simp
      linear_combination (-(8 : ℝ) * L ^ 2 * E ^ 2) * this)
  simp only [List.map_cons, List.map_nil, List.sum_cons, List.sum_nil, h0, h1', h2, h2', ← hh] at M1 M2
  refine ⟨_, hval, M1.1, M2.1, ?_, ?_⟩
  · rw [M1.2, hc]; field_simp; ring
  · rw [M2.2, ← hL2, hV, hk, hw2]
    field_simp
    ring

/-- **C82, unbounded distributions.** Whatever the iteration for the shape ends with, the mean and the standard deviation are those asked for. -/
theorem C82_unbounded (mean sd w y : ℝ) (hsd : 0 < sd) (hw : 1 < w) (sb : Except PyErr Dist) (r beta2 : ℝ) (hr : 1 / 100 ≤ |r|) (hb : beta2Lognormal (omegaOf r) + 1 / 100 ≤ beta2) (hfeas : r ^ 2 + 1 + 1 / 100 < beta2) :
    ∃ d, fitByMoments sb (.ok (w, y)) mean sd r beta2 = .ok d ∧
      ∃ Q : ℝ → ℝ, (∀ z, d.quantile z = some (Q z)) ∧ Integrable Q std ∧ Integrable (fun z => (Q z - mean) ^ 2) std ∧ expect Q = mean ∧ expect (fun z => (Q z - mean) ^ 2) = sd ^ 2 := by
  refine ⟨suEnd mean sd w y, ?_, johnsonsu_mean_var mean sd w y hsd hw⟩
  have hpos : 0 ≤ beta2 := by nlinarith [sq_nonneg r]
  unfold fitByMoments tolerance
  dsimp only
  rw [if_neg (by linarith), if_neg hsd.ne', if_neg (by rintro ⟨-, b⟩; linarith), if_neg (by rintro ⟨-, b⟩; linarith), if_neg (by rintro ⟨a, -⟩; linarith), if_neg (not_lt.2 hpos),
    if_neg (by rw [abs_of_nonpos (by linarith)]; linarith), if_neg (by linarith), if_neg (by linarith)]

/-- The hypotheses can be met. -/
example : (1 : ℝ) < 2 ∧ 1 / 100 ≤ |(1 : ℝ)| ∧ beta2Lognormal (omegaOf 1) + 1 / 100 ≤ 100 ∧ (1 : ℝ) ^ 2 + 1 + 1 / 100 < 100 := by
  refine ⟨by norm_num, by norm_num, ?_, by norm_num⟩
  obtain ⟨hc, h1, -⟩ := omega_cubic 1
  have h2 : omegaOf 1 ≤ 2 := by
    by_contra hcon
    nlinarith [sq_nonneg (omegaOf 1 + 2)]
  unfold beta2Lognormal
  have h3 : omegaOf 1 * omegaOf 1 ≤ 4 := by nlinarith
  have h4 : omegaOf 1 * (2 + omegaOf 1) ≤ 8 := by nlinarith
  nlinarith

theorem one_le_beta2Lognormal_one : beta2Lognormal 1 = 3 := by unfold beta2Lognormal; norm_num

/-- **C82, symmetric unbounded distributions.** Without skewness and with a kurtosis above that of the normal distribution, mean, standard deviation, skewness and kurtosis are those asked for. -/
theorem C82_symmetric (mean sd beta2 : ℝ) (hsd : 0 < sd) (hb : 3 + 1 / 100 ≤ beta2) (sb : Except PyErr Dist) (su : Except PyErr (ℝ × ℝ)) :
    ∃ d, fitByMoments sb su mean sd 0 beta2 = .ok d ∧ HasMoments d mean (sd ^ 2) 0 (beta2 * sd ^ 4) := by
  have ho : omegaOf 0 = 1 := by
    unfold omegaOf
    norm_num
  set w := suFirst 0 beta2 with hwdef
  have hroot : 2 < √(2 * beta2 - 2) := by
    rw [show (2 : ℝ) = √(2 ^ 2) by rw [sqrt_sq (by norm_num)]]
    apply sqrt_lt_sqrt (by norm_num)
    rw [sqrt_sq (by norm_num)]
    linarith
  have hw2 : w ^ 2 = √(2 * beta2 - 2) - 1 := by
    rw [hwdef]
    unfold suFirst
    rw [show 2 * beta2 - 2.8 * 0 - 2 = 2 * beta2 - 2 by ring, sq_sqrt (by linarith)]
  have hw : 1 < w := by
    have h0 : 0 ≤ w := by rw [hwdef]; exact sqrt_nonneg _
    nlinarith
  have hw4 : (w ^ 2 + 1) ^ 2 = 2 * beta2 - 2 := by
    rw [hw2, sub_add_cancel, sq_sqrt (by linarith)]
  refine ⟨suEnd mean sd w 0, ?_, ?_⟩
  · unfold fitByMoments tolerance
    dsimp only
    rw [if_neg (by linarith), if_neg hsd.ne', if_neg (by rintro ⟨-, b⟩; norm_num at b; linarith), if_neg (by rintro ⟨-, b⟩; norm_num at b; linarith),
      if_neg (by rintro ⟨-, b⟩; have := abs_lt.1 b; linarith), if_neg (by linarith : ¬beta2 < 0), ho, one_le_beta2Lognormal_one,
      if_neg (by rw [abs_of_nonpos (by linarith)]; linarith), if_neg (by linarith), if_pos (by norm_num)]
    norm_num [hwdef]
  have hlog : 0 < log w := log_pos hw
  set s := √(log w) with hs
  have hspos : 0 < s := sqrt_pos.2 hlog
  have hs2 : s ^ 2 = log w := sq_sqrt hlog.le
  have hdelta : √(1 / log w) = 1 / s := by rw [sqrt_div zero_le_one, sqrt_one]
  set V := 0.5 * (w ^ 2 - 1) with hV
  have hVpos : 0 < V := by rw [hV]; nlinarith
  set L := sd / √V with hL
  have hLpos : 0 < L := div_pos hsd (sqrt_pos.2 hVpos)
  have hL2 : L ^ 2 * V = sd ^ 2 := by rw [hL, div_pow, sq_sqrt hVpos.le]; field_simp
  set h := exp (s ^ 2 / 2) with hh
  have hwh : w = h ^ 2 := by
    rw [hh, ← exp_nat_mul, hs2, show ((2 : ℕ) : ℝ) * (log w / 2) = log w by push_cast; ring, exp_log (by linarith)]
  have hval : ∀ z, (suEnd mean sd w 0).quantile z = some (mean + L * ((exp (s * z) - exp (-s * z)) / 2)) := by
    intro z
    unfold suEnd
    dsimp only
    rw [hdelta, exp_zero, show (0.5 : ℝ) * (w - 1) * (0.5 * w * (1 ^ 2 + 1 / 1 ^ 2) + 1) = V by rw [hV]; ring, ← hL]
    simp only [Dist.quantile]
    rw [if_pos ⟨by positivity, hLpos⟩]
    have e1 : (0 : ℝ) * (1 / s) / (1 / s) = 0 := by simp
    have e2 : (z - 0 * (1 / s)) / (1 / s) = s * z := by field_simp; ring
    rw [e1, e2, sinh_zero, mul_zero, add_zero, sinh_eq, neg_mul]
  have einv : ∀ z, exp (s * z) * exp (-s * z) = 1 := by intro z; rw [← exp_add]; norm_num
  have e0 : ∀ z, exp (0 * z) = 1 := fun z => by rw [zero_mul, exp_zero]
  have ek : ∀ (k : ℕ) (z : ℝ), exp ((k * s) * z) = exp (s * z) ^ k := by
    intro k z; rw [← exp_nat_mul]; congr 1; ring
  have ek' : ∀ (k : ℕ) (z : ℝ), exp ((-k * s) * z) = exp (-s * z) ^ k := by
    intro k z; rw [← exp_nat_mul]; congr 1; ring
  have e2 := ek 2; have e3 := ek 3; have e4 := ek 4; have e2' := ek' 2; have e3' := ek' 3; have e4' := ek' 4
  have hk : ∀ k : ℕ, exp ((k * s) ^ 2 / 2) = h ^ (k ^ 2) := by
    intro k; rw [hh, ← exp_nat_mul]; congr 1; push_cast; ring
  have hk' : ∀ k : ℕ, exp ((-k * s) ^ 2 / 2) = h ^ (k ^ 2) := by
    intro k; rw [hh, ← exp_nat_mul]; congr 1; push_cast; ring
  have h2 := hk 2; have h3 := hk 3; have h4 := hk 4; have h2' := hk' 2; have h3' := hk' 3; have h4' := hk' 4
  push_cast at e2 e3 e4 h2 h3 h4 e2' e3' e4' h2' h3' h4'
  have h0 : exp ((0 : ℝ) ^ 2 / 2) = 1 := by norm_num
  have h1' : exp ((-s) ^ 2 / 2) = h := by rw [hh, neg_sq]
  have M0 := expect_of_eq (f := fun z => mean + L * ((exp (s * z) - exp (-s * z)) / 2)) [(mean, 0), (L / 2, s), (-L / 2, -s)]
    (by intro z; simp only [expSum, List.map_cons, List.map_nil, List.sum_cons, List.sum_nil, e0]; ring)
  have M1 := expect_of_eq (f := fun z => mean + L * ((exp (s * z) - exp (-s * z)) / 2) - mean) [(L / 2, s), (-L / 2, -s)]
    (by intro z; simp only [expSum, List.map_cons, List.map_nil, List.sum_cons, List.sum_nil]; ring)
  have M2 := expect_of_eq (f := fun z => (mean + L * ((exp (s * z) - exp (-s * z)) / 2) - mean) ^ 2) [(-L ^ 2 / 2, 0), (L ^ 2 / 4, 2 * s), (L ^ 2 / 4, -2 * s)]
    (by
      intro z
      simp only [expSum, List.map_cons, List.map_nil, List.sum_cons, List.sum_nil, e0, e2, e2']
      linear_combination (-L ^ 2 / 2) * einv z)
  have M3 := expect_of_eq (f := fun z => (mean + L * ((exp (s * z) - exp (-s * z)) / 2) - mean) ^ 3) [(L ^ 3 / 8, 3 * s), (-3 * L ^ 3 / 8, s), (3 * L ^ 3 / 8, -s), (-L ^ 3 / 8, -3 * s)]
    (by
      intro z
      simp only [expSum, List.map_cons, List.map_nil, List.sum_cons, List.sum_nil, e3, e3']
      linear_combination (-3 * L ^ 3 / 8) * (exp (s * z) - exp (-s * z)) * einv z)
  have M4 := expect_of_eq (f := fun z => (mean + L * ((exp (s * z) - exp (-s * z)) / 2) - mean) ^ 4)
    [(L ^ 4 / 16, 4 * s), (-4 * L ^ 4 / 16, 2 * s), (6 * L ^ 4 / 16, 0), (-4 * L ^ 4 / 16, -2 * s), (L ^ 4 / 16, -4 * s)]
    (by
      intro z
      simp only [expSum, List.map_cons, List.map_nil, List.sum_cons, List.sum_nil, e0, e2, e2', e4, e4']
      linear_combination (L ^ 4 / 16) * (-4 * exp (s * z) ^ 2 - 4 * exp (-s * z) ^ 2 + 6 * (exp (s * z) * exp (-s * z) + 1)) * einv z)
  simp only [List.map_cons, List.map_nil, List.sum_cons, List.sum_nil, h0, h1', h2, h2', h3, h3', h4, h4', ← hh] at M0 M2 M3 M4
  refine ⟨_, hval, fun k hk => ?_, ?_, ?_, ?_, ?_⟩
  · interval_cases k
    · simpa using (integrable_const (1 : ℝ) : Integrable (fun _ : ℝ => (1 : ℝ)) std)
    · simpa using M1.1
    · exact M2.1
    · exact M3.1
    · exact M4.1
  · rw [M0.2]; ring
  · rw [M2.2, ← hL2, hV, hwh]; ring
  · rw [M3.2]; ring
  · rw [M4.2, show sd ^ 4 = (sd ^ 2) ^ 2 by ring, ← hL2, hV]
    have hb2 : beta2 = (w ^ 4 + 2 * w ^ 2 + 3) / 2 := by linear_combination (-1 / 2 : ℝ) * hw4
    rw [hb2, hwh]
    ring

/-- The hypotheses can be met. -/
example : (0 : ℝ) < 1 ∧ (3 : ℝ) + 1 / 100 ≤ 5 := by norm_num

/-- **C82, errors.** -/
theorem C82_errors (sb : Except PyErr Dist) (su : Except PyErr (ℝ × ℝ)) (mean r beta2 : ℝ) :
    (∀ sd < 0, fitByMoments sb su mean sd r beta2 = .error .valueError) ∧ fitByMoments sb su mean 0 r beta2 = .error .notImplementedError ∧
      ∀ sd > 0, 0 ≤ beta2 → beta2 < r ^ 2 + 1 - 1 / 100 → fitByMoments sb su mean sd r beta2 = .error .valueError := by
  refine ⟨fun sd h => ?_, ?_, fun sd h h0 h1 => ?_⟩
  · unfold fitByMoments; dsimp only; rw [if_pos h]
  · unfold fitByMoments; dsimp only; rw [if_neg (lt_irrefl _), if_pos rfl]
  · unfold fitByMoments tolerance; dsimp only; rw [if_neg (by linarith), if_neg h.ne', if_pos ⟨h0, h1⟩]

end Verif.Johnson
