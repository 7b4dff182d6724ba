import Mathlib.Analysis.Complex.ExponentialBounds
import Verif.Johnson.Bounded
import Verif.Johnson.Unbounded

/-!
# C137: the bounded fit
-/

namespace Verif.Johnson

open Real MeasureTheory ProbabilityTheory

/-! ## The distribution returned -/

/-- The moments of bounded distributions. -/
theorem sb_moments (g d loc scale : ℝ) (hd : 0 < d) (hs : 0 < scale) :
    HasMoments (.johnsonsb g d loc scale) (loc + scale * exactSix g d 0) (scale ^ 2 * central2 (exactSix g d)) (scale ^ 3 * central3 (exactSix g d)) (scale ^ 4 * central4 (exactSix g d)) := by
  have i1 := pow_integrable 1 g d
  have i2 := pow_integrable 2 g d
  have i3 := pow_integrable 3 g d
  have i4 := pow_integrable 4 g d
  have hY := continuous_boundedY g d
  have key : ∀ c0 c1 c2 c3 c4 : ℝ, expect (fun z => c0 + c1 * boundedY g d z ^ 1 + c2 * boundedY g d z ^ 2 + c3 * boundedY g d z ^ 3 + c4 * boundedY g d z ^ 4) =
      c0 + c1 * momentY 1 g d + c2 * momentY 2 g d + c3 * momentY 3 g d + c4 * momentY 4 g d := by
    intro c0 c1 c2 c3 c4
    have ic : Integrable (fun _ : ℝ => c0) std := integrable_const c0
    have j1 : Integrable (fun z => c0 + c1 * boundedY g d z ^ 1) std := ic.add (i1.const_mul c1)
    have j2 : Integrable (fun z => c0 + c1 * boundedY g d z ^ 1 + c2 * boundedY g d z ^ 2) std := j1.add (i2.const_mul c2)
    have j3 : Integrable (fun z => c0 + c1 * boundedY g d z ^ 1 + c2 * boundedY g d z ^ 2 + c3 * boundedY g d z ^ 3) std := j2.add (i3.const_mul c3)
    unfold expect
    rw [integral_add j3 (i4.const_mul c4), integral_add j2 (i3.const_mul c3), integral_add j1 (i2.const_mul c2), integral_add ic (i1.const_mul c1),
      integral_const_mul, integral_const_mul, integral_const_mul, integral_const_mul]
    simp [momentY, expect]
  have e0 : exactSix g d 0 = momentY 1 g d := rfl
  have e1 : exactSix g d 1 = momentY 2 g d := rfl
  have e2 : exactSix g d 2 = momentY 3 g d := rfl
  have e3 : exactSix g d 3 = momentY 4 g d := rfl
  set m := momentY 1 g d with hm
  refine ⟨⟨fun z => loc + scale * boundedY g d z, fun z => ?_, fun k _ => ?_, ?_, ?_, ?_, ?_⟩⟩
  · show (if 0 < d ∧ 0 < scale then some (loc + scale * (1 / (1 + exp (-((z - g) / d))))) else none) = _
    rw [if_pos ⟨hd, hs⟩]
    rfl
  · refine bounded_integrable (by fun_prop) (C := (scale * (1 + |m|)) ^ k) fun z => ?_
    rw [e0, abs_pow, show loc + scale * boundedY g d z - (loc + scale * m) = scale * (boundedY g d z - m) by ring, abs_mul, abs_of_pos hs]
    gcongr
    refine (abs_sub _ _).trans ?_
    gcongr
    have := pow_bound 1 g d z
    rwa [pow_one] at this
  · rw [show (fun z => loc + scale * boundedY g d z) = fun z => loc + scale * boundedY g d z ^ 1 + 0 * boundedY g d z ^ 2 + 0 * boundedY g d z ^ 3 + 0 * boundedY g d z ^ 4 by funext z; ring, key, e0]
    ring
  · rw [e0, show (fun z => (loc + scale * boundedY g d z - (loc + scale * m)) ^ 2) =
      fun z => scale ^ 2 * m ^ 2 + (-2 * scale ^ 2 * m) * boundedY g d z ^ 1 + scale ^ 2 * boundedY g d z ^ 2 + 0 * boundedY g d z ^ 3 + 0 * boundedY g d z ^ 4 by funext z; ring, key]
    unfold central2
    rw [e0, e1]
    ring
  · rw [e0, show (fun z => (loc + scale * boundedY g d z - (loc + scale * m)) ^ 3) =
      fun z => (-scale ^ 3 * m ^ 3) + (3 * scale ^ 3 * m ^ 2) * boundedY g d z ^ 1 + (-3 * scale ^ 3 * m) * boundedY g d z ^ 2 + scale ^ 3 * boundedY g d z ^ 3 + 0 * boundedY g d z ^ 4 by funext z; ring, key]
    unfold central3
    rw [e0, e1, e2]
    ring
  · rw [e0, show (fun z => (loc + scale * boundedY g d z - (loc + scale * m)) ^ 4) =
      fun z => (scale ^ 4 * m ^ 4) + (-4 * scale ^ 4 * m ^ 3) * boundedY g d z ^ 1 + (6 * scale ^ 4 * m ^ 2) * boundedY g d z ^ 2 + (-4 * scale ^ 4 * m) * boundedY g d z ^ 3 + scale ^ 4 * boundedY g d z ^ 4 by
        funext z; ring, key]
    unfold central4
    rw [e0, e1, e2, e3]
    ring

/-- The end of the fit, for exact moments that belong to the parameters. -/
theorem sbEnd_moments (mean sd r : ℝ) (s : SbPass) (hd : 0 < s.d) (hsd : 0 < sd) (ha : s.a = exactSix s.g s.d) :
    HasMoments (sbEnd mean sd r s) mean (sd ^ 2) ((if r < 0 then -skewOf s.a else skewOf s.a) * sd ^ 3) (kurtosisOf s.a * sd ^ 4) := by
  have h2 := central2_pos s.g s.d hd.ne'
  have hq : 0 < √(central2 (exactSix s.g s.d)) := sqrt_pos.2 h2
  have hsq : central2 (exactSix s.g s.d) = √(central2 (exactSix s.g s.d)) ^ 2 := (sq_sqrt h2.le).symm
  have hsc : 0 < sd / √(central2 (exactSix s.g s.d)) := div_pos hsd hq
  unfold sbEnd skewOf kurtosisOf
  dsimp only
  rw [ha]
  by_cases hr : r < 0
  · rw [if_pos hr, if_pos hr, if_pos hr]
    obtain ⟨r2, r3, r4, r0⟩ := reflect_central s.g s.d
    have M := sb_moments (-s.g) s.d (mean - sd / √(central2 (exactSix s.g s.d)) * (1 - exactSix s.g s.d 0)) _ hd hsc
    rw [r2, r3, r4, r0] at M
    convert M using 1
    · ring
    · rw [div_pow, ← hsq, div_mul_cancel₀ _ h2.ne']
    · generalize √(central2 (exactSix s.g s.d)) = q at *
      rw [hsq]
      field_simp
    · generalize √(central2 (exactSix s.g s.d)) = q at *
      rw [hsq]
      field_simp
  · rw [if_neg hr, if_neg hr, if_neg hr]
    have M := sb_moments s.g s.d (mean - sd / √(central2 (exactSix s.g s.d)) * exactSix s.g s.d 0) _ hd hsc
    convert M using 1
    · ring
    · rw [div_pow, ← hsq, div_mul_cancel₀ _ h2.ne']
    · generalize √(central2 (exactSix s.g s.d)) = q at *
      rw [hsq]
      field_simp
    · generalize √(central2 (exactSix s.g s.d)) = q at *
      rw [hsq]
      field_simp

/-! ## The iteration -/

/-- The determinant and the steps of a pass. -/
theorem sbStep_spec {moments : ℝ → ℝ → Except PyErr Six} {r beta2 g d : ℝ} {s : SbPass} (h : sbStep moments r beta2 g d = .ok s) :
    moments g d = .ok s.a ∧ 0 < central2 s.a ∧ s.d = d - s.y ∧ (s.g = if r ^ 2 = 0 ∨ g - s.u < 0 then 0 else g - s.u) ∧
      skewOf s.a - |r| = dSkew s.a (ddGamma d s.a) * s.u + dSkew s.a (ddDelta g d s.a) * s.y ∧
      kurtosisOf s.a - beta2 = dKurt s.a (ddGamma d s.a) * s.u + dKurt s.a (ddDelta g d s.a) * s.y := by
  unfold sbStep at h
  cases hm : moments g d with
  | error e => rw [hm] at h; cases h
  | ok a =>
    rw [hm] at h
    dsimp only at h
    split_ifs at h with h2
    cases ht : mdiv 1 (dSkew a (ddGamma d a) * dKurt a (ddDelta g d a) - dSkew a (ddDelta g d a) * dKurt a (ddGamma d a)) with
    | error e => rw [ht] at h; cases h
    | ok t =>
      rw [ht] at h
      obtain rfl := Except.ok.inj h
      obtain ⟨hne, rfl⟩ := mdiv_ok ht
      refine ⟨rfl, not_le.1 h2, rfl, rfl, ?_, ?_⟩
      all_goals
        dsimp only
        rw [mul_one_div, mul_one_div, ← mul_div_assoc, ← mul_div_assoc, ← add_div, eq_div_iff hne]
        ring

/-- The last pass. `P` holds of the first estimate of `gamma` and of all later ones. -/
theorem sbLoop_last {moments : ℝ → ℝ → Except PyErr Six} {r beta2 : ℝ} : ∀ {n : ℕ} {g d : ℝ} {s : SbPass}, 0 ≤ g → (r = 0 → g = 0) → sbLoop moments r beta2 n g d = .ok s →
    ∃ g0 d0, 0 ≤ g0 ∧ (r = 0 → g0 = 0) ∧ sbStep moments r beta2 g0 d0 = .ok s ∧ |s.u| ≤ 1e-4 ∧ |s.y| ≤ 1e-4
  | 0, _, _, _, _, _, h => by cases h
  | n + 1, g, d, s, hg, hr, h => by
    unfold sbLoop at h
    cases hs : sbStep moments r beta2 g d with
    | error e => rw [hs] at h; cases h
    | ok s' =>
      rw [hs] at h
      dsimp only at h
      split_ifs at h with hc
      · have hg' := (sbStep_spec hs).2.2.2.1
        refine sbLoop_last ?_ ?_ h
        · rw [hg']
          split_ifs with hcond
          · exact le_rfl
          · exact not_lt.1 fun hlt => hcond (.inr hlt)
        · intro hr0
          rw [hg', if_pos (.inl (by rw [hr0]; norm_num))]
      · obtain rfl := Except.ok.inj h
        rw [not_or, not_lt, not_lt] at hc
        have ht : tolerance ^ 2 = 1e-4 := by unfold tolerance; norm_num
        rw [ht] at hc
        exact ⟨g, d, hg, hr, hs, hc.1, hc.2⟩

theorem sbFirstGamma_nonneg (r d : ℝ) (hd : 0 ≤ d) : 0 ≤ sbFirstGamma r d ∧ (r = 0 → sbFirstGamma r d = 0) := by
  unfold sbFirstGamma tolerance
  dsimp only
  constructor
  · split_ifs
    · positivity
    · have : 0 ≤ 0.9281 + d * (1.0614 * d - 0.7077) := by nlinarith [sq_nonneg (d - 1 / 3)]
      positivity
    · have : 0 ≤ 0.9281 + d * (1.0614 * d - 0.7077) := by nlinarith [sq_nonneg (d - 1 / 3)]
      positivity
    · exact le_rfl
  · rintro rfl
    rw [if_neg (by norm_num)]

/-- **C137, the end, partial.** When the bounded fit returns, skewness and kurtosis of the last moments differ from those asked for by at most a ten thousandth of the sizes of the derivatives used, and the parameters
returned differ from those of the last moments by at most a ten thousandth. If in addition the last step was zero and the last moments were those of the distribution, the distribution has the mean, the standard
deviation, the skewness and the kurtosis asked for. Missing: `get_moments` finds the moments only approximately (C138), the last step is only small, and the iteration may fail. -/
theorem C137_end_partial {moments : ℝ → ℝ → Except PyErr Six} {mean sd r beta2 : ℝ} {D : Dist} (h : sbFit moments mean sd r beta2 = .ok D) :
    ∃ g0 d0 s, D = sbEnd mean sd r s ∧ moments g0 d0 = .ok s.a ∧ 0 ≤ g0 ∧ |s.g - g0| ≤ 1e-4 ∧ |s.d - d0| ≤ 1e-4 ∧
      |skewOf s.a - (|r|)| ≤ 1e-4 * (|dSkew s.a (ddGamma d0 s.a)| + |dSkew s.a (ddDelta g0 d0 s.a)|) ∧
      |kurtosisOf s.a - beta2| ≤ 1e-4 * (|dKurt s.a (ddGamma d0 s.a)| + |dKurt s.a (ddDelta g0 d0 s.a)|) ∧
      (s.u = 0 → s.y = 0 → 0 < d0 → 0 < sd → s.a = exactSix g0 d0 → HasMoments D mean (sd ^ 2) (r * sd ^ 3) (beta2 * sd ^ 4)) := by
  unfold sbFit at h
  dsimp only at h
  split_ifs at h with hd
  have hd := not_lt.1 hd
  cases hl : sbLoop moments r beta2 1000 (sbFirstGamma r (sbFirstDelta r beta2)) (sbFirstDelta r beta2) with
  | error e => rw [hl] at h; cases h
  | ok s =>
    rw [hl] at h
    obtain rfl := Except.ok.inj h
    obtain ⟨hg1, hg2⟩ := sbFirstGamma_nonneg r _ hd
    obtain ⟨g0, d0, h0, hr0, hs, hu, hy⟩ := sbLoop_last hg1 hg2 hl
    obtain ⟨hm, h2, hsd, hsg, hsk, hku⟩ := sbStep_spec hs
    refine ⟨g0, d0, s, rfl, hm, h0, ?_, ?_, ?_, ?_, ?_⟩
    · rw [hsg]
      split_ifs with hc
      · rcases hc with hc | hc
        · rw [hr0 (pow_eq_zero_iff two_ne_zero |>.1 hc)]
          norm_num
        · rw [zero_sub, abs_neg, abs_of_nonneg h0]
          linarith [le_abs_self s.u]
      · rw [sub_sub_cancel_left, abs_neg]
        exact hu
    · rw [hsd, sub_sub_cancel_left, abs_neg]
      exact hy
    · rw [hsk]
      refine (abs_add_le _ _).trans ?_
      rw [abs_mul, abs_mul]
      nlinarith [abs_nonneg (dSkew s.a (ddGamma d0 s.a)), abs_nonneg (dSkew s.a (ddDelta g0 d0 s.a))]
    · rw [hku]
      refine (abs_add_le _ _).trans ?_
      rw [abs_mul, abs_mul]
      nlinarith [abs_nonneg (dKurt s.a (ddGamma d0 s.a)), abs_nonneg (dKurt s.a (ddDelta g0 d0 s.a))]
    · intro hu0 hy0 hd0 hsdp ha
      have hsd' : s.d = d0 := by rw [hsd, hy0, sub_zero]
      have hsg' : s.g = g0 := by
        rw [hsg, hu0, sub_zero]
        split_ifs with hc
        · rcases hc with hc | hc
          · exact (hr0 (pow_eq_zero_iff two_ne_zero |>.1 hc)).symm
          · linarith
        · rfl
      rw [hu0, hy0, mul_zero, mul_zero, add_zero, sub_eq_zero] at hsk hku
      have M := sbEnd_moments mean sd r s (by rw [hsd']; exact hd0) hsdp (by rw [hsg', hsd']; exact ha)
      rw [hsk, hku] at M
      have : (if r < 0 then -|r| else |r|) = r := by
        split_ifs with hr
        · rw [abs_of_neg hr, neg_neg]
        · exact abs_of_nonneg (not_lt.1 hr)
      rwa [this] at M

/-- The moments of the uniform distribution. -/
noncomputable def uniformSix : Six := fun i => 1 / ((i.val : ℝ) + 2)

theorem uniform_values : uniformSix 0 = 1 / 2 ∧ uniformSix 1 = 1 / 3 ∧ uniformSix 2 = 1 / 4 ∧ uniformSix 3 = 1 / 5 ∧ uniformSix 4 = 1 / 6 ∧ uniformSix 5 = 1 / 7 := by
  unfold uniformSix
  refine ⟨?_, ?_, ?_, ?_, ?_, ?_⟩ <;> norm_num

/-- The fit can end: with the moments of the uniform distribution, for which the kurtosis 9 / 5 is asked for, it ends after one pass. -/
example : ∃ D, sbFit (fun _ _ => .ok uniformSix) 0 1 0 1.8 = .ok D := by
  obtain ⟨a0, a1, a2, a3, a4, a5⟩ := uniform_values
  have c2 : central2 uniformSix = 1 / 12 := by unfold central2; rw [a0, a1]; norm_num
  have c3 : central3 uniformSix = 0 := by unfold central3; rw [a0, a1, a2]; norm_num
  have c4 : central4 uniformSix = 1 / 80 := by unfold central4; rw [a0, a1, a2, a3]; norm_num
  have ho : omegaOf |(0 : ℝ)| = 1 := by
    unfold omegaOf
    norm_num
  have hf : sbFactor 0 = 2 := by
    unfold sbFactor tolerance
    rw [if_pos (by norm_num)]
  have hd : 0 < sbFirstDelta 0 1.8 := by
    unfold sbFirstDelta
    dsimp only
    rw [ho, hf]
    have e : ((1.8 : ℝ) - (0 ^ 2 + 1)) / (beta2Lognormal 1 - (0 ^ 2 + 1)) * 2 + 1 = 1.8 := by unfold beta2Lognormal; norm_num
    rw [e, if_neg (lt_irrefl _)]
    refine mul_pos (by norm_num) (rpow_pos_of_pos (by norm_num) _)
  have hg : sbFirstGamma 0 (sbFirstDelta 0 1.8) = 0 := (sbFirstGamma_nonneg 0 _ hd.le).2 rfl
  have hsk : skewOf uniformSix = 0 := by unfold skewOf; rw [c3, zero_div]
  have hku : kurtosisOf uniformSix = 1.8 := by unfold kurtosisOf; rw [c4, c2]; norm_num
  unfold sbFit
  dsimp only
  rw [if_neg (not_lt.2 hd.le), hg]
  generalize sbFirstDelta 0 1.8 = d at *
  have hstep : ∃ s, sbStep (fun _ _ => .ok uniformSix) 0 1.8 0 d = .ok s ∧ s.u = 0 ∧ s.y = 0 := by
    unfold sbStep
    dsimp only
    rw [if_neg (by rw [c2]; norm_num), hsk, hku, abs_zero]
    have hdd : ∀ k : Fin 4, ddDelta 0 d uniformSix k = ![0, -1 / 30, -1 / 20, -2 / 35] k / d ^ 3 := by
      intro k
      unfold ddDelta
      fin_cases k <;> simp [uniformSix] <;> field_simp <;> norm_num
    have hdg : ∀ k : Fin 4, ddGamma d uniformSix k = ![-1 / 6, -1 / 6, -3 / 20, -2 / 15] k / d := by
      intro k
      unfold ddGamma
      fin_cases k <;> simp [uniformSix] <;> field_simp <;> norm_num
    have h2 : dKurt uniformSix (ddGamma d uniformSix) = 0 := by
      unfold dKurt
      dsimp only
      rw [c2, c4, a0, a1, a2, hdg, hdg, hdg, hdg]
      simp
      field_simp
      norm_num
    have h3 : dKurt uniformSix (ddDelta 0 d uniformSix) = 144 / 350 / d ^ 3 := by
      unfold dKurt
      dsimp only
      rw [c2, c4, a0, a1, a2, hdd, hdd, hdd, hdd]
      simp
      field_simp
      norm_num
    have h0 : dSkew uniformSix (ddGamma d uniformSix) = -3 / 20 / d / (√(1 / 12) * (1 / 12)) := by
      unfold dSkew
      dsimp only
      rw [c3, c2, hdg 2]
      simp
    have hdet : dSkew uniformSix (ddGamma d uniformSix) * dKurt uniformSix (ddDelta 0 d uniformSix) - dSkew uniformSix (ddDelta 0 d uniformSix) * dKurt uniformSix (ddGamma d uniformSix) ≠ 0 := by
      rw [h2, mul_zero, sub_zero, h0, h3]
      have : (0 : ℝ) < √(1 / 12) := sqrt_pos.2 (by norm_num)
      refine mul_ne_zero (div_ne_zero (div_ne_zero (by norm_num) hd.ne') (by positivity)) (by positivity)
    rw [show mdiv 1 (dSkew uniformSix (ddGamma d uniformSix) * dKurt uniformSix (ddDelta 0 d uniformSix) - dSkew uniformSix (ddDelta 0 d uniformSix) * dKurt uniformSix (ddGamma d uniformSix)) = .ok _ from if_neg hdet]
    refine ⟨_, rfl, ?_, ?_⟩ <;> simp
  obtain ⟨s, hs, hu, hy⟩ := hstep
  have : sbLoop (fun _ _ => .ok uniformSix) 0 1.8 1000 0 d = .ok s := by
    rw [show (1000 : ℕ) = 999 + 1 from rfl, sbLoop, hs]
    dsimp only
    rw [hu, hy, abs_zero, if_neg]
    have : (0 : ℝ) ≤ tolerance ^ 2 := sq_nonneg _
    rintro (h | h) <;> linarith
  rw [this]
  exact ⟨_, rfl⟩

/-! ## The first estimate -/

/-- A cubic equation has the solution that `omegaOf` finds only. -/
theorem omega_unique {r w : ℝ} (hw : 1 ≤ w) (h : (w + 2) ^ 2 * (w - 1) = r ^ 2) : omegaOf r = w := by
  obtain ⟨hc, h1, -⟩ := omega_cubic r
  rcases lt_trichotomy (omegaOf r) w with hlt | heq | hgt
  · exfalso
    have h3 : (omegaOf r + 2) ^ 2 < (w + 2) ^ 2 := by nlinarith
    nlinarith [mul_le_mul_of_nonneg_right h3.le (by linarith : 0 ≤ omegaOf r - 1), mul_lt_mul_of_pos_left (by linarith : omegaOf r - 1 < w - 1) (by positivity : 0 < (w + 2) ^ 2)]
  · exact heq
  · exfalso
    have h3 : (w + 2) ^ 2 < (omegaOf r + 2) ^ 2 := by nlinarith
    nlinarith [mul_le_mul_of_nonneg_right h3.le (by linarith : 0 ≤ w - 1), mul_lt_mul_of_pos_left (by linarith : w - 1 < omegaOf r - 1) (by positivity : 0 < (omegaOf r + 2) ^ 2)]

theorem omega_abs (r : ℝ) : omegaOf |r| = omegaOf r := by
  obtain ⟨hc, h1, -⟩ := omega_cubic r
  exact omega_unique h1 (by rw [hc, sq_abs])

/-- The share of the region, from its lower to its upper end. -/
theorem share_bounds {r beta2 : ℝ} (hlo : r ^ 2 + 1 < beta2) (hhi : beta2 < beta2Lognormal (omegaOf r)) :
    0 < (beta2 - (r ^ 2 + 1)) / (beta2Lognormal (omegaOf |r|) - (r ^ 2 + 1)) ∧ (beta2 - (r ^ 2 + 1)) / (beta2Lognormal (omegaOf |r|) - (r ^ 2 + 1)) < 1 := by
  rw [omega_abs]
  exact ⟨div_pos (by linarith) (by linarith), (div_lt_one (by linarith)).2 (by linarith)⟩

/-- **C137, the first estimate, partial.** For skewnesses up to 300 the first estimate of `delta` is positive in the whole region of the bounded distributions, and the base of the power it uses is positive. Missing:
larger skewnesses, see below. -/
theorem C137_first_partial (r beta2 : ℝ) (hr : |r| ≤ 300) (hlo : r ^ 2 + 1 < beta2) (hhi : beta2 < beta2Lognormal (omegaOf r)) : 0 < sbFirstDelta r beta2 ∧ 0 < sbFactor r ∧ sbFactor r ≤ 2 := by
  obtain ⟨e0, e1⟩ := share_bounds hlo hhi
  have hF : 0 < sbFactor r ∧ sbFactor r ≤ 2 := by
    unfold sbFactor tolerance
    dsimp only
    split_ifs with h1 h2
    · norm_num
    · obtain ⟨hc, hw1, hw2⟩ := omega_cubic |r|
      have hrne : |r| ≠ 0 := fun h => h1 (by rw [h]; norm_num)
      have hw := hw2 hrne
      have hw46 : omegaOf |r| ≤ 46 := by
        by_contra hcon
        have hcon := not_le.1 hcon
        have : |r| ^ 2 ≤ 90000 := by nlinarith [abs_nonneg r]
        nlinarith [mul_le_mul_of_nonneg_right (by nlinarith : (48 : ℝ) ^ 2 ≤ (omegaOf |r| + 2) ^ 2) (by linarith : 0 ≤ omegaOf |r| - 1)]
      have hl0 : 0 < log (omegaOf |r|) := log_pos hw
      have hl4 : log (omegaOf |r|) ≤ 4 := by
        rw [log_le_iff_le_exp (by linarith)]
        have h27 : (2.7 : ℝ) < exp 1 := by have := exp_one_gt_d9; linarith
        have : exp 4 = exp 1 ^ 4 := by rw [← exp_nat_mul]; norm_num
        rw [this]
        have : (2.7 : ℝ) ^ 4 ≤ exp 1 ^ 4 := pow_le_pow_left₀ (by norm_num) h27.le 4
        norm_num at this
        linarith
      have hd : 1 / 2 ≤ 1 / √(log (omegaOf |r|)) := by
        rw [div_le_div_iff₀ (by norm_num) (sqrt_pos.2 hl0), one_mul, one_mul]
        rw [show (2 : ℝ) = √4 by rw [show (4 : ℝ) = 2 ^ 2 by norm_num, sqrt_sq (by norm_num)]]
        exact sqrt_le_sqrt hl4
      generalize 1 / √(log (omegaOf |r|)) = d at *
      have hq : 10 ≤ d * (d - 2.163) + 11.346 := by nlinarith [sq_nonneg (d - 1.0815)]
      have hp : 5 ≤ d * (d * (d - 2.163) + 11.346) := by nlinarith
      have hpos : 0 < 8.5245 / (d * (d * (d - 2.163) + 11.346)) := by positivity
      have : 8.5245 / (d * (d * (d - 2.163) + 11.346)) < 2 := by rw [div_lt_iff₀ (by linarith)]; linarith
      exact ⟨by linarith, by linarith⟩
    · have h2 := not_le.1 h2
      obtain ⟨hc, hw1, hw2⟩ := omega_cubic |r|
      have hrne : |r| ≠ 0 := fun h => h1 (by rw [h]; norm_num)
      have hl0 : 0 < log (omegaOf |r|) := log_pos (hw2 hrne)
      have : 0 < 1 / √(log (omegaOf |r|)) := by have := sqrt_pos.2 hl0; positivity
      exact ⟨by linarith, by linarith⟩
  refine ⟨?_, hF⟩
  unfold sbFirstDelta
  dsimp only
  obtain ⟨f0, f2⟩ := hF
  have hf0 := mul_pos e0 f0
  have hf2 : (beta2 - (r ^ 2 + 1)) / (beta2Lognormal (omegaOf |r|) - (r ^ 2 + 1)) * sbFactor r < 2 := by nlinarith
  split_ifs with h18
  · linarith
  · exact mul_pos (by linarith) (rpow_pos_of_pos (by linarith) _)

/-- The region is not empty. -/
example : |(1 : ℝ)| ≤ 300 ∧ (1 : ℝ) ^ 2 + 1 < 2.5 ∧ 2.5 < beta2Lognormal (omegaOf 1) := by
  refine ⟨by norm_num, by norm_num, ?_⟩
  obtain ⟨hc, h1, -⟩ := omega_cubic 1
  unfold beta2Lognormal
  nlinarith

/-- **C137 is not true for enormous skewness.** If `1 / sqrt(log(omega))` is between 0.04 and 0.4 (skewnesses above ten thousand) the first estimate of `delta` is negative for all kurtoses of the region; the fit fails and
the lognormal distribution is returned, whatever kurtosis was asked for. -/
theorem C137_first_wrong (moments : ℝ → ℝ → Except PyErr Six) (mean sd r beta2 : ℝ) (hr : 1 / 100 ≤ |r|) (hlo : r ^ 2 + 1 < beta2) (hhi : beta2 < beta2Lognormal (omegaOf r))
    (h4 : 0.04 ≤ 1 / √(log (omegaOf r))) (h40 : 1 / √(log (omegaOf r)) ≤ 0.4) :
    sbFirstDelta r beta2 < 0 ∧ sbBranch moments mean sd r beta2 = slFit mean sd r (omegaOf r) := by
  obtain ⟨e0, e1⟩ := share_bounds hlo hhi
  have hF : sbFactor r < 0 := by
    unfold sbFactor tolerance
    dsimp only
    rw [if_neg (not_lt.2 hr), omega_abs, if_pos h4]
    generalize 1 / √(log (omegaOf r)) = d at *
    have hq : 0 < d * (d - 2.163) + 11.346 := by nlinarith
    have hp : 0 < d * (d * (d - 2.163) + 11.346) := by nlinarith
    have hu : d * (d * (d - 2.163) + 11.346) ≤ 4.26 := by nlinarith [mul_nonneg (by linarith : 0 ≤ d) (by linarith : 0 ≤ 0.4 - d)]
    have : 2 < 8.5245 / (d * (d * (d - 2.163) + 11.346)) := by rw [lt_div_iff₀ hp]; linarith
    linarith
  have hneg : sbFirstDelta r beta2 < 0 := by
    unfold sbFirstDelta
    dsimp only
    have := mul_neg_of_pos_of_neg e0 hF
    rw [if_pos (by linarith)]
    linarith
  refine ⟨hneg, ?_⟩
  unfold sbBranch sbFit
  dsimp only
  rw [if_pos hneg]

/-- Such a skewness: `omega` is `exp(25)`. -/
example : ∃ r beta2 : ℝ, 1 / 100 ≤ |r| ∧ r ^ 2 + 1 < beta2 ∧ beta2 < beta2Lognormal (omegaOf r) ∧ 0.04 ≤ 1 / √(log (omegaOf r)) ∧ 1 / √(log (omegaOf r)) ≤ 0.4 := by
  have hw : (26 : ℝ) ≤ exp 25 := by have := add_one_le_exp (25 : ℝ); linarith
  set w := exp 25 with hwd
  have hr2 : ((w + 2) * √(w - 1)) ^ 2 = (w + 2) ^ 2 * (w - 1) := by rw [mul_pow, sq_sqrt (by linarith)]
  have ho : omegaOf ((w + 2) * √(w - 1)) = w := omega_unique (by linarith) hr2.symm
  have hs : 1 ≤ √(w - 1) := by rw [le_sqrt' (by norm_num)]; linarith
  have hl : 1 / √(log w) = 1 / 5 := by
    rw [hwd, log_exp, show (25 : ℝ) = 5 ^ 2 by norm_num, sqrt_sq (by norm_num)]
  refine ⟨(w + 2) * √(w - 1), (w + 2) ^ 2 * (w - 1) + 2, ?_, by rw [hr2]; linarith, ?_, ?_, ?_⟩
  · rw [abs_of_nonneg (by positivity)]
    nlinarith
  · rw [ho]
    unfold beta2Lognormal
    nlinarith [mul_nonneg (by linarith : 0 ≤ w) (by linarith : 0 ≤ w), mul_nonneg (mul_nonneg (by linarith : 0 ≤ w) (by linarith : 0 ≤ w)) (by nlinarith : 0 ≤ w * (2 + w) - w - 3)]
  · rw [ho, hl]; norm_num
  · rw [ho, hl]; norm_num

end Verif.Johnson
