import Verif.Ellipse.Root

/-!
# C176: elliptical contacts become round contacts

`hertz_full`, `slippy/contact/hertz.py` l.705-752 and l.668-676 (models `HertzFull.Model` and `Ellipse.Model`).
-/

namespace Verif.Ellipse

open Real HertzFull intervalIntegral Set Filter Topology

/-! ## The integrals close to one -/

theorem continuous_part {l : ℝ} (hl : 0 < l) {f : ℝ → ℝ} (hf : Continuous f) (n : ℕ) :
    ContinuousOn (fun k => ∫ t in (0 : ℝ)..(π / 2), f t / dl (1 - k ^ 2) t ^ n) (Icc l 1) := by
  have hc : Continuous fun k => ∫ t in (0 : ℝ)..(π / 2), f t / dl (1 - (max k l) ^ 2) t ^ n := by
    refine continuous_parametric_intervalIntegral_of_continuous' ?_ 0 (π / 2)
    refine Continuous.div (by fun_prop) ?_ fun q => (pow_pos (dl_pos (lt_of_pos (hl.trans_le (le_max_right _ _))) _) n).ne'
    unfold dl
    fun_prop
  refine hc.continuousOn.congr fun k hk => ?_
  dsimp only
  rw [max_eq_left hk.1]

theorem part_one (f : ℝ → ℝ) (n : ℕ) : ∫ t in (0 : ℝ)..(π / 2), f t / dl (1 - 1 ^ 2) t ^ n = ∫ t in (0 : ℝ)..(π / 2), f t := by
  simp [dl]

/-- The ratio of the axes for each cosine of the auxiliary angle; one where there is none. -/
noncomputable def ratio (c : ℝ) : ℝ := by
  classical
  exact if h : (0 < c ∧ c < 1) ∧ 3e-6 * (1 + c) ≤ 1 - c then (C174_one_root h.1.1 h.1.2 h.2).choose else 1

theorem ratio_spec {c : ℝ} (h0 : 0 < c) (h1 : c < 1) (hc : 3e-6 * (1 + c) ≤ 1 - c) :
    0.00001 ≤ ratio c ∧ ratio c < 1 ∧ kRoot (arccos c) (ratio c) = 0 ∧ (∀ l, 0 < l → l < ratio c → kRoot (arccos c) l < 0) ∧ ∀ l, ratio c < l → l ≤ 1 → 0 < kRoot (arccos c) l := by
  have := (C174_one_root h0 h1 hc).choose_spec
  unfold ratio
  rw [dif_pos ⟨⟨h0, h1⟩, hc⟩]
  exact this

theorem small : ∀ᶠ c : ℝ in 𝓝[>] 0, 0 < c ∧ c < 1 / 2 := by
  filter_upwards [Ioo_mem_nhdsGT (show (0 : ℝ) < 1 / 2 by norm_num)] with c hc using hc

theorem tan_half {c : ℝ} (h0 : 0 < c) (h1 : c < 1) : tan (arccos c / 2) ^ 2 = (1 - c) / (1 + c) := by
  rw [tan_eq_sin_div_cos, div_pow, sin_half_sq h0 h1, cos_half_sq h0 h1]
  field_simp

theorem ratio_tendsto : Tendsto ratio (𝓝[>] 0) (𝓝[Icc 0.00001 1] 1) := by
  refine tendsto_nhdsWithin_iff.2 ⟨?_, ?_⟩
  · rw [tendsto_order]
    constructor
    · intro l hl
      have l0 : 0 < max l (1 / 2) := lt_max_of_lt_right (by norm_num)
      have l1 : max l (1 / 2) < 1 := max_lt hl (by norm_num)
      have neg : balance 1 (max l (1 / 2)) < 0 := balance_below l0 l1 one_pos (by rw [balance_one]; ring)
      have hτ : Tendsto (fun c : ℝ => (1 - c) / (1 + c)) (𝓝[>] 0) (𝓝 1) := by
        have : ContinuousAt (fun c : ℝ => (1 - c) / (1 + c)) 0 := ContinuousAt.div (by fun_prop) (by fun_prop) (by norm_num)
        have h := this.tendsto
        norm_num at h
        exact h.mono_left nhdsWithin_le_nhds
      have hb : Tendsto (fun c : ℝ => balance ((1 - c) / (1 + c)) (max l (1 / 2))) (𝓝[>] 0) (𝓝 (balance 1 (max l (1 / 2)))) := by
        simp only [balance_eq l0]
        exact (hτ.mul_const _).const_sub _
      filter_upwards [small, hb.eventually_lt_const neg] with c hc hneg
      have c1 : c < 1 := by linarith [hc.2]
      obtain ⟨-, -, hz, -, habove⟩ := ratio_spec hc.1 c1 (by norm_num at *; linarith [hc.2])
      refine (le_max_left l (1 / 2)).trans_lt (not_le.1 fun hle => ?_)
      have hk : kRoot (arccos c) (max l (1 / 2)) < 0 := by
        have ht : 0 < tan (arccos c / 2) ^ 2 := by
          rw [tan_half hc.1 c1]
          exact div_pos (by linarith) (by linarith [hc.1])
        rw [kRoot_sign l0 ht, tan_half hc.1 c1]
        rw [tan_half hc.1 c1] at ht
        have := intI_pos l0
        exact mul_neg_of_pos_of_neg (by positivity) hneg
      rcases hle.lt_or_eq with h | h
      · exact (habove _ h l1.le).not_gt hk
      · rw [← h, hz] at hk
        exact lt_irrefl _ hk
    · intro l hl
      filter_upwards [small] with c hc
      obtain ⟨-, h, -⟩ := ratio_spec hc.1 (by linarith [hc.2]) (by norm_num at *; linarith [hc.2])
      exact h.trans hl
  · filter_upwards [small] with c hc
    obtain ⟨h0, h, -⟩ := ratio_spec hc.1 (by linarith [hc.2]) (by norm_num at *; linarith [hc.2])
    exact ⟨h0, h.le⟩

theorem part_tendsto {f : ℝ → ℝ} (hf : Continuous f) (n : ℕ) :
    Tendsto (fun c => ∫ t in (0 : ℝ)..(π / 2), f t / dl (1 - ratio c ^ 2) t ^ n) (𝓝[>] 0) (𝓝 (∫ t in (0 : ℝ)..(π / 2), f t)) := by
  have h := (continuous_part (l := 0.00001) (by norm_num) hf n 1 ⟨by norm_num, le_refl _⟩).tendsto.comp ratio_tendsto
  rw [part_one] at h
  exact h

theorem ratio_to_one : Tendsto ratio (𝓝[>] 0) (𝓝 1) := ratio_tendsto.mono_right nhdsWithin_le_nhds

/-- The factors that the code finds. -/
noncomputable def factorF (c : ℝ) : ℝ := (2 * intI (ratio c) / π / sin (arccos c / 2) ^ 2) ^ ((1 : ℝ) / 3)

noncomputable def factorG (c : ℝ) : ℝ := (2 * intJ (ratio c) / π / cos (arccos c / 2) ^ 2) ^ ((1 : ℝ) / 3)

theorem ratio_pos {c : ℝ} (hc : 0 < c ∧ c < 1 / 2) : 0 < ratio c :=
  lt_of_lt_of_le (by norm_num) (ratio_spec hc.1 (by linarith [hc.2]) (by norm_num at *; linarith [hc.2])).1

theorem factorF_to_one : Tendsto factorF (𝓝[>] 0) (𝓝 1) := by
  have h1 : Tendsto (fun c : ℝ => (1 - c) / 2) (𝓝[>] 0) (𝓝 (1 / 2)) := by
    have : ContinuousAt (fun c : ℝ => (1 - c) / 2) 0 := by fun_prop
    have h := this.tendsto
    norm_num at h
    exact h.mono_left nhdsWithin_le_nhds
  have h := (((part_tendsto (f := fun t => sin t ^ 2) (by fun_prop) 1).const_mul 2).div_const π).div h1 (by norm_num)
  rw [int_sin_sq, show 2 * (π / 4) / π / (1 / 2) = 1 by have := pi_ne_zero; field_simp; norm_num] at h
  have h2 := h.rpow_const (p := (1 : ℝ) / 3) (Or.inl one_ne_zero)
  rw [one_rpow] at h2
  refine h2.congr' ?_
  filter_upwards [small] with c hc
  unfold factorF
  rw [sin_half_sq hc.1 (by linarith [hc.2]), intI_eq (ratio_pos hc)]
  rfl

theorem factorG_to_one : Tendsto factorG (𝓝[>] 0) (𝓝 1) := by
  have h1 : Tendsto (fun c : ℝ => (1 + c) / 2) (𝓝[>] 0) (𝓝 (1 / 2)) := by
    have : ContinuousAt (fun c : ℝ => (1 + c) / 2) 0 := by fun_prop
    have h := this.tendsto
    norm_num at h
    exact h.mono_left nhdsWithin_le_nhds
  have h := ((((ratio_to_one.pow 3).mul (part_tendsto (f := fun t => sin t ^ 2) (by fun_prop) 3)).const_mul 2).div_const π).div h1 (by norm_num)
  rw [int_sin_sq, show 2 * (1 ^ 3 * (π / 4)) / π / (1 / 2) = 1 by have := pi_ne_zero; field_simp; norm_num] at h
  have h2 := h.rpow_const (p := (1 : ℝ) / 3) (Or.inl one_ne_zero)
  rw [one_rpow] at h2
  refine h2.congr' ?_
  filter_upwards [small] with c hc
  unfold factorG
  rw [cos_half_sq hc.1 (by linarith [hc.2]), intJ_eq (ratio_pos hc)]
  rfl

theorem factorH_to : Tendsto (fun c => intH (ratio c)) (𝓝[>] 0) (𝓝 (π / 2)) := by
  have h := part_tendsto (f := fun _ => 1) (by fun_prop) 1
  rw [integral_const, smul_eq_mul, sub_zero, mul_one] at h
  refine h.congr fun c => ?_
  rw [intH_eq, ellipk_eq]

theorem finder_eq {root : RootFinder} (hroot : Exact root) {c f g h : ℝ} (hc : 0 < c ∧ c < 1 / 2) (hf : finder root c = some (f, g, h)) :
    f = factorF c ∧ g = factorG c ∧ h = intH (ratio c) := by
  have c1 : c < 1 := by linarith [hc.2]
  obtain ⟨-, -, -, hbelow, habove⟩ := ratio_spec hc.1 c1 (by norm_num at *; linarith [hc.2])
  unfold finder at hf
  rw [if_neg (not_lt.2 c1.le)] at hf
  dsimp only at hf
  generalize hk : root (kRoot (arccos c)) 0.00001 1 = found at hf
  cases found with
  | none => cases hf
  | some k =>
    obtain ⟨kz, k0, k1⟩ := hroot _ _ _ _ hk
    have e : k = ratio c := by
      rcases lt_trichotomy k (ratio c) with h | h | h
      · exact absurd kz (hbelow k (lt_of_lt_of_le (by norm_num) k0) h).ne
      · exact h
      · exact absurd kz (habove k h k1).ne'
    simp only [Option.some.injEq, Prod.mk.injEq] at hf
    obtain ⟨rfl, rfl, rfl⟩ := hf
    rw [e]
    exact ⟨rfl, rfl, rfl⟩

/-- **C176.** The results of elliptical contacts come as close as one likes to those of round contacts as the cosine of the auxiliary angle goes to zero, for all bodies at once: both radii, the maximum pressure and the
deflection differ little from those of the round contact with the same sum of curvatures (`C176_round`). Missing is the mean pressure, which is divided by the area twice (C36). -/
theorem C176_becomes_round_partial {root : RootFinder} (hroot : Exact root) {ε : ℝ} (hε : 0 < ε) :
    ∃ δ, 0 < δ ∧ ∀ (p : Args) (r : Result), Ordinary p → hertz root p = .ok r → r.shape = .ellipse → 0 < p.cosOmega → p.cosOmega < δ →
      ∀ R s, R = 2 / (p.r1x.curv + p.r1y.curv + p.r2x.curv + p.r2y.curv) → s = (3 * p.load * R / 4 / p.eStar) ^ ((1 : ℝ) / 3) →
      ∃ a b, r.radiusA = .fin a ∧ r.radiusB = .fin b ∧ |a - s| < ε * s ∧ |b - s| < ε * s ∧
        |r.maxPressure - 3 * p.load / (2 * π * s ^ 2)| < ε * (3 * p.load / (2 * π * s ^ 2)) ∧ |r.deflection - s ^ 2 / R| < ε * (s ^ 2 / R) := by
  have close : ∀ {F : ℝ → ℝ}, Tendsto F (𝓝[>] 0) (𝓝 1) → ∀ᶠ c in 𝓝[>] 0, |F c - 1| < ε := fun hF => by
    have := hF.eventually (Metric.ball_mem_nhds 1 hε)
    exact this
  have tP : Tendsto (fun c => (factorF c * factorG c)⁻¹) (𝓝[>] 0) (𝓝 1) := by
    have := (factorF_to_one.mul factorG_to_one).inv₀ (by norm_num)
    rwa [mul_one, inv_one] at this
  have tD : Tendsto (fun c => intH (ratio c) / (π / 2) / factorF c) (𝓝[>] 0) (𝓝 1) := by
    have := (factorH_to.div_const (π / 2)).div factorF_to_one one_ne_zero
    rwa [div_self (by positivity), div_one] at this
  have all := (small.and (close factorF_to_one)).and ((close factorG_to_one).and ((close tP).and (close tD)))
  obtain ⟨δ, hδ, hall⟩ := mem_nhdsGT_iff_exists_Ioo_subset.1 all
  refine ⟨δ, hδ, fun p r hm hr hs c0 cδ R s hR hs' => ?_⟩
  obtain ⟨⟨hsmall, hF⟩, hG, hPr, hD⟩ := hall ⟨c0, cδ⟩
  obtain ⟨hload, hsol⟩ := solved_of_ok hr
  cases hsol with
  | line => cases hs
  | sphere => cases hs
  | ellipse f g h he hsum a b =>
    obtain ⟨rfl, rfl, rfl⟩ := finder_eq hroot hsmall he
    have hE := eStar_pos hm
    have hpi := pi_pos
    have hscale : ellScale p = s := by
      rw [hs', hR]
      unfold ellScale
      congr 1
      have : 4 * (1 - p.v1 ^ 2) / p.e1 + 4 * (1 - p.v2 ^ 2) / p.e2 = 4 / p.eStar := by
        unfold Args.eStar
        rw [div_div_eq_mul_div]
        ring
      rw [this]
      field_simp
      ring
    have s0 : 0 < s := hscale ▸ ellScale_pos hm hload hsum
    have R0 : 0 < R := by
      rw [hR]
      positivity
    have scaled : ∀ {x m : ℝ}, 0 < m → |x - 1| < ε → |x * m - m| < ε * m := fun {x m} h0 hx => by
      rw [show x * m - m = (x - 1) * m by ring, abs_mul, abs_of_pos h0]
      exact mul_lt_mul_of_pos_right hx h0
    refine ⟨_, _, rfl, rfl, ?_, ?_, ?_, ?_⟩
    · change |factorF p.cosOmega * ellScale p - s| < _
      rw [hscale]
      exact scaled s0 hF
    · change |factorG p.cosOmega * ellScale p - s| < _
      rw [hscale]
      exact scaled s0 hG
    · change |3 * p.load / 2 / (factorF p.cosOmega * ellScale p * (factorG p.cosOmega * ellScale p) * π) - _| < _
      rw [hscale, show 3 * p.load / 2 / (factorF p.cosOmega * s * (factorG p.cosOmega * s) * π) = (factorF p.cosOmega * factorG p.cosOmega)⁻¹ * (3 * p.load / (2 * π * s ^ 2)) by
        rw [show factorF p.cosOmega * s * (factorG p.cosOmega * s) * π = (factorF p.cosOmega * factorG p.cosOmega) * (π * s ^ 2) by ring]
        generalize factorF p.cosOmega * factorG p.cosOmega = w
        by_cases hw : w = 0
        · simp [hw]
        · field_simp]
      exact scaled (by positivity) hPr
    · have hd : (ellipseResult p (factorF p.cosOmega) (factorG p.cosOmega) (intH (ratio p.cosOmega)) a b).deflection = intH (ratio p.cosOmega) / (π / 2) / factorF p.cosOmega * (s ^ 2 / R) := by
        change 3 * p.load * (4 * (1 - p.v1 ^ 2) / p.e1) * intH (ratio p.cosOmega) / (factorF p.cosOmega * ellScale p) / 8 / π +
          3 * p.load * (4 * (1 - p.v1 ^ 2) / p.e1) * intH (ratio p.cosOmega) / (factorF p.cosOmega * ellScale p) / 8 / π * (4 * (1 - p.v2 ^ 2) / p.e2) / (4 * (1 - p.v1 ^ 2) / p.e1) = _
        have t1 : 0 < 4 * (1 - p.v1 ^ 2) / p.e1 := div_pos (by linarith [hm.v1]) hm.e1
        have hsumθ : 4 * (1 - p.v1 ^ 2) / p.e1 + 4 * (1 - p.v2 ^ 2) / p.e2 = 4 / p.eStar := by
          unfold Args.eStar
          rw [div_div_eq_mul_div]
          ring
        have cube : s ^ 3 = 3 * p.load * R / 4 / p.eStar := by
          rw [hs']
          exact cube_root (by positivity)
        rw [hscale]
        generalize 4 * (1 - p.v1 ^ 2) / p.e1 = θ₁ at *
        generalize 4 * (1 - p.v2 ^ 2) / p.e2 = θ₂ at *
        generalize intH (ratio p.cosOmega) = H
        generalize factorF p.cosOmega = F
        have hs2 : s ^ 2 / R = 3 * p.load / 4 / p.eStar / s := by
          rw [div_eq_div_iff R0.ne' s0.ne', show s ^ 2 * s = s ^ 3 by ring, cube]
          ring
        rw [hs2, show 3 * p.load * θ₁ * H / (F * s) / 8 / π + 3 * p.load * θ₁ * H / (F * s) / 8 / π * θ₂ / θ₁ = 3 * p.load * H / (F * s) / 8 / π * (θ₁ + θ₂) by
          field_simp, hsumθ]
        by_cases hF0 : F = 0
        · simp [hF0]
        · field_simp
          ring
      rw [hd]
      exact scaled (by positivity) hD


/-- A body with two radii that differ little, on a flat. -/
noncomputable def nearlyRound (η : ℝ) : Args := ⟨.fin 1, .fin (1 + η), .inf, .inf, 1, 1, 0, 0, 1, 0, false⟩

theorem nearlyRound_solved {root : RootFinder} (hroot : Exact root) (hans : Answers root) {δ : ℝ} (hδ : 0 < δ) :
    ∃ η r, 0 < η ∧ Ordinary (nearlyRound η) ∧ hertz root (nearlyRound η) = .ok r ∧ r.shape = .ellipse ∧ 0 < (nearlyRound η).cosOmega ∧ (nearlyRound η).cosOmega < δ := by
  obtain ⟨η, e0, e1, eδ⟩ : ∃ η : ℝ, 0 < η ∧ η < 1 ∧ η ≤ δ := ⟨min (1 / 2) δ, lt_min (by norm_num) hδ, (min_le_left _ _).trans_lt (by norm_num), min_le_right _ _⟩
  have hm : Ordinary (nearlyRound η) := ⟨by norm_num [nearlyRound], by norm_num [nearlyRound], by norm_num [nearlyRound], by norm_num [nearlyRound]⟩
  have lt : 1 / (1 + η) < 1 := by
    rw [div_lt_one (by linarith)]
    linarith
  have gt : 1 / 2 < 1 / (1 + η) := by
    rw [div_lt_div_iff₀ (by norm_num) (by linarith)]
    linarith
  have c1 : (nearlyRound η).r1x.curv = 1 := by simp [nearlyRound, Radius.curv]
  have c2 : (nearlyRound η).r1y.curv = 1 / (1 + η) := by simp [nearlyRound, Radius.curv]
  have c3 : (nearlyRound η).r2x.curv = 0 := by simp [nearlyRound, Radius.curv]
  have c4 : (nearlyRound η).r2y.curv = 0 := by simp [nearlyRound, Radius.curv]
  have hE : HertzFull.Spec.Eigenvalues (bodies (nearlyRound η)) 1 (1 / (1 + η)) := by
    constructor
    · rw [trace_bodies, c1, c2, c3, c4]
      ring
    · simp [bodies, HertzFull.Spec.curvatureMatrix, nearlyRound, Radius.curv, Matrix.det_fin_two]
  have hA : (nearlyRound η).constA = 0 := by simp [Args.constA, c3, c4]
  have hB : (nearlyRound η).constB = 1 - 1 / (1 + η) := by simp only [Args.constB, c1, c2]
  obtain ⟨r, hr, hl, h0, h1, -⟩ := C130_solved_partial hroot hans hm
    ⟨by norm_num [nearlyRound, Radius.isZero], by simp only [nearlyRound, Radius.isZero]; linarith, by norm_num [nearlyRound, Radius.isZero],
      by norm_num [nearlyRound, Radius.isZero], by norm_num [nearlyRound]⟩
    (by
      unfold Determined
      rw [hA, hB]
      have : (0 : ℝ) < (1 - 1 / (1 + η)) ^ 2 := pow_pos (by linarith) 2
      simpa using this.ne')
    (Or.inl (by rw [c1, c2]; exact lt.le)) hE lt (by linarith) (by norm_num; norm_num at gt; linarith) rfl
    (C130_convex (by rw [c1]; norm_num) (by rw [c2]; linarith) (by rw [c3]) (by rw [c4]))
  refine ⟨η, r, e0, hm, hr, hl, h0, ?_⟩
  unfold Args.cosOmega
  rw [hA, hB, c1, c2, c3, c4]
  simp only [mul_zero, zero_mul, add_zero, ne_eq, OfNat.ofNat_ne_zero, not_false_eq_true, zero_pow]
  rw [sqrt_sq (by linarith), div_lt_iff₀ (by linarith)]
  have : 1 - 1 / (1 + η) < η := by
    have : 1 - 1 / (1 + η) = η / (1 + η) := by
      have : (1 + η) ≠ 0 := by linarith
      field_simp
      ring
    rw [this, div_lt_iff₀ (by linarith)]
    nlinarith
  nlinarith

/-- Such contacts exist for each bound. -/
example {δ : ℝ} (hδ : 0 < δ) : ∃ root p r, Exact root ∧ Ordinary p ∧ hertz root p = .ok r ∧ r.shape = .ellipse ∧ 0 < p.cosOmega ∧ p.cosOmega < δ := by
  obtain ⟨root, hroot, hans⟩ := exists_root
  obtain ⟨η, r, -, h⟩ := nearlyRound_solved hroot hans hδ
  exact ⟨root, _, r, hroot, h⟩

/-- **C176 is false for the mean pressure.** However close to round the contacts are, there are some whose mean pressure is less than two thirds of that of the round contact. -/
theorem C176_mean_wrong {root : RootFinder} (hroot : Exact root) (hans : Answers root) {δ : ℝ} (hδ : 0 < δ) :
    ∃ p r, Ordinary p ∧ hertz root p = .ok r ∧ r.shape = .ellipse ∧ 0 < p.cosOmega ∧ p.cosOmega < δ ∧
      ∀ R s, R = 2 / (p.r1x.curv + p.r1y.curv + p.r2x.curv + p.r2y.curv) → s = (3 * p.load * R / 4 / p.eStar) ^ ((1 : ℝ) / 3) →
        r.meanPressure < 2 / 3 * (p.load / (π * s ^ 2)) := by
  obtain ⟨δ', hδ', hall⟩ := C176_becomes_round_partial hroot (ε := 1 / 10) (by norm_num)
  obtain ⟨η, r, e0, hm, hr, hs, c0, cδ⟩ := nearlyRound_solved hroot hans (lt_min hδ hδ')
  refine ⟨_, r, hm, hr, hs, c0, cδ.trans_le (min_le_left _ _), fun R s hR hs' => ?_⟩
  obtain ⟨a, b, ea, eb, ha, hb, hmax, -⟩ := hall _ r hm hr hs c0 (cδ.trans_le (min_le_right _ _)) R s hR hs'
  have hmean : r.meanPressure = r.maxPressure / (a * b * π) := by
    obtain ⟨-, hsol⟩ := solved_of_ok hr
    cases hsol with
    | line => cases hs
    | sphere => cases hs
    | ellipse f g h he hsum x y =>
      cases ea
      cases eb
      rfl
  have hload : (nearlyRound η).load = 1 := rfl
  have hE : (nearlyRound η).eStar = 1 / 2 := by norm_num [Args.eStar, nearlyRound]
  have R1 : 1 ≤ R := by
    have h : 1 / (1 + η) ≤ 1 := by
      rw [div_le_one (by linarith)]
      linarith
    have h' : 0 < 1 / (1 + η) := by positivity
    rw [hR, show (nearlyRound η).r1x.curv + (nearlyRound η).r1y.curv + (nearlyRound η).r2x.curv + (nearlyRound η).r2y.curv = 1 + 1 / (1 + η) by simp [nearlyRound, Radius.curv],
      le_div_iff₀ (by linarith)]
    linarith
  have s1 : 1 ≤ s := by
    rw [hs', hload, hE]
    exact one_le_rpow (by linarith) (by norm_num)
  rw [hload] at hmax ⊢
  have hpi := pi_gt_three
  have a1 : 9 / 10 * s < a := by linarith [(abs_lt.1 ha).1]
  have b1 : 9 / 10 * s < b := by linarith [(abs_lt.1 hb).1]
  have m1 : r.maxPressure < 11 / 10 * (3 / (2 * π * s ^ 2)) := by
    have := (abs_lt.1 hmax).2
    rw [mul_one] at this
    linarith
  have ab : 81 / 100 * s ^ 2 ≤ a * b := by nlinarith
  have q0 : 81 / 100 * π ≤ a * b * π := mul_le_mul_of_nonneg_right (by nlinarith) (by linarith)
  rw [hmean, div_lt_iff₀ (by linarith)]
  have e : 11 / 10 * (3 / (2 * π * s ^ 2)) = 33 / 20 * (1 / (π * s ^ 2)) := by
    field_simp
    norm_num
  rw [e] at m1
  have w0 : 0 < 1 / (π * s ^ 2) := by positivity
  have hpi' := pi_gt_d2
  generalize 1 / (π * s ^ 2) = w at *
  nlinarith [mul_le_mul_of_nonneg_left q0 w0.le]

example : ∃ root, Exact root ∧ Answers root := exists_root

/-- **C176, round contacts**: radii, maximum pressure and deflection, from the sum of the curvatures. -/
theorem C176_round {ell : EllipseFinder} {p : Args} {r : Result} (hr : hertzFull ell p = .ok r) (hs : r.shape = .sphere) {R s : ℝ}
    (hR : R = 2 / (p.r1x.curv + p.r1y.curv + p.r2x.curv + p.r2y.curv)) (hs' : s = (3 * p.load * R / 4 / p.eStar) ^ ((1 : ℝ) / 3)) :
    r.radiusA = .fin s ∧ r.radiusB = .fin s ∧ r.maxPressure = 3 * p.load / (2 * π * s ^ 2) ∧ r.deflection = s ^ 2 / R := by
  have key : ∃ a b, r = sphereResult p R a b := by
    unfold hertzFull at hr
    simp only at hr
    split at hr
    · cases hr
    split at hr
    · cases hr
    split at hr
    · cases hr
    split at hr
    · cases hr
    rename_i hneg
    push Not at hneg
    have n1 := recip_nonneg hneg.1
    have n2 := recip_nonneg hneg.2
    split at hr
    · cases hr
    rename_i hinf
    split at hr
    · split at hr
      · cases hr
      · cases hr
        cases hs
    split at hr
    · rename_i heq
      split at hr
      · cases hr
      · have p1 : 0 < p.k1 := by
          rcases n1.lt_or_eq with h1 | h1
          · exact h1
          · exact absurd ⟨recip_eq_pinf h1.symm, by rw [← heq]; exact recip_eq_pinf h1.symm⟩ hinf
        have p2 : 0 < p.k2 := by
          rcases n2.lt_or_eq with h1 | h1
          · exact h1
          · exact absurd ⟨by rw [heq]; exact recip_eq_pinf h1.symm, recip_eq_pinf h1.symm⟩ hinf
        rw [recip_pos p1, recip_pos p2] at heq
        have hk : p.k1 = p.k2 := by
          have := XR.fin.inj heq
          rw [div_eq_div_iff p1.ne' p2.ne'] at this
          linarith
        have : 1 / p.k1 = R := by
          rw [hR, ← sum_k, ← hk]
          field_simp
          ring
        cases hr
        rw [this]
        exact ⟨_, _, rfl⟩
    split at hr
    · cases hr
    split at hr
    · cases hr
    · cases hr
      cases hs
  obtain ⟨a, b, rfl⟩ := key
  rw [hs']
  exact ⟨rfl, rfl, rfl, rfl⟩

/-- A ball on a flat. -/
example : ∃ r, hertzFull (fun _ => none) ballOnFlat = .ok r ∧ r.shape = .sphere := by
  obtain ⟨r, h1, h2, -⟩ := ball_solution
  exact ⟨r, h1, h2⟩

end Verif.Ellipse
