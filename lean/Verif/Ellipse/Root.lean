import Verif.Ellipse.Bracket

/-!
# C174: the equation for the axes of an elliptical contact has one root

`optimize.brentq(_k_root, 0.00001, 1, …)`, `slippy/contact/hertz.py` l.722-728, with `_k_root` l.887-892.
-/

namespace Verif.Ellipse

open Real HertzFull intervalIntegral Set

/-- The part of the equation that decides its sign. -/
noncomputable def balance (τ k : ℝ) : ℝ := ∫ t in (0 : ℝ)..(π / 2), (1 - (1 + τ) * sin t ^ 2) / dl (1 - k ^ 2) t ^ 3

theorem balance_eq {τ k : ℝ} (hk : 0 < k) : balance τ k = intI k - τ * (intJ k / k ^ 3) := by
  have hm := lt_of_pos hk
  have hJ : intJ k / k ^ 3 = ∫ t in (0 : ℝ)..(π / 2), sin t ^ 2 / dl (1 - k ^ 2) t ^ 3 := by
    rw [intJ_eq hk]
    field_simp
  rw [hJ, intI_eq hk, ← int_cos_cube hm, ← integral_const_mul, ← integral_sub (integrable hm (by fun_prop) 3 _ _) ((integrable hm (by fun_prop) 3 _ _).const_mul τ)]
  unfold balance
  congr 1
  funext t
  rw [cos_sq']
  ring

theorem kRoot_sign {ω k : ℝ} (hk : 0 < k) (hτ : 0 < tan (ω / 2) ^ 2) :
    kRoot ω k = k ^ 3 / (tan (ω / 2) ^ 2 * intI k) * balance (tan (ω / 2) ^ 2) k := by
  rw [balance_eq hk]
  unfold kRoot
  have := intI_pos hk
  generalize tan (ω / 2) ^ 2 = τ at *
  field_simp

/-- The balance below a root. -/
theorem balance_below {τ k₁ k₂ : ℝ} (h0 : 0 < k₁) (h12 : k₁ < k₂) (hτ : 0 < τ) (hz : balance τ k₂ = 0) : balance τ k₁ < 0 := by
  have h02 : 0 < k₂ := h0.trans h12
  have b1 := lt_of_pos h0
  have d1 := lt_of_pos h02
  have hs : 1 - k₂ ^ 2 < 1 - k₁ ^ 2 := by nlinarith
  unfold balance at *
  have pos : ∀ m S : ℝ, m < 1 → 0 ≤ S → S ≤ 1 → 0 < 1 - m * S := fun m S hm hS hS1 => by
    rcases hS1.lt_or_eq with h | h
    · nlinarith [mul_nonneg hS (sub_pos.2 hm).le]
    · rw [h]
      linarith
  -- the ratio of the weights, at the square of the sine
  have mono : ∀ S T : ℝ, 0 ≤ S → S ≤ T → T ≤ 1 → √((1 - (1 - k₂ ^ 2) * S) / (1 - (1 - k₁ ^ 2) * S)) ^ 3 ≤ √((1 - (1 - k₂ ^ 2) * T) / (1 - (1 - k₁ ^ 2) * T)) ^ 3 := by
    intro S T hS hST hT
    refine pow_le_pow_left₀ (sqrt_nonneg _) (sqrt_le_sqrt ?_) 3
    rw [div_le_div_iff₀ (pos _ S b1 hS (hST.trans hT)) (pos _ T b1 (hS.trans hST) hT)]
    nlinarith [mul_nonneg (sub_nonneg.2 hs.le) (sub_nonneg.2 hST)]
  have t0 : 0 < 1 / (1 + τ) := by positivity
  have t1 : 1 / (1 + τ) ≤ 1 := by
    rw [div_le_one (by positivity)]
    linarith
  have key : ∀ t, (1 - (1 + τ) * sin t ^ 2) / dl (1 - k₁ ^ 2) t ^ 3 =
      √((1 - (1 - k₂ ^ 2) * sin t ^ 2) / (1 - (1 - k₁ ^ 2) * sin t ^ 2)) ^ 3 * ((1 - (1 + τ) * sin t ^ 2) / dl (1 - k₂ ^ 2) t ^ 3) := by
    intro t
    have := dl_pos b1 t
    have := dl_pos d1 t
    rw [sqrt_div (arg_pos d1 t).le]
    change _ = (dl (1 - k₂ ^ 2) t / dl (1 - k₁ ^ 2) t) ^ 3 * _
    generalize dl (1 - k₁ ^ 2) t = q₁ at *
    generalize dl (1 - k₂ ^ 2) t = q₂ at *
    field_simp
  have cmp : ∀ t, (1 - (1 + τ) * sin t ^ 2) / dl (1 - k₁ ^ 2) t ^ 3 ≤
      √((1 - (1 - k₂ ^ 2) * (1 / (1 + τ))) / (1 - (1 - k₁ ^ 2) * (1 / (1 + τ)))) ^ 3 * ((1 - (1 + τ) * sin t ^ 2) / dl (1 - k₂ ^ 2) t ^ 3) := by
    intro t
    have hq := dl_pos d1 t
    rw [key]
    by_cases h : sin t ^ 2 ≤ 1 / (1 + τ)
    · refine mul_le_mul_of_nonneg_right (mono _ _ (sq_nonneg _) h t1) (div_nonneg ?_ (by positivity))
      rw [le_div_iff₀ (by positivity)] at h
      linarith
    · push Not at h
      refine mul_le_mul_of_nonpos_right (mono _ _ t0.le h.le (sin_sq_le_one t)) (div_nonpos_of_nonpos_of_nonneg ?_ (by positivity))
      rw [div_lt_iff₀ (by positivity)] at h
      linarith
  generalize hC : √((1 - (1 - k₂ ^ 2) * (1 / (1 + τ))) / (1 - (1 - k₁ ^ 2) * (1 / (1 + τ)))) ^ 3 = C at *
  have hC1 : 1 < C := by
    rw [← hC]
    refine one_lt_pow₀ ?_ three_ne_zero
    rw [lt_sqrt (by norm_num), one_pow, one_lt_div (pos _ _ b1 t0.le t1)]
    nlinarith [mul_pos (sub_pos.2 hs) t0]
  have c2 : Continuous (fun t => C * ((1 - (1 + τ) * sin t ^ 2) / dl (1 - k₂ ^ 2) t ^ 3)) := continuous_const.mul (cont_div d1 (by fun_prop) 3)
  have lt := integral_lt_integral_of_continuousOn_of_le_of_exists_lt (a := 0) (b := π / 2) (by positivity)
    (cont_div b1 (f := fun t => 1 - (1 + τ) * sin t ^ 2) (by fun_prop) 3).continuousOn c2.continuousOn (fun t _ => cmp t) ⟨0, ⟨le_refl _, by positivity⟩, by simpa [dl] using hC1⟩
  rw [integral_const_mul, hz, mul_zero] at lt
  exact lt

theorem balance_cont {l τ : ℝ} (hl : 0 < l) : ContinuousOn (balance τ) (Icc l 1) := by
  have h : ContinuousOn (fun k => (∫ t in (0 : ℝ)..(π / 2), sin t ^ 2 / dl (1 - k ^ 2) t ^ 1) - τ * ∫ t in (0 : ℝ)..(π / 2), sin t ^ 2 / dl (1 - k ^ 2) t ^ 3) (Icc l 1) :=
    (continuous_G hl 1).sub ((continuous_G hl 3).const_smul τ)
  refine h.congr fun k hk => ?_
  have k0 := hl.trans_le hk.1
  rw [balance_eq k0, intI_eq k0, intJ_eq k0]
  field_simp

theorem balance_one {τ : ℝ} : balance τ 1 = (1 - τ) * (π / 4) := by
  rw [balance_eq one_pos, intI_eq one_pos, intJ_eq one_pos]
  simp only [one_pow, sub_self, dl, zero_mul, sub_zero, sqrt_one, div_one, one_mul, int_sin_sq]
  ring

/-- **C174, the equation.** For every cosine of an auxiliary angle between zero and one, up to 6/10⁶ from one, there is exactly one root in the interval that is searched. Below it the equation is
negative, down to zero, and above it is positive. -/
theorem C174_one_root {c : ℝ} (h0 : 0 < c) (h1 : c < 1) (hc : 3e-6 * (1 + c) ≤ 1 - c) :
    ∃ k, 0.00001 ≤ k ∧ k < 1 ∧ kRoot (arccos c) k = 0 ∧ (∀ l, 0 < l → l < k → kRoot (arccos c) l < 0) ∧ ∀ l, k < l → l ≤ 1 → 0 < kRoot (arccos c) l := by
  have hlow := lower_end h0 h1 hc
  have htan : tan (arccos c / 2) ^ 2 = (1 - c) / (1 + c) := by
    rw [tan_eq_sin_div_cos, div_pow, sin_half_sq h0 h1, cos_half_sq h0 h1]
    field_simp
  have hτ : 0 < tan (arccos c / 2) ^ 2 := by
    rw [htan]
    exact div_pos (by linarith) (by linarith)
  have hτ1 : tan (arccos c / 2) ^ 2 < 1 := by
    rw [htan, div_lt_one (by linarith)]
    linarith
  have b1 : 0 < balance (tan (arccos c / 2) ^ 2) 1 := by
    rw [balance_one]
    exact mul_pos (by linarith) (by positivity)
  have e0 : (0 : ℝ) < 0.00001 := by norm_num
  have fac : ∀ k, 0 < k → 0 < k ^ 3 / (tan (arccos c / 2) ^ 2 * intI k) := fun k k0 => by
    have := intI_pos k0
    positivity
  have low : balance (tan (arccos c / 2) ^ 2) 0.00001 ≤ 0 := by
    rw [kRoot_sign e0 hτ] at hlow
    exact nonpos_of_mul_nonpos_right hlow (fac _ e0)
  obtain ⟨k, ⟨kl, kh⟩, hz⟩ := intermediate_value_Icc (by norm_num) (balance_cont (τ := tan (arccos c / 2) ^ 2) e0) ⟨low, b1.le⟩
  have k0 := e0.trans_le kl
  have k1 : k < 1 := lt_of_le_of_ne kh fun e => by
    rw [← e] at b1
    exact b1.ne' hz
  refine ⟨k, kl, k1, ?_, fun l l0 hl => ?_, fun l hl l1 => ?_⟩
  · rw [kRoot_sign k0 hτ, hz, mul_zero]
  · rw [kRoot_sign l0 hτ]
    exact mul_neg_of_pos_of_neg (fac l l0) (balance_below l0 hl hτ hz)
  · have l0 := k0.trans hl
    rw [kRoot_sign l0 hτ]
    refine mul_pos (fac l l0) (not_le.1 fun hn => ?_)
    obtain ⟨m, hm, hmz⟩ := intermediate_value_Icc l1 (balance_cont (τ := tan (arccos c / 2) ^ 2) l0) ⟨hn, b1.le⟩
    exact (balance_below k0 (hl.trans_le hm.1) hτ hmz).ne hz

example : (0 : ℝ) < 1 / 2 ∧ (1 / 2 : ℝ) < 1 ∧ 3e-6 * (1 + 1 / 2 : ℝ) ≤ 1 - 1 / 2 := by norm_num

/-- **C174, accuracy.** A number between two places at which the signs differ is as close to the root as these places are to each other: what a bracketing search that stops early returns is close to the one root. -/
theorem C174_accuracy {c : ℝ} (h0 : 0 < c) (h1 : c < 1) (hc : 3e-6 * (1 + c) ≤ 1 - c) :
    ∃ k, 0.00001 ≤ k ∧ k < 1 ∧ kRoot (arccos c) k = 0 ∧ ∀ l x u, 0 < l → l ≤ x → x ≤ u → u ≤ 1 → kRoot (arccos c) l ≤ 0 → 0 ≤ kRoot (arccos c) u → |x - k| ≤ u - l := by
  obtain ⟨k, k0, k1, hz, hbelow, habove⟩ := C174_one_root h0 h1 hc
  refine ⟨k, k0, k1, hz, fun l x u l0 hl hu u1 hneg hpos => ?_⟩
  have lk : l ≤ k := not_lt.1 fun h => (habove l h ((hl.trans hu).trans u1)).not_ge hneg
  have ku : k ≤ u := not_lt.1 fun h => (hbelow u ((l0.trans_le hl).trans_le hu) h).not_ge hpos
  rw [abs_le]
  constructor <;> linarith

example : (0 : ℝ) < 1 / 2 ∧ (1 / 2 : ℝ) < 1 ∧ 3e-6 * (1 + 1 / 2 : ℝ) ≤ 1 - 1 / 2 := by norm_num

/-- **C174, contacts.** The solution of a contact of bodies as in C130 does not depend on the root finder: any two that find a root where the sign changes return the same radii, pressures and deflection. -/
theorem C174_finders {root root' : RootFinder} (hroot : Exact root) (hans : Answers root) (hroot' : Exact root') (hans' : Answers root') {p : Args} (hdet : Determined p) {κ μ : ℝ}
    (hE : HertzFull.Spec.Eigenvalues (bodies p) κ μ) (hlt : μ < κ) (hpos : 0 < μ) (hratio : κ ≤ 1e5 * μ) (hconv : p.constA ^ 2 + p.constB ^ 2 ≤ (bodies p).trace ^ 2) :
    hertz root p = hertz root' p := by
  obtain ⟨h0, h1, hc⟩ := cosOmega_bounds hdet hE hlt hpos hratio hconv
  obtain ⟨k, -, -, -, hbelow, habove⟩ := C174_one_root h0 h1 hc
  have found : ∀ {r : RootFinder}, Exact r → Answers r → r (kRoot (arccos p.cosOmega)) 0.00001 1 = some k := by
    intro r hr ha
    obtain ⟨l, hl⟩ := ha (kRoot (arccos p.cosOmega)) 0.00001 1 (by norm_num) (continuous_kRoot (by norm_num)) (lower_end h0 h1 hc) (upper_end h0 h1)
    obtain ⟨lz, l0, l1⟩ := hr _ _ _ _ hl
    rw [hl]
    rcases lt_trichotomy l k with h | h | h
    · exact absurd lz (hbelow l (lt_of_lt_of_le (by norm_num) l0) h).ne
    · rw [h]
    · exact absurd lz (habove l h l1).ne'
  have hf : finder root p.cosOmega = finder root' p.cosOmega := by
    unfold finder
    dsimp only
    rw [found hroot hans, found hroot' hans']
  unfold hertz hertzFull
  dsimp only
  rw [hf]

/-- The bodies with the radii 1 and 2. -/
example : (∃ root, Exact root ∧ Answers root) ∧ Determined aligned ∧ HertzFull.Spec.Eigenvalues (bodies aligned) 2 1 ∧ (2 : ℝ) ≤ 1e5 * 1 ∧
    aligned.constA ^ 2 + aligned.constB ^ 2 ≤ (bodies aligned).trace ^ 2 :=
  ⟨exists_root, aligned_determined, aligned_eigen, by norm_num, C130_convex (by norm_num [aligned, Radius.curv]) (by norm_num [aligned, Radius.curv])
    (by norm_num [aligned, Radius.curv]) (by norm_num [aligned, Radius.curv])⟩

end Verif.Ellipse
