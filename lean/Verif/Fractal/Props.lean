import Verif.Fractal.Lemmas

/-!
# C52, C77, C78: fractal surfaces
-/

namespace Verif.Fractal

open Verif.Conv Finset

theorem opp_opp_shift (n : ℕ) [NeZero (2 * n)] (k : ZMod (2 * n)) : (-k + (n : ℕ)).val = opp (2 * n) (k + (n : ℕ)).val := by
  rw [← val_neg]
  congr 1
  have h : ((n : ℕ) : ZMod (2 * n)) + (n : ℕ) = 0 := by
    have := ZMod.natCast_self (2 * n)
    rw [← Nat.cast_add, ← two_mul]
    exact this
  linear_combination h

/-- **C52, spectrum.** Whatever the magnitudes and the phases drawn, the transform is conjugate symmetric. -/
theorem C52_conjugate (n m : ℕ) [NeZero (2 * n)] [NeZero (2 * m)] (mag phases : ℕ → ℕ → ℝ) (k : Grid (2 * n) (2 * m)) :
    fouTrans (2 * n) (2 * m) mag phases (-k) = (starRingEnd ℂ) (fouTrans (2 * n) (2 * m) mag phases k) := by
  have hn : 0 < n := by have := NeZero.ne (2 * n); omega
  have hm : 0 < m := by have := NeZero.ne (2 * m); omega
  unfold fouTrans ifftshift
  have e1 : 2 * n / 2 = n := by omega
  have e2 : 2 * m / 2 = m := by omega
  rw [e1, e2, Prod.fst_neg, Prod.snd_neg, opp_opp_shift, opp_opp_shift]
  beta_reduce
  rw [conjSym_opp n m hn hm 1 (by norm_num) mag _ _ (ZMod.val_lt _) (ZMod.val_lt _),
    conjSym_opp n m hn hm (-1) (by norm_num) phases _ _ (ZMod.val_lt _) (ZMod.val_lt _)]
  unfold polar
  rw [one_mul, neg_one_mul, Real.cos_neg, Real.sin_neg]
  apply Complex.ext <;> simp

/-- Six by ten points. -/
example := @C52_conjugate 3 5 ⟨by norm_num⟩ ⟨by norm_num⟩ (fun i j => i + j) (fun i j => i * j) (1, 2)

/-- **C52, real heights.** The inverse transform has no imaginary part at any point, so taking the real part loses nothing. -/
theorem C52_real (n m : ℕ) [NeZero (2 * n)] [NeZero (2 * m)] (mag phases : ℕ → ℕ → ℝ) (a : Grid (2 * n) (2 * m)) : (inverse (2 * n) (2 * m) mag phases a).im = 0 :=
  backward_real _ (C52_conjugate n m mag phases) a

example := @C52_real 3 5 ⟨by norm_num⟩ ⟨by norm_num⟩ (fun i j => i + j) (fun i j => i * j) (1, 2)

/-- **C52, zero mean.** The heights add up to zero. -/
theorem C52_zero_mean (n m : ℕ) [NeZero (2 * n)] [NeZero (2 * m)] (mag phases : ℕ → ℕ → ℝ) : ∑ a, (inverse (2 * n) (2 * m) mag phases a).re = 0 := by
  have hn : 0 < n := by have := NeZero.ne (2 * n); omega
  have hm : 0 < m := by have := NeZero.ne (2 * m); omega
  have h := sum_backward (fouTrans (2 * n) (2 * m) mag phases)
  have h0 : fouTrans (2 * n) (2 * m) mag phases 0 = 0 := by
    unfold fouTrans ifftshift
    have e1 : 2 * n / 2 = n := by omega
    have e2 : 2 * m / 2 = m := by omega
    simp only [Prod.fst_zero, Prod.snd_zero, zero_add]
    rw [e1, e2, ZMod.val_natCast_of_lt (by omega), ZMod.val_natCast_of_lt (by omega), conjSym_apply n m hn hm _ mag _ _ (by omega) (by omega), if_pos ⟨.inr rfl, .inr rfl⟩]
    unfold polar
    apply Complex.ext <;> simp
  rw [h0] at h
  unfold inverse
  rw [← Complex.re_sum, h]
  rfl

/-- The hypotheses can be met. -/
example : NeZero (2 * 3) ∧ NeZero (2 * 5) := ⟨⟨by norm_num⟩, ⟨by norm_num⟩⟩

/-- **C52, shape.** A surface that can be generated gets the profile with rows and columns exchanged, both rounded up to even numbers. -/
theorem C52_shape (H sigma qr : ℝ) (hasProfile returnNew : Bool) (s0 s1 : ℕ) (h0 : 0 < s0) (h1 : 0 < s1) (gs : ℝ) (draws : ℕ → ℕ → ℝ) (hnew : hasProfile = false ∨ returnNew = true) :
    ∃ r, discretise H sigma qr hasProfile (some (s0, s1)) (some gs) returnNew draws = .ok r ∧ (r.rows, r.cols) = (roundUp s1, roundUp s0) := by
  unfold discretise
  rw [if_neg (by rcases hnew with h | h <;> simp [h])]
  simp only
  unfold realise
  simp only
  rw [dif_pos ⟨by unfold roundUp; omega, by unfold roundUp; omega⟩]
  exact ⟨_, rfl, rfl⟩

/-- Four by seven points asked for, eight by four returned. -/
example := C52_shape 0.5 1 0 false false 4 7 (by norm_num) (by norm_num) 0.01 (fun i j => i + j) (.inl rfl)

/-- **C52, requested shape.** The profile has the requested shape exactly if that is square with an even number of points along the side. Missing from C52: all other shapes, for which it is false. -/
theorem C52_square_partial (H sigma qr : ℝ) (hasProfile returnNew : Bool) (s0 s1 : ℕ) (h0 : 0 < s0) (h1 : 0 < s1) (gs : ℝ) (draws : ℕ → ℕ → ℝ) (r : Realisation)
    (hr : discretise H sigma qr hasProfile (some (s0, s1)) (some gs) returnNew draws = .ok r) : (r.rows, r.cols) = (s0, s1) ↔ s0 = s1 ∧ 2 ∣ s0 := by
  have hnew : hasProfile = false ∨ returnNew = true := by
    by_contra hc
    rw [not_or] at hc
    unfold discretise at hr
    rw [if_pos (by simp [hc])] at hr
    exact nomatch hr
  obtain ⟨r', hr', hs⟩ := C52_shape H sigma qr hasProfile returnNew s0 s1 h0 h1 gs draws hnew
  rw [hr] at hr'
  cases hr'
  rw [hs, Prod.mk.injEq]
  unfold roundUp
  omega

example : ∃ r, discretise 0.5 1 0 false (some (4, 7)) (some 0.01) false (fun i j => i + j) = .ok r ∧ (r.rows, r.cols) ≠ (4, 7) := by
  obtain ⟨r, h, -⟩ := C52_shape 0.5 1 0 false false 4 7 (by norm_num) (by norm_num) 0.01 (fun i j => i + j) (.inl rfl)
  exact ⟨r, h, fun hc => by have := (C52_square_partial _ _ _ _ _ _ _ (by norm_num) (by norm_num) _ _ r h).1 hc; omega⟩

/-- **C52, the shape is wrong.** A surface of shape 4 by 6 gets a profile of shape 6 by 4, and one of shape 3 by 3 gets one of shape 4 by 4. -/
theorem C52_shape_fails (H sigma qr gs : ℝ) (draws : ℕ → ℕ → ℝ) :
    (∃ r, discretise H sigma qr false (some (4, 6)) (some gs) false draws = .ok r ∧ (r.rows, r.cols) = (6, 4)) ∧
    (∃ r, discretise H sigma qr false (some (3, 3)) (some gs) false draws = .ok r ∧ (r.rows, r.cols) = (4, 4)) :=
  ⟨C52_shape H sigma qr false false 4 6 (by norm_num) (by norm_num) gs draws (.inl rfl), C52_shape H sigma qr false false 3 3 (by norm_num) (by norm_num) gs draws (.inl rfl)⟩

/-- **C52, errors.** A surface with a profile is not overwritten, and without shape or spacing nothing is generated. -/
theorem C52_errors (H sigma qr : ℝ) (shape : Option (ℕ × ℕ)) (gs : Option ℝ) (hasProfile returnNew : Bool) (draws : ℕ → ℕ → ℝ) :
    discretise H sigma qr true shape gs false draws = .error .valueError ∧
    discretise H sigma qr hasProfile none gs returnNew draws = .error .valueError ∧
    discretise H sigma qr hasProfile shape none returnNew draws = .error .valueError := by
  refine ⟨rfl, ?_, ?_⟩
  · unfold discretise; split <;> rfl
  · unfold discretise; split
    · rfl
    · cases shape <;> rfl

/-- **C52, Hurst exponent.** Exactly the exponents between zero and one are accepted. -/
theorem C52_hurst (H : ℝ) : checkHurst H = .ok () ↔ 0 ≤ H ∧ H ≤ 1 := by
  unfold checkHurst
  split
  · rename_i h
    constructor
    · intro h; exact nomatch h
    · intro hh; rcases h with h | h <;> linarith [hh.1, hh.2]
  · rename_i h
    rw [not_or, not_lt, not_lt] at h
    exact ⟨fun _ => ⟨h.2, h.1⟩, fun _ => rfl⟩

/-! ## C77 -/

theorem rho_symm (n m : ℕ) (hn : 2 ≤ n) (hm : 2 ≤ m) (gs : ℝ) (i j i' j' : ℕ) (hi : i < 2 * n) (hj : j < 2 * m) (hi' : i' = i ∨ (i' < 2 * n ∧ i + i' = 2 * n)) (hj' : j' = j ∨ (j' < 2 * m ∧ j + j' = 2 * m)) :
    rho (2 * n) (2 * m) gs i' j' = rho (2 * n) (2 * m) gs i j := by
  have key : ∀ (n : ℕ), 2 ≤ n → ∀ i i', i < 2 * n → (i' = i ∨ (i' < 2 * n ∧ i + i' = 2 * n)) → waves (2 * n) gs i' ^ 2 = waves (2 * n) gs i ^ 2 := by
    intro n hn i i' hi h
    rcases h with rfl | ⟨h1, h2⟩
    · rfl
    · rw [waves_eq n hn gs i hi, waves_eq n hn gs i' h1]
      have : (i' : ℝ) = 2 * n - i := by
        have : (i : ℝ) + i' = 2 * n := by exact_mod_cast h2
        linarith
      rw [this]
      ring
  unfold rho
  rw [key n hn i i' hi hi', key m hm j j' hj hj']

theorem rawPsd_symm (n m : ℕ) (hn : 2 ≤ n) (hm : 2 ≤ m) (gs H qr : ℝ) (i j i' j' : ℕ) (hi : i < 2 * n) (hj : j < 2 * m) (hi' : i' = i ∨ (i' < 2 * n ∧ i + i' = 2 * n)) (hj' : j' = j ∨ (j' < 2 * m ∧ j + j' = 2 * m)) :
    rawPsd (2 * n) (2 * m) gs H qr i' j' = rawPsd (2 * n) (2 * m) gs H qr i j := by
  unfold rawPsd
  rw [rho_symm n m hn hm gs i j i' j' hi hj hi' hj']
  have : (i' = 2 * n / 2 ∧ j' = 2 * m / 2) ↔ (i = 2 * n / 2 ∧ j = 2 * m / 2) := by omega
  by_cases h : i = 2 * n / 2 ∧ j = 2 * m / 2
  · rw [if_pos h, if_pos (this.2 h)]
  · rw [if_neg h, if_neg (fun hh => h (this.1 hh))]

/-- The spectrum is positive everywhere but at the centre. -/
theorem rawPsd_pos (n m : ℕ) (hn : 2 ≤ n) (hm : 2 ≤ m) (gs H qr : ℝ) (hg : 0 < gs) (i j : ℕ) (hi : i < 2 * n) (hj : j < 2 * m) (hc : ¬(i = n ∧ j = m)) : 0 < rawPsd (2 * n) (2 * m) gs H qr i j := by
  have hpi := Real.pi_pos
  have hne : ∀ (n : ℕ), 2 ≤ n → ∀ i, i < 2 * n → i ≠ n → 0 < waves (2 * n) gs i ^ 2 := by
    intro n hn i hi h
    rw [waves_eq n hn gs i hi]
    have hn' : (0 : ℝ) < n := by exact_mod_cast (by omega : 0 < n)
    have : (i : ℝ) - n ≠ 0 := by
      intro h0
      apply h
      exact_mod_cast (by linarith : (i : ℝ) = n)
    positivity
  have hr : 0 < rho (2 * n) (2 * m) gs i j := by
    unfold rho
    apply Real.sqrt_pos.2
    by_cases h : i = n
    · have := hne m hm j hj fun h' => hc ⟨h, h'⟩
      positivity
    · have := hne n hn i hi h
      positivity
  unfold rawPsd
  rw [if_neg (by omega)]
  split
  · rename_i h
    exact Real.rpow_pos_of_pos (hr.trans h) _
  · exact Real.rpow_pos_of_pos hr _

theorem total_pos (n m : ℕ) (hn : 2 ≤ n) (hm : 2 ≤ m) (gs H qr : ℝ) (hg : 0 < gs) : 0 < total (2 * n) (2 * m) (rawPsd (2 * n) (2 * m) gs H qr) := by
  unfold total
  have hnn : ∀ i j, i < 2 * n → j < 2 * m → 0 ≤ rawPsd (2 * n) (2 * m) gs H qr i j := by
    intro i j hi hj
    by_cases hc : i = n ∧ j = m
    · unfold rawPsd
      rw [if_pos (by omega)]
    · exact (rawPsd_pos n m hn hm gs H qr hg i j hi hj hc).le
  apply Finset.sum_pos'
  · intro i hi
    exact Finset.sum_nonneg fun j hj => hnn i j (Finset.mem_range.1 hi) (Finset.mem_range.1 hj)
  · refine ⟨0, Finset.mem_range.2 (by omega), ?_⟩
    apply Finset.sum_pos'
    · intro j hj
      exact hnn 0 j (by omega) (Finset.mem_range.1 hj)
    · exact ⟨0, Finset.mem_range.2 (by omega), rawPsd_pos n m hn hm gs H qr hg 0 0 (by omega) (by omega) (by omega)⟩

theorem psd_eq (n m : ℕ) (hn : 2 ≤ n) (hm : 2 ≤ m) (gs H qr sigma : ℝ) (hg : 0 < gs) (i j : ℕ) :
    psd (2 * n) (2 * m) gs H qr sigma i j / (gs ^ 2 / (((2 * n : ℕ) : ℝ) * (2 * m : ℕ) * (2 * Real.pi) ^ 2)) =
      sigma ^ 2 * rawPsd (2 * n) (2 * m) gs H qr i j / total (2 * n) (2 * m) (rawPsd (2 * n) (2 * m) gs H qr) * (((2 * n : ℕ) : ℝ) * (2 * m : ℕ)) ^ 2 := by
  have ht := total_pos n m hn hm gs H qr hg
  have hpi := Real.pi_pos
  have hn' : (0 : ℝ) < n := by exact_mod_cast (by omega : 0 < n)
  have hm' : (0 : ℝ) < m := by exact_mod_cast (by omega : 0 < m)
  unfold psd
  rw [div_pow, Real.sq_sqrt (by positivity)]
  push_cast
  field_simp

theorem psd_nonneg (n m : ℕ) (hn : 2 ≤ n) (hm : 2 ≤ m) (gs H qr sigma : ℝ) (hg : 0 < gs) (i j : ℕ) (hi : i < 2 * n) (hj : j < 2 * m) : 0 ≤ rawPsd (2 * n) (2 * m) gs H qr i j := by
  by_cases hc : i = n ∧ j = m
  · unfold rawPsd
    rw [if_pos (by omega)]
  · exact (rawPsd_pos n m hn hm gs H qr hg i j hi hj hc).le

theorem magnitudes_sq (n m : ℕ) (hn : 2 ≤ n) (hm : 2 ≤ m) (gs H qr sigma : ℝ) (hg : 0 < gs) (i j : ℕ) (hi : i < 2 * n) (hj : j < 2 * m) :
    magnitudes (2 * n) (2 * m) gs H qr sigma i j ^ 2 =
      sigma ^ 2 * rawPsd (2 * n) (2 * m) gs H qr i j / total (2 * n) (2 * m) (rawPsd (2 * n) (2 * m) gs H qr) * (((2 * n : ℕ) : ℝ) * (2 * m : ℕ)) ^ 2 := by
  have ht := total_pos n m hn hm gs H qr hg
  have hp := psd_nonneg n m hn hm gs H qr sigma hg i j hi hj
  unfold magnitudes
  rw [Real.sq_sqrt, psd_eq n m hn hm gs H qr sigma hg i j]
  rw [psd_eq n m hn hm gs H qr sigma hg i j]
  positivity

/-- The arrangement only removes the four corners from the magnitudes. -/
theorem conjSym_magnitudes (n m : ℕ) (hn : 2 ≤ n) (hm : 2 ≤ m) (gs H qr sigma : ℝ) (i j : ℕ) (hi : i < 2 * n) (hj : j < 2 * m) :
    conjSym (2 * n) (2 * m) 1 (magnitudes (2 * n) (2 * m) gs H qr sigma) i j =
      if (i = 0 ∨ i = n) ∧ (j = 0 ∨ j = m) then 0 else magnitudes (2 * n) (2 * m) gs H qr sigma i j := by
  have hs : ∀ i' j', (i' = i ∨ (i' < 2 * n ∧ i + i' = 2 * n)) → (j' = j ∨ (j' < 2 * m ∧ j + j' = 2 * m)) →
      magnitudes (2 * n) (2 * m) gs H qr sigma i' j' = magnitudes (2 * n) (2 * m) gs H qr sigma i j := by
    intro i' j' hi' hj'
    unfold magnitudes psd
    rw [rawPsd_symm n m hn hm gs H qr i j i' j' hi hj hi' hj']
  rw [conjSym_apply n m (by omega) (by omega) 1 _ i j hi hj]
  split
  · rfl
  · split
    · rename_i h
      rw [one_mul]
      exact hs _ _ (.inr ⟨by omega, by omega⟩) (.inl rfl)
    · split
      · rename_i h
        rw [one_mul]
        apply hs
        · unfold opp
          split
          · left; omega
          · right; omega
        · right; omega
      · rfl

theorem total_corners (n m : ℕ) (hn : 0 < n) (hm : 0 < m) (a : ℕ → ℕ → ℝ) :
    total (2 * n) (2 * m) (fun i j => if (i = 0 ∨ i = n) ∧ (j = 0 ∨ j = m) then 0 else a i j) = total (2 * n) (2 * m) a - (a 0 0 + a 0 m + a n 0 + a n m) := by
  have hpt : ∀ i j : ℕ, (if (i = 0 ∨ i = n) ∧ (j = 0 ∨ j = m) then 0 else a i j) =
      a i j - ((if i = 0 then (if j = 0 then a 0 0 else 0) + (if j = m then a 0 m else 0) else 0) + (if i = n then (if j = 0 then a n 0 else 0) + (if j = m then a n m else 0) else 0)) := by
    intro i j
    by_cases h1 : i = 0
    · by_cases h2 : j = 0
      · simp [h1, h2, hn.ne, hm.ne]
      · by_cases h3 : j = m
        · simp [h1, h3, hn.ne, hm.ne']
        · simp [h1, h2, h3, hn.ne]
    · by_cases h4 : i = n
      · by_cases h2 : j = 0
        · simp [h4, h2, hn.ne', hm.ne]
        · by_cases h3 : j = m
          · simp [h4, h3, hn.ne', hm.ne']
          · simp [h4, h2, h3, hn.ne']
      · simp [h1, h4]
  unfold total
  rw [Finset.sum_congr rfl fun i _ => Finset.sum_congr rfl fun j _ => hpt i j]
  simp only [Finset.sum_sub_distrib, Finset.sum_add_distrib]
  have hrow : ∀ (c : ℕ) (x y : ℝ), c < 2 * n → ∑ i ∈ Finset.range (2 * n), ∑ j ∈ Finset.range (2 * m), (if i = c then (if j = 0 then x else 0) + (if j = m then y else 0) else 0) = x + y := by
    intro c x y hc
    rw [Finset.sum_eq_single c]
    · simp only [if_true, Finset.sum_add_distrib]
      rw [Finset.sum_ite_eq', Finset.sum_ite_eq', if_pos (Finset.mem_range.2 (by omega)), if_pos (Finset.mem_range.2 (by omega))]
    · intro i _ hi
      exact Finset.sum_eq_zero fun j _ => if_neg hi
    · intro h; exact absurd (Finset.mem_range.2 hc) h
  rw [hrow 0 _ _ (by omega), hrow n _ _ (by omega)]
  ring

/-- **C77, what the mean square height is.** Whatever the draws, the mean square of the heights is `sigma` squared times one minus the share of the three highest corners of the spectrum, which `_conj_sym` sets to zero. Here `2 * n` and `2 * m` are the numbers of points, above two. This is C77 for a spectrum scaled by the remaining entries. -/
theorem C77_mean_square_partial (n m : ℕ) (hn : 2 ≤ n) (hm : 2 ≤ m) [NeZero (2 * n)] [NeZero (2 * m)] (gs H qr sigma : ℝ) (hg : 0 < gs) (phases : ℕ → ℕ → ℝ) :
    (∑ a, (inverse (2 * n) (2 * m) (magnitudes (2 * n) (2 * m) gs H qr sigma) phases a).re ^ 2) / (((2 * n : ℕ) : ℝ) * (2 * m : ℕ)) =
      sigma ^ 2 * (1 - (rawPsd (2 * n) (2 * m) gs H qr 0 0 + rawPsd (2 * n) (2 * m) gs H qr 0 m + rawPsd (2 * n) (2 * m) gs H qr n 0) / total (2 * n) (2 * m) (rawPsd (2 * n) (2 * m) gs H qr)) := by
  have ht := total_pos n m hn hm gs H qr hg
  have hn' : (0 : ℝ) < n := by exact_mod_cast (by omega : 0 < n)
  have hm' : (0 : ℝ) < m := by exact_mod_cast (by omega : 0 < m)
  set mag := magnitudes (2 * n) (2 * m) gs H qr sigma with hmag
  have h1 : ∑ a, (inverse (2 * n) (2 * m) mag phases a).re ^ 2 = ∑ a, Complex.normSq (backward (fouTrans (2 * n) (2 * m) mag phases) a) := by
    refine Finset.sum_congr rfl fun a _ => ?_
    rw [Complex.normSq_apply, show (backward (fouTrans (2 * n) (2 * m) mag phases) a).im = 0 from C52_real n m mag phases a]
    unfold inverse
    ring
  have h2 : ∑ k, Complex.normSq (fouTrans (2 * n) (2 * m) mag phases k) = total (2 * n) (2 * m) fun i j => conjSym (2 * n) (2 * m) 1 mag i j ^ 2 := by
    rw [← sum_shift (((2 * n / 2 : ℕ) : ZMod (2 * n)), ((2 * m / 2 : ℕ) : ZMod (2 * m)))]
    refine Finset.sum_congr rfl fun k _ => ?_
    unfold fouTrans ifftshift
    rw [normSq_polar]
  have h3 : total (2 * n) (2 * m) (fun i j => conjSym (2 * n) (2 * m) 1 mag i j ^ 2) =
      total (2 * n) (2 * m) (fun i j => if (i = 0 ∨ i = n) ∧ (j = 0 ∨ j = m) then 0 else
        sigma ^ 2 * rawPsd (2 * n) (2 * m) gs H qr i j / total (2 * n) (2 * m) (rawPsd (2 * n) (2 * m) gs H qr) * (((2 * n : ℕ) : ℝ) * (2 * m : ℕ)) ^ 2) := by
    conv_lhs => unfold total
    conv_rhs => unfold total
    refine Finset.sum_congr rfl fun i hi => Finset.sum_congr rfl fun j hj => ?_
    rw [Finset.mem_range] at hi hj
    simp only
    rw [hmag, conjSym_magnitudes n m hn hm gs H qr sigma i j hi hj]
    split
    · ring
    · exact magnitudes_sq n m hn hm gs H qr sigma hg i j hi hj
  have h4 : total (2 * n) (2 * m) (fun i j => sigma ^ 2 * rawPsd (2 * n) (2 * m) gs H qr i j / total (2 * n) (2 * m) (rawPsd (2 * n) (2 * m) gs H qr) * (((2 * n : ℕ) : ℝ) * (2 * m : ℕ)) ^ 2) =
      sigma ^ 2 * (((2 * n : ℕ) : ℝ) * (2 * m : ℕ)) ^ 2 := by
    have : ∀ c : ℝ, total (2 * n) (2 * m) (fun i j => c * rawPsd (2 * n) (2 * m) gs H qr i j) = c * total (2 * n) (2 * m) (rawPsd (2 * n) (2 * m) gs H qr) := by
      intro c
      unfold total
      rw [Finset.mul_sum]
      exact Finset.sum_congr rfl fun i _ => by rw [Finset.mul_sum]
    have h := this (sigma ^ 2 / total (2 * n) (2 * m) (rawPsd (2 * n) (2 * m) gs H qr) * (((2 * n : ℕ) : ℝ) * (2 * m : ℕ)) ^ 2)
    rw [show sigma ^ 2 * (((2 * n : ℕ) : ℝ) * (2 * m : ℕ)) ^ 2 = sigma ^ 2 / total (2 * n) (2 * m) (rawPsd (2 * n) (2 * m) gs H qr) * (((2 * n : ℕ) : ℝ) * (2 * m : ℕ)) ^ 2 * total (2 * n) (2 * m) (rawPsd (2 * n) (2 * m) gs H qr) by field_simp, ← h]
    congr 1
    funext i j
    ring
  have hcc : rawPsd (2 * n) (2 * m) gs H qr n m = 0 := by
    unfold rawPsd
    rw [if_pos (by omega)]
  rw [h1, parseval, h2, h3, total_corners n m (by omega) (by omega), h4, hcc]
  push_cast
  field_simp
  ring

example := @C77_mean_square_partial 3 5 (by norm_num) (by norm_num) ⟨by norm_num⟩ ⟨by norm_num⟩ 0.01 0.5 0 1 (by norm_num) (fun i j => i * j)

/-- **C77 is false.** For every size above two, exponent, roll off, spacing, nonzero `sigma` and draws, the RMS roughness of the generated surface is below `sigma`. -/
theorem C77_below_sigma (n m : ℕ) (hn : 2 ≤ n) (hm : 2 ≤ m) [NeZero (2 * n)] [NeZero (2 * m)] (gs H qr sigma : ℝ) (hg : 0 < gs) (hs : 0 < sigma) (phases : ℕ → ℕ → ℝ) :
    Real.sqrt ((∑ a, (inverse (2 * n) (2 * m) (magnitudes (2 * n) (2 * m) gs H qr sigma) phases a).re ^ 2) / (((2 * n : ℕ) : ℝ) * (2 * m : ℕ))) < sigma := by
  rw [C77_mean_square_partial n m hn hm gs H qr sigma hg phases]
  have ht := total_pos n m hn hm gs H qr hg
  have h1 := rawPsd_pos n m hn hm gs H qr hg 0 0 (by omega) (by omega) (by omega)
  have h2 := rawPsd_pos n m hn hm gs H qr hg 0 m (by omega) (by omega) (by omega)
  have h3 := rawPsd_pos n m hn hm gs H qr hg n 0 (by omega) (by omega) (by omega)
  rw [Real.sqrt_lt' hs]
  have : 0 < (rawPsd (2 * n) (2 * m) gs H qr 0 0 + rawPsd (2 * n) (2 * m) gs H qr 0 m + rawPsd (2 * n) (2 * m) gs H qr n 0) / total (2 * n) (2 * m) (rawPsd (2 * n) (2 * m) gs H qr) := by positivity
  have hs2 : 0 < sigma ^ 2 := by positivity
  nlinarith

/-- The hypotheses can be met. -/
example : (2 : ℕ) ≤ 64 ∧ (0 : ℝ) < 0.01 ∧ (0 : ℝ) < 1 := by norm_num

/-! ## C78 -/

/-- The entry of the stored spectrum fits the stored transform: it is the scaled squared magnitude, except where `_conj_sym` puts zeros. -/
def Fits (r : Realisation) (gs : ℝ) (k : Grid r.rows r.cols) : Prop :=
  Complex.normSq (r.fft k) = r.psd k / (gs ^ 2 / ((r.rows : ℝ) * r.cols * (2 * Real.pi) ^ 2))

/-- The realisation that `discretise` gives for even shapes. -/
theorem discretise_ok (n m : ℕ) (hn : 0 < n) (hm : 0 < m) (H sigma qr gs : ℝ) (hasProfile returnNew : Bool) (hnew : hasProfile = false ∨ returnNew = true) (draws : ℕ → ℕ → ℝ) :
    discretise H sigma qr hasProfile (some (2 * m, 2 * n)) (some gs) returnNew draws = .ok
      { rows := 2 * n, cols := 2 * m,
        height := fun a => haveI : NeZero (2 * n) := ⟨by omega⟩; haveI : NeZero (2 * m) := ⟨by omega⟩; (inverse (2 * n) (2 * m) (magnitudes (2 * n) (2 * m) gs H qr sigma) (fun i j => -Real.pi + 2 * Real.pi * draws i j) a).re
        fft := fouTrans (2 * n) (2 * m) (magnitudes (2 * n) (2 * m) gs H qr sigma) (fun i j => -Real.pi + 2 * Real.pi * draws i j)
        psd := fun k => if returnNew then psd (2 * n) (2 * m) gs H qr sigma k.1.val k.2.val
          else psd (2 * n) (2 * m) gs H qr sigma (k.1 + (2 * n / 2 : ℕ)).val (k.2 + (2 * m / 2 : ℕ)).val } := by
  unfold discretise
  rw [if_neg (by rcases hnew with h | h <;> simp [h])]
  simp only
  have e1 : roundUp (2 * n) = 2 * n := by unfold roundUp; omega
  have e2 : roundUp (2 * m) = 2 * m := by unfold roundUp; omega
  rw [e1, e2]
  unfold realise
  simp only
  rw [dif_pos ⟨by omega, by omega⟩]

/-- **C78, the surface itself.** The stored spectrum fits the stored transform at all entries but the four that were set to zero. Missing from C78: new surfaces, see below. -/
theorem C78_own_partial (n m : ℕ) (hn : 2 ≤ n) (hm : 2 ≤ m) (H sigma qr gs : ℝ) (hg : 0 < gs) (draws : ℕ → ℕ → ℝ) (r : Realisation)
    (hr : discretise H sigma qr false (some (2 * m, 2 * n)) (some gs) false draws = .ok r) (k : Grid r.rows r.cols)
    (hk : ¬((k.1 = 0 ∨ k.1 = (n : ℕ)) ∧ (k.2 = 0 ∨ k.2 = (m : ℕ)))) : Fits r gs k := by
  rw [discretise_ok n m (by omega) (by omega) H sigma qr gs false false (.inl rfl) draws] at hr
  cases hr
  haveI : NeZero (2 * n) := ⟨by omega⟩
  haveI : NeZero (2 * m) := ⟨by omega⟩
  unfold Fits
  simp only
  unfold fouTrans ifftshift
  rw [normSq_polar]
  have e1 : 2 * n / 2 = n := by omega
  have e2 : 2 * m / 2 = m := by omega
  simp only [e1, e2] at *
  rw [conjSym_magnitudes n m hn hm gs H qr sigma _ _ (ZMod.val_lt _) (ZMod.val_lt _), if_neg, if_neg (by simp)]
  · rw [magnitudes_sq n m hn hm gs H qr sigma hg _ _ (ZMod.val_lt _) (ZMod.val_lt _), psd_eq n m hn hm gs H qr sigma hg]
  · have key : ∀ (n : ℕ) (k : ZMod (2 * n)), 2 ≤ n → ((k + ((n : ℕ) : ZMod (2 * n))).val = 0 ∨ (k + ((n : ℕ) : ZMod (2 * n))).val = n) → k = 0 ∨ k = (n : ℕ) := by
      intro n k hn h
      haveI : NeZero (2 * n) := ⟨by omega⟩
      have h2n : ((n : ℕ) : ZMod (2 * n)) + (n : ℕ) = 0 := by
        rw [← Nat.cast_add, ← two_mul]
        exact ZMod.natCast_self (2 * n)
      rcases h with h | h
      · right
        rw [ZMod.val_eq_zero] at h
        linear_combination h - h2n
      · left
        have : k + ((n : ℕ) : ZMod (2 * n)) = ((n : ℕ) : ZMod (2 * n)) := by
          rw [← ZMod.natCast_zmod_val (k + ((n : ℕ) : ZMod (2 * n))), h]
        linear_combination this
    intro h
    exact hk ⟨key n k.1 hn h.1, key m k.2 hm h.2⟩

/-- The hypotheses can be met. -/
example (draws : ℕ → ℕ → ℝ) : (∃ r, discretise 0.5 1 0 false (some (2 * 2, 2 * 2)) (some 1) false draws = .ok r) ∧
    ¬(((1 : ZMod (2 * 2)) = 0 ∨ (1 : ZMod (2 * 2)) = (2 : ℕ)) ∧ ((1 : ZMod (2 * 2)) = 0 ∨ (1 : ZMod (2 * 2)) = (2 : ℕ))) :=
  ⟨⟨_, discretise_ok 2 2 (by norm_num) (by norm_num) 0.5 1 0 1 false false (.inl rfl) draws⟩, by decide⟩

/-- **C78 is false for new surfaces.** With `return_new` the stored spectrum is not shifted like the transform: whatever the draws, the new surface has a positive entry of the spectrum at frequency zero, where the transform is zero. -/
theorem C78_new_fails (n m : ℕ) (hn : 2 ≤ n) (hm : 2 ≤ m) (H sigma qr gs : ℝ) (hg : 0 < gs) (hs : 0 < sigma) (draws : ℕ → ℕ → ℝ) :
    ∃ r, discretise H sigma qr false (some (2 * m, 2 * n)) (some gs) true draws = .ok r ∧ r.fft 0 = 0 ∧ 0 < r.psd 0 ∧ ¬Fits r gs 0 := by
  haveI : NeZero (2 * n) := ⟨by omega⟩
  haveI : NeZero (2 * m) := ⟨by omega⟩
  refine ⟨_, discretise_ok n m (by omega) (by omega) H sigma qr gs false true (.inl rfl) draws, ?_⟩
  have e1 : 2 * n / 2 = n := by omega
  have e2 : 2 * m / 2 = m := by omega
  have hf : fouTrans (2 * n) (2 * m) (magnitudes (2 * n) (2 * m) gs H qr sigma) (fun i j => -Real.pi + 2 * Real.pi * draws i j) 0 = 0 := by
    unfold fouTrans ifftshift
    simp only [Prod.fst_zero, Prod.snd_zero, zero_add]
    rw [e1, e2, ZMod.val_natCast_of_lt (by omega), ZMod.val_natCast_of_lt (by omega), conjSym_apply n m (by omega) (by omega) _ (magnitudes _ _ _ _ _ _) _ _ (by omega) (by omega), if_pos ⟨.inr rfl, .inr rfl⟩]
    unfold polar
    apply Complex.ext <;> simp
  have hp : 0 < psd (2 * n) (2 * m) gs H qr sigma 0 0 := by
    have ht := total_pos n m hn hm gs H qr hg
    have hpi := Real.pi_pos
    have hr := rawPsd_pos n m hn hm gs H qr hg 0 0 (by omega) (by omega) (by omega)
    have hn' : (0 : ℝ) < n := by exact_mod_cast (by omega : 0 < n)
    have hm' : (0 : ℝ) < m := by exact_mod_cast (by omega : 0 < m)
    unfold psd
    have : 0 < Real.sqrt (total (2 * n) (2 * m) (rawPsd (2 * n) (2 * m) gs H qr) * (2 * Real.pi) ^ 2 / (((2 * m : ℕ) : ℝ) * gs) / (((2 * n : ℕ) : ℝ) * gs)) := by
      apply Real.sqrt_pos.2
      push_cast
      positivity
    positivity
  refine ⟨hf, ?_, ?_⟩
  · simpa using hp
  · unfold Fits
    simp only
    rw [hf]
    simp only [map_zero, if_true, Prod.fst_zero, Prod.snd_zero, ZMod.val_zero]
    have hn' : (0 : ℝ) < n := by exact_mod_cast (by omega : 0 < n)
    have hm' : (0 : ℝ) < m := by exact_mod_cast (by omega : 0 < m)
    have hpi := Real.pi_pos
    apply ne_of_lt
    push_cast
    positivity

example := C78_new_fails 3 5 (by norm_num) (by norm_num) 0.5 1 0 0.01 (by norm_num) (by norm_num) (fun i j => i * j)

end Verif.Fractal
