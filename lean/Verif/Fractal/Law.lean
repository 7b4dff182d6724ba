import Mathlib.Data.ZMod.ValMinAbs
import Verif.Fractal.Props

/-!
# The power law of the spectrum of Hurst fractal surfaces (C116)
-/

namespace Verif.Fractal

open Verif.Conv (Grid)

/-! ## Specification -/

/-- The magnitude of the wave vector of entry `k` of a discrete transform with `n` rows and `m` columns and the spacing `gs`: the number of waves in the surface, with a sign, times two pi over the length. -/
noncomputable def waveNumber (n m : ℕ) (gs : ℝ) (k : Grid n m) : ℝ := Real.sqrt ((2 * Real.pi * k.1.valMinAbs / (n * gs)) ^ 2 + (2 * Real.pi * k.2.valMinAbs / (m * gs)) ^ 2)

/-- The power law with exponent `-2 (H + 1)`, which is constant below the roll off. -/
noncomputable def hurstLaw (H qr q : ℝ) : ℝ := max q qr ^ (-2 * (H + 1))

/-! ## Proof -/

theorem shifted_sq (n : ℕ) (hn : 0 < n) [NeZero (2 * n)] (k : ZMod (2 * n)) : (((k + (n : ℕ)).val : ℝ) - n) ^ 2 = (k.valMinAbs : ℝ) ^ 2 := by
  have hlt := ZMod.val_lt k
  rw [ZMod.val_add, ZMod.val_natCast_of_lt (by omega), ZMod.valMinAbs_def_pos]
  rcases Nat.lt_trichotomy k.val n with h | h | h
  · rw [if_pos (by omega), Nat.mod_eq_of_lt (by omega)]
    push_cast
    ring
  · rw [if_pos (by omega), h, ← two_mul, Nat.mod_self]
    push_cast
    ring
  · rw [if_neg (by omega), Nat.mod_eq_sub_mod (by omega), Nat.mod_eq_of_lt (by omega), Nat.cast_sub (by omega)]
    push_cast
    ring

theorem rho_shifted (n m : ℕ) (hn : 2 ≤ n) (hm : 2 ≤ m) [NeZero (2 * n)] [NeZero (2 * m)] (gs : ℝ) (k : Grid (2 * n) (2 * m)) :
    rho (2 * n) (2 * m) gs (k.1 + (n : ℕ)).val (k.2 + (m : ℕ)).val = waveNumber (2 * n) (2 * m) gs k := by
  unfold rho waveNumber
  rw [waves_eq n hn gs _ (ZMod.val_lt _), waves_eq m hm gs _ (ZMod.val_lt _)]
  congr 1
  have h1 := shifted_sq n (by omega) k.1
  have h2 := shifted_sq m (by omega) k.2
  have e : ∀ a b c d : ℝ, b ^ 2 = d ^ 2 → (2 * Real.pi / a * b / c) ^ 2 = (2 * Real.pi * d / (a * c)) ^ 2 := by
    intro a b c d h
    rw [div_mul_eq_mul_div, div_div, div_pow, div_pow, mul_pow, mul_pow (2 * Real.pi), h]
  rw [e _ _ _ _ h1, e _ _ _ _ h2]

theorem rawPsd_shifted (n m : ℕ) (hn : 2 ≤ n) (hm : 2 ≤ m) [NeZero (2 * n)] [NeZero (2 * m)] (gs H qr : ℝ) (k : Grid (2 * n) (2 * m)) :
    rawPsd (2 * n) (2 * m) gs H qr (k.1 + (n : ℕ)).val (k.2 + (m : ℕ)).val = if k = 0 then 0 else hurstLaw H qr (waveNumber (2 * n) (2 * m) gs k) := by
  have hz : ∀ (n : ℕ), 2 ≤ n → ∀ [NeZero (2 * n)] (z : ZMod (2 * n)), (z + (n : ℕ)).val = 2 * n / 2 ↔ z = 0 := by
    intro n hn _ z
    have : 2 * n / 2 = ((n : ℕ) : ZMod (2 * n)).val := by rw [ZMod.val_natCast_of_lt (by omega)]; omega
    rw [this, ZMod.val_injective _ |>.eq_iff]
    exact add_eq_right
  have hk : ((k.1 + (n : ℕ)).val = 2 * n / 2 ∧ (k.2 + (m : ℕ)).val = 2 * m / 2) ↔ k = 0 := by
    rw [hz n hn, hz m hm, Prod.ext_iff]
    rfl
  unfold rawPsd hurstLaw
  rw [rho_shifted n m hn hm]
  by_cases h : k = 0
  · rw [if_pos h, if_pos (hk.2 h)]
  · rw [if_neg h, if_neg (fun hc => h (hk.1 hc))]
    by_cases hq : waveNumber (2 * n) (2 * m) gs k < qr
    · rw [if_pos hq, max_eq_right hq.le]
    · rw [if_neg hq, max_eq_left (not_lt.1 hq)]

/-- **C116.** For even sizes of at least four the spectrum that is stored in the surface is zero at the wave vector zero, and at the others it is the power law times a positive constant that does not depend on the wave vector. Except at the
four entries that are set to zero the squared magnitudes of the stored transform are proportional to it, entry by entry. -/
theorem C116_law (n m : ℕ) (hn : 2 ≤ n) (hm : 2 ≤ m) (H sigma qr gs : ℝ) (hs : 0 < sigma) (hg : 0 < gs) (draws : ℕ → ℕ → ℝ) :
    ∃ (height : Grid (2 * n) (2 * m) → ℝ) (fft : Grid (2 * n) (2 * m) → ℂ) (psd : Grid (2 * n) (2 * m) → ℝ) (c : ℝ),
      discretise H sigma qr false (some (2 * m, 2 * n)) (some gs) false draws = .ok ⟨2 * n, 2 * m, height, fft, psd⟩ ∧ 0 < c ∧ psd 0 = 0 ∧
      (∀ k ≠ 0, psd k = c * hurstLaw H qr (waveNumber (2 * n) (2 * m) gs k)) ∧
      ∀ k, (if (k.1 = 0 ∨ k.1 = ((n : ℕ) : ZMod (2 * n))) ∧ (k.2 = 0 ∨ k.2 = ((m : ℕ) : ZMod (2 * m))) then Complex.normSq (fft k) = 0 else Complex.normSq (fft k) = psd k * ((2 * n) * (2 * m) * (2 * Real.pi) ^ 2 / gs ^ 2)) := by
  haveI : NeZero (2 * n) := ⟨by omega⟩
  haveI : NeZero (2 * m) := ⟨by omega⟩
  have hr : ∀ a, roundUp (2 * a) = 2 * a := by intro a; unfold roundUp; omega
  have ht := total_pos n m hn hm gs H qr hg
  have hpi := Real.pi_pos
  have hn' : (0 : ℝ) < n := by exact_mod_cast (by omega : 0 < n)
  have hm' : (0 : ℝ) < m := by exact_mod_cast (by omega : 0 < m)
  have e1 : ∀ a, 2 * a / 2 = a := by intro a; omega
  have hfft : ∀ k : Grid (2 * n) (2 * m), fouTrans (2 * n) (2 * m) (magnitudes (2 * n) (2 * m) gs H qr sigma) (fun i j => -Real.pi + 2 * Real.pi * draws i j) k =
      polar (conjSym (2 * n) (2 * m) 1 (magnitudes (2 * n) (2 * m) gs H qr sigma) (k.1 + (n : ℕ)).val (k.2 + (m : ℕ)).val)
        (conjSym (2 * n) (2 * m) (-1) (fun i j => -Real.pi + 2 * Real.pi * draws i j) (k.1 + (n : ℕ)).val (k.2 + (m : ℕ)).val) := by
    intro k
    unfold fouTrans ifftshift
    rw [e1, e1]
  have hc : ∀ (n : ℕ), 2 ≤ n → ∀ [NeZero (2 * n)] (z : ZMod (2 * n)), ((z + (n : ℕ)).val = 0 ∨ (z + (n : ℕ)).val = n) ↔ (z = 0 ∨ z = ((n : ℕ) : ZMod (2 * n))) := by
    intro n hn _ z
    have h1 : (z + (n : ℕ)).val = n ↔ z = 0 := by
      have : n = ((n : ℕ) : ZMod (2 * n)).val := by rw [ZMod.val_natCast_of_lt (by omega)]
      constructor
      · intro h
        exact add_eq_right.1 (ZMod.val_injective _ (h.trans this))
      · rintro rfl
        rw [zero_add, ← this]
    have h2 : (z + (n : ℕ)).val = 0 ↔ z = ((n : ℕ) : ZMod (2 * n)) := by
      have h0 : ((n : ℕ) : ZMod (2 * n)) + (n : ℕ) = 0 := by
        have := ZMod.natCast_self (2 * n)
        rw [← Nat.cast_add, ← two_mul]
        exact this
      rw [ZMod.val_eq_zero]
      constructor
      · intro h
        exact add_right_cancel (h.trans h0.symm)
      · rintro rfl
        exact h0
    rw [h1, h2, or_comm]
  refine ⟨fun a => (inverse (2 * n) (2 * m) (magnitudes (2 * n) (2 * m) gs H qr sigma) (fun i j => -Real.pi + 2 * Real.pi * draws i j) a).re,
    fouTrans (2 * n) (2 * m) (magnitudes (2 * n) (2 * m) gs H qr sigma) (fun i j => -Real.pi + 2 * Real.pi * draws i j),
    fun k => psd (2 * n) (2 * m) gs H qr sigma (k.1 + (n : ℕ)).val (k.2 + (m : ℕ)).val,
    (sigma / Real.sqrt (total (2 * n) (2 * m) (rawPsd (2 * n) (2 * m) gs H qr) * (2 * Real.pi) ^ 2 / ((2 * m : ℕ) * gs) / ((2 * n : ℕ) * gs))) ^ 2, ?_, ?_, ?_, ?_, ?_⟩
  · unfold discretise
    rw [if_neg (by simp)]
    simp only
    rw [hr, hr]
    unfold realise
    simp only
    rw [dif_pos ⟨by omega, by omega⟩]
    simp only [e1]
    simp
  · apply pow_pos
    apply div_pos hs
    apply Real.sqrt_pos.2
    push_cast
    positivity
  · unfold psd
    dsimp only
    rw [rawPsd_shifted n m hn hm, if_pos rfl, zero_mul]
  · intro k hk
    simp only
    unfold psd
    rw [rawPsd_shifted n m hn hm, if_neg hk, mul_comm]
  · intro k
    rw [hfft, normSq_polar, conjSym_magnitudes n m hn hm gs H qr sigma _ _ (ZMod.val_lt _) (ZMod.val_lt _)]
    have h1 := hc n hn k.1
    have h2 := hc m hm k.2
    by_cases hcor : (k.1 = 0 ∨ k.1 = ((n : ℕ) : ZMod (2 * n))) ∧ (k.2 = 0 ∨ k.2 = ((m : ℕ) : ZMod (2 * m)))
    · rw [if_pos hcor, if_pos ⟨h1.2 hcor.1, h2.2 hcor.2⟩]
      ring
    · rw [if_neg hcor, if_neg (fun h => hcor ⟨h1.1 h.1, h2.1 h.2⟩)]
      have hp := psd_nonneg n m hn hm gs H qr sigma hg _ _ (ZMod.val_lt (k.1 + ((n : ℕ) : ZMod (2 * n)))) (ZMod.val_lt (k.2 + ((m : ℕ) : ZMod (2 * m))))
      unfold magnitudes
      rw [Real.sq_sqrt]
      · push_cast
        field_simp
      · apply div_nonneg
        · unfold psd
          exact mul_nonneg hp (sq_nonneg _)
        · positivity

/-- Twice the wave number, above the roll off: the spectrum falls by the factor `2 ^ (2 (H + 1))`; below the roll off it does not fall. -/
example (H : ℝ) : hurstLaw H 1 4 = 2 ^ (-2 * (H + 1)) * hurstLaw H 1 2 ∧ hurstLaw H 1 (1 / 2) = hurstLaw H 1 (1 / 4) := by
  unfold hurstLaw
  constructor
  · rw [max_eq_left (by norm_num), max_eq_left (by norm_num), ← Real.mul_rpow (by norm_num) (by norm_num)]
    norm_num
  · rw [max_eq_right (by norm_num), max_eq_right (by norm_num)]

/-- A four by six surface with two wave vectors. -/
example : waveNumber 4 6 (1 / 2) (1, 0) = Real.pi ∧ waveNumber 4 6 (1 / 2) (-1, 0) = Real.pi ∧ waveNumber 4 6 (1 / 2) (2, 0) = 2 * Real.pi := by
  have hpi := Real.pi_pos
  have h1 : ((1 : ZMod 4)).valMinAbs = 1 := by decide
  have h2 : ((-1 : ZMod 4)).valMinAbs = -1 := by decide
  have h3 : ((2 : ZMod 4)).valMinAbs = 2 := by decide
  have h0 : ((0 : ZMod 6)).valMinAbs = 0 := by decide
  unfold waveNumber
  simp only [h1, h2, h3, h0]
  refine ⟨?_, ?_, ?_⟩
  · rw [Real.sqrt_eq_iff_mul_self_eq (by positivity) hpi.le]; push_cast; ring
  · rw [Real.sqrt_eq_iff_mul_self_eq (by positivity) hpi.le]; push_cast; ring
  · rw [Real.sqrt_eq_iff_mul_self_eq (by positivity) (by positivity)]; push_cast; ring

example (draws : ℕ → ℕ → ℝ) := C116_law 2 3 le_rfl (by norm_num) (1 / 2) 1 1 (1 / 2) one_pos (by norm_num) draws

end Verif.Fractal
