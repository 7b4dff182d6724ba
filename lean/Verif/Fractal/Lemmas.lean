import Mathlib.Tactic.Linarith
import Mathlib.Tactic.FieldSimp
import Mathlib.Tactic.Positivity
import Mathlib.Tactic.Ring
import Mathlib.Algebra.Order.Floor.Semiring
import Verif.Conv.Lemmas
import Verif.Fractal.Model

/-!
# Lemmas: symmetric spectra have real transforms, Parseval, the wave vectors
-/

namespace Verif.Fractal

open Verif.Conv Finset

/-- Negative of an index. -/
def opp (n i : ℕ) : ℕ := if i = 0 then 0 else n - i

theorem val_neg (n : ℕ) [NeZero n] (a : ZMod n) : (-a).val = opp n a.val := by
  rw [ZMod.neg_val]
  unfold opp
  by_cases h : a = 0
  · simp [h]
  · rw [if_neg h, if_neg (by rwa [ZMod.val_eq_zero])]

/-- Entries of the arrangement, for even sizes. -/
theorem conjSym_apply (n m : ℕ) (hn : 0 < n) (hm : 0 < m) (mult : ℝ) (M : ℕ → ℕ → ℝ) (i j : ℕ) (hi : i < 2 * n) (hj : j < 2 * m) :
    conjSym (2 * n) (2 * m) mult M i j =
      if (i = 0 ∨ i = n) ∧ (j = 0 ∨ j = m) then 0
      else if (j = 0 ∨ j = m) ∧ n < i then mult * M (2 * n - i) j
      else if 0 < j ∧ j < m then mult * M (opp (2 * n) i) (2 * m - j)
      else M i j := by
  have e1 : 2 * n / 2 = n := by omega
  have e2 : 2 * m / 2 = m := by omega
  unfold conjSym column topRow leftHalf zeroFour opp
  rw [e1, e2]
  simp only
  split_ifs <;> first | rfl | omega | (exfalso; omega) | simp_all | skip
  all_goals (try omega)

theorem conjSym_opp (n m : ℕ) (hn : 0 < n) (hm : 0 < m) (mult : ℝ) (hmult : mult * mult = 1) (M : ℕ → ℕ → ℝ) (i j : ℕ) (hi : i < 2 * n) (hj : j < 2 * m) :
    conjSym (2 * n) (2 * m) mult M (opp (2 * n) i) (opp (2 * m) j) = mult * conjSym (2 * n) (2 * m) mult M i j := by
  have h1 : opp (2 * n) i < 2 * n := by unfold opp; split <;> omega
  have h2 : opp (2 * m) j < 2 * m := by unfold opp; split <;> omega
  have hii : opp (2 * n) (opp (2 * n) i) = i := by unfold opp; split_ifs <;> omega
  rw [conjSym_apply n m hn hm mult M _ _ h1 h2, conjSym_apply n m hn hm mult M _ _ hi hj, hii]
  have hmm : ∀ x : ℝ, mult * (mult * x) = x := fun x => by rw [← mul_assoc, hmult, one_mul]
  by_cases hc : (i = 0 ∨ i = n) ∧ (j = 0 ∨ j = m)
  · rw [if_pos hc, if_pos (by unfold opp; split_ifs <;> omega), mul_zero]
  · rw [if_neg hc, if_neg (by unfold opp; split_ifs <;> omega)]
    by_cases hj0 : j = 0 ∨ j = m
    · have hjo : opp (2 * m) j = j := by unfold opp; split_ifs <;> omega
      have hi0 : ¬(i = 0 ∨ i = n) := fun h => hc ⟨h, hj0⟩
      have hio : opp (2 * n) i = 2 * n - i := by unfold opp; rw [if_neg (by omega)]
      rw [hjo, hio]
      by_cases hin : n < i
      · rw [if_neg (by omega), if_neg (by omega), if_pos ⟨hj0, hin⟩, hmm]
      · rw [if_pos ⟨hj0, by omega⟩, if_neg (by omega), if_neg (by omega), show 2 * n - (2 * n - i) = i by omega]
    · have hjo : opp (2 * m) j = 2 * m - j := by unfold opp; rw [if_neg (by omega)]
      have c1 : ¬((2 * m - j = 0 ∨ 2 * m - j = m) ∧ n < opp (2 * n) i) := by omega
      have c2 : ¬((j = 0 ∨ j = m) ∧ n < i) := by omega
      rw [hjo, if_neg c1, if_neg c2]
      by_cases hjm : 0 < j ∧ j < m
      · rw [if_neg (show ¬(0 < 2 * m - j ∧ 2 * m - j < m) by omega), if_pos hjm, hmm]
      · rw [if_pos (show 0 < 2 * m - j ∧ 2 * m - j < m by omega), if_neg hjm, show 2 * m - (2 * m - j) = j by omega]

section dft

variable {N0 N1 : ℕ} [NeZero N0] [NeZero N1]

theorem conj_chi (k a : Grid N0 N1) : (starRingEnd ℂ) (chi k a) = chi (-k) a := by
  unfold chi
  rw [map_mul, ← AddChar.map_neg_eq_conj, ← AddChar.map_neg_eq_conj]
  simp

theorem chi_comm (k a : Grid N0 N1) : chi k a = chi a k := by
  unfold chi
  rw [mul_comm k.1, mul_comm k.2]

theorem backward_real (w : Grid N0 N1 → ℂ) (hw : ∀ k, w (-k) = (starRingEnd ℂ) (w k)) (a : Grid N0 N1) : (backward w a).im = 0 := by
  rw [← Complex.conj_eq_iff_im]
  unfold backward
  rw [map_mul, map_sum]
  congr 1
  · rw [map_inv₀, map_natCast]
  · rw [← Equiv.sum_comp (Equiv.neg (Grid N0 N1)) fun k => chi k a * w k]
    refine Finset.sum_congr rfl fun k _ => ?_
    rw [map_mul, conj_chi, Equiv.neg_apply, hw]

theorem sum_chi' (k : Grid N0 N1) : ∑ a, chi k a = if k = 0 then ((N0 * N1 : ℕ) : ℂ) else 0 := by
  rw [← sum_chi k]
  exact Finset.sum_congr rfl fun a _ => chi_comm _ _

theorem sum_backward (w : Grid N0 N1 → ℂ) : ∑ a, backward w a = w 0 := by
  have hN : ((N0 * N1 : ℕ) : ℂ) ≠ 0 := by
    exact_mod_cast Nat.mul_ne_zero (NeZero.ne N0) (NeZero.ne N1)
  unfold backward
  rw [← Finset.mul_sum, Finset.sum_comm]
  have : ∀ k : Grid N0 N1, ∑ a, chi k a * w k = if k = 0 then ((N0 * N1 : ℕ) : ℂ) * w 0 else 0 := by
    intro k
    rw [← Finset.sum_mul, sum_chi']
    split
    · rename_i h; rw [h]
    · rw [zero_mul]
  rw [Finset.sum_congr rfl fun k _ => this k, Finset.sum_ite_eq' Finset.univ (0 : Grid N0 N1), if_pos (Finset.mem_univ _), ← mul_assoc, inv_mul_cancel₀ hN, one_mul]

theorem parseval (w : Grid N0 N1 → ℂ) : ∑ a, Complex.normSq (backward w a) = (∑ k, Complex.normSq (w k)) / ((N0 * N1 : ℕ) : ℝ) := by
  have hN : ((N0 * N1 : ℕ) : ℂ) ≠ 0 := by
    exact_mod_cast Nat.mul_ne_zero (NeZero.ne N0) (NeZero.ne N1)
  have key : ((∑ a, Complex.normSq (backward w a) : ℝ) : ℂ) = (((∑ k, Complex.normSq (w k)) / ((N0 * N1 : ℕ) : ℝ) : ℝ) : ℂ) := by
    rw [Complex.ofReal_div, Complex.ofReal_sum, Complex.ofReal_sum, Complex.ofReal_natCast]
    have h1 : ∀ a : Grid N0 N1, ((Complex.normSq (backward w a) : ℝ) : ℂ) = ((N0 * N1 : ℕ) : ℂ)⁻¹ * ((N0 * N1 : ℕ) : ℂ)⁻¹ * ∑ k, ∑ l, (w k * (starRingEnd ℂ) (w l)) * chi (k - l) a := by
      intro a
      rw [← Complex.mul_conj]
      unfold backward
      rw [map_mul, map_sum, map_inv₀, map_natCast, mul_mul_mul_comm, Finset.sum_mul_sum]
      congr 1
      refine Finset.sum_congr rfl fun k _ => Finset.sum_congr rfl fun l _ => ?_
      rw [map_mul, conj_chi, chi_comm (k - l), sub_eq_add_neg, chi_add, chi_comm k, chi_comm (-l)]
      ring
    rw [Finset.sum_congr rfl fun a _ => h1 a, ← Finset.mul_sum, Finset.sum_comm]
    have h2 : ∀ k : Grid N0 N1, ∑ a, ∑ l, (w k * (starRingEnd ℂ) (w l)) * chi (k - l) a = ((N0 * N1 : ℕ) : ℂ) * ((Complex.normSq (w k) : ℝ) : ℂ) := by
      intro k
      rw [Finset.sum_comm, Finset.sum_eq_single k]
      · rw [← Finset.mul_sum, sum_chi', if_pos (sub_self k), Complex.mul_conj]
        ring
      · intro l _ hl
        rw [← Finset.mul_sum, sum_chi', if_neg (fun h => hl (sub_eq_zero.1 h).symm), mul_zero]
      · intro h; exact absurd (Finset.mem_univ _) h
    rw [Finset.sum_congr rfl fun k _ => h2 k, ← Finset.mul_sum]
    field_simp
  exact_mod_cast key

theorem sum_zmod (n : ℕ) [NeZero n] (g : ℕ → ℝ) : ∑ z : ZMod n, g z.val = ∑ i ∈ Finset.range n, g i := by
  apply Finset.sum_nbij' (fun (z : ZMod n) => (z.val : ℕ)) (fun (i : ℕ) => (i : ZMod n))
  · intro z _; exact Finset.mem_range.2 (ZMod.val_lt z)
  · intro i _; exact Finset.mem_univ _
  · intro z _; exact ZMod.natCast_zmod_val z
  · intro i hi; exact ZMod.val_natCast_of_lt (Finset.mem_range.1 hi)
  · intro z _; rfl

theorem sum_shift (s : Grid N0 N1) (g : ℕ → ℕ → ℝ) : ∑ k : Grid N0 N1, g (k.1 + s.1).val (k.2 + s.2).val = total N0 N1 g := by
  have h := Equiv.sum_comp (Equiv.addRight s) fun k : Grid N0 N1 => g k.1.val k.2.val
  simp only [Equiv.coe_addRight, Prod.fst_add, Prod.snd_add] at h
  rw [h, Fintype.sum_prod_type]
  unfold total
  rw [← sum_zmod N0 fun i => ∑ j ∈ Finset.range N1, g i j]
  exact Finset.sum_congr rfl fun a _ => sum_zmod N1 (g a.val)

end dft

theorem normSq_polar (r phi : ℝ) : Complex.normSq (polar r phi) = r ^ 2 := by
  unfold polar
  rw [Complex.normSq_mk]
  have := Real.sin_sq_add_cos_sq phi
  linear_combination r ^ 2 * this

/-- The wave vectors are the multiples of the smallest one, centred. -/
theorem waves_eq (m : ℕ) (hm : 2 ≤ m) (gs : ℝ) (i : ℕ) (hi : i < 2 * m) : waves (2 * m) gs i = 2 * Real.pi / (2 * m : ℕ) * ((i : ℝ) - m) / gs := by
  unfold waves
  congr 1
  have hpi := Real.pi_pos
  have hm2 : (2 : ℝ) ≤ m := by exact_mod_cast hm
  have e1 : 2 * m - 2 * m / 2 = m := by omega
  induction i with
  | zero =>
    unfold unwrap
    simp only
    rw [Finset.range_zero, Finset.sum_empty, e1, Nat.zero_add, Nat.mod_eq_of_lt (by omega)]
    push_cast
    field_simp
    ring
  | succ i ih =>
    have ih' := ih (by omega)
    unfold unwrap at ih' ⊢
    rw [Finset.sum_range_succ]
    set p : ℕ → ℝ := fun i => 2 * Real.pi / (2 * m : ℕ) * (((i + (2 * m - 2 * m / 2)) % (2 * m) : ℕ) : ℝ) - 2 * Real.pi with hp
    have hstep : p (i + 1) - p i + phCorrect (p (i + 1) - p i) = 2 * Real.pi / (2 * m : ℕ) := by
      have hsmall : |2 * Real.pi / (2 * m : ℕ)| < Real.pi := by
        rw [abs_of_pos (by push_cast; positivity), div_lt_iff₀ (by push_cast; positivity)]
        push_cast
        nlinarith
      by_cases hw : i + 1 = m
      · have d : p (i + 1) - p i = -2 * Real.pi + 2 * Real.pi / (2 * m : ℕ) := by
          rw [hp]
          simp only
          rw [e1, show i + 1 + m = 2 * m by omega, Nat.mod_self, Nat.mod_eq_of_lt (by omega), show i + m = 2 * m - 1 by omega, Nat.cast_sub (by omega)]
          push_cast
          field_simp
          ring
        rw [d]
        have hsum : (2 : ℝ) * Real.pi / (2 * m : ℕ) = Real.pi / m := by push_cast; field_simp
        have hq : Real.pi / m ≤ Real.pi / 2 := div_le_div_of_nonneg_left hpi.le (by norm_num) hm2
        have hq0 : 0 < Real.pi / m := by positivity
        rw [hsum]
        unfold phCorrect
        rw [if_neg (by rw [not_lt, abs_of_neg (by linarith)]; linarith)]
        have hfloor : ⌊(-2 * Real.pi + Real.pi / m + Real.pi) / (2 * Real.pi)⌋ = -1 := by
          rw [Int.floor_eq_iff]
          constructor
          · rw [le_div_iff₀ (by positivity)]; push_cast; linarith
          · rw [div_lt_iff₀ (by positivity)]; push_cast; linarith
        have hmod : pyMod (-2 * Real.pi + Real.pi / m + Real.pi) (2 * Real.pi) = Real.pi / m + Real.pi := by
          unfold pyMod
          rw [hfloor]
          push_cast
          ring
        simp only [hmod]
        rw [if_neg (by intro h; linarith [h.1])]
        ring
      · have d : p (i + 1) - p i = 2 * Real.pi / (2 * m : ℕ) := by
          rw [hp]
          simp only
          rw [e1]
          have : (((i + 1 + m) % (2 * m) : ℕ) : ℝ) = ((i + m) % (2 * m) : ℕ) + 1 := by
            have : (i + 1 + m) % (2 * m) = (i + m) % (2 * m) + 1 := by
              rcases lt_or_ge (i + 1) m with h | h
              · rw [Nat.mod_eq_of_lt (by omega), Nat.mod_eq_of_lt (by omega)]; omega
              · rw [Nat.mod_eq_sub_mod (by omega), Nat.mod_eq_of_lt (by omega), Nat.mod_eq_sub_mod (by omega), Nat.mod_eq_of_lt (by omega)]; omega
            rw [this]
            push_cast
            ring
          rw [this]
          ring
        rw [d]
        unfold phCorrect
        rw [if_pos hsmall, add_zero]
    have : p (i + 1) + (∑ k ∈ Finset.range i, phCorrect (p (k + 1) - p k) + phCorrect (p (i + 1) - p i)) =
        (p i + ∑ k ∈ Finset.range i, phCorrect (p (k + 1) - p k)) + (p (i + 1) - p i + phCorrect (p (i + 1) - p i)) := by ring
    rw [this, hstep, ih']
    push_cast
    ring

end Verif.Fractal
