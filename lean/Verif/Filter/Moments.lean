import Mathlib.Tactic.Linarith
import Mathlib.Tactic.FieldSimp
import Mathlib.Tactic.Positivity
import Mathlib.Tactic.Ring
import Mathlib.Tactic.LinearCombination
import Mathlib.Tactic.NormNum
import Verif.Filter.Model
import Verif.Johnson.Moments

/-!
# C81: the moments of a filtered surface
-/

namespace Verif.Filter

open Finset

/-! ## Specification -/

/-- The expectation of a function of the weighted sum of independent draws, one per coefficient, from the distribution that takes the value `x i` with probability `w i`. -/
noncomputable def expectSum {ι : Type} [Fintype ι] (w x : ι → ℝ) : List ℝ → (ℝ → ℝ) → ℝ
  | [], g => g 0
  | a :: rest, g => ∑ i, w i * expectSum w x rest fun s => g (a * x i + s)

/-- A distribution with mean zero, variance one and the given skewness and kurtosis (the normal distribution has kurtosis three). -/
structure Standard {ι : Type} [Fintype ι] (w x : ι → ℝ) (skew kurt : ℝ) : Prop where
  nonneg : ∀ i, 0 ≤ w i
  total : ∑ i, w i = 1
  mean : ∑ i, w i * x i = 0
  var : ∑ i, w i * x i ^ 2 = 1
  skewness : ∑ i, w i * x i ^ 3 = skew
  kurtosis : ∑ i, w i * x i ^ 4 = kurt

/-! ## Proofs -/

/-- The fourth moment of the filtered noise. -/
noncomputable def fourth (kurt : ℝ) : List ℝ → ℝ
  | [] => 0
  | a :: rest => kurt * a ^ 4 + 6 * a ^ 2 * sumSq rest + fourth kurt rest

/-- Sum of cubes. -/
noncomputable def sumCube (alpha : List ℝ) : ℝ := (alpha.map fun a => a ^ 3).sum

section

variable {ι : Type} [Fintype ι] {w x : ι → ℝ} {skew kurt : ℝ}

theorem expectSum_poly (h : Standard w x skew kurt) (alpha : List ℝ) : ∀ c0 c1 c2 c3 c4 : ℝ,
    expectSum w x alpha (fun s => c0 + c1 * s + c2 * s ^ 2 + c3 * s ^ 3 + c4 * s ^ 4) = c0 + c2 * sumSq alpha + c3 * (skew * sumCube alpha) + c4 * fourth kurt alpha := by
  induction alpha with
  | nil => intro c0 c1 c2 c3 c4; simp [expectSum, sumSq, sumCube, fourth]
  | cons a rest ih =>
    intro c0 c1 c2 c3 c4
    unfold expectSum
    have step : ∀ i, w i * expectSum w x rest (fun s => c0 + c1 * (a * x i + s) + c2 * (a * x i + s) ^ 2 + c3 * (a * x i + s) ^ 3 + c4 * (a * x i + s) ^ 4) =
        (c0 + c2 * sumSq rest + c3 * (skew * sumCube rest) + c4 * fourth kurt rest) * w i +
        (c1 * a + 3 * c3 * a * sumSq rest + 4 * c4 * a * (skew * sumCube rest)) * (w i * x i) +
        (c2 * a ^ 2 + 6 * c4 * a ^ 2 * sumSq rest) * (w i * x i ^ 2) + c3 * a ^ 3 * (w i * x i ^ 3) + c4 * a ^ 4 * (w i * x i ^ 4) := by
      intro i
      have e : (fun s => c0 + c1 * (a * x i + s) + c2 * (a * x i + s) ^ 2 + c3 * (a * x i + s) ^ 3 + c4 * (a * x i + s) ^ 4) =
          fun s => (c0 + c1 * (a * x i) + c2 * (a * x i) ^ 2 + c3 * (a * x i) ^ 3 + c4 * (a * x i) ^ 4) +
            (c1 + 2 * c2 * (a * x i) + 3 * c3 * (a * x i) ^ 2 + 4 * c4 * (a * x i) ^ 3) * s +
            (c2 + 3 * c3 * (a * x i) + 6 * c4 * (a * x i) ^ 2) * s ^ 2 + (c3 + 4 * c4 * (a * x i)) * s ^ 3 + c4 * s ^ 4 := by
        funext s; ring
      rw [e, ih]
      ring
    rw [sum_congr rfl fun i _ => step i]
    simp only [sum_add_distrib, ← mul_sum]
    rw [h.total, h.mean, h.var, h.skewness, h.kurtosis]
    rw [show fourth kurt (a :: rest) = kurt * a ^ 4 + 6 * a ^ 2 * sumSq rest + fourth kurt rest from rfl]
    simp only [sumSq, sumCube, List.map_cons, List.sum_cons]
    ring

theorem variance_eq (h : Standard w x skew kurt) (alpha : List ℝ) : expectSum w x alpha (fun s => s ^ 2) = sumSq alpha := by
  have := expectSum_poly h alpha 0 0 1 0 0
  simpa using this

theorem third_eq (h : Standard w x skew kurt) (alpha : List ℝ) : expectSum w x alpha (fun s => s ^ 3) = skew * sumCube alpha := by
  have := expectSum_poly h alpha 0 0 0 1 0
  simpa using this

theorem fourth_eq (h : Standard w x skew kurt) (alpha : List ℝ) : expectSum w x alpha (fun s => s ^ 4) = fourth kurt alpha := by
  have := expectSum_poly h alpha 0 0 0 0 1
  simpa using this

/-- The fourth powers. -/
noncomputable def sumFourth (alpha : List ℝ) : ℝ := (alpha.map fun a => (a ^ 2) ^ 2).sum

theorem fourth_closed (kurt : ℝ) (alpha : List ℝ) : fourth kurt alpha = (kurt - 3) * sumFourth alpha + 3 * sumSq alpha ^ 2 := by
  induction alpha with
  | nil => simp [fourth, sumFourth, sumSq]
  | cons a rest ih =>
    unfold fourth
    rw [ih]
    simp only [sumFourth, sumSq, List.map_cons, List.sum_cons]
    ring

/-- The mixed term of the code: half the square of the sum of squares, plus half the fourth powers except for the last. -/
theorem quadTerm_eq (rest : List ℝ) (last : ℝ) : 2 * quadTerm (rest ++ [last]) = sumSq (rest ++ [last]) ^ 2 + sumFourth (rest ++ [last]) - 2 * last ^ 4 := by
  induction rest with
  | nil => simp [quadTerm, sumSq, sumFourth]; ring
  | cons a rest ih =>
    have key : quadTerm (a :: (rest ++ [last])) = a ^ 2 * (a ^ 2 + sumSq (rest ++ [last])) + quadTerm (rest ++ [last]) := by
      unfold quadTerm
      have hlen : (a :: (rest ++ [last])).length - 1 = (rest ++ [last]).length - 1 + 1 := by simp
      rw [hlen, sum_range_succ']
      have hshift : ∀ i ∈ range ((rest ++ [last]).length - 1), (∑ j ∈ Ico (i + 1) (a :: (rest ++ [last])).length, (a :: (rest ++ [last])).getD (i + 1) 0 ^ 2 * (a :: (rest ++ [last])).getD j 0 ^ 2) =
          ∑ j ∈ Ico i (rest ++ [last]).length, (rest ++ [last]).getD i 0 ^ 2 * (rest ++ [last]).getD j 0 ^ 2 := by
        intro i _
        rw [List.length_cons, ← sum_Ico_add']
        refine sum_congr rfl fun j _ => ?_
        simp
      rw [sum_congr rfl hshift, add_comm]
      congr 1
      rw [← mul_sum, List.length_cons, ← range_eq_Ico, sum_range_succ']
      simp only [List.getD_cons_succ, List.getD_cons_zero]
      congr 1
      rw [add_comm]
      congr 1
      generalize rest ++ [last] = l
      unfold sumSq
      induction l with
      | nil => simp
      | cons b l ih2 =>
        rw [List.length_cons, sum_range_succ', List.map_cons, List.sum_cons, ← ih2, add_comm]
        simp
    rw [List.cons_append, key]
    have e1 : sumSq (a :: (rest ++ [last])) = a ^ 2 + sumSq (rest ++ [last]) := by simp [sumSq]
    have e2 : sumFourth (a :: (rest ++ [last])) = (a ^ 2) ^ 2 + sumFourth (rest ++ [last]) := by simp [sumFourth]
    rw [e1, e2]
    linear_combination ih

theorem sumFourth_nonneg (alpha : List ℝ) : 0 ≤ sumFourth alpha := by
  unfold sumFourth
  exact List.sum_nonneg (by intro y hy; obtain ⟨a, -, rfl⟩ := List.mem_map.1 hy; positivity)

theorem sumSq_nonneg (alpha : List ℝ) : 0 ≤ sumSq alpha := by
  unfold sumSq
  exact List.sum_nonneg (by intro y hy; obtain ⟨a, -, rfl⟩ := List.mem_map.1 hy; positivity)

theorem sumSq_zero (alpha : List ℝ) (h : sumSq alpha = 0) : ∀ a ∈ alpha, a = 0 := by
  induction alpha with
  | nil => intro a ha; cases ha
  | cons b rest ih =>
    have e : sumSq (b :: rest) = b ^ 2 + sumSq rest := by simp [sumSq]
    rw [e] at h
    have h1 := sumSq_nonneg rest
    have hb : b = 0 := by nlinarith [sq_nonneg b]
    have hr : sumSq rest = 0 := by nlinarith [sq_nonneg b]
    intro a ha
    rcases List.mem_cons.1 ha with rfl | ha
    · exact hb
    · exact ih hr a ha

/-- **C81, skewness.** Noise with the skewness that is computed gives a surface with the skewness asked for. -/
theorem C81_skewness (alpha : List ℝ) (target : ℝ) (hc : (alpha.map fun a => a ^ 3).sum ≠ 0) (h : Standard w x (seqSkew alpha target) kurt) :
    expectSum w x alpha (fun s => s ^ 3) = target * expectSum w x alpha (fun s => s ^ 2) ^ (3 / 2 : ℝ) := by
  rw [third_eq h, variance_eq h]
  unfold seqSkew sumCube
  rw [show (fun a : ℝ => a ^ 2 * a) = fun a => a ^ 3 by funext a; ring, div_mul_cancel₀ _ hc]

/-- **C81, what the kurtosis becomes.** With noise of the kurtosis that is computed, the fourth moment of the surface is the target times the square of the variance, plus six times the fourth power of the last coefficient, less three times the sum of all fourth powers. -/
theorem C81_kurtosis_partial (rest : List ℝ) (last target : ℝ) (hlast : sumFourth (rest ++ [last]) ≠ 0) (h : Standard w x skew (seqKurt (rest ++ [last]) target)) :
    expectSum w x (rest ++ [last]) (fun s => s ^ 4) =
      target * expectSum w x (rest ++ [last]) (fun s => s ^ 2) ^ 2 + 6 * last ^ 4 - 3 * sumFourth (rest ++ [last]) := by
  rw [fourth_eq h, variance_eq h, fourth_closed]
  have hq := quadTerm_eq rest last
  have e : (seqKurt (rest ++ [last]) target - 3) * sumFourth (rest ++ [last]) = target * sumSq (rest ++ [last]) ^ 2 - 6 * quadTerm (rest ++ [last]) := by
    unfold seqKurt
    rw [add_sub_cancel_right]
    exact div_mul_cancel₀ _ hlast
  rw [e]
  linear_combination (-3 : ℝ) * hq

/-- **C81 is false for the kurtosis with respect to the normal distribution** (which is zero for the normal distribution, as in the defaults and in `set_quantiles`), unless all coefficients but the last are zero. -/
theorem C81_excess_kurtosis_fails (rest : List ℝ) (last target : ℝ) (hlast : sumFourth (rest ++ [last]) ≠ 0) (h : Standard w x skew (seqKurt (rest ++ [last]) target)) :
    expectSum w x (rest ++ [last]) (fun s => s ^ 4) = (target + 3) * expectSum w x (rest ++ [last]) (fun s => s ^ 2) ^ 2 ↔ ∀ a ∈ rest, a = 0 := by
  rw [C81_kurtosis_partial rest last target hlast h, variance_eq h]
  have e1 : sumSq (rest ++ [last]) = sumSq rest + last ^ 2 := by simp [sumSq]
  have e2 : sumFourth (rest ++ [last]) = sumFourth rest + last ^ 4 := by simp [sumFourth]; ring
  rw [e1, e2]
  have n1 := sumSq_nonneg rest
  have n2 := sumFourth_nonneg rest
  constructor
  · intro hk
    apply sumSq_zero
    nlinarith [mul_nonneg n1 (sq_nonneg last), sq_nonneg (sumSq rest)]
  · intro hz
    have z1 : sumSq rest = 0 := by
      unfold sumSq
      apply List.sum_eq_zero
      intro y hy
      obtain ⟨a, ha, rfl⟩ := List.mem_map.1 hy
      rw [hz a ha]; ring
    have z2 : sumFourth rest = 0 := by
      unfold sumFourth
      apply List.sum_eq_zero
      intro y hy
      obtain ⟨a, ha, rfl⟩ := List.mem_map.1 hy
      rw [hz a ha]; ring
    rw [z1, z2]
    ring

/-- **C81 is false for the kurtosis itself** (three for the normal distribution), unless the fourth power of the last coefficient happens to be half of the sum of all of them. -/
theorem C81_kurtosis_fails (rest : List ℝ) (last target : ℝ) (hlast : sumFourth (rest ++ [last]) ≠ 0) (h : Standard w x skew (seqKurt (rest ++ [last]) target)) :
    expectSum w x (rest ++ [last]) (fun s => s ^ 4) = target * expectSum w x (rest ++ [last]) (fun s => s ^ 2) ^ 2 ↔ 2 * last ^ 4 = sumFourth (rest ++ [last]) := by
  rw [C81_kurtosis_partial rest last target hlast h]
  constructor <;> intro h <;> linarith

end

/-- The hypotheses of `C81_skewness`, `C81_kurtosis_partial` and `C81_excess_kurtosis_fails` can be met: the values plus and minus one with equal probability. -/
example : ∃ target, Standard (fun _ : Bool => (1 / 2 : ℝ)) (fun b => if b then 1 else -1) (seqSkew [2, 1] 0) (seqKurt ([2] ++ [1]) target) ∧ sumFourth ([2] ++ [1]) ≠ 0 ∧
    ([2, 1].map fun a : ℝ => a ^ 3).sum ≠ 0 := by
  have hq : quadTerm [2, 1] = 20 := by
    have := quadTerm_eq [2] 1
    norm_num [sumSq, sumFourth] at this
    linarith
  have hk : seqKurt ([2] ++ [1]) (86 / 25) = 1 := by
    unfold seqKurt
    rw [show ([2] ++ [1] : List ℝ) = [2, 1] from rfl, hq]
    norm_num [sumSq]
  refine ⟨86 / 25, ⟨fun _ => by norm_num, ?_, ?_, ?_, ?_, ?_⟩, ?_, ?_⟩
  · simp
  · simp
  · simp
  · simp only [seqSkew, Fintype.sum_bool]; norm_num
  · rw [hk]; norm_num [Fintype.sum_bool]
  · simp [sumFourth]; norm_num
  · norm_num

/-- `set_moments`, l.628-653: the distribution set, for flattened coefficients. -/
noncomputable def setMoments (filter : Option (List ℝ)) (sb : Except PyErr Verif.Johnson.Dist) (su : Except PyErr (ℝ × ℝ)) (skew kurtosis : ℝ) : Except PyErr Verif.Johnson.Dist :=
  match filter with
  | none => .error .attributeError
  | some alpha => Verif.Johnson.fitByMoments sb su 0 1 (seqSkew alpha skew) (seqKurt alpha kurtosis)

/-- **C81, asking for a normal surface.** With the moments of the normal distribution in the convention of the defaults, a filter with two equal coefficients ends in a division by zero; and there is an error without a filter. -/
theorem C81_normal_surface_raises (sb : Except PyErr Verif.Johnson.Dist) (su : Except PyErr (ℝ × ℝ)) (a : ℝ) (ha : a ≠ 0) (skew kurtosis : ℝ) :
    setMoments (some [a, a]) sb su 0 0 = .error .zeroDivisionError ∧ setMoments none sb su skew kurtosis = .error .attributeError := by
  refine ⟨?_, rfl⟩
  have hs : seqSkew [a, a] 0 = 0 := by unfold seqSkew; rw [zero_mul, zero_div]
  have hq : quadTerm [a, a] = 2 * a ^ 4 := by
    have := quadTerm_eq [a] a
    simp [sumSq, sumFourth] at this
    linarith
  have hk : seqKurt [a, a] 0 = -3 := by
    unfold seqKurt
    rw [hq]
    simp
    field_simp
    norm_num
  unfold setMoments
  simp only
  rw [hs, hk]
  exact Verif.Johnson.C82_negative_kurtosis_raises sb su 0 1 (-3) one_pos (by norm_num)

/-- The hypothesis can be met. -/
example : (1 / 2 : ℝ) ≠ 0 := by norm_num

end Verif.Filter
