import Mathlib.Algebra.Order.BigOperators.Group.Finset
import Mathlib.Algebra.BigOperators.Ring.Finset
import Mathlib.Algebra.BigOperators.Intervals
import Mathlib.Data.Int.Interval
import Mathlib.Tactic.Linarith
import Mathlib.Tactic.FieldSimp
import Mathlib.Tactic.Positivity
import Mathlib.Tactic.NormNum
import Verif.Acf.Model

/-!
# C51, C76: the autocorrelation is even and largest at zero lag
-/

namespace Verif.Acf

/-- All points of the profile. -/
noncomputable def box (N M : ℕ) : Finset (ℤ × ℤ) := (Finset.Ico (0 : ℤ) N) ×ˢ (Finset.Ico (0 : ℤ) M)

/-- The profile as a function of all pairs. -/
noncomputable def ext (N M : ℕ) (p : ℕ → ℕ → ℝ) (q : ℤ × ℤ) : ℝ := padded N M p q.1 q.2

theorem mem_box {N M : ℕ} {q : ℤ × ℤ} : q ∈ box N M ↔ 0 ≤ q.1 ∧ q.1 < N ∧ 0 ≤ q.2 ∧ q.2 < M := by
  simp [box, and_assoc]

theorem ext_out {N M : ℕ} {p : ℕ → ℕ → ℝ} {q : ℤ × ℤ} (h : q ∉ box N M) : ext N M p q = 0 := by
  rw [mem_box] at h
  unfold ext padded
  rw [if_neg h]

theorem sum_box (N M : ℕ) (F : ℤ → ℤ → ℝ) : (∑ q ∈ box N M, F q.1 q.2) = ∑ a ∈ Finset.range N, ∑ b ∈ Finset.range M, F a b := by
  unfold box
  rw [Finset.sum_product]
  have h : ∀ (n : ℕ) (G : ℤ → ℝ), ∑ x ∈ Finset.Ico (0 : ℤ) n, G x = ∑ a ∈ Finset.range n, G a := by
    intro n G
    apply Finset.sum_bij' (fun (x : ℤ) _ => (x.toNat : ℕ)) (fun (a : ℕ) _ => (a : ℤ))
    · intro x hx; rw [Finset.mem_Ico] at hx; rw [Finset.mem_range]; omega
    · intro a ha; rw [Finset.mem_range] at ha; rw [Finset.mem_Ico]; omega
    · intro x hx; rw [Finset.mem_Ico] at hx; exact Int.toNat_of_nonneg hx.1
    · intro a _; exact Int.toNat_natCast a
    · intro x hx; rw [Finset.mem_Ico] at hx; rw [Int.toNat_of_nonneg hx.1]
  rw [h]
  exact Finset.sum_congr rfl fun a _ => h _ _

/-- The correlation at the lag `t`. -/
noncomputable def corr (N M : ℕ) (p : ℕ → ℕ → ℝ) (t : ℤ × ℤ) : ℝ := ∑ q ∈ box N M, ext N M p q * ext N M p (q - t)

theorem same_eq_corr (N M : ℕ) (p : ℕ → ℕ → ℝ) (i j : ℕ) (hN : 0 < N) (hM : 0 < M) :
    correlateSame N M p i j = corr N M p ((i : ℤ) - (N / 2 : ℕ), (j : ℤ) - (M / 2 : ℕ)) := by
  unfold correlateSame correlateFull corr
  rw [sum_box N M fun a b => ext N M p (a, b) * ext N M p ((a, b) - ((i : ℤ) - (N / 2 : ℕ), (j : ℤ) - (M / 2 : ℕ)))]
  refine Finset.sum_congr rfl fun a ha => Finset.sum_congr rfl fun b hb => ?_
  rw [Finset.mem_range] at ha hb
  have h1 : ext N M p ((a : ℤ), (b : ℤ)) = p a b := by
    unfold ext padded
    rw [if_pos (by simp only; omega)]
    simp
  rw [h1]
  simp only [ext, Prod.mk_sub_mk]
  have e1 : ((a : ℤ) - (i + (2 * N - 1 - N) / 2 : ℕ) + N - 1) = (a : ℤ) - ((i : ℤ) - (N / 2 : ℕ)) := by omega
  have e2 : ((b : ℤ) - (j + (2 * M - 1 - M) / 2 : ℕ) + M - 1) = (b : ℤ) - ((j : ℤ) - (M / 2 : ℕ)) := by omega
  rw [e1, e2]

theorem corr_neg (N M : ℕ) (p : ℕ → ℕ → ℝ) (t : ℤ × ℤ) : corr N M p (-t) = corr N M p t := by
  have key : ∀ t, corr N M p t = ∑ q ∈ (box N M).filter (fun q => q - t ∈ box N M), ext N M p q * ext N M p (q - t) := by
    intro t
    unfold corr
    rw [Finset.sum_filter]
    refine Finset.sum_congr rfl fun q _ => ?_
    split
    · rfl
    · rename_i h; rw [ext_out h, mul_zero]
  rw [key, key]
  apply Finset.sum_nbij' (fun q => q + t) (fun q => q - t)
  · intro q hq
    rw [Finset.mem_filter] at hq ⊢
    refine ⟨by simpa using hq.2, by simpa using hq.1⟩
  · intro q hq
    rw [Finset.mem_filter] at hq ⊢
    refine ⟨hq.2, by simpa using hq.1⟩
  · intro q _; simp
  · intro q _; simp
  · intro q _; simp only [sub_neg_eq_add, add_sub_cancel_right]; ring

theorem shift_sq (N M : ℕ) (p : ℕ → ℕ → ℝ) (t : ℤ × ℤ) : ∑ q ∈ box N M, ext N M p (q - t) ^ 2 ≤ ∑ q ∈ box N M, ext N M p q ^ 2 := by
  have h1 : ∑ q ∈ box N M, ext N M p (q - t) ^ 2 = ∑ q ∈ (box N M).filter (fun q => q - t ∈ box N M), ext N M p (q - t) ^ 2 := by
    rw [Finset.sum_filter]
    refine Finset.sum_congr rfl fun q _ => ?_
    split
    · rfl
    · rename_i h; rw [ext_out h]; ring
  have h2 : ∑ q ∈ (box N M).filter (fun q => q - t ∈ box N M), ext N M p (q - t) ^ 2 = ∑ q ∈ ((box N M).filter (fun q => q - t ∈ box N M)).image (fun q => q - t), ext N M p q ^ 2 := by
    rw [Finset.sum_image]
    intro a _ b _ hab
    simpa using hab
  rw [h1, h2]
  apply Finset.sum_le_sum_of_subset_of_nonneg
  · intro q hq
    rw [Finset.mem_image] at hq
    obtain ⟨r, hr, rfl⟩ := hq
    exact (Finset.mem_filter.1 hr).2
  · intro q _ _; positivity

theorem corr_zero (N M : ℕ) (p : ℕ → ℕ → ℝ) : corr N M p 0 = ∑ q ∈ box N M, ext N M p q ^ 2 := by
  unfold corr
  exact Finset.sum_congr rfl fun q _ => by rw [sub_zero]; ring

theorem corr_le (N M : ℕ) (p : ℕ → ℕ → ℝ) (t : ℤ × ℤ) : |corr N M p t| ≤ corr N M p 0 := by
  have hs := shift_sq N M p t
  rw [corr_zero, abs_le]
  unfold corr
  constructor
  · have : ∑ q ∈ box N M, (ext N M p q + ext N M p (q - t)) ^ 2 = ∑ q ∈ box N M, ext N M p q ^ 2 + 2 * ∑ q ∈ box N M, ext N M p q * ext N M p (q - t) + ∑ q ∈ box N M, ext N M p (q - t) ^ 2 := by
      rw [Finset.mul_sum, ← Finset.sum_add_distrib, ← Finset.sum_add_distrib]
      exact Finset.sum_congr rfl fun q _ => by ring
    have h0 : 0 ≤ ∑ q ∈ box N M, (ext N M p q + ext N M p (q - t)) ^ 2 := Finset.sum_nonneg fun q _ => sq_nonneg _
    linarith
  · have : ∑ q ∈ box N M, (ext N M p q - ext N M p (q - t)) ^ 2 = ∑ q ∈ box N M, ext N M p q ^ 2 - 2 * ∑ q ∈ box N M, ext N M p q * ext N M p (q - t) + ∑ q ∈ box N M, ext N M p (q - t) ^ 2 := by
      rw [Finset.mul_sum, ← Finset.sum_sub_distrib, ← Finset.sum_add_distrib]
      exact Finset.sum_congr rfl fun q _ => by ring
    have h0 : 0 ≤ ∑ q ∈ box N M, (ext N M p q - ext N M p (q - t)) ^ 2 := Finset.sum_nonneg fun q _ => sq_nonneg _
    linarith

/-- At a lag with a negative first part the correlation is smaller than at zero lag, unless the profile is zero. -/
theorem corr_lt (N M : ℕ) (p : ℕ → ℕ → ℝ) (s : ℤ) (hne : ∃ i j, i < N ∧ j < M ∧ p i j ≠ 0) : corr N M p (-1, s) < corr N M p 0 := by
  refine lt_of_le_of_ne ((le_abs_self _).trans (corr_le N M p _)) fun heq => ?_
  have hs := shift_sq N M p (-1, s)
  have hexp : ∑ q ∈ box N M, (ext N M p q - ext N M p (q - (-1, s))) ^ 2 = ∑ q ∈ box N M, ext N M p q ^ 2 - 2 * ∑ q ∈ box N M, ext N M p q * ext N M p (q - (-1, s)) + ∑ q ∈ box N M, ext N M p (q - (-1, s)) ^ 2 := by
    rw [Finset.mul_sum, ← Finset.sum_sub_distrib, ← Finset.sum_add_distrib]
    exact Finset.sum_congr rfl fun q _ => by ring
  rw [corr_zero] at heq
  have hle : ∑ q ∈ box N M, (ext N M p q - ext N M p (q - (-1, s))) ^ 2 ≤ 0 := by
    rw [hexp]
    unfold corr at heq
    linarith
  have hall : ∀ q ∈ box N M, ext N M p q = ext N M p (q - (-1, s)) := by
    intro q hq
    have h1 : (ext N M p q - ext N M p (q - (-1, s))) ^ 2 ≤ 0 :=
      (Finset.single_le_sum (f := fun q => (ext N M p q - ext N M p (q - (-1, s))) ^ 2) (fun q _ => sq_nonneg _) hq).trans hle
    have h2 : (ext N M p q - ext N M p (q - (-1, s))) ^ 2 = 0 := le_antisymm h1 (sq_nonneg _)
    have := pow_eq_zero_iff (two_ne_zero) |>.1 h2
    linarith
  -- every point has the height of a point in a later row, so all heights are zero
  have hzero : ∀ (d : ℕ) (q : ℤ × ℤ), (N : ℤ) - d ≤ q.1 → ext N M p q = 0 := by
    intro d
    induction d with
    | zero =>
      intro q hq
      apply ext_out
      rw [mem_box]
      simp at hq
      omega
    | succ d ih =>
      intro q hq
      by_cases hin : q ∈ box N M
      · rw [hall q hin]
        apply ih
        simp only [Prod.fst_sub]
        push_cast at hq
        omega
      · exact ext_out hin
  obtain ⟨i, j, hi, hj, hp⟩ := hne
  apply hp
  have h1 : ext N M p ((i : ℤ), (j : ℤ)) = p i j := by
    unfold ext padded
    rw [if_pos (by simp only; omega)]
    simp
  rw [← h1]
  exact hzero N _ (by simp)

/-! ## C51 -/

/-- **C51, symmetry.** The autocorrelation of a profile is symmetric about the entry `(N / 2, M / 2)`, as far as both entries exist. -/
theorem C51_symmetric (N M : ℕ) (p : ℕ → ℕ → ℝ) (i j i' j' : ℕ) (hi : i < N) (hj : j < M) (hi' : i + i' = 2 * (N / 2)) (hj' : j + j' = 2 * (M / 2)) :
    original N M p i' j' = original N M p i j := by
  unfold original
  rw [same_eq_corr N M p i j (by omega) (by omega), same_eq_corr N M p i' j' (by omega) (by omega), ← corr_neg N M p ((i : ℤ) - (N / 2 : ℕ), (j : ℤ) - (M / 2 : ℕ))]
  congr 2
  simp only [Prod.neg_mk, Prod.mk.injEq]
  omega

example (p : ℕ → ℕ → ℝ) : original 3 5 p 0 3 = original 3 5 p 2 1 := C51_symmetric 3 5 p 2 1 0 3 (by norm_num) (by norm_num) (by norm_num) (by norm_num)

/-- **C51, centre.** The entry `(N / 2, M / 2)` is the mean square height. -/
theorem C51_centre (N M : ℕ) (p : ℕ → ℕ → ℝ) (hN : 0 < N) (hM : 0 < M) :
    original N M p (N / 2) (M / 2) = (∑ a ∈ Finset.range N, ∑ b ∈ Finset.range M, p a b ^ 2) / (N * M) := by
  unfold original
  rw [same_eq_corr N M p _ _ hN hM, sub_self, sub_self, show ((0 : ℤ), (0 : ℤ)) = 0 from rfl, corr_zero, sum_box N M fun a b => ext N M p (a, b) ^ 2]
  congr 1
  refine Finset.sum_congr rfl fun a ha => Finset.sum_congr rfl fun b hb => ?_
  rw [Finset.mem_range] at ha hb
  unfold ext padded
  rw [if_pos (by simp only; omega)]
  simp

example : original 2 2 (fun a b => (a + b : ℝ)) 1 1 = 3 / 2 := (C51_centre 2 2 (fun a b => (a + b : ℝ)) (by norm_num) (by norm_num)).trans (by norm_num [Finset.sum_range_succ])

/-- **C51, largest value.** No entry exceeds the entry `(N / 2, M / 2)` in magnitude. -/
theorem C51_largest (N M : ℕ) (p : ℕ → ℕ → ℝ) (i j : ℕ) (hN : 0 < N) (hM : 0 < M) : |original N M p i j| ≤ original N M p (N / 2) (M / 2) := by
  unfold original
  rw [same_eq_corr N M p _ _ hN hM, same_eq_corr N M p (N / 2) _ hN hM, sub_self, sub_self, show ((0 : ℤ), (0 : ℤ)) = 0 from rfl, abs_div,
    abs_of_nonneg (by positivity : (0 : ℝ) ≤ (N : ℝ) * M)]
  exact div_le_div_of_nonneg_right (corr_le N M p _) (by positivity)

/-- The hypotheses can be met. -/
example : (0 : ℕ) < 3 ∧ (1 : ℕ) < 5 ∧ 1 + 3 = 2 * (5 / 2) := by norm_num

theorem knot_eq (N : ℕ) (gs : ℝ) (i : ℕ) (hN : 0 < N) : knot N gs i = ((i : ℝ) - ((N : ℝ) - 1) / 2) * gs := by
  unfold knot
  rw [← Finset.sum_mul]
  have h := Finset.sum_range_id_mul_two N
  have h2 : (∑ k ∈ Finset.range N, (k : ℝ)) * 2 = N * ((N : ℝ) - 1) := by
    have : ((∑ k ∈ Finset.range N, k : ℕ) : ℝ) * 2 = ((N * (N - 1) : ℕ) : ℝ) := by exact_mod_cast h
    rw [Nat.cast_sum] at this
    rw [this]
    push_cast [Nat.cast_sub (show 1 ≤ N from hN)]
    ring
  have hN' : (N : ℝ) ≠ 0 := by positivity
  have h3 : (∑ k ∈ Finset.range N, (k : ℝ)) = N * ((N : ℝ) - 1) / 2 := by linarith
  rw [h3]
  field_simp

/-- **C51, the function for odd sizes.** For profiles with an odd number of rows and columns the function is even at the knots, has the mean square height at the origin and nothing larger at the knots. Missing from C51: even sizes (for which it is false, see below). -/
theorem C51_odd_sizes_partial (n m : ℕ) (p : ℕ → ℕ → ℝ) (gs : ℝ) (f : ℝ → ℝ → ℝ) (hf : Interpolates (2 * n + 1) (2 * m + 1) p gs f) (i j : ℕ) (hi : i < 2 * n + 1) (hj : j < 2 * m + 1) :
    f (-knot (2 * n + 1) gs i) (-knot (2 * m + 1) gs j) = f (knot (2 * n + 1) gs i) (knot (2 * m + 1) gs j) ∧
    |f (knot (2 * n + 1) gs i) (knot (2 * m + 1) gs j)| ≤ f 0 0 ∧
    f 0 0 = (∑ a ∈ Finset.range (2 * n + 1), ∑ b ∈ Finset.range (2 * m + 1), p a b ^ 2) / (((2 * n + 1 : ℕ) : ℝ) * (2 * m + 1 : ℕ)) := by
  have hneg : ∀ (n i : ℕ), i < 2 * n + 1 → -knot (2 * n + 1) gs i = knot (2 * n + 1) gs (2 * n - i) := by
    intro n i hi
    rw [knot_eq _ _ _ (by omega), knot_eq _ _ _ (by omega), Nat.cast_sub (by omega)]
    push_cast
    ring
  have h0 : ∀ n : ℕ, (0 : ℝ) = knot (2 * n + 1) gs n := by
    intro n
    rw [knot_eq _ _ _ (by omega)]
    push_cast
    ring
  have hc := hf n m (by omega) (by omega)
  rw [← h0, ← h0] at hc
  have e1 : (2 * n + 1) / 2 = n := by omega
  have e2 : (2 * m + 1) / 2 = m := by omega
  refine ⟨?_, ?_, ?_⟩
  · rw [hneg n i hi, hneg m j hj, hf i j hi hj, hf _ _ (by omega) (by omega)]
    exact C51_symmetric _ _ p i j _ _ hi hj (by omega) (by omega)
  · rw [hf i j hi hj, hc]
    have := C51_largest (2 * n + 1) (2 * m + 1) p i j (by omega) (by omega)
    rwa [e1, e2] at this
  · rw [hc]
    have := C51_centre (2 * n + 1) (2 * m + 1) p (by omega) (by omega)
    rwa [e1, e2] at this

/-- **C51 is false for even sizes.** For every profile with an even number of rows and columns that is not zero, the function is not even: the knots are centred with the mean of the positions, but the zero lag is half a spacing away from it. -/
theorem C51_even_sizes_fail (n m : ℕ) (hn : 0 < n) (hm : 0 < m) (p : ℕ → ℕ → ℝ) (hp : ∃ i j, i < 2 * n ∧ j < 2 * m ∧ p i j ≠ 0) (gs : ℝ) (f : ℝ → ℝ → ℝ) (hf : Interpolates (2 * n) (2 * m) p gs f) :
    f (-(gs / 2)) (-(gs / 2)) < f (gs / 2) (gs / 2) ∧
    f (gs / 2) (gs / 2) = (∑ a ∈ Finset.range (2 * n), ∑ b ∈ Finset.range (2 * m), p a b ^ 2) / (((2 * n : ℕ) : ℝ) * (2 * m : ℕ)) := by
  have hplus : ∀ n : ℕ, 0 < n → gs / 2 = knot (2 * n) gs n := by
    intro n hn
    rw [knot_eq _ _ _ (by omega)]
    push_cast
    ring
  have hminus : ∀ n : ℕ, 0 < n → -(gs / 2) = knot (2 * n) gs (n - 1) := by
    intro n hn
    rw [knot_eq _ _ _ (by omega), Nat.cast_sub (by omega)]
    push_cast
    ring
  have h1 : f (gs / 2) (gs / 2) = original (2 * n) (2 * m) p n m := by
    conv_lhs => rw [show f (gs / 2) (gs / 2) = f (knot (2 * n) gs n) (knot (2 * m) gs m) by rw [← hplus n hn, ← hplus m hm]]
    exact hf n m (by omega) (by omega)
  have h2 : f (-(gs / 2)) (-(gs / 2)) = original (2 * n) (2 * m) p (n - 1) (m - 1) := by
    conv_lhs => rw [show f (-(gs / 2)) (-(gs / 2)) = f (knot (2 * n) gs (n - 1)) (knot (2 * m) gs (m - 1)) by rw [← hminus n hn, ← hminus m hm]]
    exact hf _ _ (by omega) (by omega)
  have e1 : 2 * n / 2 = n := by omega
  have e2 : 2 * m / 2 = m := by omega
  refine ⟨?_, ?_⟩
  · rw [h1, h2]
    unfold original
    rw [same_eq_corr _ _ p _ _ (by omega) (by omega), same_eq_corr _ _ p _ _ (by omega) (by omega), e1, e2, sub_self, sub_self, show ((0 : ℤ), (0 : ℤ)) = 0 from rfl]
    have : (((n - 1 : ℕ) : ℤ) - (n : ℕ), ((m - 1 : ℕ) : ℤ) - (m : ℕ)) = ((-1 : ℤ), (-1 : ℤ)) := by
      rw [Prod.mk.injEq]; omega
    rw [this]
    apply div_lt_div_of_pos_right (corr_lt _ _ p _ hp)
    have : (0 : ℝ) < n := by exact_mod_cast hn
    have : (0 : ℝ) < m := by exact_mod_cast hm
    push_cast
    positivity
  · rw [h1]
    have := C51_centre (2 * n) (2 * m) p (by omega) (by omega)
    rwa [e1, e2] at this

theorem knot_injective (N : ℕ) (gs : ℝ) (hN : 0 < N) (hg : gs ≠ 0) (i j : ℕ) (h : knot N gs i = knot N gs j) : i = j := by
  rw [knot_eq _ _ _ hN, knot_eq _ _ _ hN] at h
  have := mul_right_cancel₀ hg h
  exact_mod_cast (by linarith : (i : ℝ) = j)

open Classical in
/-- Functions that interpolate exist for every profile and spacing that is not zero. -/
theorem exists_interpolant (N M : ℕ) (hN : 0 < N) (hM : 0 < M) (p : ℕ → ℕ → ℝ) (gs : ℝ) (hg : gs ≠ 0) : ∃ f, Interpolates N M p gs f := by
  refine ⟨fun x y => if h : ∃ q : ℕ × ℕ, x = knot N gs q.1 ∧ y = knot M gs q.2 then original N M p h.choose.1 h.choose.2 else 0, fun i j _ _ => ?_⟩
  have h : ∃ q : ℕ × ℕ, knot N gs i = knot N gs q.1 ∧ knot M gs j = knot M gs q.2 := ⟨(i, j), rfl, rfl⟩
  simp only
  rw [dif_pos h]
  obtain ⟨h1, h2⟩ := h.choose_spec
  rw [← knot_injective N gs hN hg _ _ h1, ← knot_injective M gs hM hg _ _ h2]

/-- The hypotheses can be met. -/
example : ∃ f, Interpolates (2 * 2) (2 * 2) (fun _ _ => 1) 1 f ∧ ∃ i j, i < 2 * 2 ∧ j < 2 * 2 ∧ (fun _ _ => 1 : ℕ → ℕ → ℝ) i j ≠ 0 := by
  obtain ⟨f, hf⟩ := exists_interpolant (2 * 2) (2 * 2) (by norm_num) (by norm_num) (fun _ _ => 1) 1 one_ne_zero
  exact ⟨f, hf, 0, 0, by norm_num, by norm_num, one_ne_zero⟩

/-- The hypotheses of `C51_odd_sizes_partial` can be met. -/
example : ∃ f, Interpolates (2 * 2 + 1) (2 * 2 + 1) (fun _ _ => 1) 1 f := exists_interpolant _ _ (by norm_num) (by norm_num) (fun _ _ => 1) 1 one_ne_zero

/-- **C51, the exponential model.** It is even in each coordinate, positive, `sigma` squared at the origin, and falls with the distance (measured in decay lengths). -/
theorem C51_exponential (sigma beta_x beta_y : ℝ) (hs : sigma ≠ 0) (x y x' y' : ℝ) :
    expAcf sigma beta_x beta_y (-x) y = expAcf sigma beta_x beta_y x y ∧ expAcf sigma beta_x beta_y x (-y) = expAcf sigma beta_x beta_y x y ∧
    0 < expAcf sigma beta_x beta_y x y ∧ expAcf sigma beta_x beta_y 0 0 = sigma ^ 2 ∧
    ((x / beta_x) ^ 2 + (y / beta_y) ^ 2 < (x' / beta_x) ^ 2 + (y' / beta_y) ^ 2 → expAcf sigma beta_x beta_y x' y' < expAcf sigma beta_x beta_y x y) := by
  have h2 : 0 < sigma ^ 2 := by positivity
  refine ⟨?_, ?_, ?_, ?_, fun h => ?_⟩
  · unfold expAcf; rw [neg_div, neg_sq]
  · unfold expAcf; rw [neg_div, neg_sq]
  · unfold expAcf; positivity
  · simp [expAcf]
  · unfold expAcf
    apply mul_lt_mul_of_pos_left _ h2
    apply Real.exp_lt_exp.2
    have := Real.sqrt_lt_sqrt (by positivity) h
    linarith

/-- The hypotheses can be met. -/
example : (2 : ℝ) ≠ 0 ∧ ((1 : ℝ) / 1) ^ 2 + (0 / 1) ^ 2 < (2 / 1) ^ 2 + (0 / 1) ^ 2 := by norm_num

/-! ## C76 -/

/-- **C76 is false.** For the same function of x and y, the result for an autocorrelation made from an array is the transpose of the result for one made from a function, with other shape if the numbers of x and y differ. -/
theorem C76_transposed (f : ℝ → ℝ → ℝ) (x y : List ℝ) :
    (call .array f x y).1 = ((call .function f x y).1.2, (call .function f x y).1.1) ∧ ∀ i j, (call .array f x y).2 i j = (call .function f x y).2 j i :=
  ⟨rfl, fun _ _ => rfl⟩

/-- **C76, a witness.** With two x and one y the shapes differ; and with the function `x` the entries of two by two results differ. -/
theorem C76_fails : (call .array (fun x _ => x) [0, 1] [0]).1 ≠ (call .function (fun x _ => x) [0, 1] [0]).1 ∧
    (call .array (fun x _ => x) [0, 1] [0, 1]).2 0 1 ≠ (call .function (fun x _ => x) [0, 1] [0, 1]).2 0 1 := by
  constructor <;> simp [call]

/-- **C76, what holds.** On the same points in both directions, the results agree for functions that are symmetric in x and y. Missing: all other functions and points. -/
theorem C76_symmetric_partial (f : ℝ → ℝ → ℝ) (hf : ∀ x y, f x y = f y x) (x : List ℝ) (i j : ℕ) : (call .array f x x).1 = (call .function f x x).1 ∧ (call .array f x x).2 i j = (call .function f x x).2 i j :=
  ⟨rfl, hf _ _⟩

/-- There are such functions. -/
example : ∀ x y : ℝ, expAcf 1 2 2 x y = expAcf 1 2 2 y x := fun x y => by unfold expAcf; rw [add_comm]

end Verif.Acf
