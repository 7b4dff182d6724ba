import Mathlib.Analysis.SpecialFunctions.Gaussian.PoissonSummation
import Mathlib.Analysis.Real.Pi.Bounds
import Verif.Johnson.Sums

/-!
# C138: a run of `get_moments` that returns

For `gamma = 0` and a large `delta` the variable is nearly one half everywhere, the sums are nearly those of the bell curve, and these are known from
Poisson's formula.
-/

namespace Verif.Johnson

open Real Finset

/-- All points. -/
noncomputable def bell (c : ℝ) : ℝ := ∑' n : ℤ, exp (-c * (n : ℝ) ^ 2)

theorem summable_bell {c : ℝ} (hc : 0 < c) : Summable fun n : ℕ => exp (-c * ((n : ℝ) + 1) ^ 2) := by
  have hr : exp (-c) < 1 := by rw [exp_lt_one_iff]; linarith
  refine Summable.of_nonneg_of_le (fun n => (exp_pos _).le) (fun n => ?_) ((summable_geometric_of_lt_one (exp_pos _).le hr).mul_left (exp (-c)))
  rw [← exp_nat_mul, ← exp_add]
  refine exp_le_exp.2 ?_
  have : (0 : ℝ) ≤ n := n.cast_nonneg
  nlinarith [mul_nonneg hc.le this, mul_nonneg hc.le (mul_nonneg this this)]

theorem bell_eq {c : ℝ} (hc : 0 < c) : bell c = 1 + 2 * ∑' n : ℕ, exp (-c * ((n : ℝ) + 1) ^ 2) := by
  have hs := summable_bell hc
  have h1 : (fun n : ℕ => exp (-c * (((n + 1 : ℕ) : ℤ) : ℝ) ^ 2)) = fun n : ℕ => exp (-c * ((n : ℝ) + 1) ^ 2) := by
    funext n; push_cast; rfl
  have h2 : (fun n : ℕ => exp (-c * ((-((n : ℤ) + 1) : ℤ) : ℝ) ^ 2)) = fun n : ℕ => exp (-c * ((n : ℝ) + 1) ^ 2) := by
    funext n; push_cast; congr 1; ring
  have hs1 : Summable fun n : ℕ => exp (-c * ((n : ℤ) : ℝ) ^ 2) := by
    rw [← summable_nat_add_iff 1, h1]
    exact hs
  unfold bell
  rw [tsum_of_nat_of_neg_add_one (f := fun n : ℤ => exp (-c * (n : ℝ) ^ 2)) hs1 (by rw [h2]; exact hs), hs1.tsum_eq_zero_add, h1, h2]
  norm_num
  ring

theorem bell_le {c : ℝ} (hc : 1 ≤ c) : bell c ≤ 1 + 4 * exp (-c) := by
  rw [bell_eq (by linarith)]
  have hr : exp (-c) ≤ 1 / 2 := by
    rw [exp_neg, one_div]
    refine inv_anti₀ (by norm_num) ?_
    linarith [add_one_le_exp c]
  have hg : HasSum (fun n : ℕ => exp (-c) * exp (-c) ^ n) (exp (-c) * (1 - exp (-c))⁻¹) := (hasSum_geometric_of_lt_one (exp_pos _).le (by linarith)).mul_left _
  have h1 : ∑' n : ℕ, exp (-c * ((n : ℝ) + 1) ^ 2) ≤ exp (-c) * (1 - exp (-c))⁻¹ := by
    refine hg.tsum_eq ▸ (summable_bell (by linarith)).tsum_le_tsum (fun n => ?_) hg.summable
    rw [← exp_nat_mul, ← exp_add]
    refine exp_le_exp.2 ?_
    have : (0 : ℝ) ≤ n := n.cast_nonneg
    nlinarith [mul_nonneg (by linarith : (0 : ℝ) ≤ c) this, mul_nonneg (by linarith : (0 : ℝ) ≤ c) (mul_nonneg this this)]
  have h2 : (1 - exp (-c))⁻¹ ≤ 2 := by
    rw [inv_le_comm₀ (by linarith) (by norm_num)]
    linarith
  nlinarith [exp_pos (-c)]

theorem bell_ge {c : ℝ} (hc : 0 < c) : 1 ≤ bell c := by
  rw [bell_eq hc]
  have : 0 ≤ ∑' n : ℕ, exp (-c * ((n : ℝ) + 1) ^ 2) := tsum_nonneg fun n => (exp_pos _).le
  linarith

/-- Poisson's formula. -/
theorem bell_dual {h : ℝ} (hh : 0 < h) : h / √π * bell (h ^ 2) = bell (π ^ 2 / h ^ 2) := by
  have hp := pi_pos
  have H := tsum_exp_neg_mul_int_sq (a := h ^ 2 / π) (by positivity)
  rw [← sqrt_eq_rpow, sqrt_div (by positivity), sqrt_sq hh.le] at H
  have e1 : ∀ n : ℤ, exp (-π * (h ^ 2 / π) * (n : ℝ) ^ 2) = exp (-h ^ 2 * (n : ℝ) ^ 2) := fun n => by congr 1; field_simp
  have e2 : ∀ n : ℤ, exp (-π / (h ^ 2 / π) * (n : ℝ) ^ 2) = exp (-(π ^ 2 / h ^ 2) * (n : ℝ) ^ 2) := fun n => by congr 1; field_simp
  simp only [e1, e2] at H
  unfold bell
  rw [H]
  have := sqrt_pos.2 hp
  field_simp

theorem bell_total {h : ℝ} (hh : 0 < h) (hle : h ≤ 3 / 4) : 1 ≤ h / √π * bell (h ^ 2) ∧ h / √π * bell (h ^ 2) ≤ 1 + 1e-6 := by
  rw [bell_dual hh]
  have h17 : 16 ≤ π ^ 2 / h ^ 2 := by
    rw [le_div_iff₀ (by positivity)]
    nlinarith [pi_gt_three]
  refine ⟨bell_ge (by linarith), (bell_le (by linarith)).trans ?_⟩
  have : exp (-(π ^ 2 / h ^ 2)) ≤ exp (-16) := exp_le_exp.2 (by linarith)
  have h16 : exp (-16 : ℝ) ≤ 1.2e-7 := by
    have h1 : (2.71 : ℝ) ≤ exp 1 := by linarith [exp_one_gt_d9]
    have h2 : (2.71 : ℝ) ^ 16 ≤ exp 16 := by
      have := pow_le_pow_left₀ (by norm_num) h1 16
      rwa [← exp_nat_mul, show ((16 : ℕ) : ℝ) * 1 = 16 by norm_num] at this
    rw [exp_neg, inv_le_comm₀ (exp_pos _) (by norm_num)]
    refine le_trans (by norm_num) h2
  norm_num at h16 ⊢
  linarith

theorem weights_eq (h : ℝ) (N : ℕ) : weights h N = 1 + 2 * ∑ n ∈ range N, exp (-h ^ 2 * ((n : ℝ) + 1) ^ 2) := by
  unfold weights
  congr 2
  exact sum_congr rfl fun n _ => by congr 1; ring

/-- What is left out beyond the last point. -/
theorem weights_tail {h : ℝ} (hh : 3 / 8 ≤ h) {N : ℕ} (hN : 2 ≤ N) : weights h N ≤ bell (h ^ 2) ∧ bell (h ^ 2) ≤ weights h N + 4 * exp (-h ^ 2 * (N : ℝ) ^ 2) := by
  have hh2 : 9 / 64 ≤ h ^ 2 := by nlinarith
  have hs := summable_bell (c := h ^ 2) (by linarith)
  rw [bell_eq (by linarith), weights_eq, ← hs.sum_add_tsum_nat_add N]
  have h0 : 0 ≤ ∑' n : ℕ, exp (-h ^ 2 * (((n + N : ℕ) : ℝ) + 1) ^ 2) := tsum_nonneg fun n => (exp_pos _).le
  refine ⟨by linarith, ?_⟩
  have hg : HasSum (fun n : ℕ => exp (-h ^ 2 * (N : ℝ) ^ 2) * (2 / 3) * (2 / 3) ^ n) (exp (-h ^ 2 * (N : ℝ) ^ 2) * (2 / 3) * (1 - 2 / 3)⁻¹) :=
    (hasSum_geometric_of_lt_one (by norm_num) (by norm_num)).mul_left _
  have hN2 : (2 : ℝ) ≤ N := by exact_mod_cast hN
  have hρ : exp (-(2 * h ^ 2 * N)) ≤ 2 / 3 := by
    rw [exp_neg, inv_le_comm₀ (exp_pos _) (by norm_num)]
    have := add_one_le_exp (2 * h ^ 2 * N)
    nlinarith
  have h1 : ∑' n : ℕ, exp (-h ^ 2 * (((n + N : ℕ) : ℝ) + 1) ^ 2) ≤ exp (-h ^ 2 * (N : ℝ) ^ 2) * (2 / 3) * (1 - 2 / 3)⁻¹ := by
    refine hg.tsum_eq ▸ ((summable_nat_add_iff N).2 hs).tsum_le_tsum (fun n => ?_) hg.summable
    have hp : exp (-(2 * h ^ 2 * N)) ^ (n + 1) ≤ (2 / 3) ^ (n + 1) := pow_le_pow_left₀ (exp_pos _).le hρ _
    rw [mul_assoc, ← pow_succ']
    refine le_trans ?_ (mul_le_mul_of_nonneg_left hp (exp_pos _).le)
    rw [← exp_nat_mul, ← exp_add]
    refine exp_le_exp.2 ?_
    push_cast
    have : (0 : ℝ) ≤ n := n.cast_nonneg
    nlinarith [mul_nonneg (by positivity : (0 : ℝ) ≤ h ^ 2) (sq_nonneg ((n : ℝ) + 1))]
  rw [show ((1 : ℝ) - 2 / 3)⁻¹ = 3 by norm_num] at h1
  linarith

/-- A sum with a distance between 3/8 and 3/4 for a large `delta`. -/
theorem isSum_near {d h : ℝ} (hd : 1e12 ≤ d) (hh : 3 / 8 ≤ h) (hle : h ≤ 3 / 4) {a : Six} (H : IsSum 0 d h a) (i : Fin 6) :
    (1 / 2 - 1e-9) ^ (i.val + 1) * (1 - 1e-7) ≤ a i ∧ a i ≤ (1 / 2 + 1e-9) ^ (i.val + 1) * (1 + 1e-6) := by
  obtain ⟨N, hN, hN5, ha, hlast⟩ := H
  have hh0 : 0 < h := by linarith
  obtain ⟨n1, n2⟩ := nodes_near hd hh0 hle hN5 (i.val + 1)
  obtain ⟨t1, t2⟩ := weights_tail hh hN
  obtain ⟨b1, b2⟩ := bell_total hh0 hle
  have hc : 0 < h / √π := by have := sqrt_pos.2 pi_pos; positivity
  have hw : 0 < weights h N := by unfold weights; have := sum_nonneg fun n (_ : n ∈ range N) => (exp_pos (-((n : ℝ) + 1) ^ 2 * h ^ 2)).le; linarith
  have hp : exp (-h ^ 2 * (N : ℝ) ^ 2) ≤ 1.1e-8 * weights h N := by
    have h0 := hlast 0
    have hstep := nodes_step 0 d h (N - 1) 1
    have hNN : N - 1 + 1 = N := by omega
    have hNc : (((N - 1 : ℕ) : ℤ) + 1 : ℤ) = N := by omega
    rw [hNN, hNc] at hstep
    have hn1 := (nodes_near hd hh0 hle hN5 1).2
    rw [pow_one] at hn1
    have hnode : 0.49 * exp (-h ^ 2 * (N : ℝ) ^ 2) ≤ node 0 d h 1 N := by
      unfold node
      rw [pow_one, mul_comm, show -((((N : ℕ) : ℤ) : ℝ) * h) ^ 2 = -h ^ 2 * (N : ℝ) ^ 2 by push_cast; ring]
      refine mul_le_mul_of_nonneg_left ?_ (exp_pos _).le
      have hs2 : √2 ≤ 1.5 := by rw [sqrt_le_left (by norm_num)]; norm_num
      have hx : |√2 * (((N : ℤ) : ℝ) * h) / d| ≤ 1e-9 := by
        have hNr : ((N : ℤ) : ℝ) ≤ 500 := by exact_mod_cast hN5
        have hN0 : (0 : ℝ) ≤ ((N : ℤ) : ℝ) := by positivity
        rw [abs_of_nonneg (div_nonneg (by positivity) (by linarith)), div_le_iff₀ (by linarith)]
        have h1 : ((N : ℤ) : ℝ) * h ≤ 500 * (3 / 4) := mul_le_mul hNr hle hh0.le (by norm_num)
        have h2 : √2 * (((N : ℤ) : ℝ) * h) ≤ 1.5 * (500 * (3 / 4)) := mul_le_mul hs2 h1 (by positivity) (by norm_num)
        linarith
      have := (boundedY_half (d := d) (x := √2 * (((N : ℤ) : ℝ) * h)) (hx.trans (by norm_num))).trans hx
      rw [abs_le] at this
      norm_num at this ⊢
      linarith
    simp only [Fin.val_zero, zero_add] at h0
    norm_num at h0 hn1 hnode ⊢
    linarith
  have hT1 : h / √π * weights h N ≤ 1 + 1e-6 := (mul_le_mul_of_nonneg_left t1 hc.le).trans b2
  have hT2 : 1 - 1e-7 ≤ h / √π * weights h N := by
    have h3 : bell (h ^ 2) ≤ (1 + 1e-7) * weights h N := by
      generalize exp (-h ^ 2 * (N : ℝ) ^ 2) = E at *
      norm_num at hp ⊢
      linarith
    have h4 := mul_le_mul_of_nonneg_left h3 hc.le
    have h5 : h / √π * ((1 + 1e-7) * weights h N) = (1 + 1e-7) * (h / √π * weights h N) := by ring
    rw [h5] at h4
    generalize h / √π * weights h N = T at *
    norm_num at h4 ⊢
    linarith
  rw [ha]
  constructor
  · have h6 := mul_le_mul_of_nonneg_left n1 hc.le
    rw [mul_left_comm] at h6
    exact (mul_le_mul_of_nonneg_left hT2 (pow_nonneg (by norm_num) _)).trans h6
  · have h6 := mul_le_mul_of_nonneg_left n2 hc.le
    rw [mul_left_comm] at h6
    exact h6.trans (mul_le_mul_of_nonneg_left hT1 (pow_nonneg (by norm_num) _))

/-- Two such sums agree. -/
theorem isSum_close {d h h' : ℝ} (hd : 1e12 ≤ d) (hh : 3 / 8 ≤ h) (hle : h ≤ 3 / 4) (hh' : 3 / 8 ≤ h') (hle' : h' ≤ 3 / 4) {a c : Six} (H : IsSum 0 d h a) (H' : IsSum 0 d h' c) :
    ¬Apart 1e-5 a c := by
  rintro ⟨i, hi⟩
  obtain ⟨a1, a2⟩ := isSum_near hd hh hle H i
  obtain ⟨c1, c2⟩ := isSum_near hd hh' hle' H' i
  have hpos := H.pos (by linarith) i
  rw [lt_div_iff₀ hpos] at hi
  refine absurd hi (not_lt.2 (abs_le.2 ?_))
  generalize a i = x at *
  generalize c i = y at *
  fin_cases i <;> norm_num at a1 a2 c1 c2 ⊢ <;> constructor <;> linarith

/-- The inner loop ends for such distances. -/
theorem inner_ends {d h : ℝ} (hd : 1e12 ≤ d) (hh : 3 / 8 ≤ h) (hle : h ≤ 3 / 4) (b : Six) :
    ∃ s, inner (2 * h ^ 2) (√2 / d * h) 500 (innerStart (0 / d) (exp (0 / d) + 1) h b) = .ok s := by
  cases hi : inner (2 * h ^ 2) (√2 / d * h) 500 (innerStart (0 / d) (exp (0 / d) + 1) h b) with
  | ok s => exact ⟨s, rfl⟩
  | error e =>
    exfalso
    obtain ⟨i, hlt⟩ := inner_not_ended (m := 499) (innerStart_spec 0 d h b) hi
    norm_num only at hlt
    have hn := (nodes_near hd (by linarith) hle le_rfl (i.val + 1)).1
    have hw : 1 ≤ weights h 500 := by unfold weights; have := sum_nonneg fun n (_ : n ∈ range 500) => (exp_pos (-((n : ℝ) + 1) ^ 2 * h ^ 2)).le; linarith
    have hlow : (1 / 2 - 1e-9) ^ 6 ≤ nodes 0 d h 500 (i.val + 1) := by
      have h1 : (1 / 2 - 1e-9 : ℝ) ^ 6 ≤ (1 / 2 - 1e-9) ^ (i.val + 1) := pow_le_pow_of_le_one (by norm_num) (by norm_num) (by omega)
      have h2 : (1 / 2 - 1e-9 : ℝ) ^ (i.val + 1) * 1 ≤ (1 / 2 - 1e-9) ^ (i.val + 1) * weights h 500 := mul_le_mul_of_nonneg_left hw (pow_nonneg (by norm_num) _)
      linarith
    have hlast : nodes 0 d h 500 (i.val + 1) - nodes 0 d h 499 (i.val + 1) ≤ 2 * exp (-(500 * h) ^ 2) := by
      have hs := nodes_succ 0 d h 499 (i.val + 1)
      norm_num only at hs
      have hb : ∀ n : ℤ, node 0 d h (i.val + 1) n ≤ exp (-(n * h) ^ 2) := fun n =>
        mul_le_of_le_one_right (exp_pos _).le (pow_le_one₀ (boundedY_pos _ _ _).le (boundedY_lt _ _ _).le)
      have hb1 := hb (((499 : ℕ) : ℤ) + 1)
      have hb2 := hb (-(((499 : ℕ) : ℤ) + 1))
      have e1 : exp (-(((((499 : ℕ) : ℤ) + 1 : ℤ) : ℝ) * h) ^ 2) = exp (-(500 * h) ^ 2) := by norm_num
      have e2 : exp (-(((-(((499 : ℕ) : ℤ) + 1) : ℤ) : ℝ) * h) ^ 2) = exp (-(500 * h) ^ 2) := by norm_num
      rw [e1] at hb1
      rw [e2] at hb2
      have hs := nodes_succ 0 d h 499 (i.val + 1)
      have h0 := exp_pos (-(500 * h) ^ 2)
      split_ifs at hs <;> linarith
    have hexp : exp (-(500 * h) ^ 2) ≤ 1e-12 := by
      have h1 : (1000 : ℝ) ≤ exp ((500 * h) ^ 2 / 4) := by
        have := add_one_le_exp ((500 * h) ^ 2 / 4)
        nlinarith
      have h2 : (1000 : ℝ) ^ 4 ≤ exp ((500 * h) ^ 2) := by
        have := pow_le_pow_left₀ (by norm_num) h1 4
        rwa [← exp_nat_mul, show ((4 : ℕ) : ℝ) * ((500 * h) ^ 2 / 4) = (500 * h) ^ 2 by push_cast; ring] at this
      rw [exp_neg, inv_le_comm₀ (exp_pos _) (by norm_num)]
      exact le_trans (by norm_num) h2
    have hlt' : 1e-8 * nodes 0 d h 500 (i.val + 1) < nodes 0 d h 500 (i.val + 1) - nodes 0 d h 499 (i.val + 1) := by
      norm_num at hlt ⊢
      exact hlt
    norm_num at hlow hexp hlt'
    linarith

/-- **C138, a run.** For `gamma = 0` and every `delta` of at least 1e12 `get_moments` returns, after two passes of its outer loop, and the values are within 1e-5 of the powers of one half, which the moments of the
distribution approach. -/
theorem C138_returns {d : ℝ} (hd : 1e12 ≤ d) : ∃ a, getMoments 0 d = .ok a ∧ IsSum 0 d (3 / 8) a ∧ ∀ i : Fin 6, |a i - (1 / 2) ^ (i.val + 1)| ≤ 1e-5 * (1 / 2) ^ (i.val + 1) := by
  have hd0 : 0 < d := by linarith
  have pass : ∀ (first : Bool) (s : Outer), GoodB (0 / d) s.b → 3 / 4 ≤ s.h → s.h ≤ 3 / 2 → ∃ s', outerBody (0 / d) (exp (0 / d) + 1) (√2 / d) first s = .ok s' ∧
      s'.h = s.h / 2 ∧ (s'.c = if first then s.c else s.a) ∧ GoodB (0 / d) s'.b ∧ IsSum 0 d s'.h s'.a := by
    intro first s hb h1 h2
    obtain ⟨i, hi⟩ := inner_ends hd (h := s.h * 0.5) (by linarith) (by linarith) s.b
    have ho : outerBody (0 / d) (exp (0 / d) + 1) (√2 / d) first s = .ok ⟨fun j => i.a j * (1 / √Real.pi * (s.h * 0.5)), i.b, if first then s.c else s.a, s.h * 0.5⟩ := by
      unfold outerBody
      rw [hi]
    obtain ⟨e1, e2, e3, e4⟩ := outerBody_spec hd0 hb (by linarith) h2 ho
    exact ⟨_, ho, e1, e2, e3, e4⟩
  obtain ⟨s1, o1, h1, c1, b1, i1⟩ := pass true ⟨fun _ => 1, fun _ => 0, fun _ => 0, 0.75 * 2⟩ (.inl rfl) (by norm_num) (by norm_num)
  have hh1 : s1.h = 3 / 4 := by rw [h1]; norm_num
  obtain ⟨s2, o2, h2, c2, b2, i2⟩ := pass false s1 b1 (by rw [hh1]) (by rw [hh1]; norm_num)
  have hh2 : s2.h = 3 / 8 := by rw [h2, hh1]; norm_num
  rw [hh2] at i2
  rw [hh1] at i1
  have ap0 : Apart 1e-5 (fun _ => 1) (fun _ => 0) := ⟨0, by norm_num⟩
  have ap1 : Apart 1e-5 s1.a s1.c := by
    have hp := i1.pos (by norm_num) 0
    refine ⟨0, ?_⟩
    rw [c1, if_pos rfl, sub_zero, abs_of_pos hp, div_self hp.ne']
    norm_num
  have ap2 : ¬Apart 1e-5 s2.a s2.c := by
    rw [c2, if_neg (by decide)]
    exact isSum_close hd le_rfl (by norm_num) (by norm_num) le_rfl i2 i1
  have hr : getMoments 0 d = .ok s2.a := by
    unfold getMoments
    rw [show mdiv 0 d = .ok (0 / d) from if_neg hd0.ne']
    dsimp only
    rw [if_neg (by rw [zero_div]; norm_num), if_neg (by linarith : ¬d < 3)]
    unfold outer
    rw [if_pos ap0, o1]
    dsimp only
    unfold outer
    rw [if_pos ap1, o2]
    dsimp only
    unfold outer
    rw [if_neg ap2]
  refine ⟨s2.a, hr, i2, fun i => ?_⟩
  obtain ⟨a1, a2⟩ := isSum_near hd le_rfl (by norm_num) i2 i
  generalize s2.a i = x at *
  rw [abs_le]
  fin_cases i <;> norm_num at a1 a2 ⊢ <;> constructor <;> linarith

/-- The hypotheses of `C138_sum` and `C138_order` are met. -/
example : ∃ a, getMoments 0 1e12 = .ok a ∧ (∀ i, 0 < a i) ∧ (∀ i j : Fin 6, i < j → a j < a i) ∧ a 0 ≤ 0.50001 := by
  obtain ⟨a, h, -, hv⟩ := C138_returns (d := 1e12) le_rfl
  obtain ⟨h1, h2⟩ := C138_order (by norm_num) h
  have := (abs_le.1 (hv 0)).2
  norm_num at this
  exact ⟨a, h, h1, h2, by norm_num; linarith⟩

end Verif.Johnson
