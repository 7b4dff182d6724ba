import Verif.Johnson.Sums

/-!
# C138: negative arguments of `get_moments` and the points it leaves out
-/

namespace Verif.Johnson

open Real Finset

/-- A value of `get_moments` for a negative `delta` is that of the first pass: the test of the outer loop divides by negative values. -/
theorem negative_run {g d : ℝ} (hd : d < 0) {a : Six} (h : getMoments g d = .ok a) : ∀ i, a i < 0 := by
  unfold getMoments at h
  rw [show mdiv g d = .ok (g / d) from if_neg hd.ne] at h
  dsimp only at h
  by_cases hw : 80 < g / d
  · rw [if_pos hw] at h; cases h
  · rw [if_neg hw, if_pos (by linarith : d < 3)] at h
    unfold outer at h
    rw [if_pos ⟨0, by norm_num⟩] at h
    cases ho : outerBody (g / d) (exp (g / d) + 1) (√2 / d) true ⟨fun _ => 1, fun _ => 0, fun _ => 0, 0.25 * d * 2⟩ with
    | error e => rw [ho] at h; cases h
    | ok s =>
      rw [ho] at h
      dsimp only at h
      have hneg : ∀ i, s.a i < 0 := by
        unfold outerBody at ho
        dsimp only at ho
        cases hi : inner (2 * (0.25 * d * 2 * 0.5) ^ 2) (√2 / d * (0.25 * d * 2 * 0.5)) 500 (innerStart (g / d) (exp (g / d) + 1) (0.25 * d * 2 * 0.5) fun _ => 0) with
        | error e => rw [hi] at ho; cases ho
        | ok i =>
          rw [hi] at ho
          obtain rfl := Except.ok.inj ho
          intro j
          obtain ⟨N, -, -, hN, -⟩ := inner_spec (innerStart_spec g d (0.25 * d * 2 * 0.5) fun _ => 0) hi
          dsimp only
          rw [hN.a]
          have hp := nodes_pos g d (0.25 * d * 2 * 0.5) N (j.val + 1)
          have hs : 0 < 1 / √π := by have := sqrt_pos.2 pi_pos; positivity
          refine mul_neg_of_pos_of_neg hp (mul_neg_of_pos_of_neg hs ?_)
          norm_num
          linarith
      have hap : ¬Apart 1e-5 s.a s.c := by
        rintro ⟨i, hi⟩
        have := div_nonpos_of_nonneg_of_nonpos (abs_nonneg (s.a i - s.c i)) (hneg i).le
        norm_num at hi
        linarith
      unfold outer at h
      rw [if_neg hap] at h
      obtain rfl := Except.ok.inj h
      exact hneg

/-- **C138, no negative `delta`.** Whatever the targets, a pass of `sb_fit` with a `delta` that is not positive raises an exception: `get_moments` raises one or returns negative values, whose variance is negative. -/
theorem C138_nonpositive (r beta2 g d : ℝ) (hd : d ≤ 0) : ∃ e, sbStep getMoments r beta2 g d = .error e := by
  unfold sbStep
  cases h : getMoments g d with
  | error e => exact ⟨e, rfl⟩
  | ok a =>
    rcases hd.lt_or_eq with hd | rfl
    · have hn := negative_run hd h
      dsimp only
      rw [if_pos (by unfold central2; nlinarith [hn 1, sq_nonneg (a 0)])]
      exact ⟨_, rfl⟩
    · unfold getMoments at h
      rw [show mdiv g 0 = .error .zeroDivisionError from if_pos rfl] at h
      cases h

example := C138_nonpositive 1 5 1 (-2) (by norm_num)

/-- The failures: `delta` zero, or a quotient above 80, or no end. -/
theorem C138_failures {g d : ℝ} (hd : 0 < d) {e : PyErr} (h : getMoments g d = .error e) : (e = .valueError ∧ 80 < g / d) ∨ (e = .stopIteration ∧ g / d ≤ 80) := by
  unfold getMoments at h
  rw [show mdiv g d = .ok (g / d) from if_neg hd.ne'] at h
  dsimp only at h
  by_cases hw : 80 < g / d
  · rw [if_pos hw] at h
    exact .inl ⟨(Except.error.inj h).symm, hw⟩
  · rw [if_neg hw] at h
    refine .inr ⟨?_, not_lt.1 hw⟩
    have key : ∀ (n : ℕ) (first : Bool) (s : Outer), outer (g / d) (exp (g / d) + 1) (√2 / d) n first s = .error e → e = .stopIteration := by
      intro n
      induction n with
      | zero =>
        intro first s ho
        unfold outer at ho
        split_ifs at ho
        exact (Except.error.inj ho).symm
      | succ n ih =>
        intro first s ho
        unfold outer at ho
        split_ifs at ho with hc
        cases hb : outerBody (g / d) (exp (g / d) + 1) (√2 / d) first s with
        | ok s' => rw [hb] at ho; exact ih _ _ ho
        | error e' =>
          rw [hb] at ho
          obtain rfl := Except.error.inj ho
          unfold outerBody at hb
          cases hi : inner (2 * (s.h * 0.5) ^ 2) (√2 / d * (s.h * 0.5)) 500 (innerStart (g / d) (exp (g / d) + 1) (s.h * 0.5) s.b) with
          | ok s' => rw [hi] at hb; cases hb
          | error e'' =>
            rw [hi] at hb
            obtain rfl := Except.error.inj hb
            exact inner_error (innerStart_spec g d (s.h * 0.5) s.b) hi
    cases ho : outer (g / d) (exp (g / d) + 1) (√2 / d) 500 true ⟨fun _ => 1, fun _ => 0, fun _ => 0, (if d < 3 then 0.25 * d else 0.75) * 2⟩ with
    | error e' =>
      rw [ho] at h
      obtain rfl := Except.error.inj h
      exact key _ _ _ ho
    | ok s => rw [ho] at h; cases h

/-- A failure. -/
example : (0 : ℝ) < 1 ∧ getMoments 81 1 = .error .valueError := by
  refine ⟨by norm_num, ?_⟩
  unfold getMoments
  rw [show mdiv (81 : ℝ) 1 = .ok (81 / 1) from if_neg (by norm_num)]
  dsimp only
  rw [if_pos (by norm_num)]

/-! ## The points left out -/

/-- All points up to `N` on both sides. -/
noncomputable def allNodes (g d h : ℝ) (N i : ℕ) : ℝ := node g d h i 0 + ∑ n ∈ range N, (node g d h i ((n : ℤ) + 1) + node g d h i (-((n : ℤ) + 1)))

/-- **C138, the points left out, for `gamma / delta ≤ 5`.** The points left out on the left make less than 1e-8 of every moment. -/
theorem C138_left_out_partial {g d h : ℝ} (hd : 0 < d) (hh : 0 < h) (hw : g / d ≤ 5) (N : ℕ) (i : ℕ) : allNodes g d h N (i + 1) - nodes g d h N (i + 1) ≤ 1e-8 * nodes g d h N (i + 1) := by
  have hc : (exp 5 + 1) * exp (-23.7) ≤ 1e-8 := by
    have h1 : (2.7182818 : ℝ) ≤ exp 1 := by linarith [exp_one_gt_d9]
    have h18 : (2.7182818 : ℝ) ^ 18 ≤ exp 18 := by
      have := pow_le_pow_left₀ (by norm_num) h1 18
      rwa [← exp_nat_mul, show ((18 : ℕ) : ℝ) * 1 = 18 by norm_num] at this
    have h35 : 1.41 ≤ exp (0.35 : ℝ) := by
      have := quadratic_le_exp_of_nonneg (x := (0.35 : ℝ)) (by norm_num)
      norm_num at this ⊢
      linarith
    have h7 : (1.41 : ℝ) ^ 2 ≤ exp 0.7 := by
      have := pow_le_pow_left₀ (by norm_num) h35 2
      rwa [← exp_nat_mul, show ((2 : ℕ) : ℝ) * 0.35 = 0.7 by norm_num] at this
    have h187 : (1.3e8 : ℝ) ≤ exp 18.7 := by
      have e : exp (18.7 : ℝ) = exp 18 * exp 0.7 := by rw [← exp_add]; norm_num
      rw [e]
      exact le_trans (by norm_num) (mul_le_mul h18 h7 (by norm_num) (exp_pos _).le)
    have h5 : (1 : ℝ) ≤ 0.2 * exp 5 := by
      have := add_one_le_exp (5 : ℝ)
      norm_num at this ⊢
      linarith
    have e : exp (-23.7 : ℝ) = (exp 5 * exp 18.7)⁻¹ := by rw [← exp_add, ← exp_neg]; norm_num
    rw [e, ← div_eq_mul_inv, div_le_iff₀ (by positivity)]
    have := exp_pos (5 : ℝ)
    nlinarith
  have key : ∀ n : ℕ, 23.7 < (g + √2 * (((n : ℝ) + 1) * h)) / d → node g d h (i + 1) (-((n : ℤ) + 1)) ≤ 1e-8 * node g d h (i + 1) ((n : ℤ) + 1) := by
    intro n hn
    rw [node_eq, node_eq]
    push_cast
    rw [neg_sq]
    have hf : 0 < ((n : ℝ) + 1) * (√2 / d * h) := by positivity
    have e1 : g / d - -((n : ℝ) + 1) * (√2 / d * h) = (g + √2 * (((n : ℝ) + 1) * h)) / d := by ring
    rw [e1]
    generalize (g + √2 * (((n : ℝ) + 1) * h)) / d = t at *
    have h1 : exp (g / d - ((n : ℝ) + 1) * (√2 / d * h)) + 1 ≤ exp 5 + 1 := by
      have := exp_le_exp.2 (by linarith : g / d - ((n : ℝ) + 1) * (√2 / d * h) ≤ 5)
      linarith
    have hX : 0 < exp (g / d - ((n : ℝ) + 1) * (√2 / d * h)) + 1 := by positivity
    generalize exp (g / d - ((n : ℝ) + 1) * (√2 / d * h)) + 1 = X at *
    have h2 : (exp t + 1)⁻¹ ≤ 1e-8 * X⁻¹ := by
      have h3 : exp 23.7 ≤ exp t + 1 := by have := exp_le_exp.2 hn.le; linarith
      have h4 : (exp t + 1)⁻¹ ≤ exp (-23.7) := by rw [exp_neg]; exact inv_anti₀ (exp_pos _) h3
      have h5 : X * exp (-23.7) ≤ 1e-8 := (mul_le_mul_of_nonneg_right h1 (exp_pos _).le).trans hc
      rw [← div_eq_mul_inv, le_div_iff₀ hX]
      nlinarith
    have h6 : ((exp t + 1)⁻¹) ^ (i + 1) ≤ 1e-8 * (X⁻¹) ^ (i + 1) := by
      refine (pow_le_pow_left₀ (by positivity) h2 (i + 1)).trans ?_
      rw [mul_pow]
      refine mul_le_mul_of_nonneg_right ?_ (by positivity)
      exact pow_le_of_le_one (by norm_num) (by norm_num) (by omega)
    rw [div_eq_mul_inv, div_eq_mul_inv, ← inv_pow, ← inv_pow, mul_left_comm]
    exact mul_le_mul_of_nonneg_left h6 (exp_pos _).le
  unfold allNodes nodes
  have h0 := node_pos g d h (i + 1) 0
  rw [add_sub_add_left_eq_sub, ← sum_sub_distrib, mul_add, mul_sum]
  refine le_trans (sum_le_sum fun n _ => ?_) (le_add_of_nonneg_left (by norm_num; linarith))
  have hp1 := node_pos g d h (i + 1) ((n : ℤ) + 1)
  have hp2 := node_pos g d h (i + 1) (-((n : ℤ) + 1))
  split_ifs with hn
  · have := key n hn
    rw [add_zero, add_sub_cancel_left]
    exact this
  · rw [sub_self]
    generalize node g d h (i + 1) (-((n : ℤ) + 1)) = A at *
    generalize node g d h (i + 1) ((n : ℤ) + 1) = B at *
    norm_num
    linarith

/-- There are such points: for `gamma = 4`, `delta = 1` and the distance 1/8 the point -119 h is left out. -/
example : (0 : ℝ) < 1 ∧ (0 : ℝ) < 1 / 8 ∧ (4 : ℝ) / 1 ≤ 5 ∧ 23.7 < ((4 : ℝ) + √2 * ((118 + 1) * (1 / 8))) / 1 := by
  refine ⟨by norm_num, by norm_num, by norm_num, ?_⟩
  have : 1.4 ≤ √2 := by rw [le_sqrt' (by norm_num)]; norm_num
  norm_num at this ⊢
  linarith

/-- **C138 is not true for `gamma / delta > 23.7`.** Then all points on the left are left out: for `delta ≥ 3` and every distance up to 3/8 the sum returned for the mean misses more than 2 % of the sum over both sides, although the
sums are compared to 1e-5. -/
theorem C138_left_out_wrong {g d h : ℝ} (hd : 3 ≤ d) (hh : 0 < h) (hle : h ≤ 3 / 8) (hw : 23.7 < g / d) {N : ℕ} (hN : 1 ≤ N) : 1.02 * nodes g d h N 1 ≤ allNodes g d h N 1 := by
  have hd0 : 0 < d := by linarith
  have hs2 : √2 ≤ 1.42 := by rw [sqrt_le_left (by norm_num)]; norm_num
  have hs0 : 0 ≤ √2 := sqrt_nonneg 2
  set R : ℕ → ℝ := fun n => node g d h 1 ((n : ℤ) + 1) with hR
  set L : ℕ → ℝ := fun n => node g d h 1 (-((n : ℤ) + 1)) with hL
  have hRp : ∀ n, 0 < R n := fun n => node_pos _ _ _ _ _
  have hLp : ∀ n, 0 < L n := fun n => node_pos _ _ _ _ _
  have hnodes : nodes g d h N 1 = node g d h 1 0 + ∑ n ∈ range N, R n := by
    unfold nodes
    congr 1
    refine sum_congr rfl fun n _ => ?_
    have : 0 ≤ √2 * (((n : ℝ) + 1) * h) / d := by positivity
    rw [if_pos (by rw [add_div]; linarith), add_zero]
  have hall : allNodes g d h N 1 = node g d h 1 0 + ∑ n ∈ range N, R n + ∑ n ∈ range N, L n := by
    unfold allNodes
    rw [sum_add_distrib]
    ring
  rw [hnodes, hall]
  -- the variable at two points
  have hY : ∀ x y : ℝ, x ≤ y → boundedY g d y ≤ exp ((y - x) / d) * boundedY g d x := by
    intro x y hxy
    unfold boundedY
    rw [mul_one_div, div_le_div_iff₀ (by positivity) (by positivity), one_mul, mul_add, mul_one, ← exp_add]
    have e : (y - x) / d + -((y - g) / d) = -((x - g) / d) := by ring
    rw [e]
    have : 1 ≤ exp ((y - x) / d) := one_le_exp (div_nonneg (by linarith) hd0.le)
    linarith
  -- the middle point
  have hmid : node g d h 1 0 ≤ 1.2 * R 0 := by
    simp only [hR]
    unfold node
    push_cast
    rw [pow_one, pow_one]
    norm_num only [zero_mul, mul_zero, neg_zero, zero_add, one_mul, zero_pow, ne_eq, exp_zero]
    have h1 : boundedY g d 0 ≤ boundedY g d (√2 * h) := by
      unfold boundedY
      refine one_div_le_one_div_of_le (by positivity) ?_
      have : exp (-((√2 * h - g) / d)) ≤ exp (-((0 - g) / d)) := exp_le_exp.2 (neg_le_neg (div_le_div_of_nonneg_right (by nlinarith) hd0.le))
      linarith
    have h2 : 0.85 ≤ exp (-h ^ 2) := by
      have := add_one_le_exp (-h ^ 2)
      nlinarith
    have hp := boundedY_pos g d (√2 * h)
    norm_num at h2 ⊢
    nlinarith
  -- left and right near the middle
  have hnear : ∀ n : ℕ, ((n : ℝ) + 1) * h ≤ 1 → 0.38 * R n ≤ L n := by
    intro n hn
    have h1 := hY (√2 * (-((n : ℝ) + 1) * h)) (√2 * (((n : ℝ) + 1) * h)) (by nlinarith [mul_nonneg hs0 (by positivity : 0 ≤ ((n : ℝ) + 1) * h)])
    have h2 : exp ((√2 * (((n : ℝ) + 1) * h) - √2 * (-((n : ℝ) + 1) * h)) / d) ≤ exp 0.95 := by
      refine exp_le_exp.2 ?_
      rw [div_le_iff₀ hd0]
      have : √2 * (((n : ℝ) + 1) * h) ≤ 1.42 * 1 := mul_le_mul hs2 hn (by positivity) (by norm_num)
      linarith
    have h3 : exp (0.95 : ℝ) ≤ 1 / 0.38 := by
      have h4 : exp (0.95 : ℝ) * exp 0.05 = exp 1 := by rw [← exp_add]; norm_num
      have h5 := add_one_le_exp (0.05 : ℝ)
      have h6 := exp_one_lt_d9
      have h7 := exp_pos (0.95 : ℝ)
      norm_num at h4 h5 h6 h7 ⊢
      nlinarith
    simp only [hR, hL]
    unfold node
    push_cast
    rw [pow_one, pow_one, show -(-((n : ℝ) + 1) * h) ^ 2 = -(((n : ℝ) + 1) * h) ^ 2 by ring]
    have hp := boundedY_pos g d (√2 * (-((n : ℝ) + 1) * h))
    have h8 : boundedY g d (√2 * (((n : ℝ) + 1) * h)) ≤ 1 / 0.38 * boundedY g d (√2 * (-((n : ℝ) + 1) * h)) := h1.trans (mul_le_mul_of_nonneg_right (h2.trans h3) hp.le)
    rw [mul_left_comm]
    refine mul_le_mul_of_nonneg_left ?_ (exp_pos _).le
    norm_num at h8 ⊢
    linarith
  -- the number of points up to one
  obtain ⟨m, hm1, hm2⟩ : ∃ m : ℕ, (m : ℝ) * h ≤ 1 ∧ 1 < ((m : ℝ) + 1) * h := by
    refine ⟨⌊1 / h⌋₊, ?_, ?_⟩
    · exact (le_div_iff₀ hh).1 (Nat.floor_le (by positivity))
    · exact (div_lt_iff₀ hh).1 (Nat.lt_floor_add_one _)
  have hmh : 5 / 8 < (m : ℝ) * h := by linarith
  -- points further out
  have hfar : ∀ n : ℕ, R (n + m) ≤ 0.914 * R n := by
    intro n
    have hn0 : (0 : ℝ) ≤ n := n.cast_nonneg
    have h1 := hY (√2 * (((n : ℝ) + 1) * h)) (√2 * (((n : ℝ) + m + 1) * h)) (by nlinarith [mul_nonneg hs0 (by positivity : 0 ≤ (m : ℝ) * h)])
    have h2 : exp ((√2 * (((n : ℝ) + m + 1) * h) - √2 * (((n : ℝ) + 1) * h)) / d) ≤ exp (0.474 * (m * h)) := by
      refine exp_le_exp.2 ?_
      rw [div_le_iff₀ hd0, show √2 * (((n : ℝ) + m + 1) * h) - √2 * (((n : ℝ) + 1) * h) = √2 * (m * h) by ring]
      have : √2 * (m * h) ≤ 1.42 * (m * h) := mul_le_mul_of_nonneg_right hs2 (by positivity)
      nlinarith
    have h3 : -(((n : ℝ) + m + 1) * h) ^ 2 + 0.474 * (m * h) ≤ -(((n : ℝ) + 1) * h) ^ 2 + -0.0943 := by
      have e : (((n : ℝ) + m + 1) * h) ^ 2 = (((n : ℝ) + 1) * h) ^ 2 + 2 * ((((n : ℝ) + 1) * h) * (m * h)) + (m * h) ^ 2 := by ring
      rw [e]
      have : 0 ≤ (((n : ℝ) + 1) * h) * (m * h) := by positivity
      nlinarith
    have h4 : exp (-0.0943 : ℝ) ≤ 0.914 := by
      rw [exp_neg, inv_le_comm₀ (exp_pos _) (by norm_num)]
      have := add_one_le_exp (0.0943 : ℝ)
      norm_num at this ⊢
      linarith
    simp only [hR]
    unfold node
    push_cast
    rw [pow_one, pow_one]
    have hp := boundedY_pos g d (√2 * (((n : ℝ) + 1) * h))
    have h5 : boundedY g d (√2 * (((n : ℝ) + m + 1) * h)) ≤ exp (0.474 * (m * h)) * boundedY g d (√2 * (((n : ℝ) + 1) * h)) := h1.trans (mul_le_mul_of_nonneg_right h2 hp.le)
    refine (mul_le_mul_of_nonneg_left h5 (exp_pos _).le).trans ?_
    rw [← mul_assoc, ← exp_add, ← mul_assoc (0.914 : ℝ)]
    refine mul_le_mul_of_nonneg_right ?_ hp.le
    refine (exp_le_exp.2 h3).trans ?_
    rw [exp_add, mul_comm]
    exact mul_le_mul_of_nonneg_right h4 (exp_pos _).le
  have hm0 : 1 ≤ m := by
    rcases Nat.eq_zero_or_pos m with rfl | h
    · norm_num at hmh
    · exact h
  have hS : ∀ k : ℕ, ∑ n ∈ range k, R n ≤ 11.7 * ∑ n ∈ range (min m k), R n := by
    intro k
    induction k using Nat.strong_induction_on with
    | _ k ih =>
      rcases Nat.le_total k m with hk | hk
      · rw [min_eq_right hk]
        have : 0 ≤ ∑ n ∈ range k, R n := sum_nonneg fun n _ => (hRp n).le
        linarith
      · rw [min_eq_left hk]
        obtain ⟨j, rfl⟩ := Nat.exists_eq_add_of_le hk
        rw [sum_range_add]
        have h1 : ∑ n ∈ range j, R (m + n) ≤ 0.914 * ∑ n ∈ range j, R n := by
          rw [mul_sum]
          exact sum_le_sum fun n _ => by rw [add_comm]; exact hfar n
        have h2 := ih j (by omega)
        have h3 : ∑ n ∈ range (min m j), R n ≤ ∑ n ∈ range m, R n :=
          sum_le_sum_of_subset_of_nonneg (range_subset_range.2 (min_le_left _ _)) fun n _ _ => (hRp n).le
        have h4 : 0 ≤ ∑ n ∈ range m, R n := sum_nonneg fun n _ => (hRp n).le
        norm_num at h1 h2 ⊢
        linarith
  have h1 := hS N
  have h2 : 0.38 * ∑ n ∈ range (min m N), R n ≤ ∑ n ∈ range (min m N), L n := by
    rw [mul_sum]
    refine sum_le_sum fun n hn => hnear n ?_
    have hn' : n + 1 ≤ m := by have := mem_range.1 hn; omega
    have : (n : ℝ) + 1 ≤ m := by exact_mod_cast hn'
    nlinarith
  have h3 : ∑ n ∈ range (min m N), L n ≤ ∑ n ∈ range N, L n :=
    sum_le_sum_of_subset_of_nonneg (range_subset_range.2 (min_le_right _ _)) fun n _ _ => (hLp n).le
  have h4 : R 0 ≤ ∑ n ∈ range (min m N), R n := single_le_sum (f := R) (fun n _ => (hRp n).le) (mem_range.2 (by omega))
  have h5 := hRp 0
  norm_num at h1 h2 hmid ⊢
  linarith

/-- Such arguments are accepted. -/
example : (3 : ℝ) ≤ 3 ∧ (23.7 : ℝ) < 90 / 3 ∧ (90 : ℝ) / 3 ≤ 80 ∧ firstDistance 3 / 2 ^ 1 ≤ 3 / 8 := by
  refine ⟨le_rfl, by norm_num, by norm_num, ?_⟩
  unfold firstDistance
  norm_num

end Verif.Johnson
