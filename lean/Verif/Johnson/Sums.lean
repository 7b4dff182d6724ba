import Mathlib.Algebra.BigOperators.Field
import Mathlib.Analysis.Complex.ExponentialBounds
import Verif.Johnson.BoundedFit

/-!
# C138: what `get_moments` computes
-/

namespace Verif.Johnson

open Real Finset

/-! ## Spec: a sum over equidistant points -/

/-- The value of the integrand at the point `n h`: the `i`th moment is the integral of this over all `x`, divided by the root of pi. -/
noncomputable def node (g d h : ℝ) (i : ℕ) (n : ℤ) : ℝ := exp (-(n * h) ^ 2) * boundedY g d (√2 * (n * h)) ^ i

/-- The points up to `N` on both sides; on the left only those at which the variable is above `exp(-23.7)`. -/
noncomputable def nodes (g d h : ℝ) (N : ℕ) (i : ℕ) : ℝ :=
  node g d h i 0 + ∑ n ∈ range N, (node g d h i ((n : ℤ) + 1) + if 23.7 < (g + √2 * ((n + 1) * h)) / d then 0 else node g d h i (-((n : ℤ) + 1)))

theorem node_pos (g d h : ℝ) (i : ℕ) (n : ℤ) : 0 < node g d h i n := mul_pos (exp_pos _) (pow_pos (boundedY_pos _ _ _) _)

theorem nodes_succ (g d h : ℝ) (N i : ℕ) : nodes g d h (N + 1) i =
    nodes g d h N i + (node g d h i ((N : ℤ) + 1) + if 23.7 < (g + √2 * ((N + 1) * h)) / d then 0 else node g d h i (-((N : ℤ) + 1))) := by
  unfold nodes
  rw [sum_range_succ]
  ring

theorem nodes_step (g d h : ℝ) (N i : ℕ) : nodes g d h N i + node g d h i ((N : ℤ) + 1) ≤ nodes g d h (N + 1) i := by
  rw [nodes_succ]
  split_ifs
  · linarith
  · linarith [node_pos g d h i (-((N : ℤ) + 1))]

theorem nodes_mono (g d h : ℝ) (i : ℕ) {M N : ℕ} (hMN : M ≤ N) : nodes g d h M i ≤ nodes g d h N i := by
  induction N, hMN using Nat.le_induction with
  | base => exact le_rfl
  | succ n _ ih => linarith [nodes_step g d h n i, node_pos g d h i ((n : ℤ) + 1)]

theorem nodes_pos (g d h : ℝ) (N i : ℕ) : 0 < nodes g d h N i := by
  have : nodes g d h 0 i = node g d h i 0 := by simp [nodes]
  exact lt_of_lt_of_le (by rw [this]; exact node_pos _ _ _ _ _) (nodes_mono g d h i (Nat.zero_le N))

theorem nodes_lt (g d h : ℝ) (N i : ℕ) : nodes g d h N (i + 1) < nodes g d h N i := by
  have hn : ∀ n, node g d h (i + 1) n < node g d h i n := fun n =>
    mul_lt_mul_of_pos_left (pow_lt_pow_right_of_lt_one₀ (boundedY_pos _ _ _) (boundedY_lt _ _ _) (Nat.lt_succ_self i)) (exp_pos _)
  unfold nodes
  refine add_lt_add_of_lt_of_le (hn 0) (sum_le_sum fun n _ => ?_)
  refine add_le_add (hn _).le ?_
  split_ifs
  · exact le_rfl
  · exact (hn _).le

/-- The code's terms. -/
theorem node_eq (g d h : ℝ) (i : ℕ) (n : ℤ) : node g d h i n = exp (-((n : ℝ) ^ 2 * h ^ 2)) / (exp (g / d - n * (√2 / d * h)) + 1) ^ i := by
  unfold node boundedY
  rw [show -((√2 * (n * h) - g) / d) = g / d - n * (√2 / d * h) by ring, div_pow, one_pow, mul_one_div, add_comm (1 : ℝ), mul_pow]

/-! ## The inner loop -/

/-- The variables after `n` passes. -/
structure AfterPasses (g d h : ℝ) (n : ℕ) (s : Inner) : Prop where
  a : ∀ i : Fin 6, s.a i = nodes g d h n (i.val + 1)
  u : s.u = g / d - n * (√2 / d * h)
  t : s.t = g / d + n * (√2 / d * h)
  y : s.y = (2 * n + 1) * h ^ 2
  v : s.v = (n + 1) ^ 2 * h ^ 2

theorem innerBody_spec {g d h : ℝ} {n : ℕ} {s : Inner} (hs : AfterPasses g d h n s) : AfterPasses g d h (n + 1) (innerBody (2 * h ^ 2) (√2 / d * h) s) ∧ (innerBody (2 * h ^ 2) (√2 / d * h) s).b = s.a := by
  obtain ⟨ha, hu, ht, hy, hv⟩ := hs
  refine ⟨⟨fun i => ?_, ?_, ?_, ?_, ?_⟩, rfl⟩
  · rw [nodes_succ, node_eq, node_eq, ← ha]
    unfold innerBody
    dsimp only
    rw [hu, ht, hv]
    push_cast
    have e1 : (g + √2 * (((n : ℝ) + 1) * h)) / d = g / d + n * (√2 / d * h) + √2 / d * h := by ring
    have e2 : g / d - ((n : ℝ) + 1) * (√2 / d * h) = g / d - n * (√2 / d * h) - √2 / d * h := by ring
    have e3 : g / d - -((n : ℝ) + 1) * (√2 / d * h) = g / d + n * (√2 / d * h) + √2 / d * h := by ring
    rw [e1, e2, e3, neg_sq]
    split_ifs
    · ring
    · ring
  · unfold innerBody; dsimp only; rw [hu]; push_cast; ring
  · unfold innerBody; dsimp only; rw [ht]; push_cast; ring
  · unfold innerBody; dsimp only; rw [hy]; push_cast; ring
  · unfold innerBody; dsimp only; rw [hv, hy]; push_cast; ring

theorem inner_spec {g d h : ℝ} : ∀ {m n : ℕ} {s s' : Inner}, AfterPasses g d h n s → inner (2 * h ^ 2) (√2 / d * h) m s = .ok s' →
    ∃ N, n ≤ N ∧ N ≤ n + m ∧ AfterPasses g d h N s' ∧ ¬Apart 1e-8 s'.a s'.b ∧ (n = N → s' = s) ∧ (n < N → ∀ i : Fin 6, s'.b i = nodes g d h (N - 1) (i.val + 1))
  | 0, n, s, s', hs, h => by
    unfold inner at h
    split_ifs at h with hc
    obtain rfl := Except.ok.inj h
    exact ⟨n, le_rfl, le_rfl, hs, hc, fun _ => rfl, fun hlt => absurd hlt (lt_irrefl _)⟩
  | m + 1, n, s, s', hs, h => by
    unfold inner at h
    split_ifs at h with hc hz
    · obtain ⟨hb, hb'⟩ := innerBody_spec hs
      obtain ⟨N, hN, hN', h1, h2, h3, h4⟩ := inner_spec hb h
      refine ⟨N, by omega, by omega, h1, h2, fun e => by omega, fun _ => ?_⟩
      rcases Nat.lt_or_ge (n + 1) N with hlt | hge
      · exact h4 hlt
      · have hNe : n + 1 = N := by omega
        rw [h3 hNe, hb', ← hNe]
        exact hs.a
    · obtain rfl := Except.ok.inj h
      exact ⟨n, le_rfl, by omega, hs, hc, fun _ => rfl, fun hlt => absurd hlt (lt_irrefl _)⟩

theorem inner_error {g d h : ℝ} : ∀ {m n : ℕ} {s : Inner} {e : PyErr}, AfterPasses g d h n s → inner (2 * h ^ 2) (√2 / d * h) m s = .error e → e = .stopIteration
  | 0, n, s, e, hs, h => by
    unfold inner at h
    split_ifs at h
    exact (Except.error.inj h).symm
  | m + 1, n, s, e, hs, h => by
    unfold inner at h
    obtain ⟨hb, -⟩ := innerBody_spec hs
    split_ifs at h with hc hz
    · obtain ⟨i, hi⟩ := hz
      rw [hb.a] at hi
      exact absurd hi (nodes_pos _ _ _ _ _).ne'
    · exact inner_error hb h

theorem innerStart_spec (g d h : ℝ) (b : Six) : AfterPasses g d h 0 (innerStart (g / d) (exp (g / d) + 1) h b) := by
  refine ⟨fun i => ?_, ?_, ?_, ?_, ?_⟩
  · unfold innerStart nodes
    dsimp only
    rw [range_zero, sum_empty, add_zero, node_eq]
    norm_num
  all_goals unfold innerStart; dsimp only; push_cast; ring

/-- The value of `b` that a pass of the outer loop leaves: none yet, or a sum of at least the middle and the next point. -/
def GoodB (w : ℝ) (b : Six) : Prop := b = (fun _ => 0) ∨ 1.4 / (exp w + 1) ≤ b 0

theorem node_one {g d h : ℝ} (hd : 0 < d) (hh : 0 < h) (hle : h ≤ 3 / 4) : 0.4 / (exp (g / d) + 1) ≤ node g d h 1 (((0 : ℕ) : ℤ) + 1) := by
  rw [node_eq]
  have h1 : (0.4 : ℝ) ≤ exp (-h ^ 2) := by
    have := add_one_le_exp (-h ^ 2)
    nlinarith
  have hf : 0 < √2 / d * h := by positivity
  have h2 : exp (g / d - √2 / d * h) ≤ exp (g / d) := exp_le_exp.2 (by linarith)
  norm_num only [Nat.cast_zero, zero_add, Int.cast_one, one_pow, one_mul, pow_one]
  norm_num at h1 ⊢
  exact div_le_div₀ (by positivity) h1 (by positivity) (by linarith)

/-- A pass of the outer loop makes at least two passes of the inner loop, whatever values were left from before. -/
theorem outerBody_spec {g d : ℝ} (hd : 0 < d) {first : Bool} {s s' : Outer} (hb : GoodB (g / d) s.b) (hh : 0 < s.h) (hle : s.h ≤ 3 / 2)
    (h : outerBody (g / d) (exp (g / d) + 1) (√2 / d) first s = .ok s') :
    s'.h = s.h / 2 ∧ (s'.c = if first then s.c else s.a) ∧ GoodB (g / d) s'.b ∧ ∃ N, 2 ≤ N ∧ N ≤ 500 ∧ (∀ i : Fin 6, s'.a i = s'.h / √π * nodes g d s'.h N (i.val + 1)) ∧
      ∀ i : Fin 6, nodes g d s'.h N (i.val + 1) - nodes g d s'.h (N - 1) (i.val + 1) ≤ 1e-8 * nodes g d s'.h N (i.val + 1) := by
  unfold outerBody at h
  cases hi : inner (2 * (s.h * 0.5) ^ 2) (√2 / d * (s.h * 0.5)) 500 (innerStart (g / d) (exp (g / d) + 1) (s.h * 0.5) s.b) with
  | error e => rw [hi] at h; cases h
  | ok i =>
    rw [hi] at h
    obtain rfl := Except.ok.inj h
    dsimp only
    have hstart := innerStart_spec g d (s.h * 0.5) s.b
    obtain ⟨N, -, hN500, hN, hap, h0, h1⟩ := inner_spec hstart hi
    generalize hH : s.h * 0.5 = H at *
    have hHpos : 0 < H := by rw [← hH]; positivity
    have hHle : H ≤ 3 / 4 := by rw [← hH]; linarith
    have hn0 : nodes g d H 0 1 = 1 / (exp (g / d) + 1) := by
      have := hstart.a 0
      unfold innerStart at this
      simpa using this.symm
    have hE : 0 < 1 / (exp (g / d) + 1) := by positivity
    have hone := node_one (g := g) hd hHpos hHle
    have hs1 := nodes_step g d H 0 1
    rw [hn0] at hs1
    have h14 : 1.4 / (exp (g / d) + 1) ≤ nodes g d H 1 1 := by
      have e : (1.4 : ℝ) / (exp (g / d) + 1) = 1 / (exp (g / d) + 1) + 0.4 / (exp (g / d) + 1) := by ring
      rw [e]
      linarith
    have hE14 : (1.4 : ℝ) / (exp (g / d) + 1) = 1.4 * (1 / (exp (g / d) + 1)) := by ring
    rw [hE14] at h14
    have hN0 : N ≠ 0 := by
      rintro rfl
      have := h0 rfl
      subst this
      refine hap ⟨0, ?_⟩
      have ha0 : (innerStart (g / d) (exp (g / d) + 1) H s.b).a 0 = 1 / (exp (g / d) + 1) := by rw [hstart.a]; exact hn0
      have hbv : (innerStart (g / d) (exp (g / d) + 1) H s.b).b = s.b := rfl
      rw [ha0, hbv, lt_div_iff₀ hE]
      generalize 1 / (exp (g / d) + 1) = E at *
      rcases hb with hb | hb
      · rw [hb]
        dsimp only
        rw [sub_zero, abs_of_pos hE]
        linarith
      · rw [hE14] at hb
        rw [abs_of_nonpos (by linarith)]
        linarith
    have hb' := h1 (Nat.pos_of_ne_zero hN0)
    have hN1 : N ≠ 1 := by
      rintro rfl
      refine hap ⟨0, ?_⟩
      rw [hN.a, hb']
      show 1e-8 < |nodes g d H 1 1 - nodes g d H 0 1| / nodes g d H 1 1
      rw [hn0, abs_of_nonneg (by linarith), lt_div_iff₀ (nodes_pos _ _ _ _ _)]
      linarith
    refine ⟨by rw [← hH]; norm_num; ring, rfl,   .inr ?_, N, by omega, by omega, fun j => ?_, fun j => ?_⟩
    · rw [hb', hE14]
      exact h14.trans (nodes_mono g d H 1 (by omega))
    · rw [hN.a]
      ring
    · by_contra hcon
      refine hap ⟨j, ?_⟩
      rw [hN.a, hb', lt_div_iff₀ (nodes_pos _ _ _ _ _)]
      exact lt_of_lt_of_le (not_le.1 hcon) (le_abs_self _)

/-- What a pass of the outer loop leaves in `a`: the sum for some distance of the points. -/
def IsSum (g d h : ℝ) (a : Six) : Prop := ∃ N, 2 ≤ N ∧ N ≤ 500 ∧ (∀ i : Fin 6, a i = h / √π * nodes g d h N (i.val + 1)) ∧
  ∀ i : Fin 6, nodes g d h N (i.val + 1) - nodes g d h (N - 1) (i.val + 1) ≤ 1e-8 * nodes g d h N (i.val + 1)

theorem IsSum.pos {g d h : ℝ} {a : Six} (hh : 0 < h) (H : IsSum g d h a) (i : Fin 6) : 0 < a i := by
  obtain ⟨N, -, -, ha, -⟩ := H
  rw [ha]
  have := nodes_pos g d h N (i.val + 1)
  have := sqrt_pos.2 pi_pos
  positivity

/-- The outer loop, after its first pass. -/
theorem outer_spec {g d : ℝ} (hd : 0 < d) : ∀ {n k : ℕ} {s s' : Outer} {h0 : ℝ}, 0 < h0 → h0 ≤ 3 / 4 → GoodB (g / d) s.b → s.h = h0 / 2 ^ k → IsSum g d s.h s.a →
    ((k = 0 ∧ s.c = fun _ => 0) ∨ (1 ≤ k ∧ IsSum g d (2 * s.h) s.c)) → outer (g / d) (exp (g / d) + 1) (√2 / d) n false s = .ok s' →
    ∃ k', 1 ≤ k' ∧ s'.h = h0 / 2 ^ k' ∧ IsSum g d s'.h s'.a ∧ IsSum g d (2 * s'.h) s'.c ∧ ∀ i, |s'.a i - s'.c i| ≤ 1e-5 * s'.a i := by
  have stop : ∀ {k : ℕ} {s : Outer} {h0 : ℝ}, 0 < h0 → s.h = h0 / 2 ^ k → IsSum g d s.h s.a → ((k = 0 ∧ s.c = fun _ => 0) ∨ (1 ≤ k ∧ IsSum g d (2 * s.h) s.c)) → ¬Apart 1e-5 s.a s.c →
      ∃ k', 1 ≤ k' ∧ s.h = h0 / 2 ^ k' ∧ IsSum g d s.h s.a ∧ IsSum g d (2 * s.h) s.c ∧ ∀ i, |s.a i - s.c i| ≤ 1e-5 * s.a i := by
    intro k s h0 hh0 hh ha hc hap
    have hhp : 0 < s.h := by rw [hh]; positivity
    have hpos := ha.pos hhp
    rcases hc with ⟨rfl, hc⟩ | ⟨hk, hc⟩
    · exfalso
      refine hap ⟨0, ?_⟩
      rw [hc, sub_zero, abs_of_pos (hpos 0), div_self (hpos 0).ne']
      norm_num
    · refine ⟨k, hk, hh, ha, hc, fun i => ?_⟩
      by_contra hcon
      exact hap ⟨i, by rw [lt_div_iff₀ (hpos i)]; exact not_le.1 hcon⟩
  intro n
  induction n with
  | zero =>
    intro k s s' h0 hh0 hle hb hh ha hc h
    unfold outer at h
    split_ifs at h with hap
    obtain rfl := Except.ok.inj h
    exact stop hh0 hh ha hc hap
  | succ n ih =>
    intro k s s' h0 hh0 hle hb hh ha hc h
    unfold outer at h
    split_ifs at h with hap
    · cases ho : outerBody (g / d) (exp (g / d) + 1) (√2 / d) false s with
      | error e => rw [ho] at h; cases h
      | ok s1 =>
        rw [ho] at h
        dsimp only at h
        have hhp : 0 < s.h := by rw [hh]; positivity
        have hhle : s.h ≤ 3 / 4 := by
          rw [hh]
          exact (div_le_self hh0.le (one_le_pow₀ (by norm_num))).trans hle
        obtain ⟨e1, e2, e3, e4⟩ := outerBody_spec hd hb hhp (by linarith) ho
        refine ih (k := k + 1) hh0 hle e3 (by rw [e1, hh, pow_succ]; ring) e4 (.inr ⟨by omega, ?_⟩) h
        rw [e1, e2]
        simpa [mul_div_cancel₀] using ha
    · obtain rfl := Except.ok.inj h
      exact stop hh0 hh ha hc hap

/-- The first distance of the points, l.222-224. -/
noncomputable def firstDistance (d : ℝ) : ℝ := if d < 3 then d / 4 else 3 / 4

/-- **C138, the sum.** When `get_moments` returns for a positive `delta`, each moment is the sum over equidistant points, at least two and at most 500 on the right, of the integrand; the distance of the points is the first distance halved
at least once; the last point adds at most 1e-8 of the sum to each moment; and the sum with twice the distance differs by at most 1e-5 of it. -/
theorem C138_sum {g d : ℝ} (hd : 0 < d) {a : Six} (h : getMoments g d = .ok a) :
    g / d ≤ 80 ∧ ∃ k : ℕ, 1 ≤ k ∧ IsSum g d (firstDistance d / 2 ^ k) a ∧ ∃ c, IsSum g d (2 * (firstDistance d / 2 ^ k)) c ∧ ∀ i, |a i - c i| ≤ 1e-5 * a i := by
  have hF0 : 0 < firstDistance d := by unfold firstDistance; split_ifs <;> positivity
  have hF1 : firstDistance d ≤ 3 / 4 := by unfold firstDistance; split_ifs with h3 <;> linarith
  have h : g / d ≤ 80 ∧ (match outer (g / d) (exp (g / d) + 1) (√2 / d) 500 true ⟨fun _ => 1, fun _ => 0, fun _ => 0, 2 * firstDistance d⟩ with
      | .error err => .error err
      | .ok s => .ok s.a) = (.ok a : Except PyErr Six) := by
    unfold getMoments at h
    rw [show mdiv g d = .ok (g / d) from if_neg hd.ne'] at h
    dsimp only at h
    by_cases hw : 80 < g / d
    · rw [if_pos hw] at h; cases h
    · rw [if_neg hw] at h
      refine ⟨not_lt.1 hw, ?_⟩
      unfold firstDistance
      by_cases h3 : d < 3
      · rw [if_pos h3] at h ⊢
        rw [show 2 * (d / 4) = 0.25 * d * 2 by norm_num; ring]
        exact h
      · rw [if_neg h3] at h ⊢
        rw [show (2 : ℝ) * (3 / 4) = 0.75 * 2 by norm_num]
        exact h
  obtain ⟨hw, h⟩ := h
  refine ⟨hw, ?_⟩
  cases ho : outer (g / d) (exp (g / d) + 1) (√2 / d) 500 true ⟨fun _ => 1, fun _ => 0, fun _ => 0, 2 * firstDistance d⟩ with
  | error e => rw [ho] at h; cases h
  | ok s =>
    rw [ho] at h
    obtain rfl := Except.ok.inj h
    rw [show (500 : ℕ) = 499 + 1 from rfl, outer, if_pos ⟨0, by norm_num⟩] at ho
    cases hb : outerBody (g / d) (exp (g / d) + 1) (√2 / d) true ⟨fun _ => 1, fun _ => 0, fun _ => 0, 2 * firstDistance d⟩ with
    | error e => rw [hb] at ho; cases ho
    | ok s1 =>
      rw [hb] at ho
      dsimp only at ho
      obtain ⟨e1, e2, e3, e4⟩ := outerBody_spec hd (.inl rfl) (by dsimp only; linarith) (by dsimp only; linarith) hb
      dsimp only at e1
      rw [if_pos rfl] at e2
      have e1' : s1.h = firstDistance d := by rw [e1]; ring
      obtain ⟨k, hk, hk1, hk2, hk3, hk4⟩ := outer_spec hd (k := 0) hF0 hF1 e3 (by rw [e1']; norm_num) e4 (.inl ⟨rfl, e2⟩) ho
      rw [hk1] at hk2 hk3
      exact ⟨k, hk, hk2, s.c, hk3, hk4⟩

/-- **C138, order.** The moments returned are positive and strictly decreasing, as those of a variable between zero and one are. -/
theorem C138_order {g d : ℝ} (hd : 0 < d) {a : Six} (h : getMoments g d = .ok a) : (∀ i, 0 < a i) ∧ ∀ i j : Fin 6, i < j → a j < a i := by
  obtain ⟨-, k, hk, hs, -⟩ := C138_sum hd h
  have hF0 : 0 < firstDistance d := by unfold firstDistance; split_ifs <;> positivity
  have hh : 0 < firstDistance d / 2 ^ k := by positivity
  refine ⟨hs.pos hh, fun i j hij => ?_⟩
  obtain ⟨N, -, -, ha, -⟩ := hs
  rw [ha, ha]
  have hc : 0 < firstDistance d / 2 ^ k / √π := by have := sqrt_pos.2 pi_pos; positivity
  refine mul_lt_mul_of_pos_left ?_ hc
  have hmono : StrictAnti fun i => nodes g d (firstDistance d / 2 ^ k) N i := strictAnti_nat_of_succ_lt fun i => nodes_lt _ _ _ _ _
  exact hmono (Nat.succ_lt_succ hij)

/-! ## A run that ends -/

/-- What is known of a loop that has not ended. -/
theorem inner_not_ended {g d h : ℝ} : ∀ {m n : ℕ} {s : Inner} {e : PyErr}, AfterPasses g d h n s → inner (2 * h ^ 2) (√2 / d * h) (m + 1) s = .error e →
    ∃ i : Fin 6, 1e-8 * nodes g d h (n + m + 1) (i.val + 1) < nodes g d h (n + m + 1) (i.val + 1) - nodes g d h (n + m) (i.val + 1)
  | 0, n, s, e, hs, h => by
    unfold inner at h
    obtain ⟨hb, hb'⟩ := innerBody_spec hs
    split_ifs at h with hc hz
    · obtain ⟨i, hi⟩ := hz
      rw [hb.a] at hi
      exact absurd hi (nodes_pos _ _ _ _ _).ne'
    · unfold inner at h
      split_ifs at h with hap
      obtain ⟨i, hi⟩ := hap
      rw [hb.a, hb', hs.a, lt_div_iff₀ (nodes_pos _ _ _ _ _), abs_of_nonneg (sub_nonneg.2 (nodes_mono _ _ _ _ (Nat.le_succ n)))] at hi
      exact ⟨i, hi⟩
  | m + 1, n, s, e, hs, h => by
    unfold inner at h
    obtain ⟨hb, -⟩ := innerBody_spec hs
    split_ifs at h with hc hz
    · obtain ⟨i, hi⟩ := hz
      rw [hb.a] at hi
      exact absurd hi (nodes_pos _ _ _ _ _).ne'
    · obtain ⟨i, hi⟩ := inner_not_ended hb h
      refine ⟨i, ?_⟩
      rw [show n + (m + 1) + 1 = n + 1 + m + 1 by omega, show n + (m + 1) = n + 1 + m by omega]
      exact hi

theorem boundedY_half {d x : ℝ} (h : |x / d| ≤ 1) : |boundedY 0 d x - 1 / 2| ≤ |x / d| := by
  have h1 := abs_exp_sub_one_le (x := -(x / d)) (by rwa [abs_neg])
  rw [abs_neg] at h1
  unfold boundedY
  rw [sub_zero]
  have hE := exp_pos (-(x / d))
  generalize exp (-(x / d)) = E at *
  have e : 1 / (1 + E) - 1 / 2 = -((E - 1) / (2 * (1 + E))) := by field_simp; ring
  rw [e, abs_neg, abs_div, abs_of_pos (by positivity : 0 < 2 * (1 + E)), div_le_iff₀ (by positivity)]
  nlinarith [abs_nonneg (x / d)]

/-- The sum without the variable. -/
noncomputable def weights (h : ℝ) (N : ℕ) : ℝ := 1 + 2 * ∑ n ∈ range N, exp (-((n : ℝ) + 1) ^ 2 * h ^ 2)

/-- For nearly constant variables the sums are nearly multiples of the weights. -/
theorem nodes_near {d h : ℝ} (hd : 1e12 ≤ d) (hh : 0 < h) (hle : h ≤ 3 / 4) {N : ℕ} (hN : N ≤ 500) (i : ℕ) :
    (1 / 2 - 1e-9) ^ i * weights h N ≤ nodes 0 d h N i ∧ nodes 0 d h N i ≤ (1 / 2 + 1e-9) ^ i * weights h N := by
  have hs2 : √2 ≤ 1.5 := by rw [sqrt_le_left (by norm_num)]; norm_num
  have hs0 : 0 ≤ √2 := sqrt_nonneg 2
  have hY : ∀ n : ℤ, |(n : ℝ)| ≤ 500 → 1 / 2 - 1e-9 ≤ boundedY 0 d (√2 * (n * h)) ∧ boundedY 0 d (√2 * (n * h)) ≤ 1 / 2 + 1e-9 := by
    intro n hn
    have hx : |√2 * (n * h) / d| ≤ 1e-9 := by
      rw [abs_div, abs_mul, abs_mul, abs_of_nonneg hs0, abs_of_pos hh, abs_of_pos (by linarith : 0 < d), div_le_iff₀ (by linarith)]
      have h1 : |(n : ℝ)| * h ≤ 500 * (3 / 4) := mul_le_mul hn hle hh.le (by norm_num)
      have h2 : √2 * (|(n : ℝ)| * h) ≤ 1.5 * (500 * (3 / 4)) := mul_le_mul hs2 h1 (by positivity) (by norm_num)
      linarith
    have := (boundedY_half (d := d) (x := √2 * (n * h)) (hx.trans (by norm_num))).trans hx
    rw [abs_le] at this
    constructor <;> linarith
  have hnode : ∀ n : ℤ, |(n : ℝ)| ≤ 500 → (1 / 2 - 1e-9) ^ i * exp (-(n * h) ^ 2) ≤ node 0 d h i n ∧ node 0 d h i n ≤ (1 / 2 + 1e-9) ^ i * exp (-(n * h) ^ 2) := by
    intro n hn
    obtain ⟨h1, h2⟩ := hY n hn
    unfold node
    rw [mul_comm (exp _)]
    exact ⟨mul_le_mul_of_nonneg_right (pow_le_pow_left₀ (by norm_num) h1 i) (exp_pos _).le, mul_le_mul_of_nonneg_right (pow_le_pow_left₀ (boundedY_pos _ _ _).le h2 i) (exp_pos _).le⟩
  have hkept : ∀ n ∈ range N, ¬(23.7 < (0 + √2 * (((n : ℝ) + 1) * h)) / d) := by
    intro n hn hlt
    have hn' : (n : ℝ) + 1 ≤ 500 := by have := mem_range.1 hn; exact_mod_cast (by omega : n + 1 ≤ 500)
    rw [lt_div_iff₀ (by linarith), zero_add] at hlt
    have h1 : ((n : ℝ) + 1) * h ≤ 500 * (3 / 4) := mul_le_mul hn' hle hh.le (by norm_num)
    have h2 : √2 * (((n : ℝ) + 1) * h) ≤ 1.5 * (500 * (3 / 4)) := mul_le_mul hs2 h1 (by positivity) (by norm_num)
    linarith
  have hn0 := hnode 0 (by norm_num)
  have e0 : exp (-((0 : ℤ) * h) ^ 2) = 1 := by norm_num
  rw [e0] at hn0
  have hb : ∀ n ∈ range N, |(((n : ℤ) + 1 : ℤ) : ℝ)| ≤ 500 ∧ |((-((n : ℤ) + 1) : ℤ) : ℝ)| ≤ 500 := by
    intro n hn
    have hn' : (n : ℝ) + 1 ≤ 500 := by have := mem_range.1 hn; exact_mod_cast (by omega : n + 1 ≤ 500)
    push_cast
    rw [abs_neg, abs_of_nonneg (by positivity)]
    exact ⟨hn', hn'⟩
  have hw1 : ∀ n : ℕ, exp (-((((n : ℤ) + 1 : ℤ) : ℝ) * h) ^ 2) = exp (-((n : ℝ) + 1) ^ 2 * h ^ 2) := fun n => by congr 1; push_cast; ring
  have hw2 : ∀ n : ℕ, exp (-(((-((n : ℤ) + 1) : ℤ) : ℝ) * h) ^ 2) = exp (-((n : ℝ) + 1) ^ 2 * h ^ 2) := fun n => by congr 1; push_cast; ring
  unfold nodes weights
  constructor
  · rw [mul_add, mul_one, mul_sum, mul_sum]
    have hn0' : (1 / 2 - 1e-9 : ℝ) ^ i ≤ node 0 d h i 0 := by have := hn0.1; linarith
    refine add_le_add hn0' (sum_le_sum fun n hn => ?_)
    rw [if_neg (hkept n hn)]
    have h1 := (hnode _ (hb n hn).1).1
    have h2 := (hnode _ (hb n hn).2).1
    rw [hw1] at h1
    rw [hw2] at h2
    linarith
  · rw [mul_add, mul_one, mul_sum, mul_sum]
    have hn0' : node 0 d h i 0 ≤ (1 / 2 + 1e-9 : ℝ) ^ i := by have := hn0.2; linarith
    refine add_le_add hn0' (sum_le_sum fun n hn => ?_)
    rw [if_neg (hkept n hn)]
    have h1 := (hnode _ (hb n hn).1).2
    have h2 := (hnode _ (hb n hn).2).2
    rw [hw1] at h1
    rw [hw2] at h2
    linarith

end Verif.Johnson
