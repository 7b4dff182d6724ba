import Mathlib.Tactic.Linarith
import Mathlib.Tactic.FieldSimp
import Mathlib.Tactic.Positivity
import Mathlib.Tactic.Ring
import Mathlib.Analysis.Calculus.Deriv.Pow
import Mathlib.Analysis.Calculus.Deriv.Mul
import Mathlib.Analysis.Calculus.Deriv.Add
import Verif.Fractal.Lemmas
import Verif.Filter.Model

/-!
# C54, C55, C80: filtered random surfaces
-/

namespace Verif.Filter

open Finset

/-! ## C55 -/

theorem sum_shift_down (n p : ℕ) (F : ℕ → ℝ) : ∑ i ∈ range n, (if p ≤ i then F i else 0) = ∑ k ∈ range (n - p), F (k + p) := by
  rw [← sum_filter]
  have : (range n).filter (fun i => p ≤ i) = Ico p n := by
    ext i; simp only [mem_filter, mem_range, mem_Ico]; omega
  rw [this, sum_Ico_eq_sum_range]
  exact sum_congr rfl fun k _ => by rw [add_comm]

/-- **C55, the two estimates agree.** The estimate of the autocorrelation by convolution is the double sum. -/
theorem C55_estimates_agree (n m : ℕ) (alpha : ℕ → ℕ → ℝ) (p q : ℕ) (hp : p < n) (hq : q < m) : acfFft n m alpha p q = acfDirect n m alpha p q := by
  unfold acfFft convSame convFull acfDirect
  have e1 : (n + (n + (n - 1)) - 1 - n) / 2 = n - 1 := by omega
  have e2 : (m + (m + (m - 1)) - 1 - m) / 2 = m - 1 := by omega
  rw [e1, e2]
  have inner : ∀ i ∈ range n, (∑ j ∈ range m, if i ≤ p + (n - 1) ∧ p + (n - 1) - i < n + (n - 1) ∧ j ≤ q + (m - 1) ∧ q + (m - 1) - j < m + (m - 1) then
      alpha i j * (if p + (n - 1) - i < n ∧ q + (m - 1) - j < m then alpha (n - 1 - (p + (n - 1) - i)) (m - 1 - (q + (m - 1) - j)) else 0) else 0) =
      if p ≤ i then ∑ el ∈ range (m - q), alpha i (el + q) * alpha (i - p) el else 0 := by
    intro i hi
    rw [mem_range] at hi
    split
    · rename_i hpi
      have := sum_shift_down m q fun j => alpha i j * alpha (i - p) (j - q)
      simp only [Nat.add_sub_cancel] at this
      rw [← this]
      refine sum_congr rfl fun j hj => ?_
      rw [mem_range] at hj
      rw [if_pos (by omega)]
      by_cases hqj : q ≤ j
      · rw [if_pos (by omega), if_pos hqj, show n - 1 - (p + (n - 1) - i) = i - p by omega, show m - 1 - (q + (m - 1) - j) = j - q by omega]
      · rw [if_neg (by omega), if_neg hqj, mul_zero]
    · apply sum_eq_zero
      intro j hj
      split
      · rw [if_neg (by omega), mul_zero]
      · rfl
  rw [sum_congr rfl inner, sum_shift_down n p fun i => ∑ el ∈ range (m - q), alpha i (el + q) * alpha (i - p) el]
  refine sum_congr rfl fun k _ => sum_congr rfl fun el _ => ?_
  rw [Nat.add_sub_cancel]
  ring

example := C55_estimates_agree 3 4 (fun a b => a + b) 2 1 (by norm_num) (by norm_num)

/-- Exchange of the order of summation, first kind. -/
theorem swap_low (n P : ℕ) (G : ℕ → ℕ → ℝ) : ∑ p ∈ range P, ∑ k ∈ range (n - p), G p k = ∑ i ∈ range n, ∑ p ∈ range (min (n - i) P), G p i := by
  apply sum_comm'
  intro p k
  simp only [mem_range]
  omega

/-- Exchange of the order of summation, second kind. -/
theorem swap_high (n P : ℕ) (G : ℕ → ℕ → ℝ) : ∑ p ∈ range P, ∑ k ∈ range (n - p), G p (k + p) = ∑ i ∈ range n, ∑ p ∈ range (min (i + 1) P), G p i := by
  have : ∀ p ∈ range P, ∑ k ∈ range (n - p), G p (k + p) = ∑ i ∈ Ico p n, G p i := by
    intro p _
    rw [sum_Ico_eq_sum_range]
    exact sum_congr rfl fun k _ => by rw [add_comm]
  rw [sum_congr rfl this]
  apply sum_comm'
  intro p k
  simp only [mem_range, mem_Ico]
  omega

/-- The derivative of the double sum. -/
def acfVar (n m : ℕ) (alpha d : ℕ → ℕ → ℝ) (p q : ℕ) : ℝ :=
  ∑ k ∈ range (n - p), ∑ el ∈ range (m - q), (alpha k el * d (k + p) (el + q) + d k el * alpha (k + p) (el + q))

theorem acfDirect_line (n m : ℕ) (alpha d : ℕ → ℕ → ℝ) (p q : ℕ) (t : ℝ) :
    acfDirect n m (fun i j => alpha i j + t * d i j) p q = acfDirect n m alpha p q + t * acfVar n m alpha d p q + t ^ 2 * acfDirect n m d p q := by
  unfold acfDirect acfVar
  rw [mul_sum, mul_sum, ← sum_add_distrib, ← sum_add_distrib]
  refine sum_congr rfl fun k _ => ?_
  rw [mul_sum, mul_sum, ← sum_add_distrib, ← sum_add_distrib]
  exact sum_congr rfl fun el _ => by ring

/-- The gradient of `_grad_min_fun`, against any direction. -/
theorem grad_direction (n m n1 : ℕ) (alpha d target est : ℕ → ℕ → ℝ) :
    ∑ i ∈ range n, ∑ j ∈ range m, gradMinFun n m alpha n1 target est i j * d i j =
      ∑ p ∈ range n1, ∑ q ∈ range m, 2 * (target p q - est p q) * -acfVar n m alpha d p q := by
  set D : ℕ → ℕ → ℝ := fun p q => target p q - est p q with hD
  -- both parts of the right hand side, with the sums exchanged
  have first : ∑ p ∈ range n1, ∑ q ∈ range m, 2 * D p q * -(∑ k ∈ range (n - p), ∑ el ∈ range (m - q), d k el * alpha (k + p) (el + q)) =
      ∑ i ∈ range n, ∑ j ∈ range m, 2 * (∑ p ∈ range (min (n - i) n1), ∑ q ∈ range (m - j), D p q * (-alpha (i + p) (j + q))) * d i j := by
    have h1 : ∀ p ∈ range n1, (∑ q ∈ range m, 2 * D p q * -(∑ k ∈ range (n - p), ∑ el ∈ range (m - q), d k el * alpha (k + p) (el + q))) =
        ∑ k ∈ range (n - p), ∑ j ∈ range m, ∑ q ∈ range (min (m - j) m), 2 * (D p q * -alpha (k + p) (j + q)) * d k j := by
      intro p _
      have h2 : ∀ q ∈ range m, 2 * D p q * -(∑ k ∈ range (n - p), ∑ el ∈ range (m - q), d k el * alpha (k + p) (el + q)) =
          ∑ k ∈ range (n - p), ∑ el ∈ range (m - q), 2 * (D p q * -alpha (k + p) (el + q)) * d k el := by
        intro q _
        rw [mul_neg, mul_sum, ← sum_neg_distrib]
        refine sum_congr rfl fun k _ => ?_
        rw [mul_sum, ← sum_neg_distrib]
        exact sum_congr rfl fun el _ => by ring
      rw [sum_congr rfl h2, sum_comm]
      refine sum_congr rfl fun k _ => ?_
      exact swap_low m m fun q el => 2 * (D p q * -alpha (k + p) (el + q)) * d k el
    rw [sum_congr rfl h1, swap_low n n1 fun p k => ∑ j ∈ range m, ∑ q ∈ range (min (m - j) m), 2 * (D p q * -alpha (k + p) (j + q)) * d k j]
    refine sum_congr rfl fun i _ => ?_
    rw [sum_comm]
    refine sum_congr rfl fun j _ => ?_
    rw [min_eq_left (by omega : m - j ≤ m), mul_sum, sum_mul]
    refine sum_congr rfl fun p _ => ?_
    rw [mul_sum, sum_mul]
  have second : ∑ p ∈ range n1, ∑ q ∈ range m, 2 * D p q * -(∑ k ∈ range (n - p), ∑ el ∈ range (m - q), alpha k el * d (k + p) (el + q)) =
      ∑ i ∈ range n, ∑ j ∈ range m, 2 * (∑ p ∈ range (min (i + 1) n1), ∑ q ∈ range (j + 1), D p q * (-alpha (i - p) (j - q))) * d i j := by
    have h1 : ∀ p ∈ range n1, (∑ q ∈ range m, 2 * D p q * -(∑ k ∈ range (n - p), ∑ el ∈ range (m - q), alpha k el * d (k + p) (el + q))) =
        ∑ k ∈ range (n - p), ∑ j ∈ range m, ∑ q ∈ range (min (j + 1) m), 2 * (D p q * -alpha (k + p - p) (j - q)) * d (k + p) j := by
      intro p _
      have h2 : ∀ q ∈ range m, 2 * D p q * -(∑ k ∈ range (n - p), ∑ el ∈ range (m - q), alpha k el * d (k + p) (el + q)) =
          ∑ k ∈ range (n - p), ∑ el ∈ range (m - q), 2 * (D p q * -alpha (k + p - p) (el + q - q)) * d (k + p) (el + q) := by
        intro q _
        rw [mul_neg, mul_sum, ← sum_neg_distrib]
        refine sum_congr rfl fun k _ => ?_
        rw [mul_sum, ← sum_neg_distrib]
        refine sum_congr rfl fun el _ => ?_
        rw [Nat.add_sub_cancel, Nat.add_sub_cancel]
        ring
      rw [sum_congr rfl h2, sum_comm]
      refine sum_congr rfl fun k _ => ?_
      exact swap_high m m fun q el => 2 * (D p q * -alpha (k + p - p) (el - q)) * d (k + p) el
    rw [sum_congr rfl h1, swap_high n n1 fun p i => ∑ j ∈ range m, ∑ q ∈ range (min (j + 1) m), 2 * (D p q * -alpha (i - p) (j - q)) * d i j]
    refine sum_congr rfl fun i _ => ?_
    rw [sum_comm]
    refine sum_congr rfl fun j hj => ?_
    rw [mem_range] at hj
    rw [min_eq_left (by omega : j + 1 ≤ m), mul_sum, sum_mul]
    refine sum_congr rfl fun p _ => ?_
    rw [mul_sum, sum_mul]
  have split : ∀ p q : ℕ, 2 * (target p q - est p q) * -acfVar n m alpha d p q =
      2 * D p q * -(∑ k ∈ range (n - p), ∑ el ∈ range (m - q), d k el * alpha (k + p) (el + q)) +
      2 * D p q * -(∑ k ∈ range (n - p), ∑ el ∈ range (m - q), alpha k el * d (k + p) (el + q)) := by
    intro p q
    unfold acfVar
    simp only [sum_add_distrib]
    rw [hD]
    ring
  simp only [split, sum_add_distrib]
  rw [first, second, ← sum_add_distrib]
  refine sum_congr rfl fun i _ => ?_
  rw [← sum_add_distrib]
  refine sum_congr rfl fun j _ => ?_
  unfold gradMinFun
  ring

theorem square_deriv (a B C : ℝ) : HasDerivAt (fun t : ℝ => (a - t * B - t ^ 2 * C) ^ 2) (2 * a * -B) 0 := by
  have h1 : HasDerivAt (fun t : ℝ => a - t * B - t ^ 2 * C) (0 - 1 * B - (2 * (0 : ℝ) ^ (2 - 1)) * C) 0 :=
    (((hasDerivAt_const (0 : ℝ) a).fun_sub ((hasDerivAt_id' (0 : ℝ)).mul_const B)).fun_sub ((hasDerivAt_pow 2 (0 : ℝ)).mul_const C))
  have h2 := h1.fun_pow 2
  have e : (↑2 * (a - 0 * B - 0 ^ 2 * C) ^ (2 - 1) * (0 - 1 * B - 2 * 0 ^ (2 - 1) * C) : ℝ) = 2 * a * -B := by norm_num
  rw [← e]
  exact_mod_cast h2

theorem objective_deriv (n m n1 : ℕ) (hn : n1 ≤ n) (target alpha d : ℕ → ℕ → ℝ) :
    HasDerivAt (fun t : ℝ => ∑ p ∈ range n1, ∑ q ∈ range m, (target p q - acfFft n m (fun i j => alpha i j + t * d i j) p q) ^ 2)
      (∑ i ∈ range n, ∑ j ∈ range m, gradMinFun n m alpha n1 target (acfFft n m alpha) i j * d i j) 0 := by
  rw [grad_direction]
  apply HasDerivAt.fun_sum
  intro p hp
  apply HasDerivAt.fun_sum
  intro q hq
  rw [mem_range] at hp hq
  have h : (fun t : ℝ => (target p q - acfFft n m (fun i j => alpha i j + t * d i j) p q) ^ 2) =
      fun t : ℝ => (target p q - acfFft n m alpha p q - t * acfVar n m alpha d p q - t ^ 2 * acfDirect n m d p q) ^ 2 := by
    funext t
    rw [C55_estimates_agree n m _ p q (by omega) hq, C55_estimates_agree n m alpha p q (by omega) hq, acfDirect_line]
    ring
  rw [h]
  exact square_deriv _ _ _

/-- **C55, filters in general.** In every direction, the derivative of the objective is the product of the gradient handed to the optimiser with the direction. -/
theorem C55_gradient (n m : ℕ) (target alpha d : ℕ → ℕ → ℝ) :
    HasDerivAt (fun t : ℝ => minFun n m target fun i j => alpha i j + t * d i j) (∑ i ∈ range n, ∑ j ∈ range m, getGrad n m target alpha i j * d i j) 0 :=
  objective_deriv n m n le_rfl target alpha d

/-- The sum over the mirrored rows. -/
theorem sum_mirrored (n : ℕ) (F : ℕ → ℝ) (d : ℕ → ℝ) :
    ∑ r ∈ range (2 * n + 1), F r * (if n ≤ r then d (r - n) else d (n - r)) = ∑ r ∈ range (n + 1), (F (n + r) + if 1 ≤ r then F (n - r) else 0) * d r := by
  have h1 : ∑ r ∈ range (2 * n + 1), F r * (if n ≤ r then d (r - n) else d (n - r)) = ∑ r ∈ range n, F r * d (n - r) + ∑ r ∈ range (n + 1), F (n + r) * d r := by
    rw [show 2 * n + 1 = n + (n + 1) by omega, sum_range_add]
    congr 1
    · refine sum_congr rfl fun r hr => ?_
      rw [mem_range] at hr
      rw [if_neg (by omega)]
    · refine sum_congr rfl fun r _ => ?_
      rw [if_pos (by omega), Nat.add_sub_cancel_left]
  have h2 : ∑ r ∈ range (n + 1), (if 1 ≤ r then F (n - r) else 0) * d r = ∑ r ∈ range n, F r * d (n - r) := by
    rw [sum_range_succ']
    simp only [show ¬(1 ≤ 0) by omega, if_false, zero_mul, add_zero]
    rw [← sum_range_reflect]
    refine sum_congr rfl fun r hr => ?_
    rw [mem_range] at hr
    rw [if_pos (by omega), show n - (n - 1 - r + 1) = r by omega, show n - 1 - r + 1 = n - r by omega]
  rw [h1, ← h2, ← sum_add_distrib]
  exact sum_congr rfl fun r _ => by ring

/-- **C55, symmetric filters.** The same for the objective and the gradient of symmetric filters. -/
theorem C55_gradient_symmetric (n1 m1 : ℕ) (hn : 0 < n1) (target alpha d : ℕ → ℕ → ℝ) :
    HasDerivAt (fun t : ℝ => minFunSymmetric n1 m1 target fun i j => alpha i j + t * d i j) (∑ i ∈ range n1, ∑ j ∈ range m1, getGradSymmetric n1 m1 target alpha i j * d i j) 0 := by
  have h := objective_deriv (n1 * 2 - 1) m1 n1 (by omega) target (mirrored n1 alpha) (mirrored n1 d)
  have hline : ∀ t : ℝ, (mirrored n1 fun i j => alpha i j + t * d i j) = fun i j => mirrored n1 alpha i j + t * mirrored n1 d i j := by
    intro t
    funext r c
    unfold mirrored
    split <;> rfl
  unfold minFunSymmetric
  simp only [hline]
  convert h using 1
  obtain ⟨n, rfl⟩ : ∃ n, n1 = n + 1 := ⟨n1 - 1, by omega⟩
  rw [sum_comm]
  conv_rhs => rw [sum_comm]
  refine sum_congr rfl fun c _ => ?_
  have key := sum_mirrored n (fun r => gradMinFun ((n + 1) * 2 - 1) m1 (mirrored (n + 1) alpha) (n + 1) target (acfFft ((n + 1) * 2 - 1) m1 (mirrored (n + 1) alpha)) r c) fun r => d r c
  rw [show (n + 1) * 2 - 1 = 2 * n + 1 by omega] at key ⊢
  unfold getGradSymmetric mirrored at *
  simp only [Nat.add_sub_cancel] at key ⊢
  rw [key]
  refine sum_congr rfl fun r _ => ?_
  rw [show (n + 1) * 2 - 1 = 2 * n + 1 by omega]

/-- The hypothesis can be met. -/
example : (0 : ℕ) < 14 := by norm_num

/-! ## C54 -/

theorem convValid_eq (N M : ℕ) (hN : 0 < N) (hM : 0 < M) (n m : ℕ) (hn : 0 < n) (hm : 0 < m) (eta f : ℕ → ℕ → ℝ) (i j : ℕ) (hi : i < N) (hj : j < M) :
    convValid (N + n - 1) (M + m - 1) eta n m f i j = ∑ a ∈ range n, ∑ b ∈ range m, f a b * eta (i + (n - 1) - a) (j + (m - 1) - b) := by
  unfold convValid convFull
  have one : ∀ (N n i : ℕ), 0 < n → i < N → ∀ G : ℕ → ℝ, ∑ a ∈ range (N + n - 1), (if a ≤ i + (n - 1) ∧ i + (n - 1) - a < n then G a else 0) = ∑ a ∈ range n, G (i + (n - 1) - a) := by
    intro N n i hn hi G
    rw [← sum_filter]
    apply sum_nbij' (fun a => i + (n - 1) - a) (fun a => i + (n - 1) - a)
    · intro a ha; simp only [mem_filter, mem_range] at ha ⊢; omega
    · intro a ha; simp only [mem_filter, mem_range] at ha ⊢; omega
    · intro a ha; simp only [mem_filter, mem_range] at ha ⊢; omega
    · intro a ha; simp only [mem_range] at ha ⊢; omega
    · intro a ha
      simp only [mem_filter, mem_range] at ha ⊢
      congr 1
      omega
  have step : ∀ a ∈ range (N + n - 1), (∑ b ∈ range (M + m - 1), if a ≤ i + (n - 1) ∧ i + (n - 1) - a < n ∧ b ≤ j + (m - 1) ∧ j + (m - 1) - b < m then
      eta a b * f (i + (n - 1) - a) (j + (m - 1) - b) else 0) =
      if a ≤ i + (n - 1) ∧ i + (n - 1) - a < n then ∑ b ∈ range m, eta a (j + (m - 1) - b) * f (i + (n - 1) - a) (j + (m - 1) - (j + (m - 1) - b)) else 0 := by
    intro a _
    split
    · rename_i h
      rw [← one M m j hm hj fun b => eta a b * f (i + (n - 1) - a) (j + (m - 1) - b)]
      refine sum_congr rfl fun b _ => ?_
      by_cases hb : b ≤ j + (m - 1) ∧ j + (m - 1) - b < m
      · rw [if_pos ⟨h.1, h.2, hb⟩, if_pos hb]
      · rw [if_neg (fun hh => hb hh.2.2), if_neg hb]
    · rename_i h
      exact sum_eq_zero fun b _ => if_neg fun hh => h ⟨hh.1, hh.2.1⟩
  rw [sum_congr rfl step, one N n i hn hi fun a => ∑ b ∈ range m, eta a (j + (m - 1) - b) * f (i + (n - 1) - a) (j + (m - 1) - (j + (m - 1) - b))]
  refine sum_congr rfl fun a ha => sum_congr rfl fun b hb => ?_
  rw [mem_range] at ha hb
  rw [show i + (n - 1) - (i + (n - 1) - a) = a by omega, show j + (m - 1) - (j + (m - 1) - b) = b by omega]
  ring

/-- The shape asked for: the one given, else that of the surface. -/
def requested (outputShape ownShape : Option (ℕ × ℕ)) : Option (ℕ × ℕ) := match outputShape with
  | some s => some s
  | none => ownShape

/-- The number that the filter takes as noise at a point of the profile. -/
noncomputable def noiseAt (periodic : Bool) (N M n m : ℕ) (rvs : ℕ → ℕ → ℕ → ℕ → ℝ) (i j : ℕ) : ℝ :=
  if periodic then rvs N M (i % N) (j % M) else rvs (N + n - 1) (M + m - 1) i j

/-- **C54, moving average.** The profile has the requested shape, and every height is the sum of the noise around it weighted by the filter; periodic surfaces take the noise cyclically. -/
theorem C54_moving_average (f : Coefficients) (hn : 0 < f.n) (hm : 0 < f.m) (outputShape ownShape : Option (ℕ × ℕ)) (N M : ℕ) (hs : requested outputShape ownShape = some (N, M)) (hN : 0 < N) (hM : 0 < M)
    (periodic : Bool) (rvs : ℕ → ℕ → ℕ → ℕ → ℝ) :
    ∃ p, discretise (some f) outputShape ownShape periodic rvs = .ok p ∧ p.rows = N ∧ p.cols = M ∧
      ∀ i j, i < N → j < M → p.height i j = ∑ a ∈ range f.n, ∑ b ∈ range f.m, f.coef a b * noiseAt periodic N M f.n f.m rvs (i + (f.n - 1) - a) (j + (f.m - 1) - b) := by
  have hs' : (outputShape <|> ownShape) = some (N, M) := by
    rw [← hs]
    cases outputShape <;> rfl
  unfold discretise
  simp only [hs']
  refine ⟨_, rfl, ?_, ?_, fun i j hi hj => ?_⟩
  · show N + f.n - 1 - f.n + 1 = N; omega
  · show M + f.m - 1 - f.m + 1 = M; omega
  · show convValid (N + f.n - 1) (M + f.m - 1) _ f.n f.m f.coef i j = _
    rw [convValid_eq N M hN hM f.n f.m hn hm _ f.coef i j hi hj]
    refine sum_congr rfl fun a _ => sum_congr rfl fun b _ => ?_
    unfold noiseAt
    cases periodic <;> rfl

/-- **C54, cyclic shifts.** A cyclic shift of the noise shifts the profile of a periodic surface in the same way, for filters of any size. -/
theorem C54_cyclic_shift (f : Coefficients) (hn : 0 < f.n) (hm : 0 < f.m) (N M : ℕ) (hN : 0 < N) (hM : 0 < M) (ownShape : Option (ℕ × ℕ)) (rvs rvs' : ℕ → ℕ → ℕ → ℕ → ℝ) (s t : ℕ)
    (hshift : ∀ i j, i < N → j < M → rvs' N M i j = rvs N M ((i + s) % N) ((j + t) % M)) (p p' : Profile)
    (hp : discretise (some f) (some (N, M)) ownShape true rvs = .ok p) (hp' : discretise (some f) (some (N, M)) ownShape true rvs' = .ok p') (i j : ℕ) (hi : i < N) (hj : j < M) :
    p'.height i j = p.height ((i + s) % N) ((j + t) % M) := by
  obtain ⟨q, hq, -, -, hh⟩ := C54_moving_average f hn hm (some (N, M)) ownShape N M rfl hN hM true rvs
  obtain ⟨q', hq', -, -, hh'⟩ := C54_moving_average f hn hm (some (N, M)) ownShape N M rfl hN hM true rvs'
  rw [hp] at hq
  rw [hp'] at hq'
  cases hq
  cases hq'
  rw [hh' i j hi hj, hh _ _ (Nat.mod_lt _ hN) (Nat.mod_lt _ hM)]
  refine sum_congr rfl fun a ha => sum_congr rfl fun b hb => ?_
  rw [mem_range] at ha hb
  congr 1
  unfold noiseAt
  rw [if_pos rfl, if_pos rfl, hshift _ _ (Nat.mod_lt _ hN) (Nat.mod_lt _ hM)]
  have key : ∀ (N i s n a : ℕ), a < n → ((i + (n - 1) - a) % N + s) % N = ((i + s) % N + (n - 1) - a) % N := by
    intro N i s n a ha
    have h1 : (i + s) % N + (n - 1) - a = (i + s) % N + (n - 1 - a) := by omega
    rw [h1, Nat.mod_add_mod, Nat.mod_add_mod]
    congr 1
    omega
  rw [key N i s f.n a ha, key M j t f.m b hb]

/-- **C54, errors.** Without a filter or a shape nothing is generated. -/
theorem C54_errors (f : Coefficients) (outputShape ownShape : Option (ℕ × ℕ)) (periodic : Bool) (rvs : ℕ → ℕ → ℕ → ℕ → ℝ) :
    discretise none outputShape ownShape periodic rvs = .error .attributeError ∧ discretise (some f) none none periodic rvs = .error .valueError := ⟨rfl, rfl⟩

/-- The hypotheses of `C54_moving_average` and `C54_cyclic_shift` can be met, also with a filter larger than the surface. -/
example : ∃ p p', discretise (some ⟨5, 7, fun _ _ => 1⟩) (some (3, 4)) none true (fun _ _ i _ => i) = .ok p ∧ discretise (some ⟨5, 7, fun _ _ => 1⟩) (some (3, 4)) none true (fun _ _ i _ => ((i + 1) % 3 : ℕ)) = .ok p' :=
  ⟨_, _, rfl, rfl⟩

/-! ## C80 -/

open Verif.Conv (Grid forward chi)

/-- **C80, variance.** If the transform of the target has no negative or imaginary entry (as for every true autocorrelation), the sum of the squares of the coefficients, which is the variance of the surface for noise of unit variance, is the target at zero lag times the number of coefficients. This is C80 for a single coefficient only. -/
theorem C80_variance_partial {n m : ℕ} [NeZero n] [NeZero m] (acf : Grid n m → ℝ) (hpos : ∀ k, ∃ r : ℝ, 0 ≤ r ∧ forward (fun a => (acf a : ℂ)) k = r) :
    ∑ k, firFilter acf k ^ 2 = (((n * m : ℕ) : ℝ) * acf 0 : ℝ) := by
  have h1 : ∀ k, firFilter acf k ^ 2 = forward (fun a => (acf a : ℂ)) k := by
    intro k
    unfold firFilter
    rw [← Complex.cpow_nat_mul]
    norm_num
  rw [sum_congr rfl fun k _ => h1 k]
  unfold forward
  rw [sum_comm]
  have h2 : ∀ a : Grid n m, ∑ k, chi k (-a) * (acf a : ℂ) = if a = 0 then ((((n * m : ℕ) : ℝ) * acf 0 : ℝ) : ℂ) else (0 : ℂ) := by
    intro a
    rw [← sum_mul, Verif.Conv.sum_chi]
    by_cases ha : a = 0
    · rw [if_pos (by rw [ha, neg_zero]), if_pos ha, ha]
      push_cast
      rfl
    · rw [if_neg (by rwa [neg_eq_zero]), if_neg ha, zero_mul]
  rw [sum_congr rfl fun a _ => h2 a, sum_ite_eq' univ (0 : Grid n m), if_pos (mem_univ _)]

/-- **C80 is false.** With more than one coefficient the variance of the surface is not the target at zero lag (if that is not zero). -/
theorem C80_fails {n m : ℕ} [NeZero n] [NeZero m] (acf : Grid n m → ℝ) (hpos : ∀ k, ∃ r : ℝ, 0 ≤ r ∧ forward (fun a => (acf a : ℂ)) k = r) (hnm : 1 < n * m) (h0 : acf 0 ≠ 0) :
    ∑ k, firFilter acf k ^ 2 ≠ (acf 0 : ℂ) := by
  rw [C80_variance_partial acf hpos]
  intro h
  have h' : ((n * m : ℕ) : ℝ) * acf 0 = acf 0 := by exact_mod_cast h
  have h2 : (((n * m : ℕ) : ℝ) - 1) * acf 0 = 0 := by linarith
  have h3 : (1 : ℝ) < ((n * m : ℕ) : ℝ) := by exact_mod_cast hnm
  rcases mul_eq_zero.1 h2 with h | h
  · linarith
  · exact h0 h

/-- The hypotheses of `C80_variance_partial` and `C80_fails` can be met: white noise. -/
example : ∃ acf : Grid 2 2 → ℝ, (∀ k, ∃ r : ℝ, 0 ≤ r ∧ forward (fun a => (acf a : ℂ)) k = r) ∧ acf 0 ≠ 0 := by
  refine ⟨fun a => if a = 0 then 1 else 0, fun k => ⟨1, zero_le_one, ?_⟩, by simp⟩
  unfold forward
  rw [sum_eq_single 0]
  · simp [chi]
  · intro b _ hb
    simp [hb]
  · intro h; exact absurd (mem_univ _) h

end Verif.Filter
