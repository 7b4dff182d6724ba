import Mathlib.Tactic.Linarith
import Mathlib.Tactic.FieldSimp
import Mathlib.Tactic.Positivity
import Mathlib.Tactic.Ring
import Mathlib.Tactic.LinearCombination
import Mathlib.Analysis.Complex.ExponentialBounds
import Verif.Johnson.Spec

/-!
# C56: Johnson distributions by quantiles
-/

namespace Verif.Johnson

open Real

/-! ## Unbounded -/

theorem unbounded_quantiles (a b p q0 : ℝ) (ha : 0 < a) (hb : 0 < b) (hp : 0 < p) (hab : 1 < a * b) :
    Reproduces (unbounded a b p q0) (q0 - p / 2 - b * p) (q0 - p / 2) (q0 + p / 2) (q0 + p / 2 + a * p) := by
  have hsum : 2 < a + b := by nlinarith [sq_nonneg (a - b)]
  set θ := arcosh (0.5 * (a + b)) with hθ
  have hone : 1 < 0.5 * (a + b) := by norm_num; linarith
  have hθpos : 0 < θ := arcosh_pos hone
  have hcosh : cosh θ = (a + b) / 2 := by rw [hθ, cosh_arcosh hone.le]; ring
  set r := √(a * b - 1) with hr
  have hrpos : 0 < r := sqrt_pos.2 (by linarith)
  have hr2 : r ^ 2 = a * b - 1 := sq_sqrt (by linarith)
  set g := arsinh ((b - a) / (2 * r)) with hg
  have hS : sinh g = (b - a) / (2 * r) := sinh_arsinh _
  set s := sinh (θ / 2) with hs
  set c := cosh (θ / 2) with hc
  have hspos : 0 < s := sinh_pos_iff.2 (by linarith)
  have hcpos : 0 < c := cosh_pos _
  have hcs : c ^ 2 = s ^ 2 + 1 := cosh_sq _
  have hdouble : cosh θ = c ^ 2 + s ^ 2 := by
    rw [hc, hs, ← cosh_two_mul]; congr 1; ring
  have hab2 : a + b = 2 + 4 * s ^ 2 := by rw [hdouble] at hcosh; linarith
  have hC : cosh g = 2 * s * c / r := by
    have h1 : cosh g ^ 2 = (2 * s * c / r) ^ 2 := by
      rw [cosh_sq, hS]
      field_simp
      rw [hcs, hr2]
      have : b = 2 + 4 * s ^ 2 - a := by linarith
      rw [this]; ring
    exact (sq_eq_sq₀ (cosh_pos _).le (by positivity)).1 h1
  have hroot : √(a + b + 2) = 2 * c := by
    rw [show a + b + 2 = (2 * c) ^ 2 by rw [hab2, mul_pow, hcs]; ring]
    exact sqrt_sq (by positivity)
  have hlam : 2 * p * r / ((a + b - 2) * √(a + b + 2)) = p * r / (4 * s ^ 2 * c) := by
    rw [hroot, show a + b - 2 = 4 * s ^ 2 by rw [hab2]; ring]
    field_simp
  have hxi : p * (b - a) / (2 * (a + b - 2)) = p * (b - a) / (8 * s ^ 2) := by
    rw [show a + b - 2 = 4 * s ^ 2 by rw [hab2]; ring]
    ring
  have hval : ∀ z, (unbounded a b p q0).quantile z = some (q0 + p * (b - a) / (8 * s ^ 2) + p * r / (4 * s ^ 2 * c) * sinh (z * θ - g)) := by
    intro z
    unfold unbounded Dist.quantile
    dsimp only
    rw [← hθ, ← hr, ← hg, hlam, hxi, if_pos ⟨by positivity, by positivity⟩]
    congr 4
    field_simp
  have e3 : sinh (3 / 2 * θ) = 3 * s + 4 * s ^ 3 := by rw [show 3 / 2 * θ = 3 * (θ / 2) by ring, sinh_three_mul]; ring
  have e4 : cosh (3 / 2 * θ) = c * (1 + 4 * s ^ 2) := by
    rw [show 3 / 2 * θ = 3 * (θ / 2) by ring, cosh_three_mul, ← hc]
    linear_combination 4 * c * hcs
  have e1 : sinh (1 / 2 * θ) = s := by rw [hs]; congr 1; ring
  have e2 : cosh (1 / 2 * θ) = c := by rw [hc]; congr 1; ring
  have hbb : b = 2 + 4 * s ^ 2 - a := by linarith
  refine ⟨?_, ?_, ?_, ?_⟩
  · rw [hval, show -3 / 2 * θ - g = -(3 / 2 * θ + g) by ring, sinh_neg, sinh_add, hS, hC, e3, e4, hbb]
    congr 1
    field_simp
    ring
  · rw [hval, show -1 / 2 * θ - g = -(1 / 2 * θ + g) by ring, sinh_neg, sinh_add, hS, hC, e1, e2, hbb]
    congr 1
    field_simp
    ring
  · rw [hval, sinh_sub, hS, hC, e1, e2, hbb]
    congr 1
    field_simp
    ring
  · rw [hval, sinh_sub, hS, hC, e3, e4, hbb]
    congr 1
    field_simp
    ring

/-- **C56, unbounded distributions.** All four quantiles are reproduced. -/
theorem C56_unbounded (x0 x1 x2 x3 : ℝ) (h01 : x0 < x1) (h12 : x1 < x2) (h23 : x2 < x3) (hb : 1 + 1 / 10000 < (x3 - x2) / (x2 - x1) * ((x1 - x0) / (x2 - x1))) :
    Reproduces (fitByQuantiles x0 x1 x2 x3) x0 x1 x2 x3 := by
  have hp : 0 < x2 - x1 := by linarith
  have hm : 0 < (x3 - x2) / (x2 - x1) := div_pos (by linarith) hp
  have hn : 0 < (x1 - x0) / (x2 - x1) := div_pos (by linarith) hp
  unfold fitByQuantiles
  dsimp only
  rw [if_neg (by unfold tol; linarith), if_pos (show _ > 1 + tol from hb)]
  have h := unbounded_quantiles _ _ (x2 - x1) ((x1 + x2) * 0.5) hm hn hp (by linarith)
  have e0 : (x1 + x2) * 0.5 - (x2 - x1) / 2 - (x1 - x0) / (x2 - x1) * (x2 - x1) = x0 := by rw [div_mul_cancel₀ _ hp.ne']; ring
  have e1 : (x1 + x2) * 0.5 - (x2 - x1) / 2 = x1 := by ring
  have e2 : (x1 + x2) * 0.5 + (x2 - x1) / 2 = x2 := by ring
  have e3 : x2 + (x3 - x2) / (x2 - x1) * (x2 - x1) = x3 := by rw [div_mul_cancel₀ _ hp.ne']; ring
  rw [e0, e1, e2, e3] at h
  exact h

/-- The hypotheses can be met. -/
example : (-9 : ℝ) < -1 ∧ (-1 : ℝ) < 1 ∧ (1 : ℝ) < 5 ∧ 1 + 1 / 10000 < ((5 : ℝ) - 1) / (1 - -1) * ((-1 - -9) / (1 - -1)) := by norm_num

/-! ## Bounded -/

theorem bounded_quantiles (m n p q0 : ℝ) (hm : 0 < m) (hn : 0 < n) (hp : 0 < p) (hab : m / p * (n / p) < 1) :
    Reproduces (bounded m n p q0) (q0 - p / 2 - n) (q0 - p / 2) (q0 + p / 2) (q0 + p / 2 + m) := by
  set P := p / m with hP
  set Q := p / n with hQ
  have hPpos : 0 < P := div_pos hp hm
  have hQpos : 0 < Q := div_pos hp hn
  have hmP : m = p / P := by rw [hP]; field_simp
  have hnQ : n = p / Q := by rw [hQ]; field_simp
  have hT : 1 < P * Q := by
    rw [hP, hQ]
    rw [div_mul_div_comm, div_lt_one (by positivity)] at hab
    rw [div_mul_div_comm, one_lt_div (by positivity)]
    exact hab
  have hPQ : 2 < P + Q := by nlinarith [sq_nonneg (P - Q)]
  set K := (1 + P) * (1 + Q) with hK
  have hK4 : 4 < K := by rw [hK]; nlinarith
  set α := √K with hα
  set β := √(K - 4) with hβ
  have hα2 : α ^ 2 = K := sq_sqrt (by linarith)
  have hβ2 : β ^ 2 = K - 4 := sq_sqrt (by linarith)
  have hαpos : 0 < α := sqrt_pos.2 (by linarith)
  have hβpos : 0 < β := sqrt_pos.2 (by linarith)
  have hα2' : 2 < α := by
    rw [hα, show (2 : ℝ) = √(2 ^ 2) by rw [sqrt_sq (by norm_num)]]
    exact sqrt_lt_sqrt (by norm_num) (by linarith)
  set t := P * Q - 1 with ht
  have htpos : 0 < t := by linarith
  set η := arcosh (0.5 * α) with hη
  have hone : 1 < 0.5 * α := by norm_num; linarith
  have hηpos : 0 < η := arcosh_pos hone
  have hexpη : exp η = (α + β) / 2 := by
    rw [hη, exp_arcosh hone.le]
    have : √((0.5 * α) ^ 2 - 1) = β / 2 := by
      rw [show (0.5 * α) ^ 2 - 1 = (β / 2) ^ 2 by rw [div_pow, hβ2, mul_pow, hα2]; ring]
      exact sqrt_sq (by positivity)
    rw [this]; ring
  have hexpη' : exp (-η) = (α - β) / 2 := by
    rw [exp_neg, hexpη, inv_eq_of_mul_eq_one_right]
    linear_combination (hα2 - hβ2) / 4
  set g := arsinh ((Q - P) * β / (2 * t)) with hg
  have hexpg : exp g = (α * (P + Q - 2) + β * (Q - P)) / (2 * t) := by
    rw [hg, exp_arsinh]
    have : √(1 + ((Q - P) * β / (2 * t)) ^ 2) = α * (P + Q - 2) / (2 * t) := by
      rw [show 1 + ((Q - P) * β / (2 * t)) ^ 2 = (α * (P + Q - 2) / (2 * t)) ^ 2 by
        rw [div_pow, div_pow, mul_pow, mul_pow α, hα2, hβ2]
        field_simp
        rw [hK, ht]; ring]
      exact sqrt_sq (by have := hPQ; apply div_nonneg (mul_nonneg hαpos.le (by linarith)) (by positivity))
    rw [this]; ring
  have hlam : p * √((K - 2) ^ 2 - 4) / t = p * (α * β) / t := by
    rw [show (K - 2) ^ 2 - 4 = (α * β) ^ 2 by rw [mul_pow, hα2, hβ2]; ring, sqrt_sq (by positivity)]
  have hval : ∀ z, (bounded m n p q0).quantile z =
      some (q0 - 0.5 * (p * (α * β) / t) + p * (Q - P) / (2 * t) + p * (α * β) / t * (1 / (1 + exp (-(2 * z * η)) * exp g))) := by
    intro z
    unfold bounded Dist.quantile
    dsimp only
    rw [← hP, ← hQ, ← hK, ← hα, ← hβ, ← hη, ← ht, ← hg, hlam, if_pos ⟨by positivity, by positivity⟩, ← exp_add]
    congr 6
    field_simp
    ring
  -- the values at the four scores
  have solve : ∀ (x D : ℝ), 0 < D → p * (α * β) = (x * t - (q0 * t - 0.5 * (p * (α * β)) + p * (Q - P) / 2)) * (1 + D) →
      q0 - 0.5 * (p * (α * β) / t) + p * (Q - P) / (2 * t) + p * (α * β) / t * (1 / (1 + D)) = x := by
    intro x D hD h
    have h1 : 1 + D ≠ 0 := by positivity
    field_simp
    linear_combination 2 * h
  have hGpos : 0 < (α * (P + Q - 2) + β * (Q - P)) / (2 * t) := hexpg ▸ exp_pos g
  have hEpos : 0 < (α - β) / 2 := hexpη' ▸ exp_pos _
  have hEpos' : 0 < (α + β) / 2 := by positivity
  have cube : ∀ w : ℝ, exp (3 * w) = exp w ^ 3 := by intro w; rw [← exp_nat_mul]; norm_num
  have hw2 : (α * β) ^ 2 = K * (K - 4) := by rw [mul_pow, hα2, hβ2]
  clear_value g η β α t K P Q
  refine ⟨?_, ?_, ?_, ?_⟩
  · rw [hval, show -(2 * (-3 / 2) * η) = 3 * η by ring, cube, hexpη, hexpg]
    refine congrArg some (solve _ _ (by positivity) ?_)
    have h3 : ((α + β) / 2) ^ 3 = (α * (K - 3) + β * (K - 1)) / 2 := by
      linear_combination (α / 8 + 3 * β / 8) * hα2 + (3 * α / 8 + β / 8) * hβ2
    have hD : ((α + β) / 2) ^ 3 * ((α * (P + Q - 2) + β * (Q - P)) / (2 * t)) = ((K * (K - 3) * (P + Q - 2) + (K - 4) * (K - 1) * (Q - P)) + ((K - 3) * (Q - P) + (K - 1) * (P + Q - 2)) * (α * β)) / (4 * t) := by
      rw [h3]
      linear_combination ((K - 3) * (P + Q - 2) * hα2 + (K - 1) * (Q - P) * hβ2) / (4 * t)
    have hpoly : 8 * t * p * (α * β) * Q = (-(p * t * Q) - 2 * p * t + p * (α * β) * Q - p * (Q - P) * Q) * (4 * t + ((K * (K - 3) * (P + Q - 2) + (K - 4) * (K - 1) * (Q - P)) + ((K - 3) * (Q - P) + (K - 1) * (P + Q - 2)) * (α * β))) := by
      rw [hK] at hw2 ⊢
      rw [ht]
      linear_combination (-(p * Q * ((((1 + P) * (1 + Q)) - 3) * (Q - P) + (((1 + P) * (1 + Q)) - 1) * (P + Q - 2)))) * hw2
    rw [hD, hnQ]
    field_simp
    linear_combination hpoly
  · rw [hval, show -(2 * (-1 / 2) * η) = η by ring, hexpη, hexpg]
    refine congrArg some (solve _ _ (by positivity) ?_)
    have hD : (α + β) / 2 * ((α * (P + Q - 2) + β * (Q - P)) / (2 * t)) = ((K * (P + Q - 2) + (K - 4) * (Q - P)) + ((Q - P) + (P + Q - 2)) * (α * β)) / (4 * t) := by
      linear_combination ((P + Q - 2) * hα2 + (Q - P) * hβ2) / (4 * t)
    have hpoly : 8 * t * p * (α * β) = (-(p * t) + p * (α * β) - p * (Q - P)) * (4 * t + ((K * (P + Q - 2) + (K - 4) * (Q - P)) + ((Q - P) + (P + Q - 2)) * (α * β))) := by
      rw [hK] at hw2 ⊢
      rw [ht]
      linear_combination (-(p * ((Q - P) + (P + Q - 2)))) * hw2
    rw [hD]
    field_simp
    linear_combination hpoly
  · rw [hval, show -(2 * (1 / 2) * η) = -η by ring, hexpη', hexpg]
    refine congrArg some (solve _ _ (by positivity) ?_)
    have hD : (α - β) / 2 * ((α * (P + Q - 2) + β * (Q - P)) / (2 * t)) = ((K * (P + Q - 2) - (K - 4) * (Q - P)) + ((Q - P) - (P + Q - 2)) * (α * β)) / (4 * t) := by
      linear_combination ((P + Q - 2) * hα2 - (Q - P) * hβ2) / (4 * t)
    have hpoly : 8 * t * p * (α * β) = (p * t + p * (α * β) - p * (Q - P)) * (4 * t + ((K * (P + Q - 2) - (K - 4) * (Q - P)) + ((Q - P) - (P + Q - 2)) * (α * β))) := by
      rw [hK] at hw2 ⊢
      rw [ht]
      linear_combination (-(p * ((Q - P) - (P + Q - 2)))) * hw2
    rw [hD]
    field_simp
    linear_combination hpoly
  · rw [hval, show -(2 * (3 / 2) * η) = 3 * -η by ring, cube, hexpη', hexpg]
    refine congrArg some (solve _ _ (by positivity) ?_)
    have h3 : ((α - β) / 2) ^ 3 = (α * (K - 3) - β * (K - 1)) / 2 := by
      linear_combination (α / 8 - 3 * β / 8) * hα2 + (3 * α / 8 - β / 8) * hβ2
    have hD : ((α - β) / 2) ^ 3 * ((α * (P + Q - 2) + β * (Q - P)) / (2 * t)) = ((K * (K - 3) * (P + Q - 2) - (K - 4) * (K - 1) * (Q - P)) + ((K - 3) * (Q - P) - (K - 1) * (P + Q - 2)) * (α * β)) / (4 * t) := by
      rw [h3]
      linear_combination ((K - 3) * (P + Q - 2) * hα2 - (K - 1) * (Q - P) * hβ2) / (4 * t)
    have hpoly : 8 * t * p * (α * β) * P = (p * t * P + 2 * p * t + p * (α * β) * P - p * (Q - P) * P) * (4 * t + ((K * (K - 3) * (P + Q - 2) - (K - 4) * (K - 1) * (Q - P)) + ((K - 3) * (Q - P) - (K - 1) * (P + Q - 2)) * (α * β))) := by
      rw [hK] at hw2 ⊢
      rw [ht]
      linear_combination (-(p * P * ((((1 + P) * (1 + Q)) - 3) * (Q - P) - (((1 + P) * (1 + Q)) - 1) * (P + Q - 2)))) * hw2
    rw [hD, hmP]
    field_simp
    linear_combination hpoly

/-- **C56, bounded distributions.** All four quantiles are reproduced. -/
theorem C56_bounded (x0 x1 x2 x3 : ℝ) (h01 : x0 < x1) (h12 : x1 < x2) (h23 : x2 < x3) (hb : (x3 - x2) / (x2 - x1) * ((x1 - x0) / (x2 - x1)) < 1 - 1 / 10000) :
    Reproduces (fitByQuantiles x0 x1 x2 x3) x0 x1 x2 x3 := by
  unfold fitByQuantiles
  dsimp only
  rw [if_pos (show _ < 1 - tol from hb)]
  have h := bounded_quantiles (x3 - x2) (x1 - x0) (x2 - x1) ((x1 + x2) * 0.5) (by linarith) (by linarith) (by linarith) (by linarith)
  rw [show (x1 + x2) * 0.5 - (x2 - x1) / 2 = x1 by ring, show (x1 + x2) * 0.5 + (x2 - x1) / 2 = x2 by ring, sub_sub_cancel, add_sub_cancel] at h
  exact h

/-- The hypotheses can be met. -/
example : (-2 : ℝ) < -1 ∧ (-1 : ℝ) < 1 ∧ (1 : ℝ) < 4 / 3 ∧ ((4 / 3 : ℝ) - 1) / (1 - -1) * ((-1 - -2) / (1 - -1)) < 1 - 1 / 10000 := by norm_num

/-! ## Lognormal -/

/-- The three numbers of the lognormal branch. -/
def InLognormalBranch (x0 x1 x2 x3 : ℝ) : Prop :=
  |(x3 - x2) / (x2 - x1) * ((x1 - x0) / (x2 - x1)) - 1| ≤ 1 / 10000 ∧ 1 / 10000 < |(x3 - x2) / (x2 - x1) - 1|

theorem fit_lognormal (x0 x1 x2 x3 : ℝ) (h : InLognormalBranch x0 x1 x2 x3) : fitByQuantiles x0 x1 x2 x3 = lognormal ((x3 - x2) / (x2 - x1)) (x2 - x1) ((x1 + x2) * 0.5) := by
  obtain ⟨h1, h2⟩ := h
  rw [abs_le] at h1
  unfold fitByQuantiles
  dsimp only
  rw [if_neg (by unfold tol; linarith), if_neg (show ¬_ > 1 + tol by unfold tol; linarith), if_pos (show _ > tol from h2)]

/-- **C56, lognormal distributions, partial.** The upper three quantiles are reproduced, the lowest up to a ten thousandth of the distance to the next one, and exactly if the product of the ratios is one. This needs a longer upper tail and a ratio that is not the number `e`; see the next two theorems. -/
theorem C56_lognormal_partial (x0 x1 x2 x3 : ℝ) (h01 : x0 < x1) (h12 : x1 < x2) (h23 : x2 < x3) (hb : InLognormalBranch x0 x1 x2 x3) (hup : x2 - x1 < x3 - x2)
    (he : Real.log ((x3 - x2) / (x2 - x1)) ≠ 1) :
    (fitByQuantiles x0 x1 x2 x3).quantile (-1 / 2) = some x1 ∧ (fitByQuantiles x0 x1 x2 x3).quantile (1 / 2) = some x2 ∧ (fitByQuantiles x0 x1 x2 x3).quantile (3 / 2) = some x3 ∧
      ∃ y, (fitByQuantiles x0 x1 x2 x3).quantile (-3 / 2) = some y ∧ |y - x0| ≤ 1 / 10000 * (x1 - y) ∧ ((x3 - x2) / (x2 - x1) * ((x1 - x0) / (x2 - x1)) = 1 → y = x0) := by
  rw [fit_lognormal x0 x1 x2 x3 hb]
  obtain ⟨hb1, -⟩ := hb
  set p := x2 - x1 with hp
  set a := (x3 - x2) / p with ha
  have hppos : 0 < p := by linarith
  have ha1 : 1 < a := (one_lt_div hppos).2 hup
  have hlog : 0 < Real.log a := Real.log_pos ha1
  have hm : x3 = x2 + a * p := by rw [ha]; field_simp; ring
  have hx2 : x2 = x1 + p := by rw [hp]; ring
  set b := (x1 - x0) / p with hb
  have hn : x0 = x1 - b * p := by rw [hb]; field_simp; ring
  have hsa : 0 < √a := Real.sqrt_pos.2 (by linarith)
  have hsa2 : √a ^ 2 = a := Real.sq_sqrt (by linarith)
  have hval : ∀ z, (lognormal a p ((x1 + x2) * 0.5)).quantile z = some ((x1 + x2) * 0.5 - 0.5 * p * (a + 1) / (a - 1) + p * √a / (a - 1) * Real.exp (Real.log a * z)) := by
    intro z
    have hlogd : Real.log (1 / Real.log a) ≠ 0 := by
      rw [one_div, Real.log_inv, neg_ne_zero]
      intro h0
      rcases Real.log_eq_zero.1 h0 with h | h | h
      · linarith
      · exact he h
      · linarith
    unfold lognormal johnsonsl
    dsimp only
    rw [if_pos (by linarith : 0 < a - 1), div_one, Real.log_one]
    have hsq : Real.log (1 / Real.log a) * (1 / Real.log a) ^ 2 ≠ 0 := mul_ne_zero hlogd (by positivity)
    rw [if_pos ⟨one_pos, by positivity, hsq⟩]
    have hscale : Real.exp (Real.log (1 / Real.log a) * (2 * (1 / Real.log a * Real.log (|a - 1| / (p * √a))) * (1 / Real.log a) - 2 * (1 / Real.log a) ^ 2 * 0) /
        (Real.log (1 / Real.log a) * (1 / Real.log a) ^ 2) / -2) = p * √a / (a - 1) := by
      rw [show Real.log (1 / Real.log a) * (2 * (1 / Real.log a * Real.log (|a - 1| / (p * √a))) * (1 / Real.log a) - 2 * (1 / Real.log a) ^ 2 * 0) /
        (Real.log (1 / Real.log a) * (1 / Real.log a) ^ 2) / -2 = -Real.log (|a - 1| / (p * √a)) by
          have := hlog.ne'
          field_simp
          ring]
      rw [← Real.log_inv, Real.exp_log, inv_div, abs_of_pos (by linarith : 0 < a - 1)]
      rw [abs_of_pos (by linarith : 0 < a - 1), inv_div]
      have : 0 < a - 1 := by linarith
      positivity
    rw [hscale, one_div_one_div]
    have ha10 : 0 < a - 1 := by linarith
    simp only [Dist.quantile]
    rw [if_pos ⟨hlog, by positivity⟩]
  have hne : a - 1 ≠ 0 := by linarith
  have eh : Real.exp (Real.log a * (1 / 2)) = √a := by rw [Real.sqrt_eq_rpow, Real.rpow_def_of_pos (by linarith)]
  have eh' : Real.exp (Real.log a * (-1 / 2)) = 1 / √a := by
    rw [show Real.log a * (-1 / 2) = -(Real.log a * (1 / 2)) by ring, Real.exp_neg, eh, one_div]
  have e3 : Real.exp (Real.log a * (3 / 2)) = a * √a := by
    rw [show Real.log a * (3 / 2) = Real.log a + Real.log a * (1 / 2) by ring, Real.exp_add, Real.exp_log (by linarith), eh]
  have e3' : Real.exp (Real.log a * (-3 / 2)) = 1 / (a * √a) := by
    rw [show Real.log a * (-3 / 2) = -(Real.log a * (3 / 2)) by ring, Real.exp_neg, e3, one_div]
  have hapos : 0 < a := by linarith
  clear_value a b p
  refine ⟨?_, ?_, ?_, x1 - p / a, ?_, ?_, ?_⟩
  · rw [hval, eh', hx2]
    congr 1
    field_simp
    ring
  · rw [hval, eh, show p * √a / (a - 1) * √a = p * a / (a - 1) by rw [show p * √a / (a - 1) * √a = p / (a - 1) * √a ^ 2 by ring, hsa2]; ring, hx2]
    congr 1
    field_simp
    ring
  · rw [hval, e3, show p * √a / (a - 1) * (a * √a) = p * a ^ 2 / (a - 1) by rw [show p * √a / (a - 1) * (a * √a) = p * a / (a - 1) * √a ^ 2 by ring, hsa2]; ring, hm, hx2]
    congr 1
    field_simp
    ring
  · rw [hval, e3', hx2]
    congr 1
    field_simp
    ring
  · rw [hn, show x1 - p / a - (x1 - b * p) = p / a * (a * b - 1) by field_simp; ring, abs_mul, abs_of_pos (by positivity), sub_sub_cancel, mul_comm]
    exact mul_le_mul_of_nonneg_right hb1 (by positivity)
  · intro h1
    rw [hn]
    have : b = 1 / a := by field_simp; linarith
    rw [this]; ring

/-- The hypotheses can be met. -/
example : (-1 / 2 : ℝ) < 0 ∧ (0 : ℝ) < 1 ∧ (1 : ℝ) < 3 ∧ InLognormalBranch (-1 / 2) 0 1 3 ∧ (1 : ℝ) - 0 < 3 - 1 ∧ Real.log ((3 - 1) / (1 - 0)) ≠ 1 := by
  refine ⟨by norm_num, by norm_num, by norm_num, ⟨by norm_num, by norm_num⟩, by norm_num, ?_⟩
  have := Real.log_two_lt_d9
  norm_num
  linarith

/-- **C56 is false for a longer lower tail in the lognormal branch.** The distribution returned has no quantiles (they are nan). -/
theorem C56_mirrored_lognormal_nan (x0 x1 x2 x3 : ℝ) (h12 : x1 < x2) (hb : InLognormalBranch x0 x1 x2 x3) (hdown : x3 - x2 < x2 - x1) (z : ℝ) :
    (fitByQuantiles x0 x1 x2 x3).quantile z = none := by
  rw [fit_lognormal x0 x1 x2 x3 hb]
  have ha : (x3 - x2) / (x2 - x1) < 1 := (div_lt_one (by linarith)).2 hdown
  unfold lognormal johnsonsl
  dsimp only
  rw [if_neg (by linarith : ¬0 < (x3 - x2) / (x2 - x1) - 1), if_pos (by linarith : (x3 - x2) / (x2 - x1) - 1 < 0), if_neg (by norm_num)]
  rfl

/-- The hypotheses can be met. -/
example : (0 : ℝ) < 1 ∧ InLognormalBranch (-2) 0 1 (3 / 2) ∧ (3 / 2 : ℝ) - 1 < 1 - 0 := by
  refine ⟨by norm_num, ⟨by norm_num, by norm_num⟩, by norm_num⟩

/-- **C56 is false for the ratio `e`.** The scale is zero divided by zero. -/
theorem C56_ratio_e_nan (x0 x1 x2 x3 : ℝ) (hb : InLognormalBranch x0 x1 x2 x3) (he : (x3 - x2) / (x2 - x1) = Real.exp 1) (z : ℝ) :
    (fitByQuantiles x0 x1 x2 x3).quantile z = none := by
  rw [fit_lognormal x0 x1 x2 x3 hb, he]
  have : (0 : ℝ) < Real.exp 1 - 1 := by have := Real.exp_one_gt_d9; linarith
  unfold lognormal johnsonsl
  dsimp only
  rw [if_pos this, Real.log_exp, if_neg (by norm_num)]
  rfl

/-- The hypotheses can be met. -/
example : InLognormalBranch (-Real.exp (-1)) 0 1 (1 + Real.exp 1) ∧ ((1 + Real.exp 1) - 1) / (1 - 0) = Real.exp 1 := by
  have h := Real.exp_one_gt_d9
  refine ⟨⟨?_, ?_⟩, by norm_num⟩
  · have : Real.exp 1 * Real.exp (-1) = 1 := by rw [← Real.exp_add]; norm_num
    simp [this]
  · rw [show (1 + Real.exp 1 - 1) / (1 - 0) - 1 = Real.exp 1 - 1 by ring, abs_of_pos (by linarith)]
    linarith

/-! ## Normal -/

/-- **C56 is false in the normal branch.** For four equally spaced numbers the middle two quantiles of the distribution returned are the inverse of the spacing apart; so the quantiles are reproduced only for the spacing one, for which they are. -/
theorem C56_normal_fails (x h : ℝ) (hh : 0 < h) : ∃ y1 y2, (fitByQuantiles (x - 3 / 2 * h) (x - h / 2) (x + h / 2) (x + 3 / 2 * h)).quantile (-1 / 2) = some y1 ∧
    (fitByQuantiles (x - 3 / 2 * h) (x - h / 2) (x + h / 2) (x + 3 / 2 * h)).quantile (1 / 2) = some y2 ∧ y2 - y1 = 1 / h ∧
    (Reproduces (fitByQuantiles (x - 3 / 2 * h) (x - h / 2) (x + h / 2) (x + 3 / 2 * h)) (x - 3 / 2 * h) (x - h / 2) (x + h / 2) (x + 3 / 2 * h) ↔ h = 1) := by
  have hfit : fitByQuantiles (x - 3 / 2 * h) (x - h / 2) (x + h / 2) (x + 3 / 2 * h) = .norm (x * (1 / h)) (1 / h) := by
    unfold fitByQuantiles
    dsimp only
    rw [show x + 3 / 2 * h - (x + h / 2) = h by ring, show x + h / 2 - (x - h / 2) = h by ring, show x - h / 2 - (x - 3 / 2 * h) = h by ring, div_self hh.ne',
      if_neg (by unfold tol; norm_num), if_neg (by unfold tol; norm_num), if_neg (by unfold tol; norm_num)]
    unfold normal
    rw [show (x - h / 2 + (x + h / 2)) * 0.5 = x by ring]
  rw [hfit]
  have hv : ∀ z, (Dist.norm (x * (1 / h)) (1 / h)).quantile z = some (x * (1 / h) + 1 / h * z) := by
    intro z
    simp only [Dist.quantile]
    rw [if_pos (show 0 < 1 / h by positivity)]
  refine ⟨_, _, hv _, hv _, by ring, ?_, ?_⟩
  · rintro ⟨-, h1, h2, -⟩
    rw [hv, Option.some_inj] at h1 h2
    have : 1 / h = h := by linarith
    rw [div_eq_iff hh.ne'] at this
    nlinarith
  · rintro rfl
    refine ⟨?_, ?_, ?_, ?_⟩ <;> rw [hv] <;> congr 1 <;> ring

/-- The hypothesis can be met, with a spacing that is not one. -/
example : (0 : ℝ) < 2 ∧ (2 : ℝ) ≠ 1 := by norm_num

end Verif.Johnson
