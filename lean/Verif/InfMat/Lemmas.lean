import Mathlib.Tactic.Ring
import Mathlib.Tactic.FieldSimp
import Mathlib.Tactic.Linarith
import Mathlib.Tactic.Positivity
import Mathlib.Analysis.Calculus.Deriv.MeanValue
import Mathlib.Analysis.SpecialFunctions.Log.Deriv
import Mathlib.Analysis.SpecialFunctions.Sqrt
import Verif.InfMat.Model

/-!
# Helper lemmas about the closed form of the influence coefficients
-/

namespace Verif.InfMat

open Real

lemma hi_ne (d : ℤ) : hi d ≠ 0 := by
  intro h
  have : ((2 * d + 1 : ℤ) : ℝ) = 0 := by push_cast; unfold hi at h; linarith
  have : 2 * d + 1 = 0 := by exact_mod_cast this
  omega

lemma lo_ne (d : ℤ) : lo d ≠ 0 := by
  intro h
  have : ((2 * d - 1 : ℤ) : ℝ) = 0 := by push_cast; unfold lo at h; linarith
  have : 2 * d - 1 = 0 := by exact_mod_cast this
  omega

lemma hi_neg (d : ℤ) : hi (-d) = -lo d := by unfold hi lo; push_cast; ring
lemma lo_neg (d : ℤ) : lo (-d) = -hi d := by unfold hi lo; push_cast; ring

/-- `a + √(s + a²)` is positive for positive `s`. -/
lemma add_sqrt_pos (a s : ℝ) (hs : 0 < s) : 0 < a + sqrt (s + a ^ 2) := by
  have h : |a| < sqrt (s + a ^ 2) := by
    rw [← sqrt_sq_eq_abs]
    exact sqrt_lt_sqrt (sq_nonneg a) (by linarith)
  have := neg_abs_le a
  linarith

lemma sq_pos_of_ne' {a : ℝ} (h : a ≠ 0) : 0 < a ^ 2 := by positivity

/-- Product of the two conjugate expressions. -/
lemma conj_mul (a s : ℝ) (hs : 0 < s) : (a + sqrt (s + a ^ 2)) * (-a + sqrt (s + a ^ 2)) = s := by
  have : sqrt (s + a ^ 2) ^ 2 = s + a ^ 2 := sq_sqrt (by positivity)
  nlinarith

/-- The logarithm of the conjugate ratio is the logarithm of the swapped ratio. -/
lemma log_conj (a b s : ℝ) (hs : 0 < s) :
    log ((-a + sqrt (s + a ^ 2)) / (-b + sqrt (s + b ^ 2))) =
      log ((b + sqrt (s + b ^ 2)) / (a + sqrt (s + a ^ 2))) := by
  congr 1
  have pa := add_sqrt_pos a s hs
  have pb := add_sqrt_pos b s hs
  have pa' : 0 < -a + sqrt (s + a ^ 2) := by have := add_sqrt_pos (-a) s hs; simpa using this
  have pb' : 0 < -b + sqrt (s + b ^ 2) := by have := add_sqrt_pos (-b) s hs; simpa using this
  rw [div_eq_div_iff pb'.ne' pa.ne', mul_comm (-a + _), conj_mul a s hs, conj_mul b s hs]

lemma termX_swap (x y : ℤ) : termX x y = termY y x := by
  simp only [termX, termY]
  rw [add_comm (hi x ^ 2) (hi y ^ 2), add_comm (hi x ^ 2) (lo y ^ 2), add_comm (lo x ^ 2) (lo y ^ 2),
    add_comm (lo x ^ 2) (hi y ^ 2)]

lemma termX_neg_x (x y : ℤ) : termX (-x) y = termX x y := by
  simp only [termX, hi_neg, lo_neg, neg_sq]
  have h1 : log ((lo y + sqrt (hi x ^ 2 + lo y ^ 2)) / (hi y + sqrt (hi x ^ 2 + hi y ^ 2))) =
      -log ((hi y + sqrt (hi x ^ 2 + hi y ^ 2)) / (lo y + sqrt (hi x ^ 2 + lo y ^ 2))) := by
    rw [← log_inv, inv_div]
  have h2 : log ((lo y + sqrt (lo x ^ 2 + lo y ^ 2)) / (hi y + sqrt (lo x ^ 2 + hi y ^ 2))) =
      -log ((hi y + sqrt (lo x ^ 2 + hi y ^ 2)) / (lo y + sqrt (lo x ^ 2 + lo y ^ 2))) := by
    rw [← log_inv, inv_div]
  rw [h1, h2]; ring

lemma termX_neg_y (x y : ℤ) : termX x (-y) = termX x y := by
  simp only [termX, hi_neg, lo_neg, neg_sq]
  rw [log_conj (lo y) (hi y) (hi x ^ 2) (sq_pos_of_ne' (hi_ne x)), log_conj (hi y) (lo y) (lo x ^ 2) (sq_pos_of_ne' (lo_ne x))]

lemma termY_neg_x (x y : ℤ) : termY (-x) y = termY x y := by rw [← termX_swap, ← termX_swap, termX_neg_y]
lemma termY_neg_y (x y : ℤ) : termY x (-y) = termY x y := by rw [← termX_swap, ← termX_swap, termX_neg_x]

/-- The primitive whose increment over `[el, k]` is the sum of the two brackets. -/
noncomputable def prim (m n k : ℝ) : ℝ :=
  k * (log (m + sqrt (k ^ 2 + m ^ 2)) - log (n + sqrt (k ^ 2 + n ^ 2))) +
    m * log (k + sqrt (k ^ 2 + m ^ 2)) - n * log (k + sqrt (k ^ 2 + n ^ 2))

lemma hasDerivAt_part (m k : ℝ) (hk : 0 < k) :
    HasDerivAt (fun k => k * log (m + sqrt (k ^ 2 + m ^ 2)) + m * log (k + sqrt (k ^ 2 + m ^ 2)))
      (log (m + sqrt (k ^ 2 + m ^ 2)) + 1) k := by
  have hpos : 0 < k ^ 2 + m ^ 2 := by positivity
  have hs : 0 < sqrt (k ^ 2 + m ^ 2) := sqrt_pos.mpr hpos
  have h1 : HasDerivAt (fun k : ℝ => k ^ 2 + m ^ 2) (2 * k) k := by
    have := (hasDerivAt_pow 2 k).add_const (m ^ 2)
    simpa using this
  have h2 : HasDerivAt (fun k : ℝ => sqrt (k ^ 2 + m ^ 2)) (k / sqrt (k ^ 2 + m ^ 2)) k := by
    have := h1.sqrt hpos.ne'
    convert this using 1
    field_simp
  have pm : 0 < m + sqrt (k ^ 2 + m ^ 2) := add_sqrt_pos m (k ^ 2) (by positivity)
  have pk : 0 < k + sqrt (k ^ 2 + m ^ 2) := by positivity
  have h3 := (h2.const_add m).log pm.ne'
  have h4 := ((hasDerivAt_id k).add h2).log (by simpa using pk.ne')
  have h5 := ((hasDerivAt_id k).mul h3).add (h4.const_mul m)
  refine h5.congr_deriv ?_
  have hsq : sqrt (k ^ 2 + m ^ 2) ^ 2 = k ^ 2 + m ^ 2 := sq_sqrt hpos.le
  set q := sqrt (k ^ 2 + m ^ 2) with hq
  have e1 : 1 + k / q = (q + k) / q := by field_simp
  have : k * (k / q / (m + q)) + m * ((1 + k / q) / (k + q)) = 1 := by
    rw [e1]
    have hqk : q + k ≠ 0 := by positivity
    have hkq : k + q ≠ 0 := by positivity
    have hmq := pm.ne'
    field_simp
    nlinarith
  simp only [Pi.add_apply, id_eq, one_mul]
  linarith

lemma hasDerivAt_prim (m n k : ℝ) (hk : 0 < k) :
    HasDerivAt (prim m n) (log (m + sqrt (k ^ 2 + m ^ 2)) - log (n + sqrt (k ^ 2 + n ^ 2))) k := by
  have h := (hasDerivAt_part m k hk).sub (hasDerivAt_part n k hk)
  have e : prim m n = (fun k => k * log (m + sqrt (k ^ 2 + m ^ 2)) + m * log (k + sqrt (k ^ 2 + m ^ 2))) -
      (fun k => k * log (n + sqrt (k ^ 2 + n ^ 2)) + n * log (k + sqrt (k ^ 2 + n ^ 2))) := by
    funext k; simp only [prim, Pi.sub_apply]; ring
  rw [e]
  have e2 : log (m + sqrt (k ^ 2 + m ^ 2)) - log (n + sqrt (k ^ 2 + n ^ 2)) =
      (log (m + sqrt (k ^ 2 + m ^ 2)) + 1) - (log (n + sqrt (k ^ 2 + n ^ 2)) + 1) := by ring
  rw [e2]
  exact h

lemma add_sqrt_strictMono {a b s : ℝ} (h : a < b) (hs : 0 < s) : a + sqrt (s + a ^ 2) < b + sqrt (s + b ^ 2) := by
  have key : ∀ a b : ℝ, 0 ≤ a → a < b → a + sqrt (s + a ^ 2) < b + sqrt (s + b ^ 2) := by
    intro a b ha hab
    have : sqrt (s + a ^ 2) ≤ sqrt (s + b ^ 2) := sqrt_le_sqrt (by nlinarith)
    linarith
  have neg : ∀ a b : ℝ, b ≤ 0 → a < b → a + sqrt (s + a ^ 2) < b + sqrt (s + b ^ 2) := by
    intro a b hb hab
    have h1 := key (-b) (-a) (by linarith) (by linarith)
    rw [neg_sq, neg_sq] at h1
    have pa := add_sqrt_pos a s hs
    have pb := add_sqrt_pos b s hs
    have ca := conj_mul a s hs
    have cb := conj_mul b s hs
    have pa' : 0 < -a + sqrt (s + a ^ 2) := by have := add_sqrt_pos (-a) s hs; simpa using this
    have pb' : 0 < -b + sqrt (s + b ^ 2) := by have := add_sqrt_pos (-b) s hs; simpa using this
    have ea : a + sqrt (s + a ^ 2) = s / (-a + sqrt (s + a ^ 2)) := by rw [eq_div_iff pa'.ne', ca]
    have eb : b + sqrt (s + b ^ 2) = s / (-b + sqrt (s + b ^ 2)) := by rw [eq_div_iff pb'.ne', cb]
    rw [ea, eb]
    exact div_lt_div_of_pos_left hs pb' h1
  rcases le_or_gt 0 a with ha | ha
  · exact key a b ha h
  · rcases le_or_gt b 0 with hb | hb
    · exact neg a b hb h
    · have h1 := neg a 0 le_rfl ha
      have h2 := key 0 b le_rfl hb
      linarith

/-- The two brackets together are the increment of the primitive. -/
lemma terms_eq_prim (x y : ℤ) (hx : 0 < lo x) :
    termX x y + termY x y = prim (hi y) (lo y) (hi x) - prim (hi y) (lo y) (lo x) := by
  have hk : 0 < hi x := by unfold hi; unfold lo at hx; linarith
  have p1 := add_sqrt_pos (hi y) (hi x ^ 2) (by positivity)
  have p2 := add_sqrt_pos (lo y) (hi x ^ 2) (by positivity)
  have p3 := add_sqrt_pos (hi y) (lo x ^ 2) (by positivity)
  have p4 := add_sqrt_pos (lo y) (lo x ^ 2) (by positivity)
  have q1 : 0 < hi x + sqrt (hi x ^ 2 + hi y ^ 2) := by positivity
  have q2 : 0 < hi x + sqrt (hi x ^ 2 + lo y ^ 2) := by positivity
  have q3 : 0 < lo x + sqrt (lo x ^ 2 + hi y ^ 2) := by positivity
  have q4 : 0 < lo x + sqrt (lo x ^ 2 + lo y ^ 2) := by positivity
  simp only [termX, termY, prim]
  rw [log_div p1.ne' p2.ne', log_div p4.ne' p3.ne', log_div q1.ne' q3.ne', log_div q4.ne' q2.ne']
  ring

lemma terms_pos_of_lo_pos (x y : ℤ) (hx : 0 < lo x) : 0 < termX x y + termY x y := by
  rw [terms_eq_prim x y hx]
  have hlt : lo x < hi x := by unfold hi lo; linarith
  have hmn : lo y < hi y := by unfold hi lo; linarith
  have hcont : ContinuousOn (prim (hi y) (lo y)) (Set.Icc (lo x) (hi x)) := fun k hk =>
    ((hasDerivAt_prim (hi y) (lo y) k (lt_of_lt_of_le hx hk.1)).continuousAt).continuousWithinAt
  have hd : ∀ k ∈ interior (Set.Icc (lo x) (hi x)), 0 < deriv (prim (hi y) (lo y)) k := by
    intro k hk
    rw [interior_Icc] at hk
    have hkp : 0 < k := hx.trans hk.1
    rw [(hasDerivAt_prim (hi y) (lo y) k hkp).deriv]
    have := log_lt_log (add_sqrt_pos (lo y) (k ^ 2) (by positivity)) (add_sqrt_strictMono hmn (by positivity : 0 < k ^ 2))
    linarith
  have := strictMonoOn_of_deriv_pos (convex_Icc _ _) hcont hd (Set.left_mem_Icc.mpr hlt.le) (Set.right_mem_Icc.mpr hlt.le) hlt
  linarith

lemma lo_pos_of_pos {x : ℤ} (h : 0 < x) : 0 < lo x := by
  have : (1 : ℝ) ≤ x := by exact_mod_cast h
  unfold lo; linarith

lemma termX_zero_pos : 0 < termX 0 0 := by
  have h1 : (hi 0 : ℝ) = 1 / 2 := by simp [hi]
  have h2 : (lo 0 : ℝ) = -(1 / 2) := by simp [lo]
  simp only [termX, h1, h2, neg_sq]
  have ps : (0 : ℝ) < (1 / 2) ^ 2 := by positivity
  have p1 := add_sqrt_pos (1 / 2) ((1 / 2) ^ 2) ps
  have p2 : 0 < -(1 / 2) + sqrt ((1 / 2) ^ 2 + (1 / 2) ^ 2) := by
    have := add_sqrt_pos (-(1 / 2)) ((1 / 2) ^ 2) ps; rwa [neg_sq] at this
  have hlt : -(1 / 2) + sqrt ((1 / 2) ^ 2 + (1 / 2) ^ 2) < 1 / 2 + sqrt ((1 / 2) ^ 2 + (1 / 2) ^ 2) := by linarith
  have l1 : 0 < log ((1 / 2 + sqrt ((1 / 2) ^ 2 + (1 / 2) ^ 2)) / (-(1 / 2) + sqrt ((1 / 2) ^ 2 + (1 / 2) ^ 2))) :=
    log_pos ((one_lt_div p2).mpr hlt)
  have l2 : log ((-(1 / 2) + sqrt ((1 / 2) ^ 2 + (1 / 2) ^ 2)) / (1 / 2 + sqrt ((1 / 2) ^ 2 + (1 / 2) ^ 2))) < 0 :=
    log_neg (div_pos p2 p1) ((div_lt_one p1).mpr hlt)
  linarith

/-- The sum of the two brackets is positive for every offset. -/
lemma terms_pos (x y : ℤ) : 0 < termX x y + termY x y := by
  rcases lt_trichotomy x 0 with hx | rfl | hx
  · have := terms_pos_of_lo_pos (-x) y (lo_pos_of_pos (by omega))
    rwa [termX_neg_x, termY_neg_x] at this
  · rcases lt_trichotomy y 0 with hy | rfl | hy
    · have := terms_pos_of_lo_pos (-y) 0 (lo_pos_of_pos (by omega))
      rw [termX_neg_x, termY_neg_x, termX_swap, ← termX_swap 0 y] at this
      linarith
    · have h := termX_zero_pos
      have : termY 0 0 = termX 0 0 := (termX_swap 0 0).symm
      linarith
    · have := terms_pos_of_lo_pos y 0 (lo_pos_of_pos hy)
      rw [termX_swap, ← termX_swap 0 y] at this
      linarith
  · exact terms_pos_of_lo_pos x y (lo_pos_of_pos hx)

end Verif.InfMat
