import Verif.HertzFull.Angle
import Verif.HertzFull.Spec
import Mathlib.Analysis.Real.Pi.Bounds
import Mathlib.Tactic.LinearCombination
import Mathlib.Tactic.Positivity

/-!
# C37: the relative curvatures of two bodies
-/

namespace Verif.HertzFull

open Real Spec

/-- The matrix of relative curvature of the two bodies of the problem. -/
noncomputable def bodies (p : Args) : Matrix (Fin 2) (Fin 2) ℝ := curvatureMatrix p.r1x.curv p.r1y.curv p.r2x.curv p.r2y.curv p.angle

/-- The principal directions of relative curvature are determined: the difference of the relative curvatures is not zero. -/
def Determined (p : Args) : Prop := p.constA ^ 2 + p.constB ^ 2 + 2 * p.constA * p.constB * cos (2 * p.angle) ≠ 0

/-- The arguments pass the checks at the start of `hertz_full`. -/
structure Accepted (p : Args) : Prop where
  r1x : ¬ p.r1x.isZero
  r1y : ¬ p.r1y.isZero
  r2x : ¬ p.r2x.isZero
  r2y : ¬ p.r2y.isZero
  load : 0 < p.load

theorem cos_two_ang (p : Args) : cos (2 * p.ang) = cos (2 * p.angle) := by
  obtain ⟨n, hn⟩ := reduceAngle_mod p.angle
  unfold Args.ang
  rw [hn, show 2 * (p.angle - n * π) = 2 * p.angle - n * (2 * π) by ring, cos_sub_int_mul_two_pi]

theorem sum_k (p : Args) : p.k1 + p.k2 = p.r1x.curv + p.r1y.curv + p.r2x.curv + p.r2y.curv := by
  unfold Args.k1 Args.k2
  have h1 := sin_sq_add_cos_sq p.alpha
  have h2 := sin_sq_add_cos_sq p.beta
  linear_combination (p.r1x.curv + p.r1y.curv) * h1 + (p.r2x.curv + p.r2y.curv) * h2

theorem diff_k (p : Args) : p.k1 - p.k2 = p.constB * cos (2 * p.alpha) + p.constA * cos (2 * p.beta) := by
  unfold Args.k1 Args.k2 Args.constA Args.constB
  have h1 := sin_sq_add_cos_sq p.alpha
  have h2 := sin_sq_add_cos_sq p.beta
  rw [cos_two_mul, cos_two_mul]
  linear_combination (p.r1y.curv - p.r1x.curv) * h1 + (p.r2y.curv - p.r2x.curv) * h2

theorem diff_k_determined {p : Args} (h : Determined p) :
    p.k1 - p.k2 = sqrt (p.constA ^ 2 + p.constB ^ 2 + 2 * p.constA * p.constB * cos (2 * p.angle)) := by
  rw [diff_k, ← cos_two_ang]
  exact curv_diff (by rw [cos_two_ang]; exact h)

theorem gap_nonneg (a b t : ℝ) : 0 ≤ a ^ 2 + b ^ 2 + 2 * a * b * cos t := by
  rw [← modulus_eq a b t]
  positivity

theorem gap_pos {p : Args} (h : Determined p) :
    0 < sqrt (p.constA ^ 2 + p.constB ^ 2 + 2 * p.constA * p.constB * cos (2 * p.angle)) :=
  sqrt_pos.mpr (lt_of_le_of_ne (gap_nonneg _ _ _) (Ne.symm h))

theorem trace_bodies (p : Args) : (bodies p).trace = p.r1x.curv + p.r1y.curv + p.r2x.curv + p.r2y.curv := by
  have h1 := sin_sq_add_cos_sq p.angle
  simp [bodies, curvatureMatrix, Matrix.trace, Fin.sum_univ_two, Matrix.mul_apply]
  linear_combination (p.r2x.curv + p.r2y.curv) * h1

theorem det_bodies (p : Args) : 4 * (bodies p).det =
    (p.r1x.curv + p.r1y.curv + p.r2x.curv + p.r2y.curv) ^ 2 -
      (p.constA ^ 2 + p.constB ^ 2 + 2 * p.constA * p.constB * cos (2 * p.angle)) := by
  have h1 := sin_sq_add_cos_sq p.angle
  have hs : sin p.angle ^ 2 = 1 - cos p.angle ^ 2 := by linarith
  rw [cos_two_mul]
  simp [bodies, curvatureMatrix, Matrix.det_fin_two, Matrix.mul_apply, Fin.sum_univ_two, Args.constA, Args.constB]
  generalize p.r1x.curv = k1 at *
  generalize p.r1y.curv = k2 at *
  generalize p.r2x.curv = k3 at *
  generalize p.r2y.curv = k4 at *
  generalize cos p.angle = c at *
  generalize sin p.angle = s at *
  have e : s * s = 1 - c * c := by nlinarith
  linear_combination (4 * k1 * k3 + 4 * k2 * k4 + 4 * k3 * k4 * (1 + c * c + s * s)) * e

/-- **C37**: the relative curvatures have the right sum, for all bodies and angles. -/
theorem C37_right_sum (p : Args) : p.k1 + p.k2 = (bodies p).trace := by rw [sum_k, trace_bodies]

/-- **C37**: wherever the principal directions are determined, the two numbers are the principal relative curvatures, the larger one first. This
holds also for the bodies that the internal check refuses. -/
theorem C37_principal_curvatures {p : Args} (h : Determined p) : Eigenvalues (bodies p) p.k1 p.k2 ∧ p.k2 < p.k1 := by
  have hd := diff_k_determined h
  have hs := sum_k p
  have hp := gap_pos h
  refine ⟨⟨by rw [hs, trace_bodies], ?_⟩, by linarith⟩
  have hdet := det_bodies p
  have hsq := sq_sqrt (gap_nonneg p.constA p.constB (2 * p.angle))
  rw [← hd] at hsq
  rw [← hs] at hdet
  linear_combination -(1 / 4) * hdet - (1 / 4) * hsq

/-- The internal check "There is a bug in this program" fails. -/
def InternalError (p : Args) : Prop := 1e-8 < |p.alpha + p.beta - p.ang|

/-- **C37**: the internal check fails exactly for bodies whose first principal curvature is smaller than the second in both bodies. -/
theorem C37_internal_error_iff {p : Args} (h : Determined p) :
    InternalError p ↔ p.r1x.curv < p.r1y.curv ∧ p.r2x.curv < p.r2y.curv := by
  obtain ⟨l, u⟩ := reduceAngle_range p.angle
  obtain ⟨n, hn, hiff⟩ := sum_iff (a := p.constA) (b := p.constB) (t := 2 * p.ang) (by unfold Args.ang; linarith)
    (by unfold Args.ang; linarith) (by rw [cos_two_ang]; exact h)
  have hval : p.alpha + p.beta - p.ang = n * π := by
    have : 2 * (p.alpha + p.beta - p.ang) = n * (2 * π) := by rw [← hn]; unfold Args.alpha Args.beta; ring
    linarith
  have hp := pi_gt_three
  have key : InternalError p ↔ n ≠ 0 := by
    unfold InternalError
    rw [hval]
    constructor
    · rintro h0 rfl
      norm_num at h0
    · intro h0
      have h1 : (1 : ℝ) ≤ |(n : ℝ)| := by
        have := Int.one_le_abs h0
        exact_mod_cast this
      rw [abs_mul, abs_of_pos pi_pos]
      nlinarith
  rw [key, ne_eq, hiff, not_not]
  unfold Args.constA Args.constB
  constructor
  · rintro ⟨h1, h2⟩
    exact ⟨by linarith, by linarith⟩
  · rintro ⟨h1, h2⟩
    exact ⟨by linarith, by linarith⟩

theorem hertzFull_internal {p : Args} (ell : EllipseFinder) (h : InternalError p) : hertzFull ell p = .error .valueError := by
  unfold hertzFull
  split
  · rfl
  split
  · rfl
  exact if_pos h

/-- **C37 (negation)**: for every pair of bodies with the smaller curvature first there is no solution, whatever the angle, load and flags. -/
theorem C37_smaller_curvature_first_fails {p : Args} (h : Determined p) (h1 : p.r1x.curv < p.r1y.curv) (h2 : p.r2x.curv < p.r2y.curv)
    (ell : EllipseFinder) : hertzFull ell p = .error .valueError :=
  hertzFull_internal ell ((C37_internal_error_iff h).mpr ⟨h1, h2⟩)

/-- Two crossed bodies with radii 2 and 1 each. -/
noncomputable def crossed : Args := ⟨.fin 2, .fin 1, .fin 2, .fin 1, 1, 1, 0, 0, 1, 0, false⟩

theorem crossed_determined : Determined crossed := by
  unfold Determined Args.constA Args.constB crossed Radius.curv
  norm_num

/-- The hypothesis of `C37_principal_curvatures` and `C37_internal_error_iff`. -/
example : Determined crossed ∧ crossed.r1x.curv < crossed.r1y.curv ∧ crossed.r2x.curv < crossed.r2y.curv ∧ Accepted crossed :=
  ⟨crossed_determined, by norm_num [crossed, Radius.curv], by norm_num [crossed, Radius.curv],
    ⟨by norm_num [crossed, Radius.isZero], by norm_num [crossed, Radius.isZero], by norm_num [crossed, Radius.isZero],
      by norm_num [crossed, Radius.isZero], by norm_num [crossed]⟩⟩

/-- The same bodies with the axes of each body named the other way round. -/
def relabel (p : Args) : Args := { p with r1x := p.r1y, r1y := p.r1x, r2x := p.r2y, r2y := p.r2x }

/-- **C37 (negation)**: naming the axes of both bodies the other way round describes the same contact (the relative curvatures are the same) but
decides whether there is a solution. -/
theorem C37_depends_on_the_names_of_the_axes {p : Args} (h : Determined p) (h1 : p.r1x.curv < p.r1y.curv) (h2 : p.r2x.curv < p.r2y.curv) :
    InternalError p ∧ ¬ InternalError (relabel p) ∧ (relabel p).k1 = p.k1 ∧ (relabel p).k2 = p.k2 := by
  have hA : (relabel p).constA = -p.constA := by simp [relabel, Args.constA]
  have hB : (relabel p).constB = -p.constB := by simp [relabel, Args.constB]
  have he : (relabel p).constA ^ 2 + (relabel p).constB ^ 2 + 2 * (relabel p).constA * (relabel p).constB * cos (2 * (relabel p).angle) =
      p.constA ^ 2 + p.constB ^ 2 + 2 * p.constA * p.constB * cos (2 * p.angle) := by
    rw [hA, hB, show (relabel p).angle = p.angle from rfl]
    ring
  have h' : Determined (relabel p) := by
    unfold Determined
    rw [he]
    exact h
  have d1 := diff_k_determined h
  have d2 := diff_k_determined h'
  rw [he] at d2
  have s1 := sum_k p
  have s2 := sum_k (relabel p)
  have s3 : (relabel p).r1x.curv + (relabel p).r1y.curv + (relabel p).r2x.curv + (relabel p).r2y.curv =
      p.r1x.curv + p.r1y.curv + p.r2x.curv + p.r2y.curv := by
    simp only [relabel]
    ring
  refine ⟨(C37_internal_error_iff h).mpr ⟨h1, h2⟩, ?_, by linarith, by linarith⟩
  rw [C37_internal_error_iff h']
  rintro ⟨h3, _⟩
  simp only [relabel] at h3
  linarith

example : InternalError crossed ∧ ¬ InternalError (relabel crossed) := by
  have h := C37_depends_on_the_names_of_the_axes crossed_determined (by norm_num [crossed, Radius.curv]) (by norm_num [crossed, Radius.curv])
  exact ⟨h.1, h.2.1⟩

/-- **C37 (negation)**: two spheres at an angle that is not a multiple of a half turn: no solution, although the angle between the axes of
spheres has no meaning. -/
theorem C37_spheres_at_an_angle_fail {p : Args} (h1 : p.r1x = p.r1y) (h2 : p.r2x = p.r2y) (ha : 1e-8 < |p.ang|) (ell : EllipseFinder) :
    hertzFull ell p = .error .valueError := by
  apply hertzFull_internal
  have hA : p.constA = 0 := by simp [Args.constA, h2]
  have hB : p.constB = 0 := by simp [Args.constB, h1]
  have h3 : p.alpha = 0 := by
    unfold Args.alpha alpha
    rw [hA, hB, zero_mul, zero_mul, add_zero, atan2_zero_pos _ le_rfl, zero_div]
  have h4 : p.beta = 0 := by
    unfold Args.beta beta
    rw [hA, hB, zero_mul, zero_mul, add_zero, atan2_zero_pos _ le_rfl, zero_div]
  unfold InternalError
  rw [h3, h4, zero_add, zero_sub, abs_neg]
  exact ha

theorem ang_one : (⟨.fin 1, .fin 1, .fin 2, .fin 2, 1, 1, 0, 0, 1, 1, false⟩ : Args).ang = 1 := by
  have h3 := pi_gt_three
  have hf : ⌊(1 : ℝ) / π⌋ = 0 := by
    rw [Int.floor_eq_zero_iff]
    refine ⟨by positivity, ?_⟩
    rw [div_lt_one pi_pos]
    linarith
  unfold Args.ang reduceAngle
  simp only [hf]
  norm_num
  linarith

example : ∃ p : Args, p.r1x = p.r1y ∧ p.r2x = p.r2y ∧ 1e-8 < |p.ang| ∧ Accepted p :=
  ⟨⟨.fin 1, .fin 1, .fin 2, .fin 2, 1, 1, 0, 0, 1, 1, false⟩, rfl, rfl, by rw [ang_one]; norm_num,
    ⟨by norm_num [Radius.isZero], by norm_num [Radius.isZero], by norm_num [Radius.isZero], by norm_num [Radius.isZero], by norm_num⟩⟩

/-- Half turns do not matter. -/
theorem C37_half_turn (ell : EllipseFinder) (p : Args) : hertzFull ell { p with angle := p.angle + π } = hertzFull ell p := by
  have h := reduceAngle_add_pi p.angle
  obtain ⟨r1x, r1y, r2x, r2y, e1, e2, v1, v2, load, angle, line⟩ := p
  unfold hertzFull lineResult sphereResult ellipseResult Args.k1 Args.k2 Args.alpha Args.beta Args.cosOmega Args.eStar Args.constA
    Args.constB Args.ang
  dsimp only at h ⊢
  rw [h]

theorem recip_pos {k : ℝ} (h : 0 < k) : recip k = .fin (1 / k) := by
  unfold recip
  show XR.div _ _ = _
  simp [XR.div, h.ne']

theorem recip_zero : recip 0 = .pinf := by
  unfold recip
  show XR.div _ _ = _
  simp [XR.div, XR.signInf]

theorem recip_neg {k : ℝ} (h : k < 0) : recip k = .fin (1 / k) := by
  unfold recip
  show XR.div _ _ = _
  simp [XR.div, h.ne]

end Verif.HertzFull
