import Mathlib.Analysis.SpecialFunctions.Trigonometric.Bounds
import Mathlib.MeasureTheory.Integral.DominatedConvergence
import Mathlib.Topology.Order.IntermediateValue
import Verif.Ellipse.Displacement

/-! # C130: the root of the elliptical contact is in the bracket -/

namespace Verif.Ellipse

open Real HertzFull intervalIntegral Set

/-- What is assumed of the root finder besides `Exact`: it answers if the function is continuous and changes its sign. -/
def Answers (root : RootFinder) : Prop :=
  ∀ F l u, l ≤ u → ContinuousOn F (Icc l u) → F l ≤ 0 → 0 ≤ F u → ∃ k, root F l u = some k

/-! ## Continuity -/

theorem continuous_G {l : ℝ} (hl : 0 < l) (n : ℕ) :
    ContinuousOn (fun k => ∫ t in (0 : ℝ)..(π / 2), sin t ^ 2 / dl (1 - k ^ 2) t ^ n) (Icc l 1) := by
  have hc : Continuous fun k => ∫ t in (0 : ℝ)..(π / 2), sin t ^ 2 / dl (1 - (max k l) ^ 2) t ^ n := by
    refine continuous_parametric_intervalIntegral_of_continuous' ?_ 0 (π / 2)
    refine Continuous.div (by fun_prop) ?_ fun q => (pow_pos (dl_pos (lt_of_pos (hl.trans_le (le_max_right _ _))) _) n).ne'
    unfold dl
    fun_prop
  refine hc.continuousOn.congr fun k hk => ?_
  dsimp only
  rw [max_eq_left hk.1]

theorem continuous_kRoot {l omega : ℝ} (hl : 0 < l) : ContinuousOn (kRoot omega) (Icc l 1) := by
  have h : ContinuousOn (fun k => k ^ 3 / tan (omega / 2) ^ 2 - (k ^ 3 * ∫ t in (0 : ℝ)..(π / 2), sin t ^ 2 / dl (1 - k ^ 2) t ^ 3) /
      ∫ t in (0 : ℝ)..(π / 2), sin t ^ 2 / dl (1 - k ^ 2) t ^ 1) (Icc l 1) := by
    refine ContinuousOn.sub (Continuous.continuousOn (by fun_prop)) (ContinuousOn.div ?_ (continuous_G hl 1) fun k hk => ?_)
    · exact (Continuous.continuousOn (by fun_prop)).mul (continuous_G hl 3)
    · exact (sin_cube_pos (lt_of_pos (hl.trans_le hk.1)) 1).ne'
  refine h.congr fun k hk => ?_
  unfold kRoot
  rw [intI_eq (hl.trans_le hk.1), intJ_eq (hl.trans_le hk.1)]

/-! ## The ends of the bracket -/

theorem ellipe_ge {m : ℝ} (hm : m ≤ 1) : 1 ≤ ellipe m := by
  have h1 : ∫ t in (0 : ℝ)..(π / 2), cos t = 1 := by simp
  rw [← h1, ellipe_eq]
  refine integral_mono_on (by positivity) (continuous_cos.intervalIntegrable _ _) ((continuous_dl m).intervalIntegrable _ _) fun t _ => ?_
  unfold dl
  refine le_sqrt_of_sq_le ?_
  rw [cos_sq']
  nlinarith [sq_nonneg (sin t)]

theorem dl_ge_cos {m : ℝ} (hm : m ≤ 1) {t : ℝ} : cos t ≤ dl m t := by
  unfold dl
  refine le_sqrt_of_sq_le ?_
  rw [cos_sq']
  nlinarith [sq_nonneg (sin t)]

theorem dl_ge {k : ℝ} (hk : 0 < k) (hk1 : k ≤ 1) (t : ℝ) : k ≤ dl (1 - k ^ 2) t := by
  unfold dl
  refine le_sqrt_of_sq_le ?_
  have := sin_sq_le_one t
  nlinarith [mul_le_of_le_one_right (show 0 ≤ 1 - k ^ 2 by nlinarith) this]

theorem ellipk_le : ellipk (1 - (0.00001 : ℝ) ^ 2) ≤ 20000 := by
  have hk : (0 : ℝ) < 0.00001 := by norm_num
  have hm := lt_of_pos hk
  have hp3 := pi_gt_three
  have hp4 := pi_lt_d2
  rw [ellipk_eq, ← integral_add_adjacent_intervals (integrable hm (by fun_prop) 1 0 (π / 2 - 0.1)) (integrable hm (by fun_prop) 1 _ _)]
  have h1 : ∫ t in (0 : ℝ)..(π / 2 - 0.1), 1 / dl (1 - (0.00001 : ℝ) ^ 2) t ^ 1 ≤ ∫ _ in (0 : ℝ)..(π / 2 - 0.1), (20 : ℝ) := by
    refine integral_mono_on (by linarith) (integrable hm (by fun_prop) 1 _ _) (continuous_const.intervalIntegrable _ _) fun t ht => ?_
    have hs : 0.06 ≤ sin (π / 2 - t) := by
      have := mul_le_sin (x := π / 2 - t) (by linarith [ht.2]) (by linarith [ht.1])
      refine le_trans ?_ this
      rw [div_mul_eq_mul_div, le_div_iff₀ pi_pos]
      have := ht.2
      nlinarith
    rw [sin_pi_div_two_sub] at hs
    have := dl_ge_cos hm.le (t := t)
    rw [pow_one, div_le_iff₀ (dl_pos hm t)]
    linarith
  have h2 : ∫ t in (π / 2 - 0.1)..(π / 2), 1 / dl (1 - (0.00001 : ℝ) ^ 2) t ^ 1 ≤ ∫ _ in (π / 2 - 0.1)..(π / 2), (100000 : ℝ) := by
    refine integral_mono_on (by linarith) (integrable hm (by fun_prop) 1 _ _) (continuous_const.intervalIntegrable _ _) fun t _ => ?_
    have := dl_ge hk (by norm_num) t
    rw [pow_one, div_le_iff₀ (dl_pos hm t)]
    linarith
  simp only [integral_const, smul_eq_mul] at h1 h2
  nlinarith

theorem lower_end {c : ℝ} (h0 : 0 < c) (h1 : c < 1) (hc : 3e-6 * (1 + c) ≤ 1 - c) : kRoot (arccos c) 0.00001 ≤ 0 := by
  have hk : (0 : ℝ) < 0.00001 := by norm_num
  have hm := lt_of_pos hk
  have hT := int_sin_cube hm
  have hE := int_one_cube hm
  have hS := int_sin hm
  have hK := ellipk_le
  have hE1 := ellipe_ge hm.le
  have hI0 := sin_cube_pos hm 1
  unfold kRoot
  rw [tan_eq_sin_div_cos, div_pow, sin_half_sq h0 h1, cos_half_sq h0 h1, intI_eq hk, intJ_eq hk]
  generalize (∫ t in (0 : ℝ)..(π / 2), sin t ^ 2 / dl (1 - (0.00001 : ℝ) ^ 2) t ^ 3) = T at *
  generalize (∫ t in (0 : ℝ)..(π / 2), 1 / dl (1 - (0.00001 : ℝ) ^ 2) t ^ 3) = U at *
  generalize (∫ t in (0 : ℝ)..(π / 2), sin t ^ 2 / dl (1 - (0.00001 : ℝ) ^ 2) t ^ 1) = I at *
  generalize ellipk (1 - (0.00001 : ℝ) ^ 2) = K at *
  generalize ellipe (1 - (0.00001 : ℝ) ^ 2) = E at *
  have hc1 : 0 < 1 - c := by linarith
  have hU : 1e10 ≤ U := by
    norm_num at hE
    linarith
  have hT1 : 9e9 ≤ T := by
    norm_num at hT
    linarith
  have hI1 : I ≤ 20001 := by
    norm_num at hS
    linarith
  rw [sub_nonpos]
  have key : I * (1 + c) ≤ T * (1 - c) := by nlinarith
  have e1 : (0.00001 : ℝ) ^ 3 / ((1 - c) / 2 / ((1 + c) / 2)) = 0.00001 ^ 3 * ((1 + c) / (1 - c)) := by field_simp
  rw [e1, mul_div_assoc]
  refine mul_le_mul_of_nonneg_left ?_ (by norm_num)
  rw [div_le_div_iff₀ hc1 hI0]
  linarith

theorem upper_end {c : ℝ} (h0 : 0 < c) (h1 : c < 1) : 0 ≤ kRoot (arccos c) 1 := by
  have hc1 : 0 < 1 - c := by linarith
  unfold kRoot
  rw [tan_eq_sin_div_cos, div_pow, sin_half_sq h0 h1, cos_half_sq h0 h1, intI_eq one_pos, intJ_eq one_pos]
  have h3 : ∫ t in (0 : ℝ)..(π / 2), sin t ^ 2 / dl (1 - 1 ^ 2) t ^ 3 = ∫ t in (0 : ℝ)..(π / 2), sin t ^ 2 / dl (1 - 1 ^ 2) t ^ 1 := by
    simp [dl]
  rw [h3, one_pow, one_mul, div_self (sin_cube_pos (by norm_num) 1).ne', sub_nonneg, le_div_iff₀ (by positivity), one_mul,
    div_le_one (by positivity)]
  linarith

/-! ## The auxiliary angle -/

theorem cosOmega_bounds {p : Args} (hdet : Determined p) {κ μ : ℝ} (hE : HertzFull.Spec.Eigenvalues (bodies p) κ μ) (hlt : μ < κ) (hpos : 0 < μ)
    (hratio : κ ≤ 1e5 * μ) (hconv : p.constA ^ 2 + p.constB ^ 2 ≤ (bodies p).trace ^ 2) :
    0 < p.cosOmega ∧ p.cosOmega < 1 ∧ 3e-6 * (1 + p.cosOmega) ≤ 1 - p.cosOmega := by
  obtain ⟨hk, hkl⟩ := C37_principal_curvatures hdet
  obtain ⟨e1, e2⟩ := eigen_unique hk hE hkl.le hlt.le
  have hd := diff_k_determined hdet
  have hg := gap_nonneg p.constA p.constB (2 * p.angle)
  have hsq : (κ - μ) ^ 2 = p.constA ^ 2 + p.constB ^ 2 + 2 * p.constA * p.constB * cos (2 * p.angle) := by
    rw [← e1, ← e2, hd, sq_sqrt hg]
  rw [trace_bodies] at hconv
  have hs : p.r1x.curv + p.r1y.curv + p.r2x.curv + p.r2y.curv = κ + μ := by rw [← trace_bodies, ← hE.1]
  have hX : p.constB ^ 2 + p.constA ^ 2 + p.constB * p.constA * cos (2 * p.ang) = ((κ - μ) ^ 2 + (p.constA ^ 2 + p.constB ^ 2)) / 2 := by
    rw [cos_two_ang, hsq]
    ring
  have hc0 : 0 < p.cosOmega := by
    unfold Args.cosOmega
    rw [hX, hs]
    have : 0 < (κ - μ) ^ 2 := by nlinarith
    exact div_pos (sqrt_pos.mpr (by positivity)) (by linarith)
  have hc2 : p.cosOmega ^ 2 * (κ + μ) ^ 2 ≤ ((κ - μ) ^ 2 + (κ + μ) ^ 2) / 2 := by
    unfold Args.cosOmega
    rw [hX, hs, div_pow, sq_sqrt (by positivity), div_mul_cancel₀ _ (by nlinarith)]
    rw [hs] at hconv
    linarith
  have hs0 : 0 < κ + μ := by linarith
  have hlow : 2 * (κ * μ) ≤ (1 - p.cosOmega ^ 2) * (κ + μ) ^ 2 := by nlinarith
  have h1 : 0 < 1 - p.cosOmega ^ 2 := by
    by_contra hc
    push Not at hc
    have : 0 < κ * μ := by nlinarith
    nlinarith [mul_nonneg (sub_nonneg.mpr hc) (sq_nonneg (κ + μ))]
  have hc1 : p.cosOmega < 1 := by nlinarith
  refine ⟨hc0, hc1, ?_⟩
  have hprod : (κ - 1e5 * μ) * (1e5 * κ - μ) ≤ 0 := mul_nonpos_of_nonpos_of_nonneg (by linarith) (by linarith)
  have hq : (κ + μ) ^ 2 * 1e5 ≤ κ * μ * (1e5 + 1) ^ 2 := by nlinarith
  have hbig : 1.8e-5 ≤ 1 - p.cosOmega ^ 2 := by
    by_contra hc
    push Not at hc
    have : 0 < (κ + μ) ^ 2 := by positivity
    have : (1 - p.cosOmega ^ 2) * (κ + μ) ^ 2 < 1.8e-5 * (κ + μ) ^ 2 := mul_lt_mul_of_pos_right hc this
    nlinarith
  clear hlow hq hprod hc2 hX hsq hd hg hE hratio hconv
  generalize p.cosOmega = c at *
  have h2 : (1 + c) ^ 2 ≤ 4 := by nlinarith
  have e3 : (3e-6 * (1 + c)) * (1 + c) = 3e-6 * (1 + c) ^ 2 := by ring
  have e4 : (1 - c) * (1 + c) = 1 - c ^ 2 := by ring
  have h3 : (3e-6 * (1 + c)) * (1 + c) ≤ (1 - c) * (1 + c) := by
    rw [e3, e4]
    linarith
  exact le_of_mul_le_mul_right h3 (by linarith)

/-- **C130 (partial)**: an elliptical contact of two bodies is solved, whatever root finder is used, if it finds roots where the sign changes; the
result closes the gap of bodies with the auxiliary angle of the code. Here the differences of the curvatures of the bodies are not large compared
to the relative curvatures, as for all convex bodies. Missing: bodies like a ball in a groove (`C130_groove_wrong`), the order of the radii (C37). -/
theorem C130_solved_partial {root : RootFinder} (hroot : Exact root) (hans : Answers root) {p : Args} (hm : Ordinary p) (hacc : Accepted p)
    (hdet : Determined p) (hnames : p.r1y.curv ≤ p.r1x.curv ∨ p.r2y.curv ≤ p.r2x.curv) {κ μ : ℝ}
    (hE : HertzFull.Spec.Eigenvalues (bodies p) κ μ) (hlt : μ < κ) (hpos : 0 < μ) (hratio : κ ≤ 1e5 * μ) (hline : p.line = false)
    (hconv : p.constA ^ 2 + p.constB ^ 2 ≤ (bodies p).trace ^ 2) :
    ∃ r, hertz root p = .ok r ∧ r.shape = .ellipse ∧ 0 < p.cosOmega ∧ p.cosOmega < 1 ∧ ∃ a b, 0 < b ∧ b < a ∧
      r.radiusA = .fin a ∧ r.radiusB = .fin b ∧
      (Spec.Closes a b r.maxPressure p.v1 p.e1 p.v2 p.e2 κ μ r.deflection ↔ p.constA * p.constB * cos (2 * p.angle) = 0) := by
  obtain ⟨h0, h1, hc⟩ := cosOmega_bounds hdet hE hlt hpos hratio hconv
  obtain ⟨k, hk⟩ := hans (kRoot (arccos p.cosOmega)) 0.00001 1 (by norm_num) (continuous_kRoot (by norm_num)) (lower_end h0 h1 hc)
    (upper_end h0 h1)
  have hf : finder root p.cosOmega = some ((2 * intI k / π / sin (arccos p.cosOmega / 2) ^ 2) ^ ((1 : ℝ) / 3),
      (2 * intJ k / π / cos (arccos p.cosOmega / 2) ^ 2) ^ ((1 : ℝ) / 3), intH k) := by
    unfold finder
    rw [if_neg (not_lt.mpr h1.le)]
    dsimp only
    rw [hk]
  obtain ⟨r, hr, hl, -, -⟩ := C37_elliptical_contact_partial hacc hdet hnames hE hlt.le hpos hratio hline hf
  have hs : 0 < (bodies p).trace := by rw [← hE.1]; linarith
  refine ⟨r, hr, hl, h0, h1, ?_⟩
  rw [← C66_auxiliary_angle_iff hdet hs hE hlt.le]
  by_cases hcos : p.cosOmega = (κ - μ) / (κ + μ)
  · obtain ⟨a, b, hb, hab, e1, e2, hcl⟩ := C130_closes_partial hm hroot hr hl hE hpos hlt hcos
    exact ⟨a, b, hb, hab, e1, e2, iff_of_true hcl hcos⟩
  · obtain ⟨a, b, hb, hab, e1, e2, hcl⟩ := C130_closes_wrong hm hroot hr hl hE hpos hlt h0 h1 hcos
    exact ⟨a, b, hb, hab, e1, e2, iff_of_false (hcl _) hcos⟩

/-- Convex bodies meet the last condition. -/
theorem C130_convex {p : Args} (h1 : 0 ≤ p.r1x.curv) (h2 : 0 ≤ p.r1y.curv) (h3 : 0 ≤ p.r2x.curv) (h4 : 0 ≤ p.r2y.curv) :
    p.constA ^ 2 + p.constB ^ 2 ≤ (bodies p).trace ^ 2 := by
  rw [trace_bodies]
  unfold Args.constA Args.constB
  nlinarith [mul_nonneg h1 h2, mul_nonneg h3 h4, mul_nonneg h1 h3, mul_nonneg h1 h4, mul_nonneg h2 h3, mul_nonneg h2 h4]

/-- A root finder as assumed. -/
theorem exists_root : ∃ root : RootFinder, Exact root ∧ Answers root := by
  classical
  refine ⟨fun F l u => if h : ∃ k, F k = 0 ∧ l ≤ k ∧ k ≤ u then some h.choose else none, ?_, ?_⟩
  · intro F l u k h
    dsimp only at h
    split at h
    · rename_i hex
      cases h
      exact hex.choose_spec
    · cases h
  · intro F l u hlu hF h0 h1
    have hex : ∃ k, F k = 0 ∧ l ≤ k ∧ k ≤ u := by
      obtain ⟨k, hk, hz⟩ := intermediate_value_Icc hlu hF ⟨h0, h1⟩
      exact ⟨k, hz, hk.1, hk.2⟩
    exact ⟨hex.choose, by dsimp only; rw [dif_pos hex]⟩

/-- The bodies with the radii 1 and 2, aligned: all theorems about solved contacts apply (`C129_centre_wrong`, `C130_closes_wrong`), and the gap is not closed. -/
example : ∃ root r, Exact root ∧ Ordinary aligned ∧ hertz root aligned = .ok r ∧ r.shape = .ellipse ∧ 0 < aligned.cosOmega ∧ aligned.cosOmega < 1 ∧
    ∃ a b, r.radiusA = .fin a ∧ r.radiusB = .fin b ∧ ¬ Spec.Closes a b r.maxPressure aligned.v1 aligned.e1 aligned.v2 aligned.e2 2 1 r.deflection := by
  obtain ⟨root, hroot, hans⟩ := exists_root
  have hm : Ordinary aligned := ⟨by norm_num [aligned], by norm_num [aligned], by norm_num [aligned], by norm_num [aligned]⟩
  obtain ⟨r, hr, hl, h0, h1, a, b, -, -, e1, e2, hcl⟩ := C130_solved_partial hroot hans hm aligned_accepted aligned_determined
    (Or.inl (by norm_num [aligned, Radius.curv])) aligned_eigen (by norm_num) one_pos (by norm_num) rfl
    (C130_convex (by norm_num [aligned, Radius.curv]) (by norm_num [aligned, Radius.curv]) (by norm_num [aligned, Radius.curv])
      (by norm_num [aligned, Radius.curv]))
  refine ⟨root, r, hroot, hm, hr, hl, h0, h1, a, b, e1, e2, ?_⟩
  rw [hcl]
  norm_num [aligned, Args.constA, Args.constB, Radius.curv]

/-- A body with the radii 1 and 2 on a flat. -/
noncomputable def onFlat : Args := ⟨.fin 1, .fin 2, .inf, .inf, 1, 1, 0, 0, 1, 0, false⟩

/-- Here the gap is closed (`C130_closes_partial`). -/
example : ∃ root r, Exact root ∧ Ordinary onFlat ∧ hertz root onFlat = .ok r ∧ r.shape = .ellipse ∧
    ∃ a b, r.radiusA = .fin a ∧ r.radiusB = .fin b ∧ Spec.Closes a b r.maxPressure onFlat.v1 onFlat.e1 onFlat.v2 onFlat.e2 1 (1 / 2) r.deflection := by
  obtain ⟨root, hroot, hans⟩ := exists_root
  have hm : Ordinary onFlat := ⟨by norm_num [onFlat], by norm_num [onFlat], by norm_num [onFlat], by norm_num [onFlat]⟩
  have hE : HertzFull.Spec.Eigenvalues (bodies onFlat) 1 (1 / 2) := by
    constructor
    · norm_num [bodies, HertzFull.Spec.curvatureMatrix, onFlat, Radius.curv, Matrix.trace, Fin.sum_univ_two]
    · norm_num [bodies, HertzFull.Spec.curvatureMatrix, onFlat, Radius.curv, Matrix.det_fin_two]
  obtain ⟨r, hr, hl, h0, h1, a, b, -, -, e1, e2, hcl⟩ := C130_solved_partial hroot hans hm
    ⟨by norm_num [onFlat, Radius.isZero], by norm_num [onFlat, Radius.isZero], by norm_num [onFlat, Radius.isZero],
      by norm_num [onFlat, Radius.isZero], by norm_num [onFlat]⟩
    (by unfold Determined Args.constA Args.constB onFlat Radius.curv; norm_num)
    (Or.inl (by norm_num [onFlat, Radius.curv])) hE (by norm_num) (by norm_num) (by norm_num) rfl
    (C130_convex (by norm_num [onFlat, Radius.curv]) (by norm_num [onFlat, Radius.curv]) (by norm_num [onFlat, Radius.curv])
      (by norm_num [onFlat, Radius.curv]))
  exact ⟨root, r, hroot, hm, hr, hl, a, b, e1, e2, hcl.mpr (by norm_num [onFlat, Args.constA, Args.constB, Radius.curv])⟩

/-- A body in a groove: curvatures 10.5 and -9.5 against -9 and 10. -/
noncomputable def groove : Args := ⟨.fin (2 / 21), .fin (-2 / 19), .fin (-1 / 9), .fin (1 / 10), 1, 1, 0, 0, 1, 0, false⟩

/-- **C130 (negation)**: a contact with the relative curvatures 3/2 and 1/2 for which the auxiliary angle is not a number. -/
theorem C130_groove_wrong : Ordinary groove ∧ Accepted groove ∧ HertzFull.Spec.Eigenvalues (bodies groove) (3 / 2) (1 / 2) ∧ 1 < groove.cosOmega := by
  refine ⟨⟨by norm_num [groove], by norm_num [groove], by norm_num [groove], by norm_num [groove]⟩,
    ⟨by norm_num [groove, Radius.isZero], by norm_num [groove, Radius.isZero], by norm_num [groove, Radius.isZero],
      by norm_num [groove, Radius.isZero], by norm_num [groove]⟩, ⟨?_, ?_⟩, ?_⟩
  · norm_num [bodies, HertzFull.Spec.curvatureMatrix, groove, Radius.curv, Matrix.trace, Fin.sum_univ_two]
  · norm_num [bodies, HertzFull.Spec.curvatureMatrix, groove, Radius.curv, Matrix.det_fin_two]
  · unfold Args.cosOmega
    rw [cos_two_ang, lt_div_iff₀ (by norm_num [groove, Radius.curv])]
    refine lt_sqrt_of_sq_lt ?_
    norm_num [groove, Args.constA, Args.constB, Radius.curv]

end Verif.Ellipse
