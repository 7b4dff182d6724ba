import Verif.HertzFull.Curvature

/-!
# C37: when a solution is produced
-/

namespace Verif.HertzFull

open Real Spec

theorem eigen_unique {m : Matrix (Fin 2) (Fin 2) ℝ} {a b c d : ℝ} (h1 : Eigenvalues m a b) (h2 : Eigenvalues m c d) (hab : b ≤ a)
    (hcd : d ≤ c) : a = c ∧ b = d := by
  obtain ⟨s1, p1⟩ := h1
  obtain ⟨s2, p2⟩ := h2
  have hs : a + b = c + d := by rw [s1, s2]
  have hp : a * b = c * d := by rw [p1, p2]
  have hq : (a - b) ^ 2 = (c - d) ^ 2 := by linear_combination (a + b + c + d) * hs - 4 * hp
  have he : a - b = c - d := by
    have := abs_eq_abs.mpr (sq_eq_sq_iff_eq_or_eq_neg.mp hq)
    rwa [abs_of_nonneg (by linarith), abs_of_nonneg (by linarith)] at this
  constructor <;> linarith

theorem lt_recip_pos {k : ℝ} (h : 0 < k) : XR.lt (recip k) (.fin 0) = false := by
  rw [recip_pos h]
  have : ¬ (1 / k < 0) := not_lt.mpr (by positivity)
  simpa [XR.lt] using (le_of_lt h)

theorem ratio_recip {k l : ℝ} (hk : 0 < k) (hl : 0 < l) : recip k / recip l = .fin (l / k) := by
  have : (1 : ℝ) / l ≠ 0 := by positivity
  rw [recip_pos hk, recip_pos hl, XR.fin_div _ this]
  congr 1
  field_simp

open Classical in
/-- The checks of the arguments and the internal check are passed. -/
theorem hertzFull_checked {p : Args} (ell : EllipseFinder) (h : Accepted p) (hi : ¬ InternalError p) : hertzFull ell p =
    if XR.lt (recip p.k1) (.fin 0) ∨ XR.lt (recip p.k2) (.fin 0) then .error .valueError
    else if recip p.k1 = .pinf ∧ recip p.k2 = .pinf then .error .valueError
    else if XR.lt (.fin 1e5) (recip p.k1 / recip p.k2) ∨ XR.lt (.fin 1e5) (recip p.k2 / recip p.k1) then
      if p.line = false then .error .valueError
      else .ok (lineResult p (1 / max p.k1 p.k2) (recip p.k1) (recip p.k2))
    else if recip p.k1 = recip p.k2 then
      if p.line = true then .error .valueError
      else .ok (sphereResult p (1 / p.k1) (recip p.k1) (recip p.k2))
    else if p.line = true then .error .valueError
    else
      match ell p.cosOmega with
      | none => .error .valueError
      | some (f, g, h) => .ok (ellipseResult p f g h (recip p.k1) (recip p.k2)) := by
  unfold hertzFull
  rw [if_neg (by rintro (h0 | h0 | h0 | h0) <;> [exact h.r1x h0; exact h.r1y h0; exact h.r2x h0; exact h.r2y h0]),
    if_neg (not_le.mpr h.load)]
  exact if_neg hi

/-- **C37 (partial)**: an elliptical contact is solved with the principal relative radii. Missing: bodies with the smaller curvature first in both
bodies (these fail) and the success of the root finder. -/
theorem C37_elliptical_contact_partial {p : Args} (hacc : Accepted p) (hdet : Determined p)
    (hnames : p.r1y.curv ≤ p.r1x.curv ∨ p.r2y.curv ≤ p.r2x.curv) {κ μ : ℝ} (hE : Eigenvalues (bodies p) κ μ) (hle : μ ≤ κ) (hpos : 0 < μ)
    (hratio : κ ≤ 1e5 * μ) (hline : p.line = false) {ell : EllipseFinder} {f g h : ℝ} (hell : ell p.cosOmega = some (f, g, h)) :
    ∃ r, hertzFull ell p = .ok r ∧ r.shape = .ellipse ∧ r.r1Rel = .fin (1 / κ) ∧ r.r2Rel = .fin (1 / μ) := by
  have hni : ¬ InternalError p := by
    rw [C37_internal_error_iff hdet]
    rintro ⟨h1, h2⟩
    rcases hnames with h3 | h3 <;> linarith
  obtain ⟨hk, hlt⟩ := C37_principal_curvatures hdet
  obtain ⟨e1, e2⟩ := eigen_unique hk hE hlt.le hle
  have p2 : 0 < p.k2 := by rw [e2]; exact hpos
  have p1 : 0 < p.k1 := by linarith
  have q1 : ¬ (1e5 < p.k2 / p.k1) := by
    rw [not_lt, div_le_iff₀ p1]
    norm_num
    linarith
  have q2 : ¬ (1e5 < p.k1 / p.k2) := by
    rw [not_lt, div_le_iff₀ p2, e1, e2]
    exact hratio
  refine ⟨ellipseResult p f g h (recip p.k1) (recip p.k2), ?_, rfl, ?_, ?_⟩
  · rw [hertzFull_checked ell hacc hni, if_neg (by simp [lt_recip_pos p1, lt_recip_pos p2]), if_neg (by simp [recip_pos p1]),
      if_neg (by rw [ratio_recip p1 p2, ratio_recip p2 p1, XR.lt_fin, XR.lt_fin]; tauto),
      if_neg ?_, if_neg (by simp [hline]), hell]
    rw [recip_pos p1, recip_pos p2, XR.fin_inj]
    intro he
    rw [one_div, one_div, inv_inj] at he
    linarith
  · show recip p.k1 = _
    rw [recip_pos p1, e1]
  · show recip p.k2 = _
    rw [recip_pos p2, e2]

/-- **C37 (partial)**: a line contact is solved. Missing: as above. -/
theorem C37_line_contact_partial {p : Args} (hacc : Accepted p) (hdet : Determined p)
    (hnames : p.r1y.curv ≤ p.r1x.curv ∨ p.r2y.curv ≤ p.r2x.curv) {κ : ℝ} (hE : Eigenvalues (bodies p) κ 0) (hpos : 0 < κ)
    (hline : p.line = true) (ell : EllipseFinder) :
    ∃ r, hertzFull ell p = .ok r ∧ r.shape = .line ∧ r.r1Rel = .fin (1 / κ) ∧ r.r2Rel = .pinf := by
  have hni : ¬ InternalError p := by
    rw [C37_internal_error_iff hdet]
    rintro ⟨h1, h2⟩
    rcases hnames with h3 | h3 <;> linarith
  obtain ⟨hk, hlt⟩ := C37_principal_curvatures hdet
  obtain ⟨e1, e2⟩ := eigen_unique hk hE hlt.le hpos.le
  have p1 : 0 < p.k1 := by rw [e1]; exact hpos
  refine ⟨lineResult p (1 / max p.k1 p.k2) (recip p.k1) (recip p.k2), ?_, rfl, ?_, ?_⟩
  · rw [hertzFull_checked ell hacc hni, if_neg (by rw [e2, recip_zero, lt_recip_pos p1]; simp [XR.lt]), if_neg (by simp [recip_pos p1]),
      if_pos ?_, if_neg (by simp [hline])]
    right
    rw [e2, recip_zero, recip_pos p1]
    have : ¬ (1 / p.k1 < 0) := not_lt.mpr (by positivity)
    show XR.lt _ (XR.div _ _) = true
    simp only [XR.div, if_neg this]
    rfl
  · show recip p.k1 = _
    rw [recip_pos p1, e1]
  · show recip p.k2 = _
    rw [e2, recip_zero]

/-- **C37 (partial)**: two spheres at a half turn are solved. Missing: other angles (these fail). -/
theorem C37_spheres_partial {p : Args} (hacc : Accepted p) (h1 : p.r1x = p.r1y) (h2 : p.r2x = p.r2y) (ha : p.ang = 0)
    (hpos : 0 < p.r1x.curv + p.r2x.curv) (hline : p.line = false) (ell : EllipseFinder) :
    ∃ r, hertzFull ell p = .ok r ∧ r.shape = .sphere ∧ r.r1Rel = .fin (1 / (p.r1x.curv + p.r2x.curv)) ∧ r.r2Rel = r.r1Rel := by
  have hA : p.constA = 0 := by simp [Args.constA, h2]
  have hB : p.constB = 0 := by simp [Args.constB, h1]
  have h3 : p.alpha = 0 := by
    unfold Args.alpha alpha
    rw [hA, hB, zero_mul, zero_mul, add_zero, atan2_zero_pos _ le_rfl, zero_div]
  have h4 : p.beta = 0 := by
    unfold Args.beta beta
    rw [hA, hB, zero_mul, zero_mul, add_zero, atan2_zero_pos _ le_rfl, zero_div]
  have hni : ¬ InternalError p := by
    unfold InternalError
    rw [h3, h4, ha]
    norm_num
  have e1 : p.k1 = p.r1x.curv + p.r2x.curv := by
    unfold Args.k1
    rw [h3, h4, cos_zero, sin_zero]
    ring
  have e2 : p.k2 = p.r1x.curv + p.r2x.curv := by
    unfold Args.k2
    rw [h3, h4, cos_zero, sin_zero, ← h1, ← h2]
    ring
  have e : p.k2 = p.k1 := by rw [e1, e2]
  have p1 : 0 < p.k1 := by rw [e1]; exact hpos
  refine ⟨sphereResult p (1 / p.k1) (recip p.k1) (recip p.k2), ?_, rfl, ?_, ?_⟩
  · rw [hertzFull_checked ell hacc hni, e, if_neg (by simp [lt_recip_pos p1]), if_neg (by simp [recip_pos p1]),
      if_neg (by rw [ratio_recip p1 p1, div_self p1.ne', XR.lt_fin]; norm_num), if_pos rfl, if_neg (by simp [hline])]
  · show recip p.k1 = _
    rw [recip_pos p1, e1]
  · show recip p.k2 = recip p.k1
    rw [e]

/-! ## Cases that meet the hypotheses -/

/-- Radii 1 and 2 for both bodies, axes aligned. -/
noncomputable def aligned : Args := ⟨.fin 1, .fin 2, .fin 1, .fin 2, 1, 1, 0, 0, 1, 0, false⟩

theorem aligned_accepted : Accepted aligned :=
  ⟨by norm_num [aligned, Radius.isZero], by norm_num [aligned, Radius.isZero], by norm_num [aligned, Radius.isZero],
    by norm_num [aligned, Radius.isZero], by norm_num [aligned]⟩

theorem aligned_determined : Determined aligned := by
  unfold Determined Args.constA Args.constB aligned Radius.curv
  norm_num

theorem aligned_eigen : Eigenvalues (bodies aligned) 2 1 := by
  constructor
  · simp [bodies, curvatureMatrix, aligned, Radius.curv, Matrix.trace, Fin.sum_univ_two]
    norm_num
  · simp [bodies, curvatureMatrix, aligned, Radius.curv, Matrix.det_fin_two]
    norm_num

example : ∃ r, hertzFull (fun _ => some (1, 1, 1)) aligned = .ok r ∧ r.shape = .ellipse ∧ r.r1Rel = .fin (1 / 2) ∧ r.r2Rel = .fin (1 / 1) :=
  C37_elliptical_contact_partial aligned_accepted aligned_determined (Or.inl (by norm_num [aligned, Radius.curv])) aligned_eigen
    (by norm_num) one_pos (by norm_num) rfl rfl

/-- Two parallel cylinders. -/
noncomputable def cylinders : Args := ⟨.fin 1, .inf, .fin 1, .inf, 1, 1, 0, 0, 1, 0, true⟩

example : ∃ r, hertzFull (fun _ => none) cylinders = .ok r ∧ r.shape = .line ∧ r.r1Rel = .fin (1 / 2) ∧ r.r2Rel = .pinf :=
  C37_line_contact_partial
    ⟨by norm_num [cylinders, Radius.isZero], by simp [cylinders, Radius.isZero], by norm_num [cylinders, Radius.isZero],
      by simp [cylinders, Radius.isZero], by norm_num [cylinders]⟩
    (by unfold Determined Args.constA Args.constB cylinders Radius.curv; norm_num)
    (Or.inl (by norm_num [cylinders, Radius.curv]))
    ⟨by simp [bodies, curvatureMatrix, cylinders, Radius.curv, Matrix.trace, Fin.sum_univ_two]; norm_num,
      by simp [bodies, curvatureMatrix, cylinders, Radius.curv, Matrix.det_fin_two]⟩ (by norm_num) rfl _

theorem reduceAngle_zero : reduceAngle 0 = 0 := by
  have := pi_pos
  unfold reduceAngle
  simp only [zero_div, Int.floor_zero, Int.cast_zero, mul_zero, sub_zero]
  rw [if_pos (by positivity)]

/-- A ball on a flat. -/
noncomputable def ballOnFlat : Args := ⟨.fin 1, .fin 1, .inf, .inf, 1, 1, 0, 0, 1, 0, false⟩

theorem ball_solution : ∃ r, hertzFull (fun _ => none) ballOnFlat = .ok r ∧ r.shape = .sphere ∧ r.r1Rel = .fin (1 / (1 / 1 + 0)) ∧ r.r2Rel = r.r1Rel :=
  C37_spheres_partial (p := ballOnFlat)
    ⟨by norm_num [ballOnFlat, Radius.isZero], by norm_num [ballOnFlat, Radius.isZero], by simp [ballOnFlat, Radius.isZero],
      by simp [ballOnFlat, Radius.isZero], by norm_num [ballOnFlat]⟩ rfl rfl reduceAngle_zero (by norm_num [ballOnFlat, Radius.curv]) rfl _

end Verif.HertzFull
