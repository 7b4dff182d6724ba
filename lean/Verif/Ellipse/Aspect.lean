import Verif.Ellipse.Root

/-!
# C177: how long elliptical contacts are

`hertz_full`, `slippy/contact/hertz.py` l.705-734 (model `Ellipse.Model`).
-/

namespace Verif.Ellipse

open Real HertzFull intervalIntegral

/-- The equation for the ratio of the axes, in terms of the cosine of the auxiliary angle. -/
theorem balance_zero {c k : ℝ} (h0 : 0 < c) (hk : 0 < k) (h : intJ k * (1 - c) = k ^ 3 * intI k * (1 + c)) : balance ((1 - c) / (1 + c)) k = 0 := by
  rw [balance_eq hk]
  have : 1 + c ≠ 0 := by linarith
  field_simp
  linarith

theorem balance_anti {τ τ' k : ℝ} (hk : 0 < k) (h : τ' < τ) : balance τ k < balance τ' k := by
  rw [balance_eq hk, balance_eq hk]
  have := div_pos (intJ_pos hk) (pow_pos hk 3)
  nlinarith

theorem square_le {τ k : ℝ} (hk : 0 < k) (hk1 : k ≤ 1) (h : balance τ k = 0) : k ^ 2 ≤ τ := by
  have hm := lt_of_pos hk
  rw [balance_eq hk, intI_eq hk, intJ_eq hk, mul_div_cancel_left₀ _ (pow_pos hk 3).ne'] at h
  have h3 := sin_cube_pos hm 3
  have le : k ^ 2 * ∫ t in (0 : ℝ)..(π / 2), sin t ^ 2 / dl (1 - k ^ 2) t ^ 3 ≤ ∫ t in (0 : ℝ)..(π / 2), sin t ^ 2 / dl (1 - k ^ 2) t ^ 1 := by
    rw [← integral_const_mul]
    refine integral_mono (by positivity) ((integrable hm (by fun_prop) 3 _ _).const_mul _) (integrable hm (by fun_prop) 1 _ _) fun t => ?_
    have hq := dl_pos hm t
    have hge := dl_ge hk hk1 t
    dsimp only
    rw [pow_one, mul_div_assoc', div_le_div_iff₀ (by positivity) hq]
    have : k ^ 2 ≤ dl (1 - k ^ 2) t ^ 2 := pow_le_pow_left₀ hk.le hge 2
    have := mul_le_mul_of_nonneg_left this (mul_nonneg (sq_nonneg (sin t)) hq.le)
    nlinarith
  by_contra hn
  push Not at hn
  nlinarith

/-- The balance at the ratio of the axes itself: the integral is a part of itself, up to a negative number. -/
theorem balance_self {k : ℝ} (hk : 0 < k) (hk1 : k ≤ 1) : balance k k ≤ 0 := by
  have hm := lt_of_pos hk
  have split : balance k k = (1 - k) * ∫ t in (0 : ℝ)..(π / 2), sin t ^ 2 * (1 - (1 + k) * sin t ^ 2) / dl (1 - k ^ 2) t ^ 3 := by
    have h := int_quot hm
    have e : balance k k - (1 - k) * (∫ t in (0 : ℝ)..(π / 2), sin t ^ 2 * (1 - (1 + k) * sin t ^ 2) / dl (1 - k ^ 2) t ^ 3) =
        ∫ t in (0 : ℝ)..(π / 2), (cos t ^ 2 / dl (1 - k ^ 2) t ^ 3 - sin t ^ 2 / dl (1 - k ^ 2) t ^ 1) := by
      unfold balance
      rw [← integral_const_mul, ← integral_sub (integrable hm (by fun_prop) 3 _ _) ((integrable hm (by fun_prop) 3 _ _).const_mul _)]
      congr 1
      funext t
      have hq := dl_pos hm t
      have hs := dl_sq hm t
      rw [cos_sq']
      generalize dl (1 - k ^ 2) t = q at *
      field_simp
      rw [hs]
      ring
    linarith
  have le : (∫ t in (0 : ℝ)..(π / 2), sin t ^ 2 * (1 - (1 + k) * sin t ^ 2) / dl (1 - k ^ 2) t ^ 3) ≤ 1 / (1 + k) * balance k k := by
    unfold balance
    rw [← integral_const_mul]
    refine integral_mono (by positivity) (integrable hm (by fun_prop) 3 _ _) ((integrable hm (by fun_prop) 3 _ _).const_mul _) fun t => ?_
    have hq := dl_pos hm t
    dsimp only
    rw [mul_div_assoc', div_le_div_iff_of_pos_right (by positivity), div_mul_eq_mul_div, one_mul, le_div_iff₀ (by linarith)]
    nlinarith [sq_nonneg (1 - (1 + k) * sin t ^ 2)]
  have h1 := mul_le_mul_of_nonneg_left le (sub_nonneg.2 hk1)
  rw [← split] at h1
  have h2 : (1 - k) * (1 / (1 + k) * balance k k) = balance k k - 2 * k / (1 + k) * balance k k := by
    field_simp
    ring
  rw [h2] at h1
  exact nonpos_of_mul_nonpos_right (by linarith : 2 * k / (1 + k) * balance k k ≤ 0) (by positivity)

theorem le_ratio {τ k : ℝ} (hk : 0 < k) (hk1 : k ≤ 1) (h : balance τ k = 0) : τ ≤ k := by
  by_contra hn
  push Not at hn
  have := balance_anti hk hn
  linarith [balance_self hk hk1]

/-- The axes of a result with an exact root. -/
theorem axes_of_ok {root : RootFinder} (hroot : Exact root) {p : Args} {r : Result} (hm : Ordinary p) (hr : hertz root p = .ok r) (hs : r.shape = .ellipse)
    (h0 : 0 < p.cosOmega) (h1 : p.cosOmega < 1) :
    ∃ k a, 0 < k ∧ k < 1 ∧ 0 < a ∧ r.radiusA = .fin a ∧ r.radiusB = .fin (k * a) ∧ balance ((1 - p.cosOmega) / (1 + p.cosOmega)) k = 0 := by
  obtain ⟨hload, hsol⟩ := solved_of_ok hr
  cases hsol with
  | line => cases hs
  | sphere => cases hs
  | ellipse f g h he hsum a b =>
    obtain ⟨k, A, k0, k1, A0, eA, eB, -, -, hz⟩ := ellipse_numbers hm hload hsum hroot h0 h1 he
    refine ⟨k, A, k0, k1, A0, ?_, ?_, balance_zero h0 k0 hz⟩
    · rw [← eA]
      rfl
    · rw [← eB]
      rfl

/-- **C177, two contacts.** The one with the greater cosine of the auxiliary angle has the longer contact ellipse, whatever the materials, loads and sizes. -/
theorem C177_longer_partial {root root' : RootFinder} (hroot : Exact root) (hroot' : Exact root') {p p' : Args} {r r' : Result} (hm : Ordinary p) (hm' : Ordinary p')
    (hr : hertz root p = .ok r) (hs : r.shape = .ellipse) (hr' : hertz root' p' = .ok r') (hs' : r'.shape = .ellipse)
    (h0 : 0 < p.cosOmega) (hlt : p.cosOmega < p'.cosOmega) (h1 : p'.cosOmega < 1) :
    ∃ a b a' b', r.radiusA = .fin a ∧ r.radiusB = .fin b ∧ r'.radiusA = .fin a' ∧ r'.radiusB = .fin b' ∧ 0 < b ∧ b < a ∧ 0 < b' ∧ b' < a' ∧ b' / a' < b / a := by
  obtain ⟨k, a, k0, k1, a0, ea, eb, hz⟩ := axes_of_ok hroot hm hr hs h0 (hlt.trans h1)
  obtain ⟨k', a', k0', k1', a0', ea', eb', hz'⟩ := axes_of_ok hroot' hm' hr' hs' (h0.trans hlt) h1
  refine ⟨a, k * a, a', k' * a', ea, eb, ea', eb', mul_pos k0 a0, mul_lt_of_lt_one_left a0 k1, mul_pos k0' a0', mul_lt_of_lt_one_left a0' k1', ?_⟩
  rw [mul_div_cancel_right₀ _ a0.ne', mul_div_cancel_right₀ _ a0'.ne']
  have hτ : (1 - p'.cosOmega) / (1 + p'.cosOmega) < (1 - p.cosOmega) / (1 + p.cosOmega) := by
    rw [div_lt_div_iff₀ (by linarith) (by linarith)]
    nlinarith
  have hτ' : 0 < (1 - p'.cosOmega) / (1 + p'.cosOmega) := div_pos (by linarith) (by linarith)
  have hb := balance_anti k0 hτ
  rw [hz] at hb
  refine not_le.1 fun hle => ?_
  rcases hle.lt_or_eq with h | h
  · exact (balance_below k0 h hτ' hz').not_gt hb
  · rw [h] at hb
    exact hb.ne' hz'

/-- **C177, similar contacts.** With the same cosine of the auxiliary angle the contact ellipses have the same shape. -/
theorem C177_same_shape_partial {root root' : RootFinder} (hroot : Exact root) (hroot' : Exact root') {p p' : Args} {r r' : Result} (hm : Ordinary p) (hm' : Ordinary p')
    (hr : hertz root p = .ok r) (hs : r.shape = .ellipse) (hr' : hertz root' p' = .ok r') (hs' : r'.shape = .ellipse)
    (h0 : 0 < p.cosOmega) (heq : p.cosOmega = p'.cosOmega) (h1 : p'.cosOmega < 1) :
    ∃ a b a' b', r.radiusA = .fin a ∧ r.radiusB = .fin b ∧ r'.radiusA = .fin a' ∧ r'.radiusB = .fin b' ∧ 0 < a ∧ 0 < a' ∧ b / a = b' / a' := by
  obtain ⟨k, a, k0, k1, a0, ea, eb, hz⟩ := axes_of_ok hroot hm hr hs h0 (heq ▸ h1)
  obtain ⟨k', a', k0', k1', a0', ea', eb', hz'⟩ := axes_of_ok hroot' hm' hr' hs' (heq ▸ h0) h1
  refine ⟨a, k * a, a', k' * a', ea, eb, ea', eb', a0, a0', ?_⟩
  rw [mul_div_cancel_right₀ _ a0.ne', mul_div_cancel_right₀ _ a0'.ne']
  have hτ : 0 < (1 - p.cosOmega) / (1 + p.cosOmega) := div_pos (by linarith) (by linarith)
  rw [← heq] at hz'
  rcases lt_trichotomy k k' with h | h | h
  · exact absurd hz (balance_below k0 h hτ hz').ne
  · exact h
  · exact absurd hz' (balance_below k0' h hτ hz).ne

/-- **C177, bodies with a right auxiliary angle.** The ratio of the axes is between the ratio of the principal relative curvatures and the root of it: the contact is longer than the curves of equal distance between the undeformed bodies, and its axes differ less than the curvatures. -/
theorem C177_curvatures_partial {root : RootFinder} (hroot : Exact root) {p : Args} {r : Result} (hm : Ordinary p) (hr : hertz root p = .ok r) (hs : r.shape = .ellipse) {κ μ : ℝ} (hpos : 0 < μ) (hlt : μ < κ)
    (hcos : p.cosOmega = (κ - μ) / (κ + μ)) :
    ∃ a b, r.radiusA = .fin a ∧ r.radiusB = .fin b ∧ 0 < b ∧ b < a ∧ μ / κ ≤ b / a ∧ b / a ≤ √(μ / κ) := by
  have h0 : 0 < p.cosOmega := by
    rw [hcos]
    exact div_pos (by linarith) (by linarith)
  have h1 : p.cosOmega < 1 := by
    rw [hcos, div_lt_one (by linarith)]
    linarith
  obtain ⟨k, a, k0, k1, a0, ea, eb, hz⟩ := axes_of_ok hroot hm hr hs h0 h1
  refine ⟨a, k * a, ea, eb, mul_pos k0 a0, mul_lt_of_lt_one_left a0 k1, ?_⟩
  rw [mul_div_cancel_right₀ _ a0.ne']
  have hκ : 0 < κ := hpos.trans hlt
  have : κ + μ ≠ 0 := by linarith
  have e1 : 1 - p.cosOmega = 2 * μ / (κ + μ) := by
    rw [hcos]
    field_simp
    ring
  have e2 : 1 + p.cosOmega = 2 * κ / (κ + μ) := by
    rw [hcos]
    field_simp
    ring
  have e : (1 - p.cosOmega) / (1 + p.cosOmega) = μ / κ := by
    rw [e1, e2, div_div_div_cancel_right₀ this, mul_div_mul_left _ _ two_ne_zero]
  rw [e] at hz
  exact ⟨le_ratio k0 k1.le hz, le_sqrt_of_sq_le (square_le k0 k1.le hz)⟩

/-- A body with the radii 1 and `ρ` on a flat, pressed with the load `w`. -/
noncomputable def rest (ρ : ℝ) (w : ℝ := 1) : Args := ⟨.fin 1, .fin ρ, .inf, .inf, 1, 1, 0, 0, w, 0, false⟩

theorem rest_solved {root : RootFinder} (hroot : Exact root) (hans : Answers root) {ρ w : ℝ} (hw : 0 < w) (h1 : 1 < ρ) (hρ : ρ ≤ 10) :
    Ordinary (rest ρ w) ∧ (rest ρ w).cosOmega = (1 - 1 / ρ) / (1 + 1 / ρ) ∧ ∃ r, hertz root (rest ρ w) = .ok r ∧ r.shape = .ellipse := by
  have hm : Ordinary (rest ρ w) := ⟨by norm_num [rest], by norm_num [rest], by norm_num [rest], by norm_num [rest]⟩
  have lt : 1 / ρ < 1 := by
    rw [div_lt_one (by linarith)]
    linarith
  have gt : 1 / 10 ≤ 1 / ρ := by
    rw [div_le_div_iff₀ (by norm_num) (by linarith)]
    linarith
  have c1 : (rest ρ w).r1x.curv = 1 := by simp [rest, Radius.curv]
  have c2 : (rest ρ w).r1y.curv = 1 / ρ := by simp [rest, Radius.curv]
  have c3 : (rest ρ w).r2x.curv = 0 := by simp [rest, Radius.curv]
  have c4 : (rest ρ w).r2y.curv = 0 := by simp [rest, Radius.curv]
  have hE : HertzFull.Spec.Eigenvalues (bodies (rest ρ w)) 1 (1 / ρ) := by
    constructor
    · rw [trace_bodies, c1, c2, c3, c4]
      ring
    · simp [bodies, HertzFull.Spec.curvatureMatrix, rest, Radius.curv, Matrix.det_fin_two]
  have hA : (rest ρ w).constA = 0 := by simp [Args.constA, c3, c4]
  have hB : (rest ρ w).constB = 1 - 1 / ρ := by simp only [Args.constB, c1, c2]
  obtain ⟨r, hr, hl, -⟩ := C130_solved_partial hroot hans hm
    ⟨by norm_num [rest, Radius.isZero], by simp only [rest, Radius.isZero]; linarith, by norm_num [rest, Radius.isZero],
      by norm_num [rest, Radius.isZero], by simpa [rest] using hw⟩
    (by
      unfold Determined
      rw [hA, hB]
      have : (0 : ℝ) < (1 - 1 / ρ) ^ 2 := pow_pos (by linarith) 2
      simpa using this.ne')
    (Or.inl (by rw [c1, c2]; exact lt.le)) hE lt (by linarith) (by norm_num; norm_num at gt; linarith) rfl
    (C130_convex (by rw [c1]; norm_num) (by rw [c2]; linarith) (by rw [c3]) (by rw [c4]))
  refine ⟨hm, ?_, r, hr, hl⟩
  unfold Args.cosOmega
  rw [hA, hB, c1, c2, c3, c4]
  simp only [mul_zero, zero_mul, add_zero, ne_eq, OfNat.ofNat_ne_zero, not_false_eq_true, zero_pow]
  rw [sqrt_sq (by linarith)]

/-- Two contacts, and their curvatures. -/
example : ∃ root r r', Exact root ∧ Ordinary (rest 2) ∧ Ordinary (rest 3) ∧ hertz root (rest 2) = .ok r ∧ r.shape = .ellipse ∧ hertz root (rest 3) = .ok r' ∧ r'.shape = .ellipse ∧
    0 < (rest 2).cosOmega ∧ (rest 2).cosOmega < (rest 3).cosOmega ∧ (rest 3).cosOmega < 1 ∧ (rest 2).cosOmega = (1 - 1 / 2) / (1 + 1 / 2) := by
  obtain ⟨root, hroot, hans⟩ := exists_root
  obtain ⟨m2, c2, r2, e2, s2⟩ := rest_solved hroot hans (ρ := 2) one_pos (by norm_num) (by norm_num)
  obtain ⟨m3, c3, r3, e3, s3⟩ := rest_solved hroot hans (ρ := 3) one_pos (by norm_num) (by norm_num)
  exact ⟨root, r2, r3, hroot, m2, m3, e2, s2, e3, s3, by rw [c2]; norm_num, by rw [c2, c3]; norm_num, by rw [c3]; norm_num, c2⟩

/-- The same bodies pressed with another load. -/
example : ∃ root r r', Exact root ∧ Ordinary (rest 2) ∧ Ordinary (rest 2 7) ∧ hertz root (rest 2) = .ok r ∧ r.shape = .ellipse ∧ hertz root (rest 2 7) = .ok r' ∧ r'.shape = .ellipse ∧
    0 < (rest 2).cosOmega ∧ (rest 2).cosOmega = (rest 2 7).cosOmega ∧ (rest 2 7).cosOmega < 1 := by
  obtain ⟨root, hroot, hans⟩ := exists_root
  obtain ⟨m2, c2, r2, e2, s2⟩ := rest_solved hroot hans (ρ := 2) one_pos (by norm_num) (by norm_num)
  obtain ⟨m3, c3, r3, e3, s3⟩ := rest_solved hroot hans (ρ := 2) (w := 7) (by norm_num) (by norm_num) (by norm_num)
  exact ⟨root, r2, r3, hroot, m2, m3, e2, s2, e3, s3, by rw [c2]; norm_num, by rw [c2, c3], by rw [c3]; norm_num⟩

/-- **C177 is false for bodies whose auxiliary angle is wrong.** Two pairs of bodies with the same ratio 2 of the principal relative curvatures have contact ellipses of different shape. -/
theorem C177_same_curvatures_wrong {root : RootFinder} (hroot : Exact root) (hans : Answers root) :
    HertzFull.Spec.Eigenvalues (bodies aligned) 2 1 ∧ HertzFull.Spec.Eigenvalues (bodies (rest 2)) 1 (1 / 2) ∧
    ∃ r r' a b a' b', hertz root aligned = .ok r ∧ hertz root (rest 2) = .ok r' ∧ r.radiusA = .fin a ∧ r.radiusB = .fin b ∧ r'.radiusA = .fin a' ∧ r'.radiusB = .fin b' ∧ b' / a' < b / a := by
  obtain ⟨m2, c2, r2, e2, s2⟩ := rest_solved hroot hans (ρ := 2) one_pos (by norm_num) (by norm_num)
  have hm : Ordinary aligned := ⟨by norm_num [aligned], by norm_num [aligned], by norm_num [aligned], by norm_num [aligned]⟩
  obtain ⟨r, hr, hl, h0, -⟩ := C130_solved_partial hroot hans hm aligned_accepted aligned_determined
    (Or.inl (by norm_num [aligned, Radius.curv])) aligned_eigen (by norm_num) one_pos (by norm_num) rfl
    (C130_convex (by norm_num [aligned, Radius.curv]) (by norm_num [aligned, Radius.curv]) (by norm_num [aligned, Radius.curv])
      (by norm_num [aligned, Radius.curv]))
  have hlt : aligned.cosOmega < (rest 2).cosOmega := by
    rw [c2]
    unfold Args.cosOmega
    rw [cos_two_ang]
    simp only [Args.constA, Args.constB, aligned, Radius.curv, mul_zero, cos_zero]
    rw [div_lt_iff₀ (by norm_num), sqrt_lt' (by norm_num)]
    norm_num
  obtain ⟨a, b, a', b', q1, q2, q3, q4, -, -, -, -, q⟩ := C177_longer_partial hroot hroot hm m2 hr hl e2 s2 h0 hlt (by rw [c2]; norm_num)
  refine ⟨aligned_eigen, ⟨?_, ?_⟩, r, r2, a, b, a', b', hr, e2, q1, q2, q3, q4, q⟩
  · rw [trace_bodies]
    norm_num [rest, Radius.curv]
  · simp [bodies, HertzFull.Spec.curvatureMatrix, rest, Radius.curv, Matrix.det_fin_two]

example : ∃ root, Exact root ∧ Answers root := exists_root

end Verif.Ellipse
