import Mathlib.Analysis.Complex.ExponentialBounds
import Verif.HertzFull.Units

/-!
# C175: how the full Hertz solution changes with the load

`hertz_full`, `slippy/contact/hertz.py` l.577-759 (model `Model`), called twice with different loads.
-/

namespace Verif.HertzFull

open Hertz (Units)

/-! ## Specification -/

/-- The same bodies under `k` times the load. -/
noncomputable def Args.loaded (k : ℝ) (p : Args) : Args := { p with load := k * p.load }

/-- A contact that is `t` times as wide under `t` times the pressure. -/
noncomputable def Result.wider (t : ℝ) (r : Result) : Result :=
  { r with
    radiusA := timesXR t r.radiusA
    radiusB := timesXR t r.radiusB
    area := timesXR (t ^ 2) r.area
    meanPressure := t * r.meanPressure
    maxPressure := t * r.maxPressure
    deflection := t ^ 2 * r.deflection
    pressure := fun x y => t * r.pressure (x / t) (y / t) }

/-! ## The three branches -/

section

variable {t : ℝ}

/-- Units whose lengths and stresses are multiplied by the same number. -/
def sameUnits (ht : 0 < t) : Units := ⟨t, t, ht, ht⟩

theorem lineResult_loaded (ht : 0 < t) {p : Args} (r : ℝ) (a b : XR) :
    lineResult (p.loaded (t ^ 2)) r a b = { (lineResult p r a b).wider t with deflection := (lineResult (p.loaded (t ^ 2)) r a b).deflection } := by
  have hw : Real.sqrt (4 * (t ^ 2 * p.load) * r / Real.pi / p.eStar) = t * Real.sqrt (4 * p.load * r / Real.pi / p.eStar) := by
    rw [← sqrt_scale ht]
    congr 1
    ring
  have he : (p.loaded (t ^ 2)).eStar = p.eStar := rfl
  have ha : (p.loaded (t ^ 2)).alpha = p.alpha := rfl
  have hb : (p.loaded (t ^ 2)).beta = p.beta := rfl
  have hl : (p.loaded (t ^ 2)).load = t ^ 2 * p.load := rfl
  unfold lineResult Result.wider
  rw [he, ha, hb, hl, hw]
  generalize Real.sqrt (4 * p.load * r / Real.pi / p.eStar) = w
  have m1 : t ^ 2 * p.load / (t * w) = t * (p.load / w) := by
    rw [show t ^ 2 * p.load = t * (t * p.load) by ring, mul_div_mul_left _ _ ht.ne', mul_div_assoc]
  have m2 : 2 * (t ^ 2 * p.load) / Real.pi / (t * w) = t * (2 * p.load / Real.pi / w) := by
    rw [show 2 * (t ^ 2 * p.load) / Real.pi = t * (t * (2 * p.load / Real.pi)) by ring, mul_div_mul_left _ _ ht.ne', mul_div_assoc]
  simp only [m1, m2, Result.mk.injEq, true_and]
  refine ⟨?_, ?_, rfl, ?_⟩
  · cases a <;> rfl
  · cases b <;> rfl
  · funext x y
    have := pressureLine_units (sameUnits ht) w p.load false x
    rw [← show (sameUnits ht).lineLoad = t ^ 2 by simp [sameUnits, Units.lineLoad, pow_two]]
    exact this

theorem sphereResult_loaded (ht : 0 < t) {p : Args} (r : ℝ) (a b : XR) : sphereResult (p.loaded (t ^ 3)) r a b = (sphereResult p r a b).wider t := by
  have hw : (3 * (t ^ 3 * p.load) * r / 4 / p.eStar) ^ ((1 : ℝ) / 3) = t * (3 * p.load * r / 4 / p.eStar) ^ ((1 : ℝ) / 3) := by
    rw [← third_scale ht]
    congr 1
    ring
  have he : (p.loaded (t ^ 3)).eStar = p.eStar := rfl
  have ha : (p.loaded (t ^ 3)).alpha = p.alpha := rfl
  have hb : (p.loaded (t ^ 3)).beta = p.beta := rfl
  have hl : (p.loaded (t ^ 3)).load = t ^ 3 * p.load := rfl
  unfold sphereResult Result.wider
  rw [he, ha, hb, hl, hw]
  generalize (3 * p.load * r / 4 / p.eStar) ^ ((1 : ℝ) / 3) = w
  have m0 : Real.pi * (t * w) ^ 2 = t ^ 2 * (Real.pi * w ^ 2) := by ring
  have m1 : t ^ 3 * p.load / (t ^ 2 * (Real.pi * w ^ 2)) = t * (p.load / (Real.pi * w ^ 2)) := by
    rw [show t ^ 3 * p.load = t ^ 2 * (t * p.load) by ring, mul_div_mul_left _ _ (pow_pos ht 2).ne', mul_div_assoc]
  have m2 : 3 * (t ^ 3 * p.load) / (2 * Real.pi * (t * w) ^ 2) = t * (3 * p.load / (2 * Real.pi * w ^ 2)) := by
    rw [show 3 * (t ^ 3 * p.load) = t ^ 2 * (t * (3 * p.load)) by ring, show 2 * Real.pi * (t * w) ^ 2 = t ^ 2 * (2 * Real.pi * w ^ 2) by ring, mul_div_mul_left _ _ (pow_pos ht 2).ne', mul_div_assoc]
  have m3 : (t * w) ^ 2 / r = t ^ 2 * (w ^ 2 / r) := by ring
  simp only [m0, m1, m2, m3, timesXR]
  congr 1
  funext x y
  exact pressureSphere_units (sameUnits ht) w _ x y

theorem ellipseResult_loaded (ht : 0 < t) {p : Args} (f g h : ℝ) (a b : XR) :
    ellipseResult (p.loaded (t ^ 3)) f g h a b = { (ellipseResult p f g h a b).wider t with meanPressure := t⁻¹ * (ellipseResult p f g h a b).meanPressure } := by
  have ha : (p.loaded (t ^ 3)).alpha = p.alpha := rfl
  have hb : (p.loaded (t ^ 3)).beta = p.beta := rfl
  have hl : (p.loaded (t ^ 3)).load = t ^ 3 * p.load := rfl
  have t1 : 4 * (1 - (p.loaded (t ^ 3)).v1 ^ 2) / (p.loaded (t ^ 3)).e1 = 4 * (1 - p.v1 ^ 2) / p.e1 := rfl
  have t2 : 4 * (1 - (p.loaded (t ^ 3)).v2 ^ 2) / (p.loaded (t ^ 3)).e2 = 4 * (1 - p.v2 ^ 2) / p.e2 := rfl
  have t3 : (p.loaded (t ^ 3)).r1x.curv + (p.loaded (t ^ 3)).r1y.curv + (p.loaded (t ^ 3)).r2x.curv + (p.loaded (t ^ 3)).r2y.curv = p.r1x.curv + p.r1y.curv + p.r2x.curv + p.r2y.curv := rfl
  unfold ellipseResult Result.wider
  rw [ha, hb, hl, t1, t2, t3]
  generalize 4 * (1 - p.v1 ^ 2) / p.e1 = θ₁
  generalize 4 * (1 - p.v2 ^ 2) / p.e2 = θ₂
  generalize p.r1x.curv + p.r1y.curv + p.r2x.curv + p.r2y.curv = r
  have hw : (3 * (t ^ 3 * p.load) / 8 / r * (θ₁ + θ₂)) ^ ((1 : ℝ) / 3) = t * (3 * p.load / 8 / r * (θ₁ + θ₂)) ^ ((1 : ℝ) / 3) := by
    rw [← third_scale ht]
    congr 1
    ring
  simp only [hw]
  generalize (3 * p.load / 8 / r * (θ₁ + θ₂)) ^ ((1 : ℝ) / 3) = w
  have m0 : f * (t * w) = t * (f * w) := by ring
  have m0' : g * (t * w) = t * (g * w) := by ring
  simp only [m0, m0']
  generalize f * w = A
  generalize g * w = B
  have m1 : t * A * (t * B) * Real.pi = t ^ 2 * (A * B * Real.pi) := by ring
  simp only [m1]
  generalize A * B * Real.pi = q
  have m2 : 3 * (t ^ 3 * p.load) / 2 / (t ^ 2 * q) = t * (3 * p.load / 2 / q) := by
    rw [show 3 * (t ^ 3 * p.load) / 2 = t ^ 2 * (t * (3 * p.load / 2)) by ring, mul_div_mul_left _ _ (pow_pos ht 2).ne', mul_div_assoc]
  have m3 : 3 * (t ^ 3 * p.load) * θ₁ * h / (t * A) / 8 / Real.pi = t ^ 2 * (3 * p.load * θ₁ * h / A / 8 / Real.pi) := by
    rw [show 3 * (t ^ 3 * p.load) * θ₁ * h = t * (t ^ 2 * (3 * p.load * θ₁ * h)) by ring, mul_div_mul_left _ _ ht.ne']
    ring
  simp only [m2, m3]
  generalize 3 * p.load / 2 / q = p0
  generalize 3 * p.load * θ₁ * h / A / 8 / Real.pi = δ
  have m4 : t * p0 / (t ^ 2 * q) = t⁻¹ * (p0 / q) := by
    rw [pow_two, mul_assoc, mul_div_mul_left _ _ ht.ne', div_mul_eq_div_div_swap]
    ring
  have m5 : t ^ 2 * δ + t ^ 2 * δ * θ₂ / θ₁ = t ^ 2 * (δ + δ * θ₂ / θ₁) := by ring
  simp only [m4, m5, timesXR, Result.mk.injEq, true_and]
  funext x y
  have e := fun α β => pressureEllipse_units (sameUnits ht) A B p0 α β x y
  dsimp only [sameUnits] at e
  rw [e, e]
  split <;> rfl

end

open Classical in
/-- The branch that is taken does not depend on the load. -/
theorem full_loaded (ell : EllipseFinder) {k : ℝ} (hk : 0 < k) (p : Args) :
    (∀ e, hertzFull ell p = .error e → hertzFull ell (p.loaded k) = .error e) ∧ ∀ r, hertzFull ell p = .ok r →
      (∃ a b, 0 < max p.k1 p.k2 ∧ r = lineResult p (1 / max p.k1 p.k2) a b ∧ hertzFull ell (p.loaded k) = .ok (lineResult (p.loaded k) (1 / max p.k1 p.k2) a b)) ∨
      (∃ R a b, r = sphereResult p R a b ∧ hertzFull ell (p.loaded k) = .ok (sphereResult (p.loaded k) R a b)) ∨
      ∃ f g h a b, r = ellipseResult p f g h a b ∧ hertzFull ell (p.loaded k) = .ok (ellipseResult (p.loaded k) f g h a b) := by
  have c2 : k * p.load ≤ 0 ↔ p.load ≤ 0 := by
    rw [mul_nonpos_iff]
    constructor
    · rintro (⟨_, h⟩ | ⟨h, _⟩)
      · exact h
      · exact absurd h (not_le.2 hk)
    · exact fun h => .inl ⟨hk.le, h⟩
  generalize hA : hertzFull ell p = A
  generalize hB : hertzFull ell (p.loaded k) = B
  unfold hertzFull at hA hB
  dsimp only at hA
  change ((if p.r1x.isZero ∨ p.r1y.isZero ∨ p.r2x.isZero ∨ p.r2y.isZero then .error .valueError
    else if k * p.load ≤ 0 then .error .valueError
    else if 1e-8 < |p.alpha + p.beta - p.ang| then .error .valueError
    else if XR.lt (recip p.k1) (.fin 0) ∨ XR.lt (recip p.k2) (.fin 0) then .error .valueError
    else if recip p.k1 = .pinf ∧ recip p.k2 = .pinf then .error .valueError
    else if XR.lt (.fin 1e5) (recip p.k1 / recip p.k2) ∨ XR.lt (.fin 1e5) (recip p.k2 / recip p.k1) then
      if p.line = false then .error .valueError
      else .ok (lineResult (p.loaded k) (1 / max p.k1 p.k2) (recip p.k1) (recip p.k2))
    else if recip p.k1 = recip p.k2 then
      if p.line = true then .error .valueError
      else .ok (sphereResult (p.loaded k) (1 / p.k1) (recip p.k1) (recip p.k2))
    else if p.line = true then .error .valueError
    else match ell p.cosOmega with
      | none => .error .valueError
      | some (f, g, h) => .ok (ellipseResult (p.loaded k) f g h (recip p.k1) (recip p.k2))) : Except PyErr Result) = B at hB
  have err : ∀ x, Except.error x = A → Except.error x = B → ((∀ e, A = .error e → B = .error e) ∧ ∀ r, A = .ok r →
      (∃ a b, 0 < max p.k1 p.k2 ∧ r = lineResult p (1 / max p.k1 p.k2) a b ∧ B = .ok (lineResult (p.loaded k) (1 / max p.k1 p.k2) a b)) ∨
      (∃ R a b, r = sphereResult p R a b ∧ B = .ok (sphereResult (p.loaded k) R a b)) ∨
      ∃ f g h a b, r = ellipseResult p f g h a b ∧ B = .ok (ellipseResult (p.loaded k) f g h a b)) := by
    rintro x rfl rfl
    exact ⟨fun e he => he, fun r hr => by cases hr⟩
  by_cases h1 : p.r1x.isZero ∨ p.r1y.isZero ∨ p.r2x.isZero ∨ p.r2y.isZero
  · rw [if_pos h1] at hA hB
    exact err _ hA hB
  rw [if_neg h1] at hA hB
  by_cases h2 : p.load ≤ 0
  · rw [if_pos h2] at hA
    rw [if_pos (c2.2 h2)] at hB
    exact err _ hA hB
  rw [if_neg h2] at hA
  rw [if_neg (mt c2.1 h2)] at hB
  by_cases h3 : 1e-8 < |p.alpha + p.beta - p.ang|
  · rw [if_pos h3] at hA hB
    exact err _ hA hB
  rw [if_neg h3] at hA hB
  by_cases h4 : XR.lt (recip p.k1) (.fin 0) = true ∨ XR.lt (recip p.k2) (.fin 0) = true
  · rw [if_pos h4] at hA hB
    exact err _ hA hB
  rw [if_neg h4] at hA hB
  by_cases h5 : recip p.k1 = .pinf ∧ recip p.k2 = .pinf
  · rw [if_pos h5] at hA hB
    exact err _ hA hB
  rw [if_neg h5] at hA hB
  by_cases h6 : XR.lt (.fin 1e5) (recip p.k1 / recip p.k2) = true ∨ XR.lt (.fin 1e5) (recip p.k2 / recip p.k1) = true
  · rw [if_pos h6] at hA hB
    by_cases h7 : p.line = false
    · rw [if_pos h7] at hA hB
      exact err _ hA hB
    · rw [if_neg h7] at hA hB
      subst hA hB
      refine ⟨fun e he => (by cases he), fun r hr => .inl ⟨_, _, ?_, (Except.ok.inj hr).symm, rfl⟩⟩
      rw [not_or] at h4
      have n1 := recip_nonneg h4.1
      have n2 := recip_nonneg h4.2
      refine lt_of_le_of_ne (n1.trans (le_max_left _ _)) fun h => h5 ⟨recip_eq_pinf ?_, recip_eq_pinf ?_⟩
      · exact le_antisymm (h ▸ le_max_left _ _) n1
      · exact le_antisymm (h ▸ le_max_right _ _) n2
  rw [if_neg h6] at hA hB
  by_cases h7 : recip p.k1 = recip p.k2
  · rw [if_pos h7] at hA hB
    by_cases h8 : p.line = true
    · rw [if_pos h8] at hA hB
      exact err _ hA hB
    · rw [if_neg h8] at hA hB
      subst hA hB
      exact ⟨fun e he => (by cases he), fun r hr => .inr (.inl ⟨_, _, _, (Except.ok.inj hr).symm, rfl⟩)⟩
  rw [if_neg h7] at hA hB
  by_cases h8 : p.line = true
  · rw [if_pos h8] at hA hB
    exact err _ hA hB
  rw [if_neg h8] at hA hB
  generalize ell p.cosOmega = found at hA hB
  cases found with
  | none => exact err _ hA hB
  | some t =>
    obtain ⟨f, g, h⟩ := t
    dsimp only at hA hB
    subst hA hB
    exact ⟨fun e he => (by cases he), fun r hr => .inr (.inr ⟨f, g, h, _, _, (Except.ok.inj hr).symm, rfl⟩)⟩

/-! ## The claims -/

/-- **C175, exceptions.** Whether a contact is accepted does not depend on the load, as long as it is positive. -/
theorem C175_exceptions (ell : EllipseFinder) {k : ℝ} (hk : 0 < k) (p : Args) (e : PyErr) : hertzFull ell p = .error e → hertzFull ell (p.loaded k) = .error e :=
  (full_loaded ell hk p).1 e

/-- **C175, round and elliptical contacts.** Under `t³` times the load the contact is `t` times as wide, its area and its deflection are `t²` times and the pressures `t` times as large, at all points of the contact. Missing is the mean pressure of an elliptical contact (`C175_mean_wrong`). -/
theorem C175_point_partial {ell : EllipseFinder} {p : Args} {r : Result} (hr : hertzFull ell p = .ok r) (hs : r.shape ≠ .line) {t : ℝ} (ht : 0 < t) :
    ∃ r', hertzFull ell (p.loaded (t ^ 3)) = .ok r' ∧ { r' with meanPressure := 0 } = { r.wider t with meanPressure := 0 } ∧ (r.shape = .sphere → r' = r.wider t) := by
  rcases (full_loaded ell (pow_pos ht 3) p).2 r hr with ⟨a, b, -, h, -⟩ | ⟨R, a, b, h, h'⟩ | ⟨f, g, k, a, b, h, h'⟩
  · exact absurd (by rw [h]; rfl) hs
  · refine ⟨_, h', ?_, fun _ => ?_⟩
    · rw [sphereResult_loaded ht, h]
    · rw [sphereResult_loaded ht, h]
  · refine ⟨_, h', ?_, fun e => ?_⟩
    · rw [ellipseResult_loaded ht, h]
    · rw [h] at e
      cases e

/-- A ball on a plane. -/
example : ∃ r, hertzFull (fun _ => none) ballOnFlat = .ok r ∧ r.shape ≠ .line := by
  obtain ⟨r, h1, h2, -⟩ := ball_solution
  exact ⟨r, h1, by rw [h2]; decide⟩

/-- **C175, line contacts.** Under `t²` times the load the contact is `t` times as wide and the pressures are `t` times as large. The deflection follows another law (`C175_line_deflection`). -/
theorem C175_line_partial {ell : EllipseFinder} {p : Args} {r : Result} (hr : hertzFull ell p = .ok r) (hs : r.shape = .line) {t : ℝ} (ht : 0 < t) :
    ∃ r', hertzFull ell (p.loaded (t ^ 2)) = .ok r' ∧ { r' with deflection := 0 } = { r.wider t with deflection := 0 } := by
  rcases (full_loaded ell (pow_pos ht 2) p).2 r hr with ⟨a, b, -, h, h'⟩ | ⟨R, a, b, h, -⟩ | ⟨f, g, k, a, b, h, -⟩
  · refine ⟨_, h', ?_⟩
    rw [lineResult_loaded ht, h]
  · rw [h] at hs
    cases hs
  · rw [h] at hs
    cases hs

/-- Two cylinders. -/
example : ∃ r, hertzFull (fun _ => none) cylinders = .ok r ∧ r.shape = .line := by
  obtain ⟨r, h1, h2, _⟩ := C37_line_contact_partial (p := cylinders)
    ⟨by norm_num [cylinders, Radius.isZero], by simp [cylinders, Radius.isZero], by norm_num [cylinders, Radius.isZero],
      by simp [cylinders, Radius.isZero], by norm_num [cylinders]⟩
    (by unfold Determined Args.constA Args.constB cylinders Radius.curv; norm_num)
    (Or.inl (by norm_num [cylinders, Radius.curv])) (κ := 2)
    ⟨by simp [bodies, Spec.curvatureMatrix, cylinders, Radius.curv, Matrix.trace, Fin.sum_univ_two]; norm_num,
      by simp [bodies, Spec.curvatureMatrix, cylinders, Radius.curv, Matrix.det_fin_two]⟩ (by norm_num) rfl (fun _ => none)
  exact ⟨r, h1, h2⟩

/-- **C175 is false for the mean pressure of an elliptical contact**: it falls when the load grows. -/
theorem C175_mean_wrong {ell : EllipseFinder} {p : Args} {r : Result} (hr : hertzFull ell p = .ok r) (hs : r.shape = .ellipse) (hmean : 0 < r.meanPressure) {t : ℝ} (ht : 1 < t) :
    ∃ r', hertzFull ell (p.loaded (t ^ 3)) = .ok r' ∧ r'.meanPressure < r.meanPressure := by
  have t0 : 0 < t := one_pos.trans ht
  rcases (full_loaded ell (pow_pos t0 3) p).2 r hr with ⟨a, b, -, h, -⟩ | ⟨R, a, b, h, -⟩ | ⟨f, g, k, a, b, h, h'⟩
  · rw [h] at hs
    cases hs
  · rw [h] at hs
    cases hs
  · refine ⟨_, h', ?_⟩
    rw [ellipseResult_loaded t0, ← h]
    exact mul_lt_of_lt_one_left hmean (inv_lt_one_of_one_lt₀ ht)

/-- The bodies with the radii 1 and 2. -/
example : ∃ ell r, hertzFull ell aligned = .ok r ∧ r.shape = .ellipse ∧ 0 < r.meanPressure := by
  obtain ⟨r, h1, h2, -⟩ := C37_elliptical_contact_partial (ell := fun _ => some (2, 1, 1)) aligned_accepted aligned_determined (Or.inl (by norm_num [aligned, Radius.curv])) aligned_eigen (by norm_num) one_pos (by norm_num) rfl rfl
  refine ⟨_, r, h1, h2, ?_⟩
  obtain ⟨hload, hs⟩ := solved_of_ok h1
  cases hs with
  | line => cases h2
  | sphere => cases h2
  | ellipse f g k he hsum a b =>
    simp only [Option.some.injEq, Prod.mk.injEq] at he
    obtain ⟨rfl, rfl, rfl⟩ := he
    have hsc := ellScale_pos (p := aligned) ⟨by norm_num [aligned], by norm_num [aligned], by norm_num [aligned], by norm_num [aligned]⟩ hload hsum
    have hpi := Real.pi_pos
    change 0 < 3 * aligned.load / 2 / (2 * ellScale aligned * (1 * ellScale aligned) * Real.pi) / (2 * ellScale aligned * (1 * ellScale aligned) * Real.pi)
    positivity

/-- **C175, deflection of line contacts**: it grows with the load up to the load 4π E R / e², where `R` is the smaller relative radius, and falls with the load above it. -/
theorem C175_line_deflection {ell : EllipseFinder} {p : Args} {r : Result} (hm : Ordinary p) (hr : hertzFull ell p = .ok r) (hs : r.shape = .line) {k : ℝ} (hk : 1 < k) :
    ∃ r', hertzFull ell (p.loaded k) = .ok r' ∧
      (Real.exp 2 * (k * p.load) ≤ 4 * Real.pi * p.eStar * (1 / max p.k1 p.k2) → r.deflection < r'.deflection) ∧
      (4 * Real.pi * p.eStar * (1 / max p.k1 p.k2) ≤ Real.exp 2 * p.load → r'.deflection < r.deflection) := by
  have k0 : 0 < k := one_pos.trans hk
  have hP := (solved_of_ok hr).1
  have hE := eStar_pos hm
  have hpi := Real.pi_pos
  rcases (full_loaded ell k0 p).2 r hr with ⟨a, b, hmax, h, h'⟩ | ⟨R, a, b, h, -⟩ | ⟨f, g, j, a, b, h, -⟩
  · refine ⟨_, h', ?_⟩
    have hd : r.deflection = 1 / Real.pi / p.eStar * p.load * (Real.log (4 * Real.pi * p.eStar * (1 / max p.k1 p.k2) / p.load) - 1) := by
      rw [h]
      rfl
    have hd' : (lineResult (p.loaded k) (1 / max p.k1 p.k2) a b).deflection = 1 / Real.pi / p.eStar * (k * p.load) * (Real.log (4 * Real.pi * p.eStar * (1 / max p.k1 p.k2) / (k * p.load)) - 1) := rfl
    rw [hd, hd']
    have hR : 0 < 4 * Real.pi * p.eStar * (1 / max p.k1 p.k2) := by positivity
    generalize 4 * Real.pi * p.eStar * (1 / max p.k1 p.k2) = K at *
    have hlog : Real.log (K / (k * p.load)) = Real.log (K / p.load) - Real.log k := by
      rw [mul_comm, ← div_div, Real.log_div (by positivity) k0.ne']
    have up : Real.log k < k - 1 := Real.log_lt_sub_one_of_pos k0 hk.ne'
    have low : 1 - k⁻¹ < Real.log k := by
      have := Real.log_lt_sub_one_of_pos (inv_pos.2 k0) (inv_lt_one_of_one_lt₀ hk).ne
      rw [Real.log_inv] at this
      linarith
    have hc : 0 < 1 / Real.pi / p.eStar := by positivity
    rw [mul_assoc, mul_assoc]
    constructor
    · intro hle
      refine mul_lt_mul_of_pos_left ?_ hc
      have hL : 2 ≤ Real.log (K / (k * p.load)) := by
        rw [Real.le_log_iff_exp_le (by positivity), le_div_iff₀ (by positivity)]
        exact hle
      have : Real.log (K / p.load) = Real.log (K / (k * p.load)) + Real.log k := by linarith
      rw [this]
      generalize Real.log (K / (k * p.load)) = L at *
      rw [mul_comm k, mul_assoc]
      refine mul_lt_mul_of_pos_left ?_ hP
      nlinarith
    · intro hle
      refine mul_lt_mul_of_pos_left ?_ hc
      have hL : Real.log (K / p.load) ≤ 2 := by
        rw [Real.log_le_iff_le_exp (by positivity), div_le_iff₀ hP]
        exact hle
      rw [hlog, mul_comm k, mul_assoc]
      refine mul_lt_mul_of_pos_left ?_ hP
      have hk' : k * k⁻¹ = 1 := mul_inv_cancel₀ k0.ne'
      nlinarith
  · rw [h] at hs
    cases hs
  · rw [h] at hs
    cases hs

/-- The modulus 1/2 and the relative radius 1/2 of two cylinders: the deflection falls above the load π/e², below 1/2. -/
example : Ordinary cylinders ∧ Real.exp 2 * (1 / 8) ≤ Real.pi ∧ Real.pi ≤ Real.exp 2 * cylinders.load := by
  refine ⟨⟨by norm_num [cylinders], by norm_num [cylinders], by norm_num [cylinders], by norm_num [cylinders]⟩, ?_, ?_⟩
  · have h := Real.exp_one_lt_d9
    have := Real.pi_gt_three
    rw [show (2 : ℝ) = 1 + 1 by norm_num, Real.exp_add]
    have := Real.exp_pos 1
    nlinarith
  · have := Real.pi_lt_four
    have h := Real.exp_one_gt_d9
    rw [show (2 : ℝ) = 1 + 1 by norm_num, Real.exp_add]
    norm_num [cylinders]
    nlinarith

/-- **C175, fields.** With `t` times the radius and `t` times the maximum pressure, as under the load above, the displacements of a round contact at similar points are `t²` times and the stresses `t` times as large, and so are the greatest shear stresses, at `t` times the depth, and the greatest
von Mises stress of a line contact. -/
theorem C175_fields {t : ℝ} (ht : 0 < t) (e v a p0 : ℝ) (minimise : Minimiser) :
    (∀ x y, axialSphere e v (t * a) (t * p0) (t * x) (t * y) = t ^ 2 * axialSphere e v a p0 x y) ∧
    (∀ x y, radialSphere e v (t * a) (t * p0) (t * x) (t * y) = t ^ 2 * radialSphere e v a p0 x y) ∧
    (∀ z, let s := stressAxis a p0 v z; stressAxis (t * a) (t * p0) v (t * z) = ⟨t * s.r, t * s.theta, t * s.z⟩) ∧
    (∀ r, let s := stressSurface a p0 v r; stressSurface (t * a) (t * p0) v (t * r) = ⟨t * s.r, t * s.theta, t * s.z⟩) ∧
    sphereShear minimise (t * a) (t * p0) v = (sphereShear minimise a p0 v).map (fun q => (t * q.1, t * q.2)) ∧
    lineShear minimise (t * a) (t * p0) v = (lineShear minimise a p0 v).map (fun q => (t * q.1, t * q.2)) ∧
    vonMisesLine (t * p0) v = t * vonMisesLine p0 v := by
  obtain ⟨-, -, h3, h4, h5, h6, h7⟩ := C173_fields (sameUnits ht) e v a p0 minimise
  obtain ⟨h1, h2, -⟩ := C173_fields ⟨t, 1, ht, one_pos⟩ e v a (t * p0) minimise
  simp only [one_mul] at h1 h2
  refine ⟨fun x y => ?_, fun x y => ?_, h3, h4, h5, h6, h7⟩
  · rw [h1]
    unfold axialSphere
    dsimp only
    split <;> ring
  · rw [h2]
    unfold radialSphere
    dsimp only
    split
    · split <;> ring
    · ring

end Verif.HertzFull
