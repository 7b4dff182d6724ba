import Verif.Ellipse.Lemmas
import Verif.HertzFull.Extras

/-!
# C129, C130: elliptical contacts

`root` is `brentq`; in the theorems it finds exact roots.
-/

namespace Verif.Ellipse

open Real HertzFull

/-- What is assumed of the root finder: its answers are roots in the bracket. -/
def Exact (root : RootFinder) : Prop := ∀ F l u k, root F l u = some k → F k = 0 ∧ l ≤ k ∧ k ≤ u

/-! ## C130: Hertz's condition -/

theorem closes_of {a k p0 v1 y1 v2 y2 c s P δ I J : ℝ} (ha : 0 < a) (hk : 0 < k) (hk1 : k < 1) (hy1 : 0 < y1) (hy2 : 0 < y2)
    (hv1 : v1 ^ 2 < 1) (hv2 : v2 ^ 2 < 1) (hc : c < 1) (hs : 0 < s) (hP : 0 < P) (hI : intI k = I) (hJ : intJ k = J)
    (ha3 : a ^ 3 * ((1 - c) * s) = 6 * P / π * I * ((1 - v1 ^ 2) / y1 + (1 - v2 ^ 2) / y2))
    (he : J * (1 - c) = k ^ 3 * I * (1 + c)) (hp0 : p0 = 3 * P / 2 / (a * (k * a) * π))
    (hδ : δ = ((1 - v1 ^ 2) / y1 + (1 - v2 ^ 2) / y2) * (3 * P / (2 * π * a)) * intH k) (x y : ℝ) :
    Spec.displacement a (k * a) p0 v1 y1 x y + Spec.displacement a (k * a) p0 v2 y2 x y =
      δ - (s * (1 - c) / 4 * x ^ 2 + s * (1 + c) / 4 * y ^ 2) := by
  have hI0 : 0 < I := hI ▸ intI_pos hk
  unfold Spec.displacement
  rw [specL_eq ha hk hk1.le, specM_eq ha hk hk1, specN_eq ha hk hk1, hI, hJ, hp0, hδ]
  have t1 : (1 - v1 ^ 2) / (π * y1) = (1 - v1 ^ 2) / y1 / π := by field_simp
  have t2 : (1 - v2 ^ 2) / (π * y2) = (1 - v2 ^ 2) / y2 / π := by field_simp
  have p1 : 0 < (1 - v1 ^ 2) / y1 := div_pos (by linarith) hy1
  have p2 : 0 < (1 - v2 ^ 2) / y2 := div_pos (by linarith) hy2
  rw [t1, t2]
  generalize (1 - v1 ^ 2) / y1 = A at *
  generalize (1 - v2 ^ 2) / y2 = B at *
  have hc1 : 0 < 1 - c := by linarith
  have hpi := pi_pos
  have hs' : s = 6 * P / π * I * (A + B) / (a ^ 3 * (1 - c)) := by
    rw [eq_div_iff (by positivity), ← ha3]
    ring
  have hJ' : J = k ^ 3 * I * (1 + c) / (1 - c) := by
    rw [eq_div_iff hc1.ne', he]
  rw [hs', hJ']
  field_simp
  ring

/-- The elliptical branch closes the gap of bodies with the auxiliary angle the code uses. -/
theorem ellipse_closes {root : RootFinder} {p : Args} {r : Result} (hm : Ordinary p) (hroot : Exact root)
    (h : hertz root p = .ok r) (hl : r.shape = .ellipse) (h0 : 0 < p.cosOmega) (h1 : p.cosOmega < 1) :
    ∃ a b, 0 < b ∧ b < a ∧ r.radiusA = .fin a ∧ r.radiusB = .fin b ∧
      ∀ x y, Spec.displacement a b r.maxPressure p.v1 p.e1 x y + Spec.displacement a b r.maxPressure p.v2 p.e2 x y =
        r.deflection - ((bodies p).trace * (1 - p.cosOmega) / 4 * x ^ 2 + (bodies p).trace * (1 + p.cosOmega) / 4 * y ^ 2) := by
  obtain ⟨hload, hs⟩ := solved_of_ok h
  cases hs with
  | line => cases hl
  | sphere => cases hl
  | ellipse f g hh hell hsum r1Rel r2Rel =>
    obtain ⟨k, a, hk, hk1, ha, hfa, hga, hH, ha3, he⟩ := ellipse_numbers hm hload hsum hroot h0 h1 hell
    refine ⟨a, k * a, by positivity, by nlinarith, ?_, ?_, ?_⟩
    · show XR.fin (f * ellScale p) = _
      rw [hfa]
    · show XR.fin (g * ellScale p) = _
      rw [hga]
    · have hpi := pi_pos
      have t1 : 0 < (1 - p.v1 ^ 2) / p.e1 := div_pos (by linarith [hm.v1]) hm.e1
      rw [trace_bodies]
      refine closes_of ha hk hk1 hm.e1 hm.e2 hm.v1 hm.v2 h1 hsum hload rfl rfl ha3 he ?_ ?_
      · show 3 * p.load / 2 / (f * ellScale p * (g * ellScale p) * π) = _
        rw [hfa, hga]
      · show 3 * p.load * (4 * (1 - p.v1 ^ 2) / p.e1) * hh / (f * ellScale p) / 8 / π +
          3 * p.load * (4 * (1 - p.v1 ^ 2) / p.e1) * hh / (f * ellScale p) / 8 / π * (4 * (1 - p.v2 ^ 2) / p.e2) / (4 * (1 - p.v1 ^ 2) / p.e1) = _
        rw [hfa, hH, mul_div_assoc 4, mul_div_assoc 4]
        generalize (1 - p.v1 ^ 2) / p.e1 = A at *
        field_simp
        ring

/-- **C130 (partial)**: if the auxiliary angle is that of the principal relative curvatures (C66), the ellipse, the largest pressure and the
deflection close the gap between the bodies: Hertz's condition. Missing: the other contacts (next theorem), the accuracy of root finder and
integrals. -/
theorem C130_closes_partial {root : RootFinder} {p : Args} {r : Result} (hm : Ordinary p) (hroot : Exact root)
    (h : hertz root p = .ok r) (hl : r.shape = .ellipse) {κ μ : ℝ} (hE : HertzFull.Spec.Eigenvalues (bodies p) κ μ) (hpos : 0 < μ) (hlt : μ < κ)
    (hc : p.cosOmega = (κ - μ) / (κ + μ)) :
    ∃ a b, 0 < b ∧ b < a ∧ r.radiusA = .fin a ∧ r.radiusB = .fin b ∧
      Spec.Closes a b r.maxPressure p.v1 p.e1 p.v2 p.e2 κ μ r.deflection := by
  have hsum : 0 < κ + μ := by linarith
  obtain ⟨a, b, hb, hab, e1, e2, hu⟩ := ellipse_closes hm hroot h hl (by rw [hc]; exact div_pos (by linarith) hsum)
    (by rw [hc, div_lt_one hsum]; linarith)
  refine ⟨a, b, hb, hab, e1, e2, fun x y _ => ?_⟩
  rw [hu x y, hc, ← hE.1]
  field_simp
  ring

/-- **C130 (negation)**: with another auxiliary angle the gap stays open or the bodies overlap. By C66 this happens for all bodies that both have
two different curvatures and are not at 45 degrees. -/
theorem C130_closes_wrong {root : RootFinder} {p : Args} {r : Result} (hm : Ordinary p) (hroot : Exact root)
    (h : hertz root p = .ok r) (hl : r.shape = .ellipse) {κ μ : ℝ} (hE : HertzFull.Spec.Eigenvalues (bodies p) κ μ) (hpos : 0 < μ) (hlt : μ < κ)
    (h0 : 0 < p.cosOmega) (h1 : p.cosOmega < 1) (hc : p.cosOmega ≠ (κ - μ) / (κ + μ)) :
    ∃ a b, 0 < b ∧ b < a ∧ r.radiusA = .fin a ∧ r.radiusB = .fin b ∧
      ∀ δ, ¬ Spec.Closes a b r.maxPressure p.v1 p.e1 p.v2 p.e2 κ μ δ := by
  have hsum : 0 < κ + μ := by linarith
  obtain ⟨a, b, hb, hab, e1, e2, hu⟩ := ellipse_closes hm hroot h hl h0 h1
  have ha : 0 < a := by linarith
  refine ⟨a, b, hb, hab, e1, e2, fun δ hcl => hc ?_⟩
  have z := hcl 0 0 (by norm_num)
  have w := hcl (a / 2) 0 (by rw [show a / 2 / a = 1 / 2 by field_simp]; norm_num)
  rw [hu, ← hE.1] at z w
  rw [eq_div_iff hsum.ne']
  have ha2 : 0 < a ^ 2 := by positivity
  have : ((κ + μ) * (1 - p.cosOmega) / 4 - μ / 2) * a ^ 2 = 0 := by nlinarith
  rcases mul_eq_zero.mp this with h2 | h2
  · linarith
  · exact absurd h2 ha2.ne'

end Verif.Ellipse
