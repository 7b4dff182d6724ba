import Verif.Hertz.Props

/-! # What a returned solution says, for every input -/

namespace Verif.Hertz

open Spec

theorem bind_eq_value {α β : Type} {x : Outcome α} {f : α → Outcome β} {b : β} (h : x.bind f = .value b) :
    ∃ a, x = .value a ∧ f a = .value b := by
  cases x with
  | value a => exact ⟨a, rfl, h⟩
  | notReal => cases h
  | raised e => cases h

theorem need_eq_value {x : Option ℝ} {a : ℝ} (h : need x = .value a) : x = some a := by
  cases x with
  | none => cases h
  | some b => cases h; rfl

theorem eStarOf_value {e1 e2 v1 v2 E : ℝ} (h : eStarOf e1 e2 v1 v2 = .value E) :
    e1 ≠ 0 ∧ e2 ≠ 0 ∧ E ≠ 0 ∧ 1 / E = (1 - v1 ^ 2) / e1 + (1 - v2 ^ 2) / e2 := by
  rw [eStarOf] at h
  split at h
  · cases h
  · rename_i hn
    push Not at hn
    cases h
    exact ⟨hn.1, hn.2.1, one_div_ne_zero hn.2.2, one_div_one_div _⟩

theorem material_root {e1 e2 v1 v2 x E : ℝ} (hm : materialExpr e1 e2 v1 v2 x = 0) (h : eStarOf e1 e2 v1 v2 = .value E) : E = x := by
  obtain ⟨_, _, _, h4⟩ := eStarOf_value h
  rw [materialExpr, ← h4] at hm
  have : 1 / E = 1 / x := by linarith
  simpa using this

/-- Not both Poisson ratios are missing. -/
def PoissonGiven (s : System) : Prop := ¬ (s.v1 = none ∧ s.v2 = none)

/-- The completed material data has the effective modulus it was computed from. -/
theorem fillMaterials_sound {s s' : System} {x : ℝ} (hv : PoissonGiven s) (h : fillMaterials s x = .value s') :
    ∃ e1 e2 v1 v2, s' = ⟨s.r, some e1, some e2, some v1, some v2, s.load⟩ ∧
      ∀ E, eStarOf e1 e2 v1 v2 = .value E → E = x := by
  obtain ⟨r, e1, e2, v1, v2, load⟩ := s
  unfold fillMaterials at h
  split at h <;> rename_i a1 a2 a3 a4 <;> simp only at a1 a2 a3 a4
  · subst a1 a2 a3 a4
    cases h
    refine ⟨_, _, _, _, rfl, ?_⟩
    rename_i v1 v2
    intro E hE
    obtain ⟨h1, _, h3, h4⟩ := eStarOf_value hE
    rw [← add_div, show 1 - v1 ^ 2 + (1 - v2 ^ 2) = 2 - v1 ^ 2 - v2 ^ 2 by ring] at h4
    have h5 : 2 - v1 ^ 2 - v2 ^ 2 ≠ 0 := right_ne_zero_of_mul h1
    have h6 : x ≠ 0 := left_ne_zero_of_mul h1
    field_simp at h4
    exact h4.symm
  · exact absurd ⟨a3, a4⟩ hv
  · subst a1 a2 a3 a4
    split at h
    · cases h
    · obtain ⟨y, hy, h⟩ := bind_eq_value h
      cases h
      exact ⟨_, _, _, _, rfl, fun E hE => material_root (maxRoot_value hy).1.2 hE⟩
  · subst a1 a2 a3 a4
    split at h
    · cases h
    · obtain ⟨y, hy, h⟩ := bind_eq_value h
      cases h
      exact ⟨_, _, _, _, rfl, fun E hE => material_root (maxRoot_value hy).1.2 hE⟩
  · subst a1 a2 a3 a4
    split at h
    · cases h
    · obtain ⟨y, hy, h⟩ := bind_eq_value h
      cases h
      exact ⟨_, _, _, _, rfl, fun E hE => material_root (maxRoot_value hy).1 hE⟩
  · subst a1 a2 a3 a4
    split at h
    · cases h
    · obtain ⟨y, hy, h⟩ := bind_eq_value h
      cases h
      exact ⟨_, _, _, _, rfl, fun E hE => material_root (maxRoot_value hy).1 hE⟩
  · cases h

/-- What the solvers put in place of the missing parameter satisfies the equation. -/
theorem solved {s s' : System} {q : Equation} {eo : Option ℝ} {x : ℝ} (hv : PoissonGiven s)
    (hk : knownEStar s = .value eo) (hx : solveFor (unknownOf s) q s.load eo s.r = .value x)
    (hs : storeFound s (unknownOf s) x = .value s') :
    ∃ r e1 e2 v1 v2 load, s' = full r e1 e2 v1 v2 load ∧
      ∀ E, eStarOf e1 e2 v1 v2 = .value E → q.dom load E r ∧ q.expr load E r = 0 := by
  cases hu : unknownOf s with
  | eStar =>
    rw [hu] at hx hs
    obtain ⟨p, hp, hx⟩ := bind_eq_value hx
    obtain ⟨r, hr, hx⟩ := bind_eq_value hx
    have hp := need_eq_value hp
    have hr := need_eq_value hr
    obtain ⟨e1, e2, v1, v2, hs', hE⟩ := fillMaterials_sound hv hs
    refine ⟨r, e1, e2, v1, v2, p, ?_, ?_⟩
    · rw [hs', hr, hp]; rfl
    · intro E h
      rw [hE E h]
      exact (maxRoot_value hx).1
  | r =>
    rw [hu] at hx hs
    obtain ⟨p, hp, hx⟩ := bind_eq_value hx
    obtain ⟨e, he, hroot⟩ := bind_eq_value hx
    replace hp := need_eq_value hp
    replace he := need_eq_value he
    obtain ⟨r, e1, e2, v1, v2, load⟩ := s
    cases hs
    unfold knownEStar at hk
    simp only at hk hp
    split at hk
    · obtain ⟨E', hE', hk⟩ := bind_eq_value hk
      cases hk
      cases he
      refine ⟨x, _, _, _, _, p, by rw [hp]; rfl, ?_⟩
      intro E h
      rw [hE'] at h
      cases h
      exact (maxRoot_value hroot).1
    · cases hk
      cases he
  | load =>
    rw [hu] at hx hs
    obtain ⟨e, he, hx⟩ := bind_eq_value hx
    obtain ⟨p, hp, hroot⟩ := bind_eq_value hx
    replace hp := need_eq_value hp
    replace he := need_eq_value he
    obtain ⟨r, e1, e2, v1, v2, load⟩ := s
    cases hs
    unfold knownEStar at hk
    simp only at hk hp
    split at hk
    · obtain ⟨E', hE', hk⟩ := bind_eq_value hk
      cases hk
      cases he
      refine ⟨p, _, _, _, _, x, by rw [hp]; rfl, ?_⟩
      intro E h
      rw [hE'] at h
      cases h
      exact (maxRoot_value hroot).1
    · cases hk
      cases he

theorem npSqrt_value {x y : ℝ} (h : npSqrt x = .value y) : 0 ≤ x ∧ y = Real.sqrt x := by
  rw [npSqrt] at h
  split at h
  · cases h
  · rename_i hn
    cases h
    exact ⟨not_lt.mp hn, rfl⟩

theorem cubeRoot_value {x y : ℝ} (h : cubeRoot x = .value y) : 0 ≤ x ∧ 0 ≤ y ∧ y ^ 3 = x := by
  rw [cubeRoot] at h
  split at h
  · cases h
  · rename_i hn
    cases h
    have := not_lt.mp hn
    exact ⟨this, rpow_third_nonneg this, rpow_third_cubed this⟩

/-- What the filled in line solution contains. -/
theorem fillLine_value {r e1 e2 v1 v2 load : ℝ} {S : LineSolution} (h : fillLine (full r e1 e2 v1 v2 load) = .value S) :
    S.r = r ∧ S.e1 = e1 ∧ S.e2 = e2 ∧ S.v1 = v1 ∧ S.v2 = v2 ∧ S.load = load ∧ r ≠ 0 ∧ eStarOf e1 e2 v1 v2 = .value S.eStar ∧
      0 ≤ load * S.eStar / Real.pi / r ∧ S.maxPressure = Real.sqrt (load * S.eStar / Real.pi / r) ∧
      0 ≤ 4 * load * r / S.eStar / Real.pi ∧ S.width = Real.sqrt (4 * load * r / S.eStar / Real.pi) ∧
      S.maxShear = S.maxPressure * 0.3 := by
  unfold fillLine full at h
  simp only [need_some, bind_value] at h
  obtain ⟨E, hE, h⟩ := bind_eq_value h
  split at h
  · cases h
  · rename_i hr
    obtain ⟨w, hw, h⟩ := bind_eq_value h
    obtain ⟨p, hp, h⟩ := bind_eq_value h
    cases h
    obtain ⟨h1, h2⟩ := npSqrt_value hw
    obtain ⟨h3, h4⟩ := npSqrt_value hp
    exact ⟨rfl, rfl, rfl, rfl, rfl, rfl, hr, hE, h3, h4, h1, h2, rfl⟩

theorem solveLine_value {s : System} {d : LineDerived} {S : LineSolution} (hv : PoissonGiven s)
    (hd : (d.maxPressure.isNone && d.maxShear.isNone && d.maxVonMises.isNone && d.width.isNone) = false)
    (h : solveLine s d = .value S) :
    ∃ q, lineEquation d = .value q ∧ fillLine (full S.r S.e1 S.e2 S.v1 S.v2 S.load) = .value S ∧
      q.dom S.load S.eStar S.r ∧ q.expr S.load S.eStar S.r = 0 := by
  rw [solveLine, if_neg (by simp [hd])] at h
  obtain ⟨eo, hk, h⟩ := bind_eq_value h
  obtain ⟨q, hq, h⟩ := bind_eq_value h
  obtain ⟨x, hx, h⟩ := bind_eq_value h
  obtain ⟨s', hs, h⟩ := bind_eq_value h
  obtain ⟨r, e1, e2, v1, v2, load, hs', hE⟩ := solved hv hk hx hs
  subst hs'
  obtain ⟨h1, h2, h3, h4, h5, h6, _, h8, _⟩ := fillLine_value h
  refine ⟨q, hq, ?_, ?_⟩
  · rw [h1, h2, h3, h4, h5, h6, h]
  · rw [h1, h6]
    exact hE _ h8

/-- Whatever is asked for, if a maximum pressure is given and a solution is returned, it has that maximum pressure. No sign of any other
parameter is assumed; other derived arguments are ignored. -/
theorem C32_given_pressure_is_returned {s : System} {p : ℝ} (hp : 0 ≤ p) (hv : PoissonGiven s) (t m w : Option ℝ) {S : LineSolution}
    (h : solveLine s ⟨some p, t, m, w⟩ = .value S) : S.maxPressure = p := by
  obtain ⟨q, hq, hf, _, he⟩ := solveLine_value hv rfl h
  cases hq
  obtain ⟨_, _, _, _, _, _, _, _, _, h10, _⟩ := fillLine_value hf
  have he : S.load * S.eStar / Real.pi / S.r - p ^ 2 = 0 := he
  rw [h10, sub_eq_zero.mp he, Real.sqrt_sq hp]

example : PoissonGiven (system 1 4 4 0 0 (2 * Real.pi) .load) ∧
    solveLine (system 1 4 4 0 0 (2 * Real.pi) .load) ⟨some 2, none, none, none⟩ = .value lineExample :=
  ⟨(fun h => nomatch h.1), C32_round_trip_partial lineExample_contact .load trivial .pressure⟩

/-- The same for the maximum shear stress. -/
theorem C32_given_shear_is_returned {s : System} {t : ℝ} (ht : 0 ≤ t) (hv : PoissonGiven s) (m w : Option ℝ) {S : LineSolution}
    (h : solveLine s ⟨none, some t, m, w⟩ = .value S) : S.maxShear = t := by
  obtain ⟨q, hq, hf, _, he⟩ := solveLine_value hv rfl h
  cases hq
  obtain ⟨_, _, _, _, _, _, _, _, _, h10, _, _, h13⟩ := fillLine_value hf
  have he : 0.3 ^ 2 * S.load * S.eStar / Real.pi / S.r - t ^ 2 = 0 := he
  have h2 : S.load * S.eStar / Real.pi / S.r = (t / 0.3) ^ 2 := by
    rw [div_pow, eq_div_iff (by norm_num), ← sub_eq_zero.mp he]
    ring
  rw [h13, h10, h2, Real.sqrt_sq (by positivity)]
  norm_num

example : PoissonGiven (system 1 4 4 0 0 (2 * Real.pi) .r) ∧
    solveLine (system 1 4 4 0 0 (2 * Real.pi) .r) ⟨none, some 0.6, none, none⟩ = .value lineExample :=
  ⟨(fun h => nomatch h.1), C32_round_trip_partial lineExample_contact .r trivial .shear⟩

/-- The same for the contact width. -/
theorem C32_given_width_is_returned {s : System} {a : ℝ} (ha : 0 ≤ a) (hv : PoissonGiven s) {S : LineSolution}
    (h : solveLine s ⟨none, none, none, some a⟩ = .value S) : S.width = a := by
  obtain ⟨q, hq, hf, _, he⟩ := solveLine_value hv rfl h
  cases hq
  obtain ⟨_, _, _, _, _, _, _, _, _, _, _, h12, _⟩ := fillLine_value hf
  have he : 4 * S.load * S.r / Real.pi / S.eStar - a ^ 2 = 0 := he
  rw [h12, div_right_comm, sub_eq_zero.mp he, Real.sqrt_sq ha]

example : PoissonGiven (system 1 4 4 0 0 (2 * Real.pi) .e1) ∧
    solveLine (system 1 4 4 0 0 (2 * Real.pi) .e1) ⟨none, none, none, some 2⟩ = .value lineExample :=
  ⟨(fun h => nomatch h.1), C32_round_trip_partial lineExample_contact .e1 trivial .width⟩

/-- Every returned line solution with positive radius and moduli satisfies `p0 = 2 P / (π a)` and `a ^ 2 = 4 P R / (π E*)`, whatever was
given. -/
theorem C32_relations_hold {s : System} {d : LineDerived} {S : LineSolution} (h : solveLine s d = .value S)
    (hr : 0 < S.r) (hE : 0 < S.eStar) :
    Real.pi * S.eStar * S.width ^ 2 = 4 * S.load * S.r ∧ Real.pi * S.width * S.maxPressure = 2 * S.load := by
  obtain ⟨s', hf⟩ : ∃ s', fillLine s' = .value S := by
    rw [solveLine] at h
    split at h
    · exact ⟨s, h⟩
    · obtain ⟨_, _, h⟩ := bind_eq_value h
      obtain ⟨_, _, h⟩ := bind_eq_value h
      obtain ⟨_, _, h⟩ := bind_eq_value h
      obtain ⟨s', _, h⟩ := bind_eq_value h
      exact ⟨s', h⟩
  obtain ⟨r, e1, e2, v1, v2, load, rfl⟩ : ∃ r e1 e2 v1 v2 load, s' = full r e1 e2 v1 v2 load := by
    unfold fillLine at hf
    obtain ⟨v1, h1, hf⟩ := bind_eq_value hf
    obtain ⟨e1, h2, hf⟩ := bind_eq_value hf
    obtain ⟨v2, h3, hf⟩ := bind_eq_value hf
    obtain ⟨e2, h4, hf⟩ := bind_eq_value hf
    obtain ⟨load, h5, hf⟩ := bind_eq_value hf
    obtain ⟨r, h6, hf⟩ := bind_eq_value hf
    obtain ⟨a1, a2, a3, a4, a5, a6⟩ := s'
    replace h1 := need_eq_value h1
    replace h2 := need_eq_value h2
    replace h3 := need_eq_value h3
    replace h4 := need_eq_value h4
    replace h5 := need_eq_value h5
    replace h6 := need_eq_value h6
    simp only at h1 h2 h3 h4 h5 h6
    subst h1 h2 h3 h4 h5 h6
    exact ⟨r, e1, e2, v1, v2, load, rfl⟩
  obtain ⟨h1, _, _, _, _, h6, _, _, h9, h10, h11, h12, _⟩ := fillLine_value hf
  rw [← h1, ← h6] at h9 h10 h11 h12
  have hp := Real.pi_pos
  have hl : 0 ≤ S.load := by
    by_contra hn
    have hn := not_le.mp hn
    have : S.load * S.eStar / Real.pi / S.r < 0 := div_neg_of_neg_of_pos (div_neg_of_neg_of_pos (mul_neg_of_neg_of_pos hn hE) hp) hr
    linarith
  constructor
  · rw [h12, Real.sq_sqrt h11]
    field_simp
  · rw [h10, h12, mul_assoc, ← Real.sqrt_mul h11,
      show 4 * S.load * S.r / S.eStar / Real.pi * (S.load * S.eStar / Real.pi / S.r) = (2 * S.load / Real.pi) ^ 2 by
        field_simp; ring, Real.sqrt_sq (by positivity)]
    field_simp

example : solveLine (system 1 4 4 0 0 (2 * Real.pi) .load) ⟨some 2, none, none, none⟩ = .value lineExample ∧ 0 < lineExample.r ∧
    0 < lineExample.eStar :=
  ⟨C32_round_trip_partial lineExample_contact .load trivial .pressure, by norm_num [lineExample], by norm_num [lineExample]⟩

end Verif.Hertz
