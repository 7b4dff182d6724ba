import Verif.Hertz.Lemmas

/-!
# C32, C33, C34: the Hertz parameter solvers
-/

namespace Verif.Hertz

open Spec

/-- A line contact of bodies with the moduli 4, for the examples. -/
noncomputable def lineExample : LineSolution := ⟨1, 4, 4, 0, 0, 2 * Real.pi, 2, 2, 2, 0.6, 2⟩

theorem lineExample_contact : LineContact lineExample := by
  have hp := Real.pi_pos
  constructor <;> norm_num [lineExample] <;> first | positivity | ring

/-! ## Facts about a line contact -/

theorem line_mats {S : LineSolution} (h : LineContact S) : Mats S.e1 S.e2 S.v1 S.v2 S.eStar :=
  ⟨h.e1, h.e2, h.v1, h.v2, h.eStar⟩

theorem line_pressure_pos {S : LineSolution} (h : LineContact S) : 0 < S.maxPressure := by
  have h1 := h.pressure
  have h2 := h.load
  have h3 : 0 < Real.pi * S.width := mul_pos Real.pi_pos h.width
  by_contra hn
  nlinarith [not_lt.mp hn]

theorem line_width_sq {S : LineSolution} (h : LineContact S) : S.width ^ 2 = 4 * S.load * S.r / S.eStar / Real.pi := by
  have hE := (line_mats h).pos
  have hp := Real.pi_pos
  rw [← h.widthSq]
  field_simp

theorem line_pressure_sq {S : LineSolution} (h : LineContact S) : S.maxPressure ^ 2 = S.load * S.eStar / Real.pi / S.r := by
  have hE := (line_mats h).pos
  have hp := Real.pi_pos
  have hr := h.r
  have hl := h.load
  have h1 := h.widthSq
  have h2 := h.pressure
  have h3 : (Real.pi * S.width * S.maxPressure) ^ 2 = 4 * S.load ^ 2 := by rw [h2]; ring
  have h4 : (4 * S.load) * (Real.pi * S.r * S.maxPressure ^ 2) = (4 * S.load) * (S.load * S.eStar) := by
    have : Real.pi * S.maxPressure ^ 2 * (Real.pi * S.eStar * S.width ^ 2) = Real.pi * S.maxPressure ^ 2 * (4 * S.load * S.r) := by rw [h1]
    nlinarith
  have h5 := mul_left_cancel₀ (by positivity) h4
  field_simp
  linarith

theorem lineC_low {v : ℝ} (h : v ≤ 0.1938) : lineC v = 1 / |1 - 2 * v| := by
  rw [lineC, if_pos h]
  congr 1
  rw [show (0.5 : ℝ) = 1 / 2 by norm_num, ← Real.sqrt_eq_rpow, show 1 + 4 * (v - 1) * v = (1 - 2 * v) ^ 2 by ring, Real.sqrt_sq_eq_abs]

theorem lineC_high {v : ℝ} (h : 0.1938 < v) : lineC v = 1.164 + 2.975 * v - 2.906 * v ^ 2 := by
  rw [lineC, if_neg (not_le.mpr h)]

/-- Filling in the derived parameters of a contact gives the contact. -/
theorem fillLine_contact {S : LineSolution} (h : LineContact S) :
    fillLine (full S.r S.e1 S.e2 S.v1 S.v2 S.load) = .value S := by
  have hvm : S.maxPressure / lineC S.v1 = S.maxVonMises := by
    rcases le_or_gt S.v1 0.1938 with hv | hv
    · rw [lineC_low hv, h.vonMisesLow hv]
      rw [div_div_eq_mul_div, div_one, mul_comm]
    · rw [lineC_high hv, ← h.vonMisesHigh hv]
      have : S.v1 < 1 := by nlinarith [h.v1]
      have hpos : 1.164 + 2.975 * S.v1 - 2.906 * S.v1 ^ 2 ≠ 0 := by nlinarith
      rw [mul_div_cancel_right₀ _ hpos]
  have hs : S.maxPressure * 0.3 = S.maxShear := by linarith [h.shear]
  unfold fillLine full
  simp only [need_some, bind_value, (line_mats h).eStarOf, if_neg h.r.ne',
    npSqrt_of h.width.le (line_width_sq h), npSqrt_of (line_pressure_pos h).le (line_pressure_sq h), hvm, hs]

/-- The equation of the derived quantity that is given. -/
noncomputable def lineEq (S : LineSolution) : LineGiven → Equation
  | .pressure => linePressureEq S.maxPressure
  | .shear => lineShearEq S.maxShear
  | .width => lineWidthEq S.width

theorem line_roots {S : LineSolution} (h : LineContact S) (g : LineGiven) :
    IsGreatest {x | (lineEq S g).dom x S.eStar S.r ∧ (lineEq S g).expr x S.eStar S.r = 0} S.load ∧
    IsGreatest {x | (lineEq S g).dom S.load x S.r ∧ (lineEq S g).expr S.load x S.r = 0} S.eStar ∧
    IsGreatest {x | (lineEq S g).dom S.load S.eStar x ∧ (lineEq S g).expr S.load S.eStar x = 0} S.r := by
  have hE := (line_mats h).pos
  have hp := Real.pi_pos
  have hr := h.r
  have hl := h.load
  have hps := line_pressure_sq h
  have hws := line_width_sq h
  have hsh : S.maxShear = 0.3 * S.maxPressure := by linarith [h.shear]
  cases g with
  | pressure =>
    simp only [lineEq, linePressureEq, hps]
    refine ⟨⟨⟨hr.ne', by ring⟩, ?_⟩, ⟨⟨hr.ne', by ring⟩, ?_⟩, ⟨⟨hr.ne', by ring⟩, ?_⟩⟩
    · rintro x ⟨_, hx⟩
      field_simp at hx
      first
        | exact le_of_factor (by positivity) hx
        | exact le_of_factor' (by positivity) hx
    · rintro x ⟨_, hx⟩
      field_simp at hx
      first
        | exact le_of_factor (by positivity) hx
        | exact le_of_factor' (by positivity) hx
    · rintro x ⟨hx0, hx⟩
      have hx0 : x ≠ 0 := hx0
      field_simp at hx
      first
        | exact le_of_factor (by positivity) hx
        | exact le_of_factor' (by positivity) hx
  | shear =>
    simp only [lineEq, lineShearEq, hsh, mul_pow, hps]
    refine ⟨⟨⟨hr.ne', by ring⟩, ?_⟩, ⟨⟨hr.ne', by ring⟩, ?_⟩, ⟨⟨hr.ne', by ring⟩, ?_⟩⟩
    · rintro x ⟨_, hx⟩
      field_simp at hx
      first
        | exact le_of_factor (by positivity) hx
        | exact le_of_factor' (by positivity) hx
    · rintro x ⟨_, hx⟩
      field_simp at hx
      first
        | exact le_of_factor (by positivity) hx
        | exact le_of_factor' (by positivity) hx
    · rintro x ⟨hx0, hx⟩
      have hx0 : x ≠ 0 := hx0
      field_simp at hx
      first
        | exact le_of_factor (by positivity) hx
        | exact le_of_factor' (by positivity) hx
  | width =>
    simp only [lineEq, lineWidthEq, hws]
    refine ⟨⟨⟨hE.ne', by ring⟩, ?_⟩, ⟨⟨hE.ne', by ring⟩, ?_⟩, ⟨⟨hE.ne', by ring⟩, ?_⟩⟩
    · rintro x ⟨_, hx⟩
      field_simp at hx
      first
        | exact le_of_factor (by positivity) hx
        | exact le_of_factor' (by positivity) hx
    · rintro x ⟨hx0, hx⟩
      have hx0 : x ≠ 0 := hx0
      field_simp at hx
      first
        | exact le_of_factor (by positivity) hx
        | exact le_of_factor' (by positivity) hx
    · rintro x ⟨_, hx⟩
      field_simp at hx
      first
        | exact le_of_factor (by positivity) hx
        | exact le_of_factor' (by positivity) hx

theorem lineEquation_of (S : LineSolution) (g : LineGiven) : lineEquation (g.of S) = .value (lineEq S g) := by
  cases g <;> rfl

theorem solveLine_of (s : System) (S : LineSolution) (g : LineGiven) : solveLine s (g.of S) =
    (knownEStar s).bind fun eStar =>
    (lineEquation (g.of S)).bind fun q =>
    (solveFor (unknownOf s) q s.load eStar s.r).bind fun x =>
    (storeFound s (unknownOf s) x).bind fun s' => fillLine s' := by
  cases g <;> rfl

/-! ## C32 -/

/-- From the independent parameters alone the solver returns the contact. -/
theorem C32_from_independent {S : LineSolution} (h : LineContact S) :
    solveLine ⟨some S.r, some S.e1, some S.e2, some S.v1, some S.v2, some S.load⟩ ⟨none, none, none, none⟩ = .value S :=
  fillLine_contact h

example : solveLine ⟨some 1, some 4, some 4, some 0, some 0, some (2 * Real.pi)⟩ ⟨none, none, none, none⟩ = .value lineExample :=
  C32_from_independent lineExample_contact

/-- Leave one independent parameter of a contact out (or both moduli, if they are equal) and give the maximum pressure, the maximum
shear stress or the contact width: the solver returns the contact, with all its fields. Missing from the claim: both Poisson ratios
left out, see `C32_both_poisson_missing`. -/
theorem C32_round_trip_partial {S : LineSolution} (h : LineContact S) (m : Missing) (ha : Allowed S.e1 S.e2 S.v1 S.v2 m)
    (g : LineGiven) : solveLine (system S.r S.e1 S.e2 S.v1 S.v2 S.load m) (g.of S) = .value S := by
  obtain ⟨h1, h2, h3⟩ := line_roots h g
  rw [solveLine_of, known_system (line_mats h), bind_value, lineEquation_of, bind_value, unknownOf_system,
    solveFor_target m S.e1 S.e2 S.v1 S.v2 h1 h2 h3, bind_value, store_full (line_mats h) m ha, bind_value, fillLine_contact h]

example : solveLine ⟨some 1, none, none, some 0, some 0, some (2 * Real.pi)⟩ ⟨some 2, none, none, none⟩ = .value lineExample :=
  C32_round_trip_partial lineExample_contact .bothE rfl .pressure

example : solveLine ⟨some 1, some 4, some 4, none, some 0, some (2 * Real.pi)⟩ ⟨none, none, none, some 2⟩ = .value lineExample :=
  C32_round_trip_partial lineExample_contact .v1 (show (0 : ℝ) ≤ 0 from le_refl 0) .width

end Verif.Hertz
