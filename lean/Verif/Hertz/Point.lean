import Verif.Hertz.Sound

/-! # C33: point contacts -/

namespace Verif.Hertz

open Spec

theorem point_mats {S : PointSolution} (h : PointContact S) : Mats S.e1 S.e2 S.v1 S.v2 S.eStar :=
  ⟨h.e1, h.e2, h.v1, h.v2, h.eStar⟩

/-- A point contact of bodies with the moduli 4, for the examples. -/
noncomputable def pointExample : PointSolution :=
  ⟨1, 4, 4, 0, 0, 8 / 3, 2, 1, 4 / Real.pi, 4 / Real.pi / 3, 0.46 * (4 / Real.pi), 0, 1⟩

theorem pointExample_contact : PointContact pointExample := by
  have hp := Real.pi_pos
  constructor <;> norm_num [pointExample] <;> first | positivity | (field_simp; done) | (field_simp; norm_num) | ring

theorem point_pressure_pos {S : PointSolution} (h : PointContact S) : 0 < S.maxPressure := by
  have h1 := h.pressure
  have h2 := h.load
  have h3 : 0 < 2 * Real.pi * S.radius ^ 2 := by have := Real.pi_pos; have := h.radius; positivity
  by_contra hn
  nlinarith [not_lt.mp hn]

theorem point_radius_cubed {S : PointSolution} (h : PointContact S) : S.radius ^ 3 = 3 * S.load * S.r / 4 / S.eStar := by
  have hE := (point_mats h).pos
  rw [← h.radiusCubed]
  field_simp

theorem point_pressure_cubed {S : PointSolution} (h : PointContact S) :
    S.maxPressure ^ 3 = pressureCubed S.load S.eStar S.r := by
  have hE := (point_mats h).pos
  have hp := Real.pi_pos
  have hr := h.r
  have hl := h.load
  have ha := h.radius
  have h1 := point_radius_cubed h
  have h2 : S.maxPressure = 3 * S.load / (2 * Real.pi * S.radius ^ 2) := by
    rw [← h.pressure]; field_simp
  have h3 : S.radius ^ 6 = 9 * S.load ^ 2 * S.r ^ 2 / 16 / S.eStar ^ 2 := by
    rw [show S.radius ^ 6 = (S.radius ^ 3) ^ 2 by ring, h1]; field_simp; norm_num
  rw [h2, pressureCubed, div_pow, show (2 * Real.pi * S.radius ^ 2) ^ 3 = 8 * Real.pi ^ 3 * S.radius ^ 6 by ring, h3]
  field_simp
  norm_num

theorem point_displacement_cubed {S : PointSolution} (h : PointContact S) :
    S.displacement ^ 3 = 9 * S.load ^ 2 / 16 / S.r / S.eStar ^ 2 := by
  have hE := (point_mats h).pos
  have hr := h.r
  have h1 : S.displacement = S.radius ^ 2 / S.r := by rw [← h.displacement]; field_simp
  have h3 : S.radius ^ 6 = 9 * S.load ^ 2 * S.r ^ 2 / 16 / S.eStar ^ 2 := by
    rw [show S.radius ^ 6 = (S.radius ^ 3) ^ 2 by ring, point_radius_cubed h]; field_simp; ring
  rw [h1, div_pow, show (S.radius ^ 2) ^ 3 = S.radius ^ 6 by ring, h3]
  field_simp

/-- Filling in the derived parameters of a contact gives the contact. -/
theorem fillPoint_contact {S : PointSolution} (h : PointContact S) :
    ∃ T, fillPoint (full S.r S.e1 S.e2 S.v1 S.v2 S.load) = .value T ∧ SamePoint T S := by
  have hs : 0.46 * S.maxPressure = S.maxShear := by linarith [h.shear]
  have ht : (1 - 2 * S.v1) * S.maxPressure / 3 = S.maxTensile := by linarith [h.tensile]
  have hd : S.radius ^ 2 / S.r = S.displacement := by
    have := h.r
    rw [← h.displacement]; field_simp
  refine ⟨{ S with maxVonMises := S.maxPressure * pointC S.v1 }, ?_, by constructor <;> rfl⟩
  unfold fillPoint full
  simp only [need_some, bind_value, (point_mats h).eStarOf, if_neg h.r.ne',
    cubeRoot_of h.radius.le (point_radius_cubed h), cubeRoot_of (point_pressure_pos h).le (point_pressure_cubed h), hs, ht, hd]
  rw [show 6 * S.load * S.eStar ^ 2 / Real.pi ^ 3 / S.r ^ 2 = pressureCubed S.load S.eStar S.r from rfl,
    cubeRoot_of (point_pressure_pos h).le (point_pressure_cubed h)]
  simp only [bind_value, hs, ht]

/-- The equation of the derived quantity that is given. -/
noncomputable def pointEq (S : PointSolution) : PointGiven → Equation
  | .pressure => pointPressureEq S.maxPressure
  | .shear => pointShearEq S.maxShear
  | .radius => pointRadiusEq S.radius
  | .displacement => pointDisplacementEq S.displacement

theorem cubed_load {L E r x : ℝ} (hE : E ≠ 0) (hr : r ≠ 0) (h : pressureCubed x E r = pressureCubed L E r) : x = L := by
  have hp := Real.pi_pos.ne'
  unfold pressureCubed at h
  field_simp at h
  exact h

theorem cubed_E {L E r x : ℝ} (hL : L ≠ 0) (hr : r ≠ 0) (h : pressureCubed L x r = pressureCubed L E r) : x ^ 2 = E ^ 2 := by
  have hp := Real.pi_pos.ne'
  unfold pressureCubed at h
  field_simp at h
  exact h

theorem cubed_r {L E r x : ℝ} (hL : L ≠ 0) (hE : E ≠ 0) (hr : r ≠ 0) (hx : x ≠ 0)
    (h : pressureCubed L E x = pressureCubed L E r) : x ^ 2 = r ^ 2 := by
  have hp := Real.pi_pos.ne'
  unfold pressureCubed at h
  field_simp at h
  exact h.symm

theorem pressureCubed_nonneg {S : PointSolution} (h : PointContact S) : 0 ≤ pressureCubed S.load S.eStar S.r := by
  rw [← point_pressure_cubed h]
  have := point_pressure_pos h
  positivity

theorem third_inj {x y : ℝ} (hx : 0 ≤ x) (hy : 0 ≤ y) (h : x ^ ((1 : ℝ) / 3) = y ^ ((1 : ℝ) / 3)) : x = y := by
  rw [← rpow_third_cubed hx, h, rpow_third_cubed hy]

/-- The three root sets of an equation that fixes the cube of the maximum pressure. -/
theorem roots_of_cubed {S : PointSolution} (h : PointContact S) {q : Equation}
    (hdom : ∀ L E r, q.dom L E r → r ≠ 0)
    (hself : q.dom S.load S.eStar S.r ∧ q.expr S.load S.eStar S.r = 0)
    (hcub : ∀ L E r, q.dom L E r → q.expr L E r = 0 → pressureCubed L E r = pressureCubed S.load S.eStar S.r) :
    IsGreatest {x | q.dom x S.eStar S.r ∧ q.expr x S.eStar S.r = 0} S.load ∧
    IsGreatest {x | q.dom S.load x S.r ∧ q.expr S.load x S.r = 0} S.eStar ∧
    IsGreatest {x | q.dom S.load S.eStar x ∧ q.expr S.load S.eStar x = 0} S.r := by
  have hE := (point_mats h).pos
  refine ⟨⟨hself, ?_⟩, ⟨hself, ?_⟩, ⟨hself, ?_⟩⟩
  · rintro x ⟨hd, he⟩
    exact (cubed_load hE.ne' h.r.ne' (hcub _ _ _ hd he)).le
  · rintro x ⟨hd, he⟩
    exact le_of_sq_eq hE.le (cubed_E h.load.ne' h.r.ne' (hcub _ _ _ hd he))
  · rintro x ⟨hd, he⟩
    exact le_of_sq_eq h.r.le (cubed_r h.load.ne' hE.ne' h.r.ne' (hdom _ _ _ hd) (hcub _ _ _ hd he))

theorem point_roots {S : PointSolution} (h : PointContact S) (g : PointGiven) :
    IsGreatest {x | (pointEq S g).dom x S.eStar S.r ∧ (pointEq S g).expr x S.eStar S.r = 0} S.load ∧
    IsGreatest {x | (pointEq S g).dom S.load x S.r ∧ (pointEq S g).expr S.load x S.r = 0} S.eStar ∧
    IsGreatest {x | (pointEq S g).dom S.load S.eStar x ∧ (pointEq S g).expr S.load S.eStar x = 0} S.r := by
  have hE := (point_mats h).pos
  have hr := h.r
  have hl := h.load
  cases g with
  | pressure =>
    refine roots_of_cubed h (fun _ _ _ hd => hd) ⟨hr.ne', ?_⟩ ?_
    · show pressureCubed S.load S.eStar S.r - S.maxPressure ^ 3 = 0
      rw [point_pressure_cubed h, sub_self]
    · intro L E r _ he
      have he : pressureCubed L E r - S.maxPressure ^ 3 = 0 := he
      rw [sub_eq_zero.mp he, point_pressure_cubed h]
  | shear =>
    have hth : pressureCubed S.load S.eStar S.r ^ ((1 : ℝ) / 3) = S.maxPressure :=
      rpow_third_of (point_pressure_pos h).le (point_pressure_cubed h)
    refine roots_of_cubed h (fun _ _ _ hd => hd.1) ⟨⟨hr.ne', pressureCubed_nonneg h⟩, ?_⟩ ?_
    · show 0.46 * (pressureCubed S.load S.eStar S.r ^ ((1 : ℝ) / 3)) - S.maxShear = 0
      rw [hth]
      linarith [h.shear]
    · intro L E r hd he
      have he : 0.46 * (pressureCubed L E r ^ ((1 : ℝ) / 3)) - S.maxShear = 0 := he
      apply third_inj hd.2 (pressureCubed_nonneg h)
      rw [hth]
      linarith [h.shear]
  | radius =>
    have h3 := point_radius_cubed h
    simp only [pointEq, pointRadiusEq, h3]
    refine ⟨⟨⟨hE.ne', by ring⟩, ?_⟩, ⟨⟨hE.ne', by ring⟩, ?_⟩, ⟨⟨hE.ne', by ring⟩, ?_⟩⟩
    · rintro x ⟨_, hx⟩
      field_simp at hx
      first
        | exact le_of_factor (by positivity) hx
        | exact le_of_factor' (by positivity) hx
    · rintro x ⟨hx0, hx⟩
      have hx0 : x ≠ 0 := hx0
      field_simp at hx
      first
        | exact le_of_factor (by positivity) hx
        | exact le_of_factor' (by positivity) hx
    · rintro x ⟨_, hx⟩
      field_simp at hx
      first
        | exact le_of_factor (by positivity) hx
        | exact le_of_factor' (by positivity) hx
  | displacement =>
    have h3 := point_displacement_cubed h
    simp only [pointEq, pointDisplacementEq, h3]
    refine ⟨⟨⟨⟨hE.ne', hr.ne'⟩, by ring⟩, ?_⟩, ⟨⟨⟨hE.ne', hr.ne'⟩, by ring⟩, ?_⟩, ⟨⟨⟨hE.ne', hr.ne'⟩, by ring⟩, ?_⟩⟩
    · rintro x ⟨_, hx⟩
      have hx := sub_eq_zero.mp hx
      field_simp at hx
      exact le_of_sq_eq hl.le hx
    · rintro x ⟨⟨hx0, _⟩, hx⟩
      have hx0 : x ≠ 0 := hx0
      have hx := sub_eq_zero.mp hx
      field_simp at hx
      exact le_of_sq_eq hE.le hx.symm
    · rintro x ⟨⟨_, hx0⟩, hx⟩
      have hx0 : x ≠ 0 := hx0
      have hx := sub_eq_zero.mp hx
      field_simp at hx
      exact hx.symm.le

theorem pointEquation_of (S : PointSolution) (g : PointGiven) : pointEquation (g.of S) = .value (pointEq S g) := by
  cases g <;> rfl

theorem solvePoint_of (root : RootFinder) (s : System) (S : PointSolution) (g : PointGiven) : solvePoint root s (g.of S) =
    (knownEStar s).bind fun eStar =>
    (pointEquation (g.of S)).bind fun q =>
    (solveFor (unknownOf s) q s.load eStar s.r).bind fun x =>
    (storeFound s (unknownOf s) x).bind fun s' => fillPoint s' := by
  cases g <;> rfl

/-- From the independent parameters alone the solver returns the contact. -/
theorem C33_from_independent (root : RootFinder) {S : PointSolution} (h : PointContact S) :
    ∃ T, solvePoint root ⟨some S.r, some S.e1, some S.e2, some S.v1, some S.v2, some S.load⟩ ⟨none, none, none, none, none, none⟩ =
      .value T ∧ SamePoint T S :=
  fillPoint_contact h

example (root : RootFinder) :
    ∃ T, solvePoint root ⟨some 1, some 4, some 4, some 0, some 0, some (8 / 3)⟩ ⟨none, none, none, none, none, none⟩ = .value T ∧
      SamePoint T pointExample :=
  C33_from_independent root pointExample_contact

/-- Leave one independent parameter of a contact out (or both moduli, if they are equal) and give the maximum pressure, the maximum
shear stress, the contact radius or the total displacement: the solver returns the contact. Missing from the claim: both Poisson
ratios left out, see `C33_both_poisson_missing`. -/
theorem C33_round_trip_partial (root : RootFinder) {S : PointSolution} (h : PointContact S) (m : Missing)
    (ha : Allowed S.e1 S.e2 S.v1 S.v2 m) (g : PointGiven) :
    ∃ T, solvePoint root (system S.r S.e1 S.e2 S.v1 S.v2 S.load m) (g.of S) = .value T ∧ SamePoint T S := by
  obtain ⟨h1, h2, h3⟩ := point_roots h g
  rw [solvePoint_of, known_system (point_mats h), bind_value, pointEquation_of, bind_value, unknownOf_system,
    solveFor_target m S.e1 S.e2 S.v1 S.v2 h1 h2 h3, bind_value, store_full (point_mats h) m ha, bind_value]
  exact fillPoint_contact h

example (root : RootFinder) :
    ∃ T, solvePoint root ⟨none, some 4, some 4, some 0, some 0, some (8 / 3)⟩ ⟨none, none, none, none, some 1, none⟩ = .value T ∧
      SamePoint T pointExample :=
  C33_round_trip_partial root pointExample_contact .r trivial .displacement

/-- The tensile stress equation of a contact with a Poisson ratio below one half. -/
theorem tensile_roots {S : PointSolution} (h : PointContact S) (hv : S.v1 ≠ 1 / 2) :
    let q := pointTensileEq S.v1 S.maxTensile
    IsGreatest {x | q.dom x S.eStar S.r ∧ q.expr x S.eStar S.r = 0} S.load ∧
    IsGreatest {x | q.dom S.load x S.r ∧ q.expr S.load x S.r = 0} S.eStar ∧
    IsGreatest {x | q.dom S.load S.eStar x ∧ q.expr S.load S.eStar x = 0} S.r := by
  have hth : pressureCubed S.load S.eStar S.r ^ ((1 : ℝ) / 3) = S.maxPressure :=
    rpow_third_of (point_pressure_pos h).le (point_pressure_cubed h)
  refine roots_of_cubed h (fun _ _ _ hd => hd.1) ⟨⟨h.r.ne', pressureCubed_nonneg h⟩, ?_⟩ ?_
  · show (1 - 2 * S.v1) * (pressureCubed S.load S.eStar S.r ^ ((1 : ℝ) / 3)) / 3 - S.maxTensile = 0
    rw [hth]
    linarith [h.tensile]
  · intro L E r hd he
    have he : (1 - 2 * S.v1) * (pressureCubed L E r ^ ((1 : ℝ) / 3)) / 3 - S.maxTensile = 0 := he
    apply third_inj hd.2 (pressureCubed_nonneg h)
    rw [hth]
    have h1 : (1 - 2 * S.v1) ≠ 0 := by
      intro h0
      apply hv
      linarith
    apply mul_left_cancel₀ h1
    linarith [h.tensile]

/-- Giving the maximum tensile stress determines the load or the radius, if the first body is not incompressible. -/
theorem C33_tensile_load_or_radius (root : RootFinder) {S : PointSolution} (h : PointContact S) (hv : S.v1 ≠ 1 / 2) (m : Missing)
    (hm : m = .load ∨ m = .r) :
    ∃ T, solvePoint root (system S.r S.e1 S.e2 S.v1 S.v2 S.load m) ⟨none, none, none, none, none, some S.maxTensile⟩ = .value T ∧
      SamePoint T S := by
  obtain ⟨h1, h2, h3⟩ := tensile_roots h hv
  have hE := (point_mats h).eStarOf
  rcases hm with rfl | rfl
  · have : solvePoint root (system S.r S.e1 S.e2 S.v1 S.v2 S.load .load) ⟨none, none, none, none, none, some S.maxTensile⟩ =
        fillPoint (full S.r S.e1 S.e2 S.v1 S.v2 S.load) := by
      simp [solvePoint, knownEStar, system, unknownOf, hE, solveFor, maxRoot_eq h1, storeFound, full]
    rw [this]
    exact fillPoint_contact h
  · have : solvePoint root (system S.r S.e1 S.e2 S.v1 S.v2 S.load .r) ⟨none, none, none, none, none, some S.maxTensile⟩ =
        fillPoint (full S.r S.e1 S.e2 S.v1 S.v2 S.load) := by
      simp [solvePoint, knownEStar, system, unknownOf, hE, solveFor, maxRoot_eq h3, storeFound, full]
    rw [this]
    exact fillPoint_contact h

example (root : RootFinder) :
    ∃ T, solvePoint root ⟨some 1, some 4, some 4, some 0, some 0, none⟩ ⟨none, none, none, none, none, some (4 / Real.pi / 3)⟩ =
      .value T ∧ SamePoint T pointExample :=
  C33_tensile_load_or_radius root pointExample_contact (by norm_num [pointExample]) .load (Or.inl rfl)

/-- Giving the maximum tensile stress does not determine the moduli, although the documentation offers it: with both moduli missing the code
looks up `_system[None]` and every such call ends in a `KeyError`. -/
theorem C33_tensile_moduli_key_error (root : RootFinder) (r load v1 v2 t : ℝ) :
    solvePoint root ⟨some r, none, none, some v1, some v2, some load⟩ ⟨none, none, none, none, none, some t⟩ = .raised .keyError := by
  rfl

end Verif.Hertz
