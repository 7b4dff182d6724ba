import Verif.Hertz.Point

/-! # Every problem with positive data is solved -/

namespace Verif.Hertz

open Spec

/-- The effective modulus of two materials. -/
theorem exists_mats {e1 e2 v1 v2 : ℝ} (h1 : 0 < e1) (h2 : 0 < e2) (hv1 : v1 ^ 2 < 1) (hv2 : v2 ^ 2 < 1) :
    ∃ E, Mats e1 e2 v1 v2 E :=
  ⟨1 / ((1 - v1 ^ 2) / e1 + (1 - v2 ^ 2) / e2), h1, h2, hv1, hv2, one_div_one_div _⟩

/-- A line contact with given independent parameters. -/
theorem exists_line {r e1 e2 v1 v2 load E : ℝ} (h : Mats e1 e2 v1 v2 E) (hr : 0 < r) (hl : 0 < load) :
    ∃ S, LineContact S ∧ S.r = r ∧ S.e1 = e1 ∧ S.e2 = e2 ∧ S.v1 = v1 ∧ S.v2 = v2 ∧ S.load = load ∧ S.eStar = E := by
  have hE := h.pos
  have hp := Real.pi_pos
  have hw : 0 < 4 * load * r / (Real.pi * E) := by positivity
  have hs := Real.sqrt_pos.mpr hw
  set w := Real.sqrt (4 * load * r / (Real.pi * E)) with hwdef
  have hw2 : w ^ 2 = 4 * load * r / (Real.pi * E) := Real.sq_sqrt hw.le
  set p := 2 * load / (Real.pi * w) with hpdef
  refine ⟨⟨r, e1, e2, v1, v2, load, E, w, p, 0.3 * p,
      if v1 ≤ 0.1938 then |1 - 2 * v1| * p else p / (1.164 + 2.975 * v1 - 2.906 * v1 ^ 2)⟩, ?_, rfl, rfl, rfl, rfl, rfl, rfl, rfl⟩
  refine ⟨hr, h.e1_pos, h.e2_pos, hl, h.v1_lt, h.v2_lt, h.eq, hs, ?_, ?_, ?_, ?_, ?_⟩
  · show Real.pi * E * w ^ 2 = 4 * load * r
    rw [hw2]; field_simp
  · show Real.pi * w * p = 2 * load
    rw [hpdef]; field_simp
  · show 10 * (0.3 * p) = 3 * p
    ring
  · intro hv
    exact if_pos hv
  · intro hv
    have hv : 0.1938 < v1 := hv
    have h1 : v1 < 1 := by nlinarith [h.v1_lt]
    have hpos : 1.164 + 2.975 * v1 - 2.906 * v1 ^ 2 ≠ 0 := by nlinarith
    show (if v1 ≤ 0.1938 then |1 - 2 * v1| * p else p / (1.164 + 2.975 * v1 - 2.906 * v1 ^ 2)) * _ = p
    rw [if_neg (not_le.mpr hv), div_mul_cancel₀ _ hpos]

/-- A point contact with given independent parameters. -/
theorem exists_point {r e1 e2 v1 v2 load E : ℝ} (h : Mats e1 e2 v1 v2 E) (hr : 0 < r) (hl : 0 < load) :
    ∃ S, PointContact S ∧ S.r = r ∧ S.e1 = e1 ∧ S.e2 = e2 ∧ S.v1 = v1 ∧ S.v2 = v2 ∧ S.load = load ∧ S.eStar = E := by
  have hE := h.pos
  have hp := Real.pi_pos
  have hw : 0 < 3 * load * r / (4 * E) := by positivity
  have hs : 0 < (3 * load * r / (4 * E)) ^ ((1 : ℝ) / 3) := Real.rpow_pos_of_pos hw _
  set a := (3 * load * r / (4 * E)) ^ ((1 : ℝ) / 3) with ha
  have ha3 : a ^ 3 = 3 * load * r / (4 * E) := rpow_third_cubed hw.le
  set p := 3 * load / (2 * Real.pi * a ^ 2) with hpdef
  refine ⟨⟨r, e1, e2, v1, v2, load, E, a, p, (1 - 2 * v1) * p / 3, 0.46 * p, 0, a ^ 2 / r⟩, ?_, rfl, rfl, rfl, rfl, rfl, rfl, rfl⟩
  refine ⟨hr, h.e1_pos, h.e2_pos, hl, h.v1_lt, h.v2_lt, h.eq, hs, ?_, ?_, ?_, ?_, ?_⟩
  · show 4 * E * a ^ 3 = 3 * load * r
    rw [ha3]; field_simp
  · show 2 * Real.pi * a ^ 2 * p = 3 * load
    rw [hpdef]; field_simp
  · show a ^ 2 / r * r = a ^ 2
    field_simp
  · show 100 * (0.46 * p) = 46 * p
    ring
  · show 3 * ((1 - 2 * v1) * p / 3) = (1 - 2 * v1) * p
    ring

/-- Equal moduli that give an effective modulus. -/
theorem mats_of_equal {v1 v2 E : ℝ} (hE : 0 < E) (hv1 : v1 ^ 2 < 1) (hv2 : v2 ^ 2 < 1) :
    Mats (E * (2 - v1 ^ 2 - v2 ^ 2)) (E * (2 - v1 ^ 2 - v2 ^ 2)) v1 v2 E := by
  have hk : 0 < 2 - v1 ^ 2 - v2 ^ 2 := by linarith
  refine ⟨by positivity, by positivity, hv1, hv2, ?_⟩
  rw [← add_div]
  rw [show 1 - v1 ^ 2 + (1 - v2 ^ 2) = 2 - v1 ^ 2 - v2 ^ 2 by ring]
  field_simp

theorem sq_pos_inj {x y : ℝ} (hx : 0 < x) (hy : 0 < y) (h : x ^ 2 = y ^ 2) : x = y :=
  (pow_left_inj₀ hx.le hy.le (by norm_num)).mp h

/-- The solver asked for the quantity of an existing contact, with the data of that contact. -/
theorem line_of_exists {S : LineSolution} (h : LineContact S) {m : Missing} {r e1 e2 v1 v2 load x : ℝ} {g : LineGiven}
    (ha : Allowed S.e1 S.e2 S.v1 S.v2 m)
    (hs : system r e1 e2 v1 v2 load m = system S.r S.e1 S.e2 S.v1 S.v2 S.load m) (hx : g.read S = x) :
    ∃ S, solveLine (system r e1 e2 v1 v2 load m) (g.ask x) = .value S ∧ LineContact S ∧ g.read S = x := by
  refine ⟨S, ?_, h, hx⟩
  rw [hs, ← hx]
  exact C32_round_trip_partial h m ha g

/-- Every problem with positive data, one positive derived quantity and the load, the radius or both moduli missing is solved: a line
contact is returned, and it has the given quantity. -/
theorem C32_positive_problems_are_solved {r e1 e2 v1 v2 load x : ℝ} (hr : 0 < r) (h1 : 0 < e1) (h2 : 0 < e2) (hv1 : v1 ^ 2 < 1)
    (hv2 : v2 ^ 2 < 1) (hl : 0 < load) (hx : 0 < x) (m : Missing) (hm : m = .load ∨ m = .r ∨ m = .bothE) (g : LineGiven) :
    ∃ S, solveLine (system r e1 e2 v1 v2 load m) (g.ask x) = .value S ∧ LineContact S ∧ g.read S = x := by
  have hp := Real.pi_pos
  obtain ⟨E, hM⟩ := exists_mats h1 h2 hv1 hv2
  have hE := hM.pos
  have k1 : ∀ {S : LineSolution}, LineContact S → ∀ y, 0 < y → S.load * S.eStar / Real.pi / S.r = y ^ 2 → S.maxPressure = y :=
    fun h y hy he => sq_pos_inj (line_pressure_pos h) hy ((line_pressure_sq h).trans he)
  have k2 : ∀ {S : LineSolution}, LineContact S → ∀ y, 0 < y → 4 * S.load * S.r / S.eStar / Real.pi = y ^ 2 → S.width = y :=
    fun h y hy he => sq_pos_inj h.width hy ((line_width_sq h).trans he)
  have k3 : ∀ {S : LineSolution}, LineContact S → ∀ y, 0 < y → S.load * S.eStar / Real.pi / S.r = (y / 0.3) ^ 2 → S.maxShear = y := by
    intro S h y hy he
    have := k1 h (y / 0.3) (by positivity) he
    have := h.shear
    have h0 : y / 0.3 * 0.3 = y := by field_simp
    linarith
  rcases hm with rfl | rfl | rfl
  · cases g with
    | pressure =>
      obtain ⟨S, hS, a1, a2, a3, a4, a5, a6, a7⟩ := exists_line hM hr (load := Real.pi * x ^ 2 * r / E) (by positivity)
      refine line_of_exists hS trivial (by simp [system, a1, a2, a3, a4, a5]) (k1 hS x hx ?_)
      rw [a1, a6, a7]; field_simp
    | shear =>
      obtain ⟨S, hS, a1, a2, a3, a4, a5, a6, a7⟩ := exists_line hM hr (load := Real.pi * (x / 0.3) ^ 2 * r / E) (by positivity)
      refine line_of_exists hS trivial (by simp [system, a1, a2, a3, a4, a5]) (k3 hS x hx ?_)
      rw [a1, a6, a7]; field_simp
    | width =>
      obtain ⟨S, hS, a1, a2, a3, a4, a5, a6, a7⟩ := exists_line hM hr (load := Real.pi * x ^ 2 * E / 4 / r) (by positivity)
      refine line_of_exists hS trivial (by simp [system, a1, a2, a3, a4, a5]) (k2 hS x hx ?_)
      rw [a1, a6, a7]; field_simp
  · cases g with
    | pressure =>
      obtain ⟨S, hS, a1, a2, a3, a4, a5, a6, a7⟩ := exists_line hM (r := load * E / Real.pi / x ^ 2) (by positivity) hl
      refine line_of_exists hS trivial (by simp [system, a6, a2, a3, a4, a5]) (k1 hS x hx ?_)
      rw [a1, a6, a7]; field_simp
    | shear =>
      obtain ⟨S, hS, a1, a2, a3, a4, a5, a6, a7⟩ := exists_line hM (r := load * E / Real.pi / (x / 0.3) ^ 2) (by positivity) hl
      refine line_of_exists hS trivial (by simp [system, a6, a2, a3, a4, a5]) (k3 hS x hx ?_)
      rw [a1, a6, a7]; field_simp
    | width =>
      obtain ⟨S, hS, a1, a2, a3, a4, a5, a6, a7⟩ := exists_line hM (r := Real.pi * x ^ 2 * E / 4 / load) (by positivity) hl
      refine line_of_exists hS trivial (by simp [system, a6, a2, a3, a4, a5]) (k2 hS x hx ?_)
      rw [a1, a6, a7]; field_simp
  · cases g with
    | pressure =>
      obtain ⟨S, hS, a1, a2, a3, a4, a5, a6, a7⟩ :=
        exists_line (mats_of_equal (E := Real.pi * x ^ 2 * r / load) (by positivity) hv1 hv2) hr hl
      refine line_of_exists hS (a2.trans a3.symm) (by simp [system, a1, a4, a5, a6]) (k1 hS x hx ?_)
      rw [a1, a6, a7]; field_simp
    | shear =>
      obtain ⟨S, hS, a1, a2, a3, a4, a5, a6, a7⟩ :=
        exists_line (mats_of_equal (E := Real.pi * (x / 0.3) ^ 2 * r / load) (by positivity) hv1 hv2) hr hl
      refine line_of_exists hS (a2.trans a3.symm) (by simp [system, a1, a4, a5, a6]) (k3 hS x hx ?_)
      rw [a1, a6, a7]; field_simp
    | width =>
      obtain ⟨S, hS, a1, a2, a3, a4, a5, a6, a7⟩ :=
        exists_line (mats_of_equal (E := 4 * load * r / Real.pi / x ^ 2) (by positivity) hv1 hv2) hr hl
      refine line_of_exists hS (a2.trans a3.symm) (by simp [system, a1, a4, a5, a6]) (k2 hS x hx ?_)
      rw [a1, a6, a7]; field_simp

example : ∃ S, solveLine ⟨some 0.01, none, none, some 0.3, some 0.3, some 1000⟩ ⟨none, none, none, some 1e-8⟩ = .value S ∧
    LineContact S ∧ S.width = 1e-8 :=
  C32_positive_problems_are_solved (r := 0.01) (e1 := 1) (e2 := 1) (v1 := 0.3) (v2 := 0.3) (load := 1000) (x := 1e-8) (by norm_num)
    (by norm_num) (by norm_num) (by norm_num) (by norm_num) (by norm_num) (by norm_num) .bothE (by simp) .width

/-- The solver asked for the quantity of an existing contact, with the data of that contact. -/
theorem point_of_exists (root : RootFinder) {S : PointSolution} (h : PointContact S) {m : Missing} {r e1 e2 v1 v2 load x : ℝ}
    {g : PointGiven} (ha : Allowed S.e1 S.e2 S.v1 S.v2 m)
    (hs : system r e1 e2 v1 v2 load m = system S.r S.e1 S.e2 S.v1 S.v2 S.load m) (hx : g.read S = x) :
    ∃ T, solvePoint root (system r e1 e2 v1 v2 load m) (g.ask x) = .value T ∧ PointContact T ∧ g.read T = x := by
  obtain ⟨T, hT, hsame⟩ := C33_round_trip_partial root h m ha g
  have hc : PointContact T := by
    obtain ⟨b1, b2, b3, b4, b5, b6, b7, b8, b9, b10, b11, b12⟩ := hsame
    obtain ⟨c1, c2, c3, c4, c5, c6, c7, c8, c9, c10, c11, c12, c13⟩ := h
    constructor <;> simp only [b1, b2, b3, b4, b5, b6, b7, b8, b9, b10, b11, b12] <;> assumption
  refine ⟨T, ?_, hc, ?_⟩
  · rw [hs, ← hx]
    exact hT
  · rw [← hx]
    cases g
    · exact hsame.maxPressure
    · exact hsame.maxShear
    · exact hsame.radius
    · exact hsame.displacement

theorem cube_pos_inj {x y : ℝ} (hx : 0 < x) (hy : 0 < y) (h : x ^ 3 = y ^ 3) : x = y := cube_inj hx.le hy.le h

theorem point_displacement_pos {S : PointSolution} (h : PointContact S) : 0 < S.displacement := by
  have h1 : S.displacement = S.radius ^ 2 / S.r := by have := h.r; rw [← h.displacement]; field_simp
  rw [h1]
  exact div_pos (pow_pos h.radius 2) h.r

/-- Every problem with positive data, one positive derived quantity and the load, the radius or both moduli missing is solved: a point
contact is returned, and it has the given quantity. -/
theorem C33_positive_problems_are_solved (root : RootFinder) {r e1 e2 v1 v2 load x : ℝ} (hr : 0 < r) (h1 : 0 < e1) (h2 : 0 < e2)
    (hv1 : v1 ^ 2 < 1) (hv2 : v2 ^ 2 < 1) (hl : 0 < load) (hx : 0 < x) (m : Missing) (hm : m = .load ∨ m = .r ∨ m = .bothE)
    (g : PointGiven) :
    ∃ T, solvePoint root (system r e1 e2 v1 v2 load m) (g.ask x) = .value T ∧ PointContact T ∧ g.read T = x := by
  have hp := Real.pi_pos
  obtain ⟨E, hM⟩ := exists_mats h1 h2 hv1 hv2
  have hE := hM.pos
  have k1 : ∀ {S : PointSolution}, PointContact S → ∀ y, 0 < y → 6 * S.load * S.eStar ^ 2 / Real.pi ^ 3 / S.r ^ 2 = y ^ 3 →
      S.maxPressure = y :=
    fun h y hy he => cube_pos_inj (point_pressure_pos h) hy ((point_pressure_cubed h).trans he)
  have k2 : ∀ {S : PointSolution}, PointContact S → ∀ y, 0 < y → 3 * S.load * S.r / 4 / S.eStar = y ^ 3 → S.radius = y :=
    fun h y hy he => cube_pos_inj h.radius hy ((point_radius_cubed h).trans he)
  have k3 : ∀ {S : PointSolution}, PointContact S → ∀ y, 0 < y →
      6 * S.load * S.eStar ^ 2 / Real.pi ^ 3 / S.r ^ 2 = (y / 0.46) ^ 3 → S.maxShear = y := by
    intro S h y hy he
    have := k1 h (y / 0.46) (by positivity) he
    have := h.shear
    have h0 : y / 0.46 * 0.46 = y := by field_simp
    linarith
  have k4 : ∀ {S : PointSolution}, PointContact S → ∀ y, 0 < y → 9 * S.load ^ 2 / 16 / S.r / S.eStar ^ 2 = y ^ 3 →
      S.displacement = y :=
    fun h y hy he => cube_pos_inj (point_displacement_pos h) hy ((point_displacement_cubed h).trans he)
  have root2 : ∀ z : ℝ, 0 < z → ∃ y, 0 < y ∧ y ^ 2 = z := fun z hz => ⟨Real.sqrt z, Real.sqrt_pos.mpr hz, Real.sq_sqrt hz.le⟩
  rcases hm with rfl | rfl | rfl
  · cases g with
    | pressure =>
      obtain ⟨S, hS, a1, a2, a3, a4, a5, a6, a7⟩ := exists_point hM hr (load := Real.pi ^ 3 * x ^ 3 * r ^ 2 / 6 / E ^ 2) (by positivity)
      refine point_of_exists root hS trivial (by simp [system, a1, a2, a3, a4, a5]) (k1 hS x hx ?_)
      rw [a1, a6, a7]; field_simp
    | shear =>
      obtain ⟨S, hS, a1, a2, a3, a4, a5, a6, a7⟩ := exists_point hM hr (load := Real.pi ^ 3 * (x / 0.46) ^ 3 * r ^ 2 / 6 / E ^ 2) (by positivity)
      refine point_of_exists root hS trivial (by simp [system, a1, a2, a3, a4, a5]) (k3 hS x hx ?_)
      rw [a1, a6, a7]; field_simp
    | radius =>
      obtain ⟨S, hS, a1, a2, a3, a4, a5, a6, a7⟩ := exists_point hM hr (load := 4 * E * x ^ 3 / 3 / r) (by positivity)
      refine point_of_exists root hS trivial (by simp [system, a1, a2, a3, a4, a5]) (k2 hS x hx ?_)
      rw [a1, a6, a7]; field_simp
    | displacement =>
      obtain ⟨y, hy, hy2⟩ := root2 (16 * r * E ^ 2 * x ^ 3 / 9) (by positivity)
      obtain ⟨S, hS, a1, a2, a3, a4, a5, a6, a7⟩ := exists_point hM hr (load := y) hy
      refine point_of_exists root hS trivial (by simp [system, a1, a2, a3, a4, a5]) (k4 hS x hx ?_)
      rw [a1, a6, a7, hy2]; field_simp
  · cases g with
    | pressure =>
      obtain ⟨y, hy, hy2⟩ := root2 (6 * load * E ^ 2 / Real.pi ^ 3 / x ^ 3) (by positivity)
      obtain ⟨S, hS, a1, a2, a3, a4, a5, a6, a7⟩ := exists_point hM (r := y) hy hl
      refine point_of_exists root hS trivial (by simp [system, a6, a2, a3, a4, a5]) (k1 hS x hx ?_)
      rw [a1, a6, a7, hy2]; field_simp
    | shear =>
      obtain ⟨y, hy, hy2⟩ := root2 (6 * load * E ^ 2 / Real.pi ^ 3 / (x / 0.46) ^ 3) (by positivity)
      obtain ⟨S, hS, a1, a2, a3, a4, a5, a6, a7⟩ := exists_point hM (r := y) hy hl
      refine point_of_exists root hS trivial (by simp [system, a6, a2, a3, a4, a5]) (k3 hS x hx ?_)
      rw [a1, a6, a7, hy2]; field_simp
    | radius =>
      obtain ⟨S, hS, a1, a2, a3, a4, a5, a6, a7⟩ := exists_point hM (r := 4 * E * x ^ 3 / 3 / load) (by positivity) hl
      refine point_of_exists root hS trivial (by simp [system, a6, a2, a3, a4, a5]) (k2 hS x hx ?_)
      rw [a1, a6, a7]; field_simp
    | displacement =>
      obtain ⟨S, hS, a1, a2, a3, a4, a5, a6, a7⟩ := exists_point hM (r := 9 * load ^ 2 / 16 / E ^ 2 / x ^ 3) (by positivity) hl
      refine point_of_exists root hS trivial (by simp [system, a6, a2, a3, a4, a5]) (k4 hS x hx ?_)
      rw [a1, a6, a7]; field_simp
  · cases g with
    | pressure =>
      obtain ⟨y, hy, hy2⟩ := root2 (Real.pi ^ 3 * x ^ 3 * r ^ 2 / 6 / load) (by positivity)
      obtain ⟨S, hS, a1, a2, a3, a4, a5, a6, a7⟩ := exists_point (mats_of_equal (E := y) hy hv1 hv2) hr hl
      refine point_of_exists root hS (a2.trans a3.symm) (by simp [system, a1, a4, a5, a6]) (k1 hS x hx ?_)
      rw [a1, a6, a7, hy2]; field_simp
    | shear =>
      obtain ⟨y, hy, hy2⟩ := root2 (Real.pi ^ 3 * (x / 0.46) ^ 3 * r ^ 2 / 6 / load) (by positivity)
      obtain ⟨S, hS, a1, a2, a3, a4, a5, a6, a7⟩ := exists_point (mats_of_equal (E := y) hy hv1 hv2) hr hl
      refine point_of_exists root hS (a2.trans a3.symm) (by simp [system, a1, a4, a5, a6]) (k3 hS x hx ?_)
      rw [a1, a6, a7, hy2]; field_simp
    | radius =>
      obtain ⟨S, hS, a1, a2, a3, a4, a5, a6, a7⟩ := exists_point (mats_of_equal (E := 3 * load * r / 4 / x ^ 3) (by positivity) hv1 hv2) hr hl
      refine point_of_exists root hS (a2.trans a3.symm) (by simp [system, a1, a4, a5, a6]) (k2 hS x hx ?_)
      rw [a1, a6, a7]; field_simp
    | displacement =>
      obtain ⟨y, hy, hy2⟩ := root2 (9 * load ^ 2 / 16 / r / x ^ 3) (by positivity)
      obtain ⟨S, hS, a1, a2, a3, a4, a5, a6, a7⟩ := exists_point (mats_of_equal (E := y) hy hv1 hv2) hr hl
      refine point_of_exists root hS (a2.trans a3.symm) (by simp [system, a1, a4, a5, a6]) (k4 hS x hx ?_)
      rw [a1, a6, a7, hy2]; field_simp

example (root : RootFinder) :
    ∃ T, solvePoint root ⟨none, some 200e9, some 200e9, some 0.3, some 0.3, some 500⟩ ⟨some 1e9, none, none, none, none, none⟩ =
      .value T ∧ PointContact T ∧ T.maxPressure = 1e9 :=
  C33_positive_problems_are_solved root (r := 1) (e1 := 200e9) (e2 := 200e9) (v1 := 0.3) (v2 := 0.3) (load := 500) (x := 1e9)
    (by norm_num) (by norm_num) (by norm_num) (by norm_num) (by norm_num) (by norm_num) (by norm_num) .r (by simp) .pressure

end Verif.Hertz
