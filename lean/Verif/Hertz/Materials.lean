import Verif.Hertz.Exist

/-! # C34, and the cases where the solvers fail -/

namespace Verif.Hertz

open Spec

/-! ## Point contacts: what a returned solution says, for every input -/

theorem fillPoint_value {r e1 e2 v1 v2 load : ℝ} {S : PointSolution} (h : fillPoint (full r e1 e2 v1 v2 load) = .value S) :
    S.r = r ∧ S.e1 = e1 ∧ S.e2 = e2 ∧ S.v1 = v1 ∧ S.v2 = v2 ∧ S.load = load ∧ r ≠ 0 ∧ eStarOf e1 e2 v1 v2 = .value S.eStar ∧
      S.radius ^ 3 = 3 * load * r / 4 / S.eStar ∧ 0 ≤ S.maxPressure ∧ S.maxPressure ^ 3 = pressureCubed load S.eStar r ∧
      S.maxShear = 0.46 * S.maxPressure ∧ S.displacement = S.radius ^ 2 / r ∧ S.maxVonMises = S.maxPressure * pointC v1 := by
  unfold fillPoint full at h
  simp only [need_some, bind_value] at h
  obtain ⟨E, hE, h⟩ := bind_eq_value h
  split at h
  · cases h
  · rename_i hr
    obtain ⟨w, hw, h⟩ := bind_eq_value h
    obtain ⟨p, hp, h⟩ := bind_eq_value h
    cases h
    obtain ⟨_, _, h2⟩ := cubeRoot_value hw
    obtain ⟨_, h3, h4⟩ := cubeRoot_value hp
    exact ⟨rfl, rfl, rfl, rfl, rfl, rfl, hr, hE, h2, h3, h4, rfl, rfl, rfl⟩

theorem solvePoint_value (root : RootFinder) {s : System} {d : PointDerived} {S : PointSolution} (hv : PoissonGiven s)
    (hd : (d.maxPressure.isNone && d.maxShear.isNone && d.maxVonMises.isNone && d.radius.isNone && d.displacement.isNone) = false)
    (h : solvePoint root s d = .value S) :
    ∃ q, pointEquation d = .value q ∧ fillPoint (full S.r S.e1 S.e2 S.v1 S.v2 S.load) = .value S ∧
      q.dom S.load S.eStar S.r ∧ q.expr S.load S.eStar S.r = 0 := by
  rw [solvePoint, if_neg (by simp [hd])] at h
  obtain ⟨eo, hk, h⟩ := bind_eq_value h
  rw [if_neg (by simp [hd])] at h
  obtain ⟨q, hq, h⟩ := bind_eq_value h
  obtain ⟨x, hx, h⟩ := bind_eq_value h
  obtain ⟨s', hs, h⟩ := bind_eq_value h
  obtain ⟨r, e1, e2, v1, v2, load, hs', hE⟩ := solved hv hk hx hs
  subst hs'
  obtain ⟨h1, h2, h3, h4, h5, h6, _, h8, _⟩ := fillPoint_value h
  refine ⟨q, hq, ?_, ?_⟩
  · rw [h1, h2, h3, h4, h5, h6, h]
  · rw [h1, h6]
    exact hE _ h8

theorem cube_injective {x y : ℝ} (h : x ^ 3 = y ^ 3) : x = y := (Odd.strictMono_pow (by decide : Odd 3)).injective h

/-- Whatever is asked for, if one of the maximum pressure, the maximum shear stress, the contact radius and the total displacement is given
and a solution is returned, it has the given value. No sign of any parameter is assumed. -/
theorem C33_given_quantity_is_returned (root : RootFinder) {s : System} {x : ℝ} (g : PointGiven) (hv : PoissonGiven s)
    {S : PointSolution} (h : solvePoint root s (g.ask x) = .value S) : g.read S = x := by
  have hd : ((g.ask x).maxPressure.isNone && (g.ask x).maxShear.isNone && (g.ask x).maxVonMises.isNone && (g.ask x).radius.isNone &&
      (g.ask x).displacement.isNone) = false := by cases g <;> rfl
  obtain ⟨q, hq, hf, hdom, he⟩ := solvePoint_value root hv hd h
  obtain ⟨_, _, _, _, _, _, h7, h8, h9, h10, h11, h12, h13, _⟩ := fillPoint_value hf
  have hE0 := (eStarOf_value h8).2.2.1
  cases g with
  | pressure =>
    cases hq
    have he : pressureCubed S.load S.eStar S.r - x ^ 3 = 0 := he
    exact cube_injective (h11.trans (sub_eq_zero.mp he))
  | shear =>
    cases hq
    have he : 0.46 * (pressureCubed S.load S.eStar S.r ^ ((1 : ℝ) / 3)) - x = 0 := he
    rw [rpow_third_of h10 h11] at he
    show S.maxShear = x
    linarith
  | radius =>
    cases hq
    have he : 3 * S.load * S.r / 4 / S.eStar - x ^ 3 = 0 := he
    exact cube_injective (h9.trans (sub_eq_zero.mp he))
  | displacement =>
    cases hq
    have he : 9 * S.load ^ 2 / 16 / S.r / S.eStar ^ 2 - x ^ 3 = 0 := he
    apply cube_injective
    show S.displacement ^ 3 = x ^ 3
    rw [h13, div_pow, show (S.radius ^ 2) ^ 3 = (S.radius ^ 3) ^ 2 by ring, h9, ← sub_eq_zero.mp he]
    field_simp
    ring

example (root : RootFinder) : PoissonGiven (system 1 4 4 0 0 (8 / 3) .bothE) ∧
    ∃ T, solvePoint root (system 1 4 4 0 0 (8 / 3) .bothE) (PointGiven.radius.ask 1) = .value T := by
  obtain ⟨T, hT, _⟩ := C33_round_trip_partial root pointExample_contact .bothE rfl .radius
  exact ⟨(fun h => nomatch h.1), T, hT⟩

/-! ## Both Poisson ratios missing -/

/-- The system with both Poisson ratios missing. -/
def noPoisson (r e1 e2 load : ℝ) : System := ⟨some r, some e1, some e2, none, none, some load⟩

theorem fill_noPoisson {r e1 e2 v load E : ℝ} (h : Mats e1 e2 v v E) (h1 : 2 < e1) (h2 : 2 < e2) :
    fillMaterials (noPoisson r e1 e2 load) E = .notReal := by
  have hE := h.pos
  have hA : 1 / e1 + 1 / e2 < 1 := by
    have a1 : 1 / e1 < 1 / 2 := one_div_lt_one_div_of_lt (by norm_num) h1
    have a2 : 1 / e2 < 1 / 2 := one_div_lt_one_div_of_lt (by norm_num) h2
    linarith
  have hA0 : 0 < 1 / e1 + 1 / e2 := by positivity
  have hq : 1 / E = (1 - v ^ 2) * (1 / e1 + 1 / e2) := by rw [h.eq]; ring
  have hneg : 1 / E * (1 / e1 + 1 / e2) - 1 < 0 := by
    rw [hq]
    have hv1 : 0 < 1 - v ^ 2 := by linarith [h.v1_lt]
    have hv2 : 1 - v ^ 2 ≤ 1 := by nlinarith [sq_nonneg v]
    have : (1 - v ^ 2) * (1 / e1 + 1 / e2) * (1 / e1 + 1 / e2) < 1 := by
      calc (1 - v ^ 2) * (1 / e1 + 1 / e2) * (1 / e1 + 1 / e2) ≤ 1 * (1 / e1 + 1 / e2) * (1 / e1 + 1 / e2) := by gcongr
        _ = (1 / e1 + 1 / e2) * (1 / e1 + 1 / e2) := by ring
        _ < 1 * 1 := by gcongr
        _ = 1 := by ring
    linarith
  unfold fillMaterials noPoisson
  have hc : ¬ (E = 0 ∨ e1 = 0 ∨ e2 = 0) := by
    rintro (h0 | h0 | h0)
    · exact hE.ne' h0
    · linarith
    · linarith
  simp only [if_neg hc]
  rw [npSqrt, if_pos hneg]
  rfl

/-- Both Poisson ratios missing (the documentation offers this case): for every contact of two bodies with one Poisson ratio and moduli
above 2 — in SI units, of every pair of materials — the returned tuple contains `nan`, for every derived quantity given. -/
theorem C32_both_poisson_missing {S : LineSolution} (h : LineContact S) (hv : S.v1 = S.v2) (h1 : 2 < S.e1) (h2 : 2 < S.e2)
    (g : LineGiven) : solveLine (noPoisson S.r S.e1 S.e2 S.load) (g.of S) = .notReal := by
  obtain ⟨_, hE, _⟩ := line_roots h g
  have hm : Mats S.e1 S.e2 S.v1 S.v1 S.eStar := by
    have := line_mats h
    rw [← hv] at this
    exact this
  rw [solveLine_of]
  have hk : knownEStar (noPoisson S.r S.e1 S.e2 S.load) = .value none := rfl
  have hu : unknownOf (noPoisson S.r S.e1 S.e2 S.load) = .eStar := rfl
  have hs : solveFor .eStar (lineEq S g) (noPoisson S.r S.e1 S.e2 S.load).load none (noPoisson S.r S.e1 S.e2 S.load).r =
      .value S.eStar := by
    simp [solveFor, noPoisson, maxRoot_eq hE]
  rw [hk, bind_value, lineEquation_of, bind_value, hu, hs, bind_value, storeFound, fill_noPoisson hm h1 h2]
  rfl

example : solveLine (noPoisson 1 4 4 (2 * Real.pi)) ⟨some 2, none, none, none⟩ = .notReal :=
  C32_both_poisson_missing lineExample_contact rfl (by norm_num [lineExample]) (by norm_num [lineExample]) .pressure

/-- The same for point contacts. -/
theorem C33_both_poisson_missing (root : RootFinder) {S : PointSolution} (h : PointContact S) (hv : S.v1 = S.v2) (h1 : 2 < S.e1)
    (h2 : 2 < S.e2) (g : PointGiven) : solvePoint root (noPoisson S.r S.e1 S.e2 S.load) (g.of S) = .notReal := by
  obtain ⟨_, hE, _⟩ := point_roots h g
  have hm : Mats S.e1 S.e2 S.v1 S.v1 S.eStar := by
    have := point_mats h
    rw [← hv] at this
    exact this
  rw [solvePoint_of]
  have hk : knownEStar (noPoisson S.r S.e1 S.e2 S.load) = .value none := rfl
  have hu : unknownOf (noPoisson S.r S.e1 S.e2 S.load) = .eStar := rfl
  have hs : solveFor .eStar (pointEq S g) (noPoisson S.r S.e1 S.e2 S.load).load none (noPoisson S.r S.e1 S.e2 S.load).r =
      .value S.eStar := by
    simp [solveFor, noPoisson, maxRoot_eq hE]
  rw [hk, bind_value, pointEquation_of, bind_value, hu, hs, bind_value, storeFound, fill_noPoisson hm h1 h2]
  rfl

example (root : RootFinder) : solvePoint root (noPoisson 1 4 4 (8 / 3)) ⟨none, none, none, some 1, none, none⟩ = .notReal :=
  C33_both_poisson_missing root pointExample_contact rfl (by norm_num [pointExample]) (by norm_num [pointExample]) .radius

/-- Where the formula for the Poisson ratios gives a real number, it is wrong: bodies with the moduli 8/5 and an effective modulus 4/5 have
the Poisson ratio 0, the code finds 3/4, and this ratio belongs to the effective modulus 64/35. -/
theorem C34_both_poisson_wrong :
    (∃ s', fillMaterials (noPoisson 1 (8 / 5) (8 / 5) 1) (4 / 5) = .value s' ∧ s'.v1 = some (3 / 4) ∧ s'.v2 = some (3 / 4)) ∧
    eStarOf (8 / 5) (8 / 5) (3 / 4) (3 / 4) = .value (64 / 35) ∧
    eStarOf (8 / 5) (8 / 5) 0 0 = .value (4 / 5) := by
  refine ⟨⟨⟨some 1, some (8 / 5), some (8 / 5), some (3 / 4), some (3 / 4), some 1⟩, ?_, rfl, rfl⟩, ?_, ?_⟩
  · have : npSqrt (1 / (4 / 5) * (1 / (8 / 5) + 1 / (8 / 5)) - 1) = .value (3 / 4) := npSqrt_of (by norm_num) (by norm_num)
    simp only [fillMaterials, noPoisson]
    rw [if_neg (by norm_num), this]
    rfl
  · rw [eStarOf, if_neg (by norm_num)]
    norm_num
  · rw [eStarOf, if_neg (by norm_num)]
    norm_num

/-! ## C34 -/

/-- Completed material data is complete, keeps what was given, and reproduces the effective modulus it was computed from, for every
combination of given and missing parameters. Missing from the claim: both Poisson ratios missing, see `C34_both_poisson_wrong`. -/
theorem C34_materials_consistent_partial {s s' : System} {E : ℝ} (hv : PoissonGiven s) (h : fillMaterials s E = .value s') :
    ∃ e1 e2 v1 v2, s' = ⟨s.r, some e1, some e2, some v1, some v2, s.load⟩ ∧
      (∀ x, s.e1 = some x → e1 = x) ∧ (∀ x, s.e2 = some x → e2 = x) ∧ (∀ x, s.v1 = some x → v1 = x) ∧ (∀ x, s.v2 = some x → v2 = x) ∧
      (s.e1 = none → s.e2 = none → e1 = e2) ∧
      (e1 ≠ 0 → e2 ≠ 0 → E ≠ 0 → (1 - v1 ^ 2) / e1 + (1 - v2 ^ 2) / e2 = 1 / E) := by
  obtain ⟨r, e1, e2, v1, v2, load⟩ := s
  unfold fillMaterials at h
  split at h <;> rename_i a1 a2 a3 a4 <;> simp only at a1 a2 a3 a4
  · subst a1 a2 a3 a4
    cases h
    refine ⟨_, _, _, _, rfl, by simp, by simp, by simp, by simp, fun _ _ => rfl, ?_⟩
    rename_i v1 v2
    intro h1 _ hE
    rw [← add_div, show 1 - v1 ^ 2 + (1 - v2 ^ 2) = 2 - v1 ^ 2 - v2 ^ 2 by ring]
    have h5 : 2 - v1 ^ 2 - v2 ^ 2 ≠ 0 := right_ne_zero_of_mul h1
    field_simp
  · exact absurd ⟨a3, a4⟩ hv
  all_goals first
    | (cases h; done)
    | (subst a1 a2 a3 a4
       split at h
       · cases h
       · obtain ⟨y, hy, h⟩ := bind_eq_value h
         cases h
         refine ⟨_, _, _, _, rfl, by simp, by simp, by simp, by simp, by simp, fun _ _ _ => ?_⟩
         have := (maxRoot_value hy).1
         first
           | exact sub_eq_zero.mp this.2
           | exact sub_eq_zero.mp this)

example : PoissonGiven (system 1 4 4 0 0 1 .bothE) ∧ fillMaterials (system 1 4 4 0 0 1 .bothE) 2 = .value (full 1 4 4 0 0 1) :=
  ⟨(fun h => nomatch h.1), fill_bothE (line_mats lineExample_contact) rfl⟩

theorem eStarOf_swap (e1 e2 v1 v2 : ℝ) : eStarOf e2 e1 v2 v1 = eStarOf e1 e2 v1 v2 := by
  unfold eStarOf
  rw [add_comm ((1 - v2 ^ 2) / e2)]
  by_cases h1 : e1 = 0 <;> by_cases h2 : e2 = 0 <;> simp [h1, h2]

theorem knownEStar_swap (s : System) : knownEStar (swap s) = knownEStar s := by
  obtain ⟨r, e1, e2, v1, v2, load⟩ := s
  cases e1 <;> cases e2 <;> cases v1 <;> cases v2 <;> simp [knownEStar, swap, eStarOf_swap]

theorem unknownOf_swap (s : System) : unknownOf (swap s) = unknownOf s := by
  obtain ⟨r, e1, e2, v1, v2, load⟩ := s
  cases e1 <;> cases e2 <;> cases v1 <;> cases v2 <;> rfl

theorem materialExpr_swap (e1 e2 v1 v2 E : ℝ) : materialExpr e2 e1 v2 v1 E = materialExpr e1 e2 v1 v2 E := by
  unfold materialExpr; ring

theorem fillMaterials_swap (s : System) (E : ℝ) : fillMaterials (swap s) E = (fillMaterials s E).bind fun s' => .value (swap s') := by
  obtain ⟨r, e1, e2, v1, v2, load⟩ := s
  rcases e1 with _ | a <;> rcases e2 with _ | b <;> rcases v1 with _ | c <;> rcases v2 with _ | d <;> simp only [fillMaterials, swap]
  all_goals try rfl
  · rw [show E * (2 - d ^ 2 - c ^ 2) = E * (2 - c ^ 2 - d ^ 2) by ring]
    rfl
  · rw [show {x | x ≠ 0 ∧ materialExpr b x d c E = 0} = {x | x ≠ 0 ∧ materialExpr x b c d E = 0} by
      ext x; simp only [Set.mem_setOf_eq]; rw [materialExpr_swap]]
    split
    · rfl
    · cases maxRoot _ <;> rfl
  · rw [show {x | x ≠ 0 ∧ materialExpr x a d c E = 0} = {x | x ≠ 0 ∧ materialExpr a x c d E = 0} by
      ext x; simp only [Set.mem_setOf_eq]; rw [materialExpr_swap]]
    split
    · rfl
    · cases maxRoot _ <;> rfl
  · rw [add_comm (1 / b)]
    simp only [or_comm (a := b = 0)]
    split
    · rfl
    · cases npSqrt _ <;> rfl
  · rw [show {x | materialExpr b a d x E = 0} = {x | materialExpr a b x d E = 0} by
      ext x; simp only [Set.mem_setOf_eq]; rw [materialExpr_swap]]
    simp only [or_comm (a := b = 0)]
    split
    · rfl
    · cases maxRoot _ <;> rfl
  · rw [show {x | materialExpr b a x c E = 0} = {x | materialExpr a b c x E = 0} by
      ext x; simp only [Set.mem_setOf_eq]; rw [materialExpr_swap]]
    simp only [or_comm (a := b = 0)]
    split
    · rfl
    · cases maxRoot _ <;> rfl

theorem storeFound_swap (s : System) (u : Unknown) (x : ℝ) :
    storeFound (swap s) u x = (storeFound s u x).bind fun s' => .value (swap s') := by
  cases u
  · exact fillMaterials_swap s x
  · rfl
  · rfl

/-- The line solution with the two bodies exchanged: the same contact, except that the von Mises stress is that of the other body. -/
theorem fillLine_swap {s : System} {S : LineSolution} (h : fillLine s = .value S) :
    ∃ T, fillLine (swap s) = .value T ∧ T.r = S.r ∧ T.e1 = S.e2 ∧ T.e2 = S.e1 ∧ T.v1 = S.v2 ∧ T.v2 = S.v1 ∧ T.load = S.load ∧
      T.eStar = S.eStar ∧ T.width = S.width ∧ T.maxPressure = S.maxPressure ∧ T.maxShear = S.maxShear := by
  unfold fillLine at h
  obtain ⟨v1, h1, h⟩ := bind_eq_value h
  obtain ⟨e1, h2, h⟩ := bind_eq_value h
  obtain ⟨v2, h3, h⟩ := bind_eq_value h
  obtain ⟨e2, h4, h⟩ := bind_eq_value h
  obtain ⟨load, h5, h⟩ := bind_eq_value h
  obtain ⟨r, h6, h⟩ := bind_eq_value h
  obtain ⟨E, h7, h⟩ := bind_eq_value h
  split at h
  · cases h
  · rename_i hr
    obtain ⟨w, h8, h⟩ := bind_eq_value h
    obtain ⟨p, h9, h⟩ := bind_eq_value h
    cases h
    refine ⟨⟨r, e2, e1, v2, v1, load, E, w, p, p * 0.3, p / lineC v2⟩, ?_, rfl, rfl, rfl, rfl, rfl, rfl, rfl, rfl, rfl, rfl⟩
    unfold fillLine swap
    simp only [h1, h2, h3, h4, h5, h6, bind_value, eStarOf_swap, h7, if_neg hr, h8, h9]

/-- Exchanging the two bodies of a line contact problem changes nothing but the names of the bodies. (The von Mises stress is documented to
be that of the first body.) This holds for every problem, also for those with both Poisson ratios missing. -/
theorem C34_exchange_line {s : System} {d : LineDerived} {S : LineSolution} (h : solveLine s d = .value S) :
    ∃ T, solveLine (swap s) d = .value T ∧ T.r = S.r ∧ T.e1 = S.e2 ∧ T.e2 = S.e1 ∧ T.v1 = S.v2 ∧ T.v2 = S.v1 ∧ T.load = S.load ∧
      T.eStar = S.eStar ∧ T.width = S.width ∧ T.maxPressure = S.maxPressure ∧ T.maxShear = S.maxShear := by
  unfold solveLine at h ⊢
  split at h
  · rename_i hd
    rw [if_pos hd]
    exact fillLine_swap h
  · rename_i hd
    rw [if_neg hd]
    obtain ⟨eo, h1, h⟩ := bind_eq_value h
    obtain ⟨q, h2, h⟩ := bind_eq_value h
    obtain ⟨x, h3, h⟩ := bind_eq_value h
    obtain ⟨s', h4, h⟩ := bind_eq_value h
    obtain ⟨T, hT, hrest⟩ := fillLine_swap h
    refine ⟨T, ?_, hrest⟩
    rw [knownEStar_swap, h1, bind_value, h2, bind_value, unknownOf_swap, show (swap s).load = s.load from rfl,
      show (swap s).r = s.r from rfl, h3, bind_value, storeFound_swap, h4, bind_value, bind_value, hT]

example : ∃ T, solveLine (swap (system 1 4 4 0 0 (2 * Real.pi) .e1)) ⟨some 2, none, none, none⟩ = .value T ∧ T.width = 2 := by
  obtain ⟨T, h, _, _, _, _, _, _, _, hw, _⟩ :=
    C34_exchange_line (C32_round_trip_partial lineExample_contact .e1 trivial .pressure)
  exact ⟨T, h, hw⟩

theorem fillPoint_swap {s : System} {S : PointSolution} (h : fillPoint s = .value S) :
    ∃ T, fillPoint (swap s) = .value T ∧ T.r = S.r ∧ T.e1 = S.e2 ∧ T.e2 = S.e1 ∧ T.v1 = S.v2 ∧ T.v2 = S.v1 ∧ T.load = S.load ∧
      T.eStar = S.eStar ∧ T.radius = S.radius ∧ T.maxPressure = S.maxPressure ∧ T.maxShear = S.maxShear ∧
      T.displacement = S.displacement := by
  unfold fillPoint at h
  obtain ⟨v1, h1, h⟩ := bind_eq_value h
  obtain ⟨e1, h2, h⟩ := bind_eq_value h
  obtain ⟨v2, h3, h⟩ := bind_eq_value h
  obtain ⟨e2, h4, h⟩ := bind_eq_value h
  obtain ⟨load, h5, h⟩ := bind_eq_value h
  obtain ⟨r, h6, h⟩ := bind_eq_value h
  obtain ⟨E, h7, h⟩ := bind_eq_value h
  split at h
  · cases h
  · rename_i hr
    obtain ⟨a, h8, h⟩ := bind_eq_value h
    obtain ⟨p, h9, h⟩ := bind_eq_value h
    cases h
    refine ⟨⟨r, e2, e1, v2, v1, load, E, a, p, (1 - 2 * v2) * p / 3, 0.46 * p, p * pointC v2, a ^ 2 / r⟩, ?_,
      rfl, rfl, rfl, rfl, rfl, rfl, rfl, rfl, rfl, rfl, rfl⟩
    unfold fillPoint swap
    simp only [h1, h2, h3, h4, h5, h6, bind_value, eStarOf_swap, h7, if_neg hr, h8, h9]

/-- Exchanging the two bodies of a point contact problem changes nothing but the names of the bodies. (The tensile and the von Mises stress
are documented to be those of the first body, so a given tensile stress is left out here.) -/
theorem C34_exchange_point (root : RootFinder) {s : System} {d : PointDerived} (hd : d.maxTensile = none) {S : PointSolution}
    (h : solvePoint root s d = .value S) :
    ∃ T, solvePoint root (swap s) d = .value T ∧ T.r = S.r ∧ T.e1 = S.e2 ∧ T.e2 = S.e1 ∧ T.v1 = S.v2 ∧ T.v2 = S.v1 ∧
      T.load = S.load ∧ T.eStar = S.eStar ∧ T.radius = S.radius ∧ T.maxPressure = S.maxPressure ∧ T.maxShear = S.maxShear ∧
      T.displacement = S.displacement := by
  unfold solvePoint at h ⊢
  split at h
  · rename_i hd'
    rw [if_pos hd']
    exact fillPoint_swap h
  · rename_i hd'
    rw [if_neg hd']
    obtain ⟨eo, h1, h⟩ := bind_eq_value h
    rw [knownEStar_swap, h1, bind_value]
    split at h
    · rename_i hc
      simp [hd] at hd'
      simp_all
    · rename_i hc
      rw [if_neg hc]
      obtain ⟨q, h2, h⟩ := bind_eq_value h
      obtain ⟨x, h3, h⟩ := bind_eq_value h
      obtain ⟨s', h4, h⟩ := bind_eq_value h
      obtain ⟨T, hT, hrest⟩ := fillPoint_swap h
      refine ⟨T, ?_, hrest⟩
      rw [h2, bind_value, unknownOf_swap, show (swap s).load = s.load from rfl,
        show (swap s).r = s.r from rfl, h3, bind_value, storeFound_swap, h4, bind_value, bind_value, hT]

example (root : RootFinder) : ∃ T, solvePoint root (swap (system 1 4 4 0 0 (8 / 3) .e1)) (PointGiven.displacement.ask 1) = .value T ∧
    T.radius = 1 := by
  obtain ⟨S, hS, hsame⟩ := C33_round_trip_partial root pointExample_contact .e1 trivial .displacement
  obtain ⟨T, h, _, _, _, _, _, _, _, hw, _⟩ := C34_exchange_point root rfl hS
  exact ⟨T, h, hw.trans hsame.radius⟩

/-! ## A given load is ignored -/

/-- If all material parameters, the radius and a derived quantity are given, a load that is given as well is ignored: the call does not fail,
and it returns what it returns for any other load. -/
theorem C32_given_load_is_ignored (r e1 e2 v1 v2 : ℝ) (load load' : Option ℝ) (g : LineGiven) (x : ℝ) :
    solveLine ⟨some r, some e1, some e2, some v1, some v2, load⟩ (g.ask x) =
      solveLine ⟨some r, some e1, some e2, some v1, some v2, load'⟩ (g.ask x) := by
  cases g <;> rfl

/-- The same for point contacts. -/
theorem C33_given_load_is_ignored (root : RootFinder) (r e1 e2 v1 v2 : ℝ) (load load' : Option ℝ) (g : PointGiven) (x : ℝ) :
    solvePoint root ⟨some r, some e1, some e2, some v1, some v2, load⟩ (g.ask x) =
      solvePoint root ⟨some r, some e1, some e2, some v1, some v2, load'⟩ (g.ask x) := by
  cases g <;> rfl

end Verif.Hertz
