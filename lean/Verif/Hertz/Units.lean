import Verif.Hertz.Model

/-!
# C172: Hertz contacts in other units

`solve_hertz_line` and `solve_hertz_point`, `slippy/contact/hertz.py` l.23-476 (model `Model`), with lengths, stresses and loads given in other units.
-/

namespace Verif.Hertz

/-! ## Specification -/

/-- Units of length and of stress. -/
structure Units where
  length : ℝ
  stress : ℝ
  length_pos : 0 < length
  stress_pos : 0 < stress

/-- The unit of the load of a line contact, a force for each unit of length. -/
def Units.lineLoad (u : Units) : ℝ := u.stress * u.length

/-- The unit of the load of a point contact, a force. -/
def Units.pointLoad (u : Units) : ℝ := u.stress * u.length ^ 2

/-- The arguments in other units; `f` is the unit of the load. Poisson's ratios are numbers. -/
def System.inUnits (u : Units) (f : ℝ) (s : System) : System where
  r := s.r.map (u.length * ·)
  e1 := s.e1.map (u.stress * ·)
  e2 := s.e2.map (u.stress * ·)
  v1 := s.v1
  v2 := s.v2
  load := s.load.map (f * ·)

def LineDerived.inUnits (u : Units) (d : LineDerived) : LineDerived where
  maxPressure := d.maxPressure.map (u.stress * ·)
  maxShear := d.maxShear.map (u.stress * ·)
  maxVonMises := d.maxVonMises.map (u.stress * ·)
  width := d.width.map (u.length * ·)

def LineSolution.inUnits (u : Units) (s : LineSolution) : LineSolution where
  r := u.length * s.r
  e1 := u.stress * s.e1
  e2 := u.stress * s.e2
  v1 := s.v1
  v2 := s.v2
  load := u.lineLoad * s.load
  eStar := u.stress * s.eStar
  width := u.length * s.width
  maxPressure := u.stress * s.maxPressure
  maxShear := u.stress * s.maxShear
  maxVonMises := u.stress * s.maxVonMises

def PointDerived.inUnits (u : Units) (d : PointDerived) : PointDerived where
  maxPressure := d.maxPressure.map (u.stress * ·)
  maxShear := d.maxShear.map (u.stress * ·)
  maxVonMises := d.maxVonMises.map (u.stress * ·)
  radius := d.radius.map (u.length * ·)
  displacement := d.displacement.map (u.length * ·)
  maxTensile := d.maxTensile.map (u.stress * ·)

def PointSolution.inUnits (u : Units) (s : PointSolution) : PointSolution where
  r := u.length * s.r
  e1 := u.stress * s.e1
  e2 := u.stress * s.e2
  v1 := s.v1
  v2 := s.v2
  load := u.pointLoad * s.load
  eStar := u.stress * s.eStar
  radius := u.length * s.radius
  maxPressure := u.stress * s.maxPressure
  maxTensile := u.stress * s.maxTensile
  maxShear := u.stress * s.maxShear
  maxVonMises := u.stress * s.maxVonMises
  displacement := u.length * s.displacement

/-- An outcome with its value changed. -/
def Outcome.map {α β : Type} (g : α → β) (x : Outcome α) : Outcome β := x.bind fun a => .value (g a)

/-! ## Outcomes -/

theorem map_bind {α β γ : Type} (x : Outcome α) (g : α → β) (f : β → Outcome γ) : (x.map g).bind f = x.bind fun a => f (g a) := by cases x <;> rfl

theorem bind_map {α β γ : Type} (x : Outcome α) (f : α → Outcome β) (g : β → γ) : (x.bind f).map g = x.bind fun a => (f a).map g := by cases x <;> rfl

theorem bind_congr {α β : Type} (x : Outcome α) {f g : α → Outcome β} (h : ∀ a, f a = g a) : x.bind f = x.bind g := by rw [funext h]

theorem need_map (k : ℝ) (x : Option ℝ) : need (x.map (k * ·)) = (need x).map (k * ·) := by cases x <;> rfl

theorem maxRoot_scale {k : ℝ} (hk : 0 < k) {A B : Set ℝ} (h : ∀ x, k * x ∈ B ↔ x ∈ A) : maxRoot B = (maxRoot A).map (k * ·) := by
  have key : ∀ x, IsGreatest B (k * x) ↔ IsGreatest A x := by
    intro x
    constructor
    · rintro ⟨h1, h2⟩
      exact ⟨(h x).1 h1, fun y hy => (mul_le_mul_iff_of_pos_left hk).1 (h2 ((h y).2 hy))⟩
    · rintro ⟨h1, h2⟩
      refine ⟨(h x).2 h1, fun y hy => ?_⟩
      have e : k * (k⁻¹ * y) = y := mul_inv_cancel_left₀ hk.ne' y
      have := h2 ((h (k⁻¹ * y)).1 (by rw [e]; exact hy))
      rw [← e]
      exact mul_le_mul_of_nonneg_left this hk.le
  unfold maxRoot
  by_cases hA : ∃ r, IsGreatest A r
  · have hB : ∃ r, IsGreatest B r := ⟨k * hA.choose, (key _).2 hA.choose_spec⟩
    rw [dif_pos hA, dif_pos hB]
    show Outcome.value _ = Outcome.value _
    exact congrArg _ (hB.choose_spec.unique ((key _).2 hA.choose_spec))
  · have hB : ¬ ∃ r, IsGreatest B r := by
      rintro ⟨r, hr⟩
      refine hA ⟨k⁻¹ * r, (key _).1 ?_⟩
      rw [mul_inv_cancel_left₀ hk.ne']
      exact hr
    rw [dif_neg hA, dif_neg hB]
    rfl

theorem npSqrt_scale {k : ℝ} (hk : 0 < k) (x : ℝ) : npSqrt (k ^ 2 * x) = (npSqrt x).map (k * ·) := by
  unfold npSqrt
  by_cases h : x < 0
  · rw [if_pos h, if_pos (mul_neg_of_pos_of_neg (by positivity) h)]
    rfl
  · have h : 0 ≤ x := not_lt.1 h
    rw [if_neg (not_lt.2 h), if_neg (not_lt.2 (by positivity)), Real.sqrt_mul (sq_nonneg k), Real.sqrt_sq hk.le]
    rfl

theorem third_scale {k : ℝ} (hk : 0 < k) {x : ℝ} (hx : 0 ≤ x) : (k ^ 3 * x) ^ ((1 : ℝ) / 3) = k * x ^ ((1 : ℝ) / 3) := by
  rw [Real.mul_rpow (by positivity) hx]
  congr 1
  rw [← Real.rpow_natCast k 3, ← Real.rpow_mul hk.le]
  norm_num

theorem cubeRoot_scale {k : ℝ} (hk : 0 < k) (x : ℝ) : cubeRoot (k ^ 3 * x) = (cubeRoot x).map (k * ·) := by
  unfold cubeRoot
  by_cases h : x < 0
  · rw [if_pos h, if_pos (mul_neg_of_pos_of_neg (by positivity) h)]
    rfl
  · have h : 0 ≤ x := not_lt.1 h
    rw [if_neg (not_lt.2 h), if_neg (not_lt.2 (by positivity)), third_scale hk h]
    rfl

/-! ## Materials -/

theorem comp_scale {k : ℝ} (a b c d : ℝ) : a / (k * b) + c / (k * d) = k⁻¹ * (a / b + c / d) := by
  rw [div_mul_eq_div_div_swap, div_mul_eq_div_div_swap]
  ring

theorem eStarOf_units {k : ℝ} (hk : 0 < k) (e1 e2 v1 v2 : ℝ) : eStarOf (k * e1) (k * e2) v1 v2 = (eStarOf e1 e2 v1 v2).map (k * ·) := by
  unfold eStarOf
  rw [comp_scale]
  have h : (k * e1 = 0 ∨ k * e2 = 0 ∨ k⁻¹ * ((1 - v1 ^ 2) / e1 + (1 - v2 ^ 2) / e2) = 0) ↔ (e1 = 0 ∨ e2 = 0 ∨ (1 - v1 ^ 2) / e1 + (1 - v2 ^ 2) / e2 = 0) := by simp [hk.ne']
  by_cases h0 : e1 = 0 ∨ e2 = 0 ∨ (1 - v1 ^ 2) / e1 + (1 - v2 ^ 2) / e2 = 0
  · rw [if_pos h0, if_pos (h.2 h0)]
    rfl
  · rw [if_neg h0, if_neg fun x => h0 (h.1 x)]
    show Outcome.value _ = Outcome.value _
    congr 1
    rw [one_div, one_div, mul_inv, inv_inv]

theorem knownEStar_units (u : Units) (f : ℝ) (s : System) : knownEStar (s.inUnits u f) = (knownEStar s).map (Option.map (u.stress * ·)) := by
  obtain ⟨r, e1, e2, v1, v2, load⟩ := s
  cases e1 <;> cases e2 <;> cases v1 <;> cases v2 <;> try rfl
  simp only [knownEStar, System.inUnits, Option.map_some]
  rw [eStarOf_units u.stress_pos, map_bind, bind_map]
  rfl

theorem unknownOf_units (u : Units) (f : ℝ) (s : System) : unknownOf (s.inUnits u f) = unknownOf s := by
  simp [unknownOf, System.inUnits]

/-- The unit of the parameter that is to be found. -/
def Unknown.unit (u : Units) (f : ℝ) : Unknown → ℝ
  | .eStar => u.stress
  | .r => u.length
  | .load => f

/-- Two equations that say the same in two systems of units. -/
def SameEquation (u : Units) (f : ℝ) (q q' : Equation) : Prop :=
  ∀ load e r, (q'.dom (f * load) (u.stress * e) (u.length * r) ∧ q'.expr (f * load) (u.stress * e) (u.length * r) = 0) ↔ (q.dom load e r ∧ q.expr load e r = 0)

theorem solveFor_units (u : Units) {f : ℝ} (hf : 0 < f) {q q' : Equation} (h : SameEquation u f q q') (w : Unknown) (load e r : Option ℝ) :
    solveFor w q' (load.map (f * ·)) (e.map (u.stress * ·)) (r.map (u.length * ·)) = (solveFor w q load e r).map (w.unit u f * ·) := by
  cases w <;> simp only [solveFor, need_map, map_bind, bind_map] <;> refine bind_congr _ fun a => bind_congr _ fun b => ?_
  · exact maxRoot_scale u.stress_pos fun x => h a x b
  · exact maxRoot_scale u.length_pos fun x => h a b x
  · exact maxRoot_scale hf fun x => h x a b

/-- Both Poisson's ratios are missing and both moduli are given. -/
def BothRatiosMissing (s : System) : Prop := s.v1 = none ∧ s.v2 = none ∧ s.e1 ≠ none ∧ s.e2 ≠ none

theorem material_scale {k : ℝ} (hk : 0 < k) (e1 e2 v1 v2 e : ℝ) : materialExpr (k * e1) (k * e2) v1 v2 (k * e) = 0 ↔ materialExpr e1 e2 v1 v2 e = 0 := by
  have : materialExpr (k * e1) (k * e2) v1 v2 (k * e) = k⁻¹ * materialExpr e1 e2 v1 v2 e := by
    unfold materialExpr
    rw [comp_scale, div_mul_eq_div_div_swap]
    ring
  rw [this]
  simp [hk.ne']

theorem fillMaterials_units (u : Units) (f : ℝ) {s : System} (hs : ¬ BothRatiosMissing s) (e : ℝ) : fillMaterials (s.inUnits u f) (u.stress * e) = (fillMaterials s e).map (System.inUnits u f) := by
  have hk := u.stress_pos
  obtain ⟨r, e1, e2, v1, v2, load⟩ := s
  cases e1 <;> cases e2 <;> cases v1 <;> cases v2 <;> try rfl
  · rename_i v1 v2
    simp only [fillMaterials, System.inUnits, Option.map_some, Option.map_none, Outcome.map, Outcome.bind]
    rw [mul_assoc]
  · rename_i e2 v1 v2
    simp only [fillMaterials, System.inUnits, Option.map_some, Option.map_none, mul_eq_zero, hk.ne', false_or]
    by_cases h : e = 0 ∨ e2 = 0
    · rw [if_pos h, if_pos h]; rfl
    · rw [if_neg h, if_neg h, maxRoot_scale hk (A := {x | x ≠ 0 ∧ materialExpr x e2 v1 v2 e = 0}), map_bind, bind_map]
      · rfl
      · intro x
        simp only [Set.mem_setOf_eq, material_scale hk, ne_eq, mul_eq_zero, hk.ne', false_or]
  · rename_i e1 v1 v2
    simp only [fillMaterials, System.inUnits, Option.map_some, Option.map_none, mul_eq_zero, hk.ne', false_or]
    by_cases h : e = 0 ∨ e1 = 0
    · rw [if_pos h, if_pos h]; rfl
    · rw [if_neg h, if_neg h, maxRoot_scale hk (A := {x | x ≠ 0 ∧ materialExpr e1 x v1 v2 e = 0}), map_bind, bind_map]
      · rfl
      · intro x
        simp only [Set.mem_setOf_eq, material_scale hk, ne_eq, mul_eq_zero, hk.ne', false_or]
  · exact absurd ⟨rfl, rfl, by simp, by simp⟩ hs
  · rename_i e1 e2 v2
    simp only [fillMaterials, System.inUnits, Option.map_some, mul_eq_zero, hk.ne', false_or]
    by_cases h : e = 0 ∨ e1 = 0 ∨ e2 = 0
    · rw [if_pos h, if_pos h]; rfl
    · rw [if_neg h, if_neg h, bind_map]
      simp only [material_scale hk]
      rfl
  · rename_i e1 e2 v1
    simp only [fillMaterials, System.inUnits, Option.map_some, mul_eq_zero, hk.ne', false_or]
    by_cases h : e = 0 ∨ e1 = 0 ∨ e2 = 0
    · rw [if_pos h, if_pos h]; rfl
    · rw [if_neg h, if_neg h, bind_map]
      simp only [material_scale hk]
      rfl

theorem storeFound_units (u : Units) (f : ℝ) {s : System} (hs : ¬ BothRatiosMissing s) (w : Unknown) (x : ℝ) : storeFound (s.inUnits u f) w (w.unit u f * x) = (storeFound s w x).map (System.inUnits u f) := by
  cases w with
  | eStar => exact fillMaterials_units u f hs x
  | r => rfl
  | load => rfl

/-! ## Line contacts -/

theorem fillLine_units (u : Units) (s : System) : fillLine (s.inUnits u u.lineLoad) = (fillLine s).map (LineSolution.inUnits u) := by
  have hk := u.stress_pos
  have hl := u.length_pos
  simp only [fillLine, System.inUnits, need_map, map_bind, bind_map]
  refine bind_congr _ fun v1 => bind_congr _ fun e1 => bind_congr _ fun v2 => bind_congr _ fun e2 => bind_congr _ fun load => bind_congr _ fun r => ?_
  rw [eStarOf_units hk, map_bind]
  refine bind_congr _ fun e => ?_
  by_cases h : r = 0
  · rw [if_pos h, if_pos (by rw [h, mul_zero])]
    rfl
  · rw [if_neg h, if_neg (mul_ne_zero hl.ne' h)]
    have a1 : 4 * (u.lineLoad * load) * (u.length * r) / (u.stress * e) / Real.pi = u.length ^ 2 * (4 * load * r / e / Real.pi) := by
      unfold Units.lineLoad
      by_cases he : e = 0
      · simp [he]
      · field_simp
    have a2 : u.lineLoad * load * (u.stress * e) / Real.pi / (u.length * r) = u.stress ^ 2 * (load * e / Real.pi / r) := by
      unfold Units.lineLoad
      field_simp
    rw [a1, a2, npSqrt_scale hl, npSqrt_scale hk, map_bind, bind_map]
    refine bind_congr _ fun w => ?_
    rw [map_bind, bind_map]
    refine bind_congr _ fun p => ?_
    simp only [Outcome.map, Outcome.bind, LineSolution.inUnits, mul_assoc, mul_div_assoc]

theorem linePressure_units (u : Units) (p : ℝ) : SameEquation u u.lineLoad (linePressureEq p) (linePressureEq (u.stress * p)) := by
  intro load e r
  have hk := u.stress_pos
  have hl := u.length_pos
  simp only [linePressureEq, ne_eq, mul_eq_zero, hl.ne', false_or]
  refine and_congr_right fun hr => ?_
  have : u.lineLoad * load * (u.stress * e) / Real.pi / (u.length * r) - (u.stress * p) ^ 2 = u.stress ^ 2 * (load * e / Real.pi / r - p ^ 2) := by
    unfold Units.lineLoad
    field_simp
  rw [this]
  simp [hk.ne']

theorem lineShear_units (u : Units) (p : ℝ) : SameEquation u u.lineLoad (lineShearEq p) (lineShearEq (u.stress * p)) := by
  intro load e r
  have hk := u.stress_pos
  have hl := u.length_pos
  simp only [lineShearEq, ne_eq, mul_eq_zero, hl.ne', false_or]
  refine and_congr_right fun hr => ?_
  have : 0.3 ^ 2 * (u.lineLoad * load) * (u.stress * e) / Real.pi / (u.length * r) - (u.stress * p) ^ 2 = u.stress ^ 2 * (0.3 ^ 2 * load * e / Real.pi / r - p ^ 2) := by
    unfold Units.lineLoad
    field_simp
  rw [this]
  simp [hk.ne']

theorem lineWidth_units (u : Units) (a : ℝ) : SameEquation u u.lineLoad (lineWidthEq a) (lineWidthEq (u.length * a)) := by
  intro load e r
  have hk := u.stress_pos
  have hl := u.length_pos
  simp only [lineWidthEq, ne_eq, mul_eq_zero, hk.ne', false_or]
  refine and_congr_right fun he => ?_
  have : 4 * (u.lineLoad * load) * (u.length * r) / Real.pi / (u.stress * e) - (u.length * a) ^ 2 = u.length ^ 2 * (4 * load * r / Real.pi / e - a ^ 2) := by
    unfold Units.lineLoad
    field_simp
  rw [this]
  simp [hl.ne']

/-- The equation found for the arguments in other units. -/
theorem lineEquation_units (u : Units) (d : LineDerived) :
    (∃ q q', lineEquation d = .value q ∧ lineEquation (d.inUnits u) = .value q' ∧ SameEquation u u.lineLoad q q') ∨ ∃ e, lineEquation d = .raised e ∧ lineEquation (d.inUnits u) = .raised e := by
  obtain ⟨a, b, c, w⟩ := d
  cases a with
  | some a => exact .inl ⟨_, _, rfl, rfl, linePressure_units u a⟩
  | none =>
    cases b with
    | some b => exact .inl ⟨_, _, rfl, rfl, lineShear_units u b⟩
    | none =>
      cases c with
      | some c => exact .inr ⟨_, rfl, rfl⟩
      | none =>
        cases w with
        | some w => exact .inl ⟨_, _, rfl, rfl, lineWidth_units u w⟩
        | none => exact .inr ⟨_, rfl, rfl⟩

theorem lineLoad_pos (u : Units) : 0 < u.lineLoad := mul_pos u.stress_pos u.length_pos

theorem pointLoad_pos (u : Units) : 0 < u.pointLoad := mul_pos u.stress_pos (pow_pos u.length_pos 2)

/-- **C172 for line contacts.** With lengths, stresses and loads given in other units the call gives the same solution in the other units, or the same exception, whichever arguments are given, unless both Poisson's ratios are to be found. -/
theorem C172_line_partial (u : Units) (s : System) (hs : ¬ BothRatiosMissing s) (d : LineDerived) : solveLine (s.inUnits u u.lineLoad) (d.inUnits u) = (solveLine s d).map (LineSolution.inUnits u) := by
  unfold solveLine
  simp only [LineDerived.inUnits, Option.isNone_map]
  split
  · exact fillLine_units u s
  · rw [knownEStar_units, map_bind, bind_map]
    refine bind_congr _ fun e => ?_
    rcases lineEquation_units u d with ⟨q, q', h1, h2, h3⟩ | ⟨x, h1, h2⟩
    · simp only [LineDerived.inUnits] at h2
      rw [h1, h2]
      rw [unknownOf_units]
      show (solveFor (unknownOf s) q' (s.load.map (u.lineLoad * ·)) (e.map (u.stress * ·)) (s.r.map (u.length * ·))).bind _ = ((solveFor (unknownOf s) q s.load e s.r).bind fun x => (storeFound s (unknownOf s) x).bind fun s' => fillLine s').map _
      rw [solveFor_units u (lineLoad_pos u) h3, map_bind, bind_map]
      refine bind_congr _ fun x => ?_
      rw [storeFound_units u _ hs, map_bind, bind_map]
      exact bind_congr _ fun s' => fillLine_units u s'
    · simp only [LineDerived.inUnits] at h2
      rw [h1, h2]
      rfl

/-- Two cylinders of equal material whose contact pressure is given, in metres and pascals and in millimetres and megapascals. -/
example : ¬ BothRatiosMissing ⟨some 0.01, some 200e9, some 200e9, some 0.3, some 0.3, none⟩ ∧ ∃ u : Units, u.length = 1000 ∧ u.stress = 1e-6 :=
  ⟨by simp [BothRatiosMissing], ⟨1000, 1e-6, by norm_num, by norm_num⟩, rfl, rfl⟩

/-! ## Point contacts -/

theorem cubed_units (u : Units) (load e r : ℝ) : pressureCubed (u.pointLoad * load) (u.stress * e) (u.length * r) = u.stress ^ 3 * pressureCubed load e r := by
  have hl := u.length_pos
  unfold pressureCubed Units.pointLoad
  by_cases hr : r = 0
  · simp [hr]
  · field_simp

theorem fillPoint_units (u : Units) (s : System) : fillPoint (s.inUnits u u.pointLoad) = (fillPoint s).map (PointSolution.inUnits u) := by
  have hk := u.stress_pos
  have hl := u.length_pos
  simp only [fillPoint, System.inUnits, need_map, map_bind, bind_map]
  refine bind_congr _ fun v1 => bind_congr _ fun e1 => bind_congr _ fun v2 => bind_congr _ fun e2 => bind_congr _ fun load => bind_congr _ fun r => ?_
  rw [eStarOf_units hk, map_bind]
  refine bind_congr _ fun e => ?_
  by_cases h : r = 0
  · rw [if_pos h, if_pos (by rw [h, mul_zero])]
    rfl
  · rw [if_neg h, if_neg (mul_ne_zero hl.ne' h)]
    have a1 : 3 * (u.pointLoad * load) * (u.length * r) / 4 / (u.stress * e) = u.length ^ 3 * (3 * load * r / 4 / e) := by
      unfold Units.pointLoad
      by_cases he : e = 0
      · simp [he]
      · field_simp
    have a2 := cubed_units u load e r
    unfold pressureCubed at a2
    rw [a1, a2, cubeRoot_scale hl, cubeRoot_scale hk, map_bind, bind_map]
    refine bind_congr _ fun a => ?_
    rw [map_bind, bind_map]
    refine bind_congr _ fun p => ?_
    have d1 : (1 - 2 * v1) * (u.stress * p) / 3 = u.stress * ((1 - 2 * v1) * p / 3) := by ring
    have d2 : 0.46 * (u.stress * p) = u.stress * (0.46 * p) := by ring
    have d3 : (u.length * a) ^ 2 / (u.length * r) = u.length * (a ^ 2 / r) := by field_simp
    simp only [Outcome.map, Outcome.bind, PointSolution.inUnits, d1, d2, d3, mul_assoc]

theorem pointPressure_units (u : Units) (p : ℝ) : SameEquation u u.pointLoad (pointPressureEq p) (pointPressureEq (u.stress * p)) := by
  intro load e r
  have hk := u.stress_pos
  have hl := u.length_pos
  simp only [pointPressureEq, ne_eq, mul_eq_zero, hl.ne', false_or, cubed_units, mul_pow, ← mul_sub]
  simp [hk.ne']

theorem dom_units (u : Units) (load e r : ℝ) : 0 ≤ pressureCubed (u.pointLoad * load) (u.stress * e) (u.length * r) ↔ 0 ≤ pressureCubed load e r := by
  rw [cubed_units]
  exact mul_nonneg_iff_of_pos_left (pow_pos u.stress_pos 3)

theorem pointShear_units (u : Units) (p : ℝ) : SameEquation u u.pointLoad (pointShearEq p) (pointShearEq (u.stress * p)) := by
  intro load e r
  have hk := u.stress_pos
  have hl := u.length_pos
  simp only [pointShearEq, dom_units, ne_eq, mul_eq_zero, hl.ne', false_or]
  refine and_congr_right fun hr => ?_
  rw [cubed_units, third_scale hk hr.2]
  have : 0.46 * (u.stress * pressureCubed load e r ^ ((1 : ℝ) / 3)) - u.stress * p = u.stress * (0.46 * pressureCubed load e r ^ ((1 : ℝ) / 3) - p) := by ring
  rw [this, mul_eq_zero]
  simp [hk.ne']

theorem pointTensile_units (u : Units) (v p : ℝ) : SameEquation u u.pointLoad (pointTensileEq v p) (pointTensileEq v (u.stress * p)) := by
  intro load e r
  have hk := u.stress_pos
  have hl := u.length_pos
  simp only [pointTensileEq, dom_units, ne_eq, mul_eq_zero, hl.ne', false_or]
  refine and_congr_right fun hr => ?_
  rw [cubed_units, third_scale hk hr.2]
  have : (1 - 2 * v) * (u.stress * pressureCubed load e r ^ ((1 : ℝ) / 3)) / 3 - u.stress * p = u.stress * ((1 - 2 * v) * pressureCubed load e r ^ ((1 : ℝ) / 3) / 3 - p) := by ring
  rw [this, mul_eq_zero]
  simp [hk.ne']

theorem pointRadius_units (u : Units) (a : ℝ) : SameEquation u u.pointLoad (pointRadiusEq a) (pointRadiusEq (u.length * a)) := by
  intro load e r
  have hk := u.stress_pos
  have hl := u.length_pos
  simp only [pointRadiusEq, ne_eq, mul_eq_zero, hk.ne', false_or]
  refine and_congr_right fun he => ?_
  have : 3 * (u.pointLoad * load) * (u.length * r) / 4 / (u.stress * e) - (u.length * a) ^ 3 = u.length ^ 3 * (3 * load * r / 4 / e - a ^ 3) := by
    unfold Units.pointLoad
    field_simp
  rw [this]
  simp [hl.ne']

theorem pointDisplacement_units (u : Units) (a : ℝ) : SameEquation u u.pointLoad (pointDisplacementEq a) (pointDisplacementEq (u.length * a)) := by
  intro load e r
  have hk := u.stress_pos
  have hl := u.length_pos
  simp only [pointDisplacementEq, ne_eq, mul_eq_zero, hk.ne', hl.ne', false_or]
  refine and_congr_right fun he => ?_
  obtain ⟨he, hr⟩ := he
  have : 9 * (u.pointLoad * load) ^ 2 / 16 / (u.length * r) / (u.stress * e) ^ 2 - (u.length * a) ^ 3 = u.length ^ 3 * (9 * load ^ 2 / 16 / r / e ^ 2 - a ^ 3) := by
    unfold Units.pointLoad
    field_simp
  rw [this]
  simp [hl.ne']

theorem pointEquation_units (u : Units) (d : PointDerived) :
    (∃ q q', pointEquation d = .value q ∧ pointEquation (d.inUnits u) = .value q' ∧ SameEquation u u.pointLoad q q') ∨ ∃ e, pointEquation d = .raised e ∧ pointEquation (d.inUnits u) = .raised e := by
  obtain ⟨a, b, c, w, x, t⟩ := d
  cases a with
  | some a => exact .inl ⟨_, _, rfl, rfl, pointPressure_units u a⟩
  | none =>
    cases b with
    | some b => exact .inl ⟨_, _, rfl, rfl, pointShear_units u b⟩
    | none =>
      cases c with
      | some c => exact .inr ⟨_, rfl, rfl⟩
      | none =>
        cases w with
        | some w => exact .inl ⟨_, _, rfl, rfl, pointRadius_units u w⟩
        | none =>
          cases x with
          | some x => exact .inl ⟨_, _, rfl, rfl, pointDisplacement_units u x⟩
          | none => exact .inr ⟨_, rfl, rfl⟩

/-- Only the tensile stress is given. -/
def OnlyTensile (d : PointDerived) : Prop := d.maxPressure = none ∧ d.maxShear = none ∧ d.maxVonMises = none ∧ d.radius = none ∧ d.displacement = none

theorem tensileOf_units (u : Units) (load r e1 e2 v1 v2 : ℝ) (h : 0 ≤ pressureCubed load (1 / ((1 - v1 ^ 2) / e1 + (1 - v2 ^ 2) / e2)) r) :
    tensileOf (u.pointLoad * load) (u.length * r) (u.stress * e1) (u.stress * e2) v1 v2 = u.stress * tensileOf load r e1 e2 v1 v2 := by
  unfold tensileOf
  rw [comp_scale, one_div, mul_inv, inv_inv, ← one_div, cubed_units, third_scale u.stress_pos h]
  ring

theorem tensileTwo_units (u : Units) (s : System) (t : ℝ) : tensileTwoMissing (s.inUnits u u.pointLoad) (u.stress * t) = (tensileTwoMissing s t).map (System.inUnits u u.pointLoad) := by
  have hk := u.stress_pos
  obtain ⟨r, e1, e2, v1, v2, load⟩ := s
  cases e1 <;> cases e2 <;> cases v1 <;> cases v2 <;> try rfl
  · simp only [tensileTwoMissing, System.inUnits, Option.map_none, need_map, map_bind, bind_map]
    rfl
  · rename_i e1 e2
    simp only [tensileTwoMissing, System.inUnits, Option.map_some, need_map, map_bind, bind_map]
    refine bind_congr _ fun load => bind_congr _ fun r => ?_
    have hset : {v : ℝ | v ^ 2 ≠ 1 ∧ u.length * r ≠ 0 ∧ 0 ≤ pressureCubed (u.pointLoad * load) (1 / ((1 - v ^ 2) / (u.stress * e1) + (1 - v ^ 2) / (u.stress * e2))) (u.length * r) ∧
        tensileOf (u.pointLoad * load) (u.length * r) (u.stress * e1) (u.stress * e2) v v - u.stress * t = 0} =
        {v | v ^ 2 ≠ 1 ∧ r ≠ 0 ∧ 0 ≤ pressureCubed load (1 / ((1 - v ^ 2) / e1 + (1 - v ^ 2) / e2)) r ∧ tensileOf load r e1 e2 v v - t = 0} := by
      ext v
      simp only [Set.mem_setOf_eq]
      rw [comp_scale, one_div, mul_inv, inv_inv, ← one_div, dom_units]
      refine and_congr_right fun _ => and_congr (by simp [u.length_pos.ne']) (and_congr_right fun h => ?_)
      rw [tensileOf_units u _ _ _ _ _ _ h, ← mul_sub, mul_eq_zero]
      simp [hk.ne']
    rw [hset]
    rfl

/-- **C172 for point contacts.** The same, unless both Poisson's ratios are to be found from an argument other than the tensile stress, or one material parameter from the tensile stress, for which a numerical search from a fixed starting point is used. -/
theorem C172_point_partial (root : RootFinder) (u : Units) (s : System) (d : PointDerived) (hs : BothRatiosMissing s → OnlyTensile d) (hd : OnlyTensile d → missingCount s ≠ 1) :
    solvePoint root (s.inUnits u u.pointLoad) (d.inUnits u) = (solvePoint root s d).map (PointSolution.inUnits u) := by
  unfold solvePoint
  rw [unknownOf_units]
  simp only [PointDerived.inUnits, Option.isNone_map]
  split
  · exact fillPoint_units u s
  · rw [knownEStar_units, map_bind, bind_map]
    refine bind_congr _ fun e => ?_
    by_cases ht : (d.maxPressure.isNone && d.maxShear.isNone && d.maxVonMises.isNone && d.radius.isNone && d.displacement.isNone) = true
    · rw [if_pos ht, if_pos ht]
      have hot : OnlyTensile d := by
        simp only [Bool.and_eq_true, Option.isNone_iff_eq_none] at ht
        exact ⟨ht.1.1.1.1, ht.1.1.1.2, ht.1.1.2, ht.1.2, ht.2⟩
      rw [need_map, map_bind, bind_map]
      refine bind_congr _ fun t => ?_
      by_cases hu : unknownOf s = .eStar
      · rw [if_pos hu, if_pos hu]
        have hmc : missingCount (s.inUnits u u.pointLoad) = missingCount s := by simp [missingCount, System.inUnits]
        unfold tensileMaterials
        rw [hmc]
        by_cases h2 : missingCount s = 2
        · rw [if_pos h2, if_pos h2, tensileTwo_units, map_bind, bind_map]
          exact bind_congr _ fun s' => fillPoint_units u s'
        · rw [if_neg h2, if_neg h2, if_neg (hd hot), if_neg (hd hot)]
          rfl
      · rw [if_neg hu, if_neg hu, bind_map]
        refine bind_congr _ fun v => ?_
        show (solveFor (unknownOf s) (pointTensileEq v (u.stress * t)) (s.load.map (u.pointLoad * ·)) (e.map (u.stress * ·)) (s.r.map (u.length * ·))).bind _ = _
        rw [solveFor_units u (pointLoad_pos u) (pointTensile_units u v t), map_bind, bind_map]
        refine bind_congr _ fun x => ?_
        have hb : ¬ BothRatiosMissing s := by
          rintro ⟨h, -⟩
          refine hu ?_
          simp [unknownOf, h]
        rw [storeFound_units u _ hb, map_bind, bind_map]
        exact bind_congr _ fun s' => fillPoint_units u s'
    · rw [if_neg ht, if_neg ht]
      have hb : ¬ BothRatiosMissing s := by
        intro hb
        obtain ⟨h1, h2, h3, h4, h5⟩ := hs hb
        exact ht (by simp [h1, h2, h3, h4, h5])
      rcases pointEquation_units u d with ⟨q, q', h1, h2, h3⟩ | ⟨x, h1, h2⟩
      · simp only [PointDerived.inUnits] at h2
        rw [h1, h2]
        show (solveFor (unknownOf s) q' (s.load.map (u.pointLoad * ·)) (e.map (u.stress * ·)) (s.r.map (u.length * ·))).bind _ = ((solveFor (unknownOf s) q s.load e s.r).bind fun x => (storeFound s (unknownOf s) x).bind fun s' => fillPoint s').map _
        rw [solveFor_units u (pointLoad_pos u) h3, map_bind, bind_map]
        refine bind_congr _ fun x => ?_
        rw [storeFound_units u _ hb, map_bind, bind_map]
        exact bind_congr _ fun s' => fillPoint_units u s'
      · simp only [PointDerived.inUnits] at h2
        rw [h1, h2]
        rfl

/-- A ball on a plate whose tensile stress is given and whose load is to be found. -/
example : let s : System := ⟨some 0.01, some 200e9, some 70e9, some 0.3, some 0.33, none⟩
    let d : PointDerived := ⟨none, none, none, none, none, some 1e8⟩
    (BothRatiosMissing s → OnlyTensile d) ∧ (OnlyTensile d → missingCount s ≠ 1) := by
  simp [BothRatiosMissing, missingCount]

/-! ## Both Poisson's ratios missing -/

theorem maxRoot_single {A : Set ℝ} {a : ℝ} (h : ∀ x, x ∈ A ↔ x = a) : maxRoot A = .value a := by
  have hA : IsGreatest A a := ⟨(h a).2 rfl, fun x hx => ((h x).1 hx).le⟩
  unfold maxRoot
  have he : ∃ r, IsGreatest A r := ⟨a, hA⟩
  rw [dif_pos he]
  exact congrArg _ (he.choose_spec.unique hA)

/-- The effective modulus of a line contact of radius one from a pressure that is as large as the modulus. -/
theorem modulus_found {k : ℝ} (hk : 0 < k) : maxRoot {x | (linePressureEq k).dom (k * Real.pi) x 1 ∧ (linePressureEq k).expr (k * Real.pi) x 1 = 0} = .value k := by
  refine maxRoot_single fun x => ?_
  simp only [linePressureEq, Set.mem_setOf_eq, ne_eq, one_ne_zero, not_false_eq_true, true_and, div_one]
  have : k * Real.pi * x / Real.pi - k ^ 2 = k * (x - k) := by
    have := Real.pi_ne_zero
    field_simp
  rw [this, mul_eq_zero]
  constructor
  · rintro (h | h)
    · exact absurd h hk.ne'
    · linarith
  · rintro rfl
    exact .inr (sub_self _)

/-- **C172 is false if both Poisson's ratios are to be found.** The formula for them subtracts one from one over the square of a stress: the same contact has Poisson's ratios of a half in one unit of stress and no real ones in a unit half as large. -/
theorem C172_ratios_wrong : ∃ (u : Units) (s : System) (d : LineDerived), BothRatiosMissing s ∧ (∃ S, solveLine s d = .value S ∧ S.v1 = 1 / 2 ∧ S.v2 = 1 / 2) ∧ solveLine (s.inUnits u u.lineLoad) (d.inUnits u) = .notReal := by
  refine ⟨⟨1, 2, by norm_num, by norm_num⟩, ⟨some 1, some 1, some 1, none, none, some (8 / 5 * Real.pi)⟩, ⟨some (8 / 5), none, none, none⟩, ⟨rfl, rfl, by simp, by simp⟩, ?_, ?_⟩
  · have h1 : npSqrt ((1 / (8 / 5 : ℝ) * (1 / 1 + 1 / 1)) - 1) = .value (1 / 2) := by
      unfold npSqrt
      rw [if_neg (by norm_num), show (1 / (8 / 5 : ℝ) * (1 / 1 + 1 / 1)) - 1 = (1 / 2) ^ 2 by norm_num, Real.sqrt_sq (by norm_num)]
    have hp := Real.pi_pos
    simp only [solveLine, lineEquation, knownEStar, unknownOf, solveFor, need, Outcome.bind, Option.isNone_none, Option.isNone_some, Bool.false_and, Bool.or_true, Bool.false_eq_true, if_false, if_true, Bool.or_false, modulus_found (show (0 : ℝ) < 8 / 5 by norm_num), storeFound,
      fillMaterials]
    rw [if_neg (by norm_num), h1]
    simp only [fillLine, need, Outcome.bind]
    unfold eStarOf
    rw [if_neg (by norm_num), show (1 : ℝ) / ((1 - (1 / 2) ^ 2) / 1 + (1 - (1 / 2) ^ 2) / 1) = 2 / 3 by norm_num]
    simp only [npSqrt]
    rw [if_neg (by norm_num), if_neg (not_lt.2 (by positivity))]
    simp only
    rw [if_neg (not_lt.2 (by positivity))]
    exact ⟨_, rfl, rfl, rfl⟩
  · have e1 : (2 : ℝ) * (8 / 5) = 16 / 5 := by norm_num
    have e2 : (2 : ℝ) * (8 / 5 * Real.pi) = 16 / 5 * Real.pi := by ring
    simp only [solveLine, LineDerived.inUnits, System.inUnits, Units.lineLoad, lineEquation, knownEStar, unknownOf, solveFor, need, Outcome.bind, Option.map_some, Option.map_none, Option.isNone_none, Option.isNone_some, Bool.false_and, Bool.or_true, Bool.false_eq_true, if_false, if_true,
      Bool.or_false, e1, e2, mul_one, modulus_found (show (0 : ℝ) < 16 / 5 by norm_num), storeFound, fillMaterials]
    rw [if_neg (by norm_num)]
    unfold npSqrt
    rw [if_pos (by norm_num)]

end Verif.Hertz
