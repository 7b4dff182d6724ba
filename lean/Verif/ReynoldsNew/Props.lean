import Verif.ReynoldsNew.Model
import Verif.Bouss.Props

/-!
# C141: the three influence coefficients of the Reynolds solver
-/

namespace Verif.ReynoldsNew

open Verif Real MeasureTheory InfMat Bouss

noncomputable section

/-- The coefficients are the brackets of the normal influence matrix. -/
theorem kernel_terms (i : Nat) : kernel i = termX i 0 + termY i 0 := by
  have e1 : hi (i : ℤ) = i + 0.5 := by unfold hi; push_cast; norm_num
  have e2 : lo (i : ℤ) = i - 0.5 := by unfold lo; push_cast; norm_num
  have e3 : hi 0 = 0.5 := by unfold hi; norm_num
  have e4 : lo 0 = -0.5 := by unfold lo; norm_num
  unfold kernel termX termY stencil
  simp only [e1, e2, e3, e4]
  have c : ∀ a b : ℝ, √(a ^ 2 + b ^ 2) = √(b ^ 2 + a ^ 2) := fun a b => by rw [add_comm]
  rw [c 0.5 (i + 0.5), c (-0.5) (i + 0.5), c (-0.5) (i - 0.5), c 0.5 (i - 0.5)]
  ring

/-- **C141**: the coefficients are the integrals of `1 / r` over a cell of side 1 at the distance of 0, 1 and 2 cells along the rows of the system, times `2 / π²`. -/
theorem C141_kernel (i : Nat) : ak i = 2 / π ^ 2 * cell (fun s t => 1 / √(s ^ 2 + t ^ 2)) 1 1 i 0 := by
  unfold ak
  rw [kernel_terms, cell_recip one_pos]
  ring

example : (2 : Nat) < 3 := by norm_num

/-- The own cell. -/
theorem kernel_zero : kernel 0 = 4 * log (1 + √2) := by
  have h := cell_recip one_pos 0 0
  have hk := kernel_terms 0
  rw [cell_eq, double_recip (by norm_num [lo]) (by norm_num [hi])] at h
  have b1 : (1 : ℝ) * lo 0 = -(1 / 2) := by norm_num [lo]
  have b2 : (1 : ℝ) * hi 0 = 1 / 2 := by norm_num [hi]
  have hs : ∀ s t, L s (-t) = L s t := fun s t => by unfold L; rw [neg_sq]
  have hn := L_neg (s := 1 / 2) (t := 1 / 2) (by norm_num)
  have hL : L (1 / 2) (1 / 2) = log (1 / 2) + log (1 + √2) := by
    have e : √((1 / 2 : ℝ) ^ 2 + (1 / 2) ^ 2) = 1 / 2 * √2 := by
      rw [show ((1 / 2 : ℝ) ^ 2 + (1 / 2) ^ 2) = (1 / 2) ^ 2 * 2 by norm_num, sqrt_mul (by positivity), sqrt_sq (by norm_num)]
    unfold L
    rw [e, ← log_mul (by norm_num) (by positivity)]
    congr 1
    ring
  rw [b1, b2] at h
  simp only [hs, hn, hL] at h
  push_cast at hk
  linarith

/-- The next cell: `1 / r` is at most `1 / x`. -/
theorem kernel_one_lt : kernel 1 ≤ log 3 := by
  have c1 := cell_recip one_pos 1 0
  rw [cell_eq, integral_of_inner (fun t ht => inner_recip ht _ _)] at c1
  simp only [one_mul] at c1
  have hk := kernel_terms 1
  push_cast at hk
  rw [hk, ← c1]
  have hi1 : hi 1 = 3 / 2 := by norm_num [hi]
  have lo1 : lo 1 = 1 / 2 := by norm_num [lo]
  have hb : ∀ t : ℝ, L (hi 1) t - L (lo 1) t ≤ log 3 := fun t => by
    rw [hi1, lo1]
    unfold L
    have p1 : 0 < (1 / 2 : ℝ) + √((1 / 2) ^ 2 + t ^ 2) := by positivity
    have : √((3 / 2 : ℝ) ^ 2 + t ^ 2) ≤ 3 * √((1 / 2) ^ 2 + t ^ 2) := by
      rw [show 3 * √((1 / 2 : ℝ) ^ 2 + t ^ 2) = √(3 ^ 2 * ((1 / 2) ^ 2 + t ^ 2)) by rw [sqrt_mul (by positivity), sqrt_sq (by norm_num)]]
      refine sqrt_le_sqrt ?_
      nlinarith [sq_nonneg t]
    rw [sub_le_iff_le_add, ← log_mul (by norm_num) p1.ne']
    refine log_le_log (by positivity) ?_
    linarith
  have := intervalIntegral.integral_mono_on (a := lo 0) (b := hi 0) (μ := volume) (by norm_num [lo, hi])
    ((integrable_L (hi_ne 1) _ _).sub (integrable_L (lo_ne 1) _ _)) (intervalIntegrable_const (c := log 3)) (fun t _ => hb t)
  refine this.trans ?_
  rw [intervalIntegral.integral_const]
  norm_num [hi, lo]

/-- **C141**: the coefficients are positive and fall with the distance; the first is `8 log (1 + √2) / π²`, more than three times the second. -/
theorem C141_order : ak 0 = 8 * log (1 + √2) / π ^ 2 ∧ 3 * ak 1 < ak 0 ∧ ak 2 < ak 1 ∧ 0 < ak 2 := by
  have hp : (0 : ℝ) < 2 / π ^ 2 := by positivity
  have k2 : 0 < kernel 2 := by
    rw [kernel_terms]
    have h1 := termY_pos 0 2
    rw [termY_eq] at h1
    have h2 := termY_pos 2 0
    push_cast
    rw [termX_eq]
    linarith
  have k12 : kernel 2 < kernel 1 := by
    rw [kernel_terms, kernel_terms]
    have := recip_decay (x := 1) (by norm_num) 0
    norm_num at this ⊢
    exact this
  have k01 : 3 * kernel 1 < kernel 0 := by
    have h := kernel_one_lt
    rw [kernel_zero]
    have e1 : 3 * log 3 = log 27 := by rw [show (27 : ℝ) = 3 ^ 3 by norm_num, log_pow]; norm_num
    have e2 : 4 * log (1 + √2) = log ((1 + √2) ^ 4) := by rw [log_pow]; norm_num
    have hs : √2 ^ 2 = 2 := sq_sqrt (by norm_num)
    have hs1 : 1 < √2 := by rw [lt_sqrt (by norm_num)]; norm_num
    have : log 27 < log ((1 + √2) ^ 4) := by
      refine log_lt_log (by norm_num) ?_
      have : (1 + √2) ^ 4 = 17 + 12 * √2 := by
        have h4 : √2 ^ 4 = 4 := by rw [show √2 ^ 4 = (√2 ^ 2) ^ 2 by ring, hs]; norm_num
        have h3 : √2 ^ 3 = 2 * √2 := by rw [show √2 ^ 3 = √2 ^ 2 * √2 by ring, hs]
        linear_combination h4 + 4 * h3 + 6 * hs
      rw [this]
      linarith
    linarith
  unfold ak
  refine ⟨by rw [kernel_zero]; ring, ?_, mul_lt_mul_of_pos_left k12 hp, mul_pos hp k2⟩
  have := mul_lt_mul_of_pos_left k01 hp
  linarith

/-! ## What the coefficients are in the units of the solver -/

/-- The normal displacement of a pair of bodies `i` cells away from a cell of side `h` that carries the pressure `p` (C85). -/
def approach (h G1 v1 G2 v2 p : ℝ) (i : Nat) : ℝ := p * (cell (pointLoad G1 v1 'z' 'z') h h i 0 + cell (pointLoad G2 v2 'z' 'z') h h i 0)

theorem approach_eq {h : ℝ} (hh : 0 < h) (G1 v1 G2 v2 p : ℝ) (i : Nat) :
    approach h G1 v1 G2 v2 p i = p * (((1 - v1) / (2 * π * G1) + (1 - v2) / (2 * π * G2)) * (h * kernel i)) := by
  have e : ∀ G v : ℝ, cell (pointLoad G v 'z' 'z') h h i 0 = (1 - v) / (2 * π * G) * cell (fun s t => 1 / √(s ^ 2 + t ^ 2)) h h i 0 :=
    fun G v => cell_const _ _ _ _ _ _
  unfold approach
  rw [e, e, cell_recip hh, kernel_terms]
  ring

/-- **C141 (partial)**: with the pressure and half width of the point contact of a ball (maximum pressure `2 a E* / (π R)`, where `1 / E*` is the sum of
`(1 - v) / (2 G)` over both bodies) the change of the non-dimensional gap under a unit of non-dimensional pressure on one cell is the coefficient of the solver
times the non-dimensional spacing. Missing: the coefficient itself, which is what the rows of the system use. -/
theorem C141_units_partial {h G1 v1 G2 v2 Es : ℝ} (s : Reynolds.Scales) (hh : 0 < h) (ha : 0 < s.halfWidth) (hR : 0 < s.radius) (hE : 0 < Es)
    (hEs : 1 / Es = (1 - v1) / (2 * G1) + (1 - v2) / (2 * G2)) (hp : s.pressure = 2 * s.halfWidth * Es / (π * s.radius)) (i : Nat) :
    Reynolds.dimGap s (approach h G1 v1 G2 v2 (Reynolds.dimPressure s 1 false) i) true = Reynolds.dimLength s h true * ak i := by
  have e : (1 - v1) / (2 * π * G1) + (1 - v2) / (2 * π * G2) = 1 / Es / π := by
    rw [hEs, add_div, div_div, div_div]
    congr 2 <;> ring
  rw [approach_eq hh, e]
  simp only [Reynolds.dimGap, Reynolds.dimPressure, Reynolds.dimLength, ak, if_true, Bool.false_eq_true, if_false, hp]
  have := pi_ne_zero
  field_simp

/-- **C141 does not hold in general**: the rows of the system use the coefficient without the spacing, so that the linearised change of the gap is the one of
the elastic bodies only if the non-dimensional spacing is 1. -/
theorem C141_units_wrong {h G1 v1 G2 v2 Es : ℝ} (s : Reynolds.Scales) (hh : 0 < h) (ha : 0 < s.halfWidth) (hR : 0 < s.radius) (hE : 0 < Es)
    (hEs : 1 / Es = (1 - v1) / (2 * G1) + (1 - v2) / (2 * G2)) (hp : s.pressure = 2 * s.halfWidth * Es / (π * s.radius)) (i : Nat) (hi3 : i < 3) :
    Reynolds.dimGap s (approach h G1 v1 G2 v2 (Reynolds.dimPressure s 1 false) i) true = ak i ↔ h = s.halfWidth := by
  rw [C141_units_partial s hh ha hR hE hEs hp i]
  obtain ⟨-, h1, h2, h3⟩ := C141_order
  have hne : ak i ≠ 0 := by
    have : i = 0 ∨ i = 1 ∨ i = 2 := by omega
    rcases this with rfl | rfl | rfl <;> linarith
  simp only [Reynolds.dimLength, if_true]
  constructor
  · intro hq
    have := mul_right_cancel₀ hne (hq.trans (one_mul _).symm)
    rw [div_eq_one_iff_eq ha.ne'] at this
    exact this
  · intro hq
    rw [hq, div_self ha.ne', one_mul]

/-- Two bodies of steel, a ball of 10 mm, a half width of 0.1 mm (`C141_units_partial`). -/
example : ∃ (s : Reynolds.Scales) (Es : ℝ), 0 < s.halfWidth ∧ 0 < s.radius ∧ 0 < Es ∧ 1 / Es = (1 - 0.3) / (2 * 80e9) + (1 - 0.3) / (2 * 80e9) ∧
    s.pressure = 2 * s.halfWidth * Es / (π * s.radius) :=
  ⟨⟨2 * 1e-4 * (80e9 / 0.7) / (π * 0.01), 1e-4, 0.1, 1000, 0.01⟩, 80e9 / 0.7, by norm_num, by norm_num, by norm_num, by norm_num, rfl⟩

/-! ## Construction and checks -/

/-- **C141**: a solver can be made exactly with the sweep directions 'forward' and 'backward'. It has no speed, no row order and no speed parameter yet. -/
theorem C141_directions (timeStep gridSpacing pressure radius halfWidth viscosity density : ℝ) (direction : String) (periodic : Bool) :
    ((direction ≠ "forward" ∧ direction ≠ "backward") → construct timeStep gridSpacing pressure radius halfWidth viscosity density direction periodic = .error .valueError) ∧
    ∀ b, construct timeStep gridSpacing pressure radius halfWidth viscosity density direction periodic = .ok b →
      (direction = "forward" ∧ b.step = 1 ∨ direction = "backward" ∧ b.step = -1) ∧ b.rowOrder = none ∧ b.solver.params.speed = none ∧ b.solver.cached = none ∧
      b.gridSpacing = gridSpacing ∧ b.timeStep = timeStep ∧ b.density = density ∧ b.periodic = periodic ∧ b.solver.params.radius = some radius ∧
      b.solver.params.pressure = some pressure ∧ b.solver.params.halfWidth = some halfWidth ∧ b.solver.params.viscosity = some viscosity ∧
      b.ak00 = ak 0 ∧ b.ak10 = ak 1 ∧ b.ak20 = ak 2 := by
  unfold construct
  by_cases h1 : direction = "forward"
  · subst h1
    dsimp only
    rw [if_pos rfl]
    refine ⟨fun h => absurd rfl h.1, fun b hb => ?_⟩
    injection hb with hb
    subst hb
    exact ⟨Or.inl ⟨rfl, rfl⟩, rfl, rfl, rfl, rfl, rfl, rfl, rfl, rfl, rfl, rfl, rfl, rfl, rfl, rfl⟩
  · rw [if_neg h1]
    by_cases h2 : direction = "backward"
    · subst h2
      dsimp only
      rw [if_pos rfl]
      refine ⟨fun h => absurd rfl h.2, fun b hb => ?_⟩
      injection hb with hb
      subst hb
      exact ⟨Or.inr ⟨rfl, rfl⟩, rfl, rfl, rfl, rfl, rfl, rfl, rfl, rfl, rfl, rfl, rfl, rfl, rfl, rfl⟩
    · rw [if_neg h2]
      exact ⟨fun _ => rfl, fun b hb => by simp at hb⟩

example : "up" ≠ "forward" ∧ "up" ≠ "backward" := by decide

example : ∃ b, construct 0 1e-6 1e9 0.01 1e-4 0.1 1000 "backward" false = .ok b ∧ b.step = -1 := ⟨_, by simp only [construct]; rfl, rfl⟩

/-- **C141**: a new solver has a non-dimensional spacing but, until the speed is set, no non-dimensional time step, even for a steady solution with a time step
of zero. -/
theorem C141_steps {timeStep gridSpacing pressure radius halfWidth viscosity density : ℝ} {direction : String} {periodic : Bool} {b : Built}
    (ha : halfWidth ≠ 0) (hb : construct timeStep gridSpacing pressure radius halfWidth viscosity density direction periodic = .ok b) (u : ℝ) :
    b.ndGridSpacing = .ok (gridSpacing / halfWidth) ∧ b.ndTimeStep = .error .typeError ∧
    ({ b with solver := b.solver.step (.setSpeed (some u)) } : Built).ndTimeStep = .ok (timeStep * u / halfWidth) := by
  obtain ⟨-, -, hs, -, hg, ht, -, -, -, -, hh, -⟩ := (C141_directions timeStep gridSpacing pressure radius halfWidth viscosity density direction periodic).2 b hb
  refine ⟨?_, ?_, ?_⟩
  · simp only [Built.ndGridSpacing, hh, hg, if_neg ha]
  · simp only [Built.ndTimeStep, hs]
  · simp only [Built.ndTimeStep, Reynolds.Solver.step, hh, ht, if_neg ha]

example : ∃ b, construct 0 1e-6 1e9 0.01 1e-4 0.1 1000 "forward" true = .ok b ∧ (1e-4 : ℝ) ≠ 0 := ⟨_, by simp only [construct]; rfl, by norm_num⟩

/-- **C141**: the check passes exactly if the gap, the pressure, the viscosity and the density are there. -/
theorem C141_check (previous : List String) :
    (∃ after, dataCheck previous = .ok after) ↔ "nd_gap" ∈ previous ∧ "nd_pressure" ∈ previous ∧ "nd_viscosity" ∈ previous ∧ "nd_density" ∈ previous := by
  unfold dataCheck requires
  constructor
  · rintro ⟨after, h⟩
    split_ifs at h with hc
    simpa using hc
  · intro h
    exact ⟨provides, by rw [if_pos (by simpa using h)]⟩

example : "nd_gap" ∈ ["nd_gap", "nd_pressure", "nd_viscosity", "nd_density"] := by decide

/-- **C141 does not hold for what comes after**: the check returns only what the solver itself provides, so that what was there before (the gap, the viscosity
and the density among it) counts as missing afterwards: a second check of the result always fails. -/
theorem C141_check_wrong (previous after : List String) (h : dataCheck previous = .ok after) :
    "nd_gap" ∈ previous ∧ "nd_gap" ∉ after ∧ "nd_viscosity" ∉ after ∧ "nd_density" ∉ after ∧ "nd_pressure" ∈ after ∧ dataCheck after = .error .valueError := by
  have hg := ((C141_check previous).mp ⟨after, h⟩).1
  unfold dataCheck at h
  split_ifs at h
  injection h with h
  subst h
  refine ⟨hg, by decide, by decide, by decide, by decide, by decide⟩

example : ∃ after, dataCheck ["nd_gap", "nd_pressure", "nd_viscosity", "nd_density", "time"] = .ok after := ⟨_, rfl⟩

end

end Verif.ReynoldsNew
