import Mathlib.Tactic.FieldSimp
import Mathlib.Tactic.Linarith
import Mathlib.Tactic.LinearCombination
import Mathlib.Tactic.Positivity
import Verif.Hertz.Spec

/-! # Lemmas about the Hertz solvers -/

namespace Verif.Hertz

open Spec

@[simp] theorem bind_value {α β : Type} (a : α) (f : α → Outcome β) : (Outcome.value a).bind f = f a := rfl

@[simp] theorem need_some (x : ℝ) : need (some x) = .value x := rfl

theorem maxRoot_eq {S : Set ℝ} {r : ℝ} (h : IsGreatest S r) : maxRoot S = .value r := by
  have hex : ∃ r, IsGreatest S r := ⟨r, h⟩
  rw [maxRoot, dif_pos hex, IsGreatest.unique hex.choose_spec h]

theorem maxRoot_value {S : Set ℝ} {r : ℝ} (h : maxRoot S = .value r) : IsGreatest S r := by
  rw [maxRoot] at h
  split at h
  · rename_i hex
    cases h
    exact hex.choose_spec
  · cases h

/-- A set with exactly one element. -/
theorem maxRoot_unique {S : Set ℝ} {r : ℝ} (h : r ∈ S) (hu : ∀ x ∈ S, x = r) : maxRoot S = .value r :=
  maxRoot_eq ⟨h, fun x hx => le_of_eq (hu x hx)⟩

theorem npSqrt_of {x y : ℝ} (hy : 0 ≤ y) (h : y ^ 2 = x) : npSqrt x = .value y := by
  have hx : ¬ x < 0 := by rw [← h]; exact not_lt.mpr (sq_nonneg y)
  rw [npSqrt, if_neg hx, ← h, Real.sqrt_sq hy]

theorem cubeRoot_of {x y : ℝ} (hy : 0 ≤ y) (h : y ^ 3 = x) : cubeRoot x = .value y := by
  have hx : ¬ x < 0 := by rw [← h]; exact not_lt.mpr (by positivity)
  rw [cubeRoot, if_neg hx, ← h]
  congr 1
  rw [← Real.rpow_natCast, ← Real.rpow_mul hy]
  norm_num

theorem rpow_third_of {x y : ℝ} (hy : 0 ≤ y) (h : y ^ 3 = x) : x ^ ((1 : ℝ) / 3) = y := by
  rw [← h, ← Real.rpow_natCast, ← Real.rpow_mul hy]
  norm_num

/-- Every nonnegative number is the cube of its cube root. -/
theorem rpow_third_cubed {x : ℝ} (hx : 0 ≤ x) : (x ^ ((1 : ℝ) / 3)) ^ 3 = x := by
  rw [← Real.rpow_natCast, ← Real.rpow_mul hx]
  norm_num

theorem rpow_third_nonneg {x : ℝ} (hx : 0 ≤ x) : 0 ≤ x ^ ((1 : ℝ) / 3) := Real.rpow_nonneg hx _

theorem cube_inj {x y : ℝ} (hx : 0 ≤ x) (hy : 0 ≤ y) (h : x ^ 3 = y ^ 3) : x = y :=
  (pow_left_inj₀ hx hy (by norm_num)).mp h

/-- The compliance sum of two proper materials is positive. -/
theorem compliance_pos {e1 e2 v1 v2 : ℝ} (h1 : 0 < e1) (h2 : 0 < e2) (hv1 : v1 ^ 2 < 1) (hv2 : v2 ^ 2 < 1) :
    0 < (1 - v1 ^ 2) / e1 + (1 - v2 ^ 2) / e2 := by
  have a1 : 0 < 1 - v1 ^ 2 := by linarith
  have a2 : 0 < 1 - v2 ^ 2 := by linarith
  positivity

/-- Proper materials with their effective modulus. -/
structure Mats (e1 e2 v1 v2 E : ℝ) : Prop where
  e1_pos : 0 < e1
  e2_pos : 0 < e2
  v1_lt : v1 ^ 2 < 1
  v2_lt : v2 ^ 2 < 1
  eq : 1 / E = (1 - v1 ^ 2) / e1 + (1 - v2 ^ 2) / e2

theorem Mats.pos {e1 e2 v1 v2 E : ℝ} (h : Mats e1 e2 v1 v2 E) : 0 < E := by
  have := compliance_pos h.e1_pos h.e2_pos h.v1_lt h.v2_lt
  rw [← h.eq] at this
  exact one_div_pos.mp this

theorem Mats.eStarOf {e1 e2 v1 v2 E : ℝ} (h : Mats e1 e2 v1 v2 E) : eStarOf e1 e2 v1 v2 = .value E := by
  have hp := compliance_pos h.e1_pos h.e2_pos h.v1_lt h.v2_lt
  have : ¬ (e1 = 0 ∨ e2 = 0 ∨ (1 - v1 ^ 2) / e1 + (1 - v2 ^ 2) / e2 = 0) := by
    rintro (h' | h' | h')
    · exact h.e1_pos.ne' h'
    · exact h.e2_pos.ne' h'
    · exact hp.ne' h'
  rw [Hertz.eStarOf, if_neg this, ← h.eq, one_div_one_div]

theorem le_of_factor {c d x y : ℝ} (hc : c ≠ 0) (h : c * (x - y) = d * 0) : x ≤ y := by
  rw [mul_zero] at h
  rcases mul_eq_zero.mp h with h | h
  · exact absurd h hc
  · linarith

theorem le_of_factor' {c d x y : ℝ} (hc : c ≠ 0) (h : c * (y - x) = d * 0) : x ≤ y := by
  rw [mul_zero] at h
  rcases mul_eq_zero.mp h with h | h
  · exact absurd h hc
  · linarith

/-! ## Filling in the materials -/

section materials
variable {r e1 e2 v1 v2 E load : ℝ}

/-- The full system. -/
def full (r e1 e2 v1 v2 load : ℝ) : System := ⟨some r, some e1, some e2, some v1, some v2, some load⟩

theorem fill_bothE (h : Mats e1 e2 v1 v2 E) (he : e1 = e2) :
    fillMaterials (system r e1 e2 v1 v2 load .bothE) E = .value (full r e1 e2 v1 v2 load) := by
  have : E * (2 - v1 ^ 2 - v2 ^ 2) = e1 := by
    have hE := h.pos
    have h0 := h.e1_pos
    have hq := h.eq
    subst he
    field_simp at hq
    linarith
  unfold fillMaterials system full
  simp only [this]
  rw [← he]

theorem fill_e1 (h : Mats e1 e2 v1 v2 E) :
    fillMaterials (system r e1 e2 v1 v2 load .e1) E = .value (full r e1 e2 v1 v2 load) := by
  have hE := h.pos
  have hm : maxRoot {x | x ≠ 0 ∧ materialExpr x e2 v1 v2 E = 0} = .value e1 := by
    apply maxRoot_unique
    · exact ⟨h.e1_pos.ne', by rw [materialExpr, h.eq]; ring⟩
    · rintro x ⟨hx, hxe⟩
      rw [materialExpr, h.eq] at hxe
      have h0 := h.e1_pos.ne'
      have hv : (1 - v1 ^ 2) ≠ 0 := by have := h.v1_lt; linarith
      have : (1 - v1 ^ 2) / x = (1 - v1 ^ 2) / e1 := by linarith
      field_simp at this
      exact this.symm
  unfold fillMaterials system full
  simp only [hE.ne', h.e2_pos.ne', or_self, if_false, hm, bind_value]

theorem fill_e2 (h : Mats e1 e2 v1 v2 E) :
    fillMaterials (system r e1 e2 v1 v2 load .e2) E = .value (full r e1 e2 v1 v2 load) := by
  have hE := h.pos
  have hm : maxRoot {x | x ≠ 0 ∧ materialExpr e1 x v1 v2 E = 0} = .value e2 := by
    apply maxRoot_unique
    · exact ⟨h.e2_pos.ne', by rw [materialExpr, h.eq]; ring⟩
    · rintro x ⟨hx, hxe⟩
      rw [materialExpr, h.eq] at hxe
      have h0 := h.e2_pos.ne'
      have hv : (1 - v2 ^ 2) ≠ 0 := by have := h.v2_lt; linarith
      have : (1 - v2 ^ 2) / x = (1 - v2 ^ 2) / e2 := by linarith
      field_simp at this
      exact this.symm
  unfold fillMaterials system full
  simp only [hE.ne', h.e1_pos.ne', or_self, if_false, hm, bind_value]

theorem le_of_sq_eq {x y : ℝ} (hy : 0 ≤ y) (h : x ^ 2 = y ^ 2) : x ≤ y := by
  rcases sq_eq_sq_iff_eq_or_eq_neg.mp h with h | h
  · exact h.le
  · linarith

theorem fill_v1 (h : Mats e1 e2 v1 v2 E) (hv : 0 ≤ v1) :
    fillMaterials (system r e1 e2 v1 v2 load .v1) E = .value (full r e1 e2 v1 v2 load) := by
  have hE := h.pos
  have hm : maxRoot {x | materialExpr e1 e2 x v2 E = 0} = .value v1 := by
    apply maxRoot_eq
    constructor
    · show materialExpr e1 e2 v1 v2 E = 0
      rw [materialExpr, h.eq]; ring
    · intro x hxe
      have hxe : materialExpr e1 e2 x v2 E = 0 := hxe
      rw [materialExpr, h.eq] at hxe
      have h0 := h.e1_pos.ne'
      have : (1 - x ^ 2) / e1 = (1 - v1 ^ 2) / e1 := by linarith
      field_simp at this
      exact le_of_sq_eq hv (by linarith)
  unfold fillMaterials system full
  simp only [hE.ne', h.e1_pos.ne', h.e2_pos.ne', or_self, if_false, hm, bind_value]

theorem fill_v2 (h : Mats e1 e2 v1 v2 E) (hv : 0 ≤ v2) :
    fillMaterials (system r e1 e2 v1 v2 load .v2) E = .value (full r e1 e2 v1 v2 load) := by
  have hE := h.pos
  have hm : maxRoot {x | materialExpr e1 e2 v1 x E = 0} = .value v2 := by
    apply maxRoot_eq
    constructor
    · show materialExpr e1 e2 v1 v2 E = 0
      rw [materialExpr, h.eq]; ring
    · intro x hxe
      have hxe : materialExpr e1 e2 v1 x E = 0 := hxe
      rw [materialExpr, h.eq] at hxe
      have h0 := h.e2_pos.ne'
      have : (1 - x ^ 2) / e2 = (1 - v2 ^ 2) / e2 := by linarith
      field_simp at this
      exact le_of_sq_eq hv (by linarith)
  unfold fillMaterials system full
  simp only [hE.ne', h.e1_pos.ne', h.e2_pos.ne', or_self, if_false, hm, bind_value]

/-- The parameter to be found for each kind of problem. -/
def unknown : Missing → Unknown
  | .load => .load
  | .r => .r
  | _ => .eStar

theorem unknownOf_system (m : Missing) : unknownOf (system r e1 e2 v1 v2 load m) = unknown m := by
  cases m <;> rfl

/-- The true value of the parameter to be found. -/
def target (r E load : ℝ) : Unknown → ℝ
  | .load => load
  | .r => r
  | .eStar => E

/-- Storing the true value completes the system. -/
theorem store_full (h : Mats e1 e2 v1 v2 E) (m : Missing) (ha : Allowed e1 e2 v1 v2 m) :
    storeFound (system r e1 e2 v1 v2 load m) (unknown m) (target r E load (unknown m)) = .value (full r e1 e2 v1 v2 load) := by
  cases m with
  | load => rfl
  | r => rfl
  | e1 => exact fill_e1 h
  | e2 => exact fill_e2 h
  | v1 => exact fill_v1 h ha
  | v2 => exact fill_v2 h ha
  | bothE => exact fill_bothE h ha

/-- The effective modulus that the solver works with. -/
theorem known_system (h : Mats e1 e2 v1 v2 E) (m : Missing) :
    knownEStar (system r e1 e2 v1 v2 load m) = .value (if unknown m = .eStar then none else some E) := by
  cases m <;> simp [knownEStar, system, unknown, h.eStarOf]

end materials

/-- The three ways of solving an equation whose roots are known. -/
theorem solveFor_target {q : Equation} {load E r : ℝ} (m : Missing)
    (e1 e2 v1 v2 : ℝ)
    (hL : IsGreatest {x | q.dom x E r ∧ q.expr x E r = 0} load)
    (hE : IsGreatest {x | q.dom load x r ∧ q.expr load x r = 0} E)
    (hR : IsGreatest {x | q.dom load E x ∧ q.expr load E x = 0} r) :
    solveFor (unknown m) q (system r e1 e2 v1 v2 load m).load (if unknown m = .eStar then none else some E)
      (system r e1 e2 v1 v2 load m).r = .value (target r E load (unknown m)) := by
  cases m <;> simp [unknown, solveFor, system, target, maxRoot_eq hL, maxRoot_eq hE, maxRoot_eq hR]

end Verif.Hertz
