import Mathlib.Tactic.NormNum
import Verif.InfMat.Lemmas
import Verif.Conv.Model

/-!
# Properties C10, C11: combination and symmetry of the elastic influence coefficients

The properties are stated entry by entry (integer offsets) and lifted to the filled matrix with `Verif.Conv.fillMatrix`.
-/

namespace Verif.InfMat

open Real

/-- The components that are not the tangential diagonal ones. -/
def OffDiagonalOrNormal (comp : String) : Prop :=
  comp = "zz" ∨ comp = "xz" ∨ comp = "zx" ∨ comp = "yx" ∨ comp = "xy" ∨ comp = "zy" ∨ comp = "yz"

/-- C10 (partial: not `xx`, `yy`, for which it is false, see below). The coefficient of the pair is the sum of the
coefficients of the two bodies. -/
theorem C10_pair_is_sum_partial (comp : String) (hc : OffDiagonalOrNormal comp) (hx hy G v G2 v2 : ℝ) (x y : ℤ) :
    ∃ a b, coefficient comp hx hy G v none none x y = some a ∧ coefficient comp hx hy G2 v2 none none x y = some b ∧
      coefficient comp hx hy G v (some G2) (some v2) x y = some (a + b) := by
  rcases hc with h | h | h | h | h | h | h <;> subst h <;>
    refine ⟨_, _, rfl, rfl, ?_⟩ <;> simp [coefficient] <;> ring

/-- The hypothesis of `C10_order_of_bodies_partial` too. -/
example : OffDiagonalOrNormal "zz" ∧ OffDiagonalOrNormal "zy" := by simp [OffDiagonalOrNormal]

/-- C10, the two tangential diagonal components: they are the sum of the two bodies' coefficients if the Poisson ratios
agree. -/
theorem C10_diagonal_equal_poisson (comp : String) (hc : comp = "xx" ∨ comp = "yy") (hx hy G v G2 : ℝ) (x y : ℤ) :
    ∃ a b, coefficient comp hx hy G v none none x y = some a ∧ coefficient comp hx hy G2 v none none x y = some b ∧
      coefficient comp hx hy G v (some G2) (some v) x y = some (a + b) := by
  rcases hc with h | h <;> subst h <;> refine ⟨_, _, rfl, rfl, ?_⟩ <;> simp [coefficient] <;> ring

example : ("yy" : String) = "xx" ∨ ("yy" : String) = "yy" := by simp

/-- C10, negation for `xx` and `yy`: at the loaded node the coefficient of a pair with different Poisson ratios is never
the sum of the two bodies' coefficients, for any positive spacings and non-zero second shear modulus. -/
theorem C10_diagonal_wrong_for_unequal_poisson (comp : String) (hc : comp = "xx" ∨ comp = "yy") (hx hy G v G2 v2 : ℝ)
    (phx : 0 < hx) (phy : 0 < hy) (hG2 : G2 ≠ 0) (hne : v ≠ v2) (a b : ℝ)
    (ha : coefficient comp hx hy G v none none 0 0 = some a) (hb : coefficient comp hx hy G2 v2 none none 0 0 = some b) :
    coefficient comp hx hy G v (some G2) (some v2) 0 0 ≠ some (a + b) := by
  have ht := termX_zero_pos
  have ht' : 0 < termY 0 0 := by rw [← termX_swap]; exact ht
  have hp := pi_pos.ne'
  intro h
  rcases hc with rfl | rfl
  · simp [coefficient] at ha hb h
    rw [← ha, ← hb] at h
    have : (v2 - v) * (hx * termX 0 0) = 0 := by
      field_simp at h
      rcases eq_or_ne G 0 with hG | hG
      · subst hG
        simp at h
        nlinarith
      · field_simp at h
        apply mul_left_cancel₀ hG
        linarith
    rcases mul_eq_zero.mp this with h1 | h1
    · exact hne (by linarith)
    · exact (mul_pos phx ht).ne' h1
  · simp [coefficient] at ha hb h
    rw [← ha, ← hb] at h
    have : (v2 - v) * (hy * termY 0 0) = 0 := by
      field_simp at h
      rcases eq_or_ne G 0 with hG | hG
      · subst hG
        simp at h
        nlinarith
      · field_simp at h
        apply mul_left_cancel₀ hG
        linarith
    rcases mul_eq_zero.mp this with h1 | h1
    · exact hne (by linarith)
    · exact (mul_pos phy ht').ne' h1

/-- Steel against polymer on a square grid. -/
example : ∃ a b, coefficient "xx" 1 1 80 (3 / 10) none none 0 0 = some a ∧
    coefficient "xx" 1 1 1 (2 / 5) none none 0 0 = some b := ⟨_, _, rfl, rfl⟩

/-- C10, negation of the rejection: giving one of the two parameters of the second material is not rejected, the request
is answered with the first material alone. -/
theorem C10_half_given_ignored (comp : String) (hx hy G v p : ℝ) (x y : ℤ) :
    coefficient comp hx hy G v (some p) none x y = coefficient comp hx hy G v none none x y ∧
      coefficient comp hx hy G v none (some p) x y = coefficient comp hx hy G v none none x y := ⟨rfl, rfl⟩

/-- C10, negation: there are half given requests that are answered with a number. -/
theorem C10_half_given_rejected_false :
    ¬ ∀ (comp : String) (hx hy G v p : ℝ) (x y : ℤ), coefficient comp hx hy G v (some p) none x y = none := by
  intro h
  have := h "zz" 1 1 1 0 1 0 0
  simp [coefficient] at this

/-- The components the function knows. -/
def Known (comp : String) : Prop := comp = "xx" ∨ comp = "yy" ∨ OffDiagonalOrNormal comp

/-- C10: exactly the nine components are answered; any other name gives `None`, without an exception. -/
theorem C10_components (comp : String) (hx hy G v : ℝ) (G2 v2 : Option ℝ) (x y : ℤ) :
    (coefficient comp hx hy G v G2 v2 x y).isSome ↔ Known comp := by
  unfold coefficient Known OffDiagonalOrNormal
  dsimp only
  split_ifs <;> simp <;> tauto

/-- C10: the coefficient of the pair does not depend on the order of the two materials, except for `xx` and `yy`. -/
theorem C10_order_of_bodies_partial (comp : String) (hc : OffDiagonalOrNormal comp) (hx hy G v G2 v2 : ℝ) (x y : ℤ) :
    coefficient comp hx hy G v (some G2) (some v2) x y = coefficient comp hx hy G2 v2 (some G) (some v) x y := by
  obtain ⟨a, b, ha, hb, hab⟩ := C10_pair_is_sum_partial comp hc hx hy G v G2 v2 x y
  obtain ⟨c, d, hc', hd, hcd⟩ := C10_pair_is_sum_partial comp hc hx hy G2 v2 G v x y
  rw [hab, hcd]
  rw [ha] at hd; rw [hb] at hc'
  simp only [Option.some.injEq] at hd hc' ⊢
  linarith

/-- C11: reversing the offset along x or along y leaves the normal coefficient unchanged. -/
theorem C11_reversal (hx hy G v : ℝ) (G2 v2 : Option ℝ) (x y : ℤ) :
    coefficient "zz" hx hy G v G2 v2 (-x) y = coefficient "zz" hx hy G v G2 v2 x y ∧
      coefficient "zz" hx hy G v G2 v2 x (-y) = coefficient "zz" hx hy G v G2 v2 x y := by
  simp [coefficient, termX_neg_x, termX_neg_y, termY_neg_x, termY_neg_y]

/-- C11: exchanging the axes (offsets and spacings together) leaves the normal coefficient unchanged. -/
theorem C11_exchange (hx hy G v : ℝ) (G2 v2 : Option ℝ) (x y : ℤ) :
    coefficient "zz" hx hy G v G2 v2 x y = coefficient "zz" hy hx G v G2 v2 y x := by
  simp only [coefficient, if_pos, termX_swap x y, ← termX_swap y x]
  rw [add_comm (hx * _)]

/-- C11, on the filled matrix: with an odd number of rows and columns the matrix equals its own mirror images. -/
theorem C11_matrix_mirror (p q : ℕ) (hx hy G v : ℝ) (i j : ℕ) (hi : i ≤ 2 * p) (hj : j ≤ 2 * q) (coef : ℤ → ℤ → ℝ)
    (hcoef : ∀ x y, coefficient "zz" hx hy G v none none x y = some (coef x y)) :
    Conv.fillMatrix (2 * p + 1) (2 * q + 1) coef (2 * p - i) j = Conv.fillMatrix (2 * p + 1) (2 * q + 1) coef i j ∧
      Conv.fillMatrix (2 * p + 1) (2 * q + 1) coef i (2 * q - j) = Conv.fillMatrix (2 * p + 1) (2 * q + 1) coef i j := by
  have e : ∀ (p i : ℕ), i ≤ 2 * p → Conv.offset (2 * p + 1) (2 * p - i) = -Conv.offset (2 * p + 1) i := by
    intro p i hi
    unfold Conv.offset
    omega
  have s1 : ∀ x y, coef x (-y) = coef x y := fun x y => by
    have := (C11_reversal hx hy G v none none x y).2
    rw [hcoef, hcoef] at this
    exact Option.some.inj this
  have s2 : ∀ x y, coef (-x) y = coef x y := fun x y => by
    have := (C11_reversal hx hy G v none none x y).1
    rw [hcoef, hcoef] at this
    exact Option.some.inj this
  simp only [Conv.fillMatrix]
  rw [e p i hi, e q j hj, s1, s2]
  exact ⟨rfl, rfl⟩

example : ∃ coef : ℤ → ℤ → ℝ, ∀ x y, coefficient "zz" 1 2 80 (3 / 10) none none x y = some (coef x y) :=
  ⟨_, fun _ _ => rfl⟩

end Verif.InfMat
