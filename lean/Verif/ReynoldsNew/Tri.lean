import Mathlib.Tactic.Linarith
import Mathlib.Tactic.Ring
import Mathlib.Tactic.FieldSimp
import Verif.Tdma.Spec

/-!
# Elimination in a tridiagonal system

If no pivot of the elimination without exchanges is zero the system has exactly one solution.
-/

namespace Verif.ReynoldsNew

open Verif Tdma

noncomputable section

/-- The pivots of the elimination. -/
def pivot (a b c : Nat → ℝ) : Nat → ℝ
  | 0 => b 0
  | k + 1 => b (k + 1) - a k * c k / pivot a b c k

/-- The right-hand side during the elimination. -/
def reduced (a b c f : Nat → ℝ) : Nat → ℝ
  | 0 => f 0
  | k + 1 => f (k + 1) - a k * reduced a b c f k / pivot a b c k

/-- Row `i` after the elimination. -/
def Upper (n : Nat) (a b c x f : Nat → ℝ) (i : Nat) : Prop :=
  pivot a b c i * x i + (if i + 1 = n then 0 else c i * x (i + 1)) = reduced a b c f i

theorem row_step {n i : Nat} {a b c x f : Nat → ℝ} (hn : i + 1 < n) (hp : pivot a b c i ≠ 0) (hu : Upper n a b c x f i) :
    (a i * x i + b (i + 1) * x (i + 1) + (if i + 1 + 1 = n then 0 else c (i + 1) * x (i + 1 + 1)) = f (i + 1)) ↔ Upper n a b c x f (i + 1) := by
  unfold Upper at *
  rw [if_neg (by omega)] at hu
  have hx : x i = (reduced a b c f i - c i * x (i + 1)) / pivot a b c i := by
    rw [eq_div_iff hp]
    linarith
  rw [hx]
  simp only [pivot, reduced]
  generalize (if i + 1 + 1 = n then 0 else c (i + 1) * x (i + 1 + 1)) = w
  have e : a i * ((reduced a b c f i - c i * x (i + 1)) / pivot a b c i) = a i * reduced a b c f i / pivot a b c i - a i * c i / pivot a b c i * x (i + 1) := by ring
  rw [e]
  constructor <;> intro h <;> linarith

theorem solves_iff {n : Nat} {a b c x f : Nat → ℝ} (hp : ∀ k < n, pivot a b c k ≠ 0) :
    SolvesTri n a b c x f ↔ ∀ i < n, Upper n a b c x f i := by
  constructor
  · intro h i
    induction i with
    | zero =>
      intro hi
      have := h 0 hi
      simpa [Upper, pivot, reduced] using this
    | succ i ih =>
      intro hi
      have := h (i + 1) hi
      rw [if_neg (by omega)] at this
      exact (row_step hi (hp i (by omega)) (ih (by omega))).mp this
  · intro h i hi
    match i with
    | 0 =>
      have := h 0 hi
      simpa [Upper, pivot, reduced] using this
    | i + 1 =>
      rw [if_neg (by omega)]
      exact (row_step hi (hp i (by omega)) (h i (by omega))).mpr (h (i + 1) hi)

theorem tri_unique {n : Nat} {a b c f x y : Nat → ℝ} (hp : ∀ k < n, pivot a b c k ≠ 0) (hx : SolvesTri n a b c x f) (hy : SolvesTri n a b c y f) :
    ∀ i < n, x i = y i := by
  rw [solves_iff hp] at hx hy
  have : ∀ m i, i < n → n = i + 1 + m → x i = y i := by
    intro m
    induction m with
    | zero =>
      intro i hi e
      have h1 := hx i hi
      have h2 := hy i hi
      unfold Upper at h1 h2
      rw [if_pos (by omega)] at h1 h2
      exact mul_left_cancel₀ (hp i hi) (by linarith)
    | succ m ih =>
      intro i hi e
      have h1 := hx i hi
      have h2 := hy i hi
      unfold Upper at h1 h2
      rw [if_neg (by omega)] at h1 h2
      rw [ih (i + 1) (by omega) (by omega)] at h1
      exact mul_left_cancel₀ (hp i hi) (by linarith)
  exact fun i hi => this (n - i - 1) i hi (by omega)

theorem tri_exists {n : Nat} {a b c : Nat → ℝ} (f : Nat → ℝ) (hp : ∀ k < n, pivot a b c k ≠ 0) : ∃ x, SolvesTri n a b c x f := by
  have : ∀ m ≤ n, ∃ x : Nat → ℝ, ∀ i < n, n - m ≤ i → Upper n a b c x f i := by
    intro m
    induction m with
    | zero => exact fun _ => ⟨fun _ => 0, fun i h1 h2 => by omega⟩
    | succ m ih =>
      intro hm
      obtain ⟨x, hx⟩ := ih (by omega)
      refine ⟨Function.update x (n - m - 1) ((reduced a b c f (n - m - 1) - (if n - m - 1 + 1 = n then 0 else c (n - m - 1) * x (n - m - 1 + 1))) /
        pivot a b c (n - m - 1)), fun i h1 h2 => ?_⟩
      unfold Upper
      rw [Function.update_of_ne (by omega : i + 1 ≠ n - m - 1)]
      by_cases h : i = n - m - 1
      · subst h
        rw [Function.update_self, mul_div_cancel₀ _ (hp _ h1)]
        ring
      · rw [Function.update_of_ne h]
        exact hx i h1 (by omega)
  obtain ⟨x, hx⟩ := this n le_rfl
  exact ⟨x, (solves_iff hp).mpr fun i hi => hx i hi (by omega)⟩

end

end Verif.ReynoldsNew
