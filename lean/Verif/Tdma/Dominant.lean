import Verif.Tdma.Props
import Verif.ReynoldsNew.Tri
import Mathlib.Data.Finset.Max

/-!
# C27 for diagonally dominant systems

For these the inner systems always have exactly one solution, so that no assumption about them is needed.
-/

namespace Verif.Tdma

open Verif.ReynoldsNew

/-- Each entry of the main diagonal is greater than the other two of its row together. -/
def Dominant (n : Nat) (lower main upper : Nat → ℝ) : Prop := ∀ i < n, |lower i| + |upper i| < |main i|

/-- A solver that solves each system that has exactly one solution. -/
def Exact (dgtsv : Dgtsv) : Prop :=
  ∀ n a b c f, (∃ x, SolvesTri n a b c x f ∧ ∀ y, SolvesTri n a b c y f → ∀ i < n, y i = x i) → SolvesTri n a b c (dgtsv n a b c f) f

/-- The entries of the inner system. -/
theorem inner_dominant {n : Nat} (hn : 3 ≤ n) {lower main upper : Nat → ℝ} (h : Dominant n lower main upper) (i : Nat) (hi : i < n) :
    (if i = 0 then 0 else |lower i|) + (if i + 1 = n then 0 else |upper i|) < |changedMain false n lower main upper i| := by
  have h0 := h 0 (by omega)
  have hp : 0 < |main 0| := by linarith [abs_nonneg (lower 0), abs_nonneg (upper 0)]
  have hm : main 0 ≠ 0 := abs_pos.1 hp
  have hg : gamma main = -main 0 := by unfold gamma; rw [if_pos hm]
  by_cases i0 : i = 0
  · subst i0
    rw [if_pos rfl, if_neg (by omega), changed_first n (by omega), hg, sub_neg_eq_add, ← two_mul, abs_mul, abs_two]
    linarith [abs_nonneg (lower 0), abs_nonneg (upper 0)]
  · by_cases il : i = n - 1
    · subst il
      have hl := h (n - 1) (by omega)
      rw [if_neg i0, if_pos (by omega), changed_last n (by omega), hg, div_neg, sub_neg_eq_add, add_zero]
      have hq : |lower 0 * upper (n - 1) / main 0| ≤ |upper (n - 1)| := by
        rw [abs_div, abs_mul, div_le_iff₀ hp, mul_comm]
        exact mul_le_mul_of_nonneg_left (by linarith [abs_nonneg (upper 0)]) (abs_nonneg _)
      have := abs_sub_abs_le_abs_sub (main (n - 1)) (-(lower 0 * upper (n - 1) / main 0))
      rw [abs_neg, sub_neg_eq_add] at this
      linarith
    · rw [if_neg i0, if_neg (by omega), changed_middle false n i i0 il]
      exact h i hi

theorem inner_pivot {n : Nat} (hn : 3 ≤ n) {lower main upper : Nat → ℝ} (h : Dominant n lower main upper) :
    ∀ k < n, (if k + 1 = n then 0 else |upper k|) < |pivot (fun i => lower (i + 1)) (changedMain false n lower main upper) upper k| := by
  intro k
  induction k with
  | zero =>
    intro hk
    have := inner_dominant hn h 0 hk
    rw [if_pos rfl, zero_add] at this
    exact this
  | succ k ih =>
    intro hk
    have hd := inner_dominant hn h (k + 1) hk
    have hp := ih (by omega)
    rw [if_neg (by omega)] at hp hd
    unfold pivot
    have hpos : 0 < |pivot (fun i => lower (i + 1)) (changedMain false n lower main upper) upper k| := lt_of_le_of_lt (abs_nonneg _) hp
    have hq : |lower (k + 1) * upper k / pivot (fun i => lower (i + 1)) (changedMain false n lower main upper) upper k| ≤ |lower (k + 1)| := by
      rw [abs_div, abs_mul, div_le_iff₀ hpos]
      exact mul_le_mul_of_nonneg_left hp.le (abs_nonneg _)
    have := abs_sub_abs_le_abs_sub (changedMain false n lower main upper (k + 1)) (lower (k + 1) * upper k / pivot (fun i => lower (i + 1)) (changedMain false n lower main upper) upper k)
    linarith

/-- The inner systems have exactly one solution. -/
theorem inner_one_solution {n : Nat} (hn : 3 ≤ n) {lower main upper : Nat → ℝ} (h : Dominant n lower main upper) (f : Nat → ℝ) :
    ∃ x, SolvesTri n (fun i => lower (i + 1)) (changedMain false n lower main upper) upper x f ∧
      ∀ y, SolvesTri n (fun i => lower (i + 1)) (changedMain false n lower main upper) upper y f → ∀ i < n, y i = x i := by
  have hp : ∀ k < n, pivot (fun i => lower (i + 1)) (changedMain false n lower main upper) upper k ≠ 0 := by
    intro k hk
    have := inner_pivot hn h k hk
    refine abs_pos.1 (lt_of_le_of_lt ?_ this)
    split_ifs
    · exact le_rfl
    · exact abs_nonneg _
  obtain ⟨x, hx⟩ := tri_exists f hp
  exact ⟨x, hx, fun y hy => tri_unique hp hy hx⟩

/-- A dominant cyclic system is regular. -/
theorem dominant_regular {n : Nat} (hn : 0 < n) {lower main upper : Nat → ℝ} (h : Dominant n lower main upper) : Regular n lower main upper := by
  intro x hx
  obtain ⟨m, hm, hmax⟩ := Finset.exists_max_image (Finset.range n) (fun i => |x i|) ⟨0, Finset.mem_range.2 hn⟩
  rw [Finset.mem_range] at hm
  have hrow := hx m hm
  have hd := h m hm
  have b1 : |x ((m + n - 1) % n)| ≤ |x m| := hmax _ (Finset.mem_range.2 (Nat.mod_lt _ hn))
  have b2 : |x ((m + 1) % n)| ≤ |x m| := hmax _ (Finset.mem_range.2 (Nat.mod_lt _ hn))
  have e : main m * x m = -(lower m * x ((m + n - 1) % n)) - upper m * x ((m + 1) % n) := by linarith
  have ha : |main m| * |x m| ≤ |lower m| * |x m| + |upper m| * |x m| := by
    rw [← abs_mul, e]
    refine (abs_sub _ _).trans ?_
    rw [abs_neg, abs_mul, abs_mul]
    exact add_le_add (mul_le_mul_of_nonneg_left b1 (abs_nonneg _)) (mul_le_mul_of_nonneg_left b2 (abs_nonneg _))
  have h0 : |x m| = 0 := by
    rcases (abs_nonneg (x m)).eq_or_lt with e | hp
    · exact e.symm
    · nlinarith
  intro i hi
  have := hmax i (Finset.mem_range.2 hi)
  rw [h0] at this
  exact abs_eq_zero.1 (le_antisymm this (abs_nonneg _))

/-- **C27**: for at least three unknowns and a diagonally dominant cyclic matrix the vector returned is the only solution of the cyclic system, whatever exact solver is used for the inner systems. -/
theorem C27_dominant (dgtsv : Dgtsv) (he : Exact dgtsv) (n : Nat) (hn : 3 ≤ n) (lower main upper rhs : Nat → ℝ) (h : Dominant n lower main upper) :
    SolvesCyclic n lower main upper (cyclicTdma dgtsv false false n lower main upper rhs).1 rhs ∧
    ∀ y, SolvesCyclic n lower main upper y rhs → ∀ i < n, y i = (cyclicTdma dgtsv false false n lower main upper rhs).1 i := by
  have hz := he n _ _ _ _ (inner_one_solution hn h (uVector false n main upper))
  have hs := C27_solves_cyclic_system_partial dgtsv n hn lower main upper rhs (he n _ _ _ _ (inner_one_solution hn h rhs)) hz
    (C27_correction_defined n hn lower main upper _ (dominant_regular (by omega) h) hz)
  refine ⟨hs, fun y hy i hi => ?_⟩
  have h0 : SolvesCyclic n lower main upper (fun i => y i - (cyclicTdma dgtsv false false n lower main upper rhs).1 i) (fun _ => 0) := by
    intro i hi
    have e1 := hy i hi
    have e2 := hs i hi
    beta_reduce
    linarith
  exact sub_eq_zero.1 (dominant_regular (by omega) h _ h0 i hi)

/-- Such systems and solvers exist: the matrix of the test in `test_cyclic_tdma.py` l.9-11. -/
example : (∃ dgtsv, Exact dgtsv) ∧ Dominant 4 (fun _ => -1) (fun _ => 4) (fun _ => -1) := by
  classical
  refine ⟨⟨fun n a b c f => if h : ∃ x, SolvesTri n a b c x f then h.choose else 0, fun n a b c f ⟨x, hx, _⟩ => ?_⟩, fun i _ => ?_⟩
  · have h : ∃ x, SolvesTri n a b c x f := ⟨x, hx⟩
    beta_reduce
    rw [dif_pos h]
    exact h.choose_spec
  · rw [abs_neg, abs_one, abs_of_pos (by norm_num : (0 : ℝ) < 4)]
    norm_num

end Verif.Tdma
