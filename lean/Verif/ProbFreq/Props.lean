import Mathlib.Tactic.Linarith
import Verif.ProbFreq.Model

/-!
# Property C122: surfaces with random frequencies can be discretised
-/

namespace Verif.ProbFreq

open Verif

/-- C122: `height` of a `ProbFreqSurface` is an exception for all coordinates, whatever numpy does with shapes that do not fit, whatever points are taken as evenly spaced and whatever the rest of the method does. -/
theorem C122_height_wrong (mm : Mismatch) (close : (ℕ → ℝ) → Bool) (rest : ℝ → ℝ → ℕ → Except PyErr Mesh) (x y : Coord) :
    ∃ e, height mm close rest x y = .error e ∧ (e = .indexError ∨ e = .valueError ∨ e = .typeError) := by
  have key : ∀ z, checkCoords mm close x y = .ok z → ∃ v, z.2.2 = .float v := by
    intro z hz
    unfold checkCoords at hz
    split at hz
    · cases hz
    · split_ifs at hz
      dsimp only at hz
      split at hz
      · cases hz
      · cases hz
      · injection hz with hz
        exact ⟨_, by rw [← hz]⟩
  have key2 : ∀ e, checkCoords mm close x y = .error e → e = .indexError ∨ e = .valueError := by
    have ht : ∀ a b e, truthEq mm a b = .error e → e = .valueError := by
      intro a b e h
      unfold truthEq at h
      split at h
      · split at h
        · cases h
        · injection h with h; exact h.symm
      · split at h
        · injection h with h; exact h.symm
        · cases h
    intro e he
    unfold checkCoords at he
    split at he
    · injection he with he; exact .inl he.symm
    · split_ifs at he
      · injection he with he; exact .inl he.symm
      · injection he with he; exact .inl he.symm
      · injection he with he; exact .inr he.symm
      · injection he with he; exact .inr he.symm
      · dsimp only at he
        split at he
        · rename_i h
          injection he with he
          subst he
          split at h
          · rename_i h'; injection h with h; subst h; exact .inr (ht _ _ _ h')
          · cases h
          · split at h
            · exact .inr (ht _ _ _ h)
            · exact .inr (ht _ _ _ h)
        · injection he with he; exact .inr he.symm
        · cases he
  unfold height
  cases h : checkCoords mm close x y with
  | error e => exact ⟨e, rfl, (key2 e h).imp_right .inl⟩
  | ok z =>
    obtain ⟨gs, extent, shape⟩ := z
    obtain ⟨v, hv⟩ := key _ h
    dsimp only at hv
    subst hv
    exact ⟨.typeError, rfl, .inr (.inr rfl)⟩

/-- C122: discretising (or making with `generate=True`) a `ProbFreqSurface` always fails, and leaves a surface that calls itself discrete but has no profile. -/
theorem C122_discretise_wrong (mm : Mismatch) (close : (ℕ → ℝ) → Bool) (rest : ℝ → ℝ → ℕ → Except PyErr Mesh) (s : Surf) :
    ∃ e, discretise (height mm close rest) s = (.error e, { s with isDiscrete := s.isDiscrete || (s.gs.isSome && s.shape.isSome) }) := by
  unfold discretise
  cases hg : s.gs with
  | none => exact ⟨.attributeError, by obtain ⟨_, _, _, _⟩ := s; dsimp only at hg; subst hg; simp⟩
  | some g =>
    cases hs : s.shape with
    | none => exact ⟨.attributeError, by obtain ⟨_, _, _, _⟩ := s; dsimp only at hg hs; subst hg hs; simp⟩
    | some nm =>
      obtain ⟨n, m⟩ := nm
      obtain ⟨e, he, -⟩ := C122_height_wrong mm close rest (.mesh (points g n m).1) (.mesh (points g n m).2)
      refine ⟨e, ?_⟩
      dsimp only
      rw [he]
      simp [hg]

/-- C122: on a square grid of at least 2 x 2 points the exception is the `ValueError` of the comparison, also for the simple coordinates the check asks for. -/
theorem C122_square_wrong (mm : Mismatch) (close : (ℕ → ℝ) → Bool) (rest : ℝ → ℝ → ℕ → Except PyErr Mesh) (n : ℕ) (hn : 2 ≤ n) (x y : Mesh) (hr : x.rows = n) (hc : x.cols = n) :
    height mm close rest (.mesh x) (.mesh y) = .error .valueError := by
  have ht : truthEq mm ⟨x.cols, x.cols, fun _ j => x.val 0 j⟩ x = .error .valueError := by
    unfold truthEq
    rw [if_pos (by simp [hr, hc]), if_neg (by simp only [hr, hc, max_self]; nlinarith)]
  unfold height checkCoords
  dsimp only
  rw [if_neg (by omega), if_neg (by omega)]
  split_ifs
  · rfl
  · rfl
  · rw [ht]

/-- C122, what does hold: an analytical surface with any height function that gives a result is discretised with these heights at the points of its grid, and marked as discrete. -/
theorem C122_discretise_partial (h : Coord → Coord → Except PyErr Mesh) (s : Surf) (g : ℝ) (n m : ℕ) (hg : s.gs = some g) (hs : s.shape = some (n, m)) (p : Mesh)
    (hp : h (.mesh ⟨n, m, fun i _ => g * i⟩) (.mesh ⟨n, m, fun _ j => g * j⟩) = .ok p) :
    discretise h s = (.ok (), { s with isDiscrete := true, profile := some p }) := by
  unfold discretise points
  rw [hg, hs]
  dsimp only
  rw [hp]

/-- Concrete cases: a 2 x 2 grid, and a height function that works. -/
example : height .isFalse (fun _ => true) (fun _ _ _ => .ok ⟨0, 0, fun _ _ => 0⟩) (.mesh ⟨2, 2, fun _ j => j⟩) (.mesh ⟨2, 2, fun i _ => i⟩) = .error .valueError :=
  C122_square_wrong _ _ _ 2 le_rfl _ _ rfl rfl

example : (discretise (fun x _ => match x with | .mesh m => .ok m | .number _ => .error .typeError) ⟨some 1, some (2, 3), false, none⟩).1 = .ok () := rfl

end Verif.ProbFreq
