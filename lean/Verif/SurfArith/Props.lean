import Verif.SurfArith.Model
import Mathlib.Tactic.FieldSimp
import Mathlib.Tactic.Ring
import Mathlib.Tactic.NormNum
import Mathlib.Tactic.Linarith

/-! # C42, C71: arithmetic of surfaces -/

namespace Verif.SurfArith

variable {K : Type} [Field K] [LinearOrder K] [IsStrictOrderedRing K] [FloorRing K]

/-- The result is defined on the common part, and its height at every node of it is given by `f`. -/
def OnCommonPart (r : Surf K) (rows cols : ℕ) (f : ℕ → ℕ → K) : Prop := r.prof.rows = rows ∧ r.prof.cols = cols ∧ ∀ i j, r.prof.val i j = f i j

/-- **C42, equal spacing.** The sum and the difference of two surfaces whose grid spacings are equal, or not both known, are the sum and the difference of the heights at
every node of the common part; the known spacing is kept, and the surfaces are not changed. -/
theorem C42_equal_spacing (ev : Spline K) (s t : Surf K) (h : s.gs = t.gs ∨ s.gs = none ∨ t.gs = none) :
    OnCommonPart (add ev s t).1 (min s.prof.rows t.prof.rows) (min s.prof.cols t.prof.cols) (fun i j => s.prof.val i j + t.prof.val i j) ∧
    OnCommonPart (sub ev s t).1 (min s.prof.rows t.prof.rows) (min s.prof.cols t.prof.cols) (fun i j => s.prof.val i j - t.prof.val i j) ∧
    (add ev s t).1.gs = s.gs.or t.gs ∧ (sub ev s t).1.gs = s.gs.or t.gs ∧ (add ev s t).2 = (s, t) ∧ (sub ev s t).2 = (s, t) := by
  have hc : common ev s t = (s.prof, t.prof, s.gs.or t.gs, s, t) := by
    unfold common
    cases hs : s.gs <;> cases ht : t.gs
    · rfl
    · rfl
    · rfl
    · rw [hs, ht] at h
      simp only [Option.some.injEq, reduceCtorEq, or_false] at h
      simp [h]
  unfold add sub
  rw [hc]
  exact ⟨⟨rfl, rfl, fun _ _ => rfl⟩, ⟨rfl, rfl, fun _ _ => rfl⟩, rfl, rfl, rfl, rfl⟩

/-- The hypothesis can be met with different shapes. -/
example : ∃ s t : Surf ℚ, (s.gs = t.gs ∨ s.gs = none ∨ t.gs = none) ∧ s.prof.rows ≠ t.prof.rows :=
  ⟨mk ⟨2, 3, fun _ _ => 1⟩ (some 1), mk ⟨4, 1, fun _ _ => 1⟩ (some 1), .inl rfl, by decide⟩

/-- The number of points at multiples of `new` in `[0, n * g)`. -/
theorem ceil_count (n : ℕ) (g new : K) (hg : 0 < g) (hn : 0 < new) (i : ℕ) : i < ⌈(n : K) * g / new⌉.toNat ↔ (i : K) * new < (n : K) * g := by
  rw [Int.lt_toNat, Int.lt_ceil, lt_div_iff₀ hn]; push_cast; exact Iff.rfl

/-- **C42, different spacing.** If the second surface is the coarser one and has no memoised interpolator, the sum has the spacing of the first one; its height at the node `(i, j)` is the height of the
first surface plus the value of the spline through the second one at that place; the nodes of the sum are those of the first surface that lie on the second one. If the
spline goes through the points of the profile, the height at a place which is a node of both is the sum of the two heights there. -/
theorem C42_different_spacing (ev : Spline K) (s t : Surf K) (g h : K) (hs : s.gs = some g) (ht : t.gs = some h) (hg : 0 < g) (hlt : g < h)
    (hfresh : t.inter = none) :
    (add ev s t).1.gs = some g ∧ (∀ i j, (add ev s t).1.prof.val i j = s.prof.val i j + ev t.prof h ((i : K) * g) ((j : K) * g)) ∧
    (∀ i, i < (add ev s t).1.prof.rows ↔ i < s.prof.rows ∧ (i : K) * g < (t.prof.rows : K) * h) ∧
    (∀ j, j < (add ev s t).1.prof.cols ↔ j < s.prof.cols ∧ (j : K) * g < (t.prof.cols : K) * h) ∧
    ((∀ (p : Arr K) (i j : ℕ), i < p.rows → j < p.cols → ev p h ((i : K) * h) ((j : K) * h) = p.val i j) →
      ∀ i j k l : ℕ, k < t.prof.rows → l < t.prof.cols → (i : K) * g = (k : K) * h → (j : K) * g = (l : K) * h →
        (add ev s t).1.prof.val i j = s.prof.val i j + t.prof.val k l) := by
  have hc : common ev s t = (s.prof, (resample ev t h g).1, some g, s, (resample ev t h g).2) := by
    unfold common; simp only [hs, ht, if_neg (ne_of_lt hlt), if_pos hlt]
  have hv : ∀ i j, (add ev s t).1.prof.val i j = s.prof.val i j + ev t.prof h ((i : K) * g) ((j : K) * g) := by
    intro i j; unfold add; rw [hc]; simp only [mk, combine, resample, hfresh, Option.getD_none]
  refine ⟨by unfold add; rw [hc]; rfl, hv, fun i => ?_, fun j => ?_, fun hev i j k l hk hl e1 e2 => ?_⟩
  · unfold add; rw [hc]
    simp only [mk, combine, resample, hfresh, Option.getD_none, lt_min_iff, ceil_count _ h g (hg.trans hlt) hg]
  · unfold add; rw [hc]
    simp only [mk, combine, resample, hfresh, Option.getD_none, lt_min_iff, ceil_count _ h g (hg.trans hlt) hg]
  · rw [hv, e1, e2, hev _ _ _ hk hl]

/-- The hypotheses can be met: the spline that is the nearest value to the lower left. -/
example : ∃ (ev : Spline ℚ) (s t : Surf ℚ), s.gs = some 1 ∧ t.gs = some 2 ∧ t.inter = none ∧
    ∀ (p : Arr ℚ) (i j : ℕ), i < p.rows → j < p.cols → ev p 2 ((i : ℚ) * 2) ((j : ℚ) * 2) = p.val i j :=
  ⟨fun p g x y => p.val ⌊x / g⌋₊ ⌊y / g⌋₊, mk ⟨4, 4, fun _ _ => 1⟩ (some 1), mk ⟨2, 2, fun _ _ => 1⟩ (some 2), rfl, rfl, rfl, by simp⟩

/-- **C42, the order does not matter.** `s + t` and `t + s` are the same surface. -/
theorem C42_add_comm (ev : Spline K) (s t : Surf K) : (add ev s t).1 = (add ev t s).1 := by
  have hcomb : ∀ p q : Arr K, combine (fun a b => a + b) p q = combine (fun a b => a + b) q p := by
    intro p q; simp only [combine, min_comm, add_comm]
  unfold add common
  cases hs : s.gs <;> cases ht : t.gs
  · simp only [hcomb s.prof]
  · simp only [hcomb s.prof]
  · simp only [hcomb s.prof]
  · rename_i g h
    rcases lt_trichotomy g h with hlt | heq | hgt
    · simp only [if_neg (ne_of_lt hlt), if_pos hlt, if_neg (ne_of_gt hlt), if_neg (not_lt_of_gt hlt)]
      rw [hcomb]
    · simp only [heq, if_true]; rw [hcomb]
    · simp only [if_neg (ne_of_gt hgt), if_neg (not_lt_of_gt hgt), if_neg (ne_of_lt hgt), if_pos hgt]
      rw [hcomb]

/-- **C42, numbers.** Adding a number raises, and multiplying scales, the height at every node. -/
theorem C42_add_mul_number (s : Surf K) (c : K) :
    OnCommonPart (addNumber s c) s.prof.rows s.prof.cols (fun i j => s.prof.val i j + c) ∧ (addNumber s c).gs = s.gs ∧
    OnCommonPart (mulNumber s c) s.prof.rows s.prof.cols (fun i j => s.prof.val i j * c) ∧ (mulNumber s c).gs = s.gs :=
  ⟨⟨rfl, rfl, fun _ _ => rfl⟩, rfl, ⟨rfl, rfl, fun _ _ => rfl⟩, rfl⟩

/-- **C42 is false for the subtraction of numbers.** Subtracting a number raises the profile by it. It lowers the profile by the number only if the number is zero; adding and then subtracting a
number is the identity only if the number is zero. -/
theorem C42_subtract_number_adds (s : Surf K) (c : K) :
    (∀ i j, (subNumber s c).prof.val i j = s.prof.val i j + c) ∧
    ((∀ i j, (subNumber s c).prof.val i j = s.prof.val i j - c) ↔ c = 0) ∧
    ((∀ i j, (subNumber (addNumber s c) c).prof.val i j = s.prof.val i j) ↔ c = 0) := by
  refine ⟨fun _ _ => rfl, ⟨fun h => ?_, fun h i j => ?_⟩, ⟨fun h => ?_, fun h i j => ?_⟩⟩
  · have := h 0 0
    simp only [subNumber, mk] at this
    linarith
  · simp [subNumber, mk, h]
  · have := h 0 0
    simp only [subNumber, addNumber, mk] at this
    linarith
  · simp [subNumber, addNumber, mk, h]

/-- **C71 is false.** Once a surface has been resampled, the sum with a finer surface uses the profile it had then: a new profile has no influence. -/
theorem C71_stale_profile (ev : Spline K) (s t u : Surf K) (g h : K) (hs : s.gs = some g) (ht : t.gs = some h) (hlt : g < h) (hu : u.gs = some g) (q : Arr K) :
    let t' := (add ev s t).2.2
    (add ev u (setProfile t' q)).1 = (add ev u t').1 := by
  have hc : ∀ (s t : Surf K), s.gs = some g → t.gs = some h → common ev s t = (s.prof, (resample ev t h g).1, some g, s, (resample ev t h g).2) := by
    intro s t hs ht; unfold common; simp only [hs, ht, if_neg (ne_of_lt hlt), if_pos hlt]
  have ht' : (add ev s t).2.2 = (resample ev t h g).2 := by unfold add; rw [hc s t hs ht]
  have hgs : (resample ev t h g).2.gs = some h := ht
  simp only [ht']
  unfold add
  rw [hc u _ hu (show (setProfile (resample ev t h g).2 q).gs = some h from ht), hc u _ hu hgs]
  simp only [setProfile, resample, Option.getD_some]

/-- A concrete case: the profile of the second surface is raised by 7 and the sum stays as it was, though at the node 0 it should change. -/
example : ∃ (ev : Spline ℚ) (s t : Surf ℚ), s.gs = some 1 ∧ t.gs = some 2 ∧
    (∀ (p : Arr ℚ) (g : ℚ) (i j : ℕ), 0 < g → i < p.rows → j < p.cols → ev p g ((i : ℚ) * g) ((j : ℚ) * g) = p.val i j) ∧
    (add ev s (setProfile (add ev s t).2.2 ⟨2, 2, fun _ _ => 8⟩)).1.prof.val 0 0 = 2 ∧ s.prof.val 0 0 + (8 : ℚ) = 9 := by
  refine ⟨fun p g x y => p.val ⌊x / g⌋₊ ⌊y / g⌋₊, mk ⟨4, 4, fun _ _ => 1⟩ (some 1), mk ⟨2, 2, fun _ _ => 1⟩ (some 2), rfl, rfl, ?_, ?_, ?_⟩
  · intro p g i j hg _ _
    have h1 : ∀ k : ℕ, (k : ℚ) * g / g = k := fun k => by field_simp
    simp [h1]
  · norm_num [add, common, mk, resample, setProfile, combine]
  · norm_num [mk]

/-- **C71, what holds.** If neither surface has a memoised interpolator, the sum is that of the present profiles (with the spline through the coarser one). -/
theorem C71_fresh_partial (ev : Spline K) (s t : Surf K) (hs : s.inter = none) (ht : t.inter = none) :
    ∃ p q : Arr K, (p = s.prof ∨ ∃ g h, s.gs = some g ∧ t.gs = some h ∧ h < g ∧ p.val = fun i j : ℕ => ev s.prof g ((i : K) * h) ((j : K) * h)) ∧
      (q = t.prof ∨ ∃ g h, s.gs = some g ∧ t.gs = some h ∧ g < h ∧ q.val = fun i j : ℕ => ev t.prof h ((i : K) * g) ((j : K) * g)) ∧
      ∀ i j, (add ev s t).1.prof.val i j = p.val i j + q.val i j := by
  refine ⟨(common ev s t).1, (common ev s t).2.1, ?_, ?_, fun _ _ => rfl⟩
  · unfold common
    cases hgs : s.gs <;> cases hgt : t.gs
    · exact .inl rfl
    · exact .inl rfl
    · exact .inl rfl
    · rename_i g h
      rcases lt_trichotomy g h with hlt | heq | hgt
      · simp [ne_of_lt hlt, hlt]
      · simp [heq]
      · simp only [if_neg (ne_of_gt hgt), if_neg (not_lt_of_gt hgt)]
        exact .inr ⟨g, h, rfl, rfl, hgt, by simp [resample, hs]⟩
  · unfold common
    cases hgs : s.gs <;> cases hgt : t.gs
    · exact .inl rfl
    · exact .inl rfl
    · exact .inl rfl
    · rename_i g h
      rcases lt_trichotomy g h with hlt | heq | hgt
      · simp only [if_neg (ne_of_lt hlt), if_pos hlt]
        exact .inr ⟨g, h, rfl, rfl, hlt, by simp [resample, ht]⟩
      · simp [heq]
      · simp [ne_of_gt hgt, not_lt_of_gt hgt]

/-- The hypotheses can be met. -/
example : ∃ s t : Surf ℚ, s.inter = none ∧ t.inter = none ∧ s.gs ≠ t.gs :=
  ⟨mk ⟨4, 4, fun _ _ => 1⟩ (some 1), mk ⟨2, 2, fun _ _ => 1⟩ (some 2), rfl, rfl, by simp [mk]⟩

end Verif.SurfArith
