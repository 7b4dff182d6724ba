import Mathlib.Algebra.Order.Floor.Ring
import Mathlib.Algebra.Order.Floor.Semiring
import Mathlib.Data.Rat.Floor
import Mathlib.Tactic.FieldSimp
import Mathlib.Tactic.Ring
import Mathlib.Tactic.NormNum
import Mathlib.Tactic.Linarith
import Mathlib.Tactic.Positivity
import Verif.Common

/-!
# C45: interpolation at the nodes. Model of `_Surface.interpolate`, `slippy/surface/Surface_class.py` l.1193-1234

One point at a time (the method works element by element). Numbers are those of an ordered field. The spline made by `scipy` (`RectBivariateSpline(x0, y0, profile)`, whose first coordinate runs along the rows of the
profile) is an arbitrary function `ev` of the degree, the profile and spacing it was made from, and the point. The memoised interpolator is represented by these arguments. `int32` overflow is not modelled.
-/

namespace Verif.Interpolate

variable {K : Type} [Field K] [LinearOrder K] [IsStrictOrderedRing K] [FloorRing K]

/-- A two dimensional array. -/
structure Arr (K : Type) where
  rows : ℕ
  cols : ℕ
  val : ℕ → ℕ → K

/-- `profile`, `grid_spacing`, `_inter_func` (with its degree). -/
structure Surf (K : Type) where
  prof : Arr K
  gs : K
  inter : Option (ℕ × Arr K × K)

inductive Mode where
  | nearest | linear | cubic | other

/-- Conversion to `int32`. -/
def trunc (x : K) : ℤ := if 0 ≤ x then ⌊x⌋ else ⌈x⌉

/-- Indexing with one number: negative ones count from the end. -/
def pyIndex (n : ℕ) (i : ℤ) : Except PyErr ℕ :=
  if 0 ≤ i ∧ i < n then .ok i.toNat
  else if i < 0 ∧ 0 ≤ i + n then .ok (i + n).toNat
  else .error .indexError

/-- The spline: degree, profile, spacing, coordinates along the rows and the columns. -/
abbrev Spline (K : Type) := ℕ → Arr K → K → K → K → K

/-- `interpolate` with a spline of degree `k`, l.1220-1229, l.1234: the coordinate `x` is used as the first one. -/
def spline (ev : Spline K) (k : ℕ) (s : Surf K) (y x : K) (remake : Bool) : K × Surf K :=
  let it := match s.inter with
    | some it => if remake || it.1 ≠ k then (k, s.prof, s.gs) else it
    | none => (k, s.prof, s.gs)
  (ev it.1 it.2.1 it.2.2 x y, { s with inter := some it })

/-- `interpolate(y, x, mode, remake)`: the height, and the surface afterwards. -/
def interpolate (ev : Spline K) (s : Surf K) (y x : K) (mode : Mode) (remake : Bool) : Except PyErr (K × Surf K) :=
  match mode with
  | .nearest =>
    match pyIndex s.prof.rows (trunc (y / s.gs)), pyIndex s.prof.cols (trunc (x / s.gs)) with
    | .ok i, .ok j => .ok (s.prof.val i j, s)
    | _, _ => .error .indexError
  | .linear => .ok (spline ev 1 s y x remake)
  | .cubic => .ok (spline ev 3 s y x remake)
  | .other => .error .valueError

/-- `self.profile = p`, l.299-332 (`_inter_func` is kept). -/
def setProfile (s : Surf K) (p : Arr K) : Surf K := { s with prof := p }

theorem pyIndex_node (n i : ℕ) (g : K) (hg : 0 < g) (hi : i < n) : pyIndex n (trunc ((i : K) * g / g)) = .ok i := by
  have h1 : (i : K) * g / g = i := by field_simp
  have h2 : trunc (i : K) = i := by
    unfold trunc
    rw [if_pos (by positivity)]
    simp
  rw [h1, h2]
  unfold pyIndex
  rw [if_pos ⟨by omega, by omega⟩]; rfl

/-- **C45, nearest.** In the mode `nearest` the height at a node is the stored one, whatever happened to the surface before. -/
theorem C45_nearest (ev : Spline K) (s : Surf K) (i j : ℕ) (remake : Bool) (hg : 0 < s.gs) (hi : i < s.prof.rows) (hj : j < s.prof.cols) :
    interpolate ev s ((i : K) * s.gs) ((j : K) * s.gs) .nearest remake = .ok (s.prof.val i j, s) := by
  unfold interpolate
  simp only [pyIndex_node _ _ _ hg hi, pyIndex_node _ _ _ hg hj]

/-- The hypotheses can be met. -/
example : ∃ s : Surf ℚ, 0 < s.gs ∧ 1 < s.prof.rows ∧ 2 < s.prof.cols := ⟨⟨⟨2, 3, fun i j => i + j⟩, 1 / 2, none⟩, by norm_num, by norm_num, by norm_num⟩

/-- The spline goes through the points of the profile it was made from. -/
def ThroughNodes (ev : Spline K) : Prop :=
  ∀ (k : ℕ) (p : Arr K) (g : K) (i j : ℕ), 0 < g → i < p.rows → j < p.cols → ev k p g ((i : K) * g) ((j : K) * g) = p.val i j

/-- **C45 is false for splines: rows and columns are exchanged.** In the modes `linear` and `cubic` with a new interpolator, the height returned at the node in row `i` and column `j` is the one stored in row `j` and column `i`; it is the
right one exactly if the two are equal. -/
theorem C45_spline_exchanges (ev : Spline K) (hev : ThroughNodes ev) (s : Surf K) (i j : ℕ) (m : Mode) (hm : m = .linear ∨ m = .cubic) (hg : 0 < s.gs)
    (hi : i < s.prof.cols) (hj : j < s.prof.rows) :
    ∃ s', interpolate ev s ((i : K) * s.gs) ((j : K) * s.gs) m true = .ok (s.prof.val j i, s') := by
  rcases hm with rfl | rfl
  · refine ⟨{ s with inter := some (1, s.prof, s.gs) }, ?_⟩
    unfold interpolate spline
    cases s.inter <;> simp [hev _ _ _ _ _ hg hj hi]
  · refine ⟨{ s with inter := some (3, s.prof, s.gs) }, ?_⟩
    unfold interpolate spline
    cases s.inter <;> simp [hev _ _ _ _ _ hg hj hi]

/-- The hypotheses can be met, with different heights at the two points. -/
example : ∃ (ev : Spline ℚ) (s : Surf ℚ), ThroughNodes ev ∧ 0 < s.gs ∧ 0 < s.prof.cols ∧ 1 < s.prof.rows ∧ s.prof.val 0 1 ≠ s.prof.val 1 0 := by
  refine ⟨fun _ p g x y => p.val ⌊x / g⌋₊ ⌊y / g⌋₊, ⟨⟨2, 2, fun i _ => i⟩, 1, none⟩, ?_, by norm_num, by norm_num, by norm_num, by norm_num⟩
  intro k p g i j hg _ _
  have h1 : ∀ k : ℕ, (k : ℚ) * g / g = k := fun k => by field_simp
  simp [h1]

/-- **C45, splines (partial).** If the profile is symmetric, the surface has no memoised interpolator (or it is remade), and the spline goes through the nodes, the modes `linear` and `cubic` return the stored heights at the nodes. Missing: other
profiles, and memoised interpolators, for which the claim is false. -/
theorem C45_spline_symmetric_partial (ev : Spline K) (hev : ThroughNodes ev) (s : Surf K) (i j : ℕ) (m : Mode) (hm : m = .linear ∨ m = .cubic) (remake : Bool) (hg : 0 < s.gs)
    (hfresh : remake = true ∨ s.inter = none) (hsq : s.prof.rows = s.prof.cols) (hsym : ∀ i j, s.prof.val i j = s.prof.val j i) (hi : i < s.prof.rows) (hj : j < s.prof.cols) :
    ∃ s', interpolate ev s ((i : K) * s.gs) ((j : K) * s.gs) m remake = .ok (s.prof.val i j, s') := by
  have key : ∀ k, (spline ev k s ((i : K) * s.gs) ((j : K) * s.gs) remake).1 = s.prof.val i j := by
    intro k
    unfold spline
    rw [hsym i j, ← hev k s.prof s.gs j i hg (hsq ▸ hj) (hsq ▸ hi)]
    rcases hfresh with h | h
    · cases s.inter <;> simp [h]
    · simp [h]
  rcases hm with rfl | rfl
  · exact ⟨(spline ev 1 s ((i : K) * s.gs) ((j : K) * s.gs) remake).2, by rw [← key 1]; rfl⟩
  · exact ⟨(spline ev 3 s ((i : K) * s.gs) ((j : K) * s.gs) remake).2, by rw [← key 3]; rfl⟩

/-- The hypotheses can be met. -/
example : ∃ s : Surf ℚ, 0 < s.gs ∧ s.inter = none ∧ s.prof.rows = s.prof.cols ∧ (∀ i j, s.prof.val i j = s.prof.val j i) ∧ 1 < s.prof.rows :=
  ⟨⟨⟨2, 2, fun i j => i + j⟩, 1, none⟩, by norm_num, rfl, rfl, fun i j => add_comm _ _, by norm_num⟩

/-- **C45 is false after the profile was replaced.** Once the surface has been interpolated with a spline, a new profile has no influence on the heights found with the same mode (unless the interpolator is remade). -/
theorem C45_stale (ev : Spline K) (s : Surf K) (m : Mode) (hm : m = .linear ∨ m = .cubic) (y x y' x' : K) (q : Arr K) :
    ∃ z s1, interpolate ev s y x m false = .ok (z, s1) ∧
      (interpolate ev (setProfile s1 q) y' x' m false).map Prod.fst = (interpolate ev s1 y' x' m false).map Prod.fst := by
  have key : ∀ k, (spline ev k (setProfile (spline ev k s y x false).2 q) y' x' false).1 = (spline ev k (spline ev k s y x false).2 y' x' false).1 := by
    intro k
    have h1 : ∃ p g, (spline ev k s y x false).2.inter = some (k, p, g) := by
      unfold spline
      cases hs : s.inter with
      | none => exact ⟨_, _, rfl⟩
      | some it =>
        obtain ⟨k', p, g⟩ := it
        by_cases h : k' = k
        · subst h; exact ⟨p, g, by simp⟩
        · exact ⟨s.prof, s.gs, by simp [h]⟩
    obtain ⟨p, g, h1⟩ := h1
    generalize (spline ev k s y x false).2 = s1 at *
    unfold spline setProfile
    simp only [h1]
    simp
  rcases hm with rfl | rfl
  · exact ⟨(spline ev 1 s y x false).1, (spline ev 1 s y x false).2, rfl, congrArg Except.ok (key 1)⟩
  · exact ⟨(spline ev 3 s y x false).1, (spline ev 3 s y x false).2, rfl, congrArg Except.ok (key 3)⟩

example := C45_stale (fun _ p _ _ _ => p.val 0 0) (⟨⟨2, 3, fun i j => (i + j : ℚ)⟩, 1 / 2, none⟩ : Surf ℚ) .linear (Or.inl rfl) 0 0 (1 / 2) (1 / 2) ⟨2, 3, fun _ _ => 7⟩

end Verif.Interpolate
