import Mathlib.Data.Real.Basic
import Verif.Common

/-!
# Surfaces with random frequencies: model of `slippy/surface/FFTBased.py` `ProbFreqSurface` (l.129-181) and `check_coords_are_simple` (l.387-415), with `slippy/surface/Surface_class.py` `_AnalyticalSurface.discretise` (l.1643-1661) and `get_points_from_extent` (l.1148-1175)

Random numbers, variances and the inverse transform after the first `np.linspace` of `_height` (l.168-177) are one arbitrary function. The meshes are arrays with two axes, or numbers.
-/

namespace Verif.ProbFreq

open Verif

/-- An array with two axes. -/
structure Mesh where
  rows : ℕ
  cols : ℕ
  val : ℕ → ℕ → ℝ

/-- An argument of `height`. -/
inductive Coord where
  | number (x : ℝ)
  | mesh (m : Mesh)

/-- What `==` does with arrays whose shapes do not fit: it depends on the version of numpy. -/
inductive Mismatch where
  | raises
  | isFalse

/-- A number of points for `np.linspace`. -/
inductive Num where
  | int (n : ℕ)
  | float (x : ℝ)

open Classical in
/-- The truth of `a == b`: an array of one result has one, larger ones are a `ValueError`. -/
noncomputable def truthEq (mm : Mismatch) (a b : Mesh) : Except PyErr Bool :=
  if (a.rows = b.rows ∨ a.rows = 1 ∨ b.rows = 1) ∧ (a.cols = b.cols ∨ a.cols = 1 ∨ b.cols = 1) then
    if max a.rows b.rows * max a.cols b.cols = 1 then .ok (decide (a.val 0 0 = b.val 0 0)) else .error .valueError
  else match mm with
    | .raises => .error .valueError
    | .isFalse => .ok false

open Classical in
/-- `check_coords_are_simple`, l.400-415; `close` is `np.allclose(difference, difference[0])`. -/
noncomputable def checkCoords (mm : Mismatch) (close : (ℕ → ℝ) → Bool) : Coord → Coord → Except PyErr (ℝ × ℝ × Num)
  | .number _, _ => .error .indexError
  | .mesh x, y =>
    if x.rows = 0 then .error .indexError
    else if x.cols ≤ 1 then .error .indexError
    else if close (fun j => x.val 0 (j + 1) - x.val 0 j) = false then .error .valueError
    else if x.val 0 0 ≠ 0 then .error .valueError
    else
      let xc : Mesh := ⟨x.cols, x.cols, fun _ j => x.val 0 j⟩
      let yc : Mesh := ⟨x.cols, x.cols, fun i _ => x.val 0 i⟩
      let stop : Except PyErr Bool :=
        match truthEq mm xc x with
        | .error e => .error e
        | .ok true => .ok false
        | .ok false => match y with
          | .number v => truthEq mm yc ⟨1, 1, fun _ _ => v⟩
          | .mesh y => truthEq mm yc y
      match stop with
      | .error e => .error e
      | .ok true => .error .valueError
      | .ok false =>
        let extent := x.val 0 (x.cols - 1)
        let gs := x.val 0 1 - x.val 0 0
        .ok (gs, extent, .float (extent / gs + 1))

/-- `np.linspace(0, qny, num)`: the number of points must be an integer. -/
def linspace (num : Num) : Except PyErr ℕ :=
  match num with
  | .int n => .ok n
  | .float _ => .error .typeError

/-- `_height`, l.163-177. -/
noncomputable def height (mm : Mismatch) (close : (ℕ → ℝ) → Bool) (rest : ℝ → ℝ → ℕ → Except PyErr Mesh) (x y : Coord) : Except PyErr Mesh :=
  match checkCoords mm close x y with
  | .error e => .error e
  | .ok (gs, extent, shape) => match linspace shape with
    | .error e => .error e
    | .ok n => rest gs extent n

/-- The part of a surface that `discretise` uses. -/
structure Surf where
  gs : Option ℝ
  /-- The shape belonging to the extent, if there is one. -/
  shape : Option (ℕ × ℕ)
  isDiscrete : Bool
  profile : Option Mesh

/-- `get_points_from_extent()`, l.1162-1175: the first mesh is constant along the rows. -/
noncomputable def points (g : ℝ) (n m : ℕ) : Mesh × Mesh := (⟨n, m, fun i _ => g * i⟩, ⟨n, m, fun _ j => g * j⟩)

/-- `_AnalyticalSurface.discretise`, l.1643-1661, for any method `height`: the result and the surface afterwards. -/
noncomputable def discretise (h : Coord → Coord → Except PyErr Mesh) (s : Surf) : Except PyErr Unit × Surf :=
  match s.gs with
  | none => (.error .attributeError, s)
  | some g => match s.shape with
    | none => (.error .attributeError, s)
    | some (n, m) =>
      let s := { s with isDiscrete := true }
      match h (.mesh (points g n m).1) (.mesh (points g n m).2) with
      | .error e => (.error e, s)
      | .ok p => (.ok (), { s with profile := some p })

/-- `ProbFreqSurface.rotate`, l.155-156. -/
def rotate : Except PyErr Unit := .error .notImplementedError

/-- `ProbFreqSurface.shift`, l.158-161. -/
def shift (given : Bool) : Except PyErr Unit := if given then .error .notImplementedError else .ok ()

end Verif.ProbFreq
