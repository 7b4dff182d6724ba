import Mathlib.Data.Real.Archimedean
import Verif.Common

/-!
# The undeformed gap: model of `get_gap_from_model`, `slippy/contact/_model_utils.py` l.62-152

Arrays are given by their shape and a function of the indices (only the values inside of the shape matter). Numbers are real.
The interpolation mode `nearest` (`_Surface.interpolate`, `slippy/surface/Surface_class.py` l.1215-1219) is modelled; for the other
modes the interpolator is an arbitrary function of the point. The type check l.97-98 and the length of `off_set` (l.99-100) are not
modelled (the off set is a pair). `int32` overflow of the indices is not modelled.
-/

namespace Verif.Gap

open Verif

/-- A two dimensional array. -/
structure Arr where
  rows : Nat
  cols : Nat
  z : Nat → Nat → ℝ

/-- A discrete surface: profile and grid spacing. The extent is the shape times the grid spacing (Surface_class.py l.315-316, l.376). -/
structure Disc where
  profile : Arr
  gs : ℝ

noncomputable def Disc.extentY (s : Disc) : ℝ := s.gs * s.profile.rows
noncomputable def Disc.extentX (s : Disc) : ℝ := s.gs * s.profile.cols

/-- How the second surface is evaluated between its grid points. -/
inductive Mode
  | nearest
  | spline (f : ℝ → ℝ → ℝ)
  | unknown

/-- The second surface: not set, discrete, analytic (its height function), or neither. -/
inductive Second
  | missing
  | discrete (s : Disc) (mode : Mode)
  | analytic (height : ℝ → ℝ → ℝ)
  | neither

/-- Conversion to `int`: truncation. -/
noncomputable def trunc (x : ℝ) : ℤ := if 0 ≤ x then ⌊x⌋ else ⌈x⌉

/-- Indexing with one number: negative ones count from the end. -/
def pyIndex (n : Nat) (i : ℤ) : Except PyErr Nat :=
  if 0 ≤ i ∧ i < n then .ok i.toNat
  else if i < 0 ∧ 0 ≤ i + n then .ok (i + n).toNat
  else .error .indexError

/-- All values of `f` for numbers below `n`, or the first error. -/
def collect {α : Type} (f : Nat → Except PyErr α) : Nat → Except PyErr (List α)
  | 0 => .ok []
  | n + 1 =>
    match collect f n with
    | .error e => .error e
    | .ok l =>
      match f n with
      | .error e => .error e
      | .ok x => .ok (l ++ [x])

/-- `interpolate(y, x, mode)` on the grid of the points `y i`, `x j`, Surface_class.py l.1215-1234. -/
noncomputable def interpolate (s : Disc) (mode : Mode) (rows cols : Nat) (y x : Nat → ℝ) : Except PyErr Arr :=
  match mode with
  | .nearest =>
    -- the index arrays are empty if one of the shapes is zero
    if rows = 0 ∨ cols = 0 then .ok ⟨rows, cols, fun _ _ => 0⟩
    else
      match collect (fun i => pyIndex s.profile.rows (trunc (y i / s.gs))) rows,
            collect (fun j => pyIndex s.profile.cols (trunc (x j / s.gs))) cols with
      | .ok iy, .ok ix => .ok ⟨rows, cols, fun i j => s.profile.z (iy.getD i 0) (ix.getD j 0)⟩
      | _, _ => .error .indexError
  | .spline f => .ok ⟨rows, cols, fun i j => f (y i) (x j)⟩
  | .unknown => .error .valueError

/-- Broadcasting of one dimension. -/
def broadcast (m n : Nat) : Except PyErr Nat :=
  if m = n then .ok m else if m = 1 then .ok n else if n = 1 then .ok m else .error .valueError

/-- The index into a dimension of size `n` that is broadcast. -/
def sel (n i : Nat) : Nat := if n = 1 then 0 else i

/-- `-a - b`. -/
noncomputable def negSub (a b : Arr) : Except PyErr Arr :=
  match broadcast a.rows b.rows, broadcast a.cols b.cols with
  | .ok r, .ok c => .ok ⟨r, c, fun i j => -a.z (sel a.rows i) (sel a.cols j) - b.z (sel b.rows i) (sel b.cols j)⟩
  | _, _ => .error .valueError

/-- `a.flatten()`. -/
def Arr.flatten (a : Arr) : List ℝ := (List.range a.rows).flatMap (fun i => (List.range a.cols).map (fun j => a.z i j))

/-- Python's `min` of a list. -/
noncomputable def pyMin : List ℝ → Except PyErr ℝ
  | [] => .error .valueError
  | x :: rest => .ok (rest.foldl min x)

/-- `p -= min(p.flatten()) + interference`, l.139 and l.150. -/
noncomputable def shiftToTouch (p : Arr) (interference : ℝ) : Except PyErr Arr :=
  match pyMin p.flatten with
  | .error e => .error e
  | .ok m => .ok { p with z := fun i j => p.z i j - (m + interference) }

/-- `np.arange(a, b, s)` has this many items; item `i` is `a + i * s`. -/
noncomputable def arangeLength (a b s : ℝ) : Nat := (⌈(b - a) / s⌉).toNat

/-- `[start:stop]` of a dimension of size `n`: the first index and the number of items. -/
def pySlice (n : Nat) (start stop : ℤ) : Nat × Nat :=
  let fix (k : ℤ) : Nat := if k < 0 then (k + n).toNat else min k.toNat n
  (fix start, fix stop - fix start)

/-- `np.remainder(x, e)` for a positive `e`. -/
noncomputable def remainder (x e : ℝ) : ℝ := x - e * ⌊x / e⌋

/-- `np.finfo(float).eps` -/
noncomputable def eps : ℝ := 2 ^ (-52 : ℤ)

/-- `get_gap_from_model`: the point wise gap. The points are not returned. -/
noncomputable def getGap (s1 : Option Disc) (s2 : Second) (interference offY offX : ℝ) (periodic : Bool) : Except PyErr Arr :=
  match s2, s1 with
  | .missing, _ => .error .valueError          -- l.101-102
  | _, none => .error .valueError              -- l.103-104
  | .neither, some _ => .error .valueError     -- l.142-144
  | .analytic height, some s1 =>               -- l.146-150
    let p : Arr := ⟨s1.profile.rows, s1.profile.cols,
      fun i j => -height (i * s1.gs - offY) (j * s1.gs - offX) - s1.profile.z i j⟩
    shiftToTouch p interference
  | .discrete s2 mode, some s1 =>
    if periodic then                           -- l.109-114
      let y (i : Nat) := remainder (i * s1.gs - offY + eps * s1.extentY) s2.extentY
      let x (j : Nat) := remainder (j * s1.gs - offX + eps * s1.extentX) s2.extentX
      match interpolate s2 mode s1.profile.rows s1.profile.cols y x with
      | .error e => .error e
      | .ok sub2 =>
        match negSub sub2 s1.profile with
        | .error e => .error e
        | .ok p => if p.rows * p.cols = 0 then .error .valueError else shiftToTouch p interference
    else if s2.extentY < s1.extentY ∨ s2.extentX < s1.extentX then .error .valueError   -- l.116-120
    else
      let y0 := max (-offY) 0
      let y1 := min s1.extentY (s2.extentY - offY)
      let x0 := max (-offX) 0
      let x1 := min s1.extentX (s2.extentX - offX)
      let rows := arangeLength y0 y1 s1.gs
      let cols := arangeLength x0 x1 s1.gs
      let sy := pySlice s1.profile.rows (trunc (y0 / s1.gs)) (trunc (y1 / s1.gs))
      let sx := pySlice s1.profile.cols (trunc (x0 / s1.gs)) (trunc (x1 / s1.gs))
      let sub1 : Arr := ⟨sy.2, sx.2, fun i j => s1.profile.z (sy.1 + i) (sx.1 + j)⟩
      match interpolate s2 mode rows cols (fun i => y0 + i * s1.gs + offY) (fun j => x0 + j * s1.gs + offX) with
      | .error e => .error e
      | .ok sub2 =>
        match negSub sub2 sub1 with
        | .error e => .error e
        | .ok p => if p.rows * p.cols = 0 then .error .valueError else shiftToTouch p interference

end Verif.Gap
