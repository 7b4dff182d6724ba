import Mathlib.MeasureTheory.Integral.IntervalIntegral.Basic
import Mathlib.Analysis.SpecialFunctions.Integrals.Basic
import Verif.Common

/-!
# The low pass filter: model of `slippy/surface/roughness_funcs.py` `_check_surface` (l.18-29) and `low_pass_filter` (l.704-756), and of `slippy/surface/Surface_class.py` `_Surface.low_pass_filter` (l.687-696)

Profiles have two axes and are not empty. `scipy.special.j1` is the Bessel function, defined by Poisson's integral; `scipy.signal.convolve2d` is the sum of its documentation.
-/

namespace Verif.LowPass

open Verif

noncomputable section

/-- The Bessel function of the first kind of order one. -/
def besselJ1 (x : ℝ) : ℝ := x / Real.pi * ∫ t in (0 : ℝ)..Real.pi, Real.cos (x * Real.cos t) * Real.sin t ^ 2

/-- A profile with `n` rows and `m` columns. -/
structure Profile where
  n : ℕ
  m : ℕ
  val : ℕ → ℕ → ℝ

/-- A grid spacing. -/
inductive Spacing where
  | fin (g : ℝ)
  | inf

/-- What is filtered: an array, or a surface with its grid spacing. -/
inductive Source where
  | array (p : Profile)
  | surface (p : Profile) (gs : Option ℝ)

/-- `_check_surface`, l.18-29. -/
def checkSurface : Source → Option Spacing → Profile × Option Spacing
  | .surface p gs, none | .surface p gs, some .inf => (p, gs.map .fin)
  | .surface p _, some g => (p, some g)
  | .array p, g => (p, g)

/-- `distance_to_centre[r, c]`, l.746-750: the first index of the meshes belongs to `y`. -/
def distance (r c : ℕ) : ℝ := Real.sqrt (((c + 1 : ℕ) : ℝ) ^ 2 + ((r + 1 : ℕ) : ℝ) ^ 2)

/-- `h[r, c]`, l.753, with `ratio = wc / ws`. -/
def kernel (ratio : ℝ) (r c : ℕ) : ℝ := ratio * besselJ1 (2 * Real.pi * ratio * distance r c) / distance r c

/-- `scipy.signal.convolve2d(p, h, 'same')`, l.754, for a kernel with `hn` rows and `hm` columns: the entries of the full convolution from `((hn - 1) // 2, (hm - 1) // 2)` on. -/
def convolveSame (p : Profile) (hn hm : ℕ) (h : ℕ → ℕ → ℝ) (i j : ℕ) : ℝ :=
  ∑ a ∈ Finset.range p.n, ∑ b ∈ Finset.range p.m,
    if a ≤ i + (hn - 1) / 2 ∧ i + (hn - 1) / 2 - a < hn ∧ b ≤ j + (hm - 1) / 2 ∧ j + (hm - 1) / 2 - b < hm
      then p.val a b * h (i + (hn - 1) / 2 - a) (j + (hm - 1) / 2 - b) else 0

/-- `wc / ws`, l.751-752. -/
def ratioOf (cut : ℝ) : Spacing → Except PyErr ℝ
  | .inf => .error .zeroDivisionError
  | .fin g => if g = 0 then .error .zeroDivisionError else .ok (cut * 2 * Real.pi / (2 * Real.pi / g))

/-- `low_pass_filter`, l.740-756. The kernel has as many rows as the profile has columns. -/
def lowPassFilter (src : Source) (cut : ℝ) (gs : Option Spacing) : Except PyErr Profile :=
  match checkSurface src gs with
  | (_, none) => .error .valueError
  | (p, some g) => match ratioOf cut g with
    | .error e => .error e
    | .ok ratio => .ok ⟨p.n, p.m, convolveSame p p.m p.n (kernel ratio)⟩

/-- `_Surface.low_pass_filter`, l.687-696: what is returned and the profile afterwards. -/
def method (p : Profile) (gs : Option ℝ) (cut : ℝ) (returnCopy : Bool) : Except PyErr (Option Profile) × Profile :=
  match lowPassFilter (.surface p gs) cut none with
  | .error e => (.error e, p)
  | .ok q => if returnCopy then (.ok (some q), p) else (.ok none, q)

end

end Verif.LowPass
