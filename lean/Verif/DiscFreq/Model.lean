import Mathlib.Analysis.SpecialFunctions.Complex.Circle
import Verif.Common

/-!
# Surfaces of discrete frequencies: model of `DiscFreqSurface`, `slippy/surface/FFTBased.py` l.85-122

Real and complex numbers stand for floats. The phases and amplitudes are sequences of any type with `len` and indexing. Placement of the surface (shift, rotation) belongs to `_AnalyticalSurface`.
-/

namespace Verif.DiscFreq

/-- An amplitude: a Python `complex`, or any other number (real numbers and numpy complex numbers, whose type is not `complex`). -/
inductive Amp where
  | cplx (z : ℂ)
  | other (z : ℂ)

/-- The number. -/
def Amp.val : Amp → ℂ
  | .cplx z => z
  | .other z => z

/-- `type(amp) is complex`, l.96. -/
def Amp.isComplex : Amp → Bool
  | .cplx _ => true
  | .other _ => false

/-- The argument `frequencies`: a list, an array, or something else. -/
inductive Freqs where
  | list (l : List ℝ)
  | array (l : List ℝ)
  | other (l : List ℝ)

/-- The attributes `frequencies` and `amplitudes`. -/
structure Surf where
  freqs : List ℝ
  amps : List ℂ

/-- `[amplitudes[idx] * np.exp(1j * phases[idx]) for idx in range(len(amplitudes))]`, l.108-112. -/
noncomputable def withPhases : List Amp → List ℝ → List ℂ
  | a :: l, p :: m => a.val * Complex.exp (Complex.I * p) :: withPhases l m
  | _, _ => []

/-- `__init__` after the check of the type of the frequencies, l.96-112. -/
noncomputable def initWith (f : List ℝ) (amps : List Amp) (phases : List ℝ) : Except PyErr Surf :=
  if amps.any Amp.isComplex then
    if f.length ≠ amps.length then .error .valueError
    else .ok ⟨f, amps.map Amp.val⟩
  else
    if ¬ (f.length = amps.length ∧ amps.length = phases.length) then .error .valueError
    else .ok ⟨f, withPhases amps phases⟩

/-- `__init__(frequencies, amplitudes, phases)`, l.85-115. -/
noncomputable def init : Freqs → List Amp → List ℝ → Except PyErr Surf
  | .list f, amps, phases => initWith f amps phases
  | .array f, amps, phases => initWith f amps phases
  | .other _, _, _ => .error .valueError

/-- One component, l.120-121. -/
noncomputable def component (f : ℝ) (a : ℂ) (x : ℝ) : ℝ := (a * Complex.exp (-Complex.I * f * x * 2 * Real.pi)).re

/-- The loop over the components, l.119-121. -/
noncomputable def loop : List ℝ → List ℂ → ℝ → ℝ → ℝ
  | f :: fs, a :: as, x, acc => loop fs as x (acc + component f a x)
  | _, _, _, acc => acc

/-- `_height(x_mesh, y_mesh)` at one point, l.117-122, for coordinates that are floats. -/
noncomputable def height (s : Surf) (x _y : ℝ) : ℝ := loop s.freqs s.amps x 0

end Verif.DiscFreq
