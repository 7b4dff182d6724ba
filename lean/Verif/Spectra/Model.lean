import Mathlib.Analysis.SpecialFunctions.Complex.Circle
import Verif.Acf.Model

/-!
# Transforms of a surface: model of `slippy/surface/Surface_class.py` l.290-342 (the profile), `get_fft` (l.440-498), `get_acf` (l.500-552) and `get_psd` (l.554-594)

Profiles have two axes. The grid spacing is only set directly (the rules that link it to the extent are in `Verif.SurfaceGeo`). `np.fft.fft2` is the sum of its documentation.
-/

namespace Verif.Spectra

open Verif

noncomputable section

/-- An exception of Python, or that of the spline of an `ACF` that cannot be made (`slippy/surface/ACF_class.py` l.152): at most three knots on an axis, or knots that do not increase. -/
inductive Err where
  | py (e : PyErr)
  | spline
  deriving DecidableEq

/-- An array with two axes. -/
structure Arr (K : Type) where
  n : ℕ
  m : ℕ
  val : ℕ → ℕ → K

/-- One entry of `np.fft.fft2`. -/
def dft (n m : ℕ) (x : ℕ → ℕ → ℂ) (k l : ℕ) : ℂ :=
  ∑ a ∈ Finset.range n, ∑ b ∈ Finset.range m, x a b * Complex.exp (-2 * Real.pi * Complex.I * ((k * a : ℂ) / n + (l * b : ℂ) / m))

/-- `np.fft.fft2`: empty arrays are a `ValueError`. -/
def fft2 (x : Arr ℝ) : Except Err (Arr ℂ) :=
  if x.n = 0 ∨ x.m = 0 then .error (.py .valueError) else .ok ⟨x.n, x.m, dft x.n x.m fun a b => x.val a b⟩

/-- The attributes of a surface that are used. -/
structure State where
  raw : Option (Arr ℝ)
  invert : Bool
  gs : Option ℝ
  acf : Option (Arr ℝ)
  psd : Option (Arr ℂ)
  fft : Option (Arr ℂ)

/-- A new surface, l.122-148. -/
def State.new : State := ⟨none, false, none, none, none, none⟩

/-- `self.profile`, l.290-297: `-1 * None` is a `TypeError`. -/
def State.profile (s : State) : Except Err (Option (Arr ℝ)) :=
  if s.invert then match s.raw with
    | none => .error (.py .typeError)
    | some p => .ok (some ⟨p.n, p.m, fun i j => -1 * p.val i j⟩)
  else .ok s.raw

/-- `ACF(profile)` as an array, `slippy/surface/ACF_class.py` l.122-152: a missing grid spacing is a `TypeError` (l.135). -/
def makeAcf (p : Arr ℝ) : Option ℝ → Except Err (Arr ℝ)
  | none => .error (.py .typeError)
  | some gs => if p.n < 4 ∨ p.m < 4 ∨ gs ≤ 0 then .error .spline else .ok ⟨p.n, p.m, Acf.original p.n p.m p.val⟩

/-- The argument `profile_in`: nothing, an array, or a list of lists. -/
inductive Arg where
  | none
  | array (x : Arr ℝ)
  | list (x : Arr ℝ)

/-- `get_fft`, l.480-498: what is returned, and the state. -/
def getFft (s : State) : Arg → Except Err (Option (Arr ℂ)) × State
  | .none => match s.profile with
    | .error e => (.error e, s)
    | .ok none => (.error (.py .attributeError), s)
    | .ok (some p) => match fft2 p with
      | .error e => (.error e, s)
      | .ok t => (.ok none, { s with fft := some t })
  | .array x => match fft2 x with
    | .error e => (.error e, s)
    | .ok t => (.ok (some t), s)
  | .list _ => (.error (.py .attributeError), s)

/-- `get_acf`, l.545-552. -/
def getAcf (s : State) : Arg → Except Err (Option (Arr ℝ)) × State
  | .none => match s.profile with
    | .error e => (.error e, s)
    | .ok none => (.error (.py .indexError), s)
    | .ok (some p) => match makeAcf p s.gs with
      | .error e => (.error e, s)
      | .ok a => (.ok none, { s with acf := some a })
  | .array x | .list x => match makeAcf x (some 1) with
    | .error e => (.error e, s)
    | .ok a => (.ok (some a), s)

/-- l.594. -/
def psdOf (s : State) (a : Arr ℝ) : Except Err Unit × State := match fft2 a with
  | .error e => (.error e, s)
  | .ok t => (.ok (), { s with psd := some t })

/-- `get_psd`, l.590-594. -/
def getPsd (s : State) : Except Err Unit × State := match s.acf with
  | some a => psdOf s a
  | none => match getAcf s .none with
    | (.error e, s) => (.error e, s)
    | (.ok _, s) => match s.acf with
      | none => (.error (.py .attributeError), s)
      | some a => psdOf s a

/-- What a user may do. -/
inductive Op where
  | setProfile (p : Arr ℝ)
  | delProfile
  | setGs (g : ℝ)
  | setInvert (b : Bool)
  | getFft (a : Arg)
  | getAcf (a : Arg)
  | getPsd

/-- The state after it; an exception leaves the state of the failing call. Setting a profile, l.299-332, and deleting it, l.334-342 (of an inverted surface: a `TypeError` before the spacing is deleted). -/
def step (s : State) : Op → State
  | .setProfile p => { s with raw := some p }
  | .delProfile => { s with raw := none, gs := if s.invert then s.gs else none }
  | .setGs g => { s with gs := some g }
  | .setInvert b => { s with invert := b }
  | .getFft a => (getFft s a).2
  | .getAcf a => (getAcf s a).2
  | .getPsd => (getPsd s).2

/-- A history. -/
def run (s : State) (ops : List Op) : State := ops.foldl step s

end

end Verif.Spectra
