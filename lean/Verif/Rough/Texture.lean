import Mathlib.Analysis.SpecialFunctions.Trigonometric.Arctan
import Mathlib.Analysis.SpecialFunctions.Complex.Circle
import Verif.Rough.Bearing
import Verif.Spectra.Model

/-!
# C126: the spatial parameters of `roughness`: str, std and sal, `slippy/surface/roughness_funcs.py` l.225-237 and l.325-365

`eta` is the flattened profile (the flattening is in `Verif.Rough.Poly`); its values are real numbers. The autocorrelation is `Verif.Acf.original`, the transform `Verif.Spectra.dft`.
-/

namespace Verif.Rough

noncomputable section

/-- An exception of Python, that of the spline of an `ACF` that cannot be made (at most three knots on an axis), or a case that is not modelled. -/
inductive TErr where
  | py (e : PyErr)
  | spline
  | unmodelled

/-- Entry `j` of `np.arange(n / -2, n / 2)`, l.330, 331, 344, 345. -/
def offset (n j : ℕ) : ℝ := (n : ℝ) / -2 + j

/-- Entry `i, j` of `distance_to_centre`, l.330-333 (for the spacing 1) and l.357-363: `np.meshgrid` makes an array with a row for each `y`, where `x` is made from the number of rows of `eta` and `y` from the number of columns. -/
def distance (gs : ℝ) (rows cols i j : ℕ) : ℝ := Real.sqrt ((gs * offset rows j) ^ 2 + (gs * offset cols i) ^ 2)

/-- `min` and `max` of Python. -/
def pyMin : List ℝ → Except TErr ℝ
  | [] => .error (.py .valueError)
  | v :: vs => .ok (vs.foldl min v)

def pyMax : List ℝ → Except TErr ℝ
  | [] => .error (.py .valueError)
  | v :: vs => .ok (vs.foldl max v)

/-- `distance_to_centre[selection]`: the shapes are those of the transposed and of the given profile. -/
def pick (gs : ℝ) (rows cols : ℕ) (selection : ℕ → ℕ → Bool) : Except TErr (List ℝ) :=
  if rows = cols then .ok ((selected rows cols (some ⟨rows, cols, selection⟩)).map fun q => distance gs rows cols q.1 q.2) else .error (.py .indexError)

/-- `np.asarray(ACF(eta))`, l.328 and l.355. -/
def acfOf (eta : Arr ℝ) : Except TErr (ℕ → ℕ → ℝ) :=
  if eta.rows < 4 ∨ eta.cols < 4 then .error .spline else .ok (Acf.original eta.rows eta.cols eta.val)

open Classical in
/-- `str`, l.325-338. -/
def texStr (masked : Bool) (eta : Arr ℝ) : Except TErr ℝ :=
  if masked then .error (.py .valueError)
  else match acfOf eta with
    | .error e => .error e
    | .ok acf => match pick 1 eta.rows eta.cols (fun i j => decide (acf i j < 1 / 5)) with
      | .error e => .error e
      | .ok low => match pyMin low with
        | .error e => .error e
        | .ok a => match pick 1 eta.rows eta.cols (fun i j => decide (1 / 5 < acf i j)) with
          | .error e => .error e
          | .ok high => match pyMax high with
            | .error e => .error e
            | .ok b => .ok ((a - 1 / 2) / (b + 1 / 2))

open Classical in
/-- `sal`, l.353-365. -/
def texSal (gs : Option ℝ) (masked : Bool) (eta : Arr ℝ) : Except TErr ℝ :=
  match gs with
  | Option.none => .error (.py .valueError)
  | some gs =>
    if masked then .error (.py .valueError)
    else match acfOf eta with
      | .error e => .error e
      | .ok acf => match pick gs eta.rows eta.cols (fun i j => decide (acf i j < 1 / 5)) with
        | .error e => .error e
        | .ok low => pyMin low

/-- All pairs of indices, in the order of the rows. -/
def pairs (n m : ℕ) : List (ℕ × ℕ) := (List.range n).product (List.range m)

open Classical in
/-- `argmax`: the first of the largest entries. -/
def argmax (f : ℕ × ℕ → ℝ) (q : ℕ × ℕ) (qs : List (ℕ × ℕ)) : ℕ × ℕ := qs.foldl (fun b x => if f b < f x then x else b) q

/-- `std`, l.340-351: `none` is `nan` (0 / 0); `i / 0` is infinite and its arctangent `pi / 2`. The area `None` cannot divide. -/
def texStd (gs : Option ℝ) (eta : Arr ℝ) : Except TErr (Option ℝ) :=
  match pairs eta.rows eta.cols with
  | [] => .error (.py .valueError)
  | q :: qs => match gs with
    | Option.none => .error (.py .typeError)
    | some gs =>
      if gs = 0 then .error .unmodelled
      else
        let apsd := fun q : ℕ × ℕ => Complex.normSq (Spectra.dft eta.rows eta.cols (fun a b => (eta.val a b : ℂ)) q.1 q.2) / ((eta.rows * eta.cols : ℕ) * gs ^ 2)
        let ij := argmax apsd q qs
        if ij.2 = 0 then
          if ij.1 = 0 then .ok Option.none else .ok (some (Real.pi - Real.pi / 2))
        else
          let beta := Real.arctan ((ij.1 : ℝ) / ij.2)
          if beta < Real.pi / 2 then .ok (some (-1 * beta)) else .ok (some (Real.pi - beta))

end

end Verif.Rough
