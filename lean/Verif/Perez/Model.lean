import Mathlib.Analysis.SpecialFunctions.Complex.Arg
import Verif.Conv.Model

/-!
# Model of `RandomPerezSurface.discretise` in `slippy/surface/Random.py`

Positions of all arrays are indices modulo the shape; flattening and reshaping use the same order everywhere, so a flat array is a function of the position too. `np.argsort` is any way to list the positions by increasing value (the order of equal values is not fixed). The three error measures (l.245-246, l.255-260) are arbitrary functions of the two estimates whose values may be NaN (`none`); comparisons with NaN are false.
-/

namespace Verif.Perez

noncomputable section

open Verif.Conv (Grid forward backward)

variable {m n : ℕ} [NeZero m] [NeZero n]

/-- The choices for `exact`, l.114. -/
inductive Exact where
  | psd | heights | best
  deriving DecidableEq

/-- Why the loop ended, l.262-279. -/
inductive Verdict where
  | tooMany | slow | diverging | heights | psd
  deriving DecidableEq

/-- The settings of the iteration. -/
structure Config where
  accuracy : ℝ
  maxIt : ℤ
  minSpeed : ℝ

/-- What is left open: sorting and error measures. -/
structure Oracle (m n : ℕ) where
  argsort : (Grid m n → ℝ) → (Fin (m * n) ≃ Grid m n)
  errH : (Grid m n → ℝ) → Option ℝ
  errPS : (Grid m n → ℝ) → Option ℝ
  errPS0 : (Grid m n → ℝ) → Option ℝ

/-- `argsort` lists the positions by increasing value. -/
def Oracle.Sorts (o : Oracle m n) : Prop := ∀ g : Grid m n → ℝ, Monotone fun k => g (o.argsort g k)

/-- L.203: the entry at frequency zero is removed, in the array itself. -/
def clearZero (psd : Grid m n → ℝ) : Grid m n → ℝ := fun k => if k = 0 then 0 else psd k

/-- L.204. For a spectrum of zeros the code gets NaN. -/
def scalePsd (psd : Grid m n → ℝ) : Grid m n → ℝ := fun k => clearZero psd k / Real.sqrt (∑ k, clearZero psd k ^ 2) * m * n

/-- L.215. -/
def meanHeight (heights : Grid m n → ℝ) : ℝ := (∑ a, heights a) / ((m * n : ℕ) : ℝ)

/-- L.217. -/
def sqRoughness (heights : Grid m n → ℝ) : ℝ := Real.sqrt ((∑ a, (heights a - meanHeight heights) ^ 2) / ((m * n : ℕ) : ℝ))

/-- L.216-218. -/
def normalise (heights : Grid m n → ℝ) : Grid m n → ℝ := fun a => (heights a - meanHeight heights) / sqRoughness heights

/-- L.221-222. -/
def sortedTargets (o : Oracle m n) (heights : Grid m n → ℝ) : Fin (m * n) → ℝ := fun k => normalise heights (o.argsort (normalise heights) k)

/-- Step 1, l.240-242: the estimate with the phases of the transform of `h`. -/
def psdStep (ps h : Grid m n → ℝ) : Grid m n → ℝ :=
  fun a => (backward (fun k => (ps k : ℂ) * Complex.exp (Complex.I * (Complex.arg (forward (fun a => (h a : ℂ)) k) : ℂ))) a).re

/-- Step 2, l.249-252: `height_guess[index] = sorted_target_heights`. -/
def rankStep (o : Oracle m n) (targets : Fin (m * n) → ℝ) (g : Grid m n → ℝ) : Grid m n → ℝ := fun a => targets ((o.argsort g).symm a)

/-- `x < y` for a float that may be NaN. -/
def less (x : Option ℝ) (y : ℝ) : Prop := match x with
  | some x => x < y
  | none => False

/-- L.265, the change of the error relative to the last error is below the minimum speed. Dividing by zero gives an infinite number or NaN, never less. -/
def tooSlow (last previous : Option ℝ) (minSpeed : ℝ) : Prop := match last, previous with
  | some a, some b => a ≠ 0 ∧ |a - b| / a < minSpeed
  | _, _ => False

/-- L.269. -/
def grows (last previous : Option ℝ) : Prop := match last, previous with
  | some a, some b => b - a < 0
  | _, _ => False

open Classical in
/-- L.262-279; `errors` lists the errors of the heights, the last one first. -/
def stop (cfg : Config) (errors : List (Option ℝ)) (ps ps0 : Option ℝ) : Option Verdict :=
  if cfg.maxIt ≤ errors.length then some .tooMany
  else if 2 < errors.length ∧ tooSlow (errors.getD 0 none) (errors.getD 1 none) cfg.minSpeed then some .slow
  else if 2 < errors.length ∧ grows (errors.getD 0 none) (errors.getD 1 none) then some .diverging
  else if less (errors.getD 0 none) cfg.accuracy then some .heights
  else if less ps cfg.accuracy ∧ less ps0 cfg.accuracy then some .psd
  else none

/-- The variables after the loop. -/
structure Final (m n : ℕ) where
  height_guess : Grid m n → ℝ
  psd_guess : Grid m n → ℝ
  errors : List (Option ℝ)
  verdict : Verdict

/-- `while True`, l.237-279. -/
def loop (cfg : Config) (o : Oracle m n) (ps : Grid m n → ℝ) (targets : Fin (m * n) → ℝ) (h : Grid m n → ℝ) (errors : List (Option ℝ)) : Final m n :=
  let g := psdStep ps h
  let h' := rankStep o targets g
  let errors' := o.errH g :: errors
  match hs : stop cfg errors' (o.errPS h') (o.errPS0 h') with
  | some v => ⟨h', g, errors', v⟩
  | none => loop cfg o ps targets h' errors'
termination_by (cfg.maxIt - errors.length).toNat
decreasing_by
  have : ¬cfg.maxIt ≤ (o.errH (psdStep ps h) :: errors).length := by
    intro hc
    unfold stop at hs
    rw [if_pos hc] at hs
    exact nomatch hs
  simp only [List.length_cons, Nat.cast_add, Nat.cast_one] at this ⊢
  omega

/-- What the call gives. -/
inductive Out (m n : ℕ) where
  | setProfile (profile : Grid m n → ℝ)
  | newSurface (profile : Grid m n → ℝ)
  | original (height_guess psd_guess : Grid m n → ℝ) (errors : List (Option ℝ))

/-- L.281-292: the verdicts with a message are failures. -/
def failed : Verdict → Bool
  | .tooMany | .slow | .diverging => true
  | .heights | .psd => false

/-- L.235, l.274, l.278 and l.287: which of the two estimates is used; the first choice is the one with the right spectrum. -/
def useHeights (exact : Exact) (v : Verdict) : Bool :=
  match exact with
  | .psd => false
  | .heights => true
  | .best => match v with
    | .heights => true
    | _ => false

open Classical in
/-- `RandomPerezSurface.discretise`, l.193-300: the result and the caller's array of the target spectrum afterwards. `heights` are the prescribed heights (given, or drawn from the distribution), `none` if there are none. Equal heights give NaN, and l.227 fails to convert it to an integer. -/
def discretise (cfg : Config) (o : Oracle m n) (exact : Exact) (psd : Grid m n → ℝ) (heights : Option (Grid m n → ℝ)) (returnNew suppressErrors returnOriginal : Bool) :
    Except PyErr (Out m n) × (Grid m n → ℝ) :=
  if returnOriginal && returnNew then (.error .valueError, psd)
  else match heights with
    | none => (.error .valueError, clearZero psd)
    | some hs =>
      if sqRoughness hs = 0 then (.error .valueError, clearZero psd)
      else
        let f := loop cfg o (scalePsd psd) (sortedTargets o hs) (normalise hs) []
        if failed f.verdict && !suppressErrors then (.error .stopIteration, clearZero psd)
        else
          let profile := fun a => (if useHeights exact f.verdict then f.height_guess a else f.psd_guess a) * sqRoughness hs + meanHeight hs
          (.ok (if returnNew then .newSurface profile else if returnOriginal then .original f.height_guess f.psd_guess f.errors else .setProfile profile), clearZero psd)

end

end Verif.Perez
