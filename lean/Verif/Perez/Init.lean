import Verif.Perez.Model

/-!
# Construction of surfaces of given heights and spectrum: model of `slippy/surface/Random.py` `RandomPerezSurface.__init__` (l.95-118) with the choice of the heights in `discretise` (l.193-212)

The target spectrum has the shape `(m, n)`. Lists of rows of different lengths are not modelled.
-/

namespace Verif.Perez

noncomputable section

open Verif.Conv (Grid)

variable {m n : ℕ} [NeZero m] [NeZero n]

/-- The argument `target_psd`: an array, or a list of lists. -/
inductive PsdArg (m n : ℕ) where
  | array (psd : Grid m n → ℝ)
  | list (psd : Grid m n → ℝ)

/-- The argument `height_distribution`: nothing, an object with the method `rvs`, a list (nested or not) or an array with their shape and all their numbers in order, or something without a length. -/
inductive HeightArg where
  | none
  | dist
  | list (shape : List ℕ) (data : List ℝ)
  | array (shape : List ℕ) (data : List ℝ)
  | noLength

/-- What the object keeps of the arguments. -/
structure Obj (m n : ℕ) where
  psd : PsdArg m n
  hasDist : Bool
  rvs : Option (List ℝ)
  exact : Exact

/-- `self.dist` and `self._rvs`, l.100-108: `len` of an object without length (or an array without axes) is a `TypeError`, a missing attribute `size` becomes a `ValueError`. -/
def chooseHeights (psd : PsdArg m n) : HeightArg → Except PyErr (Bool × Option (List ℝ))
  | .none | .dist => .ok (true, Option.none)
  | .noLength => .error .typeError
  | .list shape data => match shape with
    | [] => .error .typeError
    | len :: _ => match psd with
      | .list _ => .error .valueError
      | .array _ => if len = m * n then .ok (false, some data) else .error .valueError
  | .array shape data => match shape with
    | [] => .error .typeError
    | len :: _ => match psd with
      | .list _ => .error .valueError
      | .array _ => if len = m * n ∨ data.length = m * n then .ok (false, some data) else .ok (false, Option.none)

/-- L.112-114. -/
def exactOf : String → Except PyErr Exact
  | "psd" => .ok .psd
  | "heights" => .ok .heights
  | "best" => .ok .best
  | _ => .error .valueError

/-- `RandomPerezSurface(target_psd, height_distribution, exact=exact)`. -/
def construct (psd : PsdArg m n) (h : HeightArg) (exact : String) : Except PyErr (Obj m n) :=
  match chooseHeights psd h with
  | .error e => .error e
  | .ok (hasDist, rvs) => match exactOf exact with
    | .error e => .error e
    | .ok ex => .ok ⟨psd, hasDist, rvs, ex⟩

/-- `np.reshape` of a list of the right length. -/
def reshape (l : List ℝ) : Grid m n → ℝ := fun a => l.getD (a.1.val * n + a.2.val) 0

/-- `self.discretise(…)`, l.193-300, with the numbers that the distribution draws: a list has no shape; given heights of another number fail when they are reshaped (l.232), and none at all before, when zero is raised to a negative power (l.225). -/
def Obj.discretise (b : Obj m n) (cfg : Config) (o : Oracle m n) (draw : Grid m n → ℝ) (returnNew suppressErrors returnOriginal : Bool) : Except PyErr (Out m n) × PsdArg m n :=
  if returnOriginal && returnNew then (.error .valueError, b.psd)
  else match b.psd with
    | .list _ => (.error .attributeError, b.psd)
    | .array psd =>
      if b.hasDist then ((Perez.discretise cfg o b.exact psd (some draw) returnNew suppressErrors returnOriginal).1, .array (clearZero psd))
      else match b.rvs with
        | Option.none => (.error .valueError, .array (clearZero psd))
        | some l =>
          if l = [] then (.error .zeroDivisionError, .array (clearZero psd))
          else if l.length = m * n then ((Perez.discretise cfg o b.exact psd (some (reshape l)) returnNew suppressErrors returnOriginal).1, .array (clearZero psd))
          else (.error .valueError, .array (clearZero psd))

end

end Verif.Perez
