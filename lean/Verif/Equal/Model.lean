import Mathlib.Algebra.Group.Basic
import Mathlib.Data.List.Forall2
import Verif.Common

/-!
# Equality of surfaces: model of `slippy/surface/Surface_class.py` `_Surface.__eq__` (l.842-848), `_AnalyticalSurface.__eq__` (l.1802-1809), the getter of `profile` (l.290-297), and of what the constructors `SurfaceCombination.__init__` (l.1846-1874), `DiscFreqSurface.__init__` (`slippy/surface/FFTBased.py` l.85-115) and `RandomFilterSurface.__repr__` (`slippy/surface/Random.py` l.396-406), `RandomPerezSurface.__repr__` (l.120-121) contribute to it

Heights and grid spacings are `none` for `nan`. The operator `==` of Python asks the right operand first if its class is a proper subclass of that of the left operand.
-/

namespace Verif.Equal

open Verif

/-- The classes of surfaces. -/
inductive Cls where
  | surface | hurst | perez | filter | discFreq | probFreq | flat | round | pyramid | combination
deriving DecidableEq

/-- The subclasses of `_AnalyticalSurface`. -/
def Cls.analytic : Cls → Bool
  | .surface | .hurst | .perez | .filter => false
  | _ => true

/-- `isinstance(other, cls)`: `HurstFractalSurface` is the only concrete class below another one (FFTBased.py l.184). -/
def Cls.isInstance (c d : Cls) : Bool := c = d ∨ (c = .hurst ∧ d = .surface)

/-- An array of heights. -/
structure Arr (K : Type) where
  shape : List ℕ
  data : List (Option K)

/-- Values in `__dict__`: plain data (compared by value), arrays, functions and other objects, each with its identity. -/
inductive Val (K : Type) where
  | plain (s : String)
  | array (id : ℕ) (a : Arr K)
  | func (id : ℕ)
  | other (id : ℕ)

/-- A surface. -/
structure Surf (K : Type) where
  cls : Cls
  isDiscrete : Bool
  inverted : Bool := false
  profile : Option (Arr K)
  gs : Option (Option K)
  /-- `__dict__` in the order of insertion. -/
  attrs : List (String × Val K)
  /-- The text of `repr`, if there is one. -/
  text : String

/-- Exceptions, and comparisons which are not modelled. -/
inductive Err where
  | py (e : PyErr)
  | unmodelled
deriving DecidableEq

section

variable {K : Type} [DecidableEq K]

/-- `==` of floats. -/
def feq (a b : Option K) : Bool :=
  match a, b with
  | some x, some y => x = y
  | _, _ => false

/-- All pairs are equal. -/
def allEq : List (Option K) → List (Option K) → Bool
  | [], [] => true
  | a :: as, b :: bs => feq a b && allEq as bs
  | _, _ => false

/-- `np.array_equal`; `None` is an array without axes. -/
def arrayEqual : Option (Arr K) → Option (Arr K) → Bool
  | none, none => true
  | some a, some b => a.shape = b.shape && allEq a.data b.data
  | _, _ => false

/-- `self.grid_spacing == other.grid_spacing`. -/
def gsEqual : Option (Option K) → Option (Option K) → Bool
  | none, none => true
  | some a, some b => feq a b
  | _, _ => false

variable [Neg K]

/-- The getter of `profile`, l.290-297. -/
def Surf.getProfile (s : Surf K) : Except Err (Option (Arr K)) :=
  if s.inverted then
    match s.profile with
    | none => .error (.py .typeError)
    | some a => .ok (some ⟨a.shape, a.data.map (Option.map Neg.neg)⟩)
  else .ok s.profile

/-- `repr(self)`: `RandomPerezSurface.__repr__` returns `None`, which is a `TypeError`. -/
def Surf.repr (s : Surf K) : Except Err String :=
  if s.cls = .perez then .error (.py .typeError) else .ok s.text

/-- `_Surface.__eq__` with another surface, l.842-848. -/
def baseEq (s t : Surf K) : Except Err Bool :=
  if s.isDiscrete ≠ t.isDiscrete then .ok false
  else if s.isDiscrete then
    match s.getProfile with
    | .error e => .error e
    | .ok p => match t.getProfile with
      | .error e => .error e
      | .ok q => .ok (arrayEqual p q && gsEqual s.gs t.gs)
  else
    match s.repr with
    | .error e => .error e
    | .ok a => match t.repr with
      | .error e => .error e
      | .ok b => .ok (a = b)

/-- Comparison of two values in dictionaries: the same object, else `==` and its truth. The comparison of other objects is the argument `cmp`. Of the arrays only those of the same shape with at least two entries are modelled: the truth of the array of results is a `ValueError`. -/
def valEq (cmp : ℕ → ℕ → Except Err Bool) : Val K → Val K → Except Err Bool
  | .plain a, .plain b => .ok (a = b)
  | .array i a, .array j b =>
    if i = j then .ok true
    else if a.shape = b.shape ∧ 2 ≤ a.shape.foldr (· * ·) 1 then .error (.py .valueError)
    else .error .unmodelled
  | .func i, .func j => .ok (i = j)
  | .other i, .other j => if i = j then .ok true else cmp i j
  | .array _ _, _ | _, .array _ _ => .error .unmodelled
  | _, _ => .ok false

/-- The entry of a dictionary. -/
def find (d : List (String × Val K)) (k : String) : Option (Val K) := (d.find? (fun e => e.1 = k)).map Prod.snd

/-- The entries of the left dictionary in turn. -/
def itemsEq (cmp : ℕ → ℕ → Except Err Bool) (d : List (String × Val K)) : List (String × Val K) → Except Err Bool
  | [] => .ok true
  | (k, v) :: rest => match find d k with
    | none => .ok false
    | some w => match valEq cmp v w with
      | .error e => .error e
      | .ok false => .ok false
      | .ok true => itemsEq cmp d rest

/-- `self.__dict__ == other.__dict__`. -/
def dictEq (cmp : ℕ → ℕ → Except Err Bool) (c d : List (String × Val K)) : Except Err Bool :=
  if c.length ≠ d.length then .ok false else itemsEq cmp d c

/-- `_AnalyticalSurface.__eq__`, l.1802-1809. -/
def analyticEq (cmp : ℕ → ℕ → Except Err Bool) (s t : Surf K) : Except Err Bool :=
  if !t.cls.isInstance s.cls then .ok false
  else if s.isDiscrete && t.isDiscrete then baseEq s t
  else dictEq cmp s.attrs t.attrs

/-- The method of the class. -/
def method (cmp : ℕ → ℕ → Except Err Bool) (s t : Surf K) : Except Err Bool :=
  if s.cls.analytic then analyticEq cmp s t else baseEq s t

/-- `s == t`. -/
def eq (cmp : ℕ → ℕ → Except Err Bool) (s t : Surf K) : Except Err Bool :=
  if t.cls ≠ s.cls ∧ t.cls.isInstance s.cls then method cmp t s else method cmp s t

/-- `SurfaceCombination.__init__`, l.1864-1873: after the attributes of the base classes come the mode, the pair of surfaces and, for the two known modes, a new function. -/
def combination (base : List (String × Val K)) (gs : Option (Option K)) (mode : String) (pair fn : ℕ) : Surf K where
  cls := .combination
  isDiscrete := false
  profile := none
  gs := gs
  attrs := base ++ [("mode", .plain mode), ("surfaces", .other pair)] ++ (if mode = "+" ∨ mode = "-" then [("_height", .func fn)] else [])
  text := ""

/-- `DiscFreqSurface.__init__`, FFTBased.py l.91-115, with an array of frequencies, not discretised: the frequencies come first. -/
def discFreq (id : ℕ) (freqs : Arr K) (amplitudes : Val K) (rest : List (String × Val K)) (gs : Option (Option K)) : Surf K where
  cls := .discFreq
  isDiscrete := false
  profile := none
  gs := gs
  attrs := ("frequencies", .array id freqs) :: ("amplitudes", amplitudes) :: rest
  text := ""

/-- `RandomFilterSurface.__repr__`, Random.py l.396-406, from the texts of target, spacing, moments and shape (`None` where the attribute is `None`). -/
def filterText (target : Option String) (gs : String) (moments shape : Option String) : String :=
  let s := "RandomFilterSurface("
  let s := match target with
    | some t => s ++ "target_acf=" ++ t ++ ", " ++ "grid_spacing=" ++ gs ++ ", "
    | none => s
  let s := match moments with
    | some t => s ++ "moments = " ++ t ++ ", "
    | none => s
  let s := match shape with
    | some t => s ++ "shape = " ++ t ++ ", "
    | none => s
  String.ofList (s.toList.take (s.toList.length - 2)) ++ ")"

/-- A `RandomFilterSurface` that is not discretised; `coefficients` stands for all attributes that are not in the text. -/
def filterSurface (target : Option String) (gs : Option (Option K)) (gsText : String) (moments shape : Option String) (coefficients : List (String × Val K)) : Surf K where
  cls := .filter
  isDiscrete := false
  profile := none
  gs := gs
  attrs := coefficients
  text := filterText target gsText moments shape

end

end Verif.Equal
