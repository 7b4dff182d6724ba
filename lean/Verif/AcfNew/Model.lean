import Verif.Acf.Model

/-!
# Making autocorrelation functions: `ACF.__init__`, `_input_check_string`, `_input_check_array`, `__call__` and `__array__`

`slippy/surface/ACF_class.py` l.88-197. The values are in `Verif.Acf`; here is what can be made and evaluated. What `np.asarray` makes of other objects and
the spline of scipy are parameters. Numbers of the function 'exp' may be `None`.
-/

namespace Verif.AcfNew

open Verif Acf

noncomputable section

/-- What `np.asarray` makes of an object, l.123-129. -/
inductive Array where
  /-- `ValueError`, raised again in l.125-129 -/
  | invalid
  /-- an array with fewer than two dimensions, for example of a callable object or of `None` -/
  | flat
  /-- an array with two dimensions -/
  | grid (n m : Nat) (p : Nat → Nat → ℝ)

/-- The first argument. `function` is an instance of `types.FunctionType`; other callable objects are not (they are `other`). -/
inductive Src where
  | str (name : String) (args : List (Option ℝ))
  | surface (profile : Array) (spacing : Option ℝ)
  | function (f : ℝ → ℝ → ℝ)
  | other (a : Array) (spacing : Option ℝ)

/-- `self.method`. -/
inductive Method where
  /-- the function returned by `_exp_acf`, l.200-204 -/
  | exp (sigma bx by_ : Option ℝ)
  | given (f : ℝ → ℝ → ℝ)
  /-- a spline of scipy -/
  | spline (f : ℝ → ℝ → ℝ)

/-- The object: `original` with its shape and the spacing. -/
structure Acf where
  method : Method
  original : Option (Nat × Nat × (Nat → Nat → ℝ))
  kind : Source

/-- `scipy.interpolate.RectBivariateSpline`: it may refuse. -/
abbrev Spline := Nat → Nat → (Nat → ℝ) → (Nat → ℝ) → (Nat → Nat → ℝ) → Except PyErr (ℝ → ℝ → ℝ)

/-- `_input_check_string`, l.106-120. Arguments after the third are not looked at. -/
def checkString (name : String) (args : List (Option ℝ)) : Except PyErr Method :=
  if name = "exp" then
    match args with
    | s :: bx :: b :: _ => .ok (.exp s bx b)
    | _ => .error .indexError
  else .error .notImplementedError

/-- `_input_check_array`, l.122-152; the origin is always the default of l.122. -/
def checkArray (spline : Spline) (a : Array) (spacing : Option ℝ) : Except PyErr (Method × Nat × Nat × (Nat → Nat → ℝ)) :=
  match a with
  | .invalid => .error .valueError
  | .flat => .error .indexError
  | .grid n m p =>
    match spacing with
    | none => .error .typeError
    | some gs =>
      match spline n m (knot n gs) (knot m gs) (original n m p) with
      | .error e => .error e
      | .ok f => .ok (.spline f, n, m, original n m p)

/-- `__init__`, l.88-104. -/
def construct (spline : Spline) : Src → Except PyErr Acf
  | .str name args =>
    match checkString name args with
    | .ok m => .ok ⟨m, none, .string⟩
    | .error e => .error e
  | .surface a spacing =>
    match checkArray spline a spacing with
    | .ok (m, o) => .ok ⟨m, some o, .surface⟩
    | .error e => .error e
  | .function f => .ok ⟨.given f, none, .function⟩
  | .other a spacing =>
    match spacing with
    | none => .error .valueError
    | some gs =>
      match checkArray spline a (some gs) with
      | .ok (m, o) => .ok ⟨m, some o, .array⟩
      | .error e => .error e

/-- `__call__`, l.185-189: the shape and the entries. -/
def Acf.eval (a : Acf) (x y : List ℝ) : Except PyErr ((Nat × Nat) × (Nat → Nat → ℝ)) :=
  match a.method with
  | .exp (some s) (some bx) (some b) => .ok (call a.kind (expAcf s bx b) x y)
  | .exp _ _ _ => .error .typeError
  | .given f => .ok (call a.kind f x y)
  | .spline f => .ok (call a.kind f x y)

/-- `__array__`, l.191-197. -/
def Acf.array (a : Acf) : Except PyErr (Nat × Nat × (Nat → Nat → ℝ)) :=
  match a.original with
  | some o => .ok o
  | none => .error .valueError

end

end Verif.AcfNew
