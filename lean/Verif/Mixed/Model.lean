import Verif.Analytic.Model
import Verif.SurfArith.Model
import Verif.SurfaceGeo.Model

/-!
# The operators `+`, `-`, `*` and `/` between surfaces of different classes and numbers: model of `slippy/surface/Surface_class.py` l.780-840 and l.1749-1800

Python 3 looks for the method `__truediv__` when it finds `/`, and for the reflected methods `__radd__`, `__rsub__`, `__rmul__`, `__rtruediv__` when the left operand is a number of
Python; numbers do not know surfaces. Numbers are those of Python: the scalars and arrays of numpy, which turn surfaces into arrays by `__array__` l.1141-1142, are not modelled.
Measured surfaces (class `Surface`) have a profile of two dimensions, as in `Verif.SurfArith`, whose model of two surfaces with profile is used; analytical surfaces have the attributes of
`Verif.SurfaceGeo`, a function for the height with rotation and shift already applied, and the profile if they are discrete. `invert_surface` is False. The interpolators that
`resample` keeps in the operands (C71) are left out. What scipy raises when it is asked for a spline of the profile None is `Err.scipy`.
-/

namespace Verif.Mixed

open SurfaceGeo (Geo)

abbrev Arr := SurfArith.Arr ℝ
abbrev Surf := SurfArith.Surf ℝ

/-- What is raised. -/
inductive Err where
  | py (e : PyErr)
  | scipy
  | unmodelled
  deriving DecidableEq

/-- An analytical surface: `height`, `_grid_spacing` with `_extent`, `_shape` and `_size`, and the profile if it is discrete. -/
structure Ana where
  height : ℝ → ℝ → ℝ
  geo : Geo ℝ
  prof : Option Arr

/-- What may stand on either side of an operator, and what comes out. -/
inductive Operand where
  | number (c : ℝ)
  | measured (s : Surf)
  | analytic (a : Ana)

inductive Op where
  | add | sub | mul | div
  deriving DecidableEq

/-- The names of the methods that Python 3 calls for an operator: of the left operand, then of the right one. -/
def special : Op → String × String
  | .add => ("__add__", "__radd__")
  | .sub => ("__sub__", "__rsub__")
  | .mul => ("__mul__", "__rmul__")
  | .div => ("__truediv__", "__rtruediv__")

/-- The methods with special names of `_Surface`, l.152-1145; the classes `Surface` l.1237-1618 and `_AnalyticalSurface` l.1621-1840 have no others. -/
def defined : List String := ["__init__", "__init_subclass__", "__add__", "__mul__", "__div__", "__sub__", "__eq__", "__array__", "__repr__"]

/-- `surface.extent` of a surface with profile: known exactly if the grid spacing is, l.316-317. -/
def extentOf (s : Surf) : Option (List ℝ) := s.gs.map fun g => [g * (s.prof.rows : ℝ), g * (s.prof.cols : ℝ)]

/-- `self.resample(g, return_profile=True)` of an analytical surface that is not discrete and has a spacing, l.756-764: the extent None cannot be indexed, and there is no profile. -/
def resampleNothing {α : Type} (a : Ana) : Except Err α :=
  match a.geo.extent with
  | none => .error (.py .typeError)
  | some _ => .error .scipy

/-- `_Surface.__add__` l.784-801 or `_Surface.__sub__` l.821-838 with a surface that has a profile and one that has none, in either
order: the one with the larger spacing is resampled, then None has no attribute `shape`. -/
noncomputable def withNothing (s : Surf) (a : Ana) : Except Err Operand :=
  match s.gs, a.geo.gs with
  | some g, some h => if g < h then resampleNothing a else .error (.py .attributeError)
  | _, _ => .error (.py .attributeError)

/-- The next statement, unless there was an exception. -/
def after (r : SurfaceGeo.Out ℝ) (f : Geo ℝ → SurfaceGeo.Out ℝ) : SurfaceGeo.Out ℝ :=
  match r.2 with
  | some e => (r.1, some e)
  | none => f r.1

/-- `self_copy.extent = other.extent`, `self_copy.grid_spacing = other.grid_spacing`, `self_copy.shape = other.shape`, l.1764-1766, for a copy of `a`. The extent None is a `TypeError`, l.223-225. -/
noncomputable def takeGeometry (a : Ana) (s : Surf) : Except PyErr (Geo ℝ) :=
  match extentOf s, s.gs with
  | some e, some g =>
    let r := after (after (SurfaceGeo.setExtent a.geo e) fun x => SurfaceGeo.setGs x (.value g)) fun x => SurfaceGeo.setShape x [(s.prof.rows : ℝ), (s.prof.cols : ℝ)]
    match r.2 with
    | some x => .error x
    | none => .ok r.1
  | _, _ => .error .typeError

/-- `discretise()`, l.1643-1661, with the geometry `g` just taken: the heights at the points of `get_points_from_extent`, l.1148-1175. -/
noncomputable def discretise (height : ℝ → ℝ → ℝ) (g : Geo ℝ) : Except PyErr Arr :=
  match g.gs, g.extent, g.shape with
  | some gs, some _, some [r, c] =>
    let p := Analytic.sample height gs r.toNat c.toNat
    .ok ⟨p.rows, p.cols, p.val⟩
  | _, _, _ => .error .attributeError

/-- An analytical surface that is discrete, seen as a surface with profile. -/
def Ana.discrete (a : Ana) (p : Arr) : Surf := ⟨p, a.geo.gs, none⟩

/-- `SurfaceCombination(a, b, mode)`, l.1846-1874. -/
noncomputable def combination (a b : Ana) (f : ℝ → ℝ → ℝ) : Except Err Operand :=
  if a.geo.extent.isSome ∧ b.geo.extent.isSome ∧ a.geo.extent ≠ b.geo.extent then .error (.py .valueError)
  else if a.geo.gs.isSome ∧ b.geo.gs.isSome ∧ a.geo.gs ≠ b.geo.gs then .error (.py .valueError)
  else
    let r := SurfaceGeo.construct (a.geo.gs.or b.geo.gs) (a.geo.extent.or b.geo.extent) none
    match r.2 with
    | some x => .error (.py x)
    | none => .ok (.analytic ⟨fun x y => f (a.height x y) (b.height x y), r.1, none⟩)

/-- A copy of an analytical surface with other heights, l.1751-1755, l.1774-1778, l.1788-1791. -/
def withHeights (a : Ana) (f : ℝ → ℝ) : Ana :=
  { a with height := fun x y => f (a.height x y), prof := a.prof.map fun p => { p with val := fun i j => f (p.val i j) } }

/-- `__add__` of `_Surface` l.780-803 and of `_AnalyticalSurface` l.1749-1770. -/
noncomputable def add (ev : SurfArith.Spline ℝ) : Operand → Operand → Except Err Operand
  | .number _, _ => .error .unmodelled
  | .measured s, .number c => .ok (.measured (SurfArith.addNumber s c))
  | .measured s, .measured t => .ok (.measured (SurfArith.add ev s t).1)
  | .measured s, .analytic a =>
    match a.prof with
    | some p => .ok (.measured (SurfArith.add ev s (a.discrete p)).1)
    | none => withNothing s a
  | .analytic a, .number c => .ok (.analytic (withHeights a fun h => h + c))
  | .analytic a, .analytic b => combination a b fun x y => x + y
  | .analytic a, .measured s =>
    match a.prof with
    | some p => .ok (.measured (SurfArith.add ev (a.discrete p) s).1)
    | none =>
      match takeGeometry a s with
      | .error e => .error (.py e)
      | .ok g =>
        match discretise a.height g with
        | .error e => .error (.py e)
        | .ok p => .ok (.measured (SurfArith.add ev s ⟨p, g.gs, none⟩).1)

/-- `__sub__` of `_Surface` l.817-840 and of `_AnalyticalSurface` l.1772-1784. -/
noncomputable def sub (ev : SurfArith.Spline ℝ) : Operand → Operand → Except Err Operand
  | .number _, _ => .error .unmodelled
  | .measured s, .number c => .ok (.measured (SurfArith.subNumber s c))
  | .measured s, .measured t => .ok (.measured (SurfArith.sub ev s t).1)
  | .measured s, .analytic a =>
    match a.prof with
    | some p => .ok (.measured (SurfArith.sub ev s (a.discrete p)).1)
    | none => withNothing s a
  | .analytic a, .number c => .ok (.analytic (withHeights a fun h => h - c))
  | .analytic a, .analytic b => combination a b fun x y => x - y
  | .analytic a, .measured s =>
    match a.prof with
    | some p => .ok (.measured (SurfArith.sub ev (a.discrete p) s).1)
    | none => withNothing s a

/-- `__mul__` of `_Surface` l.805-809 and of `_AnalyticalSurface` l.1786-1794. -/
noncomputable def mul : Operand → Operand → Except Err Operand
  | .number _, _ => .error .unmodelled
  | .measured s, .number c => .ok (.measured (SurfArith.mulNumber s c))
  | .analytic a, .number c => .ok (.analytic (withHeights a fun h => h * c))
  | _, _ => .error (.py .notImplementedError)

/-- `__div__` of `_Surface` l.811-815 and of `_AnalyticalSurface` l.1796-1800, when it is called by name. Division by zero gives inf and nan for a profile (not modelled), and a `ZeroDivisionError` l.1798. -/
noncomputable def divMethod : Operand → Operand → Except Err Operand
  | .number _, _ => .error .unmodelled
  | .measured s, .number c => if c = 0 then .error .unmodelled else .ok (.measured (SurfArith.mk { s.prof with val := fun i j => s.prof.val i j / c } s.gs))
  | .analytic a, .number c => if c = 0 then .error (.py .zeroDivisionError) else mul (.analytic a) (.number (1 / c))
  | _, _ => .error (.py .notImplementedError)

/-- The method of the left operand with the given name. -/
noncomputable def method (ev : SurfArith.Spline ℝ) (name : String) (a b : Operand) : Except Err Operand :=
  if name = "__add__" then add ev a b
  else if name = "__sub__" then sub ev a b
  else if name = "__mul__" then mul a b
  else if name = "__div__" then divMethod a b
  else .error .unmodelled

/-- `a op b`: the method of the left operand if there is one, else the reflected method of the right operand, else `TypeError`. Numbers have no method for surfaces; two numbers are not of interest. -/
noncomputable def apply (ev : SurfArith.Spline ℝ) (op : Op) (a b : Operand) : Except Err Operand :=
  match a, b with
  | .number _, .number _ => .error .unmodelled
  | .number _, _ => if (special op).2 ∈ defined then method ev (special op).2 b a else .error (.py .typeError)
  | _, .number _ => if (special op).1 ∈ defined then method ev (special op).1 a b else .error (.py .typeError)
  | _, _ =>
    if (special op).1 ∈ defined then method ev (special op).1 a b
    else if (special op).2 ∈ defined then method ev (special op).2 b a
    else .error (.py .typeError)

end Verif.Mixed
