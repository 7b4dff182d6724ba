import Mathlib.Data.Real.Basic
import Verif.SurfaceGeo.New
import Verif.Analytic.Model

/-!
# Texts of surfaces: model of `__repr__` in `slippy/surface/Surface_class.py` (l.1604-1618, l.1702-1714, l.1876-1878), `Geometric.py` (l.138-140, l.247-249,
l.347-349), `Random.py` (l.396-406), `FFTBased.py` (l.373-376) and of `Elastic` in `slippy/contact/materials.py` (l.730-731)

The texts of numbers, tuples and arrays are arbitrary (`Printer`). Numbers are real. The analytical surfaces are those of `Geometric.py`, with their constructors
(`Geometric.py` l.95-109, l.201-215, l.303-318; `_AnalyticalSurface.__init__` l.1631-1641).
-/

namespace Verif.Repr

open Verif Verif.SurfaceGeo

/-- The values that are written: numbers, tuples, `True`. -/
inductive Val where
  | num (x : ℝ)
  | tuple (l : List ℝ)
  | yes

/-- The first argument of the constructors: a number, a tuple or a list. -/
inductive Given where
  | number (x : ℝ)
  | tuple (l : List ℝ)
  | list (l : List ℝ)

/-- `repr` of values. -/
structure Printer where
  val : Val → String
  given : Given → String

/-- `repr` of a value; that of `True` is known. -/
def Printer.show (w : Printer) : Val → String
  | .yes => "True"
  | v => w.val v

/-- The classes. -/
inductive Shape where
  | flat | round | pyramid

/-- The name of the class. -/
def Shape.name : Shape → String
  | .flat => "FlatSurface"
  | .round => "RoundSurface"
  | .pyramid => "PyramidSurface"

/-- The name of the first argument. -/
def Shape.key : Shape → String
  | .flat => "slope"
  | .round => "radius"
  | .pyramid => "lengths"

/-- What the constructors store, `Geometric.py` l.99-107, l.206-213, l.307-316; `none`: the attribute is not set (a pyramid with a list). -/
def store : Shape → Given → Except PyErr (Option Given)
  | .flat, .number x => .ok (some (.list [x, 0]))
  | .flat, g => .ok (some g)
  | .round, .number x => .ok (some (.tuple [x, x, x]))
  | .round, .tuple l => if l.length = 3 then .ok (some (.tuple l)) else .error .valueError
  | .round, .list l => if l.length = 3 then .ok (some (.list l)) else .error .valueError
  | .pyramid, .number x => .ok (some (.tuple [x, x, x]))
  | .pyramid, .tuple l => if l.length = 3 then .ok (some (.tuple l)) else .error .valueError
  | .pyramid, .list _ => .ok none

/-- The attributes of an analytical surface: what the constructor stored, the geometry, `_total_rotation`, `_total_shift`, `is_discrete`, the heights of the
profile and the material. -/
structure Surf where
  params : Option Given
  geo : Geo ℝ
  rot : ℝ
  shift : ℝ × ℝ
  discrete : Bool
  heights : Option Analytic.Arr
  material : Option ℕ

/-- `height` of the surface for the function `f` of its class, l.1694-1700. -/
noncomputable def heightOf (f : Option Given → ℝ → ℝ → ℝ) (s : Surf) (x y : ℝ) : ℝ :=
  f s.params (x * Real.cos s.rot - y * Real.sin s.rot + (s.shift.1 * Real.cos s.rot - s.shift.2 * Real.sin s.rot))
    (y * Real.cos s.rot + x * Real.sin s.rot + (s.shift.2 * Real.cos s.rot + s.shift.1 * Real.sin s.rot))

/-- `discretise`, l.1643-1661; the grid with `get_points_from_extent` l.1164-1168. -/
noncomputable def discretise (f : Option Given → ℝ → ℝ → ℝ) (s : Surf) : Except PyErr Surf :=
  match s.geo.gs, s.geo.extent, s.geo.shape with
  | none, _, _ => .error .attributeError
  | some _, none, _ => .error .attributeError
  | some _, some _, none => .error .typeError
  | some g, some _, some (r :: c :: _) =>
    if r < 0 ∨ c < 0 then .error .valueError
    else match setProfile s.geo [r.toNat, c.toNat] with
      | (_, some e) => .error e
      | (geo, none) => .ok { s with geo := geo, discrete := true, heights := some (Analytic.sample (heightOf f s) g r.toNat c.toNat) }
  | some _, some _, some _ => .error .indexError

/-- `rotate`, l.1726-1727. -/
def rotate (s : Surf) (a : ℝ) : Surf := { s with rot := s.rot + a }

/-- `shift` of a new surface, l.1739-1747. -/
noncomputable def firstShift (shift extent : Option (List ℝ)) : Except PyErr (ℝ × ℝ) :=
  match (match shift, extent with
    | some l, _ => some l
    | none, some e => some (e.map fun x => x / -2)
    | none, none => none) with
  | none => .ok (0, 0)
  | some [a, b] => .ok (0 + a, 0 + b)
  | some _ => .error .valueError

/-- `if rotation is not None: self.rotate(rotation)`, l.1635-1636. -/
noncomputable def firstRotation : Option ℝ → ℝ
  | some r => 0 + r
  | none => 0

/-- The arguments of the constructors. -/
structure Args where
  first : Given
  rotation : Option ℝ := none
  shift : Option (List ℝ) := none
  generate : Bool := false
  gs : Option ℝ := none
  extent : Option (List ℝ) := none
  shape : Option (List ℝ) := none

/-- The constructors. -/
noncomputable def init (sh : Shape) (f : Option Given → ℝ → ℝ → ℝ) (a : Args) : Except PyErr Surf :=
  match store sh a.first with
  | .error e => .error e
  | .ok params =>
    match construct a.gs a.extent a.shape with
    | (_, some e) => .error e
    | (geo, none) =>
      match firstShift a.shift geo.extent with
      | .error e => .error e
      | .ok shift =>
        let s : Surf := ⟨params, geo, firstRotation a.rotation, shift, false, none, none⟩
        if a.generate then discretise f s else .ok s

open Classical in
/-- `_repr_helper`, l.1702-1714: `if self.grid_spacing` and `if self.extent` leave out zero and the empty tuple. -/
noncomputable def helper (w : Printer) (s : Surf) : String :=
  let string := ""
  let string := if s.shift.1 ≠ 0 ∨ s.shift.2 ≠ 0 then string ++ ", shift = " ++ w.show (.tuple [s.shift.1, s.shift.2]) else string
  let string := if s.rot ≠ 0 then string ++ ", rotation = " ++ w.show (.num s.rot) else string
  let string := if s.discrete then string ++ ", generate = True" else string
  let string := match s.geo.gs with
    | some g => if g ≠ 0 then string ++ ", grid_spacing = " ++ w.show (.num g) else string
    | none => string
  match s.geo.extent with
  | some e => if e ≠ [] then string ++ ", extent = " ++ w.show (.tuple e) else string
  | none => string

/-- `__repr__` of the analytical surfaces. -/
noncomputable def text (w : Printer) (sh : Shape) (s : Surf) : Except PyErr String :=
  match s.params with
  | none => .error .attributeError
  | some p => .ok (sh.name ++ "(" ++ sh.key ++ "=" ++ w.given p ++ helper w s ++ ")")

/-- `string[:-2]`. -/
def cut (n : Nat) (s : String) : String := String.ofList (s.toList.take (s.toList.length - n))

/-- `RandomFilterSurface.__repr__`, `Random.py` l.396-406, from the texts of what is set. -/
def filterText (acf : Option String) (gs : String) (moments shape : Option String) : String :=
  let string := "RandomFilterSurface("
  let string := match acf with
    | some t => string ++ "target_acf=" ++ t ++ ", " ++ "grid_spacing=" ++ gs ++ ", "
    | none => string
  let string := match moments with
    | some t => string ++ "moments = " ++ t ++ ", "
    | none => string
  let string := match shape with
    | some t => string ++ "shape = " ++ t ++ ", "
    | none => string
  cut 2 string ++ ")"

/-- The names of the arguments of `RandomFilterSurface`, `Random.py` l.385-389. -/
def filterNames : List String := ["target_acf", "grid_spacing", "extent", "shape"]

/-- `Surface.__repr__`, l.1604-1618, from the texts of what is set. -/
def surfaceText (profile shape gs material mask : Option String) : String :=
  let string := ""
  let string := match profile, shape with
    | some t, _ => string ++ "profile = " ++ t ++ ", "
    | none, some t => string ++ "shape = " ++ t ++ ", "
    | none, none => string
  let string := match gs with
    | some t => string ++ "grid_spacing = " ++ t ++ ", "
    | none => string
  let string := match material with
    | some t => string ++ "material = " ++ t ++ ", "
    | none => string
  let string := match mask with
    | some t => string ++ "mask = " ++ t ++ ", "
    | none => string
  "Surface(" ++ cut 2 string ++ ")"

/-- `HurstFractalSurface.__repr__`, `FFTBased.py` l.373-376, from the text of its base class and the texts of the three parameters. -/
def hurstText (base sigma hurst rollOff : String) : String :=
  "HurstFractal" ++ cut 1 base ++ ", " ++ cut 1 (sigma ++ ", " ++ hurst ++ ", " ++ rollOff) ++ ")"

/-- `SurfaceCombination.__repr__`, l.1876-1878. -/
def combinationText (first second mode : String) : String :=
  "SurfaceCombination(surface_1=" ++ first ++ ", surface_2=" ++ second ++ ", mode='" ++ mode ++ "'"

/-- `Elastic.__repr__`, `materials.py` l.730-731. -/
def elasticText (name e v : String) : String :=
  "Elastic(name = '" ++ name ++ "', properties = { 'E':" ++ e ++ ", 'v':" ++ v ++ " }"

end Verif.Repr
