import Mathlib.Analysis.Complex.Trigonometric
import Mathlib.Data.Real.Sqrt
import Verif.Common

/-!
# Analytic surfaces: model of `_AnalyticalSurface` and `SurfaceCombination`, `slippy/surface/Surface_class.py` l.1621-1882, and of the shapes in
`slippy/surface/Geometric.py`

Numbers are real. A surface is an object of a heap, since sums of surfaces keep references to their operands. Profiles are not part of the objects here:
`discretise` is a function of the object.
-/

namespace Verif.Analytic

/-- What the method `height` of an object does: the class method l.1667-1700 with the `_height` of the class (`base`), of a `SurfaceCombination` (`comb`, l.1871-1874, with `true` for `'-'`), or the function
that was put into the attribute `height` of a copy by `__add__` l.1754, `__sub__` l.1777 and `__mul__` l.1791 with a number (`plus`, `times`). -/
inductive Kind where
  | base (f : ℝ → ℝ → ℝ)
  | plus (of : ℕ) (c : ℝ)
  | times (of : ℕ) (c : ℝ)
  | comb (first second : ℕ) (minus : Bool)

/-- An object: how its height is found, `_total_rotation`, `_total_shift`, and the geometry. -/
structure Obj where
  kind : Kind
  rot : ℝ
  shift : ℝ × ℝ
  extent : Option (ℝ × ℝ)
  gs : Option ℝ

/-- The point at which the base shape is evaluated, l.1694-1698. -/
noncomputable def Obj.move (o : Obj) (x y : ℝ) : ℝ × ℝ :=
  (x * Real.cos o.rot - y * Real.sin o.rot + (o.shift.1 * Real.cos o.rot - o.shift.2 * Real.sin o.rot),
   y * Real.cos o.rot + x * Real.sin o.rot + (o.shift.2 * Real.cos o.rot + o.shift.1 * Real.sin o.rot))

/-- The heap: object number `i` refers only to objects of smaller number. -/
abbrev Heap := ℕ → Obj

/-- `height(x, y)` of object number `i`. -/
noncomputable def height (h : Heap) (i : ℕ) (x y : ℝ) : ℝ :=
  match (h i).kind with
  | .base f => f ((h i).move x y).1 ((h i).move x y).2
  | .plus a c => (if a < i then height h a x y else 0) + c
  | .times a c => (if a < i then height h a x y else 0) * c
  | .comb a b minus =>
    let p := (h i).move x y
    let u := if a < i then height h a p.1 p.2 else 0
    let v := if b < i then height h b p.1 p.2 else 0
    if minus then u - v else u + v
termination_by i

/-- Changing one object. -/
def Heap.update (h : Heap) (i : ℕ) (f : Obj → Obj) : Heap := fun j => if j = i then f (h j) else h j

/-- `rotate(radians)`, l.1726-1727. -/
def rotate (a : ℝ) (o : Obj) : Obj := { o with rot := o.rot + a }

/-- The argument of `shift`: `None`, or a tuple. -/
abbrev ShiftArg := Option (List ℝ)

/-- `shift(shift)`, l.1729-1747. -/
noncomputable def shiftBy (a : ShiftArg) (o : Obj) : Except PyErr Obj :=
  match a with
  | none =>
    match o.extent with
    | none => .ok o
    | some e => .ok { o with shift := (o.shift.1 + e.1 / -2, o.shift.2 + e.2 / -2) }
  | some [a, b] => .ok { o with shift := (o.shift.1 + a, o.shift.2 + b) }
  | some _ => .error .valueError

/-- The constructor of an analytic surface with geometry already set, l.1631-1641. -/
noncomputable def construct (f : ℝ → ℝ → ℝ) (rotation : Option ℝ) (shift : ShiftArg) (extent : Option (ℝ × ℝ)) (gs : Option ℝ) : Except PyErr Obj :=
  let o : Obj := ⟨.base f, 0, (0, 0), extent, gs⟩
  let o := match rotation with | some r => rotate r o | none => o
  shiftBy shift o

/-- `s + c` with a number, l.1749-1756: a copy with another `height`. -/
def plusNumber (h : Heap) (i : ℕ) (c : ℝ) : Obj := { h i with kind := .plus i c }
/-- `s - c` with a number, l.1772-1779. -/
def minusNumber (h : Heap) (i : ℕ) (c : ℝ) : Obj := { h i with kind := .plus i (-c) }
/-- `s * c` with a number, l.1786-1792. -/
def timesNumber (h : Heap) (i : ℕ) (c : ℝ) : Obj := { h i with kind := .times i c }

/-- `SurfaceCombination(s, t, mode)`, l.1846-1874. -/
noncomputable def combine (h : Heap) (i j : ℕ) (minus : Bool) : Except PyErr Obj :=
  if (h i).extent.isSome ∧ (h j).extent.isSome ∧ (h i).extent ≠ (h j).extent then .error .valueError
  else if (h i).gs.isSome ∧ (h j).gs.isSome ∧ (h i).gs ≠ (h j).gs then .error .valueError
  else .ok ⟨.comb i j minus, 0, (0, 0), (h i).extent.or (h j).extent, (h i).gs.or (h j).gs⟩

/-- `np.linspace(0, stop, n)[i]`. -/
noncomputable def linspace (stop : ℝ) (n i : ℕ) : ℝ := if n = 1 then 0 else (i : ℝ) * (stop / ((n : ℝ) - 1))

/-- A two dimensional array. -/
structure Arr where
  rows : ℕ
  cols : ℕ
  val : ℕ → ℕ → ℝ

/-- `height(*get_points_from_extent())` with the shape and the grid spacing of the surface, l.1148-1175 and l.1659-1661: the first mesh returned runs along the rows. -/
noncomputable def sample (f : ℝ → ℝ → ℝ) (gs : ℝ) (rows cols : ℕ) : Arr :=
  ⟨rows, cols, fun i j => f (linspace (gs * ((rows : ℝ) - 1)) rows i) (linspace (gs * ((cols : ℝ) - 1)) cols j)⟩

/-- `discretise()`, l.1643-1661, of object number `i`; the shape is the one recorded together with the extent. -/
noncomputable def discretise (h : Heap) (i : ℕ) (rows cols : ℕ) : Except PyErr Arr :=
  match (h i).gs, (h i).extent with
  | none, _ => .error .attributeError
  | some _, none => .error .attributeError
  | some g, some _ => .ok (sample (height h i) g rows cols)

/-! ## The shapes of Geometric.py -/

/-- `FlatSurface._height`, l.136. -/
def flat (s0 s1 : ℝ) (x y : ℝ) : ℝ := x * s0 + y * s1

/-- A radius: a number or `inf` (`none`). `x / radius`. -/
noncomputable def overRadius (x : ℝ) : Option ℝ → ℝ
  | some r => x / r
  | none => 0

/-- `RoundSurface._height`, l.243-245: outside of the ellipse the square root is `nan`, which becomes zero. -/
noncomputable def round (rx ry : Option ℝ) (rz : ℝ) (x y : ℝ) : ℝ :=
  let q := 1 - overRadius x rx ^ 2 - overRadius y ry ^ 2
  if q < 0 then 0 else Real.sqrt q * rz - rz

/-- `PyramidSurface._height`, l.345. -/
noncomputable def pyramid (l0 l1 l2 : ℝ) (x y : ℝ) : ℝ := (0 - |x| / l0 - |y| / l1) * l2

/-- The argument `lengths` of `PyramidSurface`. -/
inductive Lengths where
  | number (l : ℝ)
  | tuple (l : List ℝ)
  | list (l : List ℝ)

/-- `PyramidSurface(lengths)` followed by `height(x, y)`, l.303-318 and l.345 (no rotation or shift). A list leaves `_lengths` unset. -/
noncomputable def pyramidHeight (a : Lengths) (x y : ℝ) : Except PyErr ℝ :=
  match a with
  | .number l => .ok (pyramid l l l x y)
  | .tuple [a, b, c] => .ok (pyramid a b c x y)
  | .tuple _ => .error .valueError
  | .list _ => .error .attributeError

end Verif.Analytic
