import Mathlib.Algebra.Order.Floor.Ring
import Mathlib.Algebra.Order.Floor.Semiring
import Mathlib.Data.Rat.Floor
import Verif.Common

/-!
# Arithmetic of surfaces: model of `__add__`, `__sub__`, `__mul__` and `resample` of `_Surface`, `slippy/surface/Surface_class.py` l.698-840

Profiles are two dimensional, given by the shape and a function of the indices; numbers are those of an ordered field. The spline made by `scipy` is an arbitrary function of
the profile and spacing it was made from, and of the point (`ev`). The memoised interpolator (`_inter_func` with `_original_extent`) is represented by
the profile and spacing it was made from. `invert_surface` is False.
-/

namespace Verif.SurfArith

variable {K : Type} [Field K] [LinearOrder K] [IsStrictOrderedRing K] [FloorRing K]

/-- A two dimensional array. -/
structure Arr (K : Type) where
  rows : ℕ
  cols : ℕ
  val : ℕ → ℕ → K

/-- `profile`, `grid_spacing` and the memoised interpolator. -/
structure Surf (K : Type) where
  prof : Arr K
  gs : Option K
  inter : Option (Arr K × K)

/-- `Surface(profile=p, grid_spacing=g)`. -/
def mk (p : Arr K) (g : Option K) : Surf K := ⟨p, g, none⟩

/-- `self.profile = p`, l.299-332 (the interpolator is kept). -/
def setProfile (s : Surf K) (p : Arr K) : Surf K := { s with prof := p }

/-- The spline: profile, spacing, point. -/
abbrev Spline (K : Type) := Arr K → K → K → K → K

/-- `resample(new, return_profile=True)` of a surface with grid spacing `g`, l.756-774: the new profile, and the surface with its interpolator. -/
def resample (ev : Spline K) (s : Surf K) (g new : K) : Arr K × Surf K :=
  let it := s.inter.getD (s.prof, g)
  let ext0 := (it.1.rows : K) * it.2
  let ext1 := (it.1.cols : K) * it.2
  (⟨⌈ext0 / new⌉.toNat, ⌈ext1 / new⌉.toNat, fun i j => ev it.1 it.2 ((i : K) * new) ((j : K) * new)⟩, { s with inter := some it })

/-- The two profiles and the grid spacing used by `__add__` l.784-799 and `__sub__` l.821-836, and the two surfaces afterwards. -/
def common (ev : Spline K) (s t : Surf K) : Arr K × Arr K × Option K × Surf K × Surf K :=
  match s.gs, t.gs with
  | some g, some h =>
    if g = h then (s.prof, t.prof, some g, s, t)
    else if g < h then
      let r := resample ev t h g
      (s.prof, r.1, some g, s, r.2)
    else
      let r := resample ev s g h
      (r.1, t.prof, some h, r.2, t)
  | some g, none => (s.prof, t.prof, some g, s, t)
  | none, h => (s.prof, t.prof, h, s, t)

/-- The two profiles combined on the common part, l.801-802, l.838-839. -/
def combine (f : K → K → K) (p q : Arr K) : Arr K := ⟨min p.rows q.rows, min p.cols q.cols, fun i j => f (p.val i j) (q.val i j)⟩

/-- `s + t`, l.784-803: the sum, and the two surfaces afterwards. -/
def add (ev : Spline K) (s t : Surf K) : Surf K × Surf K × Surf K :=
  let c := common ev s t
  (mk (combine (fun a b => a + b) c.1 c.2.1) c.2.2.1, c.2.2.2.1, c.2.2.2.2)

/-- `s - t`, l.821-840. -/
def sub (ev : Spline K) (s t : Surf K) : Surf K × Surf K × Surf K :=
  let c := common ev s t
  (mk (combine (fun a b => a - b) c.1 c.2.1) c.2.2.1, c.2.2.2.1, c.2.2.2.2)

/-- `s + c` with a number, l.781-782. -/
def addNumber (s : Surf K) (c : K) : Surf K := mk { s.prof with val := fun i j => s.prof.val i j + c } s.gs

/-- `s - c` with a number, l.818-819: the number is added. -/
def subNumber (s : Surf K) (c : K) : Surf K := mk { s.prof with val := fun i j => s.prof.val i j + c } s.gs

/-- `s * c` with a number, l.805-807. -/
def mulNumber (s : Surf K) (c : K) : Surf K := mk { s.prof with val := fun i j => s.prof.val i j * c } s.gs

end Verif.SurfArith
