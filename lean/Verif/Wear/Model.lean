import Mathlib.Algebra.Order.Floor.Ring
import Mathlib.Algebra.Order.Floor.Semiring
import Mathlib.Data.Rat.Floor
import Verif.Common
import Verif.PyDict

/-!
# Wear of surfaces: model of `_Surface.wear`, `slippy/surface/Surface_class.py` l.404-438, with the setter and deleter of `profile`, l.299-342

Profiles are two dimensional arrays, given by the shape and a function of the indices. Numbers are those of an ordered field (exact arithmetic); a depth
may be `nan`. `invert_surface` (never set in the package) is False. A position is converted to `uint16` by truncation, modulo 65536.
A repeated index in `a[i, j] += d` is written several times, each time with the value before the statement plus the depth: the last one remains.
-/

namespace Verif.Wear

variable {K : Type} [Field K] [LinearOrder K] [IsStrictOrderedRing K] [FloorRing K]

/-- A two dimensional array. -/
structure Arr (K : Type) where
  rows : ℕ
  cols : ℕ
  val : ℕ → ℕ → K

/-- `a[y, x] = v`. -/
def Arr.set (a : Arr K) (y x : ℕ) (v : K) : Arr K :=
  { a with val := fun i j => if i = y ∧ j = x then v else a.val i j }

/-- `np.zeros_like(a)`. -/
def Arr.zeros (a : Arr K) : Arr K := { a with val := fun _ _ => 0 }

/-- The attributes `_profile`, `unworn_profile`, `wear_volumes` and `_grid_spacing`. -/
structure Surf (K : Type) where
  prof : Option (Arr K)
  unworn : Option (Arr K)
  wear : Dict (Arr K)
  gs : Option K

/-- A new surface, l.140-148, l.166. -/
def Surf.new : Surf K := ⟨none, none, [], none⟩

/-- A worn point: row, column, depth. -/
structure Pt (K : Type) where
  y : ℕ
  x : ℕ
  d : K

/-- `a[y, x] = a[y, x] + f * d` with index arrays. -/
def addAt (f : K) (a : Arr K) (pts : List (Pt K)) : Arr K :=
  pts.foldl (fun acc p => acc.set p.y p.x (a.val p.y p.x + f * p.d)) a

/-- `int(x)`: truncation. -/
def trunc (x : K) : ℤ := if 0 ≤ x then ⌊x⌋ else ⌈x⌉

/-- `np.array(x / gs + gs/2, dtype=np.uint16)`, l.433-434. -/
def index (gs x : K) : ℕ := (trunc (x / gs + gs / 2) % 65536).toNat

/-- The three lists, zipped. -/
def points (gs : K) : List K → List K → List K → List (Pt K)
  | x :: xs, y :: ys, d :: ds => ⟨index gs y, index gs x, d⟩ :: points gs xs ys ds
  | _, _, _ => []

/-- The depths if none is `nan`. -/
def noNan : List (Option K) → Option (List K)
  | [] => some []
  | none :: _ => none
  | some d :: ds => (noNan ds).map (d :: ·)

/-- `wear(name, x_pts, y_pts, depth)`, l.404-438; without a profile the entry written into `wear_volumes` before the exception (an array made of `None`) is left out. -/
def wear (s : Surf K) (name : String) (xs ys : List K) (depth : List (Option K)) : Surf K × Option PyErr :=
  if ¬ (xs.length = ys.length ∧ ys.length = depth.length) then (s, some .valueError)
  else
    match noNan depth with
    | none => (s, some .valueError)
    | some ds =>
      match s.prof with
      | none => (s, some .indexError)
      | some p =>
        let vol := (s.wear.get? name).getD p.zeros
        let s := { s with wear := s.wear.set name vol }
        match s.gs with
        | none => (s, some .typeError)
        | some g =>
          let pts := points g xs ys ds
          if pts.all (fun q => q.y < p.rows && q.x < p.cols) then
            ({ s with wear := s.wear.set name (addAt 1 vol pts), prof := some (addAt (-1) p pts) }, none)
          else (s, some .indexError)

/-- The calls: wear, assignment of a profile (l.299-316), its deletion (l.334-342, with `del self.shape` l.284), assignment of the grid spacing (l.370). -/
inductive Op (K : Type) where
  | wear (name : String) (xs ys : List K) (depth : List (Option K))
  | setProfile (p : Arr K)
  | delProfile
  | setGs (g : K)

/-- One call; exceptions are caught by the caller. -/
def step (s : Surf K) : Op K → Surf K
  | .wear name xs ys depth => (Wear.wear s name xs ys depth).1
  | .setProfile p => { s with unworn := some p, prof := some p, wear := [] }
  | .delProfile => { s with unworn := none, prof := none, wear := [], gs := none }
  | .setGs g => { s with gs := some g }

/-- The state after a sequence of calls. -/
def run (s : Surf K) (ops : List (Op K)) : Surf K := ops.foldl step s

end Verif.Wear
