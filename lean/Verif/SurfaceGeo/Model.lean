import Mathlib.Algebra.Order.Floor.Ring
import Mathlib.Algebra.Order.Floor.Semiring
import Mathlib.Data.Rat.Floor
import Verif.Common

/-!
# Geometry of surfaces: model of the setters and deleters of `_Surface`, `slippy/surface/Surface_class.py`, l.152-385

The numbers are those of an ordered field (exact arithmetic). Only the shape of the profile matters here. `invert_surface` is False (with
True and no profile the getter l.295 raises `TypeError`). Each call gives the new state and the exception, if any: a call that raises an
exception may have changed the state before.
-/

namespace Verif.SurfaceGeo

variable {K : Type} [Field K] [LinearOrder K] [IsStrictOrderedRing K] [FloorRing K]

/-- The attributes `_grid_spacing`, `_extent`, `_shape`, `_size` and the shape of `_profile`, l.141-148. -/
structure Geo (K : Type) where
  gs : Option K
  extent : Option (List K)
  shape : Option (List ℤ)
  size : Option ℤ
  prof : Option (List ℤ)

/-- A new surface, l.141-148. -/
def Geo.new : Geo K := ⟨none, none, none, none, none⟩

/-- `int(x)`: truncation. -/
def trunc (x : K) : ℤ := if 0 ≤ x then ⌊x⌋ else ⌈x⌉

/-- The result of a call: the state afterwards and the exception. -/
abbrev Out (K : Type) := Geo K × Option PyErr

/-- `int(sz / gs) for sz in …`; an exception if `gs` is zero and there is something to divide. -/
def divide (l : List K) (g : K) : Option (List ℤ) :=
  if g = 0 then (if l = [] then some [] else none) else some (l.map fun x => trunc (x / g))

/-- `_grid_spacing = _extent[0] / _shape[0]` and `_extent = shape * grid_spacing`, l.245-246, l.276-277. -/
def spacingFrom (s : Geo K) (e : List K) (sh : List ℤ) : Out K :=
  match e, sh with
  | [], _ => (s, some .indexError)
  | _, [] => (s, some .indexError)
  | e0 :: _, s0 :: _ =>
    if s0 = 0 then (s, some .zeroDivisionError)
    else
      let g := e0 / (s0 : K)
      ({ s with gs := some g, extent := some (sh.map fun n : ℤ => (n : K) * g) }, none)

/-- The aspect ratio `l[0] / l[1]`. -/
def aspect (l : List K) : Except PyErr K :=
  match l with
  | a :: b :: _ => if b = 0 then .error .zeroDivisionError else .ok (a / b)
  | _ => .error .indexError

/-- The setter of `extent`, l.221-247. -/
def setExtent (s : Geo K) (value : List K) : Out K :=
  if 2 < value.length then (s, some .valueError)
  else
    match s.prof with
    | some p =>
      match aspect (p.map fun n : ℤ => (n : K)), aspect value with
      | .error e, _ => (s, some e)
      | .ok _, .error e => (s, some e)
      | .ok pa, .ok ea =>
        if 1 / 10000 < |ea - pa| then (s, some .valueError)
        else
          match value, p with
          | v0 :: _, p0 :: _ =>
            if p0 = 0 then ({ s with extent := some value }, some .zeroDivisionError)
            else ({ s with extent := some value, gs := some (v0 / (p0 : K)) }, none)
          | _, _ => (s, some .indexError)
    | none =>
      let s := { s with extent := some value }
      match s.gs with
      | some g =>
        match divide value g with
        | none => (s, some .zeroDivisionError)
        | some sh => spacingFrom { s with shape := some sh, size := some sh.prod } value sh
      | none =>
        match s.shape with
        | some sh => spacingFrom s value sh
        | none => (s, none)

/-- The deleter of `extent`, l.249-255. -/
def delExtent (s : Geo K) : Out K :=
  match s.prof with
  | none => ({ s with extent := none, gs := none, shape := none, size := none }, none)
  | some _ => ({ s with extent := none, gs := none }, none)

/-- The setter of `shape`, l.263-277. The extent is computed from the given values, the shape from their integer parts. -/
def setShape (s : Geo K) (value : List K) : Out K :=
  match s.prof with
  | some _ => (s, some .valueError)
  | none =>
    let sh := value.map trunc
    let s := { s with shape := some sh, size := some sh.prod }
    match s.gs, s.extent with
    | some g, _ => ({ s with extent := some (value.map fun v => v * g) }, none)
    | none, some e => spacingFrom s e sh
    | none, none => (s, none)

/-- The deleter of `shape`, l.279-288. -/
def delShape (s : Geo K) : Out K :=
  match s.prof with
  | none => ({ s with shape := none, size := none, extent := none, gs := none }, none)
  | some _ => (s, some .valueError)

/-- The setter of `profile` with an array of the given shape, l.299-332. -/
def setProfile (s : Geo K) (sh : List ℕ) : Out K :=
  let p := sh.map fun n : ℕ => (n : ℤ)
  let s := { s with prof := some p, shape := some p, size := some p.prod }
  match s.gs, s.extent with
  | some g, _ => ({ s with extent := some (p.map fun n : ℤ => g * (n : K)) }, none)
  | none, some e =>
    match p with
    | [p0] =>
      match e with
      | [] => (s, some .indexError)
      | e0 :: _ => if p0 = 0 then (s, some .zeroDivisionError) else ({ s with gs := some (e0 / (p0 : K)) }, none)
    | [p0, p1] =>
      match aspect e, aspect ([p0, p1].map fun n : ℤ => (n : K)) with
      | .error x, _ => (s, some x)
      | .ok _, .error x => (s, some x)
      | .ok ea, .ok pa =>
        if |ea - pa| < 1 / 10000 then
          if p0 = 0 then (s, some .zeroDivisionError)
          else
            match e with
            | e0 :: _ => ({ s with gs := some (e0 / (p0 : K)) }, none)
            | [] => (s, some .indexError)
        else ({ s with extent := none }, none)
    | _ => (s, none)
  | none, none => (s, none)

/-- The deleter of `profile`, l.334-342. -/
def delProfile (s : Geo K) : Out K :=
  let s := (delShape { s with prof := none }).1
  delExtent s

/-- The argument of the setter of `grid_spacing`. The argument `nan`, which the code stores, is not modelled. -/
inductive GsArg (K : Type) where
  | none
  | notANumber
  | infinite
  | value (g : K)

/-- The setter of `grid_spacing`, l.350-378. -/
def setGs (s : Geo K) (a : GsArg K) : Out K :=
  match a with
  | .none => (s, Option.none)
  | .notANumber => (s, some .valueError)
  | .infinite => (s, some .valueError)
  | .value g =>
    let s := { s with gs := some g }
    match s.prof with
    | Option.none =>
      match s.extent, s.shape with
      | some e, _ =>
        match divide e g with
        | Option.none => (s, some .zeroDivisionError)
        | some sh => ({ s with shape := some sh, size := some sh.prod, extent := some (sh.map fun n : ℤ => (n : K) * g) }, Option.none)
      | Option.none, some sh => ({ s with extent := some (sh.map fun n : ℤ => g * (n : K)) }, Option.none)
      | Option.none, Option.none => (s, Option.none)
    | some p => ({ s with extent := some (p.map fun n : ℤ => (n : K) * g) }, Option.none)

/-- The deleter of `grid_spacing`, l.380-385. -/
def delGs (s : Geo K) : Out K :=
  let s := { s with extent := none, gs := none }
  match s.prof with
  | none => delShape s
  | some _ => (s, none)

/-- The calls. Arguments that are not sequences (`TypeError` or `ValueError` before any change) are left out. -/
inductive Op (K : Type) where
  | setGs (a : GsArg K)
  | delGs
  | setExtent (value : List K)
  | delExtent
  | setShape (value : List K)
  | delShape
  | setProfile (shape : List ℕ)
  | delProfile

/-- One call. -/
def step (s : Geo K) : Op K → Out K
  | .setGs a => setGs s a
  | .delGs => delGs s
  | .setExtent v => setExtent s v
  | .delExtent => delExtent s
  | .setShape v => setShape s v
  | .delShape => delShape s
  | .setProfile sh => setProfile s sh
  | .delProfile => delProfile s

/-- The state after a sequence of calls; exceptions are caught by the caller. -/
def run (s : Geo K) : List (Op K) → Geo K
  | [] => s
  | o :: os => run (step s o).1 os

/-- The next statement, unless there was an exception. -/
def andThen (r : Out K) (f : Geo K → Out K) : Out K :=
  match r.2 with
  | some e => (r.1, some e)
  | none => f r.1

/-- `if x is not None: self.… = x`. -/
def ifGiven {A : Type} (x : Option A) (f : Geo K → A → Out K) (s : Geo K) : Out K :=
  match x with
  | some a => f s a
  | none => (s, none)

/-- `__init__`, l.152-164. -/
def construct (gs : Option K) (extent : Option (List K)) (shape : Option (List K)) : Out K :=
  if gs.isSome && extent.isSome && shape.isSome then (Geo.new, some .valueError)
  else andThen (andThen (ifGiven gs (fun s g => setGs s (.value g)) Geo.new) (ifGiven extent setExtent)) (ifGiven shape setShape)

end Verif.SurfaceGeo
