import Verif.SurfaceGeo.Model

/-! # When the attributes of a surface agree with each other -/

namespace Verif.SurfaceGeo.Spec

variable {K : Type} [Field K] [LinearOrder K] [IsStrictOrderedRing K] [FloorRing K]

/-- Whenever all are set, the extent is the shape times the grid spacing, in each direction. -/
def ExtentAgrees (s : Geo K) : Prop :=
  ∀ e sh g, s.extent = some e → s.shape = some sh → s.gs = some g → e = sh.map fun n : ℤ => (n : K) * g

/-- The size is the number of points of the shape; a profile has the recorded shape. -/
def ShapeAgrees (s : Geo K) : Prop :=
  (∀ sh, s.shape = some sh → s.size = some sh.prod) ∧ (s.shape = none → s.size = none) ∧ ∀ p, s.prof = some p → s.shape = some p

/-- The numbers of the list are in the proportions of the shape. -/
def InProportion (e : List K) (sh : List ℤ) : Prop := ∃ d : K, e = sh.map fun n : ℤ => (n : K) * d

/-- The extent is the shape times the grid spacing, or in two dimensions at least nearly so: exactly in the first direction, and the quotients of the two directions differ
by no more than 0.0001. -/
def NearlyAgrees (s : Geo K) : Prop :=
  ∀ e sh g, s.extent = some e → s.shape = some sh → s.gs = some g →
    e = (sh.map fun n : ℤ => (n : K) * g) ∨
    ∃ e0 e1 p0 p1, e = [e0, e1] ∧ sh = [p0, p1] ∧ e0 = (p0 : K) * g ∧ |e0 / e1 - (p0 : K) / (p1 : K)| ≤ 1 / 10000

/-- A call with sensible arguments: shapes are whole numbers, an extent and a profile have the same number of dimensions. -/
def Sensible (s : Geo K) : Op K → Prop
  | .setShape v => ∀ x ∈ v, ∃ n : ℤ, x = n
  | .setExtent v => ∀ p, s.prof = some p → v.length = p.length
  | .setProfile sh => ∀ e, s.extent = some e → s.gs = none → e.length = sh.length
  | _ => True

/-- A call with sensible arguments, and an extent given to a profile, or a profile given to an extent, has the same proportions. -/
def Exact (s : Geo K) : Op K → Prop
  | .setShape v => ∀ x ∈ v, ∃ n : ℤ, x = n
  | .setExtent v => ∀ p, s.prof = some p → InProportion v p
  | .setProfile sh => ∀ e, s.extent = some e → s.gs = none → InProportion e (sh.map fun n : ℕ => (n : ℤ))
  | _ => True

/-- Every call of the history meets the condition in the state in which it is made, and does not raise an exception. -/
def All (ok : Geo K → Op K → Prop) : Geo K → List (Op K) → Prop
  | _, [] => True
  | s, o :: os => ok s o ∧ (step s o).2 = none ∧ All ok (step s o).1 os

end Verif.SurfaceGeo.Spec
