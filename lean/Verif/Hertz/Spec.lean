import Verif.Hertz.Model

/-!
# What a Hertz contact is

The relations of Johnson, Contact Mechanics, chapter 4, written without the formulas of the model. The problems put to the solvers are
built from a contact by leaving one independent parameter out and giving one derived quantity.
-/

namespace Verif.Hertz.Spec

/-- A line contact. The stress factors are those of Green (2005) that the module quotes: `0.3 p0` for the shear stress, and for the largest
von Mises stress `|1 - 2 v| p0` up to `v = 0.1938`, a fitted factor above. -/
structure LineContact (S : LineSolution) : Prop where
  r : 0 < S.r
  e1 : 0 < S.e1
  e2 : 0 < S.e2
  load : 0 < S.load
  v1 : S.v1 ^ 2 < 1
  v2 : S.v2 ^ 2 < 1
  eStar : 1 / S.eStar = (1 - S.v1 ^ 2) / S.e1 + (1 - S.v2 ^ 2) / S.e2
  width : 0 < S.width
  widthSq : Real.pi * S.eStar * S.width ^ 2 = 4 * S.load * S.r
  pressure : Real.pi * S.width * S.maxPressure = 2 * S.load
  shear : 10 * S.maxShear = 3 * S.maxPressure
  vonMisesLow : S.v1 ≤ 0.1938 → S.maxVonMises = |1 - 2 * S.v1| * S.maxPressure
  vonMisesHigh : 0.1938 < S.v1 → S.maxVonMises * (1.164 + 2.975 * S.v1 - 2.906 * S.v1 ^ 2) = S.maxPressure

/-- A point contact of spheres; the von Mises stress is not constrained here. -/
structure PointContact (S : PointSolution) : Prop where
  r : 0 < S.r
  e1 : 0 < S.e1
  e2 : 0 < S.e2
  load : 0 < S.load
  v1 : S.v1 ^ 2 < 1
  v2 : S.v2 ^ 2 < 1
  eStar : 1 / S.eStar = (1 - S.v1 ^ 2) / S.e1 + (1 - S.v2 ^ 2) / S.e2
  radius : 0 < S.radius
  radiusCubed : 4 * S.eStar * S.radius ^ 3 = 3 * S.load * S.r
  pressure : 2 * Real.pi * S.radius ^ 2 * S.maxPressure = 3 * S.load
  displacement : S.displacement * S.r = S.radius ^ 2
  shear : 100 * S.maxShear = 46 * S.maxPressure
  tensile : 3 * S.maxTensile = (1 - 2 * S.v1) * S.maxPressure

/-- Two point solutions agree in everything but the von Mises stress. -/
structure SamePoint (S T : PointSolution) : Prop where
  r : S.r = T.r
  e1 : S.e1 = T.e1
  e2 : S.e2 = T.e2
  v1 : S.v1 = T.v1
  v2 : S.v2 = T.v2
  load : S.load = T.load
  eStar : S.eStar = T.eStar
  radius : S.radius = T.radius
  maxPressure : S.maxPressure = T.maxPressure
  maxTensile : S.maxTensile = T.maxTensile
  maxShear : S.maxShear = T.maxShear
  displacement : S.displacement = T.displacement

/-- What is left out of the problem. -/
inductive Missing where
  | load
  | r
  | e1
  | e2
  | v1
  | v2
  | bothE
  deriving DecidableEq

/-- The independent data of a problem. -/
def system (r e1 e2 v1 v2 load : ℝ) : Missing → System
  | .load => ⟨some r, some e1, some e2, some v1, some v2, none⟩
  | .r => ⟨none, some e1, some e2, some v1, some v2, some load⟩
  | .e1 => ⟨some r, none, some e2, some v1, some v2, some load⟩
  | .e2 => ⟨some r, some e1, none, some v1, some v2, some load⟩
  | .v1 => ⟨some r, some e1, some e2, none, some v2, some load⟩
  | .v2 => ⟨some r, some e1, some e2, some v1, none, some load⟩
  | .bothE => ⟨some r, none, none, some v1, some v2, some load⟩

/-- The documented conventions: if both moduli are missing they are assumed to be equal; Poisson ratios that are found are not negative. -/
def Allowed (e1 e2 v1 v2 : ℝ) : Missing → Prop
  | .bothE => e1 = e2
  | .v1 => 0 ≤ v1
  | .v2 => 0 ≤ v2
  | _ => True

/-- The derived quantity that is given for a line contact. -/
inductive LineGiven where
  | pressure
  | shear
  | width

/-- The quantity in a solution. -/
def LineGiven.read (S : LineSolution) : LineGiven → ℝ
  | .pressure => S.maxPressure
  | .shear => S.maxShear
  | .width => S.width

/-- The argument list that gives this quantity. -/
def LineGiven.ask (x : ℝ) : LineGiven → LineDerived
  | .pressure => ⟨some x, none, none, none⟩
  | .shear => ⟨none, some x, none, none⟩
  | .width => ⟨none, none, none, some x⟩

/-- The argument list that gives the quantity of a solution. -/
def LineGiven.of (S : LineSolution) (g : LineGiven) : LineDerived := g.ask (g.read S)

/-- The derived quantity that is given for a point contact. -/
inductive PointGiven where
  | pressure
  | shear
  | radius
  | displacement

/-- The quantity in a solution. -/
def PointGiven.read (S : PointSolution) : PointGiven → ℝ
  | .pressure => S.maxPressure
  | .shear => S.maxShear
  | .radius => S.radius
  | .displacement => S.displacement

/-- The argument list that gives this quantity. -/
def PointGiven.ask (x : ℝ) : PointGiven → PointDerived
  | .pressure => ⟨some x, none, none, none, none, none⟩
  | .shear => ⟨none, some x, none, none, none, none⟩
  | .radius => ⟨none, none, none, some x, none, none⟩
  | .displacement => ⟨none, none, none, none, some x, none⟩

/-- The argument list that gives the quantity of a solution. -/
def PointGiven.of (S : PointSolution) (g : PointGiven) : PointDerived := g.ask (g.read S)

/-- The two bodies exchanged in the data. -/
def swap (s : System) : System := ⟨s.r, s.e2, s.e1, s.v2, s.v1, s.load⟩

end Verif.Hertz.Spec
