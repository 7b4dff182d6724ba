import Verif.Elastic.Model

/-!
# Specification vocabulary for elastic materials
-/

namespace Verif.Elastic

/-- The six numbers are the constants of one isotropic linear elastic material with positive bulk and shear modulus:
textbook definitions of Young's modulus, Poisson's ratio, first Lamé parameter and P-wave modulus from `K` and `G`. -/
structure Isotropic (p : Six) : Prop where
  K_pos : 0 < p.K
  G_pos : 0 < p.G
  E_eq : p.E = 9 * p.K * p.G / (3 * p.K + p.G)
  v_eq : p.v = (3 * p.K - 2 * p.G) / (2 * (3 * p.K + p.G))
  Lam_eq : p.Lam = p.K - 2 * p.G / 3
  M_eq : p.M = p.K + 4 * p.G / 3

/-- The names the user may give. -/
def IsName (s : String) : Prop := s = "E" ∨ s = "v" ∨ s = "G" ∨ s = "K" ∨ s = "Lam" ∨ s = "M"

/-- The value of the constant called `s` in a material. -/
noncomputable def Six.value (p : Six) (s : String) : Option ℝ :=
  if s = "E" then some p.E else if s = "v" then some p.v else if s = "G" then some p.G
  else if s = "K" then some p.K else if s = "Lam" then some p.Lam else if s = "M" then some p.M else none

/-- The pair of names is {Lam, v}. -/
def IsLamV (s t : String) : Prop := (s = "Lam" ∧ t = "v") ∨ (s = "v" ∧ t = "Lam")

/-- The pair of names is {E, M}. -/
def IsEM (s t : String) : Prop := (s = "E" ∧ t = "M") ∨ (s = "M" ∧ t = "E")

/-- The operation concerns material `i`. -/
def Op.on (i : Nat) : Op → Prop
  | .new j _ => j = i
  | .set j _ _ => j = i
  | .del j _ => j = i

end Verif.Elastic
