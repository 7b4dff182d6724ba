import Verif.Steps.Model
import Verif.Stiffness.Model
import Verif.LubCheck.Model

/-!
# The names the built-in sub models read and write: `slippy/contact/sub_models`

The five sub models of the package as users of the dictionary of results: which names they declare, which they read (a missing name is a
`KeyError`), and which they return. The numbers are not modelled here except for the names of the contact stiffness (`Verif/Stiffness/Model.lean`):
the value found under a name is an arbitrary function of the state. The exceptions for unsuitable materials are left out.
-/

namespace Verif.SubNames

open Verif Steps

/-- How the rigid body displacement of `TangentialPartialSlip` is given (`tangential_partial_slip.py` l.43-76). -/
inductive SlipKind where
  /-- A load is given. -/
  | load
  /-- Neither is given: it comes from another sub model. -/
  | fromState
  /-- A table of displacements over time. -/
  | table
  /-- One displacement. -/
  | constant
  deriving DecidableEq

/-- The sub models of the package (`sub_models/__init__.py` l.22-26), after their constructors. For the wear model: whether the proportions
of surfaces 1 and 2 are positive, and `no_time`. -/
inductive BuiltIn where
  | coulomb
  | sliding
  | slip (k : SlipKind)
  | stiffness (c : Stiffness.Config)
  | wear (p1 p2 noTime : Bool)

/-- The declared `requires`: `friction_coulomb_model.py` l.27, `tangential_pure_sliding.py` l.30, `tangential_partial_slip.py` l.41-45,
`contact_stiffness.py` l.94, `epp_wear.py` l.55 and l.71-76. -/
def BuiltIn.requires : BuiltIn → List String
  | .coulomb => ["loads"]
  | .sliding => ["maximum_tangential_force"]
  | .slip k => ["maximum_tangential_force", "contact_nodes", "time"] ++ if k = .fromState then ["rigid_body_displacement"] else []
  | .stiffness _ => ["contact_nodes", "loads"]
  | .wear p1 p2 _ => ["interference", "total_displacement", "just_touching_gap"] ++ (if p1 then ["surface_1_points"] else []) ++
      (if p2 then ["surface_2_points"] else [])

/-- The declared `provides`: `friction_coulomb_model.py` l.28, `tangential_pure_sliding.py` l.31, `tangential_partial_slip.py` l.49,
`contact_stiffness.py` l.79-88, `epp_wear.py` l.56 and l.71-76. -/
def BuiltIn.provides : BuiltIn → List String
  | .coulomb => ["maximum_tangential_force"]
  | .sliding => ["loads"]
  | .slip _ => ["slip_distance", "stick_nodes"]
  | .stiffness c => c.provides
  | .wear p1 p2 _ => ["total_plastic_deformation"] ++ (if p1 then ["wear_plastic_surface_1"] else []) ++ (if p2 then ["wear_plastic_surface_2"] else [])

/-- What the values of the results are and how they are computed. -/
structure Values (V ι : Type) where
  /-- `not value`. -/
  falsy : V → Bool
  /-- The value found under a name from the state. -/
  val : String → Dict V → V
  /-- A number as a value. -/
  num : XR → V
  /-- The contact nodes, and those below the maximum load, on the cropped grid. -/
  nodes : V → ι → Bool
  elastic : V → V → ι → Bool
  /-- The displacements of the stiffness problem, the sum of the influence matrix, the results kept from earlier calls. -/
  A : (ι → XR) → ι → XR
  imSum : ℝ
  mem : Stiffness.Memory ι

/-- `current_state[name]`. -/
def item {V : Type} (d : Dict V) (name : String) : Except PyErr V :=
  match d.get? name with
  | some v => .ok v
  | none => .error .keyError

variable {V ι : Type} [Fintype ι]

/-- `FrictionCoulombSimple.solve`, `friction_coulomb_model.py` l.32-33. -/
def solveCoulomb (w : Values V ι) (d : Dict V) : Except PyErr (Dict V) := do
  let _ ← item d "loads"
  .ok [("maximum_tangential_force", w.val "maximum_tangential_force" d)]

/-- `TangentialPureSliding.solve`, `tangential_pure_sliding.py` l.51-53. -/
def solveSliding (w : Values V ι) (d : Dict V) : Except PyErr (Dict V) := do
  let _ ← item d "maximum_tangential_force"
  let _ ← item d "loads"
  .ok [("loads", w.val "loads" d)]

/-- `TangentialPartialSlip.solve`, `tangential_partial_slip.py` l.103-155: the state is changed in place and returned. -/
def solveSlip (w : Values V ι) (k : SlipKind) (d : Dict V) : Except PyErr (Dict V) := do
  let _ ← item d "maximum_tangential_force"
  let _ ← item d "contact_nodes"
  match k with
  | .load => .error .notImplementedError
  | .table => do let _ ← item d "time"
  | .fromState => do let _ ← item d "rigid_body_displacement"
  | .constant => .ok ()
  let d := d.set "stick_nodes" (w.val "stick_nodes" d)
  let d := d.set "loads" (w.val "loads" d)
  let d := d.set "total_displacement" (w.val "total_displacement" d)
  let d := d.set "slip_distance" (w.val "slip_distance" d)
  .ok d

/-- `ResultContactStiffness.solve`, `contact_stiffness.py` l.187-201 with l.104-115. -/
noncomputable def solveStiffness (w : Values V ι) (c : Stiffness.Config) (d : Dict V) : Except PyErr (Dict V) := do
  let elastic ← if c.loading then do
      let n ← item d "contact_nodes"
      let l ← item d "loads"
      .ok (w.elastic n l)
    else .ok fun _ => false
  let nodes ← if c.unloading then do
      let n ← item d "contact_nodes"
      .ok (w.nodes n)
    else .ok fun _ => false
  .ok ((Stiffness.solve c w.A w.imSum elastic nodes w.mem).1.map fun e => (e.1, w.num e.2))

/-- `'converged' in current_state and not current_state['converged']`, `epp_wear.py` l.81. -/
def failed (w : Values V ι) (d : Dict V) : Bool :=
  match d.get? "converged" with
  | some v => w.falsy v
  | none => false

/-- `WearElasticPerfectlyPlastic.solve`, `epp_wear.py` l.80-131. -/
def solveWear (w : Values V ι) (p1 p2 noTime : Bool) (d : Dict V) : Except PyErr (Dict V) := do
  if failed w d then return d
  if noTime then
    let _ ← item d "just_touching_gap"
    let _ ← item d "interference"
    let _ ← item d "total_displacement"
  else
    let _ ← item d "gap"
  let _ ← item d "loads"
  let _ ← item d "contact_nodes"
  if p1 then let _ ← item d "surface_1_points"
  if p2 then let _ ← item d "surface_2_points"
  .ok ([("total_plastic_deformation", w.val "total_plastic_deformation" d)] ++
    (if p1 then [("wear_plastic_surface_1", w.val "wear_plastic_surface_1" d)] else []) ++
    (if p2 then [("wear_plastic_surface_2", w.val "wear_plastic_surface_2" d)] else []))

/-- The `solve` of a sub model. -/
noncomputable def BuiltIn.solve (w : Values V ι) : BuiltIn → Dict V → Except PyErr (Dict V)
  | .coulomb => solveCoulomb w
  | .sliding => solveSliding w
  | .slip k => solveSlip w k
  | .stiffness c => solveStiffness w c
  | .wear p1 p2 noTime => solveWear w p1 p2 noTime

/-- A built-in sub model as the steps see it. -/
noncomputable def BuiltIn.sub (w : Values V ι) (b : BuiltIn) : SubModel V := ⟨b.requires, b.provides, b.solve w⟩

/-- What `StaticStep` (`static_step.py` l.136-138) and `QuasiStaticStep` (`quasi_static_step.py` l.238-240) declare. -/
def contactStep : List String :=
  ["off_set", "loads", "surface_1_displacement", "surface_2_displacement", "total_displacement", "interference", "just_touching_gap",
   "surface_1_points", "contact_nodes", "total_normal_load", "surface_2_points", "time", "time_step", "new_step", "converged", "gap"]

end Verif.SubNames
