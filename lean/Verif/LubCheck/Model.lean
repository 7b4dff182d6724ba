import Verif.Common
import Verif.PyDict
import Verif.Lubricant.Model
import Verif.ReynoldsNew.Model

/-!
# The data check of a lubrication step: `IterSemiSystem.data_check`, `provides` and the names in the states of `IterSemiSystem.solve`

`slippy/contact/lubrication_steps.py` l.186-348 and l.445-606. Sets of names are lists of which only the members matter. The Reynolds solver is given by what it
declares (`slippy/abcs/abcs.py` l.100-103) and by the names in the dictionaries it returns.
-/

namespace Verif.LubCheck

open Verif

/-- What a Reynolds solver declares. -/
structure Declared where
  requires : List String
  provides : List String

/-- The solver of the package, `slippy/contact/unified_reynolds_solver.py` l.81-82. -/
def unified : Declared := ⟨ReynoldsNew.requires, ReynoldsNew.provides⟩

/-- The step as the check sees it. `model` is `self.model`, and in it the names of the sub models of the lubricant; `reynolds` can be deleted (l.335-337). -/
structure Step where
  reynolds : Option Declared
  model : Option (Option (List String))

/-- `data_check`, l.339-348. `errors` is `slippy.ERROR_IN_DATA_CHECK`; the result is the number of warnings (l.678-682). -/
def dataCheck (errors : Bool) (s : Step) : Except PyErr Nat :=
  if s.reynolds.isNone && errors then .error .valueError
  else
    match s.model with
    | none => .error .attributeError
    | some lubricant =>
      if lubricant.isNone && errors then .error .valueError
      else
        match s.reynolds, lubricant with
        | some r, some subs =>
          if (r.requires.filter fun n => !subs.contains n && !(["nd_gap", "nd_pressure"].contains n)).isEmpty then .ok 0
          else if errors then .error .valueError else .ok 1
        | _, _ => .error .attributeError

/-- What the step itself declares, l.291-296. -/
def baseProvides : List String :=
  ["just_touching_gap", "surface_1_points", "surface_2_points", "off_set", "time_step", "time", "interference", "total_normal_load", "pressure", "nd_pressure",
   "loads", "surface_1_displacement", "surface_2_displacement", "total_displacement", "converged", "gap", "nd_gap", "rolling_speed"]

/-- `_provides`, l.298, for the solver given to `__init__`. -/
def ownProvides (r : Declared) : List String := baseProvides ++ r.provides ++ r.requires

/-- `provides`, l.306-313. -/
def provides (r : Declared) (model : Option (Option (List String))) : List String :=
  match model with
  | some (some subs) => ownProvides r ++ subs
  | _ => ownProvides r

/-- The names in `results_last_it` when the sub models of the lubricant are first solved, l.445-461. -/
def firstNames : List String := ["nd_pressure", "just_touching_gap", "interference", "pressure", "total_displacement_z"]

/-- The names in `results_last_it` in the first call of the solver, l.461-477. -/
def firstSolve (subs : List String) : List String := firstNames ++ subs ++ ["nd_interference", "gap", "nd_gap"]

/-- The names in `results_this_it` when the sub models are solved, l.477-509; `solved` are the names the Reynolds solver returned. -/
def laterNames (solved : List String) : List String := solved ++ ["just_touching_gap", "nd_pressure", "pressure", "total_displacement_z", "gap"]

/-- The names in `results_this_it` when the loop can be left, l.509-537. -/
def endNames (solved subs : List String) : List String := laterNames solved ++ subs ++ ["nd_gap", "interference"]

/-- The names in `results_last_it` in later calls of the solver, l.541-578 and l.470-471. -/
def laterSolve (solved subs : List String) : List String := endNames solved subs ++ ["nd_interference"]

/-- The names in `current_state` when the sub models of the step are solved, l.581-605. -/
def finalNames (solved subs : List String) : List String :=
  ((["just_touching_gap", "surface_1_points", "surface_2_points", "off_set", "time_step", "time"] ++ endNames solved subs ++
    ["surface_1_displacement", "surface_2_displacement", "total_displacement"]).filter fun n => n != "total_displacement_z") ++
  ["total_normal_load", "loads", "converged", "rolling_speed"]

end Verif.LubCheck
