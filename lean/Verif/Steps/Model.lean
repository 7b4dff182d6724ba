import Verif.Common
import Verif.PyDict

/-!
# Model steps: model of `slippy/contact/steps.py`, `_ModelStep` (l.24-301)

Sets of names are lists used through membership only. Printing is left out. A sub model's `solve` is an arbitrary function of the
state.
-/

namespace Verif.Steps

/-- A sub model: the names it declares and what it computes (`abcs.py`, `_SubModelABC`). -/
structure SubModel (V : Type) where
  requires : List String
  provides : List String
  solve : Dict V → Except PyErr (Dict V)

/-! ### Data check -/

/-- The outcome of a check: the set of available names after it (a mutated set, see `dataCheck`), the problems found in order, and
whether an exception was raised. -/
structure Checked where
  state : List String
  problems : List Nat := []
  raised : Bool := false
  deriving DecidableEq, Repr

/-- `s.update(t)`. -/
def unionSet (s t : List String) : List String := s ++ t.filter (fun n => !s.contains n)

/-- `_ModelStep.check_sub_models`, l.143-168. `errorMode` is `slippy.ERROR_IN_DATA_CHECK`: a problem raises, otherwise it is a
warning (l.17-22). A problem is recorded as the number of the sub model. The set is changed in place, also if the check raises. -/
def checkSubModels {V : Type} (errorMode : Bool) : List (SubModel V) → Nat → List String → Checked
  | [], _, state => { state }
  | m :: rest, i, state =>
    if m.requires.any (fun n => !state.contains n) then
      if errorMode then { state, problems := [i], raised := true }
      else
        let r := checkSubModels errorMode rest (i + 1) (unionSet state m.provides)
        { r with problems := i :: r.problems }
    else checkSubModels errorMode rest (i + 1) (unionSet state m.provides)

/-- The part of `_ModelStep._data_check` (l.65-91) concerned with sub models, as a change of `self.provides`. `current_state` is
the attribute `self.provides` itself, so the names added by `check_sub_models` stay in `self.provides`. For the steps whose
`provides` is a property that returns a new set (`lubrication_steps.py` l.306-313, with a lubricant) `aliased` is false. -/
def dataCheck {V : Type} (errorMode aliased : Bool) (subs : List (SubModel V)) (provides : List String) :
    Checked × List String :=
  let r := checkSubModels errorMode subs 0 provides
  (r, if aliased then r.state else provides)

/-- `n` data checks in a row; the outcomes in order. -/
def dataChecks {V : Type} (errorMode aliased : Bool) (subs : List (SubModel V)) : Nat → List String → List Checked
  | 0, _ => []
  | n + 1, provides =>
    let r := dataCheck errorMode aliased subs provides
    r.1 :: dataChecks errorMode aliased subs n r.2

/-! ### Solving sub models -/

/-- Equality of sets of names. -/
def sameSet (s t : List String) : Bool := s.all t.contains && t.all s.contains

/-- The loop of `_ModelStep.solve_sub_models`, l.287-298. `errorSub` is `slippy.ERROR_IF_MISSING_SUB_MODEL`. -/
def solveLoop {V : Type} (errorSub : Bool) : List (SubModel V) → Dict V → Except PyErr (Dict V)
  | [], state => .ok state
  | m :: rest, state =>
    match m.solve state with
    | .error e => .error e
    | .ok found =>
      if !sameSet m.provides found.keys && !errorSub then .error .valueError
      else solveLoop errorSub rest (state.update found)

/-- `_ModelStep.solve_sub_models`, l.278-298. `errorModel` is `slippy.ERROR_IF_MISSING_MODEL`. -/
def solveSubModels {V : Type} (errorModel errorSub : Bool) (provides : List String) (subs : List (SubModel V)) (state : Dict V) :
    Except PyErr (Dict V) :=
  if !sameSet provides state.keys && !errorModel then .error .valueError
  else solveLoop errorSub subs state

/-! ### Saving outputs -/

/-- Values in the state: load or displacement triples (named tuples with fields x, y, z), pairs of coordinate arrays, anything else,
or a string. -/
inductive FVal (V : Type)
  | triple (x y z : V)
  | pair (p0 p1 : V)
  | val (v : V)
  | str (s : String)
  deriving DecidableEq, Repr

/-- The attributes `.x`, `.y`, `.z`. -/
def FVal.xyz {V : Type} : FVal V → Except PyErr (List V)
  | .triple x y z => .ok [x, y, z]
  | _ => .error .attributeError

/-- The items `[0]` and `[1]` (an ordinary value or a string is taken not to have them). -/
def FVal.items {V : Type} : FVal V → Except PyErr (List V)
  | .triple x y _ => .ok [x, y]
  | .pair a b => .ok [a, b]
  | _ => .error .typeError

/-- A name that is split, the names of the parts in the order of the assignments, and how their values are found. -/
structure Parts (V : Type) where
  name : String
  new : List String
  get : FVal V → Except PyErr (List V)

/-- The names split into three components, l.220-224. -/
def tripleNames (V : Type) : List (Parts V) :=
  [⟨"loads", ["loads_x", "loads_y", "loads_z"], FVal.xyz⟩,
   ⟨"total_displacement", ["total_displacement_x", "total_displacement_y", "total_displacement_z"], FVal.xyz⟩,
   ⟨"surface_1_displacement", ["surface_1_displacement_x", "surface_1_displacement_y", "surface_1_displacement_z"], FVal.xyz⟩,
   ⟨"surface_2_displacement", ["surface_2_displacement_x", "surface_2_displacement_y", "surface_2_displacement_z"], FVal.xyz⟩]

/-- The names split into two coordinates, l.230-233: the first item is y, the second x. -/
def pairNames (V : Type) : List (Parts V) :=
  [⟨"surface_1_points", ["surface_1_points_y", "surface_1_points_x"], FVal.items⟩,
   ⟨"surface_2_points", ["surface_2_points_y", "surface_2_points_x"], FVal.items⟩]

/-- `params.update(new)` and `params.remove(p)`, if `p` is in the set. -/
def replaceParam (params : List String) (p : String) (new : List String) : List String :=
  if params.contains p then (unionSet params new).filter (fun n => n != p) else params

/-- Body of the loops l.220-228 and l.230-237. -/
def expandPart {V : Type} (p : Parts V) (st : Dict (FVal V) × List String) : Except PyErr (Dict (FVal V) × List String) :=
  match Dict.get? st.1 p.name with
  | none => .ok (st.1, replaceParam st.2 p.name p.new)
  | some f =>
    match p.get f with
    | .error e => .error e
    | .ok vs => .ok ((Dict.update st.1 (p.new.zip (vs.map FVal.val))).erase p.name, replaceParam st.2 p.name p.new)

/-- The loops over the split names. -/
def expandParts {V : Type} : List (Parts V) → Dict (FVal V) × List String → Except PyErr (Dict (FVal V) × List String)
  | [], st => .ok st
  | p :: ps, st =>
    match expandPart p st with
    | .error e => .error e
    | .ok st' => expandParts ps st'

/-- Lines 239-242. -/
def expandAll {V : Type} (st : Dict (FVal V) × List String) : List String :=
  if st.2.contains "all" then (unionSet st.2 (Dict.keys st.1)).filter (fun n => n != "all") else st.2

/-- `mo.startswith('surface') and ';' not in mo`, l.249. -/
def isSurfaceAttr (mo : String) : Bool := mo.toList.take 7 == "surface".toList && !mo.toList.contains ';'

/-- The loop l.248-266 over the missing outputs. `execOk mo` says whether the statement `param = self.model.<mo>` runs without an
exception. Inside a function `exec` does not assign the local variable `param`: after a successful `exec` the variable still has
the value it had before, which is at first the last value of the loop variable of l.230, the string `'surface_2_points'`. A failed
`exec` sets it to `None`. For names that are not surface attributes the variable is not touched at all. -/
def fillMissing {V : Type} (execOk : String → Bool) : Option String → List String → Dict (FVal V) → List String →
    Dict (FVal V) × List String
  | _, [], d, missing => (d, missing)
  | param, mo :: rest, d, missing =>
    let param' := if isSurfaceAttr mo then (if execOk mo then param else none) else param
    match param' with
    | some s => fillMissing execOk param' rest (d.set mo (.str s)) (missing.filter (fun n => n != mo))
    | none => fillMissing execOk param' rest d missing

/-- `{key: expanded_state[key] for key in params_to_save}`, l.275. -/
def collect {V : Type} (d : Dict (FVal V)) : List String → Except PyErr (Dict (FVal V))
  | [] => .ok []
  | k :: ks =>
    match d.get? k with
    | none => .error .keyError
    | some v =>
      match collect d ks with
      | .error e => .error e
      | .ok r => .ok ((k, v) :: r)

/-- Lines 219-275, given the names requested by the active outputs. `ord` gives the order in which Python iterates over a set. -/
def record {V : Type} (ord : List String → List String) (execOk : String → Bool) (requested : List String)
    (state : Dict (FVal V)) : Except PyErr (Dict (FVal V)) :=
  match expandParts (tripleNames V ++ pairNames V) (state, requested) with
  | .error e => .error e
  | .ok st =>
    let params := expandAll st
    let missing := params.filter (fun n => !(Dict.keys st.1).contains n)
    let r := fillMissing execOk (some "surface_2_points") (ord missing) st.1 missing
    collect r.1 (params.filter (fun n => !r.2.contains n))

/-- An output request as seen by `save_outputs`: its parameters and the answer of `is_active`. -/
structure Output where
  parameters : List String
  active : Bool

/-- Lines 214-217: the names requested by the active outputs and the time. -/
def requestedNames (outputs : List Output) : List String :=
  outputs.foldl (fun s o => if o.active then unionSet s o.parameters else s) ["time"]

/-- `_ModelStep.save_outputs`, l.200-276: the records written to the output file. -/
def saveOutputs {V : Type} (ord : List String → List String) (execOk : String → Bool) (outputs : List Output)
    (state : Dict (FVal V)) : Except PyErr (List (Dict (FVal V))) :=
  if outputs.isEmpty then .ok []
  else
    match state.get? "time" with
    | none => .error .keyError
    | some _ =>
      match record ord execOk (requestedNames outputs) state with
      | .error e => .error e
      | .ok r => .ok [r]

/-! ### Checking outputs -/

/-- `_ModelStep.check_outputs`, l.97-141: the names reported as missing (an error or a warning for each) and the surface
attributes that are only warned about. `parameters` are those of all outputs. -/
def checkOutputs (outputs : List Output) (state : List String) : List String × List String :=
  let params := outputs.foldl (fun s o => unionSet s o.parameters) ["time"]
  let params := if params.contains "all" then (unionSet params state).filter (fun n => n != "all") else params
  let st := (tripleNames Unit).foldl (fun (st : List String × List String) p =>
    (replaceParam st.1 p.name p.new, replaceParam st.2 p.name p.new)) (state, params)
  let missing := st.2.filter (fun n => !st.1.contains n)
  (missing.filter (fun n => !isSurfaceAttr n), missing.filter isSurfaceAttr)

end Verif.Steps
