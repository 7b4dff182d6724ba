import Verif.Common
import Verif.PyDict

/-!
# Steps of a contact model: model of `slippy/contact/models.py`, `ContactModel.__init__` (steps), `add_step` (l.87-128), `data_check`
(l.154-163, the part about steps) and `solve` (l.186-232, without log files), with `InitialStep` of `slippy/contact/steps.py` (l.304-337)

`S` is the type of the model state handed from step to step. Step objects have an identity `ident`; adding a step to a model sets
its attribute `model`, which can be set only once (`steps.py` l.56-63).
-/

namespace Verif.ModelSteps

/-- What a step does when solved. -/
inductive Kind (S : Type)
  | initial
  | step (solve : Option S → Except PyErr S)

/-- A step object. `outputs` tells whether the step has output requests. -/
structure Step (S : Type) where
  ident : Nat
  name : String
  kind : Kind S
  outputs : Bool := false

/-- The model: its ordered dictionary of steps, and the identities of the step objects whose attribute `model` has been set. -/
structure Model (S : Type) where
  steps : Dict (Step S)
  owned : List Nat

/-- The position argument of `add_step`. -/
inductive Pos
  | none
  | int (i : Int)
  | str (s : String)
  deriving DecidableEq

/-- `l.insert(i, x)` of Python lists: negative indices count from the end, indices out of range are clamped. -/
def pyInsert {α : Type _} (l : List α) (i : Int) (x : α) : List α :=
  let j : Int := if i < 0 then i + l.length else i
  let k : Nat := if j < 0 then 0 else if l.length < j.toNat then l.length else j.toNat
  l.take k ++ x :: l.drop k

/-- Building an ordered dictionary from the items (l.124-126): later values replace earlier ones in place. -/
def ofItems {V : Type _} (items : List (String × V)) : Dict V := items.foldl (fun d kv => d.set kv.1 kv.2) []

/-- `list.index`, `ValueError` if absent. -/
def indexOf (keys : List String) (s : String) : Except PyErr Int :=
  match keys.findIdx? (fun k => k == s) with
  | some i => .ok i
  | Option.none => .error .valueError

/-- `ContactModel.add_step`, l.87-128. The result is the new state of the model and the exception, if any: the attribute `model` of
the step is set (l.113) before the position is looked up. -/
def addStep {S : Type} (m : Model S) (s : Step S) (pos : Pos) : Model S × Option PyErr :=
  if m.owned.contains s.ident then (m, some .valueError)
  else
    let m1 : Model S := { m with owned := s.ident :: m.owned }
    match pos with
    | .none => ({ m1 with steps := Dict.set m.steps s.name s }, Option.none)
    | .int i =>
      let keys := pyInsert (Dict.keys m.steps) i s.name
      let values := pyInsert (m.steps.map Prod.snd) i s
      ({ m1 with steps := ofItems (keys.zip values) }, Option.none)
    | .str p =>
      match indexOf (Dict.keys m.steps) p with
      | .error e => (m1, some e)
      | .ok i =>
        let keys := pyInsert (Dict.keys m.steps) i s.name
        let values := pyInsert (m.steps.map Prod.snd) i s
        ({ m1 with steps := ofItems (keys.zip values) }, Option.none)

/-- `ContactModel.__init__`: the initial step is there from the start, under the name `Initial`. -/
def Model.init {S : Type} (ident : Nat) : Model S :=
  { steps := [("Initial", { ident, name := "initial", kind := .initial })], owned := [] }

/-- `step.solve(current_state, …)`: `InitialStep.solve` (steps.py l.327-334) raises if there is a state already. `s0` is the state
it returns. -/
def Step.solve {S : Type} (s0 : S) (s : Step S) (state : Option S) : Except PyErr S :=
  match s.kind with
  | .initial => match state with
    | some _ => .error .valueError
    | Option.none => .ok s0
  | .step f => f state

/-- The loop of `ContactModel.solve`, l.223-227. With outputs the time of the current state is read first, which is a `TypeError` if
there is no state yet. The second component is a ghost log: the steps solved so far with their results, newest first. -/
def solveLoop {S : Type} (s0 : S) : List (String × Step S) → Option S → List (String × S) → Except PyErr (Option S × List (String × S))
  | [], state, log => .ok (state, log)
  | (k, s) :: rest, state, log =>
    if s.outputs && state.isNone then .error .typeError
    else
      match s.solve s0 state with
      | .error e => .error e
      | .ok st => solveLoop s0 rest (some st) ((k, st) :: log)

/-- `ContactModel.solve`: the final state and the log in order. -/
def solve {S : Type} (s0 : S) (m : Model S) : Except PyErr (Option S × List (String × S)) :=
  match solveLoop s0 m.steps Option.none [] with
  | .error e => .error e
  | .ok (st, log) => .ok (st, log.reverse)

/-- `ContactModel.data_check`, l.160-163, for the order of the steps: `InitialStep._data_check` (steps.py l.319-325) prints an error if
it is given a state, and returns the names it provides; `_ModelStep._data_check` (steps.py l.65-91) returns `None`. The result tells
whether the order was complained about. -/
def checkOrder {S : Type} : List (String × Step S) → Option (List String) → Bool
  | [], _ => false
  | (_, s) :: rest, state =>
    match s.kind with
    | .initial => state.isSome || checkOrder rest (some ["off_set", "time", "interference"])
    | .step _ => checkOrder rest Option.none

end Verif.ModelSteps
