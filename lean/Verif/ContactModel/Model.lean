import Verif.Common
import Verif.PyDict

/-!
# The contact model itself: model of `slippy/contact/models.py`, `ContactModel.__init__` (output directory, l.66-81), `add_output` (l.130-152) and `_model_check` (l.165-184)

The steps and their order are in `Verif.ModelSteps`. `O` is the type of output requests. Paths are lists of their parts, all absolute. Printing is left out.
-/

namespace Verif.ContactModel

open Verif

/-! ## `add_output` -/

/-- The argument `active_steps`. -/
inductive Active where
  | name (s : String)
  | names (l : List String)

/-- The steps that are active, l.146-150. The order of a set is arbitrary: `order`. -/
def activeSteps (order : List String → List String) (keys : List String) : Active → Except PyErr (List String)
  | .name s =>
    if s = "all" then if "Initial" ∈ keys then .ok (order (keys.filter (fun k => k ≠ "Initial"))) else .error .keyError
    else .ok [s]
  | .names l => .ok l

variable {O : Type}

/-- The loop l.151-152: the steps with their lists of outputs. An unknown step is a `KeyError`; the outputs added before stay. -/
def appendAll (o : O) : List String → Dict (List O) → Dict (List O) × Option PyErr
  | [], d => (d, none)
  | k :: ks, d => match Dict.get? d k with
    | none => (d, some .keyError)
    | some l => appendAll o ks (Dict.set d k (l ++ [o]))

/-- `add_output`, l.130-152. -/
def addOutput (order : List String → List String) (d : Dict (List O)) (o : O) (a : Active) : Dict (List O) × Option PyErr :=
  match activeSteps order (Dict.keys d) a with
  | .error e => (d, some e)
  | .ok ks => appendAll o ks d

/-! ## The output directory -/

/-- A path from the root. -/
abbrev Path := List String

/-- The directories, the other files, and `slippy.OUTPUT_DIR`. -/
structure World where
  dirs : List Path
  files : List Path
  outputDir : Path

/-- `os.mkdir`: one directory in an existing one. -/
def mkdir (w : World) (p : Path) : Option World :=
  if p ∈ w.dirs ∨ p ∈ w.files ∨ p = [] ∨ p.dropLast ∉ w.dirs then none else some { w with dirs := p :: w.dirs }

/-- `__init__`, l.74-81: the new world, or `ValueError`. -/
def initDir (w : World) : Option Path → Except PyErr World
  | none => .ok w
  | some p =>
    if p ∈ w.dirs then .ok { w with outputDir := p }
    else match mkdir w p with
      | none => .error .valueError
      | some w => .ok { w with outputDir := p }

/-- The files of a model: `log_file_name` (l.83-85), and those of `OutputSaver` (`slippy/contact/outputs.py` l.72, l.76). -/
def filesOf (w : World) (name : String) : List Path := [w.outputDir ++ [name ++ ".log"], w.outputDir ++ [name ++ ".sdb"], w.outputDir ++ [name ++ ".sar"]]

/-! ## `_model_check` -/

/-- What is looked at of a surface. -/
structure Surface where
  discrete : Bool
  material : Bool

/-- The messages. -/
inductive Problem where
  | master
  | discrete
  | material1
  | second
  | material2
  deriving DecidableEq

/-- `warn_or_error`, l.169-173, if the condition holds; `error` is `slippy.ERROR_IN_DATA_CHECK`. The first list is that of the warnings. -/
def report (error cond : Bool) (p : Problem) (ws : List Problem) (next : List Problem → List Problem × Option PyErr) : List Problem × Option PyErr :=
  if cond then if error then (ws, some .valueError) else next (ws ++ [p]) else next ws

/-- `_model_check`, l.175-184: the warnings and the exception. The attributes of a missing surface are an `AttributeError`. -/
def modelCheck (error : Bool) (s1 s2 : Option Surface) : List Problem × Option PyErr :=
  report error s1.isNone .master [] fun ws =>
    match s1 with
    | none => (ws, some .attributeError)
    | some a =>
      report error (!a.discrete) .discrete ws fun ws =>
        report error (!a.material) .material1 ws fun ws =>
          report error s2.isNone .second ws fun ws =>
            match s2 with
            | none => (ws, some .attributeError)
            | some b => report error (!b.material) .material2 ws fun ws => (ws, none)

end Verif.ContactModel
