import Verif.Common

/-!
# Files and console of an analysis: model of `ContactModel.solve`, `slippy/contact/models.py` l.186-232, `data_check`, l.154-163, `log_file_name`, l.83-85, and of `OutputSaver.__enter__` and
`__exit__`, `slippy/contact/outputs.py` l.69-82

What the checks and the steps do is a list of acts: they print and may raise. What they write to the output files is in `Verif.Outputs`. The content of a text file is the list of its lines as it is
after closing (no buffers). `tinydb.TinyDB(f, 'w')` and `zipfile.ZipFile(f, 'w')` make the file anew and keep it open. `ExitStack` leaves what was entered in reverse order, also after an exception,
which goes on. Paths are lists of their parts.
-/

namespace Verif.RunFiles

abbrev Path := List String

/-- Exceptions: those of the file system and others. -/
inductive Err
  | os
  | py (e : PyErr)
  deriving DecidableEq

/-- The world outside of the analysis. `stdout` is where `print` writes: the console or an open file. `opened` are the open files, the last one first. -/
structure World where
  dirs : List Path
  files : Path → Option (List String)
  stdout : Option Path
  console : List String
  opened : List Path
  outputDir : Path

/-- What the checks and the steps do. -/
inductive Act
  | print (line : String)
  | raise (e : PyErr)

/-- `print`. -/
def World.print (w : World) (line : String) : World :=
  match w.stdout with
  | none => { w with console := w.console ++ [line] }
  | some p => { w with files := fun q => if q = p then (w.files p).map (· ++ [line]) else w.files q }

/-- `os.path.exists`. -/
def World.exists (w : World) (p : Path) : Bool := w.dirs.contains p || (w.files p).isSome

/-- `os.remove`: of a file. -/
def World.remove (w : World) (p : Path) : Except Err World :=
  if w.dirs.contains p || (w.files p).isNone then .error .os else .ok { w with files := fun q => if q = p then none else w.files q }

/-- `if os.path.exists(p): os.remove(p)`. -/
def World.removeOld (w : World) (p : Path) : Except Err World := if w.exists p then w.remove p else .ok w

/-- Opening an empty file for writing: in an existing directory, and not a directory itself. -/
def World.create (w : World) (p : Path) : Except Err World :=
  if w.dirs.contains p || !w.dirs.contains p.dropLast then .error .os
  else .ok { w with files := fun q => if q = p then some [] else w.files q, opened := p :: w.opened }

/-- `open(p, 'x')`: the file must not exist. -/
def World.createNew (w : World) (p : Path) : Except Err World := if w.exists p then .error .os else w.create p

/-- Closing a file. -/
def World.close (w : World) (p : Path) : World := { w with opened := w.opened.erase p }

/-- The files of a model: `models.py` l.85, `outputs.py` l.70 and l.74. -/
def World.path (w : World) (name ending : String) : Path := w.outputDir ++ [name ++ ending]

/-- `OutputSaver.__enter__`, l.69-76: the world, and the exception if there is one. -/
def enterSaver (w : World) (name : String) : World × Option Err :=
  match w.removeOld (w.path name ".sdb") with
  | .error e => (w, some e)
  | .ok w => match w.create (w.path name ".sdb") with
    | .error e => (w, some e)
    | .ok w => match w.create (w.path name ".sar") with
      | .error e => (w, some e)
      | .ok w => (w, none)

/-- `OutputSaver.__exit__`, l.78-81. -/
def exitSaver (w : World) (name : String) : World := (w.close (w.path name ".sdb")).close (w.path name ".sar")

/-- Acts one after another, up to an exception. -/
def run (w : World) : List Act → World × Option Err
  | [] => (w, none)
  | .print l :: as => run (w.print l) as
  | .raise e :: _ => (w, some (.py e))

/-- One after the other: the second only if there was no exception. -/
def andThen (r : World × Option Err) (f : World → World × Option Err) : World × Option Err :=
  match r with
  | (w, some e) => (w, some e)
  | (w, none) => f w

/-- `data_check`, l.154-163: `now` is the time as text, `check` the checks of the model and of the steps. -/
def dataCheck (w : World) (name now : String) (check : List Act) : World × Option Err :=
  run (((w.print "Data check started at:").print now).print ("Checking model " ++ name ++ ":")) check

/-- The loop over the steps, l.223-227. -/
def solveSteps (w : World) : List (String × List Act) → World × Option Err
  | [] => (w, none)
  | (k, as) :: rest => andThen (run (w.print ("Solving step " ++ k)) as) fun w => solveSteps w rest

/-- What is done within the context managers, l.218-230. -/
def inner (w : World) (name : String) (skip : Bool) (cuda now now' : String) (check : List Act) (steps : List (String × List Act)) : World × Option Err :=
  andThen (if skip then (w, none) else dataCheck w name now check) fun w =>
  andThen (solveSteps (w.print ("Solving model " ++ name ++ ", CUDA = " ++ cuda)) steps) fun w =>
  (w.print ("Analysis completed successfully at: " ++ now'), none)

/-- `solve`, l.207-232. -/
def solve (w : World) (name : String) (verbose skip : Bool) (cuda now now' : String) (check : List Act) (steps : List (String × List Act)) : World × Option Err :=
  match w.removeOld (w.path name ".log") with
  | .error e => (w, some e)
  | .ok w => match enterSaver w name with
    | (w, some e) => (w, some e)
    | (w, none) =>
      if verbose then
        let r := inner w name skip cuda now now' check steps
        (exitSaver r.1 name, r.2)
      else match w.createNew (w.path name ".log") with
        | .error e => (exitSaver w name, some e)
        | .ok w =>
          let before := w.stdout
          let r := inner { w with stdout := some (w.path name ".log") } name skip cuda now now' check steps
          (exitSaver ({ r.1 with stdout := before }.close (w.path name ".log")) name, r.2)

end Verif.RunFiles
