import Verif.Common

/-!
# The global CUDA switch: model of `OverRideCuda`, `slippy/__init__.py` l.25-35, and of the way `IterSemiSystem.solve` sets and resets the switch, `slippy/contact/lubrication_steps.py`
l.357-359 and l.606

A program is a list of statements acting on the switch. `with` calls `__enter__`, runs the block, and calls `__exit__` also if there was an exception, which goes on since `__exit__` returns `None`.
The objects are bound to names (natural numbers). All other statements, which do not touch the switch, are left out, except that they may raise.
-/

namespace Verif.Cuda

/-- Statements. -/
inductive Stmt where
  /-- `slippy.CUDA = b` -/
  | set (b : Bool)
  /-- `k = OverRideCuda()` -/
  | new (k : Nat)
  /-- `with k: …` -/
  | use (k : Nat) (body : List Stmt)
  /-- `with OverRideCuda(): …` -/
  | useNew (body : List Stmt)
  /-- Any statement that raises. -/
  | raise
  /-- `step.solve(…)` of a lubrication step, whose inner statements are `body`. -/
  | solve (body : List Stmt)
  /-- `try: … except: pass` -/
  | tryPass (body : List Stmt)

/-- The switch, and the attribute `cuda` of the objects. -/
structure St where
  cuda : Bool
  obj : Nat → Option Bool

/-- `k = OverRideCuda()`, l.26-27. -/
def St.create (s : St) (k : Nat) : St := { s with obj := fun j => if j = k then some s.cuda else s.obj j }

/-- `__enter__`, l.29-31. -/
def St.enter (s : St) : St := { s with cuda := false }

/-- `__exit__` of an object that keeps `b`, l.33-35. -/
def St.exit (s : St) (b : Bool) : St := { s with cuda := b }

mutual

/-- One statement: the state afterwards, and whether an exception is raised. -/
def run (s : St) : Stmt → St × Bool
  | .set b => ({ s with cuda := b }, false)
  | .new k => (s.create k, false)
  | .use k body => match s.obj k with
    | none => (s, true)
    | some b =>
      let r := runAll s.enter body
      (r.1.exit b, r.2)
  | .useNew body =>
    let b := s.cuda
    let r := runAll s.enter body
    (r.1.exit b, r.2)
  | .raise => (s, true)
  | .solve body =>
    let b := s.cuda
    let r := runAll { s with cuda := false } body
    if r.2 then r else ({ r.1 with cuda := b }, false)
  | .tryPass body => ((runAll s body).1, false)

/-- A list of statements, up to the first exception. -/
def runAll (s : St) : List Stmt → St × Bool
  | [] => (s, false)
  | a :: l =>
    let r := run s a
    if r.2 then r else runAll r.1 l

end

end Verif.Cuda
