import Verif.Common
import Verif.PyDict

/-!
# Lubricants: model of `slippy/contact/lubricant.py`

A sub model is a Python callable. Only its signature (what `inspect.getfullargspec` reports) and its behaviour as a function of
the keyword arguments matter. `*args` parameters receive nothing in these calls and are left out.
-/

namespace Verif.Lubricant

/-- One parameter of a signature. -/
structure Param where
  name : String
  hasDefault : Bool
  deriving DecidableEq, Repr

/-- A Python signature: positional-only parameters, positional-or-keyword parameters, keyword-only parameters, and whether there
is a `**kwargs` parameter. `bound` is true for bound methods and callable instances: Python passes the object itself as the first
positional argument. -/
structure Sig where
  posOnly : List Param := []
  posOrKw : List Param := []
  kwOnly : List Param := []
  varkw : Bool := true
  bound : Bool := false
  deriving DecidableEq, Repr

/-- `inspect.getfullargspec(f).args`: the positional-only and positional-or-keyword parameters. The bound first argument is
included (`getfullargspec` does not drop it) and keyword-only parameters are not. -/
def Sig.args (s : Sig) : List String := (s.posOnly ++ s.posOrKw).map Param.name

/-- What can go wrong when a sub model is called: Python cannot bind the arguments (`TypeError`), or the body raises. -/
inductive CallErr
  | binding
  | raised (e : PyErr)
  deriving DecidableEq, Repr

/-- A callable: its signature and what the body computes from the keyword arguments. -/
structure Func (V : Type) where
  sig : Sig
  body : Dict V → Except PyErr V

/-- The Python rules for binding the call `f(**state)`, where the keys of the state are `keys`.
The object of a bound method fills the first positional parameter; a keyword naming that parameter again is an error unless it is
positional-only; an unexpected keyword is an error unless there is `**kwargs`; every parameter without a default needs a value. -/
def Sig.binds (s : Sig) (keys : List String) : Bool :=
  let selfArg : List Param := if s.bound then (s.posOnly ++ s.posOrKw).take 1 else []
  let restPosOnly := if s.bound then s.posOnly.drop 1 else s.posOnly
  let restPosOrKw := if s.bound then (if s.posOnly.isEmpty then s.posOrKw.drop 1 else s.posOrKw) else s.posOrKw
  let dup := s.bound && s.posOnly.isEmpty && selfArg.any (fun p => keys.contains p.name)
  let noSelfParam := s.bound && selfArg.isEmpty
  let unexpected := !s.varkw && keys.any (fun k => !((s.posOrKw ++ s.kwOnly).any (fun p => p.name == k)))
  let missing := restPosOnly.any (fun p => !p.hasDefault) ||
    restPosOrKw.any (fun p => !p.hasDefault && !keys.contains p.name) ||
    s.kwOnly.any (fun p => !p.hasDefault && !keys.contains p.name)
  !dup && !noSelfParam && !unexpected && !missing

/-- The call `f(**state)`. -/
def Func.call {V : Type} (f : Func V) (state : Dict V) : Except CallErr V :=
  if f.sig.binds state.keys then
    match f.body state with
    | .ok v => .ok v
    | .error e => .error (.raised e)
  else .error .binding

/-- `Lubricant.sub_models`, an `OrderedDict` (l.56). -/
abbrev SubModels (V : Type) := Dict (Func V)

/-- `str.isidentifier` for ASCII names (non-ASCII identifiers are left out). -/
def isIdentifier (s : String) : Bool :=
  match s.toList with
  | [] => false
  | c :: cs => (c.isAlpha || c == '_') && cs.all (fun c => c.isAlphanum || c == '_')

/-- `Lubricant.add_sub_model`, l.74-121. That the name is a string and the function callable is built into the types. -/
def addSubModel {V : Type} (subs : SubModels V) (name : String) (f : Func V) : Except PyErr (SubModels V) :=
  if !isIdentifier name then .error .assertionError
  else if !f.sig.varkw then .error .assertionError
  else .ok (subs.set name f)

/-- `constant_array_property`, `lubricant_models.py` l.12-46: needs `just_touching_gap` and returns the constant (`val`) in the
shape of the gap. -/
def constantArrayProperty {V : Type} (val : V → V) : Func V where
  sig := { posOrKw := [⟨"just_touching_gap", false⟩] }
  body := fun d => match d.get? "just_touching_gap" with
    | some g => .ok (val g)
    | none => .error .keyError

/-- `Lubricant.__init__`, l.52-72: constant viscosity and density first, then the given models in order. -/
def init {V : Type} (constVisc constDens : Option (V → V)) (one : V → V) (models : List (String × Func V)) :
    Except PyErr (SubModels V) :=
  let visc := match constVisc with
    | some c => [("viscosity", constantArrayProperty c), ("nd_viscosity", constantArrayProperty one)]
    | none => []
  let dens := match constDens with
    | some c => [("density", constantArrayProperty c), ("nd_density", constantArrayProperty one)]
    | none => []
  (visc ++ dens ++ models).foldlM (fun subs kf => addSubModel subs kf.1 kf.2) []

/-- `Lubricant.data_check`, l.123-146. The state is the set of names; the argument is changed in place, so the returned set is
also the caller's set. -/
def dataCheck {V : Type} : SubModels V → List String → Except PyErr (List String)
  | [], state => .ok state
  | (key, f) :: rest, state =>
    if f.sig.args.any (fun arg => !state.contains arg && arg != "self") then .error .valueError
    else dataCheck rest (if state.contains key then state else state ++ [key])

/-- `Lubricant.solve_sub_models`, l.148-163. -/
def solveSubModels {V : Type} : SubModels V → Dict V → Except CallErr (Dict V)
  | [], state => .ok state
  | (key, f) :: rest, state =>
    match f.call state with
    | .ok v => solveSubModels rest (state.set key v)
    | .error e => .error e

end Verif.Lubricant
