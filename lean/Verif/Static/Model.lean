import Verif.HeightCache.Model

/-!
# The static step: model of `StaticStep`, `slippy/contact/static_step.py` l.100-214

The search for the height uses the model `Verif.HeightCache` of `HeightOptimisationFunction`. `scipy.optimize.root_scalar` with a bracket is Brent's method: it
evaluates both ends of the bracket, returns if either value is zero, raises `ValueError` if both have the same sign, and then evaluates the function at heights of
its choice (`more` below, any list); reaching the maximum number of iterations is not an error. Not modelled: the gap itself (see `Verif.Gap`), the fields computed from the loads
(`surface_1_displacement` and so on), sub models and outputs (see `Verif.Steps`), printing.
-/

namespace Verif.Static

open Verif HeightCache

/-- The attributes of the step used here. -/
structure Step where
  normalLoad : Option ℝ
  interference : Option ℝ
  relative : Bool
  unloading : Bool
  period : ℝ

/-- `__init__`, l.99-140. -/
def construct (normalLoad interference : Option ℝ) (relative unloading : Bool) (period : ℝ) : Except PyErr Step :=
  match normalLoad, interference with
  | some _, some _ => .error .valueError
  | none, none => if relative then .ok ⟨none, some 0, relative, unloading, period⟩ else .error .valueError
  | l, i => .ok ⟨l, i, relative, unloading, period⟩

/-- What the step reads from the previous state: entries that are missing are `none`. -/
structure Previous (N : Type) where
  time : ℝ
  totalLoad : Option ℝ
  interference : Option ℝ
  contactNodes : Option N

/-- What the step writes. -/
structure Current where
  time : ℝ
  timeStep : ℝ
  interference : ℝ
  totalLoad : ℝ
  converged : Bool

variable {N : Type}

/-- The heights tried by the root finder after the ends of the bracket; an exception in the function ends the search. -/
noncomputable def tryHeights (P : Problem N) : HeightCache.State N → List ℝ → HeightCache.State N × Except PyErr Unit
  | s, [] => (s, .ok ())
  | s, h :: hs => match call P s h with
    | (s, .error e) => (s, .error e)
    | (s, .ok _) => tryHeights P s hs

/-- `optimize.root_scalar(opt_func, bracket=(0, upper), ...)`, l.191-192. -/
noncomputable def rootScalar (P : Problem N) (s : HeightCache.State N) (upper : ℝ) (more : List ℝ) : HeightCache.State N × Except PyErr Unit :=
  match call P s 0 with
  | (s, .error e) => (s, .error e)
  | (s, .ok f0) => match call P s upper with
    | (s, .error e) => (s, .error e)
    | (s, .ok f1) =>
      if f0 = 0 then (s, .ok ())
      else if f1 = 0 then (s, .ok ())
      else if (f0 < 0 ↔ f1 < 0) then (s, .error .valueError)
      else tryHeights P s more

/-- `np.abs(total - load) / load < 0.05`; a division by zero gives infinity or `nan`. -/
noncomputable def close (total load : ℝ) : Bool := decide (load ≠ 0 ∧ |total - load| / load < 5 / 100)

/-- The property `results`, `_step_utils.py` l.184-236: the height and the total load of the last solution; `TypeError` if there is none.
The error that reading raises if a later height had no contact nodes (`Verif.HeightResults`, C148) is left out: the gap is zero somewhere, so that every positive height has contact nodes. -/
noncomputable def results (P : Problem N) (s : HeightCache.State N) : Except PyErr (ℝ × ℝ) :=
  match s.results with
  | none => .error .typeError
  | some h => .ok (h, (P.bccg h (nodesFor P s h)).1)

/-- An entry of a dictionary. -/
def item {A : Type} (a : Option A) : Except PyErr A := match a with
  | none => .error .keyError
  | some a => .ok a

/-- A target, added to the value of the previous state if relative, l.184-187 and l.196-199. -/
noncomputable def target (relative : Bool) (before : Option ℝ) (own : ℝ) : Except PyErr ℝ :=
  if relative then (item before).map (· + own) else .ok own

/-- `solve`, l.146-214. `upper` is three times the greatest gap (l.188). The contact nodes in l.177-180 are looked up in the new state, which never has any. -/
noncomputable def solve (P : Problem N) (st : Step) (prev : Previous N) (upper : ℝ) (more : List ℝ) : Except PyErr Current := do
  let initial := if st.unloading then prev.contactNodes else none
  let maxLoad := st.normalLoad.getD 1
  let s ← HeightCache.init P initial maxLoad
  match st.normalLoad with
  | some normalLoad =>
    let load ← target st.relative prev.totalLoad normalLoad
    match rootScalar P (changeLoad s load none) upper more with
    | (_, .error e) => .error e
    | (s, .ok _) =>
      let r ← results P s
      .ok ⟨prev.time + st.period, st.period, r.1, r.2, close r.2 normalLoad && !s.lastFailed⟩
  | none =>
    let interference ← target st.relative prev.interference (st.interference.getD 0)
    match call P (changeLoad s 1 none) interference with
    | (_, .error e) => .error e
    | (s, .ok _) =>
      let r ← results P s
      .ok ⟨prev.time + st.period, st.period, r.1, r.2, !s.lastFailed⟩

end Verif.Static
