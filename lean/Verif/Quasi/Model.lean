import Verif.Static.Model
import Verif.Interp.Model

/-!
# The quasi static step: model of `QuasiStaticStep`, `slippy/contact/quasi_static_step.py` l.145-400

The quantities of the increments are those of `Verif.Interp` (C24), the contact solutions those of `Verif.HeightCache` (C25). As in `Verif.Static` the root finder
is an oracle: after the ends of the bracket it evaluates the function at the heights `more`, and it returns one of the heights evaluated (`pick` is the position in the
list that starts with the ends of the bracket), not necessarily the last one.

What a sub model does to the surfaces is not modelled; the surfaces may be different in each increment, `world i offSet` is the contact problem and the greatest just
touching gap of increment `i`. Not modelled: exceptions in sub models and outputs, the fields computed from the loads, printing, `impact_properties`
(`NotImplementedError`, l.164-165), warnings. An exception ends the run; the attributes it leaves behind are not modelled.
-/

namespace Verif.Quasi

open Verif HeightCache

/-- The arguments. -/
structure Args where
  quantities : Interp.StepArgs ℝ
  fastLd : Bool
  unloading : Bool
  period : ℝ
  upperFactor : ℝ

/-- `__init__`, l.163-238. The time step is computed in l.186. -/
noncomputable def construct (a : Args) : Except PyErr (Interp.Step ℝ) :=
  if a.quantities.noTime = false ∧ a.fastLd = true then .error .valueError
  else Interp.init .real a.quantities

/-- What the step reads from the previous state. -/
structure Previous (N : Type) where
  time : ℝ
  quantities : Interp.Previous ℝ
  contactNodes : Option N

/-- What the step writes in one increment. `solvedAt` is the height that the loads and displacements belong to; it is not an entry of the state. The gap is the just touching gap
less `interference` plus the displacements. -/
structure Current where
  newStep : Bool
  timeStep : ℝ
  time : ℝ
  interference : ℝ
  solvedAt : ℝ
  totalLoad : ℝ
  converged : Bool

/-- The attributes and local variables that are carried from one increment to the next; `opt` (`_height_optimisation_func`) even from one call of `solve` to the next. `gap` is
`just_touching_gap` with its greatest value. -/
structure Loop (N : Type) where
  q : Interp.Quantities ℝ
  opt : Option (Problem N × HeightCache.State N)
  gap : Option (Problem N × ℝ)
  time : ℝ

variable {N : Type}

/-- The choices of the root finder in an increment. -/
structure Choice where
  more : List ℝ
  pick : Nat

/-- `root_scalar(h_opt_func, bracket=brackets, ...)`, l.362-363, see `Verif.Static.rootScalar`; with the root. -/
noncomputable def rootScalar (P : Problem N) (s : HeightCache.State N) (a b : ℝ) (c : Choice) : HeightCache.State N × Except PyErr ℝ :=
  match call P s a with
  | (s, .error e) => (s, .error e)
  | (s, .ok fa) => match call P s b with
    | (s, .error e) => (s, .error e)
    | (s, .ok fb) =>
      if fa = 0 then (s, .ok a)
      else if fb = 0 then (s, .ok b)
      else if (fa < 0 ↔ fb < 0) then (s, .error .valueError)
      else match Static.tryHeights P s c.more with
        | (s, .error e) => (s, .error e)
        | (s, .ok _) => (s, .ok ((a :: b :: c.more).getD c.pick b))

/-- `if h_opt_func._results is None: h_opt_func((brackets[0]+brackets[1])/2, current_state)`, l.365-366. -/
noncomputable def ensure (P : Problem N) (s : HeightCache.State N) (a b : ℝ) : HeightCache.State N × Except PyErr Unit :=
  match s.results with
  | some _ => (s, .ok ())
  | none => match call P s ((a + b) / 2) with
    | (s, .error e) => (s, .error e)
    | (s, .ok _) => (s, .ok ())

/-- The height optimiser of an increment, l.329-342 and l.374-387: a new one unless there is no time dependence and there is one. -/
noncomputable def optimiser (noTime : Bool) (opt : Option (Problem N × HeightCache.State N)) (P : Problem N) (initial : Option N) (maxLoad : ℝ) :
    Except PyErr (Problem N × HeightCache.State N) :=
  match noTime, opt with
  | true, some o => .ok o
  | _, _ => (HeightCache.init P initial maxLoad).map (fun s => (P, s))

/-- What a solution gives: interference, height of the solution, total load, converged. -/
structure Found where
  interference : ℝ
  solvedAt : ℝ
  totalLoad : ℝ
  converged : Bool

/-- The bracket, l.353-359. -/
noncomputable def brackets (noTime : Bool) (P : Problem N) (s : HeightCache.State N) (upper : ℝ) : Except PyErr (ℝ × ℝ) :=
  if noTime then getBounds P s 0 upper else .ok (0, upper)

/-- `_solve_load_controlled`, l.327-371. `current_state` has no contact nodes (l.284-290), so that none are set in l.344-350. -/
noncomputable def solveLoad (noTime : Bool) (opt : Option (Problem N × HeightCache.State N)) (P : Problem N) (initial : Option N) (load upper : ℝ) (c : Choice) :
    Except PyErr ((Problem N × HeightCache.State N) × Found) := do
  let o ← optimiser noTime opt P initial load
  let s := changeLoad o.2 load none
  let b ← brackets noTime o.1 s upper
  match rootScalar o.1 s b.1 b.2 c with
  | (_, .error e) => .error e
  | (s, .ok root) => match ensure o.1 s b.1 b.2 with
    | (_, .error e) => .error e
    | (s, .ok _) =>
      let r ← Static.results o.1 s
      .ok ((o.1, s), ⟨root, r.1, r.2, Static.close r.2 load && !s.lastFailed⟩)

/-- `_solve_displacement_controlled`, l.373-400. -/
noncomputable def solveDisp (noTime : Bool) (opt : Option (Problem N × HeightCache.State N)) (P : Problem N) (initial : Option N) (x : ℝ) :
    Except PyErr ((Problem N × HeightCache.State N) × Found) := do
  let o ← optimiser noTime opt P initial 1
  match call o.1 (changeLoad o.2 1 none) x with
  | (_, .error e) => .error e
  | (s, .ok _) =>
    let r ← Static.results o.1 s
    .ok ((o.1, s), ⟨x, r.1, r.2, !s.lastFailed⟩)

/-- The gap of an increment, l.278-283. The off set is a number or has been set by `update_movement`. -/
def gapFor (st : Interp.Step ℝ) (noTime : Bool) (world : Nat → Option (ℝ × ℝ) → Problem N × ℝ) (i : Nat) (offSet : Option (ℝ × ℝ)) (gap : Option (Problem N × ℝ)) : Problem N × ℝ :=
  match gap with
  | none => world i offSet
  | some g => if st.offUpd.isSome || !noTime then world i offSet else g

/-- The solver of an increment, l.254-257 and l.302: load control if a load was given. -/
noncomputable def solveBy (a : Args) (q : Interp.Quantities ℝ) (opt : Option (Problem N × HeightCache.State N)) (P : Problem N) (initial : Option N) (upper : ℝ) (c : Choice) :
    Except PyErr ((Problem N × HeightCache.State N) × Found) :=
  match a.quantities.load, q.load, q.interference with
  | .none, _, some x => solveDisp a.quantities.noTime opt P initial x
  | .none, _, none => .error .typeError
  | _, some load, _ => solveLoad a.quantities.noTime opt P initial load upper c
  | _, none, _ => .error .typeError

/-- One increment, l.275-310. The contact nodes in l.292-297 are those of the state before the step. -/
noncomputable def increment (a : Args) (st : Interp.Step ℝ) (prev : Previous N) (world : Nat → Option (ℝ × ℝ) → Problem N × ℝ) (choice : Nat → Choice) (i : Nat) (s : Loop N) :
    Except PyErr (Loop N × Current) := do
  let q ← Interp.updateMovement .real st prev.quantities s.q (Interp.relativeTime .real st.steps i)
  let g := gapFor st a.quantities.noTime world i q.offSet s.gap
  let initial := if a.unloading then prev.contactNodes else none
  let r ← solveBy a q s.opt g.1 initial (g.2 * a.upperFactor) (choice i)
  let step := a.period / a.quantities.steps
  .ok (⟨q, some r.1, some g, s.time + step⟩, ⟨decide (i = 0), step, s.time + step, r.2.interference, r.2.solvedAt, r.2.totalLoad, r.2.converged⟩)

/-- The loop l.275-310: `todo` increments from increment `i` on. -/
noncomputable def increments (a : Args) (st : Interp.Step ℝ) (prev : Previous N) (world : Nat → Option (ℝ × ℝ) → Problem N × ℝ) (choice : Nat → Choice) :
    Nat → Nat → Loop N → Except PyErr (Loop N × List Current)
  | 0, _, s => .ok (s, [])
  | todo + 1, i, s => do
    let r ← increment a st prev world choice i s
    let rest ← increments a st prev world choice todo (i + 1) r.1
    .ok (rest.1, r.2 :: rest.2)

/-- `solve`, l.243-312: the states of the increments, which are handed to sub models and outputs one after the other; the last one is returned. `q` and `opt` are the
attributes left by an earlier call, or those of the constructor and `none`. -/
noncomputable def solve (a : Args) (st : Interp.Step ℝ) (q : Interp.Quantities ℝ) (opt : Option (Problem N × HeightCache.State N)) (prev : Previous N)
    (world : Nat → Option (ℝ × ℝ) → Problem N × ℝ) (choice : Nat → Choice) : Except PyErr (Loop N × List Current) :=
  if a.fastLd then .error .notImplementedError
  else increments a st prev world choice st.steps 0 ⟨q, opt, none, prev.time⟩

/-- A step that is made and solved. -/
noncomputable def run (a : Args) (prev : Previous N) (world : Nat → Option (ℝ × ℝ) → Problem N × ℝ) (choice : Nat → Choice) : Except PyErr (Loop N × List Current) := do
  let st ← construct a
  solve a st st.q none prev world choice

end Verif.Quasi
