import Mathlib.Data.Real.Basic
import Mathlib.Data.Real.Sign
import Mathlib.Algebra.BigOperators.Group.Finset.Basic
import Mathlib.Data.Fintype.Basic
import Verif.Interp.Model

/-!
# The lubrication step: model of `IterSemiSystem`, `slippy/contact/lubrication_steps.py` l.186-675

The movement and load cases are those of `Verif.Interp` (C24). The Reynolds solver (`_NonDimensionalReynoldSolverABC`) and the sub models of the lubricant are arbitrary:
`Solver.solve` gives the entry `nd_pressure` of what `reynolds.solve` returns, and the entries that the solver hands on to its next call (type `M`), from the pressure, gap, other entries and
handed on entries of the iteration before; `lubricant` gives the entries that `solve_sub_models` adds, from the pressure and the gap (`L` is their type; sub models that overwrite the entries of the step itself are not
modelled, see `Verif.Lubricant`). The gap and the displacements caused by a pressure are arbitrary for each increment (`World`), for influence matrix materials as well as for others; the
grid (type `ι`) is the same in all increments.

Numbers are real: infinite and `nan` values, in particular a set load of zero (division by zero, l.515), are not modelled. Sub models of the step, outputs, printing and the switch of CUDA
(see `Verif.Cuda`) are not modelled.
-/

namespace Verif.LubStep

open Verif

variable {ι L M : Type} [Fintype ι]

/-- The Reynolds solver with its changes of units: `dimensionalise_pressure(x)`, `dimensionalise_pressure(x, True)` and the same for gaps (`slippy/abcs/abcs.py` l.100,
`_NonDimensionalReynoldSolverABC`). -/
structure Solver (ι L M : Type) where
  solve : Option M → (ι → ℝ) → (ι → ℝ) → L → (ι → ℝ) × M
  dimP : ℝ → ℝ
  ndP : ℝ → ℝ
  dimG : ℝ → ℝ
  ndG : ℝ → ℝ

/-- The surfaces in an increment: the just touching gap (l.389-392), and the displacements caused by a pressure: both surfaces together (l.399-415), the first and the second (l.583-594). -/
structure World (ι : Type) where
  gap : ι → ℝ
  total : (ι → ℝ) → ι → ℝ
  first : (ι → ℝ) → ι → ℝ
  second : (ι → ℝ) → ι → ℝ

/-- The parameters of the iteration. `maxP` is `_nd_max_pressure` (`None` for materials that are not given by influence matrices, l.227, l.401-403), `spacing` is `gs` (l.361). -/
structure Params where
  rtol : ℝ
  relax : ℝ
  maxIt : ℤ
  maxP : Option ℝ
  spacing : ℝ

/-- The dictionary `results_last_it`. -/
structure It (ι L M : Type) where
  ndP : ι → ℝ
  p : ι → ℝ
  disp : ι → ℝ
  interference : ℝ
  ndInterference : ℝ
  gap : ι → ℝ
  extras : L
  memory : Option M

/-- `np.clip(x, None, max)`, l.492-498. -/
noncomputable def clip (maxP : Option ℝ) (x : ℝ) : ℝ := match maxP with
  | none => x
  | some m => min x m

/-- The relative change of the pressure, l.483-488. -/
noncomputable def pressureError (last new : ι → ℝ) : ℝ :=
  if 0 < ∑ i, last i then (∑ i, |new i - last i|) / ∑ i, last i else 1

/-- `load_converged`, l.514-519. There is no load (`none`) in displacement control. -/
noncomputable def loadOk (pr : Params) (load : Option ℝ) (total : ℝ) : Bool := match load with
  | none => true
  | some l => decide (|total / l - 1| < pr.rtol)

/-- `np.sum(pressure) * gs ** 2`, l.512. -/
noncomputable def totalLoad (pr : Params) (p : ι → ℝ) : ℝ := (∑ i, p i) * pr.spacing ^ 2

/-- What the Reynolds solver returns, l.470-477. -/
def reynolds (S : Solver ι L M) (last : It ι L M) : (ι → ℝ) × M := S.solve last.memory last.ndP (fun i => S.ndG (last.gap i)) last.extras

/-- What the loop computes from the results of the last iteration, l.477-522 (the interference is that of the last iteration). -/
noncomputable def iterate (S : Solver ι L M) (w : World ι) (lubricant : (ι → ℝ) → Option (ι → ℝ) → L) (pr : Params) (last : It ι L M) : It ι L M :=
  let new := reynolds S last
  let ndP := fun i => clip pr.maxP (last.ndP i + pr.relax * (new.1 i - last.ndP i))
  let p := fun i => S.dimP (ndP i)
  let disp := w.total p
  let gap := fun i => w.gap i + disp i - last.interference
  ⟨ndP, p, disp, last.interference, last.ndInterference, gap, lubricant ndP (some gap), some new.2⟩

/-- `pressure_converged`, l.483-489. -/
noncomputable def pressureOk (S : Solver ι L M) (pr : Params) (last : It ι L M) : Bool :=
  decide (pressureError last.ndP (reynolds S last).1 < pr.rtol)

/-- The new interference, l.541-575 and `update_interference` l.643-645, as `_adjust_height_every_step` is set (l.214): changed in load control only. (In displacement control the branch
l.550-557 is not reached, as a converged pressure has ended the loop.) -/
noncomputable def adjust (S : Solver ι L M) (w : World ι) (pr : Params) (load : Option ℝ) (this : It ι L M) : It ι L M := match load with
  | none => this
  | some l =>
    let nd := this.ndInterference - 0.1 * (totalLoad pr this.p / l - 1)
    { this with ndInterference := nd, interference := S.dimG nd, gap := fun i => w.gap i + this.disp i - S.dimG nd }

/-- The loop l.469-578. `left` is the number of iterations that may follow this one, `max_it_pressure + 1 - it_num` (none if `it_num > max_it_pressure`, l.532); the result is the last
iteration, whether it converged, and the number of iterations (a ghost). -/
noncomputable def loop (S : Solver ι L M) (w : World ι) (lubricant : (ι → ℝ) → Option (ι → ℝ) → L) (pr : Params) (load : Option ℝ) : Nat → It ι L M → It ι L M × Bool × Nat
  | left, last =>
    let this := iterate S w lubricant pr last
    if pressureOk S pr last && loadOk pr load (totalLoad pr this.p) then (this, true, 1)
    else match left with
      | 0 => (this, false, 1)
      | left + 1 =>
        let r := loop S w lubricant pr load left (adjust S w pr load this)
        (r.1, r.2.1, r.2.2 + 1)

/-- The entries of a state that the step reads. -/
structure Previous (ι : Type) where
  time : ℝ
  pressure : Option (ι → ℝ)
  interference : Option ℝ
  quantities : Interp.Previous ℝ

/-- The states that the step writes, l.394-396 and l.581-600. `iterations` is a ghost. -/
structure Current (ι L M : Type) where
  time : ℝ
  timeStep : ℝ
  ndP : ι → ℝ
  pressure : ι → ℝ
  interference : ℝ
  gap : ι → ℝ
  ndGap : ι → ℝ
  displacement : ι → ℝ
  displacement1 : ι → ℝ
  displacement2 : ι → ℝ
  extras : L
  memory : Option M
  totalLoad : ℝ
  converged : Bool
  iterations : Nat

/-- The arguments of the step. `guess` is `initial_guess`: an interference and a pressure, or `'previous'` (`none`). -/
structure Args (ι : Type) where
  quantities : Interp.StepArgs ℝ
  guess : Option (ℝ × (ι → ℝ))
  params : Params
  period : ℝ

/-- The start of an increment, l.416-446: interference and pressure. `i >= 0` (l.417) is always true; otherwise the attribute `self.initial_guess` would be looked for, which does not
exist (the argument is stored as `self._initial_guess`, l.215). -/
noncomputable def start (i : ℤ) (pressure : Option (ι → ℝ)) (interference : Option ℝ) : Except PyErr (ℝ × (ι → ℝ)) :=
  if 0 ≤ i then .ok (interference.getD 0, pressure.getD (fun _ => 0))
  else .error .attributeError

/-- The first `results_last_it`, l.448-467: the sub models of the lubricant are solved without a gap (l.461), and nothing is handed on to the Reynolds solver. -/
noncomputable def first (S : Solver ι L M) (w : World ι) (lubricant : (ι → ℝ) → Option (ι → ℝ) → L) (g : ℝ × (ι → ℝ)) : It ι L M :=
  let ndP := fun i => S.ndP (g.2 i)
  let disp := open Classical in if ∀ i, ndP i = 0 then fun _ => 0 else w.total g.2
  ⟨ndP, g.2, disp, g.1, S.ndG g.1, fun i => w.gap i + disp i - g.1, lubricant ndP none, none⟩

/-- `__init__`, l.195-304: the relaxation factor (l.231-233), then the quantities. -/
noncomputable def construct (a : Args ι) : Except PyErr (Interp.Step ℝ) :=
  if a.params.relax ≤ 0 ∨ 1 < a.params.relax then .error .valueError
  else Interp.init .real a.quantities

/-- What is different in each increment, besides the quantities: the surfaces and the Reynolds solver, which knows the rolling speed (l.387). -/
structure Env (ι L M : Type) where
  world : Nat → Option (ℝ × ℝ) → World ι
  solver : Nat → Option ℝ → Solver ι L M
  lubricant : World ι → (ι → ℝ) → Option (ι → ℝ) → L

/-- The load of an increment: none in displacement control, `load_controlled` l.278, l.290. -/
def loadOf (a : Args ι) (q : Interp.Quantities ℝ) : Option ℝ := match a.quantities.load with
  | .none => none
  | _ => q.load

/-- The state of an increment, l.387-600, from the quantities and the start. -/
noncomputable def record (a : Args ι) (prev : Previous ι) (E : Env ι L M) (i : Nat) (q : Interp.Quantities ℝ) (g : ℝ × (ι → ℝ)) : Current ι L M :=
  let w := E.world i q.offSet
  let S := E.solver i q.rolling
  let r := loop S w (E.lubricant w) a.params (loadOf a q) (a.params.maxIt + 1).toNat (first S w (E.lubricant w) g)
  let step := a.period / a.quantities.steps
  { time := prev.time + (i + 1) * step
    timeStep := step
    ndP := r.1.ndP
    pressure := r.1.p
    interference := r.1.interference
    gap := r.1.gap
    ndGap := fun j => S.ndG (r.1.gap j)
    displacement := r.1.disp
    displacement1 := w.first r.1.p
    displacement2 := w.second r.1.p
    extras := r.1.extras
    memory := r.1.memory
    totalLoad := totalLoad a.params r.1.p
    converged := r.2.1
    iterations := r.2.2 }

/-- The loop over the increments, l.385-604. The state of an increment is the previous state of the next one (l.604). -/
noncomputable def increments (a : Args ι) (st : Interp.Step ℝ) (prev : Previous ι) (E : Env ι L M) :
    Nat → Nat → Interp.Quantities ℝ → Option (ι → ℝ) → Option ℝ → Except PyErr (List (Current ι L M))
  | 0, _, _, _, _ => .ok []
  | todo + 1, i, q, pressure, interference => do
    let q ← Interp.updateMovement .real st prev.quantities q (Interp.relativeTime .real st.steps i)
    let g ← start i pressure interference
    let c := record a prev E i q g
    let rest ← increments a st prev E todo (i + 1) q (some c.pressure) (some c.interference)
    .ok (c :: rest)

/-- A step that is made and solved (l.357-608): the states of the increments. -/
noncomputable def run (a : Args ι) (prev : Previous ι) (E : Env ι L M) : Except PyErr (List (Current ι L M)) := do
  let st ← construct a
  increments a st prev E st.steps 0 st.q prev.pressure prev.interference

/-- A Reynolds solver that keeps the gap and density (here all entries of the sub models) of the last time step as `UnifiedReynolds` does, `slippy/contact/unified_reynolds_solver.py`
l.221-227: if they were not handed on, those of this call are taken. `equation` is what it solves (`Verif.Reynolds`). -/
def keeping (equation : (ι → ℝ) × L → (ι → ℝ) → (ι → ℝ) → L → ι → ℝ) (dimP ndP dimG ndG : ℝ → ℝ) : Solver ι L ((ι → ℝ) × L) where
  solve m p g e := (equation (m.getD (g, e)) p g e, m.getD (g, e))
  dimP := dimP
  ndP := ndP
  dimG := dimG
  ndG := ndG

/-! ## `update_interference` with `_adjust_height_every_step` unset, l.647-675 -/

/-- The class attributes `_interferences` and `_load_errors`, l.189-190. -/
structure Regula where
  interferences : List ℝ
  errors : List ℝ

/-- `l[i]`. -/
def item (l : List ℝ) (i : Nat) : Except PyErr ℝ := match l[i]? with
  | none => .error .indexError
  | some x => .ok x

/-- Which entry is deleted, l.655-667. -/
noncomputable def drop (s : Regula) : Except PyErr Regula :=
  if 2 < s.interferences.length ∧ |(s.errors.map Real.sign).sum| = 1 then do
    let e0 ← item s.errors 0
    let e2 ← item s.errors 2
    if e0 * e2 < 0 then .ok ⟨s.interferences.eraseIdx 1, s.errors.eraseIdx 1⟩
    else .ok ⟨s.interferences.eraseIdx 0, s.errors.eraseIdx 0⟩
  else .ok ⟨s.interferences.eraseIdx 0, s.errors.eraseIdx 0⟩

/-- The secant, l.669-671. (Division by zero gives infinities or `nan` and is not modelled.) -/
noncomputable def secant (s : Regula) : Except PyErr ℝ := do
  let h0 ← item s.interferences 0
  let e0 ← item s.errors 0
  let h1 ← item s.interferences 1
  let e1 ← item s.errors 1
  .ok (h0 - e0 * (h1 - h0) / (e1 - e0))

/-- `update_interference`, l.648-675. -/
noncomputable def updateInterference (s : Regula) (current error meanGap : ℝ) : Regula × Except PyErr ℝ :=
  let s : Regula := ⟨s.interferences ++ [current], s.errors ++ [error]⟩
  if s.interferences.length = 1 then (s, .ok (current + |meanGap| * -(Real.sign error)))
  else match drop s with
    | .error e => (s, .error e)
    | .ok s => (s, secant s)

end Verif.LubStep
