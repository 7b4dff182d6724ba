import Mathlib.Data.Real.Basic
import Verif.Common

/-!
# Output requests: model of `slippy/contact/outputs.py:OutputRequest`, l.86-224

Times are real numbers. An iterator is the list of the values it has still to give. Names and parameters of the request play no
role for the timing.
-/

namespace Verif.Outputs

/-- The valid timing modes, l.146. -/
inductive Timing
  | interval
  | timeInterval
  | nOutputsPerStep
  | stepTimes
  | globalTimes
  deriving DecidableEq

/-- The attributes of an `OutputRequest` that concern the timing. `interval` is `self.interval` of the modes `interval` and
`time_interval`, `nOut` the one of `n_outputs_per_step`; attributes that a mode never sets have any value. -/
structure Req where
  timing : Timing
  interval : ℝ
  count : ℝ
  nOut : ℕ
  stepTimes : List ℝ
  points : List ℝ
  next : Option ℝ
  start : ℝ
  endT : Option ℝ

/-- The `value` argument of the constructor. -/
inductive Value
  | num (x : ℝ)
  | int (n : ℕ)
  | list (l : List ℝ)

/-- `OutputRequest.__init__`, l.145-175, for values of the right kind for the mode (another kind fails later in other places and
is not modelled: `typeError`). -/
def mk : Timing → Value → Except PyErr Req
  | .interval, .num x => .ok ⟨.interval, x, x, 0, [], [], none, 0, none⟩
  | .interval, .int n => .ok ⟨.interval, n, n, 0, [], [], none, 0, none⟩
  | .timeInterval, .num x => .ok ⟨.timeInterval, x, 0, 0, [], [], some 0, 0, none⟩
  | .timeInterval, .int n => .ok ⟨.timeInterval, n, 0, 0, [], [], some 0, 0, none⟩
  | .nOutputsPerStep, .int n => .ok ⟨.nOutputsPerStep, 0, 0, n, [], [], none, 0, none⟩
  | .stepTimes, .list l => .ok ⟨.stepTimes, 0, 0, 0, l, [], none, 0, none⟩
  | .globalTimes, .list [] => .error .valueError
  | .globalTimes, .list (p :: ps) => .ok ⟨.globalTimes, 0, 0, 0, [], ps, some p, 0, none⟩
  | _, _ => .error .typeError

/-- `OutputRequest.new_step`, l.177-184. -/
def newStep (r : Req) (t : ℝ) : Req :=
  let r := { r with start := t, endT := none }
  if r.timing = .timeInterval then { r with next := some t } else r

/-- `np.linspace(a, b, n)`. -/
noncomputable def linspace (a b : ℝ) (n : ℕ) : List ℝ :=
  (List.range n).map fun j : ℕ => if n = 1 then a else a + (j : ℝ) * ((b - a) / (n - 1))

/-- Advance the iterator, `None` at its end (l.209-212 and l.216-219). -/
def advance (r : Req) : Req :=
  match r.points with
  | [] => { r with next := none }
  | p :: ps => { r with next := some p, points := ps }

open Classical in
/-- l.203-212: what happens in the first call after `new_step`. -/
noncomputable def firstCall (r : Req) (maxT : ℝ) : Req :=
  match r.endT with
  | some _ => r
  | none =>
    let r := { r with endT := some (r.start + maxT) }
    let r := if r.timing = .nOutputsPerStep then { r with points := linspace r.start (r.start + maxT) r.nOut } else r
    let r := if r.timing = .stepTimes then { r with points := r.stepTimes.map (fun st => r.start + st) } else r
    advance r

open Classical in
/-- `OutputRequest.is_active`, l.186-224. -/
noncomputable def isActive (r : Req) (t maxT : ℝ) : Bool × Req :=
  match r.timing with
  | .interval => if r.count < r.interval then (false, { r with count := r.count + 1 }) else (true, { r with count := 1 })
  | .timeInterval =>
    match r.next with
    | none => (false, r)
    | some nx => if nx ≤ t then (true, { r with next := some (nx + r.interval) }) else (false, r)
  | _ =>
    let r := firstCall r maxT
    match r.next with
    | none => (false, r)
    | some nx => if nx ≤ t then (true, advance r) else (false, r)

/-- What happens to a request during an analysis. -/
inductive Event
  | newStep (t : ℝ)
  | query (t maxT : ℝ)

/-- The answers of a request to the queries of a history, with its final state. -/
noncomputable def run : Req → List Event → List Bool × Req
  | r, [] => ([], r)
  | r, .newStep t :: es => run (newStep r t) es
  | r, .query t maxT :: es =>
    let a := isActive r t maxT
    let b := run a.2 es
    (a.1 :: b.1, b.2)

end Verif.Outputs
