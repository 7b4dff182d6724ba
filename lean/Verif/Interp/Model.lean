import Mathlib.Data.Real.Basic
import Mathlib.Data.List.Sort
import Verif.Common

/-!
# Step quantities that vary during a step

Model of `make_interpolation_func`, `slippy/contact/_step_utils.py` l.32-64, of the linear interpolator it builds, and of the
quantities that the quasi static step (`slippy/contact/quasi_static_step.py` l.163-233, l.243-281, l.320-325), the lubrication
step (`slippy/contact/lubrication_steps.py` l.235-290, l.357-387, l.350-355: the same text plus the rolling speed) and the static
step (`slippy/contact/static_step.py` l.121-134, l.196-213) hand to the contact solver in each increment.

Numbers are elements of any linear order `α` with any arithmetic (`Arith`), so that theorems that do not constrain the
arithmetic hold with rounding; `Arith.real` is exact arithmetic. Infinities and `nan` as end values are not modelled (`nan` is
rejected, l.49).

The interpolator is `scipy.interpolate.interp1d` with `kind='linear'`, the default of the steps: the table is sorted by time with a
stable sort, times outside of the table raise `ValueError`, everything else is done by `numpy.interp`. Other kinds are not modelled.
-/

namespace Verif.Interp

open Verif

/-- The arithmetic of the numbers. -/
structure Arith (α : Type) where
  zero : α
  one : α
  ofNat : Nat → α
  add : α → α → α
  sub : α → α → α
  mul : α → α → α
  div : α → α → α

/-- Exact arithmetic. -/
noncomputable def Arith.real : Arith ℝ where
  zero := 0
  one := 1
  ofNat n := n
  add := (· + ·)
  sub := (· - ·)
  mul := (· * ·)
  div := (· / ·)

/-- A sequence given for a quantity. `none` stands for an entry that is `nan` or can't be converted to a number. `flat` is a sequence
of numbers, `rows` a sequence of sequences of numbers (deeper nesting is not modelled). -/
inductive Values (α : Type)
  | flat (xs : List (Option α))
  | rows (rs : List (List (Option α)))

/-- All entries of a sequence, or nothing if one of them is not a number. -/
def entries {α : Type} : List (Option α) → Option (List α)
  | [] => some []
  | none :: _ => none
  | some x :: rest => (entries rest).map (x :: ·)

/-- `interp1d(time, position, 'linear', bounds_error=True)`: the table sorted by time (`np.argsort(x, kind="mergesort")`). No table
(`ValueError`) if the lengths differ or there is nothing in it. The items are pairs (time, position). -/
def interp1d {α : Type} [LinearOrder α] (time position : List α) : Except PyErr (List (α × α)) :=
  if time.length ≠ position.length then .error .valueError
  else if time.length = 0 then .error .valueError
  else .ok ((time.zip position).mergeSort (fun a b => decide (a.1 ≤ b.1)))

/-- `make_interpolation_func`, l.47-64.

A 1 by 2 array has two entries (l.55) and is used as the positions; the interpolator then returns arrays of length one, which are
not told apart from numbers here. A 2 by 1 array has two entries as well and can't be interpolated along its second axis. -/
def makeInterpolationFunc {α : Type} [LinearOrder α] (ar : Arith α) : Values α → Except PyErr (List (α × α))
  | .flat xs =>
    match entries xs with
    | none => .error .valueError                       -- l.50-53
    | some [a, b] => interp1d [ar.zero, ar.one] [a, b]  -- l.55-57
    | some _ => .error .valueError                     -- l.61-63
  | .rows rs =>
    match rs with
    | [r] =>
      match entries r with
      | none => .error .valueError
      | some [a, b] => interp1d [ar.zero, ar.one] [a, b]
      | some _ => .error .valueError
    | [p, t] =>
      if p.length ≠ t.length then .error .valueError    -- ragged array, l.50-51
      else
        match entries p, entries t with
        | some position, some time =>
          if position.length = 1 then .error .valueError -- l.55-57, 64
          else interp1d time position                    -- l.58-60, 64
        | _, _ => .error .valueError
    | _ => .error .valueError                           -- l.50-53 or l.61-63

/-- `numpy.interp(x, times, positions)` for `x` inside of a sorted table: the last item with a time of at most `x` is found; its position
is returned if it is the last one or if its time is `x`; else the line through it and the next item is evaluated. -/
def npInterp {α : Type} [LinearOrder α] (ar : Arith α) : List (α × α) → α → α
  | [], _ => ar.zero
  | [(_, p)], _ => p
  | (t0, p0) :: (t1, p1) :: rest, x =>
    if t1 ≤ x then npInterp ar ((t1, p1) :: rest) x
    else if t0 = x then p0
    else ar.add (ar.mul (ar.div (ar.sub p1 p0) (ar.sub t1 t0)) (ar.sub x t0)) p0

/-- Calling the interpolator: `bounds_error=True` raises `ValueError` for times outside of the table. -/
def callInterp {α : Type} [LinearOrder α] (ar : Arith α) (table : List (α × α)) (x : α) : Except PyErr α :=
  match table.head?, table.getLast? with
  | some first, some last =>
    if x < first.1 then .error .valueError
    else if last.1 < x then .error .valueError
    else .ok (npInterp ar table x)
  | _, _ => .error .valueError

/-- An argument of a step: not given (`None`), a number, or a sequence. -/
inductive Arg (α : Type)
  | none
  | number (x : α)
  | seq (v : Values α)

/-- The arguments of a quasi static or lubrication step that matter here. `rolling` is `Option.none` for the quasi static step, which has
no rolling speed. -/
structure StepArgs (α : Type) where
  offX : Arg α
  offY : Arg α
  load : Arg α
  interference : Arg α
  rolling : Option (Arg α)
  relative : Bool
  noTime : Bool
  steps : Nat

/-- The quantities of a step. -/
structure Quantities (α : Type) where
  offSet : Option (α × α)
  load : Option α
  interference : Option α
  rolling : Option α

/-- A step: its quantities, the interpolators of the names in `self.update`, and what is needed later. -/
structure Step (α : Type) where
  q : Quantities α
  offUpd : Option (List (α × α) × List (α × α))
  loadUpd : Option (List (α × α))
  interferenceUpd : Option (List (α × α))
  rollingUpd : Option (List (α × α))
  relative : Bool
  steps : Nat

/-- A number or an interpolator, the form of quasi_static_step.py l.213-233: the attribute and the interpolator. -/
def numberOrUpd {α : Type} [LinearOrder α] (ar : Arith α) : Arg α → Except PyErr (Option α × Option (List (α × α)))
  | .none => .ok (Option.none, Option.none)
  | .number x => .ok (some x, Option.none)
  | .seq v =>
    match makeInterpolationFunc ar v with
    | .error e => .error e
    | .ok t => .ok (Option.none, some t)

/-- `[x] * 2 if isinstance(x, Number) else x`, l.194-195, and the interpolator, l.196-197. -/
def offSetUpd {α : Type} [LinearOrder α] (ar : Arith α) : Arg α → Except PyErr (List (α × α))
  | .none => .error .typeError
  | .number x => makeInterpolationFunc ar (.flat [some x, some x])
  | .seq v => makeInterpolationFunc ar v

/-- The off set, l.191-202. -/
def initOffSet {α : Type} [LinearOrder α] (ar : Arith α) (a : StepArgs α) :
    Except PyErr (Option (α × α) × Option (List (α × α) × List (α × α))) :=
  match a.offX, a.offY with
  | .number x, .number y => .ok (some (x, y), Option.none)
  | ox, oy =>
    if a.noTime then .error .valueError
    else
      match offSetUpd ar ox with
      | .error e => .error e
      | .ok fx =>
        match offSetUpd ar oy with
        | .error e => .error e
        | .ok fy => .ok (Option.none, some (fx, fy))

/-- The interference used if neither a load nor an interference is given, l.204-211. -/
def initInterference {α : Type} (ar : Arith α) (a : StepArgs α) : Except PyErr (Arg α) :=
  match a.load, a.interference with
  | .none, .none => if a.relative then .ok (.number ar.zero) else .error .valueError
  | .none, i => .ok i
  | _, .none => .ok .none
  | _, _ => .error .valueError

/-- The rolling speed, lubrication_steps.py l.262-268. -/
def initRolling {α : Type} [LinearOrder α] (ar : Arith α) : Option (Arg α) →
    Except PyErr (Option α × Option (List (α × α)))
  | Option.none => .ok (Option.none, Option.none)
  | some .none => .error .valueError
  | some a => numberOrUpd ar a

/-- `__init__` of the quasi static step, l.186-233, and of the lubrication step, l.235-290 (there the rolling speed comes before the
load; all errors are the same). -/
def init {α : Type} [LinearOrder α] (ar : Arith α) (a : StepArgs α) : Except PyErr (Step α) := do
  if a.steps = 0 then .error .zeroDivisionError else      -- l.186
    let off ← initOffSet ar a
    let interferenceArg ← initInterference ar a
    let rolling ← initRolling ar a.rolling
    let load ← numberOrUpd ar a.load
    let interference ← numberOrUpd ar interferenceArg
    .ok { q := ⟨off.1, load.1, interference.1, rolling.1⟩,
          offUpd := off.2, loadUpd := load.2, interferenceUpd := interference.2, rollingUpd := rolling.2,
          relative := a.relative, steps := a.steps }

/-- The entries of the state at the start of the step that matter. -/
structure Previous (α : Type) where
  load : Option α
  interference : Option α
  offSet : Option (α × α)

/-- `original[name] + self._name_upd(time)` or `self._name_upd(time)`, l.322-325. `original` is `none` if the key is missing. -/
def updated {α : Type} [LinearOrder α] (ar : Arith α) (relative : Bool) (original : Option α) (table : List (α × α)) (r : α) :
    Except PyErr α :=
  if relative then
    match original with
    | none => .error .keyError
    | some o =>
      match callInterp ar table r with
      | .error e => .error e
      | .ok v => .ok (ar.add o v)
  else callInterp ar table r

/-- One name of the loop of `update_movement`: nothing happens to a quantity that is not in `self.update`. -/
def updateOne {α : Type} [LinearOrder α] (ar : Arith α) (relative : Bool) (original : Option α) (upd : Option (List (α × α)))
    (q : Option α) (r : α) : Except PyErr (Option α) :=
  match upd with
  | none => .ok q
  | some table => (updated ar relative original table r).map some

/-- The same for the off set, which has two components, l.198. -/
def updateOffSet {α : Type} [LinearOrder α] (ar : Arith α) (relative : Bool) (original : Option (α × α))
    (upd : Option (List (α × α) × List (α × α))) (q : Option (α × α)) (r : α) : Except PyErr (Option (α × α)) :=
  match upd with
  | none => .ok q
  | some (fx, fy) => do
    let x ← updated ar relative (original.map Prod.fst) fx r
    let y ← updated ar relative (original.map Prod.snd) fy r
    .ok (some (x, y))

/-- `update_movement`, l.320-325. The set is gone through in a fixed order here; the order matters only for which error is raised.
`original` has no entry for the rolling speed (l.264-269; lubrication_steps.py l.376-381); missing entries of the state count as
zero. -/
def updateMovement {α : Type} [LinearOrder α] (ar : Arith α) (s : Step α) (prev : Previous α) (q : Quantities α) (r : α) :
    Except PyErr (Quantities α) := do
  let offSet ← updateOffSet ar s.relative (some (prev.offSet.getD (ar.zero, ar.zero))) s.offUpd q.offSet r
  let load ← updateOne ar s.relative (some (prev.load.getD ar.zero)) s.loadUpd q.load r
  let interference ← updateOne ar s.relative (some (prev.interference.getD ar.zero)) s.interferenceUpd q.interference r
  let rolling ← updateOne ar s.relative none s.rollingUpd q.rolling r
  .ok ⟨offSet, load, interference, rolling⟩

/-- `np.linspace(0, 1, n)[i]`, l.259: `i * (1 / (n - 1)) + 0`, the last one of at least two is one. -/
def relativeTime {α : Type} (ar : Arith α) (n i : Nat) : α :=
  if 1 < n ∧ i + 1 = n then ar.one
  else if n = 1 then ar.zero
  else ar.add (ar.mul (ar.ofNat i) (ar.div ar.one (ar.ofNat (n - 1)))) ar.zero

/-- The loop l.275-276: the quantities in each increment, starting with increment `i`, for `todo` increments. The quantities are
attributes of the step and are carried on. -/
def increments {α : Type} [LinearOrder α] (ar : Arith α) (s : Step α) (prev : Previous α) :
    Nat → Nat → Quantities α → Except PyErr (List (Quantities α))
  | 0, _, _ => .ok []
  | todo + 1, i, q =>
    match updateMovement ar s prev q (relativeTime ar s.steps i) with
    | .error e => .error e
    | .ok q' =>
      match increments ar s prev todo (i + 1) q' with
      | .error e => .error e
      | .ok rest => .ok (q' :: rest)

/-- The quantities of a step in each of its increments. -/
def run {α : Type} [LinearOrder α] (ar : Arith α) (a : StepArgs α) (prev : Previous α) : Except PyErr (List (Quantities α)) :=
  match init ar a with
  | .error e => .error e
  | .ok s => increments ar s prev s.steps 0 s.q

/-- The target of a static step, static_step.py l.121-134 and l.196-213: the load (first) or the interference (second) to be solved for. -/
def staticTarget {α : Type} (ar : Arith α) (load interference : Option α) (relative : Bool) (prev : Previous α) :
    Except PyErr (Option α × Option α) :=
  match load, interference with
  | some _, some _ => .error .valueError
  | some l, none =>
    if relative then
      match prev.load with
      | none => .error .keyError
      | some o => .ok (some (ar.add o l), none)
    else .ok (some l, none)
  | none, i =>
    match i, relative with
    | none, false => .error .valueError
    | some x, false => .ok (none, some x)
    | i, true =>
      match prev.interference with
      | none => .error .keyError
      | some o => .ok (none, some (ar.add o (i.getD ar.zero)))

end Verif.Interp
