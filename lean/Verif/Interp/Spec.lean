import Verif.Interp.Model

/-!
# What a step quantity should be (specification for C24)

`Points` says which sequences describe a quantity and which points (time, position) they prescribe; `OnCurve` says what it means for a
position to be on the broken line through these points. Neither uses the model of the interpolator.
-/

namespace Verif.Interp

variable {α : Type}

/-- `Points zero one v pts`: the sequence `v` prescribes the points `pts` (time, position): two values are the start and the end, two
sequences of the same length, at least two, are positions and times. -/
inductive Points (zero one : α) : Values α → List (α × α) → Prop
  | ends (a b : α) : Points zero one (.flat [some a, some b]) [(zero, a), (one, b)]
  | row (a b : α) : Points zero one (.rows [[some a, some b]]) [(zero, a), (one, b)]
  | table (pts : List (α × α)) : 2 ≤ pts.length →
      Points zero one (.rows [pts.map (fun p => some p.2), pts.map (fun p => some p.1)]) pts

/-- `OnCurve pts r y`: `y` is the position at the time `r` on the broken line through the points: there are two of them next to each
other in time with `r` in between, and `(r, y)` is on the line through them (or one of them). -/
def OnCurve (pts : List (ℝ × ℝ)) (r y : ℝ) : Prop :=
  ∃ a ∈ pts, ∃ b ∈ pts, a.1 ≤ r ∧ r ≤ b.1 ∧ (∀ c ∈ pts, c.1 ≤ a.1 ∨ b.1 ≤ c.1) ∧
    (b.1 - a.1) * (y - a.2) = (b.2 - a.2) * (r - a.1) ∧ (r = a.1 → y = a.2)

/-- The value that a quantity given by `arg` should have at the time `r`, if it is shifted by `shift`: numbers stay as they are. -/
inductive Value (arg : Arg ℝ) (shift r : ℝ) : Option ℝ → Prop
  | none : arg = .none → Value arg shift r Option.none
  | number (x : ℝ) : arg = .number x → Value arg shift r (some x)
  | seq (v : Values ℝ) (pts : List (ℝ × ℝ)) (y : ℝ) : arg = .seq v → Points 0 1 v pts → OnCurve pts r y →
      Value arg shift r (some (shift + y))

/-- The value that a component of the off set should have at the time `r` if the off set varies: a number is the same at all times,
but counts as a varying quantity and is shifted. -/
inductive Component (arg : Arg ℝ) (shift r : ℝ) : ℝ → Prop
  | number (x : ℝ) : arg = .number x → Component arg shift r (shift + x)
  | seq (v : Values ℝ) (pts : List (ℝ × ℝ)) (y : ℝ) : arg = .seq v → Points 0 1 v pts → OnCurve pts r y →
      Component arg shift r (shift + y)

/-- `Covers arg`: if a quantity is given as a sequence, it prescribes points, some at or before the start and some at or after the end of
the step. -/
def Covers (arg : Arg ℝ) : Prop :=
  ∀ v, arg = .seq v → ∃ pts, Points 0 1 v pts ∧ (∃ p ∈ pts, p.1 ≤ 0) ∧ ∃ p ∈ pts, 1 ≤ p.1

end Verif.Interp
