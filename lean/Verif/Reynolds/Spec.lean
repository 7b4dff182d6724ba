import Mathlib.Data.Real.Basic
import Verif.XReal

/-!
# Specification of the Reynolds solver

The discretised Reynolds equation: the mass that flows into the cell of a node by the pressure gradient equals the mass that is carried
along by the moving surfaces (wedge term, upwind difference along the first axis) plus the mass that the cell gains (squeeze term).
Everything is written with plain fields, without the definitions of the model.
-/

namespace Verif.Reynolds

open Verif

/-- The nodes that a sweep computes: all inner ones, and with periodicity also the first and the last row. -/
def Computed (periodic : Bool) (width length i j : Nat) : Prop :=
  1 ≤ i ∧ i + 1 < width ∧ j < length ∧ (periodic = false → 1 ≤ j ∧ j + 1 < length)

/-- Between zero and the maximum. -/
def InRange (m x : XR) : Prop := XR.le (.fin 0) x = true ∧ XR.le x m = true

open Classical in
/-- The mobility `ρ h³ / (η λ)`; zero for gaps below the smallest one. -/
noncomputable def mobility (rho h eta lam hmin : ℝ) : ℝ := if h < hmin then 0 else rho * h ^ 3 / (eta * lam)

/-- The flow from one node to the next, driven by the pressure difference. -/
noncomputable def flow (e1 e2 p1 p2 dx : ℝ) : ℝ := (e1 + e2) / 2 * (p2 - p1) / dx

/-- The value given last for a parameter in a history. -/
def lastGiven {α β : Type} (start : β) (f : α → Option β) (history : List α) : β := ((history.filterMap f).getLast?).getD start

end Verif.Reynolds
