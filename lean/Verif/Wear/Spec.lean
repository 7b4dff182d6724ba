import Verif.Wear.Model

/-! # What wear should do -/

namespace Verif.Wear.Spec

variable {K : Type} [Field K] [LinearOrder K] [IsStrictOrderedRing K] [FloorRing K]

/-- The node `i` is a nearest one to the position `x` (in units of length). -/
def Nearest (gs x : K) (i : ℕ) : Prop := ∀ j : ℕ, |x - (i : K) * gs| ≤ |x - (j : K) * gs|

/-- The worn depth recorded at a node, all mechanisms together. -/
def recorded (w : List (String × Arr K)) (y x : ℕ) : K := (w.map fun e => e.2.val y x).sum

/-- The unworn profile minus the current one is the recorded wear, at every node; without a profile nothing is recorded. -/
def Conserved (s : Surf K) : Prop :=
  match s.unworn, s.prof with
  | some u, some p => u.rows = p.rows ∧ u.cols = p.cols ∧ ∀ y x, u.val y x - p.val y x = recorded s.wear y x
  | none, none => s.wear = []
  | _, _ => False

/-- A worn place: position, depth, and the node it belongs to. -/
structure Place (K : Type) where
  x : K
  y : K
  d : K
  col : ℕ
  row : ℕ

/-- The total depth worn at a node. -/
def total (l : List (Place K)) (row col : ℕ) : K := ((l.filter fun p => p.row = row ∧ p.col = col).map Place.d).sum

end Verif.Wear.Spec
