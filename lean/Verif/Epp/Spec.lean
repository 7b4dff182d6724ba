import Verif.Epp.Model
import Verif.Wear.Spec

/-! # What elastic perfectly plastic wear should remove -/

namespace Verif.Epp.Spec

variable {K : Type} [Field K] [LinearOrder K] [IsStrictOrderedRing K] [FloorRing K]

/-- The load has reached the maximum of one of the materials. -/
def Reached (m1 m2 : Option K) (x : K) : Prop := (∃ m, m1 = some m ∧ m ≤ x) ∨ (∃ m, m2 = some m ∧ m ≤ x)

/-- The gap at a node at the end of the step, nothing having been worn in the step before. -/
def gapOf (noTime : Bool) (interference : K) (n : Node K) : K := if noTime then n.jtg - interference + n.disp else n.gap

open Classical in
/-- The depth to be removed at a node: the inter-penetration there, if the node is in contact and has reached a maximum load. -/
noncomputable def overlap (m1 m2 : Option K) (noTime : Bool) (interference : K) (n : Node K) : K :=
  if Reached m1 m2 n.load ∧ n.contact = true then max 0 (-gapOf noTime interference n) else 0

/-- Nothing was worn in this step before, or the step is one with time. -/
def Fresh (c : Cfg K) (st : St K) (inp : Input K) : Prop := c.noTime = false ∨ st.plastic = none ∨ inp.newStep = some true

/-- The nodes of the contact lie on distinct nodes of the profile, those given by `row` and `col`, and the spacing is such that positions are found. -/
structure OnGrid (s : Wear.Surf K) (p : Wear.Arr K) (g : K) (nodes : List (Node K)) (y x : Node K → K) (row col : Node K → ℕ) : Prop where
  prof : s.prof = some p
  gs : s.gs = some g
  pos : 0 < g
  small : g < 2
  rows : p.rows ≤ 65536
  cols : p.cols ≤ 65536
  place : ∀ n ∈ nodes, y n = row n * g ∧ x n = col n * g ∧ row n < p.rows ∧ col n < p.cols
  distinct : nodes.Pairwise fun a b => ¬ (row a = row b ∧ col a = col b)

/-- The total of a quantity over the contact nodes that lie on a node of the profile. -/
def at_ (nodes : List (Node K)) (row col : Node K → ℕ) (f : Node K → K) (i j : ℕ) : K := ((nodes.filter fun n => row n = i ∧ col n = j).map f).sum

/-- The surface lost material only. -/
def OnlyRemoves (a b : Wear.Surf K) : Prop :=
  match a.prof, b.prof with
  | some p, some q => q.rows = p.rows ∧ q.cols = p.cols ∧ ∀ i j, q.val i j ≤ p.val i j
  | none, none => True
  | _, _ => False

end Verif.Epp.Spec
