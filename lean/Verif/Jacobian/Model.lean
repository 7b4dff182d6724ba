import Mathlib.Algebra.BigOperators.Group.Finset.Basic
import Mathlib.Algebra.Order.Ring.Int
import Mathlib.Data.Nat.Cast.Basic
import Verif.Common

/-!
# Influence matrices and Jacobian of a material: model of `slippy/contact/materials.py` `_IMMaterial._jac_im_getter` (l.320-390), `Rigid.influence_matrix` (l.413-415) and `Elastic.influence_matrix` (l.491-578)

The component of the influence matrix is any array with two axes. Calls of the decorated method itself always fail (`Verif.Memo`, C05); here the body is modelled from l.342 on.
-/

namespace Verif.Jacobian

open Verif

variable {K : Type}

/-- An array with two axes. -/
structure Mat (K : Type) where
  rows : ℕ
  cols : ℕ
  val : ℕ → ℕ → K

/-- `a[t0:-t0, t1:-t1]`, where a cut of zero leaves the axis as it is, l.350-353 and l.374-379. -/
def trim (a : Mat K) (t0 t1 : ℕ) : Mat K := ⟨a.rows - 2 * t0, a.cols - 2 * t1, fun i j => a.val (i + t0) (j + t1)⟩

/-- `np.pad(a, ((b0, e0), (b1, e1)), mode='constant')`. -/
def pad [Zero K] (a : Mat K) (b0 e0 b1 e1 : ℕ) : Mat K :=
  ⟨b0 + a.rows + e0, b1 + a.cols + e1, fun i j => if b0 ≤ i ∧ i < b0 + a.rows ∧ b1 ≤ j ∧ j < b1 + a.cols then a.val (i - b0) (j - b1) else 0⟩

/-- `np.roll(a, (-s0, -s1), axis=[0, 1])`. -/
def roll (a : Mat K) (s0 s1 : ℕ) : Mat K := ⟨a.rows, a.cols, fun i j => a.val ((i + s0) % a.rows) ((j + s1) % a.cols)⟩

/-- The padding of one axis, l.372-379: what is cut off and what is added. -/
def padOf (s i : ℕ) : ℕ × ℕ :=
  let p : ℤ := (s : ℤ) - (i / 2 : ℕ)
  if p < 0 then ((-p).toNat, 0) else (0, p.toNat)

/-- The Jacobian without periodicity, l.371-388: the entry of row `(n, m)` and column `(k, l)`. -/
def plain [Zero K] (a : Mat K) (s0 s1 : ℕ) (n m k l : ℕ) : K :=
  let p0 := padOf s0 a.rows
  let p1 := padOf s1 a.cols
  let c := trim a p0.1 p1.1
  let b := pad c p0.2 p0.2 p1.2 p1.2
  b.val (s0 - n + k) (s1 - m + l)

/-- The Jacobian of a periodic surface, l.344-369: rows and columns by number. `np.pad` refuses negative widths. -/
def periodic [Zero K] (a : Mat K) (s0 s1 : ℕ) : Except PyErr (ℕ → ℕ → K) :=
  if ¬ (s0 % 2 = 1 ∧ s1 % 2 = 1) then .error .valueError
  else
    let c := trim a ((a.rows - s0) / 2) ((a.cols - s1) / 2)
    if s0 < c.rows ∨ s1 < c.cols then .error .valueError
    else
      let b := roll (pad c 0 (s0 - c.rows) 0 (s1 - c.cols)) (c.rows / 2) (c.cols / 2)
      let flat : ℕ → K := fun q => b.val (q / s1) (q % s1)
      .ok fun p q => flat ((q + (s0 * s1 - p)) % (s0 * s1))

/-! ## The influence matrices -/

/-- The nine components. -/
def nine : List String := ["xx", "xy", "xz", "yx", "yy", "yz", "zx", "zy", "zz"]

/-- The argument `components`. -/
inductive Comps where
  | text (s : String)
  | names (l : List String)

/-- What iterating over the argument gives. -/
def Comps.items : Comps → List String
  | .text s => s.toList.map fun c => String.ofList [c]
  | .names l => l

/-- A dictionary from a comprehension: a later entry for a name replaces the value and keeps the place. -/
def toDict {M : Type} (f : String → M) : List String → List (String × M)
  | [] => []
  | c :: cs => (c, f c) :: (toDict f cs).filter fun e => e.1 ≠ c

/-- `elastic_influence_matrix` by component: `None` for unknown names (see `Verif.InfMat.coefficient`). -/
def elasticComp {M : Type} (im : String → M) (c : String) : Option M := if c ∈ nine then some (im c) else none

/-- The second material. -/
inductive Other where
  | absent | elastic | rigid | unknown

/-- `Elastic.influence_matrix`, l.554-578. -/
def elasticInfluence {M : Type} (im : String → M) (other : Other) (c : Comps) : Except PyErr (List (String × Option M)) :=
  match other with
  | .unknown => .error .notImplementedError
  | _ => match c with
    | .text "all" => .ok (toDict (elasticComp im) nine)
    | c => .ok (toDict (elasticComp im) c.items)

/-- `Rigid.influence_matrix`, l.413-415. -/
def rigidInfluence {M : Type} (zeros : M) (c : Comps) : List (String × M) := toDict (fun _ => zeros) c.items

end Verif.Jacobian
