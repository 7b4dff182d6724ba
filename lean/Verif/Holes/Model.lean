import Mathlib.Algebra.Order.Field.Basic
import Mathlib.Data.Nat.Cast.Order.Ring
import Verif.Common

/-!
# Filling holes: model of `Surface.fill_holes`, `slippy/surface/Surface_class.py` l.1471-1602

Heights are elements of an ordered field; `none` stands for `nan` and for the infinities. `skimage.restoration.inpaint.inpaint_biharmonic` (l.1595) is an arbitrary function of the profile
and the mask. Values of `hole_value` that are strings other than `'auto'`, `nan` or infinite are not modelled; profiles have two dimensions.
-/

namespace Verif.Holes

open Verif

variable {K : Type} [Field K] [LinearOrder K]

/-- A profile: its shape and its values. Values outside of the shape do not matter. -/
structure Profile (K : Type) where
  rows : ℕ
  cols : ℕ
  value : ℕ → ℕ → Option K

/-- `hole_value`. -/
inductive HoleValue (K : Type) where
  | auto
  | value (x : K)

/-- Where the holes are, l.1530-1533. -/
def isHole (h : HoleValue K) (x : Option K) : Bool := match h with
  | .auto => x.isNone
  | .value v => decide (x = some v)

/-- The rows and columns that are left: `start_r`, the number of rows removed at the end (`end_r` is `None` for zero of them, else minus this number), and the same for columns. -/
structure Box where
  startR : ℕ
  endR : ℕ
  startC : ℕ
  endC : ℕ
  deriving DecidableEq, Repr

/-- `np.mean(line[start:stop]) > b_thresh` where `line` has `n` entries and `stop` is minus `e` (`None` for zero): the mean of nothing is `nan`. -/
def mostly (thresh : K) (line : ℕ → Bool) (n start e : ℕ) : Bool :=
  decide (start < n - e ∧ thresh < ((((List.range' start (n - e - start)).filter line).length : ℕ) : K) / (((n - e - start : ℕ) : ℕ) : K))

/-- The flags `good`. -/
structure Good where
  top : Bool
  bottom : Bool
  left : Bool
  right : Bool
  deriving DecidableEq, Repr

/-- The first row, l.1550-1553. An index that is too large is an `IndexError`. -/
def cutTop (thresh : K) (R C : ℕ) (hole : ℕ → ℕ → Bool) (b : Box) (g : Good) : Except PyErr (Box × Good) :=
  if R ≤ b.startR then .error .indexError
  else if mostly thresh (fun j => hole b.startR j) C b.startC b.endC then .ok ({ b with startR := b.startR + 1 }, g)
  else .ok (b, { g with top := true })

/-- The last row, l.1555-1558: index `-(removed + 1)`. -/
def cutBottom (thresh : K) (R C : ℕ) (hole : ℕ → ℕ → Bool) (b : Box) (g : Good) : Except PyErr (Box × Good) :=
  if R ≤ b.endR then .error .indexError
  else if mostly thresh (fun j => hole (R - (b.endR + 1)) j) C b.startC b.endC then .ok ({ b with endR := b.endR + 1 }, g)
  else .ok (b, { g with bottom := true })

/-- The first column, l.1560-1563. -/
def cutLeft (thresh : K) (R C : ℕ) (hole : ℕ → ℕ → Bool) (b : Box) (g : Good) : Except PyErr (Box × Good) :=
  if C ≤ b.startC then .error .indexError
  else if mostly thresh (fun i => hole i b.startC) R b.startR b.endR then .ok ({ b with startC := b.startC + 1 }, g)
  else .ok (b, { g with left := true })

/-- The last column, l.1565-1568. -/
def cutRight (thresh : K) (R C : ℕ) (hole : ℕ → ℕ → Bool) (b : Box) (g : Good) : Except PyErr (Box × Good) :=
  if C ≤ b.endC then .error .indexError
  else if mostly thresh (fun i => hole i (C - (b.endC + 1))) R b.startR b.endR then .ok ({ b with endC := b.endC + 1 }, g)
  else .ok (b, { g with right := true })

/-- One pass of the loop l.1549-1568. -/
def cutPass (thresh : K) (R C : ℕ) (hole : ℕ → ℕ → Bool) (b : Box) (g : Good) : Except PyErr (Box × Good) := do
  let s ← cutTop thresh R C hole b g
  let s ← cutBottom thresh R C hole s.1 s.2
  let s ← cutLeft thresh R C hole s.1 s.2
  cutRight thresh R C hole s.1 s.2

/-- `all(good)`. -/
def Good.all (g : Good) : Bool := g.top && g.bottom && g.left && g.right

/-- `any(good)`. -/
def Good.any (g : Good) : Bool := g.top || g.bottom || g.left || g.right

/-- The loop l.1549-1568: `none` if it goes on for more than `n` passes. -/
def cut (thresh : K) (R C : ℕ) (hole : ℕ → ℕ → Bool) : ℕ → Box → Good → Option (Except PyErr Box)
  | n, b, g =>
    if g.all then some (.ok b)
    else match n with
      | 0 => none
      | n + 1 => match cutPass thresh R C hole b g with
        | .error e => some (.error e)
        | .ok s => cut thresh R C hole n s.1 s.2

/-- The first row, l.1572-1575. -/
def addTop (thresh : K) (C : ℕ) (hole : ℕ → ℕ → Bool) (b : Box) (g : Good) : Box × Good :=
  if 0 < b.startR ∧ mostly thresh (fun j => hole (b.startR - 1) j) C b.startC b.endC = false then ({ b with startR := b.startR - 1 }, g)
  else (b, { g with top := false })

/-- The last row, l.1577-1580: index `-removed`. -/
def addBottom (thresh : K) (R C : ℕ) (hole : ℕ → ℕ → Bool) (b : Box) (g : Good) : Box × Good :=
  if 0 < b.endR ∧ mostly thresh (fun j => hole (R - b.endR) j) C b.startC b.endC = false then ({ b with endR := b.endR - 1 }, g)
  else (b, { g with bottom := false })

/-- The first column, l.1582-1585. -/
def addLeft (thresh : K) (R : ℕ) (hole : ℕ → ℕ → Bool) (b : Box) (g : Good) : Box × Good :=
  if 0 < b.startC ∧ mostly thresh (fun i => hole i (b.startC - 1)) R b.startR b.endR = false then ({ b with startC := b.startC - 1 }, g)
  else (b, { g with left := false })

/-- The last column, l.1587-1590. -/
def addRight (thresh : K) (R C : ℕ) (hole : ℕ → ℕ → Bool) (b : Box) (g : Good) : Box × Good :=
  if 0 < b.endC ∧ mostly thresh (fun i => hole i (C - b.endC)) R b.startR b.endR = false then ({ b with endC := b.endC - 1 }, g)
  else (b, { g with right := false })

/-- One pass of the loop l.1571-1590. -/
def addPass (thresh : K) (R C : ℕ) (hole : ℕ → ℕ → Bool) (b : Box) (g : Good) : Box × Good :=
  let s := addTop thresh C hole b g
  let s := addBottom thresh R C hole s.1 s.2
  let s := addLeft thresh R hole s.1 s.2
  addRight thresh R C hole s.1 s.2

/-- The loop l.1571-1590: `none` if it goes on for more than `n` passes. -/
def addBack (thresh : K) (R C : ℕ) (hole : ℕ → ℕ → Bool) : ℕ → Box → Good → Option Box
  | n, b, g =>
    if g.any = false then some b
    else match n with
      | 0 => none
      | n + 1 => addBack thresh R C hole n (addPass thresh R C hole b g).1 (addPass thresh R C hole b g).2

/-- The rectangle that is kept, l.1539-1590. Each loop is followed for `n` passes. -/
def border (thresh : K) (R C : ℕ) (hole : ℕ → ℕ → Bool) (n : ℕ) : Option (Except PyErr Box) :=
  match cut thresh R C hole n ⟨0, 0, 0, 0⟩ ⟨false, false, false, false⟩ with
  | none => none
  | some (.error e) => some (.error e)
  | some (.ok b) => (addBack thresh R C hole n b ⟨true, true, true, true⟩).map .ok

/-- `profile[start_r:end_r, start_c:end_c]`, l.1592-1593. -/
def crop {A : Type} (b : Box) (f : ℕ → ℕ → A) (i j : ℕ) : A := f (b.startR + i) (b.startC + j)

/-- The number of entries of `start:-e`. -/
def span (n start e : ℕ) : ℕ := n - e - start

/-- A surface: the stored profile and whether it is inverted, l.290-297. -/
structure Surf (K : Type) where
  stored : Profile K
  invert : Bool

/-- The property `profile`, l.290-297. -/
def Surf.profile (s : Surf K) : Profile K :=
  if s.invert then { s.stored with value := fun i j => (s.stored.value i j).map (fun x => -1 * x) } else s.stored

/-- `profile[holes] = 0`, l.1537. -/
def zeroed (h : HoleValue K) (p : Profile K) : Profile K := { p with value := fun i j => if isHole h (p.value i j) then some 0 else p.value i j }

/-- `fill_holes`, l.1528-1602: the surface afterwards and the surface returned. `inpaint` takes the shape, the profile and the mask. The array of a surface that is not inverted is changed
in l.1537. -/
def fillHoles (inpaint : ℕ → ℕ → (ℕ → ℕ → Option K) → (ℕ → ℕ → Bool) → ℕ → ℕ → Option K) (h : HoleValue K) (mkCopy removeBorder : Bool) (thresh : K) (n : ℕ) (s : Surf K) :
    Option (Surf K × Except PyErr (Option (Surf K))) :=
  let p := s.profile
  let hole := fun i j => isHole h (p.value i j)
  let z := zeroed h p
  let after : Surf K := if s.invert then s else { s with stored := z }
  let found : Option (Except PyErr Box) := if removeBorder then border thresh p.rows p.cols hole n else some (.ok ⟨0, 0, 0, 0⟩)
  match found with
  | none => none
  | some (.error e) => some (after, .error e)
  | some (.ok b) =>
    let R := span p.rows b.startR b.endR
    let C := span p.cols b.startC b.endC
    let out : Profile K := ⟨R, C, inpaint R C (crop b z.value) (crop b hole)⟩
    if mkCopy then some (after, .ok (some ⟨out, false⟩)) else some ({ after with stored := out }, .ok none)

end Verif.Holes
