import Mathlib.Data.Rat.Floor
import Mathlib.Algebra.Order.Floor.Ring
import Verif.Bccg.Model
import Verif.Materials.Model

/-!
# Contact with a set interference: model of `solve_normal_interference`, `slippy/contact/_step_utils.py` l.443-630, and of `get_next_file_num`, l.633-646

Heights, gaps and the interference are real numbers, loads and displacements `XR`. `plan_convolve` and `fftconvolve` are the sum they stand for (`Verif.Materials.convX`, for `plan_convolve` and
real loads see C06-C09), the solver is `Verif.Bccg`. In the branch for other materials the call of `loads_from_surface_displacement` is an arbitrary function of the displacements that may raise and may
depend on the number of calls before it. `np.argpartition` is any choice (`Pick`). Not modelled: CUDA, prints and warnings, loads without a z field, boolean masks of another shape, a `remove_percent`
below zero, infinite or `nan`.
-/

namespace Verif.Interference

open Verif Verif.Materials

/-! ## The search for the contact nodes -/

/-- What the material of surface 1 returns: the loads, the total displacement and the two other displacements. -/
structure Answer (ι D : Type) where
  loads : ι → XR
  total : ι → XR
  rest : D

/-- What a callable `adhesive_pressure` returns: the two arrays of the docstring, or these and a flag. -/
inductive RuleOut (ι : Type) where
  | two (remove add : ι → Bool)
  | three (remove add : ι → Bool) (force : Bool)

/-- The argument `adhesive_pressure`. -/
inductive Adhesive (ι : Type) where
  | number (p : ℝ)
  | rule (f : (ι → XR) → (ι → XR) → (ι → Bool) → RuleOut ι)

/-- The settings of the loop. -/
structure Settings (ι : Type) where
  adhesive : Adhesive ι
  maxIter : ℤ
  removePercent : ℝ
  nodeThresh : ℝ

variable {ι D : Type} [Fintype ι]

/-- `sum(mask.flatten())` -/
def count (m : ι → Bool) : ℕ := (Finset.univ.filter fun i => m i = true).card

/-- `z = interference - gap`, l.515. -/
def needed (interference : ℝ) (gap : ι → ℝ) : ι → ℝ := fun i => interference - gap i

/-- The prescribed displacements, l.567-568 and l.616-617: `nan` where there is no contact. -/
def prescribed (z : ι → ℝ) (contact : ι → Bool) : ι → XR := fun i => if contact i then .fin (z i) else .nan

/-- `deformed_gap`, l.583. -/
def deformed (interference : ℝ) (gap : ι → ℝ) (total : ι → XR) : ι → XR := fun i => .fin (gap i - interference) + total i

/-- `np.argpartition(-loads.z.flatten(), -k)[-k:]`, l.600: some `k` positions. -/
abbrev Pick (ι : Type) := (ι → XR) → ℕ → Finset ι

open Classical in
/-- `a ≤ b` in the order numpy sorts by: `nan` comes last. -/
noncomputable def sortLe (a b : XR) : Bool := XR.le a b || decide (b = .nan)

/-- What `argpartition` ensures for the last `k` positions of the negated loads: as many as asked for, and none of the others has a larger negated load. -/
structure Pick.Ok (pick : Pick ι) : Prop where
  card : ∀ l k, k ≤ Fintype.card ι → (pick l k).card = k
  largest : ∀ l k, k ≤ Fintype.card ι → ∀ i ∈ pick l k, ∀ j ∉ pick l k, sortLe (-l j) (-l i) = true

open Classical in
/-- L.597: the largest number of nodes to be removed; `last` is the number of nodes added last, `none` for the infinite starting value. -/
noncomputable def maxRemove (n : ℕ) (removePercent : ℝ) (last : Option ℕ) : ℕ :=
  match last with
  | none => ⌊(n : ℝ) * removePercent⌋₊
  | some a => ⌊min ((n : ℝ) * removePercent) ((a : ℝ) / 2)⌋₊

open Classical in
/-- L.600-601: a slice `[-0:]` is the whole array. -/
noncomputable def lowest (pick : Pick ι) (loads : ι → XR) (k : ℕ) : ι → Bool :=
  if k = 0 then fun _ => true else fun i => decide (i ∈ pick loads k)

/-- What is to be done after a call, l.585-607: the nodes to remove, the nodes to add, and whether another iteration is forced. -/
noncomputable def update (pick : Pick ι) (s : Settings ι) (loads gap' : ι → XR) (contact : ι → Bool) (last : Option ℕ) : Except PyErr ((ι → Bool) × (ι → Bool) × Bool) :=
  match s.adhesive with
  | .number p =>
    let remove := fun i => XR.lt (loads i) (.fin p) && contact i
    let add := fun i => XR.lt (gap' i) (.fin 0) && !contact i
    let most := maxRemove (count contact) s.removePercent last
    if most < count remove then .ok (lowest pick loads most, add, true) else .ok (remove, add, false)
  | .rule f => match f loads gap' contact with
    | .two _ _ => .error .valueError
    | .three remove add force => .ok (remove, add, force)

/-- What is returned, and the number of calls of the material. -/
structure Result (ι D : Type) where
  loads : ι → XR
  total : ι → XR
  rest : D
  contact : ι → Bool
  failed : Bool
  calls : ℕ

/-- L.611: another iteration is needed. -/
noncomputable def again (s : Settings ι) (contact remove add : ι → Bool) (force : Bool) : Bool :=
  open Classical in force || decide (∃ i, remove i = true) || decide ((count contact : ℝ) * s.nodeThresh < (count add : ℝ))

/-- L.612-613: first added, then removed. -/
def change (contact remove add : ι → Bool) : ι → Bool := fun i => (contact i || add i) && !remove i

/-- L.614-615. -/
def lastAdded (add : ι → Bool) (last : Option ℕ) : Option ℕ := if count add = 0 then last else some (count add)

/-- `while True`, l.574-628, with the array of contact nodes, which is changed in place, beside the outcome. `it` iterations are over. -/
noncomputable def loop (mat : ℕ → (ι → XR) → Except PyErr (Answer ι D)) (pick : Pick ι) (s : Settings ι) (interference : ℝ) (gap : ι → ℝ) (it : ℕ) (contact : ι → Bool) (last : Option ℕ) :
    Except PyErr (Result ι D) × (ι → Bool) :=
  match mat it (prescribed (needed interference gap) contact) with
  | .error e => (.error e, contact)
  | .ok a =>
    match update pick s a.loads (deformed interference gap a.total) contact last with
    | .error e => (.error e, contact)
    | .ok (remove, add, force) =>
      if again s contact remove add force then
        let contact' := change contact remove add
        if s.maxIter < (it + 1 : ℕ) then (.ok ⟨fun _ => .nan, a.total, a.rest, contact', true, it + 1⟩, contact')
        else loop mat pick s interference gap (it + 1) contact' (lastAdded add last)
      else (.ok ⟨a.loads, a.total, a.rest, contact, false, it + 1⟩, contact)
termination_by (s.maxIter - it).toNat
decreasing_by
  rename_i h
  omega

/-! ## Two influence matrix materials -/

/-- The nodes of an array. -/
abbrev Node (n0 n1 : ℕ) := Fin n0 × Fin n1

/-- The argument `initial_guess_loads`: a tuple with a z field or, as the docstring says, an array. -/
inductive Guess (ι : Type) where
  | loads (z : ι → XR)
  | array (z : ι → XR)

/-- An array with zeros outside, as function of the indices. -/
def wide {n0 n1 : ℕ} (u : Node n0 n1 → XR) : ℕ → ℕ → XR := fun i j => if h : i < n0 ∧ j < n1 then u (⟨i, h.1⟩, ⟨j, h.2⟩) else .fin 0

/-- `loads_full`, l.551-552. -/
def fill {ι : Type} {contact : ι → Bool} (u : {i : ι // contact i = true} → XR) : ι → XR := fun i => if h : contact i = true then u ⟨i, h⟩ else .fin 0

/-- Convolution with a matrix of the shape of the span. -/
noncomputable def conv {n0 n1 : ℕ} (span : ℕ × ℕ) (im : ℕ → ℕ → ℝ) (u : Node n0 n1 → XR) : Node n0 n1 → XR := fun i => convX n0 n1 span.1 span.2 im (wide u) i.1 i.2

/-- `min(max_load_1, max_load_2)`, l.543. -/
noncomputable def smaller (a b : XR) : XR := if XR.lt b a then b else a

/-- `x.z` of the guess, l.540-546; without a guess it is made from the displacements. -/
noncomputable def startLoads {n0 n1 : ℕ} (span : ℕ × ℕ) (im : ℕ → ℕ → ℝ) (z : Node n0 n1 → ℝ) : Option (Guess (Node n0 n1)) → Except PyErr (Node n0 n1 → XR)
  | none => do
    let m ← maxIm span im
    .ok fun i => nanToNum (.fin (z i) * .fin m)
  | some (.loads l) => .ok l
  | some (.array _) => .error .attributeError

/-- The arguments of `bccg`, l.545-547. -/
noncomputable def problem {n0 n1 : ℕ} (span : ℕ × ℕ) (im : ℕ → ℕ → ℝ) (z : Node n0 n1 → ℝ) (contact : Node n0 n1 → Bool) (tol : ℝ) (maxIter : ℤ) (start : Node n0 n1 → XR) (adhesive : ℝ) (maxLoad : XR) :
    Bccg.Args XR {i : Node n0 n1 // contact i = true} :=
  { f := fun u i => conv span im (fill u) i.1
    b := fun i => .fin (z i.1)
    tol := .fin tol
    maxIt := maxIter
    x0 := fun i => start i.1
    minP := .fin adhesive
    maxP := fun _ => maxLoad
    kInn := 1 }

/-- The returned displacements of the two surfaces. -/
abbrev Pair (ι : Type) := (ι → XR) × (ι → XR)

open Classical in
/-- L.526-565. A callable `adhesive_pressure` is compared with numbers by `np.clip`. -/
noncomputable def solveIm {n0 n1 : ℕ} (m1 m2 : Mat) (max1 max2 : XR) (gs : ℝ) (span : Option (ℕ × ℕ)) (z : Node n0 n1 → ℝ) (contact : Node n0 n1 → Bool) (adhesive : Adhesive (Node n0 n1)) (tol : ℝ) (maxIter : ℤ)
    (guess : Option (Guess (Node n0 n1))) : Except PyErr (Result (Node n0 n1) (Pair (Node n0 n1))) := do
  let span := span.getD (n0 * 2, n1 * 2)
  let im1 ← m1.im span [gs, gs] (.z, .z)
  let im2 ← m2.im span [gs, gs] (.z, .z)
  let im := fun i j => im1 i j + im2 i j
  let start ← startLoads span im z guess
  match adhesive with
  | .rule _ => .error .typeError
  | .number p =>
    let r := Bccg.bccg Bccg.exact (problem span im z contact tol maxIter start p (smaller max1 max2))
    let full := fill r.x
    .ok ⟨full, conv span im full, (conv span im1 full, conv span im2 full), fun i => XR.lt (.fin p) (full i) && decide (full i ≠ .fin 0), r.failed, 0⟩

/-! ## The function -/

/-- The materials of the two surfaces: two influence matrix materials with their greatest loads, or another pair with the method of the first one. -/
inductive Materials2 (n0 n1 : ℕ) where
  | im (m1 m2 : Mat) (max1 max2 : XR)
  | other (mat : ℕ → (Node n0 n1 → XR) → Except PyErr (Answer (Node n0 n1) (Pair (Node n0 n1))))

/-- The arguments with their default values. -/
structure Call (n0 n1 : ℕ) where
  adhesive : Option (Adhesive (Node n0 n1)) := none
  contact : Option (Node n0 n1 → Bool) := none
  maxIter : ℤ := 100
  tol : ℝ := 1 / 10 ^ 4
  guess : Option (Guess (Node n0 n1)) := none
  span : Option (ℕ × ℕ) := none
  removePercent : ℝ := 1 / 2
  nodeThresh : ℝ := 1 / 100

open Classical in
/-- The contact nodes at the start, l.517-518. -/
noncomputable def startNodes {ι : Type} (z : ι → ℝ) : Option (ι → Bool) → ι → Bool
  | some c => c
  | none => fun i => decide (0 < z i)

/-- `solve_normal_interference`, l.443-630, with the array of contact nodes that was used, which is the one of the caller if that is given. -/
noncomputable def solve {n0 n1 : ℕ} (pick : Pick (Node n0 n1)) (mats : Materials2 n0 n1) (gs interference : ℝ) (gap : Node n0 n1 → ℝ) (c : Call n0 n1) :
    Except PyErr (Result (Node n0 n1) (Pair (Node n0 n1))) × (Node n0 n1 → Bool) :=
  let adhesive := c.adhesive.getD (.number 0)
  let z := needed interference gap
  let contact := startNodes z c.contact
  if count contact = 0 then (.ok ⟨fun _ => .fin 0, fun _ => .fin 0, (fun _ => .fin 0, fun _ => .fin 0), contact, false, 0⟩, contact)
  else match mats with
    | .im m1 m2 max1 max2 => (solveIm m1 m2 max1 max2 gs c.span z contact adhesive c.tol c.maxIter c.guess, contact)
    | .other mat => loop mat pick ⟨adhesive, c.maxIter, c.removePercent, c.nodeThresh⟩ interference gap 0 contact none

end Verif.Interference
