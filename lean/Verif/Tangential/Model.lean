import Verif.Common
import Verif.Bccg.Model

/-!
# Tangential sub models

Models of `slippy/contact/sub_models/friction_coulomb_model.py`, `tangential_pure_sliding.py` and `tangential_partial_slip.py`.

Arrays over the grid are functions of the nodes `ι`. Limiting forces and prescribed displacements are real numbers, results of the solver are
`Verif.XR` (exact arithmetic with `nan`). The solver is the model `Verif.Bccg` of `bccg`, with its default of one inner iteration. The convolution with the
sum of both influence matrices is a function `conv` of the loads in the domain (`plan_convolve`, see `Verif.Conv`).
Not modelled: the check that both materials have influence matrices (l.83-97), printing, that `+=` in l.143 changes the existing array of displacements in
place.
-/

namespace Verif.Tangential

open Verif Bccg

/-- The named tuples `Loads` and `Displacements`, `_material_utils.py` l.10-11. -/
structure Vec3 (A : Type) where
  x : Option A
  y : Option A
  z : Option A

/-! ## Coulomb friction -/

/-- `FrictionCoulombSimple.solve`, `friction_coulomb_model.py` l.32-33: `none` if there are no normal loads (`TypeError`). The constructor (l.8-30) stores the
coefficient as it is. -/
def coulomb {ι : Type} (coefficient : ℝ) (loads : Vec3 (ι → ℝ)) : Except PyErr (ι → ℝ) :=
  match loads.z with
  | none => .error .typeError
  | some z => .ok fun i => z i * coefficient

/-! ## Pure sliding -/

/-- The argument `direction` of `TangentialPureSliding`. -/
inductive Direction where
  | name (s : String)
  | number (d : ℝ)
  | vector (l : List ℝ)

open Classical in
/-- `direction / np.linalg.norm(direction)`, `tangential_pure_sliding.py` l.46-47. -/
noncomputable def normalise (a b : ℝ) : XR × XR :=
  let n := XR.sqrt (.fin (a ^ 2 + b ^ 2))
  (.fin a / n, .fin b / n)

/-- `TangentialPureSliding.__init__`, l.28-49: the normalised direction. -/
noncomputable def slidingDirection (d : Direction) : Except PyErr (XR × XR) :=
  match d with
  | .name s =>
    let s := s.toLower
    if s = "x" then .ok (normalise 0 1)
    else if s = "y" then .ok (normalise 1 0)
    else .error .valueError
  | .number _ => .error .typeError
  | .vector [a, b] => .ok (normalise a b)
  | .vector _ => .error .valueError

/-- `TangentialPureSliding.solve`, l.51-53. -/
noncomputable def pureSliding {ι : Type} (d : XR × XR) (limit : ι → ℝ) (loads : Vec3 (ι → XR)) : Vec3 (ι → XR) :=
  ⟨some fun i => d.2 * .fin (limit i), some fun i => d.1 * .fin (limit i), loads.z⟩

/-! ## Partial slip -/

/-- The arguments `load` and `displacement` of `TangentialPartialSlip`: a number, a 2 by n array (as the list of its columns) or something that numpy does not
index with `[0, :]` (a list of lists). -/
inductive Given where
  | number (d : ℝ)
  | array (table : List (ℝ × ℝ))
  | lists

/-- What is prescribed. -/
inductive Control where
  | subModel
  | constant (d : ℝ)
  | table (t : List (ℝ × ℝ))
  | load

/-- `TangentialPartialSlip.__init__`, `tangential_partial_slip.py` l.43-71. -/
def construct (load displacement : Option Given) : Except PyErr Control :=
  match load, displacement with
  | none, none => .ok .subModel
  | some _, some _ => .error .valueError
  | some .lists, none => .error .typeError
  | some _, none => .ok .load
  | none, some (.number d) => .ok (.constant d)
  | none, some (.array t) => .ok (.table t)
  | none, some .lists => .error .typeError

/-- The line through two points. -/
noncomputable def line (p q : ℝ × ℝ) (t : ℝ) : ℝ := p.2 + (t - p.1) / (q.1 - p.1) * (q.2 - p.2)

open Classical in
/-- `interp1d(times, values, fill_value='extrapolate')` of scipy for increasing times (l.69): the first and the last line are continued. Tables of fewer than two
points are not modelled (0 here). -/
noncomputable def interp : List (ℝ × ℝ) → ℝ → ℝ
  | p :: q :: [], t => line p q t
  | p :: q :: r :: rest, t => if t ≤ q.1 then line p q t else interp (q :: r :: rest) t
  | _, _ => 0

/-- A displacement provided by another sub model. -/
inductive Rigid (ι : Type) where
  | number (d : ℝ)
  | array (a : ι → ℝ)

/-- The entries of the current state used here. -/
structure State (ι : Type) where
  limit : ι → ℝ
  contact : ι → Bool
  time : ℝ
  rigid : Option (Rigid ι)
  loads : Option (Vec3 (ι → XR))
  total : Option (Vec3 (ι → XR))
  stick : Option (ι → Bool)
  slip : Option (ι → XR)

/-- The direction of the tangential problem. -/
inductive Dir where
  | x
  | y

/-- Replace one entry of a named tuple. -/
def Vec3.set {A : Type} (v : Vec3 A) (d : Dir) (a : A) : Vec3 A := match d with
  | .x => { v with x := some a }
  | .y => { v with y := some a }

/-- One entry of a named tuple. -/
def Vec3.get {A : Type} (v : Vec3 A) (d : Dir) : Option A := match d with
  | .x => v.x
  | .y => v.y

/-- A named tuple without entries. -/
def Vec3.empty {A : Type} : Vec3 A := ⟨none, none, none⟩

variable {ι : Type} [Fintype ι]

/-- The nodes in contact. -/
abbrev Domain (contact : ι → Bool) : Type := {i : ι // contact i = true}

/-- The prescribed displacement, l.112-121. -/
noncomputable def prescribed (c : Control) (s : State ι) : Except PyErr (ι → ℝ) :=
  match c with
  | .load => .error .notImplementedError
  | .constant d => .ok fun _ => d
  | .table t => .ok fun _ => interp t s.time
  | .subModel => match s.rigid with
    | none => .error .keyError
    | some (.number d) => .ok fun _ => d
    | some (.array a) => .ok a

/-- The arguments handed to `bccg`, l.125-127 (`bccg` sets `max_it` to the number of nodes if it is not given, `influence_matrix_utils.py` l.1029-1030).
`previous_result` is never set after l.81. `imSum` is the sum of the influence matrix. -/
noncomputable def problem (s : State ι) (conv : (Domain s.contact → XR) → ι → XR) (imSum tol : ℝ) (maxIt : Option ℤ) (set : ι → ℝ) : Args XR (Domain s.contact) :=
  { f := fun u i => conv u i.1
    b := fun i => .fin (set i.1)
    tol := .fin tol
    maxIt := match maxIt with | none => (Fintype.card (Domain s.contact) : ℤ) | some m => m
    x0 := fun i => .fin (set i.1) / .fin imSum
    minP := .fin 0
    maxP := fun i => .fin (s.limit i.1)
    kInn := 1 }

/-- An array on the domain, continued by zeros, l.129-130. -/
def extend {contact : ι → Bool} (u : Domain contact → XR) : ι → XR := fun i => if h : contact i = true then u ⟨i, h⟩ else .fin 0

/-- `TangentialPartialSlip.solve`, l.103-154. The flag `failed` of the solver is not used. -/
noncomputable def solve (c : Control) (dir : Dir) (s : State ι) (conv : (Domain s.contact → XR) → ι → XR) (imSum tol : ℝ) (maxIt : Option ℤ) :
    Except PyErr (State ι) := do
  let set ← prescribed c s
  let u := (bccg exact (problem s conv imSum tol maxIt set)).x
  let full := extend u
  let stick := fun i => s.contact i && XR.lt (full i) (.fin (99 / 100 * s.limit i))
  let deformation := conv u
  let loads := (s.loads.getD Vec3.empty).set dir full
  let old := s.total.getD Vec3.empty
  let total := old.set dir (match old.get dir with
    | some a => fun i => a i + deformation i
    | none => deformation)
  let slip := fun i => if stick i || !s.contact i then XR.fin 0 else .fin (set i) - deformation i
  .ok { s with loads := some loads, total := some total, stick := some stick, slip := some slip }

end Verif.Tangential
