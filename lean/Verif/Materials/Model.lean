import Mathlib.Data.List.Dedup
import Verif.Conv.Model
import Verif.Cg.Model
import Verif.InfMat.Model

/-!
# Loads and displacements of a material: model of `_IMMaterial` and `Rigid`, `slippy/contact/materials.py` l.66-293 and l.393-418, of `guess_loads_from_displacement` and
`_solve_im_loading`, `slippy/contact/influence_matrix_utils.py` l.12-93, and of `solve_normal_loading`, `slippy/contact/_step_utils.py` l.382-439

Numbers are `XR`. The influence matrix method of a material is an arbitrary function of span, grid spacing and component that may raise; its matrices have the shape of the span and real entries.
`fftconvolve` is the sum it stands for (as in `Verif.Conv`); an entry of the loads that is `nan` makes all sums `nan`. The iterative solver is the model `Verif.Cg`. Not modelled: keys of
dictionaries that are not strings, loads given as bare arrays, directions other than x, y, z, the in place doubling of a grid spacing given as a list of one number, infinite displacements in `nan_to_num`.
-/

namespace Verif.Materials

open Verif

/-- The three directions. -/
inductive Dir where
  | x | y | z
deriving DecidableEq

/-- `'xyz'` -/
def valid : List Dir := [.x, .y, .z]

/-- A two dimensional array. -/
structure Arr where
  n0 : ℕ
  n1 : ℕ
  val : ℕ → ℕ → XR

/-- `a.shape` -/
def Arr.shape (a : Arr) : ℕ × ℕ := (a.n0, a.n1)

/-- The named tuples `Loads` and `Displacements`, with `None` for a missing field (`_material_utils.py` l.10-11). -/
abbrev Triple := Dir → Option Arr

/-- `Loads(*l)`: missing arguments are `None`, more than three a `TypeError`, which l.122-125 turn into `ValueError`. -/
def ofList : List (Option Arr) → Except PyErr Triple
  | [] => .ok fun _ => none
  | [a] => .ok fun d => match d with | .x => a | .y => none | .z => none
  | [a, b] => .ok fun d => match d with | .x => a | .y => b | .z => none
  | [a, b, c] => .ok fun d => match d with | .x => a | .y => b | .z => c
  | _ => .error .valueError

/-- The argument `loads`. -/
inductive LoadsArg where
  | tuple (t : Triple)
  /-- a dictionary with keys `'x'`, `'y'`, `'z'` -/
  | dict (l : List (Dir × Option Arr))
  | seq (l : List (Option Arr))

/-- L.113-125. In l.116 `for key, value in loads` unpacks a key: for a key of one letter a `ValueError`. -/
def loadsOf : LoadsArg → Except PyErr Triple
  | .tuple t => .ok t
  | .dict [] => .ok fun _ => none
  | .dict (_ :: _) => .error .valueError
  | .seq l => ofList l

/-- `[vd for vd, el in zip('xyz', loads) if el is not None]`, l.128. -/
def directions (t : Triple) : List Dir := valid.filter fun d => (t d).isSome

/-- The shapes of the fields that are given, l.130. -/
def shapes (t : Triple) : List (ℕ × ℕ) := (directions t).filterMap fun d => (t d).map Arr.shape

/-- L.130-133: there has to be exactly one shape. -/
def oneShape (t : Triple) : Except PyErr (ℕ × ℕ) :=
  match (shapes t).dedup with
  | [s] => .ok s
  | _ => .error .valueError

/-- The argument `grid_spacing`. -/
inductive Spacing where
  | number (g : ℝ)
  | seq (l : List ℝ)

/-- L.138-143 and l.246-252. -/
def spacing : Spacing → Except PyErr (List ℝ)
  | .number g => .ok [g, g]
  | .seq [g] => .ok [g, g]
  | .seq l => if 2 < l.length then .error .valueError else .ok l

/-- The method `influence_matrix` for one component; the first direction is that of the displacement. -/
abbrev Im := ℕ × ℕ → List ℝ → Dir × Dir → Except PyErr (ℕ → ℕ → ℝ)

/-- The dictionary of components. -/
abbrev Comps := List ((Dir × Dir) × (ℕ → ℕ → ℝ))

/-- `influence_matrix(span, grid_spacing, names)`: a dictionary, so each name once. -/
def influence (im : Im) (span : ℕ × ℕ) (gs : List ℝ) (names : List (Dir × Dir)) : Except PyErr Comps :=
  names.dedup.mapM fun c => (im span gs c).map fun k => (c, k)

/-- `fftconvolve(loads, im, mode='same')`, `influence_matrix_utils.py` l.92. -/
noncomputable def convX (L0 L1 S0 S1 : ℕ) (im : ℕ → ℕ → ℝ) (loads : ℕ → ℕ → XR) (i j : ℕ) : XR :=
  ∑ a ∈ Finset.range L0, ∑ b ∈ Finset.range L1, loads a b *
    .fin (if a ≤ i + (S0 - 1) / 2 ∧ i + (S0 - 1) / 2 - a < S0 ∧ b ≤ j + (S1 - 1) / 2 ∧ j + (S1 - 1) / 2 - b < S1
      then im (i + (S0 - 1) / 2 - a) (j + (S1 - 1) / 2 - b) else 0)

/-- `_solve_im_loading`, `influence_matrix_utils.py` l.84-93: all three directions start as zeros. -/
noncomputable def imLoading (n0 n1 : ℕ) (span : ℕ × ℕ) (loads : Triple) (comps : Comps) (a : Dir) : Arr :=
  ⟨n0, n1, fun i j => (comps.map fun c => if c.1.1 = a then
    match loads c.1.2 with
    | some l => convX n0 n1 span.1 span.2 c.2 l.val i j
    | none => .nan
    else 0).sum⟩

/-- The names of the components, l.147-151. -/
def loadNames (simple : Bool) (deflections dirs : List Dir) : List (Dir × Dir) :=
  if simple then dirs.map fun d => (d, d) else deflections.product dirs

/-- `_IMMaterial.displacement_from_surface_loads`, l.66-157. -/
noncomputable def displacement (im : Im) (loads : LoadsArg) (gs : Spacing) (deflections : List Dir) (span : Option (ℕ × ℕ)) (simple : Bool) : Except PyErr (Dir → Arr) := do
  let t ← loadsOf loads
  let shape ← oneShape t
  let span := span.getD shape
  let gs ← spacing gs
  let comps ← influence im span gs (loadNames simple deflections (directions t))
  .ok (imLoading shape.1 shape.2 span t comps)

/-! ## Materials -/

/-- A material: one that inherits the methods of `_IMMaterial`, or `Rigid`. -/
inductive Mat where
  | general (im : Im)
  | rigid

/-- `influence_matrix`; that of `Rigid` (l.413-415) is zero. -/
def Mat.im : Mat → Im
  | .general im => im
  | .rigid => fun _ _ _ => .ok fun _ _ => 0

/-- A field of the result: an array, or the zero without dimensions that `np.zeros_like(None)` gives. -/
inductive Out where
  | scalar
  | arr (a : Arr)

/-- `displacement_from_surface_loads` on a `Loads` tuple; `Rigid` l.417-418. -/
noncomputable def Mat.displacement (m : Mat) (t : Triple) (gs : Spacing) (deflections : List Dir) (span : Option (ℕ × ℕ)) (simple : Bool) : Except PyErr (Dir → Out) :=
  match m with
  | .general im => (Materials.displacement im (.tuple t) gs deflections span simple).map fun f d => .arr (f d)
  | .rigid => .ok fun d => match t d with
    | none => .scalar
    | some a => .arr ⟨a.n0, a.n1, fun _ _ => .fin 0⟩

/-- The name of a component. -/
def name : Dir × Dir → String
  | (.x, .x) => "xx" | (.x, .y) => "xy" | (.x, .z) => "xz"
  | (.y, .x) => "yx" | (.y, .y) => "yy" | (.y, .z) => "yz"
  | (.z, .x) => "zx" | (.z, .y) => "zy" | (.z, .z) => "zz"

/-- `Elastic.influence_matrix` for one material and pairs of numbers for the span, l.491-578: `grid_spacing[0]` of nothing is an `IndexError`. The entries are those of `Verif.InfMat`, all names are known there. -/
noncomputable def elasticIm (G v : ℝ) : Im := fun span gs c =>
  match gs with
  | [] => .error .indexError
  | [h] => .ok (Conv.fillMatrix span.1 span.2 fun i j => (InfMat.coefficient (name c) h h G v none none i j).getD 0)
  | hx :: hy :: _ => .ok (Conv.fillMatrix span.1 span.2 fun i j => (InfMat.coefficient (name c) hx hy G v none none i j).getD 0)

/-! ## Loads from displacements -/

/-- The argument `displacements`; a key of the dictionary that is not a direction is `none`. -/
inductive DispArg where
  | tuple (t : Triple)
  | dict (l : List (Option Dir × Option Arr))
  | seq (l : List (Option Arr))

/-- L.221-234: fields that are `None` are left out of a dictionary and of a sequence. -/
def dispOf : DispArg → Except PyErr Triple
  | .tuple t => .ok t
  | .dict l =>
    let kept := l.filter fun e => e.2.isSome
    if kept.any fun e => e.1.isNone then .error .valueError
    else .ok fun d => (kept.find? fun e => e.1 = some d).bind Prod.snd
  | .seq l => if l.length ≠ 3 then .error .valueError else ofList (l.filter fun e => e.isSome)

/-- The names of the components, l.254-258. In l.257-258 the arrays themselves are multiplied out with `'xyz'`, and adding an array (or `None`) and a letter is a `TypeError`. -/
def dispNames (simple : Bool) (dirs : List Dir) : Except PyErr (List (Dir × Dir)) :=
  if simple ∨ dirs.length = 1 then .ok (dirs.map fun d => (d, d)) else .error .typeError

/-- The component with a name, as in `components[name]`. -/
def comp (comps : Comps) (c : Dir × Dir) : Except PyErr (ℕ → ℕ → ℝ) :=
  match comps.find? fun e => e.1 = c with
  | some e => .ok e.2
  | none => .error .keyError

/-- `max(component.flatten())`; `ValueError` for a matrix without entries. -/
noncomputable def maxIm (span : ℕ × ℕ) (k : ℕ → ℕ → ℝ) : Except PyErr ℝ :=
  match ((List.range span.1).product (List.range span.2)).map fun q => k q.1 q.2 with
  | [] => .error .valueError
  | v :: vs => .ok (vs.foldl max v)

/-- `np.nan_to_num` -/
def nanToNum : XR → XR
  | .nan => .fin 0
  | v => v

/-- `guess_loads_from_displacement`, `influence_matrix_utils.py` l.31-42, in one direction. -/
noncomputable def guessIn (span : ℕ × ℕ) (comps : Comps) (a : Arr) (d : Dir) : Except PyErr Arr := do
  let k ← comp comps (d, d)
  let m ← maxIm span k
  .ok ⟨a.n0, a.n1, fun i j => nanToNum (a.val i j * .fin m)⟩

/-- All directions in turn. -/
noncomputable def guess (span : ℕ × ℕ) (comps : Comps) (t : Triple) : List Dir → Except PyErr Triple
  | [] => .ok fun _ => none
  | d :: ds => match t d with
    | none => guess span comps t ds
    | some a => do
      let g ← guessIn span comps a d
      let rest ← guess span comps t ds
      .ok fun e => if e = d then some g else rest e

/-- The unknowns of the iterative solver: the directions given, and the nodes. -/
abbrev Idx (ds : List Dir) (n0 n1 : ℕ) := { d : Dir // d ∈ ds } × Fin n0 × Fin n1

/-- The numbers of a tuple as a vector; fields that are not there are not read. -/
def flat {ds : List Dir} {n0 n1 : ℕ} (t : Triple) : Idx ds n0 n1 → XR := fun k => match t k.1.1 with
  | some a => a.val k.2.1 k.2.2
  | none => .nan

/-- A vector as a tuple. -/
def unflat {ds : List Dir} {n0 n1 : ℕ} (v : Idx ds n0 n1 → XR) : Triple := fun d =>
  if h : d ∈ ds then some ⟨n0, n1, fun i j => if hh : i < n0 ∧ j < n1 then v (⟨d, h⟩, ⟨i, hh.1⟩, ⟨j, hh.2⟩) else 0⟩ else none

/-- `_solve_im_loading` on vectors. -/
noncomputable def operator (ds : List Dir) (n0 n1 : ℕ) (span : ℕ × ℕ) (comps : Comps) (v : Idx ds n0 n1 → XR) : Idx ds n0 n1 → XR :=
  fun k => (imLoading n0 n1 span (unflat v) comps k.1.1).val k.2.1 k.2.2

instance (ds : List Dir) : Fintype { d : Dir // d ∈ ds } := ⟨ds.attach.toFinset, fun d => by simp⟩

/-- What `loads_from_surface_displacement` returns; `parts` are the displacements of the two surfaces if the other material is given. -/
structure Solved where
  loads : Triple
  full : Dir → Arr
  parts : Option ((Dir → Out) × (Dir → Out))
  warned : Bool

/-- `_solve_im_displacement` (see `Verif.Cg`) with the guess, l.263-265 and l.278-281. -/
noncomputable def solveIm (shape span : ℕ × ℕ) (comps : Comps) (t : Triple) (maxIt : ℤ) (tol : XR) : Except PyErr (Triple × (Dir → Arr) × Bool) := do
  let g ← guess span comps t valid
  let r := Cg.solve (operator (directions t) shape.1 shape.2 span comps) (flat t) maxIt tol (flat g)
  let loads := unflat r.loads
  .ok (loads, imLoading shape.1 shape.2 span loads comps, r.warned)

/-- The argument `other`: `None`, an influence matrix material or another one. -/
inductive Other where
  | none
  | im (m : Mat)
  | notIm

/-- The components of the sum of two materials, l.270-276. -/
def addComps (a b : Comps) (names : List (Dir × Dir)) : Except PyErr Comps :=
  names.dedup.mapM fun c => do
    let x ← comp a c
    let y ← comp b c
    .ok (c, fun i j => x i j + y i j)

/-- `loads_from_surface_displacement`, l.159-293. -/
noncomputable def loadsFrom (m : Mat) (disp : DispArg) (gs : Spacing) (other : Other) (span : Option (ℕ × ℕ)) (tol : XR) (simple : Bool) (maxIt : ℤ) : Except PyErr Solved := do
  let t ← dispOf disp
  let shape ← oneShape t
  let span := span.getD shape
  let gs ← spacing gs
  let names ← dispNames simple (directions t)
  match other with
  | .none =>
    let comps ← influence m.im span gs names
    let r ← solveIm shape span comps t maxIt tol
    .ok ⟨r.1, r.2.1, none, r.2.2⟩
  | .im o =>
    let theirs ← influence o.im span gs names
    let own ← influence m.im span gs names
    let comps ← addComps own theirs names
    let r ← solveIm shape span comps t maxIt tol
    let d1 ← m.displacement r.1 (.seq gs) (directions t) (some span) simple
    let d2 ← o.displacement r.1 (.seq gs) (directions t) (some span) simple
    .ok ⟨r.1, r.2.1, some (d1, d2), r.2.2⟩
  | .notIm => .error .notImplementedError

/-! ## `solve_normal_loading` -/

/-- The options of one surface. -/
structure Options where
  span : Option (ℕ × ℕ) := none
  simple : Bool := false

/-- `-1 * loads`; `-1 * None` is a `TypeError`, l.426-430. -/
noncomputable def reverseLoads (rev : List Dir) (t : Triple) : Except PyErr Triple :=
  if valid.any fun d => decide (d ∈ rev) && (t d).isNone then .error .typeError
  else .ok fun d => if d ∈ rev then (t d).map fun a => ⟨a.n0, a.n1, fun i j => .fin (-1) * a.val i j⟩ else t d

/-- The sum of two fields; the zero without dimensions is broadcast. -/
noncomputable def addOut : Out → Out → Except PyErr Out
  | .scalar, b => .ok b
  | a, .scalar => .ok a
  | .arr a, .arr b => if a.shape = b.shape then .ok (.arr ⟨a.n0, a.n1, fun i j => a.val i j + b.val i j⟩) else .error .valueError

/-- `options[k]` -/
def option (l : Option (List (Option Options))) (k : ℕ) : Except PyErr Options :=
  match l with
  | none => .ok {}
  | some l => match l[k]? with
    | none => .error .indexError
    | some o => .ok (o.getD {})

/-- `solve_normal_loading`; the grid spacing is that of surface 1 for both, l.420-437. -/
noncomputable def normalLoading (m1 m2 : Mat) (gs : ℝ) (t : Triple) (deflections : List Dir) (options : Option (List (Option Options))) (rev : List Dir) :
    Except PyErr ((Dir → Out) × (Dir → Out) × (Dir → Out)) := do
  let o1 ← option options 0
  let d1 ← m1.displacement t (.number gs) deflections o1.span o1.simple
  let t2 ← reverseLoads rev t
  let o2 ← option options 1
  let d2 ← m2.displacement t2 (.number gs) deflections o2.span o2.simple
  let x ← addOut (d1 .x) (d2 .x)
  let y ← addOut (d1 .y) (d2 .y)
  let z ← addOut (d1 .z) (d2 .z)
  .ok (fun d => match d with | .x => x | .y => y | .z => z, d1, d2)

end Verif.Materials
