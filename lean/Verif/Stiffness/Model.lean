import Verif.Common
import Verif.Bccg.Model

/-!
# Contact stiffness: model of `slippy/contact/sub_models/contact_stiffness.py`

The solver is the model `Verif.Bccg` in exact arithmetic with exceptional values. The convolution with the sum of both influence matrices is a function `A` of
arrays on the (cropped) grid; `plan_convolve` with a domain applies it to the loads continued by zeros (see `Verif.Conv`). `imSum` is the sum of the influence
matrix. Not modelled: the check of the materials (l.102-103), printing, the transfer from the graphics card, negative borders, a border that leaves no nodes
(there python divides by an integer zero).
-/

namespace Verif.Stiffness

open Verif Bccg

/-- The argument `definition`. -/
inductive DefArg where
  | str (s : String)
  | other

/-- The definitions of stiffness, `'ml'` and `'fp'`. -/
inductive Kind where
  | ml
  | fp
  deriving DecidableEq

/-- The text in the keys, l.61-68. -/
def Kind.text : Kind → String
  | .ml => "ml"
  | .fp => "fp"

/-- The attributes set by the constructor. -/
structure Config where
  kinds : List Kind
  direction : String
  loading : Bool
  unloading : Bool
  boarder : Nat
  tol : ℝ
  maxIt : Option ℤ
  provides : List String

/-- `'loading'` or `'unloading'`, l.156. -/
def loadText (loading : Bool) : String := if loading then "loading" else "unloading"

/-- The names added to `provides`, l.79-88. -/
def provided (kinds : List Kind) (direction : String) (loading unloading : Bool) (boarder : Nat) : List String :=
  kinds.flatMap fun d =>
    (if loading then ["s_contact_stiffness_loading_" ++ d.text ++ "_" ++ direction ++ "_" ++ toString boarder] else []) ++
    (if unloading then ["s_contact_stiffness_unloading_" ++ d.text ++ "_" ++ direction ++ "_" ++ toString boarder] else [])

/-- `ResultContactStiffness.__init__`, l.49-94. -/
def construct (definition : DefArg) (direction : String) (loading unloading : Bool) (boarder : Nat) (tol : ℝ) (maxIt : Option ℤ) : Except PyErr Config :=
  match definition with
  | .other => .error .valueError
  | .str s => do
    let s := s.toLower
    let kinds ← if s = "both" then .ok [Kind.ml, Kind.fp] else if s = "mean lines" then .ok [Kind.ml] else if s = "far points" then .ok [Kind.fp] else .error .valueError
    if direction = "x" ∨ direction = "y" ∨ direction = "z" then
      if loading || unloading then .ok ⟨kinds, direction, loading, unloading, boarder, tol, maxIt, provided kinds direction loading unloading boarder⟩
      else .error .valueError
    else .error .valueError

/-- `contact_nodes[b:-b, b:-b]`, l.117-118. -/
def crop {A : Type} {n m : Nat} (b : Nat) (a : Fin n × Fin m → A) : Fin (n - 2 * b) × Fin (m - 2 * b) → A :=
  fun p => a (⟨p.1 + b, by have := p.1.isLt; omega⟩, ⟨p.2 + b, by have := p.2.isLt; omega⟩)

/-- The contact nodes that stay elastic, l.105-108. -/
noncomputable def loadingNodes {ι : Type} (contact : ι → Bool) (z : ι → XR) (maxLoad : XR) : ι → Bool := fun i => contact i && XR.lt (z i) (maxLoad * .fin (99999 / 100000))

variable {ι : Type} [Fintype ι]

/-- The nodes handed to the solver. -/
abbrev Domain (contact : ι → Bool) : Type := {i : ι // contact i = true}

/-- An array on the domain, continued by zeros, l.150-151. -/
def extend {contact : ι → Bool} (u : Domain contact → XR) : ι → XR := fun i => if h : contact i = true then u ⟨i, h⟩ else .fin 0

/-- The initial guess, l.134-140. -/
noncomputable def guess (imSum : ℝ) (last : Option (ι → XR)) : ι → XR := last.getD fun _ => .fin 1 * (.fin 1 / .fin imSum)

/-- The arguments of `bccg`, l.142-144. -/
noncomputable def problem (A : (ι → XR) → ι → XR) (imSum tol : ℝ) (maxIt : Option ℤ) (contact : ι → Bool) (last : Option (ι → XR)) : Args XR (Domain contact) :=
  { f := fun u i => A (extend u) i.1
    b := fun _ => .fin 1
    tol := .fin tol
    maxIt := match maxIt with | none => (Fintype.card (Domain contact) : ℤ) | some m => m
    x0 := fun i => guess imSum last i.1
    minP := .fin 0
    maxP := fun _ => .pinf
    kInn := 1 }

/-- `np.mean`. -/
noncomputable def mean (a : ι → XR) : XR := (∑ i, a i) / .fin (Fintype.card ι : ℝ)

/-- `all_disp` after l.162-164. -/
noncomputable def flattened (contact : ι → Bool) (d : ι → XR) : ι → XR :=
  fun i => if contact i then .fin 1 else if XR.lt (.fin 1) (d i) then .fin 1 else d i

/-- The stiffness of either definition from the loads, l.154-165. -/
noncomputable def stiffness (A : (ι → XR) → ι → XR) (contact : ι → Bool) (u : Domain contact → XR) : Kind → XR
  | .fp => (∑ i, u i) / .fin (Fintype.card ι : ℝ)
  | .ml => (∑ i, u i) / (.fin 1 - mean (flattened contact (A (extend u)))) / .fin (Fintype.card ι : ℝ)

/-- `_solve`, l.96-185: the results for each definition, whether the solver failed, and the new `last_converged_result`. -/
noncomputable def solveOne (cfg : Config) (A : (ι → XR) → ι → XR) (imSum : ℝ) (loading : Bool) (contact : ι → Bool) (last : Option (ι → XR)) :
    List (String × XR) × Bool × Option (ι → XR) :=
  let r := bccg exact (problem A imSum cfg.tol cfg.maxIt contact last)
  let out := fun k => ("s_contact_stiffness_" ++ loadText loading ++ "_" ++ k.text ++ "_", stiffness A contact r.x k)
  ((if Kind.fp ∈ cfg.kinds then [out .fp] else []) ++ (if Kind.ml ∈ cfg.kinds then [out .ml] else []), r.failed,
    if r.failed then last else some (extend r.x))

/-- `self.last_converged_result`. -/
structure Memory (ι : Type) where
  loading : Option (ι → XR)
  unloading : Option (ι → XR)

/-- Suffix of the keys, l.194-195 and l.199-200. -/
def suffix (cfg : Config) (l : List (String × XR)) : List (String × XR) := l.map fun p => (p.1 ++ cfg.direction ++ "_" ++ toString cfg.boarder, p.2)

/-- `solve`, l.187-201, for the nodes in contact on the cropped grid and those among them that are below the maximum load. -/
noncomputable def solve (cfg : Config) (A : (ι → XR) → ι → XR) (imSum : ℝ) (elastic contact : ι → Bool) (mem : Memory ι) : List (String × XR) × Memory ι :=
  let l := solveOne cfg A imSum true elastic mem.loading
  let u := solveOne cfg A imSum false contact mem.unloading
  ((if cfg.loading then suffix cfg l.1 else []) ++ (if cfg.unloading then suffix cfg u.1 else []),
    ⟨if cfg.loading then l.2.2 else mem.loading, if cfg.unloading then u.2.2 else mem.unloading⟩)

/-- The call for the whole grid: the nodes of both directions are selected first (l.105-118). -/
noncomputable def call {n m : Nat} (cfg : Config) (A : (Fin (n - 2 * cfg.boarder) × Fin (m - 2 * cfg.boarder) → XR) → Fin (n - 2 * cfg.boarder) × Fin (m - 2 * cfg.boarder) → XR)
    (imSum : ℝ) (maxLoad : XR) (contact : Fin n × Fin m → Bool) (z : Fin n × Fin m → XR) (mem : Memory (Fin (n - 2 * cfg.boarder) × Fin (m - 2 * cfg.boarder))) :
    List (String × XR) × Memory (Fin (n - 2 * cfg.boarder) × Fin (m - 2 * cfg.boarder)) :=
  solve cfg A imSum (crop cfg.boarder (loadingNodes contact z maxLoad)) (crop cfg.boarder contact) mem

end Verif.Stiffness
