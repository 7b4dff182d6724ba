import Verif.Conv.Backends
import Verif.HeightCache.Model

/-!
# The results of the height search: model of `HeightOptimisationFunction.results`, `slippy/contact/_step_utils.py` l.184-236, with what l.155, l.169-182, l.248-258 and l.282-333 put into `_results` and `conv_func`

Heights in the cache, total loads and the contact nodes are those of `Verif.HeightCache`; here the contact nodes are masks of the shape of the gap, and `conv_func` is described by the mask it was planned
with. Materials and surfaces do not change after the object is made. The solver `bccg` is an arbitrary function that gives a real number for each contact node. CUDA is off; prints are left out.
-/

namespace Verif.HeightResults

open Verif HeightCache Conv

noncomputable section

/-- A mask of the shape of the gap. -/
abbrev Mask := ℕ → ℕ → Bool

/-- What the object is made for. -/
structure Setup where
  /-- the shape of the gap -/
  rows : ℕ
  cols : ℕ
  gap : ℕ → ℕ → ℝ
  /-- `_grid_spacing`, l.114 -/
  spacing : ℝ
  backend : Backend
  /-- `_periodic_axes` -/
  periodic : Circular
  /-- the `zz` components of the two materials for the shape of the gap, l.148-151 and l.199-204 -/
  im1 : ℕ → ℕ → ℝ
  im2 : ℕ → ℕ → ℝ
  /-- `bccg`, l.313-315: the loads on the nodes and whether it failed -/
  bccg : ℝ → List (ℕ × ℕ) → (ℕ × ℕ → ℝ) × Bool
  imMats : Bool
  maxEntry : Option (ℝ × ℝ)
  useCache : Bool
  useLoads : Bool
  cubic : List ℝ → List ℝ → ℝ → Except PyErr ℝ

/-- The nodes of a mask in the order of indexing. -/
def Setup.nodes (S : Setup) (d : Mask) : List (ℕ × ℕ) := Conv.nodes S.rows S.cols d

/-- `loads_in_domain`, l.313. -/
def Setup.loads (S : Setup) (h : ℝ) (d : Mask) : List ℝ := (S.nodes d).map (S.bccg h (S.nodes d)).1

/-- The problem as `Verif.HeightCache` sees it: `z > 0` l.297-299, the total load l.318. -/
def Setup.problem (S : Setup) : Problem Mask where
  imMats := S.imMats
  maxEntry := S.maxEntry
  useCache := S.useCache
  useLoads := S.useLoads
  touching h := fun i j => open Classical in decide (0 < -S.gap i j + h)
  noNodes d := (S.nodes d).isEmpty
  bccg h d := ((S.loads h d).sum * S.spacing ^ 2, (S.bccg h (S.nodes d)).2)
  cubic := S.cubic

/-- The dictionary that `results` returns, l.227-232; every array has the shape of the gap. -/
structure Full where
  loads : ℕ → ℕ → ℝ
  total : ℕ → ℕ → ℝ
  disp1 : ℕ → ℕ → ℝ
  disp2 : ℕ → ℕ → ℝ
  contact : Mask
  load : ℝ
  interference : ℝ

/-- `_results`. -/
inductive Results where
  /-- `{'loads_in_domain', 'domain', 'interference'}`, l.316-317 -/
  | raw (loads : List ℝ) (domain : Mask) (interference : ℝ)
  | full (f : Full)

/-- The object: the attributes of `Verif.HeightCache`, `_results`, and the mask `conv_func` was planned with (`none` for a plan without mask). -/
structure Obj where
  cache : State Mask
  results : Option Results
  planned : Option Mask

/-- `__init__` without nodes, l.103-163: `conv_func` is planned with `contact_nodes`, which is `None`. -/
def new (S : Setup) (maxSetLoad : ℝ) : Except PyErr Obj :=
  match HeightCache.init S.problem none maxSetLoad with
  | .error e => .error e
  | .ok s => .ok ⟨s, none, none⟩

/-- `change_load`, l.248-258: the setter l.169-182 plans again, unless the nodes are `None`. -/
def changeLoad (S : Setup) (o : Obj) (newLoad : ℝ) (nodes : Option Mask) : Obj :=
  ⟨HeightCache.changeLoad o.cache newLoad nodes, none, if S.imMats then nodes.or o.planned else o.planned⟩

/-- `__call__`, l.282-368: the mask is set, and `conv_func` planned, unless nodes were given; `_results` is not touched if there are no contact nodes. -/
def call (S : Setup) (o : Obj) (h : ℝ) : Obj × Except PyErr ℝ :=
  let r := HeightCache.call S.problem o.cache h
  open Classical in
  if h ∈ o.cache.heights then ({ o with cache := r.1 }, r.2)
  else if S.imMats then
    let d := nodesFor S.problem o.cache h
    (⟨r.1, if (S.nodes d).isEmpty then o.results else some (.raw (S.loads h d) d h), if o.cache.setContactNodes then o.planned else some d⟩, r.2)
  else ({ o with cache := r.1 }, r.2)

/-- `full = zeros(shape); full[mask] = v`: numpy wants one value for each node, or one value. -/
def assign (S : Setup) (d : Mask) (v : List ℝ) : Except PyErr (ℕ → ℕ → ℝ) :=
  if v.length = (S.nodes d).length then .ok (Conv.fill S.rows S.cols d v)
  else match v with
    | [x] => .ok fun i j => if (i, j) ∈ S.nodes d then x else 0
    | _ => .error .valueError

/-- `plan_convolve(…, im, …, circular=self._periodic_axes)`; the influence matrices have the shape of the gap. -/
def plan (S : Setup) (im : ℕ → ℕ → ℝ) : Except PyErr ((ℕ → ℕ → ℝ) → ℕ → ℕ → ℝ) := Conv.plan S.backend S.periodic S.rows S.cols S.rows S.cols im

/-- `self.conv_func(loads, ignore_domain=True)`, l.212: a plan without mask does not know the argument. -/
def convFunc (S : Setup) (planned : Option Mask) (v : List ℝ) : Except PyErr (ℕ → ℕ → ℝ) :=
  match planned with
  | none => .error .typeError
  | some d => do
    let f ← plan S fun i j => S.im1 i j + S.im2 i j
    let a ← assign S d v
    .ok (f a)

/-- The dictionary is made, l.192-232. -/
def finish (S : Setup) (planned : Option Mask) (v : List ℝ) (d : Mask) (h : ℝ) : Except PyErr Full := do
  let loads ← assign S d v
  let total ← convFunc S planned v
  let f1 ← plan S S.im1
  let f2 ← plan S S.im2
  .ok { loads := loads, total := total, disp1 := f1 loads, disp2 := f2 loads, contact := fun i j => open Classical in decide (0 < loads i j), load := v.sum * S.spacing ^ 2, interference := h }

/-- The property `results`, l.184-236: what is read, and the object afterwards. `in` of `None` is a `TypeError`. -/
def read (S : Setup) (o : Obj) : Except PyErr (Option Full) × Obj :=
  match o.results with
  | some (.full f) => (.ok (some f), o)
  | none => if S.imMats then (.error .typeError, o) else (.ok none, o)
  | some (.raw v d h) =>
    match finish S o.planned v d h with
    | .error e => (.error e, o)
    | .ok f => (.ok (some f), { o with results := some (.full f) })

/-- What can be done with the object. -/
inductive Op where
  | call (h : ℝ)
  | changeLoad (newLoad : ℝ) (nodes : Option Mask)
  | clear
  | read

/-- One operation; exceptions are caught by the caller. -/
def step (S : Setup) (o : Obj) : Op → Obj
  | .call h => (call S o h).1
  | .changeLoad l d => changeLoad S o l d
  | .clear => { o with cache := clearCache o.cache }
  | .read => (read S o).2

/-- A history. -/
def run (S : Setup) (o : Obj) (ops : List Op) : Obj := ops.foldl (step S) o

end

end Verif.HeightResults
