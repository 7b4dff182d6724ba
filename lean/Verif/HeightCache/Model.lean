import Mathlib.Data.Real.Basic
import Mathlib.Data.List.GetD
import Verif.Common

/-!
# The height search cache: model of `HeightOptimisationFunction`, `slippy/contact/_step_utils.py` l.67-379

Heights and loads are real numbers (`nan` and infinite heights are not modelled; Python's `float` of the argument is the
identity). The contact solver is a parameter: `Problem.bccg height nodes` is the total load found for the contact nodes `nodes` and
whether the solver reported failure (l.313-318; the solver is deterministic: it starts from zero loads, l.307-308, and everything
else that it uses is fixed when the object is made). `Problem.touching height` are the nodes with `z > 0` (l.297-299) and
`Problem.noNodes` says that there are none. `Problem.cubic` is `interp1d(loads, heights, kind='cubic')(x)`, l.277-278.

The surface loads kept beside the total loads are modelled by their number only. The dictionary of results is modelled by the
height it belongs to. `log` is a ghost field that lists the solutions made; it does not exist in the code.
CUDA is off.
-/

namespace Verif.HeightCache

open Verif

/-- What the search is done for. `N` is the type of sets of contact nodes. -/
structure Problem (N : Type) where
  /-- `_IMMaterial` on both surfaces, l.143 -/
  imMats : Bool
  /-- height and load for the maximum pressure everywhere, if it is finite, l.157-161 -/
  maxEntry : Option (ℝ × ℝ)
  useCache : Bool
  useLoads : Bool
  touching : ℝ → N
  noNodes : N → Bool
  bccg : ℝ → N → ℝ × Bool
  cubic : List ℝ → List ℝ → ℝ → Except PyErr ℝ

/-- The attributes of the object. -/
structure State (N : Type) where
  heights : List ℝ
  totals : List ℝ
  surfaceLoads : Nat
  setLoad : ℝ
  contactNodes : Option N
  setContactNodes : Bool
  cacheMax : Bool
  it : Nat
  results : Option ℝ
  lastFailed : Bool
  log : List (ℝ × ℝ × Bool)

variable {N : Type}

/-- `__init__`, l.103-163. The setter of `contact_nodes` (l.121, l.175-182) reads `self.im_mats`, which is only set later (l.138), if the
nodes are not `None`. -/
def init (P : Problem N) (initialNodes : Option N) (maxSetLoad : ℝ) : Except PyErr (State N) :=
  match initialNodes with
  | some _ => .error .attributeError
  | none =>
    let s : State N :=
      { heights := [0], totals := [0], surfaceLoads := 1, setLoad := maxSetLoad, contactNodes := none, setContactNodes := false,
        cacheMax := false, it := 0, results := none, lastFailed := false, log := [] }
    if P.imMats && P.useCache then
      match P.maxEntry with
      | none => .ok s
      | some (h, l) =>
        .ok { s with heights := s.heights ++ [h], totals := s.totals ++ [l],
                     surfaceLoads := if P.useLoads then s.surfaceLoads + 1 else s.surfaceLoads }
    else .ok s

/-- `clear_cache`, l.238-246. (The lists can't be empty where their first and last items are read, since `cache_max` is never set.) -/
def clearCache (s : State N) : State N :=
  if s.cacheMax then
    { s with heights := s.heights.head?.toList ++ s.heights.getLast?.toList,
             totals := s.totals.head?.toList ++ s.totals.getLast?.toList, surfaceLoads := 2 }
  else { s with heights := [], totals := [], surfaceLoads := 0 }

/-- `change_load`, l.248-258. -/
def changeLoad (s : State N) (newLoad : ℝ) (nodes : Option N) : State N :=
  { s with contactNodes := nodes, setContactNodes := nodes.isSome, setLoad := newLoad, results := none, it := 0 }

/-- The loop of `bisect.bisect_left(a, x)` with `lo` and `hi`. -/
noncomputable def bisectLoop (a : List ℝ) (x : ℝ) (lo hi : Nat) : Nat :=
  if lo < hi then
    let mid := (lo + hi) / 2
    if a.getD mid 0 < x then bisectLoop a x (mid + 1) hi
    else bisectLoop a x lo mid
  else lo
termination_by hi - lo
decreasing_by all_goals omega

/-- `bisect.bisect_left(a, x)`. -/
noncomputable def bisectLeft (a : List ℝ) (x : ℝ) : Nat := bisectLoop a x 0 a.length

/-- `add_to_cache`, l.370-379. -/
noncomputable def addToCache (P : Problem N) (s : State N) (height total : ℝ) (failed : Bool) : State N :=
  if P.useCache ∧ height ∉ s.heights ∧ failed = false then
    let index := bisectLeft s.heights height
    { s with heights := s.heights.insertIdx index height, totals := s.totals.insertIdx index total,
             surfaceLoads := if P.useLoads then s.surfaceLoads + 1 else s.surfaceLoads }
  else s

/-- `cache_total_load[cache_heights.index(height)]`, l.291. -/
noncomputable def lookup (s : State N) (height : ℝ) : Option ℝ :=
  s.totals[s.heights.findIdx (fun h => decide (h = height))]?

/-- The contact nodes for a height, l.297-300. -/
def nodesFor (P : Problem N) (s : State N) (height : ℝ) : N :=
  match s.setContactNodes, s.contactNodes with
  | true, some n => n
  | _, _ => P.touching height

/-- The contact solution for a height that is not in the cache, l.297-333. -/
noncomputable def solveHeight (P : Problem N) (s : State N) (height : ℝ) : State N × ℝ :=
  let nodes := nodesFor P s height
  let s1 : State N := { s with it := s.it + 1, contactNodes := some nodes }
  if P.noNodes nodes then
    let s2 := addToCache P { s1 with log := s1.log ++ [(height, 0, false)] } height 0 false
    ({ s2 with lastFailed := false }, 0 - s.setLoad)
  else
    let r := P.bccg height nodes
    let s2 := addToCache P { s1 with results := some height, log := s1.log ++ [(height, r.1, r.2)] } height r.1 r.2
    ({ s2 with lastFailed := r.2 }, r.1 - s.setLoad)

/-- `__call__`, l.282-368. For materials that are not given by influence matrices the results are written into `self._results`, which is
`None` (l.348). -/
noncomputable def call (P : Problem N) (s : State N) (height : ℝ) : State N × Except PyErr ℝ :=
  if height ∈ s.heights then
    match lookup s height with
    | some total => (s, .ok (total - s.setLoad))
    | none => (s, .error .indexError)
  else if P.imMats then
    let r := solveHeight P s height
    (r.1, .ok r.2)
  else ({ s with it := s.it + 1 }, .error .typeError)

/-- `get_bounds_from_cache`, l.260-280. Heights in the cache are Python floats, so that dividing by a height of zero raises
`ZeroDivisionError`; dividing by the argument `upper`, a numpy number, gives `nan` or infinity, neither of which is below 1e-10. -/
noncomputable def getBounds (P : Problem N) (s : State N) (lower upper : ℝ) : Except PyErr (ℝ × ℝ) :=
  if s.heights.length < 2 then .ok (lower, upper)
  else
    let index := bisectLeft s.totals s.setLoad
    let upperBound := s.heights.getD index upper
    let lowerBound := if 0 < index then max (s.heights.getD (index - 1) lower) lower else lower
    if upperBound = 0 ∧ index < s.heights.length then .error .zeroDivisionError
    else if (upperBound ≠ 0 ∧ |upperBound - lowerBound| / upperBound < 1e-10) ∨ upperBound < lowerBound then
      match P.cubic s.totals s.heights (s.setLoad * 2) with
      | .error e => .error e
      | .ok u => .ok (lowerBound, u)
    else .ok (lowerBound, upperBound)

/-- The operations on the object. -/
inductive Op (N : Type)
  | call (height : ℝ)
  | changeLoad (newLoad : ℝ) (nodes : Option N)
  | clear

/-- One operation. An exception leaves the object as it is at that point; the caller may go on. -/
noncomputable def step (P : Problem N) (s : State N) : Op N → State N
  | .call h => (call P s h).1
  | .changeLoad l nodes => changeLoad s l nodes
  | .clear => clearCache s

/-- A history of operations. -/
noncomputable def run (P : Problem N) (s : State N) (ops : List (Op N)) : State N := ops.foldl (step P) s

end Verif.HeightCache
