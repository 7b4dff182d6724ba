import Mathlib.Data.Fintype.Card
import Mathlib.Data.Fintype.Pi
import Mathlib.Data.Finset.Card
import Verif.XReal

/-!
# The bound constrained conjugate gradient solver: model of `_fftw_bccg`, `slippy/contact/influence_matrix_utils.py` l.738-891

(`_cuda_bccg`, l.454-621, is the same text with `cp` for `np` and `logical_or` for the sum of two Boolean masks.)

The solver is modelled for **any** arithmetic: the type `F` of numbers and the operations on it (`Ops`) are parameters, so that
theorems that do not constrain `Ops` hold for floating point numbers with rounding, infinities and `nan`. `exact` is the
arithmetic `Verif.XR` (exact real numbers with the exceptional values of floating point).

The vectors are indexed by `ι`, the nodes handed to the solver (`n = b.size`). `f` is any function of vectors. Warnings and
prints are not modelled (they are issued exactly where `failed` is set). The masks, the iteration counter and the residual,
which the code throws away, are kept in the result.
-/

namespace Verif.Bccg

open Verif

/-- The arithmetic used by the solver. `dot` is `np.dot`, `norm` is `np.linalg.norm`, `sqrtInt` is `np.sqrt` of an integer,
`maxZero v` is `np.max([v, 0])`, `clip v lo hi` is `np.clip`. -/
structure Ops (F ι : Type) where
  zero : F
  small : F
  onePlusSmall : F
  nan : F
  add : F → F → F
  sub : F → F → F
  mul : F → F → F
  div : F → F → F
  neg : F → F
  lt : F → F → Bool
  le : F → F → Bool
  maxZero : F → F
  clip : F → F → F → F
  sqrtInt : ℤ → F
  dot : (ι → F) → (ι → F) → F
  norm : (ι → F) → F

/-- The arguments of the solver. `maxP` is the maximum pressure at each node (a scalar is the same at each node). -/
structure Args (F ι : Type) where
  f : (ι → F) → ι → F
  b : ι → F
  tol : F
  maxIt : ℤ
  x0 : ι → F
  minP : F
  maxP : ι → F
  kInn : ℤ

/-- The variables carried from one iteration to the next. -/
structure St (F ι : Type) where
  x : ι → F
  g : ι → F
  r : ι → F
  p : ι → F
  rho : F
  msk0 : ι → Bool
  mskMax : ι → Bool
  nFree : ℤ
  it : ℤ
  itInn : ℤ

/-- What one iteration decides besides the new state. -/
structure Flags where
  outer : Bool
  changed : Bool
  small : Bool

variable {F ι : Type} [Fintype ι]

/-- `n - np.sum(msk_bnd_0) - np.sum(msk_bnd_max)`. -/
def freeCount (m0 mMax : ι → Bool) : ℤ :=
  (Fintype.card ι : ℤ) - (Finset.univ.filter (fun i => m0 i = true)).card - (Finset.univ.filter (fun i => mMax i = true)).card

/-- Initialisation, l.793-806. -/
def init (o : Ops F ι) (a : Args F ι) : St F ι :=
  let x := fun i => o.clip (a.x0 i) a.minP (a.maxP i)
  let fx := a.f x
  let g := fun i => o.sub (fx i) (a.b i)
  let m0 := fun i => o.le (x i) o.zero && o.le o.zero (g i)
  let mM := fun i => o.le (a.maxP i) (x i) && o.le (g i) o.zero
  ⟨x, g, fun _ => o.zero, fun _ => o.zero, o.zero, m0, mM, freeCount m0 mM, 0, 0⟩

/-- The result of the search part of one iteration: the new `r`, `rho`, `p`, the vector `q`, the step `alpha`, the pressures
before projection and whether the relative update is below the tolerance. -/
structure Search (F ι : Type) where
  r : ι → F
  rho : F
  p : ι → F
  q : ι → F
  alpha : F
  x : ι → F
  upd : Bool

/-- The first part of the body of the loop, l.809-840. -/
def search (o : Ops F ι) (a : Args F ι) (s : St F ι) : Search F ι :=
  let it := s.it + 1
  let itInn := s.itInn + 1
  let bound := fun i => s.msk0 i || s.mskMax i
  let r := fun i => if bound i then o.zero else o.neg (s.g i)
  let rho := o.dot r r
  let p1 := if 1 < it then
      let beta := o.div (o.sub rho (o.dot r s.r)) s.rho
      fun i => o.add (r i) (o.mul (o.maxZero beta) (s.p i))
    else r
  let p := fun i => if bound i then o.zero else p1 i
  let fp := a.f p
  let q := fun i => if decide (itInn < a.kInn) && bound i then o.nan else fp i
  let alpha := o.div (o.dot r p) (o.dot p q)
  let x1 := fun i => o.add (s.x i) (o.mul alpha (p i))
  let rmsX := o.div (o.norm x1) (o.sqrtInt s.nFree)
  let rmsUpd := o.div (o.norm (fun i => o.sub (x1 i) (s.x i))) (o.sqrtInt s.nFree)
  let upd := o.lt (o.div rmsUpd rmsX) a.tol
  ⟨r, rho, p, q, alpha, x1, upd⟩

/-- The second part of the body of the loop, l.842-881 except for the exits: projection onto the bounds, the new residual, the
release of nodes. -/
def project (o : Ops F ι) (a : Args F ι) (s : St F ι) (c : Search F ι) : St F ι × Flags :=
  let itInn := s.itInn + 1
  let outer := decide (a.kInn ≤ itInn) || c.upd
  let prj0 := fun i => outer && o.lt (c.x i) (o.neg o.small)
  let x2 := fun i => if prj0 i then o.zero else c.x i
  let m0 := fun i => s.msk0 i || prj0 i
  let prjM := fun i => outer && o.le (o.mul (a.maxP i) o.onePlusSmall) (x2 i)
  let x3 := fun i => if prjM i then a.maxP i else x2 i
  let mM := fun i => s.mskMax i || prjM i
  let changed1 := decide (∃ i, prj0 i = true) || decide (∃ i, prjM i = true)
  let fx := a.f x3
  let g := if changed1 || (outer && decide (1 < a.kInn)) then fun i => o.sub (fx i) (a.b i)
    else fun i => o.add (s.g i) (o.mul c.alpha (c.q i))
  let rel := fun i => outer && ((m0 i && o.lt (g i) (o.neg o.small)) || (mM i && o.lt o.small (g i)))
  let m0' := fun i => m0 i && !rel i
  let mM' := fun i => mM i && !rel i
  let changed := changed1 || decide (∃ i, rel i = true)
  let nFree := if changed then freeCount m0' mM' else s.nFree
  (⟨x3, g, c.r, c.p, c.rho, m0', mM', nFree, s.it + 1, itInn⟩, ⟨outer, changed, c.upd⟩)

/-- The body of the loop. -/
def iterate (o : Ops F ι) (a : Args F ι) (s : St F ι) : St F ι × Flags := project o a s (search o a s)

/-- What the solver leaves behind: `x` and `failed` are returned, the rest is for the statements. -/
structure Result (F ι : Type) where
  x : ι → F
  failed : Bool
  g : ι → F
  msk0 : ι → Bool
  mskMax : ι → Bool
  nFree : ℤ
  its : ℤ

/-- The loop with its three exits, l.874-890. -/
def loop (o : Ops F ι) (a : Args F ι) (s : St F ι) : Result F ι :=
  let n := iterate o a s
  let s' := n.1
  let stop := fun failed => (⟨s'.x, failed, s'.g, s'.msk0, s'.mskMax, s'.nFree, s'.it⟩ : Result F ι)
  if s'.nFree = 0 then stop true
  else if a.maxIt < s'.it then stop true
  else if n.2.outer && !n.2.changed && n.2.small then stop false
  else loop o a { s' with itInn := if n.2.outer then 0 else s'.itInn }
termination_by (a.maxIt - s.it).toNat
decreasing_by
  rename_i h _
  have h' : ¬ a.maxIt < s.it + 1 := h
  show (a.maxIt - (s.it + 1)).toNat < (a.maxIt - s.it).toNat
  omega

/-- `_fftw_bccg`. -/
def bccg (o : Ops F ι) (a : Args F ι) : Result F ι := loop o a (init o a)

open Classical in
/-- The arithmetic with exact real numbers and floating point exceptional values; `small = 1e-14` (l.800). -/
noncomputable def exact : Ops XR ι where
  zero := .fin 0
  small := .fin (1 / 10 ^ 14)
  onePlusSmall := .fin (1 + 1 / 10 ^ 14)
  nan := .nan
  add a b := a + b
  sub a b := a - b
  mul a b := a * b
  div a b := a / b
  neg a := -a
  lt := XR.lt
  le := XR.le
  maxZero v := if XR.le v (.fin 0) then .fin 0 else v
  clip v lo hi := if v = .nan then .nan else if XR.lt hi (if XR.lt v lo then lo else v) then hi else if XR.lt v lo then lo else v
  sqrtInt n := XR.sqrt (.fin n)
  dot a b := ∑ i, a i * b i
  norm a := XR.sqrt (∑ i, a i * a i)

end Verif.Bccg
