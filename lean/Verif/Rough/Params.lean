import Mathlib.Data.Real.Sqrt
import Mathlib.Algebra.Order.Chebyshev
import Mathlib.Data.List.Sort
import Verif.Rough.Poly

/-!
# C48, C49, C73-C75: `roughness`, `slippy/surface/roughness_funcs.py` l.174-372, `get_mat_vr` l.510-556 and `get_summit_curvatures` l.612-624

`none` is `nan` (or, for a ratio with no points, an infinite value). The parameters modelled here are sq, sa, ssk, sku, sv, sds, sz, ssc and sdr (the others are in `Bearing` and `Texture`); names are in lower case.
-/

namespace Verif.Rough

/-- `np.mean`: `nan` for no values and for a value that is `nan`. -/
noncomputable def mean (l : List (Option ℝ)) : Option ℝ :=
  match l.mapM id with
  | some v => if v = [] then Option.none else some (v.sum / v.length)
  | Option.none => Option.none

/-- Arithmetic with `nan`. -/
noncomputable def power (l : List (Option ℝ)) (n : ℕ) : List (Option ℝ) := l.map fun h => h.map fun v => v ^ n

/-- `sq`, l.246-247. -/
noncomputable def sq (l : List (Option ℝ)) : Option ℝ := (mean (power l 2)).map Real.sqrt

/-- `sa`, l.249-250. -/
noncomputable def sa (l : List (Option ℝ)) : Option ℝ := mean (l.map fun h => h.map fun v => |v|)

/-- `ssk`, l.252-254: `nan` (0 / 0) if sq is zero. -/
noncomputable def ssk (l : List (Option ℝ)) : Option ℝ :=
  match mean (power l 3), sq l with
  | some m, some s => if s = 0 then Option.none else some (m / s ^ 3)
  | _, _ => Option.none

/-- `sku`, l.256-258. -/
noncomputable def sku (l : List (Option ℝ)) : Option ℝ :=
  match mean (power l 4), sq l with
  | some m, some s => if s = 0 then Option.none else some (m / s ^ 4)
  | _, _ => Option.none

/-- `np.min`: `nan` if a value is `nan`, `ValueError` for no values. -/
noncomputable def least (l : List (Option ℝ)) : Except PyErr (Option ℝ) :=
  if l = [] then .error .valueError
  else match l.mapM id with
    | some (v :: vs) => .ok (some (vs.foldl min v))
    | _ => .ok Option.none

/-- The values of an array at the given points, in the order of the rows. -/
def valuesAt {α : Type} (a : Arr α) (pts : List (ℕ × ℕ)) : List α := pts.map fun q => a.val q.1 q.2

/-- The curvature of a summit, l.621-623. -/
noncomputable def curvature (eta : Arr (Option ℝ)) (gs : ℝ) (q : ℕ × ℕ) : Option ℝ := do
  let a ← eta.val (q.1 - 1) q.2
  let b ← eta.val (q.1 + 1) q.2
  let c ← eta.val q.1 (q.2 - 1)
  let d ← eta.val q.1 (q.2 + 1)
  let m ← eta.val q.1 q.2
  some (-(1 / 2) * (a + b + c + d - 4 * m) / gs ^ 2)

open Classical in
/-- `np.sort`: the `nan` values go to the end. -/
noncomputable def sortNan (l : List (Option ℝ)) : List (Option ℝ) :=
  ((l.filterMap id).insertionSort (· ≤ ·)).map some ++ l.filter (fun h => h.isNone)

/-- Broadcasting of two one dimensional arrays. -/
def broadcast (f : Option ℝ → Option ℝ → Option ℝ) (a b : List (Option ℝ)) : Except PyErr (List (Option ℝ)) :=
  if a.length = b.length then .ok (List.zipWith f a b)
  else match a, b with
    | [x], b => .ok (b.map (f x))
    | a, [y] => .ok (a.map fun x => f x y)
    | _, _ => .error .valueError

/-- `sz`, l.269-277: `np.abs(valley_heights[:5]) + np.abs(summit_heights[-5:]) / 5`. -/
noncomputable def ten (valleys summits : List (Option ℝ)) : Except PyErr (List (Option ℝ)) :=
  let v := (sortNan valleys).take 5
  let s := (sortNan summits).drop ((sortNan summits).length - 5)
  broadcast (fun a b => do let x ← a; let y ← b; some (|x| + |y| / 5)) v s

/-- The area of one cell, l.283-286. -/
noncomputable def cellArea (gs2 a b c d : ℝ) : ℝ :=
  0.25 * ((Real.sqrt (gs2 + (a - b) ^ 2) + Real.sqrt (gs2 + (d - c) ^ 2)) * (Real.sqrt (gs2 + (a - c) ^ 2) + Real.sqrt (gs2 + (b - d) ^ 2)))

/-- `sdr`, l.280-290, for a surface without `nan`: `ZeroDivisionError` if there are no cells (the sum is the integer 0). -/
noncomputable def sdr (rows cols : ℕ) (h : ℕ → ℕ → ℝ) (gs : ℝ) : Except PyErr (Option ℝ) :=
  let i_area := (((List.range (rows - 1)).product (List.range (cols - 1))).map fun q => cellArea (gs ^ 2) (h q.1 q.2) (h q.1 (q.2 + 1)) (h (q.1 + 1) q.2) (h (q.1 + 1) (q.2 + 1))).sum
  if rows - 1 = 0 ∨ cols - 1 = 0 then .error .zeroDivisionError
  else if i_area = 0 then .ok Option.none
  else .ok (some ((i_area - (rows * cols : ℕ) * gs ^ 2) / i_area))

/-- The names. -/
inductive Param where
  | sq | sa | ssk | sku | sv | sds | sz | ssc | sdr | unknown
deriving DecidableEq

/-- A result: a number, or the array that sz gives. -/
inductive Out where
  | num (v : Option ℝ)
  | arr (l : List (Option ℝ))

/-- The settings of a call that only the summits use. -/
structure Settings where
  gs : Option ℝ
  four : Bool
  filter : Option (Arr (Option ℝ) → Arr (Option ℝ))

/-- The mask array as an argument. -/
def toMask : Option (Arr Bool) → MaskArg ℝ
  | some m => .array m
  | Option.none => .none

/-- The parameter of one name from the flattened profile `eta` and the mask array (l.203-372): the result and `eta` afterwards, which `find_summits` overwrites. -/
noncomputable def single (st : Settings) (eta : Arr (Option ℝ)) (m : Option (Arr Bool)) (name : Param) : Except PyErr Out × Arr (Option ℝ) :=
  let vals := valuesAt eta (selected eta.rows eta.cols m)
  let ma := toMask m
  match name with
  | .sq => (.ok (.num (sq vals)), eta)
  | .sa => (.ok (.num (sa vals)), eta)
  | .ssk => (.ok (.num (ssk vals)), eta)
  | .sku => (.ok (.num (sku vals)), eta)
  | .sv => ((least vals).map .num, eta)
  | .sdr =>
    if st.gs = Option.none then (.error .valueError, eta)
    else if m.isSome then (.error .valueError, eta)
    else match (valuesAt eta (selected eta.rows eta.cols m)).mapM id, st.gs with
      | some _, some gs => ((sdr eta.rows eta.cols (fun i j => (eta.val i j).getD 0) gs).map .num, eta)
      | _, _ => (.ok (.num Option.none), eta)
  | .unknown => (.error .valueError, eta)
  | name =>
    match findSummits eta ma st.four st.filter with
    | .error e => (.error e, eta)
    | .ok (s, eta) =>
      let marked := selected s.rows s.cols (some s)
      match name with
      | .sds => (.ok (.num (if vals = [] then Option.none else some ((marked.length : ℝ) / vals.length))), eta)
      | .sz =>
        match findSummits ⟨eta.rows, eta.cols, fun i j => (eta.val i j).map fun v => -1 * v⟩ ma st.four st.filter with
        | .error e => (.error e, eta)
        | .ok (v, _) => ((ten (valuesAt eta (selected v.rows v.cols (some v))) (valuesAt eta marked)).map .arr, eta)
      | _ =>
        match st.gs with
        | Option.none => (.error .typeError, eta)
        | some gs => (.ok (.num (mean (marked.map (curvature eta gs)))), eta)

/-- The calls for a list of names, l.209-218: each works on the same `eta`. -/
noncomputable def several (st : Settings) (eta : Arr (Option ℝ)) (m : Option (Arr Bool)) : List Param → Except PyErr (List Out) × Arr (Option ℝ)
  | [] => (.ok [], eta)
  | n :: ns =>
    match single st eta m n with
    | (.error e, eta) => (.error e, eta)
    | (.ok o, eta) =>
      match several st eta m ns with
      | (.error e, eta) => (.error e, eta)
      | (.ok os, eta) => (.ok (o :: os), eta)

/-- The flattening, l.192-201: `subtract_polynomial` makes a new array, with `no_flattening` the profile of the caller is used. -/
noncomputable def flatten (lstsq : List (List ℝ) → List (Option ℝ) → Option (List ℝ)) (p : Arr (Option ℝ)) (m : Option (Arr Bool)) (curved noFlat : Bool) : Except PyErr (Arr (Option ℝ)) :=
  if noFlat then .ok p
  else (subtractPolynomial lstsq false p (if curved then 2 else 1) (toMask m)).map Prod.fst

/-- `roughness(profile, name, …)` for one name. -/
noncomputable def roughness (lstsq : List (List ℝ) → List (Option ℝ) → Option (List ℝ)) (st : Settings) (p : Arr (Option ℝ)) (mask : MaskArg ℝ) (curved noFlat : Bool) (name : Param) : Except PyErr Out :=
  match maskArray p mask with
  | .error e => .error e
  | .ok m => match flatten lstsq p m curved noFlat with
    | .error e => .error e
    | .ok eta => (single st eta m name).1

/-- `roughness(profile, [name, …], …)`. -/
noncomputable def roughnessList (lstsq : List (List ℝ) → List (Option ℝ) → Option (List ℝ)) (st : Settings) (p : Arr (Option ℝ)) (mask : MaskArg ℝ) (curved noFlat : Bool) (names : List Param) :
    Except PyErr (List Out) :=
  match maskArray p mask with
  | .error e => .error e
  | .ok m => match flatten lstsq p m curved noFlat with
    | .error e => .error e
    | .ok eta => (several st eta m names).1

/-- The selection of `get_mat_vr` l.518-533 and `get_height_of_mat_vr` l.423-438: `p[~mask]`. -/
def matSelection (p : Arr (Option ℝ)) (mask : MaskArg ℝ) : Except PyErr (List (ℕ × ℕ)) :=
  match maskArray p mask with
  | .error e => .error e
  | .ok Option.none => .ok (selected p.rows p.cols Option.none)
  | .ok (some m) => .ok (selected p.rows p.cols (some ⟨m.rows, m.cols, fun i j => !m.val i j⟩))

open Classical in
/-- `get_mat_vr(height, profile, ratio=True)`, l.535-556, for values without `nan`: the result is an array, since `sum(p - height)` is multiplied with the array `p > height`; `none` where 0 / 0 or a number divided by 0 stands. -/
noncomputable def matVr (height : ℝ) (p : List ℝ) (void : Bool) : Except PyErr (List (Option ℝ)) :=
  match p with
  | [] => .error .valueError
  | v :: vs =>
    let max_h := vs.foldl max v
    let min_h := vs.foldl min v
    let n_pts := (p.length : ℝ)
    let total_vol := n_pts * (max_h - min_h)
    let max_m := (p.map fun x => x - min_h).sum
    let material := p.map fun x => (p.map fun y => y - height).sum * (if height < x then 1 else 0)
    let div := fun a b : ℝ => if b = 0 then Option.none else some (a / b)
    if void then
      let all_above := (max_h - height) * n_pts
      .ok (material.map fun a => div (total_vol - max_m - (all_above - a)) (total_vol - max_m))
    else .ok (material.map fun a => div a max_m)

end Verif.Rough
