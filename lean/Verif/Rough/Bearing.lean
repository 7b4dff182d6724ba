import Verif.Rough.Params

/-!
# C125: the functional parameters of `roughness`: stp, sbi, sci and svi, `slippy/surface/roughness_funcs.py` l.174-237 and l.292-322

The values used are real numbers: profiles with `nan` at a point that is used, and profiles without a mask that have less than two rows or columns, are not modelled. `int(size * 0.05)` and `int(size * 0.8)` are taken without
rounding errors. Names are in lower case except in `recognised`.
-/

namespace Verif.Rough

/-- An exception of Python, or a case that is not modelled. -/
inductive BErr where
  | py (e : PyErr)
  | unmodelled

/-- The names. -/
inductive BParam where
  | stp | sbi | sci | svi

/-- A result: a number, an array, or the two lists of stp; `none` is `nan` or infinite. -/
inductive BOut where
  | num (v : Option ℝ)
  | arr (l : List (Option ℝ))
  | curve (heights ratios : List (Option ℝ))

open Classical in
/-- A division. -/
noncomputable def divide (a b : ℝ) : Option ℝ := if b = 0 then Option.none else some (a / b)

/-- `eta_masked`, l.203-206: the array without a mask, a list of values with one. -/
inductive Kept where
  | whole (rows : List (List ℝ))
  | picked (l : List ℝ)

/-- The values in the order of the rows. -/
def Kept.values : Kept → List ℝ
  | .whole rows => rows.flatten
  | .picked l => l

/-- `np.sqrt(np.mean(eta_masked ** 2))`, l.294, 301, 305, 318. -/
noncomputable def rms (l : List ℝ) : ℝ := Real.sqrt ((l.map fun v => v ^ 2).sum / l.length)

open Classical in
/-- `np.sort` of a list of values. -/
noncomputable def sortValues (l : List ℝ) : List ℝ := l.insertionSort (· ≤ ·)

/-- `np.linspace(a, b, 100)`. -/
noncomputable def linspace (a b : ℝ) : List ℝ := (List.range 100).map fun k : ℕ => a + k * ((b - a) / 99)

open Classical in
/-- `stp`, l.292-297: `min` and `max` of Python compare the rows of an array; `None` cannot divide. -/
noncomputable def stp (gs : Option ℝ) : Kept → Except BErr BOut
  | .whole _ => .error (.py .valueError)
  | .picked [] => .error (.py .valueError)
  | .picked (v :: vs) => match gs with
    | Option.none => .error (.py .typeError)
    | some gs =>
      let l := v :: vs
      let area := l.length * gs ^ 2
      let s := rms l
      if s = 0 then .ok (.curve (List.replicate 100 Option.none) (List.replicate 100 (divide 0 area)))
      else
        let heights := linspace (vs.foldl min v / s) (vs.foldl max v / s)
        .ok (.curve (heights.map some) (heights.map fun h => divide (l.countP fun x => decide (x < h)) area))

/-- `sbi`, l.299-302: `np.sort` sorts each row of an array, and the index selects a row. -/
noncomputable def sbi : Kept → Except BErr BOut
  | .whole rows => match (rows.map sortValues)[rows.flatten.length / 20]? with
    | Option.none => .error (.py .indexError)
    | some r => .ok (.arr (r.map (divide (rms rows.flatten))))
  | .picked l => match (sortValues l)[l.length / 20]? with
    | Option.none => .error (.py .indexError)
    | some x => .ok (.num (divide (rms l) x))

/-- `int(x)`. -/
noncomputable def truncate (x : ℝ) : ℤ := if 0 ≤ x then ⌊x⌋ else ⌈x⌉

/-- `get_mat_vr(h, eta, void=True, mask=mask)`, l.312, 313, 321, of the values that the mask leaves out. -/
noncomputable def voidOf (h : ℝ) (rest : List (Option ℝ)) : Except BErr (List (Option ℝ)) :=
  match rest.mapM id with
  | Option.none => .error .unmodelled
  | some p => match matVr h p true with
    | .error e => .error (.py e)
    | .ok l => .ok l

/-- `… / p_area_m / sq` for an array, l.315 and l.322; `None` cannot divide. -/
noncomputable def perArea (gs : Option ℝ) (l : List ℝ) (a : List (Option ℝ)) : Except BErr BOut :=
  match gs with
  | Option.none => .error (.py .typeError)
  | some gs => .ok (.arr (a.map fun x => do
      let x ← x
      let y ← divide x (l.length * gs ^ 2)
      divide y (rms l)))

/-- `sci`, l.304-315: `int` of an array is a `TypeError` unless it has one element. `rest` are the values that the mask leaves out. -/
noncomputable def sci (gs : Option ℝ) (rest : List (Option ℝ)) : Kept → Except BErr BOut
  | .whole rows => match (rows.map sortValues)[rows.flatten.length / 20]? with
    | Option.none => .error (.py .indexError)
    | some _ => .error (.py .typeError)
  | .picked l => match (sortValues l)[l.length / 20]? with
    | Option.none => .error (.py .indexError)
    | some h005 => match l with
      | [v] =>
        if truncate (v * 0.8) = 0 ∨ truncate (v * 0.8) = -1 then
          match voidOf h005 rest with
          | .error e => .error e
          | .ok a => match voidOf v rest with
            | .error e => .error e
            | .ok b => perArea gs l (List.zipWith (fun x y => do
                let x ← x
                let y ← y
                some (x - y)) a b)
        else .error (.py .indexError)
      | _ => .error (.py .typeError)

/-- `svi`, l.317-322; an array with two columns has not enough rows for the index. -/
noncomputable def svi (gs : Option ℝ) (rest : List (Option ℝ)) : Kept → Except BErr BOut
  | .whole rows => match (rows.map sortValues)[4 * rows.flatten.length / 5]? with
    | Option.none => .error (.py .indexError)
    | some _ => .error .unmodelled
  | .picked l => match (sortValues l)[4 * l.length / 5]? with
    | Option.none => .error (.py .indexError)
    | some h08 => match voidOf h08 rest with
      | .error e => .error e
      | .ok a => perArea gs l a

/-- `eta_masked`, l.203-206. -/
noncomputable def kept (eta : Arr (Option ℝ)) : Option (Arr Bool) → Except BErr Kept
  | Option.none =>
    if eta.rows < 2 ∨ eta.cols < 2 then .error .unmodelled
    else match (valuesAt eta (selected eta.rows eta.cols Option.none)).mapM id with
      | Option.none => .error .unmodelled
      | some _ => .ok (.whole ((List.range eta.rows).map fun i => (List.range eta.cols).map fun j => (eta.val i j).getD 0))
  | some m => match (valuesAt eta (selected eta.rows eta.cols (some m))).mapM id with
    | Option.none => .error .unmodelled
    | some l => .ok (.picked l)

/-- The values that `get_mat_vr` takes for the same mask (l.531): those where it is False. -/
def leftOut (eta : Arr (Option ℝ)) : Option (Arr Bool) → List (Option ℝ)
  | Option.none => valuesAt eta (selected eta.rows eta.cols Option.none)
  | some m => valuesAt eta (selected eta.rows eta.cols (some ⟨m.rows, m.cols, fun i j => !m.val i j⟩))

/-- `roughness(profile, name, grid_spacing=gs, mask=mask, …)` for one of the four names. -/
noncomputable def bearing (lstsq : List (List ℝ) → List (Option ℝ) → Option (List ℝ)) (gs : Option ℝ) (p : Arr (Option ℝ)) (mask : MaskArg ℝ) (curved noFlat : Bool) (name : BParam) : Except BErr BOut :=
  match maskArray p mask with
  | .error e => .error (.py e)
  | .ok m => match flatten lstsq p m curved noFlat with
    | .error e => .error (.py e)
    | .ok eta => match kept eta m with
      | .error e => .error e
      | .ok k => match name with
        | .stp => stp gs k
        | .sbi => sbi k
        | .sci => sci gs (leftOut eta m) k
        | .svi => svi gs (leftOut eta m) k

/-- The names with a branch, l.246-365; any other name is a `ValueError` (l.367-370). -/
def branches : List String := ["sq", "sa", "ssk", "sku", "sv", "sds", "sz", "ssc", "sdr", "stp", "sbi", "sci", "svi", "str", "std", "sal"]

/-- The branch for a name, l.220-223 and l.246-370. -/
def branch (name : String) : Except PyErr String :=
  if branches.contains (String.ofList (name.toList.map Char.toLower)) then .ok (String.ofList (name.toList.map Char.toLower)) else .error .valueError

end Verif.Rough
