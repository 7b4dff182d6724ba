import Mathlib.Data.Real.Basic
import Verif.Common

/-!
# Which influence matrices the partial slip model uses: model of `slippy/contact/sub_models/tangential_partial_slip.py` l.77-112

An influence matrix is a function of the indices; a material that is no influence matrix material is `none`. `influence_matrix(span, [gs] * 2, [component])[component]` of a material is an
arbitrary function of the span, the spacing and the component, which may be different for each material, and which may raise. What follows is the model of `Verif.Tangential`.
-/

namespace Verif.SlipMemo

abbrev Span := ℕ × ℕ
abbrev Matrix := ℕ → ℕ → ℝ

/-- The influence matrix of a material: span, grid spacing (in both directions), component. -/
abbrev Influence := Span → ℝ → String → Except PyErr Matrix

/-- The two surfaces of the model: the material if it is an influence matrix material, and the grid spacing. -/
structure Surfaces where
  material1 : Option Influence
  material2 : Option Influence
  spacing1 : ℝ
  spacing2 : ℝ

/-- `_pre_solve_checks`, `_last_span`, `_im_1`, `_im_2`, `_im_total`, l.78-82. -/
structure Memo where
  checked : Bool
  lastSpan : Option Span
  im1 : Option Matrix
  im2 : Option Matrix
  total : Option Matrix

/-- A new sub model, l.78-82. -/
def Memo.new : Memo := ⟨false, none, none, none, none⟩

/-- `_check(span)`, l.88-101: both matrices are made with the spacing of the first surface. -/
def check (s : Surfaces) (component : String) (span : Span) (m : Memo) : Except PyErr Memo :=
  match s.material1, s.material2 with
  | some f1, some f2 =>
    match f1 span s.spacing1 component with
    | .error e => .error e
    | .ok a =>
      match f2 span s.spacing1 component with
      | .error e => .error e
      | .ok b => .ok { m with im1 := some a, im2 := some b, total := some fun i j => a i j + b i j, checked := true }
  | _, _ => .error .valueError

/-- The first lines of `solve`, l.104-108, and the matrix given to `plan_convolve`, l.112. The result, and the sub model afterwards. -/
def prepare (s : Surfaces) (component : String) (span : Span) (m : Memo) : Except PyErr Matrix × Memo :=
  let use (m : Memo) : Except PyErr Matrix × Memo := match m.total with
    | some t => (.ok t, m)
    | none => (.error .attributeError, m)
  if !m.checked || some span ≠ m.lastSpan then
    match check s component span m with
    | .error e => (.error e, m)
    | .ok m => use { m with lastSpan := some span }
  else use m

/-- The sub model after a number of calls of `solve` with the surfaces and spans at that time; exceptions are caught by the caller. -/
def after (component : String) (m : Memo) : List (Surfaces × Span) → Memo
  | [] => m
  | c :: cs => after component (prepare c.1 component c.2 m).2 cs

end Verif.SlipMemo
