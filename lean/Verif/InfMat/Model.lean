import Mathlib.Analysis.SpecialFunctions.Log.Basic
import Mathlib.Analysis.SpecialFunctions.Trigonometric.Arctan
import Mathlib.Analysis.Real.Sqrt
import Verif.Common

/-!
# Elastic influence coefficients: model of `slippy/contact/influence_matrix_utils.py:elastic_influence_matrix`

One entry of the matrix, for the integer node offset `(x, y) = (i'-i, j'-j)` (l.262-277 fill the offsets in; see
`Verif.Conv.offset`). Real numbers; the shear moduli are non-zero wherever a theorem uses the value.
-/

namespace Verif.InfMat

noncomputable section

open Real

/-- `mesh_idmi + 0.5` etc., l.274-277: `k`, `el` from the x offset, `m`, `n` from the y offset. -/
def hi (d : ℤ) : ℝ := (d : ℝ) + 1 / 2
/-- `mesh_idmi - 0.5`, l.275 and l.277. -/
def lo (d : ℤ) : ℝ := (d : ℝ) - 1 / 2

/-- The bracket multiplied by `hx` in the `zz`, `xx`, `yy` components, l.291-292. -/
def termX (x y : ℤ) : ℝ :=
  let k := hi x; let el := lo x; let m := hi y; let n := lo y
  k * log ((m + sqrt (k ^ 2 + m ^ 2)) / (n + sqrt (k ^ 2 + n ^ 2))) +
    el * log ((n + sqrt (el ^ 2 + n ^ 2)) / (m + sqrt (el ^ 2 + m ^ 2)))

/-- The bracket multiplied by `hy` in the `zz`, `xx`, `yy` components, l.293-294. -/
def termY (x y : ℤ) : ℝ :=
  let k := hi x; let el := lo x; let m := hi y; let n := lo y
  m * log ((k + sqrt (k ^ 2 + m ^ 2)) / (el + sqrt (el ^ 2 + m ^ 2))) +
    n * log ((el + sqrt (el ^ 2 + n ^ 2)) / (k + sqrt (k ^ 2 + n ^ 2)))

/-- `c_xz`, l.314-317. -/
def termXZ (hx hy : ℝ) (x y : ℤ) : ℝ :=
  let k := hi x; let el := lo x; let m := hi y; let n := lo y
  hy / 2 * (m * log ((k ^ 2 + m ^ 2) / (el ^ 2 + m ^ 2)) + n * log ((el ^ 2 + n ^ 2) / (k ^ 2 + n ^ 2))) +
    hx * (k * (arctan (m / k) - arctan (n / k)) + el * (arctan (n / el) - arctan (m / el)))

/-- `c_yx`, l.322-325. -/
def termXY (hx hy : ℝ) (x y : ℤ) : ℝ :=
  let k := hi x; let el := lo x; let m := hi y; let n := lo y
  sqrt (hy ^ 2 * n ^ 2 + hx ^ 2 * k ^ 2) - sqrt (hy ^ 2 * m ^ 2 + hx ^ 2 * k ^ 2) +
    sqrt (hy ^ 2 * m ^ 2 + hx ^ 2 * el ^ 2) - sqrt (hy ^ 2 * n ^ 2 + hx ^ 2 * el ^ 2)

/-- `c_zy`, l.329-332. -/
def termZY (hx hy : ℝ) (x y : ℤ) : ℝ :=
  let k := hi x; let el := lo x; let m := hi y; let n := lo y
  hx / 2 * (k * log ((k ^ 2 + m ^ 2) / (n ^ 2 + k ^ 2)) + el * log ((el ^ 2 + n ^ 2) / (m ^ 2 + el ^ 2))) +
    hy * (m * (arctan (k / m) - arctan (el / m)) + n * (arctan (el / n) - arctan (k / n)))

/-- `elastic_influence_matrix`, l.279-337, one entry. `second_surface` (l.282) holds only if both parameters of the second
material are given; otherwise both are overwritten with 1 (l.283-285), which makes the check of l.287-288 unreachable. The
second term is multiplied by the flag (`True` is 1, `False` is 0). An unknown component builds a `ValueError` without
raising it (l.337) and the function returns `None`. -/
def coefficient (comp : String) (hx hy G v : ℝ) (G2 v2 : Option ℝ) (x y : ℤ) : Option ℝ :=
  let second : Option (ℝ × ℝ) := match G2, v2 with
    | some G2, some v2 => some (G2, v2)
    | _, _ => none
  let s : ℝ := if second.isSome then 1 else 0
  let G2 : ℝ := match second with | some p => p.1 | none => 1
  let v2 : ℝ := match second with | some p => p.2 | none => 1
  if comp = "zz" then
    some (((1 - v) / (2 * π * G) + s * ((1 - v2) / (2 * π * G2))) * (hx * termX x y + hy * termY x y))
  else if comp = "xx" then
    some ((1 / (2 * π * G) + s * (1 / (2 * π * G2))) * (hx * (1 - v) * termX x y + hy * termY x y))
  else if comp = "yy" then
    some ((1 / (2 * π * G) + s * (1 / (2 * π * G2))) * (hx * termX x y + hy * (1 - v) * termY x y))
  else if comp = "xz" ∨ comp = "zx" then
    some (((2 * v - 1) / (4 * π * G) + s * ((2 * v2 - 1) / (4 * π * G2))) * termXZ hx hy x y)
  else if comp = "yx" ∨ comp = "xy" then
    some ((v / (2 * π * G) + s * (v2 / (2 * π * G2))) * termXY hx hy x y)
  else if comp = "zy" ∨ comp = "yz" then
    some (((1 - 2 * v) / (4 * π * G) + s * (1 - 2 * v2) / (4 * π * G2)) * termZY hx hy x y)
  else none

end

end Verif.InfMat
