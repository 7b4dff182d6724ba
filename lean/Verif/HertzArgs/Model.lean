import Verif.Common

/-!
# The arguments of the full Hertz solution: model of `_sanitise_radii` and `_sanitise_material`, `slippy/contact/hertz.py`, l.1224-1271

`np.float` is Python's `float`. Not modelled: whole arguments that are strings (Python takes them as
sequences of characters), `None` as an element of a sequence of material properties
(numpy makes `nan` of it). The type of numbers is arbitrary.
-/

namespace Verif.HertzArgs

open Verif

/-- A Python value that is asked for a number. -/
inductive Item (α : Type) where
  | num (x : α)
  /-- A string and the number it reads as. -/
  | text (value : Option α)
  /-- Anything that has no number. -/
  | obj

/-- The argument: an instance of `abc.Sequence` (list, tuple), an array of numpy with its elements, or something else, with the number it has. -/
inductive Arg (α : Type) where
  | seq (items : List (Item α))
  | array (items : List α)
  | scalar (number : Option α)

variable {α : Type} [DecidableEq α] [OfNat α 0]

/-- `float(item)`. -/
def toFloat {α : Type} : Item α → Except PyErr α
  | .num x => .ok x
  | .text (some x) => .ok x
  | .text none => .error .valueError
  | .obj => .error .typeError

/-- `float(scalar)`. -/
def scalarFloat {α : Type} : Option α → Except PyErr α
  | some x => .ok x
  | none => .error .typeError

/-- `float(array)`: only for one element. -/
def arrayFloat {α : Type} : List α → Except PyErr α
  | [x] => .ok x
  | _ => .error .typeError

/-- `try … except`: the exception `caught` becomes `raised`. -/
def tryExcept {α : Type} (caught raised : PyErr) : Except PyErr α → Except PyErr α
  | .ok a => .ok a
  | .error e => if e = caught then .error raised else .error e

/-- A list comprehension of conversions. -/
def floats {α : Type} : List (Item α) → Except PyErr (List α)
  | [] => .ok []
  | i :: rest => do
    let x ← toFloat i
    let xs ← floats rest
    return x :: xs

/-- l.1246-1248: `r == 0`. -/
def isZero (x : α) : Bool := x = 0

/-- `_sanitise_radii`, l.1228-1245: the conversion. -/
def convertRadii {α : Type} : Arg α → Except PyErr (List α)
  | .scalar x => tryExcept .typeError .typeError ((scalarFloat x).map fun x => [x, x])
  | .array xs => tryExcept .typeError .typeError ((arrayFloat xs).map fun x => [x, x])
  | .seq items =>
    let items := match items with | [i] => [i, i] | l => l
    if items.length ≠ 2 then .error .valueError
    else tryExcept .valueError .typeError (floats items)

/-- `_sanitise_radii`, l.1246-1249. -/
def sanitiseRadii (radii : Arg α) : Except PyErr (List α) := do
  let radii ← convertRadii radii
  if radii.any isZero then .error .valueError else return radii

/-- `_sanitise_material`, l.1256-1262. -/
def convertMaterial {α : Type} : Arg α → Except PyErr (List (Item α))
  | .scalar x => tryExcept .valueError .typeError ((scalarFloat x).map fun x => [.num x, .num x])
  | .array xs => tryExcept .valueError .typeError ((arrayFloat xs).map fun x => [.num x, .num x])
  | .seq items => .ok items

/-- l.1266: `e == 0` (a string is not 0). -/
def itemZero : Item α → Bool
  | .num x => isZero x
  | _ => false

/-- `_sanitise_material`, l.1263-1271. -/
def sanitiseMaterial (name : String) (e : Arg α) : Except PyErr (List α) := do
  let items ← convertMaterial e
  let items := if items.length = 1 then items ++ items else items
  if items.length = 2 then
    if items.any itemZero && name == "e" then .error .valueError else floats items
  else .error .valueError

/-- l.580-583: the arguments of `hertz_full` in the order of the code. -/
def sanitise (r1 r2 moduli v : Arg α) : Except PyErr (List α × List α × List α × List α) := do
  let r1 ← sanitiseRadii r1
  let r2 ← sanitiseRadii r2
  let moduli ← sanitiseMaterial "moduli" moduli
  let v ← sanitiseMaterial "v" v
  return (r1, r2, moduli, v)

end Verif.HertzArgs
