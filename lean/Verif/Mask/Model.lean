import Verif.Common

/-!
# Masks: model of the setter of `mask`, `slippy/surface/Surface_class.py` l.186-213

Heights are `Option H`: `none` is `nan`. A profile is present; `invert_surface` is False.
-/

namespace Verif.Mask

/-- The profile. -/
structure Prof (H : Type) where
  rows : Nat
  cols : Nat
  val : Nat → Nat → Option H

/-- An array of bool. -/
structure M where
  rows : Nat
  cols : Nat
  val : Nat → Nat → Bool

/-- What the mask can be set to. `other` stands for all other types: `int`, numpy numbers, `None`. -/
inductive Arg (H : Type) where
  | float (v : Option H)
  | array (m : M)
  | str
  | seq (items : List (Arg H))
  | other

variable {H : Type} [DecidableEq H]

mutual
/-- The setter, l.186-209: the mask afterwards and the exception. A wrong shape gives a `KeyError` since the message refers to the unknown name `profile`, l.197-198. -/
def setMask (p : Prof H) (old : Option M) : Arg H → Option M × Option PyErr
  | .float none => (some ⟨p.rows, p.cols, fun i j => (p.val i j).isNone⟩, none)
  | .float (some v) => (some ⟨p.rows, p.cols, fun i j => decide (p.val i j = some v)⟩, none)
  | .array m => if m.rows = p.rows ∧ m.cols = p.cols then (some m, none) else (old, some .keyError)
  | .str => (old, some .typeError)
  | .seq items => setItems p old ⟨p.rows, p.cols, fun _ _ => false⟩ items
  | .other => (old, some .typeError)
/-- The loop l.204-206, with `mask` so far. -/
def setItems (p : Prof H) (old : Option M) (mask : M) : List (Arg H) → Option M × Option PyErr
  | [] => (some mask, none)
  | a :: as =>
    match setMask p old a with
    | (st, some e) => (st, some e)
    | (none, none) => (none, some .typeError)
    | (some m, none) => setItems p (some m) ⟨mask.rows, mask.cols, fun i j => m.val i j && mask.val i j⟩ as
end

/-- The deleter, l.211-213. -/
def delMask : Option M := none

end Verif.Mask
