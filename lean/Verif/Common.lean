/-!
# Common vocabulary

`PyErr` lists the Python exception classes that the modelled functions of `/repo/slippy` raise. An exception is a value
of `Except PyErr α` in the model.
-/

namespace Verif

/-- The exception classes that the modelled code raises (messages are not modelled). -/
inductive PyErr
  | valueError
  | typeError
  | keyError
  | indexError
  | attributeError
  | notImplementedError
  | assertionError
  | zeroDivisionError
  | stopIteration
  | nameError
  deriving DecidableEq, Repr

/-- `r` returned normally with the value `a`. -/
def Returns {α : Type _} (r : Except PyErr α) (a : α) : Prop := r = .ok a

/-- `r` raised the exception `e`. -/
def Raises {α : Type _} (r : Except PyErr α) (e : PyErr) : Prop := r = .error e

end Verif
