import Verif.Common

/-!
# Memoised components: model of `slippy/contact/_material_utils.py:memoize_components` (l.14-85)

The decorated function has a first argument (the component, type `C`) and the remaining bound arguments (type `A`, the
`BoundArguments` after `apply_defaults`, l.53-54). Equality of bound arguments is decidable equality on `A`; numpy arrays
among the arguments (whose `==` is not a bool) are outside the model. The decorated function is pure: it is a function
`C → A → Except PyErr V`.
-/

namespace Verif.Memo

variable {C A V : Type} [DecidableEq C] [DecidableEq A]

/-- The closure's state: `spec` and `cache` are parallel lists (l.45-46, l.58-59); each cache entry is a dictionary from
components to values. `evals` is a ghost log (newest first) of the evaluations of the decorated function. -/
structure State (C A V : Type) where
  spec : List A := []
  cache : List (List (C × V)) := []
  evals : List (C × A) := []

/-- Dictionary lookup, l.61 and l.63. -/
def lookup (d : List (C × V)) (c : C) : Option V := (d.find? (fun e => e.1 = c)).map Prod.snd

/-- Lines 55-60: find the index of the bound arguments, appending a new empty dictionary if there is none. -/
def findSpec (s : State C A V) (a : A) : State C A V × Nat :=
  match s.spec.findIdx? (fun b => b = a) with
  | some i => (s, i)
  | none => ({ s with spec := s.spec ++ [a], cache := s.cache ++ [[]] }, s.cache.length)

/-- A call of the decorated function, l.51-63. If the decorated function raises, nothing is stored in the dictionary (the
new empty dictionary remains). The last case (no dictionary at the index) would be an `IndexError`. -/
def call (f : C → A → Except PyErr V) (s : State C A V) (c : C) (a : A) : State C A V × Except PyErr V :=
  let (s1, i) := findSpec s a
  match s1.cache[i]? with
  | none => (s1, .error .indexError)
  | some d =>
    match lookup d c with
    | some v => (s1, .ok v)
    | none =>
      match f c a with
      | .ok v => ({ s1 with cache := s1.cache.set i ((c, v) :: d), evals := (c, a) :: s1.evals }, .ok v)
      | .error e => ({ s1 with evals := (c, a) :: s1.evals }, .error e)

/-- A history of calls; the results in order. -/
def runCalls (f : C → A → Except PyErr V) : State C A V → List (C × A) → State C A V × List (Except PyErr V)
  | s, [] => (s, [])
  | s, (c, a) :: rest =>
    let (s1, r) := call f s c a
    let (s2, rs) := runCalls f s1 rest
    (s2, r :: rs)

/-! ### The variant for methods (`static_method=False`) -/

/-- Calling a Python function of fixed arity (no default values) with positional arguments: `TypeError` if the number is
wrong. -/
def pyCall {X Y : Type} (arity : Nat) (f : List X → Except PyErr Y) (args : List X) : Except PyErr Y :=
  if args.length = arity then f args else .error .typeError

/-- The method variant, l.65-78, for a method of arity `arity` (counting `self` and the component): the signature is
checked with two placeholders for `self` and the component (l.68), the lookup uses only the remaining arguments, and the
method is evaluated as `fn(component, *args)`, without `self` (l.77). -/
def methodCall {X Y : Type} [DecidableEq X] (arity : Nat) (f : List X → Except PyErr Y) (s : State X (List X) Y)
    (_self component : X) (args : List X) : State X (List X) Y × Except PyErr Y :=
  if args.length + 2 ≠ arity then (s, .error .typeError)  -- l.68
  else call (fun c a => pyCall arity f (c :: a)) s component args

/-- A history of method calls on arbitrary instances. -/
def runMethodCalls {X Y : Type} [DecidableEq X] (arity : Nat) (f : List X → Except PyErr Y) :
    State X (List X) Y → List (X × X × List X) → State X (List X) Y × List (Except PyErr Y)
  | s, [] => (s, [])
  | s, (i, c, a) :: rest =>
    let (s1, r) := methodCall arity f s i c a
    let (s2, rs) := runMethodCalls arity f s1 rest
    (s2, r :: rs)

end Verif.Memo
