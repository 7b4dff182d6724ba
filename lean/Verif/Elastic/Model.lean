import Mathlib.Analysis.Real.Sqrt
import Verif.Common

/-!
# Elastic constants: model of `slippy/contact/_material_utils.py` and of the property handling of
`slippy/contact/materials.py:Elastic`

Numbers are real numbers (floating point rounding is not modelled). `None` is `Option.none`.
-/

namespace Verif.Elastic

noncomputable section

/-- The six property names, `_material_utils.py` l.189 (`valid_keys`) and `materials.py` l.591. The constructors are in the
order in which Python sorts the names (`'E' < 'G' < 'K' < 'Lam' < 'M' < 'v'`). -/
inductive Key
  | E | G | K | Lam | M | v
  deriving DecidableEq, Repr

/-- The Python spelling of a key, `_material_utils.py` l.189. -/
def Key.name : Key → String
  | .E => "E" | .G => "G" | .K => "K" | .Lam => "Lam" | .M => "M" | .v => "v"

/-- Membership test `key in valid_keys`, `_material_utils.py` l.189-191, returning the key it is. -/
def Key.ofName? (s : String) : Option Key :=
  if s = "E" then some .E else if s = "G" then some .G else if s = "K" then some .K
  else if s = "Lam" then some .Lam else if s = "M" then some .M else if s = "v" then some .v else none

/-- Position of a key in the sorted list of names, used for `set_params.sort()`, `_material_utils.py` l.202. -/
def Key.rank : Key → Nat
  | .E => 0 | .G => 1 | .K => 2 | .Lam => 3 | .M => 4 | .v => 5

/-- The dictionary returned by `_get_properties` (all six keys present), `_material_utils.py` l.9, l.199, l.288. -/
@[ext] structure Six where
  K : ℝ
  E : ℝ
  v : ℝ
  Lam : ℝ
  M : ℝ
  G : ℝ

/-- Reading a key from the returned dictionary. -/
def Six.get (p : Six) : Key → ℝ
  | .E => p.E | .G => p.G | .K => p.K | .Lam => p.Lam | .M => p.M | .v => p.v

/-- The branches of `_get_properties`, `_material_utils.py` l.206-286, for the sorted pair of keys (`a` before `b`) and
their values. The given values are kept (`out = set_props.copy()`, l.199). The pair (`Lam`, `v`) evaluates
`p.Lam(1 - 2 * p.v)` (l.279): calling a number, a `TypeError`. Pairs that are not in sorted order do not occur (the caller
sorts); they are mapped to `keyError`. -/
def branch (a b : Key) (x y : ℝ) : Except PyErr Six :=
  match a, b with
  | .E, .G =>  -- l.207-211
    let E := x; let G := y
    .ok { E := E, G := G
          K := E * G / (3 * (3 * G - E))
          Lam := G * (E - 2 * G) / (3 * G - E)
          M := G * (4 * G - E) / (3 * G - E)
          v := E / (2 * G) - 1 }
  | .E, .K =>  -- l.212-216
    let E := x; let K := y
    .ok { E := E, K := K
          G := 3 * K * E / (9 * K - E)
          Lam := 3 * K * (3 * K - E) / (9 * K - E)
          M := 3 * K * (3 * K + E) / (9 * K - E)
          v := (3 * K - E) / (6 * K) }
  | .E, .Lam =>  -- l.217-222
    let E := x; let Lam := y
    let R := Real.sqrt (E ^ 2 + 9 * Lam ^ 2 + 2 * E * Lam)
    .ok { E := E, Lam := Lam
          G := (E - 3 * Lam + R) / 4
          K := (E + 3 * Lam + R) / 6
          M := (E - Lam + R) / 2
          v := 2 * Lam / (E + Lam + R) }
  | .E, .M =>  -- l.223-228
    let E := x; let M := y
    let S := Real.sqrt (E ^ 2 + 9 * M ^ 2 - 10 * E * M)
    .ok { E := E, M := M
          G := (3 * M + E - S) / 8
          K := (3 * M - E + S) / 6
          Lam := (M - E + S) / 4
          v := (E - M + S) / (4 * M) }
  | .E, .v =>  -- l.229-233
    let E := x; let v := y
    .ok { E := E, v := v
          G := E / (2 * (1 + v))
          K := E / (3 * (1 - 2 * v))
          Lam := E * v / ((1 + v) * (1 - 2 * v))
          M := E * (1 - v) / ((1 + v) * (1 - 2 * v)) }
  | .G, .K =>  -- l.235-239
    let G := x; let K := y
    .ok { G := G, K := K
          E := 9 * K * G / (3 * K + G)
          Lam := K - 2 * G / 3
          M := K + 4 * G / 3
          v := (3 * K - 2 * G) / (2 * (3 * K + G)) }
  | .G, .Lam =>  -- l.240-244
    let G := x; let Lam := y
    .ok { G := G, Lam := Lam
          E := G * (3 * Lam + 2 * G) / (Lam + G)
          K := Lam + 2 * G / 3
          M := Lam + 2 * G
          v := Lam / (2 * (Lam + G)) }
  | .G, .M =>  -- l.245-249
    let G := x; let M := y
    .ok { G := G, M := M
          E := G * (3 * M - 4 * G) / (M - G)
          K := M - 4 * G / 3
          Lam := M - 2 * G
          v := (M - 2 * G) / (2 * M - 2 * G) }
  | .G, .v =>  -- l.250-254
    let G := x; let v := y
    .ok { G := G, v := v
          E := 2 * G * (1 + v)
          K := 2 * G * (1 + v) / (3 * (1 - 2 * v))
          Lam := 2 * G * v / (1 - 2 * v)
          M := 2 * G * (1 - v) / (1 - 2 * v) }
  | .K, .Lam =>  -- l.256-260
    let K := x; let Lam := y
    .ok { K := K, Lam := Lam
          E := 9 * K * (K - Lam) / (3 * K - Lam)
          G := 3 * (K - Lam) / 2
          M := 3 * K - 2 * Lam
          v := Lam / (3 * K - Lam) }
  | .K, .M =>  -- l.261-265
    let K := x; let M := y
    .ok { K := K, M := M
          E := 9 * K * (M - K) / (3 * K + M)
          G := 3 * (M - K) / 4
          Lam := (3 * K - M) / 2
          v := (3 * K - M) / (3 * K + M) }
  | .K, .v =>  -- l.266-270
    let K := x; let v := y
    .ok { K := K, v := v
          E := 3 * K * (1 - 2 * v)
          G := (3 * K * (1 - 2 * v)) / (2 * (1 + v))
          Lam := 3 * K * v / (1 + v)
          M := 3 * K * (1 - v) / (1 + v) }
  | .Lam, .M =>  -- l.272-276
    let Lam := x; let M := y
    .ok { Lam := Lam, M := M
          E := (M - Lam) * (M + 2 * Lam) / (M + Lam)
          G := (M - Lam) / 2
          K := (M + 2 * Lam) / 3
          v := Lam / (M + Lam) }
  | .Lam, .v => .error .typeError  -- l.277-281, l.279 calls a number
  | .M, .v =>  -- l.282-286
    let M := x; let v := y
    .ok { M := M, v := v
          E := M * (1 + v) * (1 - 2 * v) / (1 - v)
          G := M * (1 - 2 * v) / (2 * (1 - v))
          K := M * (1 + v) / (3 * (1 - v))
          Lam := M * v / (1 - v) }
  | _, _ => .error .keyError

/-- `_get_properties`, `_material_utils.py` l.159-288. The argument is the dictionary as the list of its items in
insertion order (keys are distinct in a dictionary). A value `None` reaches an arithmetic operation in every branch and
gives a `TypeError`. Simplification: division by zero is not modelled (it cannot happen for the materials the theorems
speak about; numpy would give inf or nan). -/
def getProperties (d : List (String × Option ℝ)) : Except PyErr Six :=
  match d with
  | [(s, x), (t, y)] =>
    match Key.ofName? s, Key.ofName? t with
    | some a, some b =>
      match x, y with
      | some x, some y => if a.rank ≤ b.rank then branch a b x y else branch b a y x  -- l.201-204
      | _, _ => .error .typeError
    | _, _ => .error .valueError  -- l.193-197
  | _ => .error .valueError  -- l.185-187

/-! ### The `Elastic` class: properties shared by all instances -/

/-- A property dictionary: every key has a number or `None` (`materials.py` l.472-477, l.584-588). -/
abbrev Dict := Key → Option ℝ

/-- `{'E': None, ...}`, `materials.py` l.472-477 and the result of l.587-588. -/
def noneDict : Dict := fun _ => none

/-- All mutable state that `Elastic` objects touch: the class attributes `_properties` and `_last_set`
(`materials.py` l.472-479), which are one object shared by all instances, and for each material (named by a number)
whether it exists and its own `_properties` if it has been assigned one (l.587, l.607). `_last_set` is never rebound on an
instance: l.585 is unreachable because l.583 compares a list with a string. The newest entry is the head of `last`. -/
structure State where
  cls : Dict
  last : List Key
  own : Nat → Option Dict

/-- The state after importing the module, `materials.py` l.472-479. -/
def State.init : State := { cls := noneDict, last := [], own := fun _ => none }

/-- `self._properties`: the instance's own dictionary if there is one, else the class dictionary. -/
def State.props (s : State) (i : Nat) : Dict :=
  match s.own i with
  | some d => d
  | none => s.cls

/-- `self._properties[prop] = value`, `materials.py` l.597: mutates whichever dictionary `self._properties` is. -/
def State.store (s : State) (i : Nat) (k : Key) (x : ℝ) : State :=
  match s.own i with
  | some d => { s with own := Function.update s.own i (some (Function.update d k (some x))) }
  | none => { s with cls := Function.update s.cls k (some x) }

/-- Lines 599-602 of `materials.py`: append `prop` to the shared `_last_set` unless it is already the newest entry. -/
def pushLast (l : List Key) (k : Key) : List Key :=
  match l with
  | [] => [k]
  | h :: t => if h = k then h :: t else k :: h :: t

/-- `_set_props`, `materials.py` l.590-608, for an allowed property name. Returns the new state and, if it raised, the
exception (state changes made before the exception remain). -/
def setProp (s : State) (i : Nat) (k : Key) (x : ℝ) : State × Option PyErr :=
  let s1 := s.store i k x
  let s2 := { s1 with last := pushLast s1.last k }
  match s2.last with
  | _ :: partner :: _ =>  -- l.604-607
    match getProperties [(k.name, some x), (partner.name, s2.props i partner)] with
    | .ok p => ({ s2 with own := Function.update s2.own i (some fun q => some (p.get q)) }, none)
    | .error e => (s2, some e)
  | _ => (s2, none)

/-- `_del_props`, `materials.py` l.580-588: the comparison of l.583 (list with string) is always false and so is the one
in the comprehension, so the instance gets its own dictionary with all keys `None`. -/
def delProp (s : State) (i : Nat) (_ : Key) : State :=
  { s with own := Function.update s.own i (some noneDict) }

/-- Operations of a program that uses `Elastic`. -/
inductive Op
  | new (i : Nat) (props : List (String × ℝ))
  | set (i : Nat) (k : Key) (x : ℝ)
  | del (i : Nat) (k : Key)

/-- The loop of the constructor, `materials.py` l.488-489: set the items in order, stopping at the first exception. A name
that is not allowed raises `ValueError` (l.592-595) before anything is changed. -/
def setAll (s : State) (i : Nat) : List (String × ℝ) → State × Option PyErr
  | [] => (s, none)
  | (n, x) :: rest =>
    match Key.ofName? n with
    | none => (s, some .valueError)
    | some k =>
      match setProp s i k x with
      | (s', none) => setAll s' i rest
      | (s', some e) => (s', some e)

/-- `Elastic.__init__`, `materials.py` l.482-489. A new object has no own `_properties`. -/
def construct (s : State) (i : Nat) (props : List (String × ℝ)) : State × Option PyErr :=
  if 2 < props.length then (s, some .valueError)
  else setAll { s with own := Function.update s.own i none } i props

/-- One operation of the program. -/
def step (s : State) : Op → State × Option PyErr
  | .new i props => construct s i props
  | .set i k x => setProp s i k x
  | .del i k => (delProp s i k, none)

/-- Run a history of operations (exceptions are caught by the program, which carries on). -/
def run (s : State) (ops : List Op) : State := ops.foldl (fun s o => (step s o).1) s

/-- The value a user reads as `material.E`, `material.v`, ..., `materials.py` l.610-686. -/
def read (s : State) (i : Nat) (k : Key) : Option ℝ := s.props i k

end

end Verif.Elastic
