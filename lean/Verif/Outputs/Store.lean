import Mathlib.Algebra.Order.Ring.Rat
import Mathlib.Algebra.BigOperators.Group.List.Basic
import Verif.Common

/-!
# Output files: model of `slippy/contact/outputs.py`, `OutputSaver` (l.15-83), `OutputReader` (l.227-376), `_array_gen`
(l.384-403) and `_ArrayReader` (l.406-461)

Numbers that are written directly are rational (every finite float is). The database is the list of its records; that tinydb and
the JSON format give back the strings and numbers that were put in is assumed, likewise that the zip file gives back bytes. The
strings that code arrays are modelled as lists of characters, written and parsed as in the code. Bytes are natural numbers.
Values that are not numbers, strings or arrays (which the JSON encoder may refuse) are not modelled.
-/

namespace Verif.Outputs

abbrev Str := List Char

/-- A numpy array: shape, name of the data type and the bytes in C order, `value.tobytes()`. -/
structure Arr where
  shape : List ℕ
  dtype : Str
  bytes : List ℕ
  deriving DecidableEq

/-- Values given to `OutputSaver.write`. -/
inductive Val
  | num (x : ℚ)
  | str (s : Str)
  | arr (a : Arr)
  deriving DecidableEq

/-- Values in the database. -/
inductive Stored
  | num (x : ℚ)
  | str (s : Str)
  deriving DecidableEq

/-- Values given by the reader: arrays are read lazily, absent values are `None`. -/
inductive RVal
  | num (x : ℚ)
  | str (s : Str)
  | none
  | lazy (fileNum : Str) (shape : List ℕ) (dtype : Str)
  deriving DecidableEq

/-- A value whose array, if it is one, has been read. -/
inductive Got
  | num (x : ℚ)
  | str (s : Str)
  | none
  | arr (a : Arr)
  deriving DecidableEq

abbrev Rec (α : Type) := List (Str × α)

/-- The state of an `OutputSaver` together with its two files. -/
structure Saver where
  inContext : Bool
  arrayNumber : ℕ
  zip : List (Str × List ℕ)
  db : List (Rec Stored)

/-- `str(n)`. -/
def showNat (n : ℕ) : Str := Nat.toDigits 10 n

/-- `str(shape)` for a tuple of integers. -/
def showShape (l : List ℕ) : Str :=
  ['('] ++ (match l with
    | [n] => showNat n ++ [',']
    | l => [',', ' '].intercalate (l.map showNat)) ++ [')']

/-- The string that stands for an array, l.66. -/
def code (n : ℕ) (a : Arr) : Str :=
  "**array**#".toList ++ showNat n ++ ['#'] ++ showShape a.shape ++ ['#'] ++ a.dtype

/-- The name in the zip file, l.62. -/
def entryName (n : ℕ) : Str := ['a'] ++ showNat n

/-- Size of an array. -/
def Arr.size (a : Arr) : ℕ := a.shape.prod

section
-- `float(value)` for an array with one element: `none` for the data types where it raises `TypeError`.
variable (toFloat : Arr → Option ℚ)

/-- The body of the loop over the items, l.54-68. -/
def writeValue (s : Saver) (v : Val) : Stored × Saver :=
  match v with
  | .num x => (.num x, s)
  | .str t => (.str t, s)
  | .arr a =>
    match (if a.size = 1 then toFloat a else none) with
    | some x => (.num x, s)
    | none => (.str (code s.arrayNumber a),
        { s with zip := s.zip ++ [(entryName s.arrayNumber, a.bytes)], arrayNumber := s.arrayNumber + 1 })

/-- The loop over the items, l.53-68. -/
def writeItems (s : Saver) : Rec Val → Rec Stored × Saver
  | [] => ([], s)
  | (k, v) :: rest =>
    let a := writeValue toFloat s v
    let b := writeItems a.2 rest
    ((k, a.1) :: b.1, b.2)

/-- `OutputSaver.write`, l.41-69. -/
def write (s : Saver) (r : Rec Val) : Except PyErr Saver :=
  if s.inContext then
    let a := writeItems toFloat s r
    .ok { a.2 with db := a.2.db ++ [a.1] }
  else .error .valueError

/-- A number of calls of `write`. -/
def writeAll : Saver → List (Rec Val) → Except PyErr Saver
  | s, [] => .ok s
  | s, r :: rs => match write toFloat s r with
    | .ok s => writeAll s rs
    | .error e => .error e

end

/-- `OutputSaver.__init__`, l.34-39. -/
def Saver.init : Saver := ⟨false, 0, [], []⟩

/-- `OutputSaver.__enter__`, l.71-78: an old database is removed, the array file is opened for writing, which empties it. -/
def enter (s : Saver) : Saver := { s with inContext := true, zip := [], db := [] }

/-- `OutputSaver.__exit__`, l.80-83. -/
def exit (s : Saver) : Saver := { s with inContext := false }

/-! ## Reading -/

/-- Maximal runs of digits as numbers: `eval` of a string of digits, commas, spaces and parentheses, for the strings that
`str(shape)` produces (l.438). -/
def flushDigits (cur : Str) : List ℕ := if cur = [] then [] else [Nat.ofDigitChars 10 cur 0]

def evalShapeAux : Str → Str → List ℕ
  | cur, [] => flushDigits cur
  | cur, c :: cs => if c.isDigit then evalShapeAux (cur ++ [c]) cs else flushDigits cur ++ evalShapeAux [] cs

def evalShape (s : Str) : List ℕ := evalShapeAux [] s

/-- What follows the first `#`. -/
def afterHash (s : Str) : Str := (s.dropWhile (· ≠ '#')).tail

/-- What is before the first `#`. -/
def beforeHash (s : Str) : Str := s.takeWhile (· ≠ '#')

/-- The data types found as attributes of `numpy` under their own name, with the number of bytes of an item (l.441). -/
def itemSize : Str → Option ℕ := fun s =>
  (["float64", "int64", "uint64", "complex64"].map String.toList).elem s |> fun b8 =>
  (["float32", "int32", "uint32"].map String.toList).elem s |> fun b4 =>
  (["float16", "int16", "uint16"].map String.toList).elem s |> fun b2 =>
  (["int8", "uint8", "bool"].map String.toList).elem s |> fun b1 =>
  if b8 then some 8 else if b4 then some 4 else if b2 then some 2 else if b1 then some 1
  else if s = "complex128".toList then some 16 else none

/-- `_ArrayReader.__init__`, l.431-442. -/
def arrayReader (s : Str) : Except PyErr RVal :=
  if s.count '#' < 3 then .error .indexError
  else
    let fileNum := beforeHash (afterHash s)
    let shape := beforeHash (afterHash (afterHash s))
    let dtype := afterHash (afterHash (afterHash s))
    if shape.any (fun c => !"1234567890 ,()".toList.elem c) then .error .valueError
    else match itemSize dtype with
      | some _ => .ok (.lazy fileNum (evalShape shape) dtype)
      | none => .error .attributeError

/-- `_array_gen` on one value, l.400-403. -/
def arrayGen : Stored → Except PyErr RVal
  | .num x => .ok (.num x)
  | .str s => if "**array**".toList.isPrefixOf s then arrayReader s else .ok (.str s)

/-- `_ArrayReader._fill_array`, l.450-452: of several zip entries with one name the last counts. -/
def fill (zip : List (Str × List ℕ)) (v : RVal) : Except PyErr Got :=
  match v with
  | .num x => .ok (.num x)
  | .str s => .ok (.str s)
  | .none => .ok .none
  | .lazy n shape dtype =>
    match zip.reverse.lookup (['a'] ++ n), itemSize dtype with
    | some bytes, some k => if bytes.length = shape.prod * k then .ok (.arr ⟨shape, dtype, bytes⟩) else .error .valueError
    | none, _ => .error .keyError
    | _, none => .error .attributeError

/-- `_array_gen` on a dictionary and reading of all arrays in it. -/
def load {κ : Type} (zip : List (Str × List ℕ)) : List (κ × Option Stored) → Except PyErr (List (κ × Got))
  | [] => .ok []
  | (k, v) :: rest => do
    let r ← match v with
      | some v => arrayGen v
      | none => pure .none
    let g ← fill zip r
    let rest ← load zip rest
    pure ((k, g) :: rest)

/-- `entry['time']` if it is there. -/
def timeOf (r : Rec Stored) : Option Stored := r.lookup "time".toList

structure Reader where
  allEntries : List (Rec Stored)
  timePoints : List ℚ

/-- The record has a time `≥ 0`; a time that is no number raises. -/
def openEntries : List (Rec Stored) → Except PyErr (List (Rec Stored × ℚ))
  | [] => .ok []
  | r :: rs => do
    let rest ← openEntries rs
    match timeOf r with
    | none => pure rest
    | some (.num t) => if 0 ≤ t then pure ((r, t) :: rest) else pure rest
    | some (.str _) => throw .typeError

/-- `OutputReader.__init__`, l.312-322. -/
def openReader (db : List (Rec Stored)) : Except PyErr Reader := do
  let l ← openEntries db
  pure ⟨l.map Prod.fst, l.map Prod.snd⟩

/-- `self.fields`. -/
def Reader.fields (rd : Reader) : List Str := rd.allEntries.flatMap (fun r => r.map Prod.fst)

/-- A dictionary comprehension: a later value for the same key replaces the earlier one in its place. -/
def dictInsert {α : Type} (d : List (ℚ × α)) (k : ℚ) (v : α) : List (ℚ × α) :=
  if d.any (fun e => e.1 == k) then d.map (fun e => if e.1 = k then (k, v) else e) else d ++ [(k, v)]

def dictOf {α : Type} (l : List (ℚ × α)) : List (ℚ × α) := l.foldl (fun d e => dictInsert d e.1 e.2) []

inductive Key
  | time (t : ℚ)
  | field (f : Str)

/-- `OutputReader.__getitem__` for a time point, l.326-328 and l.334, with all arrays read. The search goes through the whole
database. -/
def getTime (db : List (Rec Stored)) (zip : List (Str × List ℕ)) (rd : Reader) (t : ℚ) : Except PyErr (Rec Got) :=
  if rd.timePoints.elem t then
    match db.filter (fun r => timeOf r = some (.num t)) with
    | [] => .error .indexError
    | r :: _ => load zip (r.map fun e => (e.1, some e.2))
  else .error .indexError

/-- `OutputReader.__getitem__` for a field, l.329-334, with all arrays read. -/
def getField (zip : List (Str × List ℕ)) (rd : Reader) (f : Str) : Except PyErr (List (ℚ × Got)) :=
  if rd.fields.elem f then
    load zip (dictOf ((rd.timePoints.zip rd.allEntries).map fun e => (e.1, e.2.lookup f)))
  else .error .indexError

/-- `OutputReader.__iter__`, l.372-376. -/
def iterAll (db : List (Rec Stored)) (zip : List (Str × List ℕ)) (rd : Reader) : Except PyErr (List (Rec Got)) :=
  rd.timePoints.mapM (getTime db zip rd)

end Verif.Outputs
