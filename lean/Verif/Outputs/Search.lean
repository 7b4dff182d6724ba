import Verif.Outputs.Store

/-!
# `OutputReader.search` and lazily read arrays: model of `slippy/contact/outputs.py` l.336-370, l.384-461

What tinydb does with a query is modelled as follows: a query is made of tests of one field, which are False where the field is absent, by `&`, `|` and `~`; `search` gives the entries
for which it is True, in the order of the file. The files are those of `Verif.Outputs.Store`.
-/

namespace Verif.Outputs

open Verif

/-- A query of tinydb. -/
inductive Query where
  | test (field : Str) (t : Stored → Bool)
  | and (p q : Query)
  | or (p q : Query)
  | not (p : Query)

/-- What a query says about an entry, given the value of each field. -/
def Query.eval (value : Str → Option Stored) : Query → Bool
  | .test f t => match value f with
    | some v => t v
    | none => false
  | .and p q => p.eval value && q.eval value
  | .or p q => p.eval value || q.eval value
  | .not p => !p.eval value

/-- `OutputReader.search(query)`, l.365-370, with all arrays read: the whole file is searched, also entries without a time. -/
def search (db : List (Rec Stored)) (zip : List (Str × List ℕ)) (q : Query) : Except PyErr (List (Rec Got)) :=
  (db.filter fun d => q.eval fun f => d.lookup f).mapM fun d => load zip (d.map fun e => (e.1, some e.2))

/-- An `_ArrayReader`, l.430-442: what it knows from the code, and `_array`. -/
structure LazyArray where
  fileNum : Str
  shape : List ℕ
  dtype : Str
  cache : Option Arr
  deriving DecidableEq

/-- `_ArrayReader(file_name, code)`, l.430-442. -/
def LazyArray.new (s : Str) : Except PyErr LazyArray :=
  match arrayReader s with
  | .ok (.lazy n shape dtype) => .ok ⟨n, shape, dtype, none⟩
  | .ok _ => .error .valueError
  | .error e => .error e

/-- The property `array`, l.444-452, with the array file as it is now; also `__array__` l.454-455 and `__getitem__` l.457-458, which use it. The result and the object afterwards. -/
def LazyArray.get (a : LazyArray) (zip : List (Str × List ℕ)) : Except PyErr Arr × LazyArray :=
  match a.cache with
  | some x => (.ok x, a)
  | none =>
    match fill zip (.lazy a.fileNum a.shape a.dtype) with
    | .ok (.arr x) => (.ok x, { a with cache := some x })
    | .ok _ => (.error .valueError, a)
    | .error e => (.error e, a)

end Verif.Outputs
