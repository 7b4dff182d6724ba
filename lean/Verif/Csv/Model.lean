import Verif.Common
import Verif.PyDict

/-!
# Reading delimited and `.mat` files: model of `Surface.read_csv` and `Surface.read_mat`, `slippy/surface/Surface_class.py` l.1376-1471

The rows given by `csv.reader` are the input (opening, sniffing and quoting belong to the standard library): a row is a list of cells, a cell is a text, or a
number already (the reader makes numbers of unquoted cells if the dialect says `QUOTE_NONNUMERIC`). A text is a list of characters. The conversion `float(text)` is an arbitrary
function `num` (`none` is the `ValueError`), and which characters are white space is an arbitrary predicate `sp`. `loadmat` gives a dictionary.
-/

namespace Verif.Csv

/-- A text. -/
abbrev Txt := List Char

/-- One cell of a row. -/
inductive Cell (V : Type) where
  | flt (v : V)
  | txt (s : Txt)

variable {V : Type}

/-- The word read so far, put before the other words. -/
def flush (cur : Txt) (l : List Txt) : List Txt := if cur = [] then l else cur :: l

/-- `str.split()` with the word `cur` under way. -/
def splitFrom (sp : Char → Bool) (cur : Txt) : Txt → List Txt
  | [] => flush cur []
  | c :: s => if sp c then flush cur (splitFrom sp [] s) else splitFrom sp (cur ++ [c]) s

/-- `s.split()`, l.1411. -/
def split (sp : Char → Bool) (s : Txt) : List Txt := splitFrom sp [] s

/-- `[float(x) for x in l if not x == '']` over texts, l.1411-1412. -/
def floats (num : Txt → Option V) : List Txt → Option (List V)
  | [] => some []
  | s :: l =>
    if s = [] then floats num l
    else match num s with
      | none => none
      | some v => (floats num l).map (v :: ·)

/-- `[float(x) for x in row if not x == '']`, l.1418. -/
def floatCells (num : Txt → Option V) : List (Cell V) → Option (List V)
  | [] => some []
  | .flt v :: l => (floatCells num l).map (v :: ·)
  | .txt s :: l =>
    if s = [] then floatCells num l
    else match num s with
      | none => none
      | some v => (floatCells num l).map (v :: ·)

/-- A row of numbers as cells. -/
def cells (l : List V) : List (Cell V) := l.map .flt

/-- What is appended to `profile` for one row, l.1404-1421; `none` if nothing is. -/
def readRow (sp : Char → Bool) (num : Txt → Option V) : List (Cell V) → Option (List (Cell V))
  | [] => none
  | .flt v :: l => some (.flt v :: l)
  | [.txt s] => (floats num (split sp s)).map cells
  | .txt s :: c :: l => (floatCells num (.txt s :: c :: l)).map cells

/-- The list `profile` after the loop, l.1402-1421. -/
def readRows (sp : Char → Bool) (num : Txt → Option V) (rows : List (List (Cell V))) : List (List (Cell V)) := rows.filterMap (readRow sp num)

/-- The arrays that occur: one dimensional without entries (`np.asarray([])`), or two dimensional with all rows of the same length. -/
inductive Arr (V : Type) where
  | empty
  | mat (rows : List (List V))

/-- The conversion of one entry. -/
def cellVal (num : Txt → Option V) : Cell V → Option V
  | .flt v => some v
  | .txt s => num s

/-- The conversion of one row. -/
def rowVals (num : Txt → Option V) : List (Cell V) → Option (List V)
  | [] => some []
  | c :: l => match cellVal num c with
    | none => none
    | some v => (rowVals num l).map (v :: ·)

/-- The conversion of all rows. -/
def allVals (num : Txt → Option V) : List (List (Cell V)) → Option (List (List V))
  | [] => some []
  | r :: l => match rowVals num r with
    | none => none
    | some v => (allVals num l).map (v :: ·)

/-- `np.array(profile, dtype=float)`: entries that are no numbers and rows of different lengths raise `ValueError`. -/
def asarray (num : Txt → Option V) (p : List (List (Cell V))) : Except PyErr (Arr V) :=
  match allVals num p with
  | none => .error .valueError
  | some [] => .ok .empty
  | some (r :: l) => if l.all (fun q => q.length = r.length) then .ok (.mat (r :: l)) else .error .valueError

/-- `read_csv`, l.1376-1424: with `return_profile` the array returned, otherwise the array that becomes the profile (setter, l.300-311). -/
def readCsv (sp : Char → Bool) (num : Txt → Option V) (rows : List (List (Cell V))) : Except PyErr (Arr V) := asarray num (readRows sp num rows)

/-! ## `read_mat` -/

/-- The attributes set by `read_mat`. -/
structure Surf (V : Type) where
  gs : Option V
  prof : Option V

/-- `read_mat(path, profile_name, grid_spacing_name)`, l.1426-1471, on the dictionary of the file; the values are arrays or numbers alike, and the assignments succeed. -/
def readMat (mat : Dict V) (profileName gsName : Option String) (s : Surf V) : Surf V × Option PyErr :=
  let name := profileName.getD "profile"
  let afterGs : Surf V × Option PyErr := match gsName with
    | none => (s, none)
    | some g => match mat.get? g with
      | none => (s, some .valueError)
      | some v => ({ s with gs := some v }, none)
  match afterGs with
  | (s, some e) => (s, some e)
  | (s, none) => match mat.get? name with
    | none => (s, some .valueError)
    | some v => ({ s with prof := some v }, none)

end Verif.Csv
