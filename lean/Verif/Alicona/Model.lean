import Verif.Common
import Verif.PyDict
import Mathlib.Data.Int.Notation
import Mathlib.Data.Nat.Notation

/-!
# Reading al3d files: model of `alicona_read`, `slippy/surface/alicona.py` l.14-193

A file is a list of bytes. The conversions of text to numbers, of four bytes to a 32 bit float, the comparison with the invalid value and numpy's conversion of a bytes object to an unsigned
byte are arbitrary (`Conv`). Simplified: text is decoded byte by byte (all encodings agree for ASCII); the digits and blanks in file names are ASCII; `cols` is rounded from the exact
quotient. Not modelled (`Err.unmodelled`): offsets and a number of planes that are not whole numbers, a negative number of rows, and depth data with no columns.
-/

namespace Verif.Alicona

open Verif

/-- An exception, or a case that is not modelled. -/
inductive Err where
  | py (e : PyErr)
  | unmodelled
  deriving DecidableEq

/-- The value of a tag, l.95-102. -/
inductive Val (X : Type) where
  | int (z : ℤ)
  | flt (x : X)
  | str (s : String)

/-- The conversions of Python and numpy: `int` and `float` of a string, `int` of a float, four bytes as 32 bit float, `nan`, `x == InvalidPixelValue` and `np.array(bytes, dtype='uint8')`. -/
structure Conv (X F : Type) where
  int : String → Option ℤ
  flt : String → Option X
  trunc : X → Except PyErr ℤ
  f32 : List UInt8 → F
  nan : F
  isInvalid : F → Val X → Bool
  toUint8 : List UInt8 → Except PyErr UInt8

variable {X F Img : Type}

/-- `file.readline()`: the line with its line feed, and the rest. -/
def readLine (bs : List UInt8) : List UInt8 × List UInt8 :=
  let k := (bs.takeWhile (fun b => b ≠ 10)).length + 1
  (bs.take k, bs.drop k)

/-- `bytearray(...).decode(...)`. -/
def decode (bs : List UInt8) : String := String.ofList (bs.map (fun b => Char.ofNat b.toNat))

/-- `line[:line.find(0)]`, l.79: `find` gives -1 without a zero byte. -/
def typeField (line : List UInt8) : String := decode (if 0 ∈ line then line.takeWhile (fun b => b ≠ 0) else line.dropLast)

/-- The bytes of `line[0:20]` that are not zero, l.91. -/
def nameField (line : List UInt8) : String := decode ((line.take 20).filter (fun b => b ≠ 0))

/-- The bytes of `line[20:-1]` that are not zero, l.82, l.86, l.93, l.105. -/
def valueField (line : List UInt8) : String := decode ((line.dropLast.drop 20).filter (fun b => b ≠ 0))

/-- The value of a tag, l.95-101. -/
def tagValue (c : Conv X F) (s : String) : Val X := match c.int s with
  | some z => .int z
  | none => match c.flt s with
    | some x => .flt x
    | none => .str s

/-- `int(...)` of a string, l.82 and l.86. -/
def intField (c : Conv X F) (s : String) : Except Err ℤ := match c.int s with
  | some z => .ok z
  | none => .error (.py .valueError)

/-- The loop over the tags, l.89-102. -/
def readTags (c : Conv X F) : ℕ → List UInt8 → Dict (Val X) → List UInt8 × Dict (Val X)
  | 0, bs, tags => (bs, tags)
  | n + 1, bs, tags =>
    let l := readLine bs
    readTags c n l.2 (Dict.set tags (nameField l.1) (tagValue c (valueField l.1)))

/-- The header, l.78-108. -/
def header (c : Conv X F) (bs : List UInt8) : Except Err (Dict (Val X)) := do
  let l := readLine bs
  let tags := Dict.set [] "Type" (.str (typeField l.1))
  let l := readLine l.2
  let version ← intField c (valueField l.1)
  let tags := Dict.set tags "Version" (.int version)
  let l := readLine l.2
  let count ← intField c (valueField l.1)
  let tags := Dict.set tags "TagCount" (.int count)
  let s := readTags c count.toNat l.2 tags
  let l := readLine s.1
  pure (Dict.set s.2 "Comment" (.str (valueField l.1)))

/-- `tags[name]`. -/
def tag (tags : Dict (Val X)) (name : String) : Except Err (Val X) := match Dict.get? tags name with
  | some v => .ok v
  | none => .error (.py .keyError)

/-- A tag that is compared with a number: a string is a `TypeError`. -/
def offset (tags : Dict (Val X)) (name : String) : Except Err ℤ := do
  match ← tag tags name with
  | .int z => .ok z
  | .flt _ => .error .unmodelled
  | .str _ => .error (.py .typeError)

/-- `np.reshape` of an array with one element (a bytes object is a scalar). -/
def reshapeScalar (a b : ℤ) : Except Err Unit := if a * b = 1 then .ok () else .error (.py .valueError)

/-- An exception of Python. -/
def py {A : Type} : Except PyErr A → Except Err A
  | .ok a => .ok a
  | .error e => .error (.py e)

/-- The icon in the file, l.113-117. -/
def iconInFile (c : Conv X F) (bs : List UInt8) (off : ℤ) : Except Err (Option Img) := do
  let _ ← py (c.toUint8 ((bs.drop off.toNat).take 22800))
  reshapeScalar 152 150
  pure none

/-- An image beside the file: with the number first, l.119-127 and l.184-192. -/
def beside (images : List Char → Option Img) (path kind number : List Char) : Option Img := match images (path ++ '/' :: (kind ++ number ++ ".bmp".toList)) with
  | some i => some i
  | none => images (path ++ '/' :: (kind ++ ".bmp".toList))

/-- The rounding of a quotient to the nearest whole number, to the even one if there are two: `round` in l.140. -/
def roundDiv (a d : ℤ) : ℤ :=
  if 2 * (a % d) < d then a / d else if d < 2 * (a % d) then a / d + 1 else if a / d % 2 = 0 then a / d else a / d + 1

/-- A matrix of depths. -/
structure Depth (F : Type) where
  rows : ℕ
  cols : ℕ
  value : ℕ → ℕ → F

/-- The number of columns in a slice `:stop` of `n` columns. -/
def keep (n : ℕ) (stop : ℤ) : ℕ := if 0 ≤ stop then min n stop.toNat else n - (-stop).toNat

/-- `int(tags['Rows'])`, l.130. -/
def rowsOf (c : Conv X F) (tags : Dict (Val X)) : Except Err ℕ := do
  let z : ℤ ← match ← tag tags "Rows" with
    | .int z => .ok z
    | .flt x => py (c.trunc x)
    | .str _ => .error (.py .valueError)
  if z < 0 then .error .unmodelled else .ok z.toNat

/-- The number of columns in the file, l.134-140. The texture offset is compared with zero, then added to the depth offset. -/
def columns (rows length : ℕ) (off : ℤ) (tex : Val X) : Except Err ℤ := match tex with
  | .int t => if rows = 0 then .error (.py .zeroDivisionError) else if t = 0 then .ok (roundDiv (length - off) (4 * rows)) else .ok (roundDiv (t - -off) (4 * rows))
  | .flt _ => .error .unmodelled
  | .str _ => .error (.py .typeError)

/-- `[:, :tags['Cols']]`, l.147 and l.174. -/
def colsTag (tags : Dict (Val X)) : Except Err ℤ := do
  match ← tag tags "Cols" with
  | .int z => .ok z
  | _ => .error (.py .typeError)

/-- The values from the file, l.142-147: `cols` columns are read and the first ones are kept. -/
def readDepth (c : Conv X F) (bs : List UInt8) (tags : Dict (Val X)) (rows : ℕ) (off cols : ℤ) : Except Err (Depth F) :=
  if cols ≤ 0 then .error .unmodelled
  else do
    let data := (bs.drop off.toNat).take (rows * cols.toNat * 4)
    if data.length % 4 ≠ 0 then .error (.py .valueError)
    let invalid ← tag tags "InvalidPixelValue"
    if data.length / 4 ≠ rows * cols.toNat then .error (.py .valueError)
    let stop ← colsTag tags
    let value (i j : ℕ) : F :=
      let x := c.f32 ((data.drop (4 * (i * cols.toNat + j))).take 4)
      if c.isInvalid x invalid then c.nan else x
    pure ⟨rows, keep cols.toNat stop, value⟩

/-- The depth data, l.132-147. -/
def depth (c : Conv X F) (bs : List UInt8) (tags : Dict (Val X)) (rows : ℕ) : Except Err (Option (Depth F)) := do
  let off ← offset tags "DepthImageOffset"
  if 0 < off then
    let cols ← columns rows bs.length off (← tag tags "TextureImageOffset")
    let d ← readDepth c bs tags rows off cols
    pure (some d)
  else pure none

/-- The number of planes, l.153-163. -/
def planes (tags : Dict (Val X)) : Except Err ℤ := match Dict.get? tags "TexturePtr" with
  | some (.str "0;1;2") => .ok 4
  | some _ => .ok 1
  | none => match Dict.get? tags "NumberOfPlanes" with
    | some (.int z) => .ok z
    | some (.flt _) => .error .unmodelled
    | some (.str _) => .error (.py .typeError)
    | none => .error (.py .notImplementedError)

/-- One plane of the texture, l.172: a bytes object is reshaped. -/
def plane (c : Conv X F) (cols rows : ℤ) (data : List UInt8) : Except Err UInt8 := do
  reshapeScalar cols rows
  py (c.toUint8 data)

/-- The loop over the planes, l.171-172. -/
def readPlanes (c : Conv X F) (cols : ℤ) (rows : ℕ) : ℕ → List UInt8 → Except Err (List UInt8)
  | 0, _ => .ok []
  | n + 1, bs => do
    let v ← plane c cols rows (bs.take (cols.toNat * rows))
    let vs ← readPlanes c cols rows n (bs.drop (cols.toNat * rows))
    pure (v :: vs)

/-- An image: from another file, or the planes of a texture of one pixel with the number of columns kept. -/
inductive Image (Img : Type) where
  | file (i : Img)
  | pixel (planes : List UInt8) (kept : ℕ)

/-- `int(a / b)`. -/
def truncDiv (a b : ℤ) : ℤ := a.tdiv b

/-- The texture in the file, l.153-180. -/
def textureInFile (c : Conv X F) (bs : List UInt8) (tags : Dict (Val X)) (rows : ℕ) (off : ℤ) : Except Err (Option (Image Img)) := do
  let n ← planes tags
  if n * rows = 0 then .error (.py .zeroDivisionError)
  let cols := truncDiv (bs.length - off) (n * rows)
  if cols < 0 ∨ n < 0 then .error (.py .valueError)
  let values ← readPlanes c cols rows n.toNat (bs.drop off.toNat)
  let stop ← colsTag tags
  pure (some (.pixel values (keep cols.toNat stop)))

/-- The result. -/
structure Data (X F Img : Type) where
  header : Dict (Val X)
  icon : Option Img
  depth : Option (Depth F)
  texture : Option (Image Img)

/-- The icon, l.112-127. -/
def icon (c : Conv X F) (bs : List UInt8) (tags : Dict (Val X)) (images : List Char → Option Img) (path number : List Char) : Except Err (Option Img) := do
  let off ← offset tags "IconOffset"
  if 0 < off then iconInFile c bs off else pure (beside images path "icon".toList number)

/-- The texture, l.151-192. -/
def texture (c : Conv X F) (bs : List UInt8) (tags : Dict (Val X)) (images : List Char → Option Img) (path number : List Char) (rows : ℕ) : Except Err (Option (Image Img)) := do
  let off ← offset tags "TextureImageOffset"
  if 0 < off then textureInFile c bs tags rows off else pure ((beside images path "texture".toList number).map .file)

/-- Digits at the end of a reversed name after a blank, l.68. -/
def afterBlank (r : List Char) : List Char := match (r.dropWhile Char.isDigit).head? with
  | some ch => if ch.isWhitespace then (r.takeWhile Char.isDigit).reverse else []
  | none => []

/-- The number at the end of a name, l.64-70. -/
def numberTag (name : List Char) : List Char := match name.reverse with
  | ')' :: r => if (r.dropWhile Char.isDigit).head? = some '(' then (r.takeWhile Char.isDigit).reverse else afterBlank name.reverse
  | r => afterBlank r

/-- `name, ext = file_name.split('.')`, l.63. -/
def baseName (fileName : List Char) : Except Err (List Char) := if fileName.count '.' = 1 then .ok (fileName.takeWhile (fun ch => ch ≠ '.')) else .error (.py .valueError)

/-- `alicona_read`, l.62-193: the two parts that `os.path.split` gives (the folder is empty for a name without one), the bytes of the file and the images by path. -/
def aliconaRead (c : Conv X F) (path fileName : List Char) (bs : List UInt8) (images : List Char → Option Img) : Except Err (Data X F Img) := do
  let name ← baseName fileName
  let number := numberTag name
  let tags ← header c bs
  let ic ← icon c bs tags images path number
  let rows ← rowsOf c tags
  let d ← depth c bs tags rows
  let tx ← texture c bs tags images path number rows
  pure ⟨tags, ic, d, tx⟩

end Verif.Alicona
