import Verif.Common
import Verif.PyDict
import Verif.Alicona.Model
import Mathlib.Data.Int.Notation
import Mathlib.Data.Nat.Notation

/-!
# Reading tst files: model of `slippy/surface/read_tst_file.py` l.6-180

A file is a list of bytes. The decoding of text, the conversions to numbers and to lower case are arbitrary (`Conv`). Not modelled (`Err.unmodelled`): names of channels that are not text.
The loops have a number of rounds as argument; `C115_ends` shows that it is never used up (`Err.rounds`).
-/

namespace Verif.Tst

open Verif

/-- An exception of Python, the exception of `struct.unpack`, or a case that is not modelled. -/
inductive Err where
  | py (e : PyErr)
  | struct
  | unmodelled
  | rounds
  deriving DecidableEq

/-- The value of a line. -/
inductive Val (F : Type) where
  | none
  | int (z : ℤ)
  | flt (x : F)
  | str (s : List Char)
  deriving DecidableEq

/-- `bytes.decode()`, `int` and `float` of a string, `str.lower`, eight bytes as a double, `not x` and `int(x)` of a float. -/
structure Conv (F : Type) where
  dec : List UInt8 → Option (List Char)
  int : List Char → Option ℤ
  flt : List Char → Option F
  lower : List Char → List Char
  double : List UInt8 → F
  isZero : F → Bool
  trunc : F → Except PyErr ℤ

variable {F : Type}

/-- What `split_line` returns. -/
structure Line (F : Type) where
  number : ℤ
  name : Option String
  value : Val F

/-- `s.strip(c)` for one character. -/
def strip (c : Char) (s : List Char) : List Char := ((s.dropWhile (fun x => x == c)).reverse.dropWhile (fun x => x == c)).reverse

/-- `s.split(c)` for one character. -/
def split (c : Char) : List Char → List (List Char)
  | [] => [[]]
  | x :: xs => if x = c then [] :: split c xs else match split c xs with
    | [] => [[x]]
    | p :: ps => (x :: p) :: ps

/-- The conversion of the value, l.173-178. -/
def convert (c : Conv F) (number value : List Char) : Except Err (Val F) :=
  if value = [] then .ok .none
  else if number = ['2', '8'] ∨ number = ['3', '1'] then match c.int value with
    | some z => .ok (.int z)
    | none => .error (.py .valueError)
  else if number = ['3', '3'] ∨ number = ['3', '7'] ∨ number = ['3', '8'] then match c.flt value with
    | some x => .ok (.flt x)
    | none => .error (.py .valueError)
  else .ok (.str value)

/-- `split_line` after decoding, l.162-180. -/
def parseLine (c : Conv F) (s : List Char) : Except Err (Line F) :=
  match (split '#' s).drop 1 with
  | [] => .error (.py .valueError)
  | number :: rest =>
    match split '$' rest.flatten with
    | name :: value :: _ =>
      match convert c (strip ' ' number) (strip ' ' value) with
      | .error e => .error e
      | .ok v => match c.int (strip ' ' number) with
        | none => .error (.py .valueError)
        | some n => .ok ⟨n, if strip '*' (strip ' ' name) = [] then none else some (String.ofList (c.lower (strip ' ' name))), v⟩
    | _ => .error (.py .valueError)

/-- `split_line`, l.155-180: the line and the rest of the file. -/
def splitLine (c : Conv F) (bs : List UInt8) : Except Err (Line F × List UInt8) :=
  match c.dec (Alicona.readLine bs).1 with
  | none => .error (.py .valueError)
  | some s => match parseLine c s with
    | .error e => .error e
    | .ok l => .ok (l, (Alicona.readLine bs).2)

/-- The dictionary of a channel; the key may be `None`. -/
structure Channel (F : Type) where
  named : Dict (Val F)
  unnamed : Option (Val F)

/-- The loop of `read_channel`, l.149-151. -/
def readChannel (c : Conv F) : ℕ → List UInt8 → Channel F → Except Err (Channel F × List UInt8)
  | 0, _, _ => .error .rounds
  | n + 1, bs, ch => match splitLine c bs with
    | .error e => .error e
    | .ok (l, bs) => match l.name with
      | none => readChannel c n bs { ch with unnamed := some l.value }
      | some k => if k = "type" then .ok ({ ch with named := Dict.set ch.named k l.value }, bs) else readChannel c n bs { ch with named := Dict.set ch.named k l.value }

/-- The channels, l.59-61. -/
def readChannels (c : Conv F) : ℕ → List UInt8 → Except Err (List (Channel F) × List UInt8)
  | 0, bs => .ok ([], bs)
  | n + 1, bs => match readChannel c (bs.length + 1) bs ⟨[], none⟩ with
    | .error e => .error e
    | .ok (ch, bs) => match readChannels c n bs with
      | .error e => .error e
      | .ok (chs, bs) => .ok (ch :: chs, bs)

/-- A value in the metadata of the file. -/
inductive MVal (F : Type) where
  | val (v : Val F)
  | channels (l : List (Channel F))

/-- `range(value)`: the number of rounds. -/
def rangeOf : Val F → Except Err ℕ
  | .int z => .ok z.toNat
  | _ => .error (.py .typeError)

/-- The metadata of the file, l.52-62. -/
def fileMeta (c : Conv F) : ℕ → List UInt8 → Dict (MVal F) → Except Err (Dict (MVal F) × List UInt8)
  | 0, _, _ => .error .rounds
  | n + 1, bs, d => match splitLine c bs with
    | .error e => .error e
    | .ok (l, bs) => match l.name with
      | none => .ok (d, bs)
      | some k =>
        if k = "channelsarray" then match rangeOf l.value with
          | .error e => .error e
          | .ok m => match readChannels c m bs with
            | .error e => .error e
            | .ok (chs, bs) => fileMeta c n bs (Dict.set (Dict.set d k (.val l.value)) "channels" (.channels chs))
        else fileMeta c n bs (Dict.set d k (.val l.value))

/-- The other metadata, l.86-90, l.113-117 and l.119-123. -/
def metaLoop (c : Conv F) : ℕ → List UInt8 → Dict (Val F) → Except Err (Dict (Val F) × List UInt8)
  | 0, _, _ => .error .rounds
  | n + 1, bs, d => match splitLine c bs with
    | .error e => .error e
    | .ok (l, bs) => match l.name with
      | none => .ok (d, bs)
      | some k => metaLoop c n bs (Dict.set d k l.value)

/-- `struct.unpack('d', file.read(len))[0]`, l.141. -/
def readValue (c : Conv F) (len : Val F) (bs : List UInt8) : Except Err (F × List UInt8) :=
  match len with
  | .int z => if 0 ≤ z then if (bs.take z.toNat).length = 8 then .ok (c.double (bs.take z.toNat), bs.drop z.toNat) else .error .struct
    else if bs.length = 8 then .ok (c.double bs, []) else .error .struct
  | .none => if bs.length = 8 then .ok (c.double bs, []) else .error .struct
  | _ => .error (.py .typeError)

/-- One sample, l.140-141. -/
def readSample (c : Conv F) : List (String × Val F) → List UInt8 → Dict (List F) → Except Err (Dict (List F) × List UInt8)
  | [], bs, d => .ok (d, bs)
  | (name, len) :: rest, bs, d => match readValue c len bs with
    | .error e => .error e
    | .ok (x, bs) => readSample c rest bs (Dict.set d name ((Dict.get? d name).getD [] ++ [x]))

/-- The samples, l.139-142. -/
def readSamples (c : Conv F) (chans : List (String × Val F)) : ℕ → List UInt8 → Dict (List F) → Except Err (Dict (List F) × List UInt8)
  | 0, bs, d => .ok (d, bs)
  | n + 1, bs, d => match readSample c chans bs d with
    | .error e => .error e
    | .ok (d, bs) => readSamples c chans n (bs.drop 1) d

/-- The name and the length of a channel, l.136-137. -/
def channelOf (ch : Channel F) : Except Err (String × Val F) :=
  match Dict.get? ch.named "lengthinbytes", Dict.get? ch.named "name" with
  | some len, some (.str s) => .ok (String.ofList s, len)
  | some _, some _ => .error .unmodelled
  | _, _ => .error (.py .keyError)

/-- All of them. -/
def channelsOf : List (Channel F) → Except Err (List (String × Val F))
  | [] => .ok []
  | ch :: chs => match channelOf ch with
    | .error e => .error e
    | .ok x => match channelsOf chs with
      | .error e => .error e
      | .ok xs => .ok (x :: xs)

/-- The truth value of an entry, l.125. -/
def truthy (c : Conv F) : Val F → Bool
  | .none => false
  | .int z => z ≠ 0
  | .flt x => !c.isZero x
  | .str s => s ≠ []

/-- `int(samples)`, l.139. -/
def intOf (c : Conv F) : Val F → Except Err ℤ
  | .none => .error (.py .typeError)
  | .int z => .ok z
  | .flt x => match c.trunc x with
    | .ok z => .ok z
    | .error e => .error (.py e)
  | .str s => match c.int s with
    | some z => .ok z
    | none => .error (.py .valueError)

/-- `{cn: [] for cn in chan_names}`, l.138. -/
def emptyData (chans : List (String × Val F)) : Dict (List F) := chans.foldl (fun d x => Dict.set d x.1 []) []

/-- `read_data`, l.132-143. -/
def readData (c : Conv F) (fileM : Dict (MVal F)) (samples : Val F) (bs : List UInt8) : Except Err (Dict (List F) × List UInt8) :=
  match Dict.get? fileM "channels" with
  | none => .error (.py .keyError)
  | some (.val _) => .error (.py .typeError)
  | some (.channels chs) => match channelsOf chs with
    | .error e => .error e
    | .ok chans => match intOf c samples with
      | .error e => .error e
      | .ok z => readSamples c chans z.toNat bs (emptyData chans)

/-- What `read_step` returns. -/
structure Step (F : Type) where
  metadata : Dict (Val F)
  data : Option (Dict (List F))

/-- `read_step` after the line `test`, l.112-129. -/
def stepBody (c : Conv F) (fileM : Dict (MVal F)) (value : Val F) (bs : List UInt8) : Except Err (Step F × List UInt8) :=
  match metaLoop c (bs.length + 1) bs (Dict.set [] "test" value) with
  | .error e => .error e
  | .ok (d, bs) => match metaLoop c (bs.length + 1) bs d with
    | .error e => .error e
    | .ok (d, bs) => match Dict.get? d "samples" with
      | none => .error (.py .keyError)
      | some s =>
        if truthy c s then match readData c fileM s bs with
          | .error e => .error e
          | .ok (data, bs) => .ok (⟨d, some data⟩, bs)
        else .ok (⟨d, none⟩, bs)

/-- The line `test`, l.110-112. -/
def stepLine (c : Conv F) (fileM : Dict (MVal F)) (l : Line F) (bs : List UInt8) : Except Err (Step F × List UInt8) :=
  if l.name = some "test" then stepBody c fileM l.value bs else .error (.py .valueError)

/-- `read_step`, l.104-129. -/
def readStep (c : Conv F) (fileM : Dict (MVal F)) (bs : List UInt8) : Except Err (Step F × List UInt8) :=
  match splitLine c bs with
  | .error e => .error e
  | .ok (l, bs) => match l.name with
    | none => match splitLine c bs with
      | .error e => .error e
      | .ok (l, bs) => stepLine c fileM l bs
    | some _ => stepLine c fileM l bs

/-- The loop over the steps, l.98-99. -/
def readSteps (c : Conv F) (fileM : Dict (MVal F)) : ℕ → List UInt8 → Except Err (List (Step F) × List UInt8)
  | 0, bs => .ok ([], bs)
  | n + 1, bs => match readStep c fileM bs with
    | .error e => .error e
    | .ok (s, bs) => match readSteps c fileM n bs with
      | .error e => .error e
      | .ok (ss, bs) => .ok (s :: ss, bs)

/-- What `read_run` returns. -/
structure Run (F : Type) where
  metadata : Dict (Val F)
  steps : List (Step F)

/-- `metadata[name]` of the file, as the number of rounds of a loop: l.66-68, l.95-98. -/
def countOf (fileM : Dict (MVal F)) (name : String) : Except Err ℕ := match Dict.get? fileM name with
  | none => .error (.py .keyError)
  | some (.channels _) => .error (.py .typeError)
  | some (.val v) => rangeOf v

/-- `read_run`, l.74-101. -/
def readRun (c : Conv F) (fileM : Dict (MVal F)) (bs : List UInt8) : Except Err (Run F × List UInt8) :=
  match splitLine c bs with
  | .error e => .error e
  | .ok (l, bs) =>
    if l.name = some "run" then
      match metaLoop c ((Alicona.readLine bs).2.length + 1) (Alicona.readLine bs).2 (Dict.set [] "run" l.value) with
      | .error e => .error e
      | .ok (d, bs) => match countOf fileM "steps" with
        | .error e => .error e
        | .ok n => match readSteps c fileM n bs with
          | .error e => .error e
          | .ok (ss, bs) => .ok (⟨d, ss⟩, bs)
    else .error (.py .valueError)

/-- The loop over the runs, l.68-69. -/
def readRuns (c : Conv F) (fileM : Dict (MVal F)) : ℕ → List UInt8 → Except Err (List (Run F) × List UInt8)
  | 0, bs => .ok ([], bs)
  | n + 1, bs => match readRun c fileM bs with
    | .error e => .error e
    | .ok (r, bs) => match readRuns c fileM n bs with
      | .error e => .error e
      | .ok (rs, bs) => .ok (r :: rs, bs)

/-- What `read_tst_file` returns. -/
structure Data (F : Type) where
  metadata : Dict (MVal F)
  runs : List (Run F)

/-- `read_tst_file`, l.49-71. -/
def readFile (c : Conv F) (bs : List UInt8) : Except Err (Data F) :=
  match fileMeta c (bs.length + 1) bs [] with
  | .error e => .error e
  | .ok (d, bs) => match countOf d "runs" with
    | .error e => .error e
    | .ok n => match readRuns c d n bs with
      | .error e => .error e
      | .ok (rs, _) => .ok ⟨d, rs⟩

end Verif.Tst
