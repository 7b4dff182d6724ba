import Verif.SurfaceGeo.Model

/-!
# New surfaces: model of `Surface.__init__` (l.1322-1351), `assurface` (l.29-62) and `read_surface` (l.65-113), `slippy/surface/Surface_class.py`

What the readers do with the text or bytes of a file is modelled in `Verif.Csv` and `Verif.Alicona`; here a file is the shape of the profile and the grid spacing in it, or the exception of the reader.
-/

namespace Verif.SurfaceGeo

variable {K : Type} [Field K] [LinearOrder K] [IsStrictOrderedRing K] [FloorRing K]

/-- What a reader finds. -/
structure Content (K : Type) where
  shape : List ℕ
  gs : Option K

/-- A file, by the extension of its name, and what its reader finds. -/
inductive File (K : Type) where
  | mat (r : Except PyErr (Content K))
  | al3d (r : Except PyErr (Content K))
  | text (r : Except PyErr (Content K))
  | other

/-- `if gs is found: self.grid_spacing = gs`. -/
def setFound (s : Geo K) (gs : Option K) : Out K := ifGiven gs (fun s g => setGs s (.value g)) s

/-- `read_mat` (l.1426-1469: spacing first), `read_al3d` (l.1353-1374: profile first), `read_csv` (profile only). -/
def readFile (s : Geo K) : File K → Out K
  | .mat (.error e) | .al3d (.error e) | .text (.error e) => (s, some e)
  | .mat (.ok c) => andThen (setFound s c.gs) fun s => setProfile s c.shape
  | .al3d (.ok c) => andThen (setProfile s c.shape) fun s => setFound s c.gs
  | .text (.ok c) => setProfile s c.shape
  | .other => (s, some .valueError)

/-- `_Surface.__init__`, l.152-164, of an object that may have a profile already. -/
def baseInit (gs : Option K) (extent shape : Option (List K)) (s : Geo K) : Out K :=
  if gs.isSome && extent.isSome && shape.isSome then (s, some .valueError)
  else andThen (andThen (ifGiven gs (fun s g => setGs s (.value g)) s) (ifGiven extent setExtent)) (ifGiven shape setShape)

/-- `Surface.__init__`, l.1330-1351. -/
def newSurface (profile : Option (List ℕ)) (file : Option (File K)) (gs : Option K) (extent shape : Option (List K)) : Out K :=
  andThen
    (if profile.isSome || file.isSome then
      if shape.isSome then (Geo.new, some .valueError)
      else if gs.isSome && extent.isSome then (Geo.new, some .valueError)
      else ifGiven profile setProfile Geo.new
    else (Geo.new, none))
    fun s => andThen
      (match file with
      | none => (s, none)
      | some f => if profile.isSome then (s, some .valueError) else readFile s f)
      (baseInit gs extent shape)

/-- `is_discrete` of the new surface, l.157 with l.1351. -/
def newIsDiscrete : Bool := true

/-- `assurface`, l.62. -/
def assurface (profile : List ℕ) (gs : Option K) : Out K := newSurface (some profile) none gs none none

/-- The names of the arguments of `Surface.__init__`, l.1322-1327. -/
def argumentNames : List String :=
  ["profile", "grid_spacing", "shape", "extent", "file_name", "mat_profile_name", "mat_grid_spacing_name", "csv_delimiter", "csv_dialect", "csv_sniffer_n_bytes"]

/-- `read_surface(file_name, **kwargs)`, l.113, with the names of the keywords: a name that is not an argument is a `TypeError`, and so is `file_name` twice. -/
def readSurface (names : List String) (file : File K) (profile : Option (List ℕ)) (gs : Option K) (extent shape : Option (List K)) : Out K :=
  if names.all (fun n => n ∈ argumentNames ∧ n ≠ "file_name") then newSurface profile (some file) gs extent shape
  else (Geo.new, some .typeError)

end Verif.SurfaceGeo
