import Mathlib.Data.Rat.Floor
import Verif.Spectra.Model
import Verif.Analytic.Model
import Verif.SurfaceGeo.Model

/-!
# Plots of surfaces: model of `_Surface.show` (`slippy/surface/Surface_class.py` l.850-1137) and `_AnalyticalSurface.show` (l.1811-1840)

Profiles have two axes. What matplotlib does with the data is arbitrary (`Draw`: it may refuse), except for `add_subplot` with an integer, which follows its
documentation: three digits for rows, columns and position. The argument `ax` is False or an axis. `str.lower` is that of Lean (ASCII letters).
Not modelled: titles and labels except for missing ones, `dist`, `stride`, and the frequencies of the histogram.
-/

namespace Verif.Show

open Verif Verif.Spectra

noncomputable section

/-- The attributes of a surface that are used. -/
structure Surf extends Spectra.State where
  shape : Option (ℕ × ℕ)
  extent : Option (ℝ × ℝ)
  unworn : Option (Arr ℝ)
  discrete : Bool

/-- The names of l.942-943. -/
inductive Property where
  | profile | unworn | fft2d | psd | acf | apsd | histogram | hist | fft1d | qq
  deriving DecidableEq

/-- l.942-943, l.986. -/
def Property.parse : String → Option Property
  | "profile" => some .profile
  | "fft2d" => some .fft2d
  | "psd" => some .psd
  | "acf" => some .acf
  | "apsd" => some .apsd
  | "unworn_profile" => some .unworn
  | "histogram" => some .histogram
  | "fft1d" => some .fft1d
  | "qq" => some .qq
  | "hist" => some .hist
  | _ => none

/-- `np.fft.fftshift` along one axis of `n` entries: entry `i` of the result. -/
def shifted (n i : ℕ) : ℕ := (i + (n - n / 2)) % n

/-- `np.fft.fftfreq(n, d)`. -/
def fftfreq (n : ℕ) (d : ℝ) (i : ℕ) : ℝ := (if 2 * i < n then (i : ℝ) else (i : ℝ) - n) / (n * d)

/-- What is handed to matplotlib: heights over points of a plane (`none`: no numbers) by `plot_surface` or `plot_wireframe`, an image, a histogram or
probability plot, a scatter plot. `log`: the logarithm is plotted. -/
inductive Drawing where
  | surface (n m : ℕ) (x y : ℕ → ℝ) (log : Bool) (z : Option (ℕ → ℕ → ℂ))
  | wires (n m : ℕ) (x y : ℕ → ℝ) (log : Bool) (z : Option (ℕ → ℕ → ℂ))
  | image (n m : ℕ) (x y : ℕ → ℝ) (log : Bool) (z : Option (ℕ → ℕ → ℂ))
  | heights (p : Arr ℝ)
  | scatter (points : List (ℝ × ℝ))

/-- matplotlib. -/
abbrev Draw := Drawing → Except Err Unit

/-- What a plot draws, and the surface afterwards. -/
abbrev Out := Except Err (List Drawing) × Surf

/-- `add_subplot(number)`: three digits for rows, columns and position. -/
def addSubplot (number : ℕ) : Except Err Unit :=
  if number < 100 ∨ 999 < number then .error (.py .valueError)
  else if 1 ≤ number % 10 ∧ number % 10 ≤ number / 100 * (number / 10 % 10) then .ok () else .error (.py .valueError)

/-- l.1057-1076: the two dimensional plots. `freq`: l.1064-1065; `label`: whether there is a fourth label. -/
def plane (draw : Draw) (kind : String) (freq label : Bool) (n m : ℕ) (x y : ℕ → ℝ) (log : Bool) (z : Option (ℕ → ℕ → ℂ)) : Except Err (List Drawing) :=
  if kind = "surface" then
    let d := Drawing.surface n m x y log z
    match draw d with
    | .error e => .error e
    | .ok () => if label then .ok [d] else .error (.py .indexError)
  else if kind = "mesh" then
    let d := Drawing.wires n m (if freq then fun i => x (shifted n i) else x) (if freq then fun j => y (shifted m j) else y) log z
    match draw d with
    | .error e => .error e
    | .ok () => if label then .ok [d] else .error (.py .indexError)
  else if kind = "default" ∨ kind = "image" then
    let d := Drawing.image n m x y log z
    match draw d with
    | .error e => .error e
    | .ok () => .ok [d]
  else .ok []

/-- `self.grid_spacing * np.arange(n)`. -/
def positions (g : ℝ) (i : ℕ) : ℝ := g * i

/-- `x - max(x) / 2`, l.1041-1042. -/
def centred (g : ℝ) (n i : ℕ) : ℝ := g * i - (if 0 ≤ g then g * (n - 1 : ℕ) else 0) / 2

/-- `if self.fft is None: self.get_fft()`. -/
def needFft (s : Surf) : Except Err Unit × Surf := match s.fft with
  | some _ => (.ok (), s)
  | none => match getFft s.toState .none with
    | (.error e, t) => (.error e, { s with toState := t })
    | (.ok _, t) => (.ok (), { s with toState := t })

/-- `if self.psd is None: self.get_psd()`. -/
def needPsd (s : Surf) : Except Err Unit × Surf := match s.psd with
  | some _ => (.ok (), s)
  | none => match getPsd s.toState with
    | (.error e, t) => (.error e, { s with toState := t })
    | (.ok _, t) => (.ok (), { s with toState := t })

/-- `if self.acf is None: self.get_acf()`. -/
def needAcf (s : Surf) : Except Err Unit × Surf := match s.acf with
  | some _ => (.ok (), s)
  | none => match getAcf s.toState .none with
    | (.error e, t) => (.error e, { s with toState := t })
    | (.ok _, t) => (.ok (), { s with toState := t })

/-- `max` of an empty array. -/
def emptyAxis (n m : ℕ) : Prop := n = 0 ∨ m = 0

open Classical in
/-- l.1003-1137: the plot of one property of a surface with profile `p`, grid spacing `g` and shape `(n, m)`. -/
def plot (draw : Draw) (q : Property) (kind : String) (p : Arr ℝ) (g : ℝ) (n m : ℕ) (s : Surf) : Out := match q with
  | .profile => (plane draw kind false true n m (positions g) (positions g) false (some fun i j => p.val i j), s)
  | .unworn => (plane draw kind false true n m (positions g) (positions g) false (s.unworn.map fun u i j => (u.val i j : ℂ)), s)
  | .fft2d => match needFft s with
    | (.error e, s) => (.error e, s)
    | (.ok (), s) => match s.fft with
      | none => (.error (.py .valueError), s)
      | some f => (plane draw kind true true n m (fftfreq n g) (fftfreq m g) false (some fun i j => ‖f.val (shifted n i) (shifted m j)‖), s)
  | .psd => match needPsd s with
    | (.error e, s) => (.error e, s)
    | (.ok (), s) => match s.psd with
      | none => (.error (.py .valueError), s)
      | some f => (plane draw kind true true n m (fftfreq n g) (fftfreq m g) true (some fun i j => ‖f.val (shifted n i) (shifted m j)‖), s)
  | .acf => match needAcf s with
    | (.error e, s) => (.error e, s)
    | (.ok (), s) => match s.acf with
      | none => (.error (.py .valueError), s)
      | some a =>
        if emptyAxis n m then (.error (.py .valueError), s)
        else (plane draw kind false true n m (centred g n) (centred g m) false (some fun i j => (|a.val i j| : ℝ)), s)
  | .apsd => match needFft s with
    | (.error e, s) => (.error e, s)
    | (.ok (), s) => match s.fft with
      | none => (.error (.py .typeError), s)
      | some f =>
        let area : ℝ := ((n : ℝ) - 1) * ((m : ℝ) - 1) * g ^ 2
        if emptyAxis n m then (.error (.py .valueError), s)
        else (plane draw kind false false n m (centred g n) (centred g m) false
          (if area = 0 then none else some fun i j => f.val i j * starRingEnd ℂ (f.val i j) / area), s)
  | .histogram | .hist | .qq => (match draw (.heights p) with | .error e => .error e | .ok () => .ok [.heights p], s)
  | .fft1d => match s.fft with
    | none => (.error (.py .typeError), s)
    | some f =>
      let d := Drawing.scatter ((List.range (n * m)).map fun t => (fftfreq n g (t % n) + fftfreq m g (t / n), ‖f.val (t / m) (t % m)‖))
      (match draw d with | .error e => .error e | .ok () => .ok [d], s)

/-- The argument `property_to_plot`: a string, or something without `lower`. -/
inductive Item where
  | text (name : String)
  | other

/-- `_Surface.show` for one property, l.937-940 and l.980-1137. -/
def single (draw : Draw) (item : Item) (kind : String) (s : Surf) : Out := match s.profile with
  | .error e => (.error e, s)
  | .ok none => (.error (.py .attributeError), s)
  | .ok (some p) => match s.gs with
    | none => (.error (.py .attributeError), s)
    | some g => match item with
      | .other => (.error (.py .valueError), s)
      | .text name => match Property.parse name.toLower with
        | none => (.error (.py .valueError), s)
        | some q => match s.shape with
          | none => (.error (.py .typeError), s)
          | some (n, m) => plot draw q kind p g n m s

/-- The argument `plot_type`. -/
inductive Kinds where
  | one (kind : String)
  | many (kinds : List String)

/-- l.952-957. -/
def Kinds.get : Kinds → ℕ → String
  | .one k, _ => k
  | .many l, i => l.getD i "default"

/-- l.961-968. -/
def subplotNumber (count : ℕ) : ℕ :=
  100 * ((count + 2) / 3) + 10 * (if count < 5 then [2, 1, 2, 3, 2].getD count 0 else 3) + 1

/-- l.969-974: the loop over the plots from number `i` on; `show` is the method of the class of the surface. -/
def loop (show_ : Item → String → Surf → Out) (kinds : Kinds) (number : ℕ) : ℕ → List Item → Surf → Out
  | _, [], s => (.ok [], s)
  | i, item :: rest, s => match item with
    | .other => (.error (.py .attributeError), s)
    | .text _ => match addSubplot (number + i) with
      | .error e => (.error e, s)
      | .ok () => match show_ item (kinds.get i) s with
        | (.error e, s) => (.error e, s)
        | (.ok d, s) => match loop show_ kinds number (i + 1) rest s with
          | (.error e, s) => (.error e, s)
          | (.ok ds, s) => (.ok (d ++ ds), s)

/-- The arguments of `show`: one property with its kind of plot, or a list. -/
inductive Request where
  | one (item : Item) (kind : String)
  | many (items : List Item) (kinds : Kinds)

/-- `_Surface.show`, l.850-1137. -/
def base (draw : Draw) (show_ : Item → String → Surf → Out) (r : Request) (s : Surf) : Out := match r with
  | .one item kind => single draw item kind s
  | .many items kinds => match s.profile with
    | .error e => (.error e, s)
    | .ok none => (.error (.py .attributeError), s)
    | .ok (some _) => match s.gs with
      | none => (.error (.py .attributeError), s)
      | some _ => loop show_ kinds (subplotNumber items.length) 0 items s

/-- `show` of a surface that is not analytical. -/
def showSurface (draw : Draw) (r : Request) (s : Surf) : Out := base draw (single draw) r s

/-- `height(*get_points_from_extent())`, l.1148-1175: the shape of the points must not be negative. -/
def sample (height : ℝ → ℝ → ℝ) (g : ℝ) (n m : ℕ) : Arr ℝ :=
  ⟨n, m, fun i j => height (Analytic.linspace (g * ((n : ℝ) - 1)) n i) (Analytic.linspace (g * ((m : ℝ) - 1)) m j)⟩

/-- l.1819-1830: the state with the temporary profile, and whether the grid spacing was set. -/
def prepare (height : ℝ → ℝ → ℝ) (nPts : ℕ) (s : Surf) : Except Err (Surf × Bool) := match s.gs, s.shape, s.extent with
  | some _, some _, none => .error (.py .attributeError)
  | some g, some (n, m), some _ => .ok ({ s with raw := some (sample height g n m) }, false)
  | _, _, none => .error (.py .attributeError)
  | _, _, some (a, b) =>
    if nPts = 0 then .error (.py .zeroDivisionError)
    else
      let g := min a b / nPts
      if g = 0 then .error (.py .zeroDivisionError)
      else
        let n := SurfaceGeo.trunc (a / g)
        let m := SurfaceGeo.trunc (b / g)
        if n < 0 ∨ m < 0 then .error (.py .valueError)
        else .ok ({ s with raw := some (sample height g n.toNat m.toNat), shape := some (n.toNat, m.toNat), gs := some g }, true)

/-- l.1835-1840: the block `finally`; `old` is the surface before. -/
def restore (old : Surf) (setGs : Bool) (s : Surf) : Surf :=
  { s with raw := none, fft := old.fft, psd := old.psd, acf := old.acf,
           gs := if setGs then none else s.gs, shape := if setGs then none else s.shape }

/-- `_AnalyticalSurface.show` around a call of the `show` of its base class. -/
def around (inner : Surf → Out) (height : ℝ → ℝ → ℝ) (nPts : ℕ) (s : Surf) : Out :=
  if s.discrete then inner s
  else match prepare height nPts s with
    | .error e => (.error e, s)
    | .ok (t, setGs) => ((inner t).1, restore s setGs (inner t).2)

/-- `_AnalyticalSurface.show` for one property; the recursive calls l.974 have the standard number of points. -/
def analyticOne (draw : Draw) (height : ℝ → ℝ → ℝ) (nPts : ℕ) (item : Item) (kind : String) (s : Surf) : Out :=
  around (single draw item kind) height nPts s

/-- `_AnalyticalSurface.show`, l.1811-1840: the loop over several plots calls the method of this class again. -/
def showAnalytic (draw : Draw) (height : ℝ → ℝ → ℝ) (nPts : ℕ) (r : Request) (s : Surf) : Out :=
  around (base draw (analyticOne draw height 100) r) height nPts s

end

end Verif.Show
