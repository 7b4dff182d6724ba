import Verif.Filter.Linear
import Verif.Johnson.Model
import Verif.SurfaceGeo.New

/-!
# The attributes of filter surfaces: model of `RandomFilterSurface` in `slippy/surface/Random.py` l.375-394, l.628-831 as a state machine

Filters found by `fir_filter` have complex coefficients; what `set_moments` and `discretise` make of them is not modelled, and neither is the transform of an array without entries. Warnings and `_method_keywords` are left out.
-/

namespace Verif.FilterState

noncomputable section

open Verif.Filter (Coefficients Profile LErr lags seqSkew seqKurt)
open Verif.Johnson (Dist fitByQuantiles)
open Verif.SurfaceGeo (Geo setGs setProfile newSurface)
open Verif.Conv (toData)

/-- A value of an autocorrelation on a grid: shape and entries. -/
abbrev Sampled := (ℕ × ℕ) × (ℕ → ℕ → ℝ)

/-- An object that is given as target: whether its type is `ACF`, and what it gives when it is called with two lists of coordinates, if it can be called. -/
structure Target where
  isAcf : Bool
  call : Option (List ℝ → List ℝ → Sampled)

/-- `_filter_coefficients`: those of `linear_transform`, or the roots of the transform of an array. -/
inductive Coefs where
  | linear (c : Coefficients)
  | fir (acf : Sampled)

/-- The attributes. -/
structure Obj where
  target : Option Target
  geo : Geo ℝ
  coefs : Option Coefs
  dist : Dist
  moments : Option (ℝ × ℝ)
  surfaceType : String
  profile : Option Profile
  discrete : Bool

/-- `RandomFilterSurface(target_acf, grid_spacing, extent, shape)`, l.385-394, with the attributes of the class, l.375-383. -/
def new (target : Option Target) (gs : Option ℝ) (extent shape : Option (List ℝ)) : Except PyErr Obj :=
  match SurfaceGeo.construct gs extent shape with
  | (_, some e) => .error e
  | (geo, none) => .ok ⟨target, geo, none, .norm 0 1, none, "Random", none, false⟩

/-- The end of `linear_transform` (`Verif.Filter.linearTransform`), l.508 and l.561: a filter is stored. -/
def storeFilter (o : Obj) (c : Coefficients) : Obj := { o with coefs := some (.linear c), surfaceType := "linear_transform" }

/-- A missing spacing becomes one, l.734-737. -/
def spaced (g : Geo ℝ) : Geo ℝ × Option PyErr :=
  match g.gs with
  | some _ => (g, none)
  | none => setGs g (.value 1)

/-- `fir_filter(target_acf, filter_span)`, l.721-757. -/
def fir (o : Obj) (target : Option Target) (span : Option (List ℤ)) : Except LErr Unit × Obj :=
  match target <|> o.target with
  | none => (.error (.py .valueError), o)
  | some t =>
    let o := { o with surfaceType := "fir_filter" }
    match spaced o.geo with
    | (geo, some e) => (.error (.py e), { o with geo := geo })
    | (geo, none) =>
      let o := { o with geo := geo }
      match span <|> o.geo.shape with
      | none => (.error (.py .valueError), o)
      | some span =>
        let o := if t.isAcf then { o with target := some t } else o
        match o.target, span, o.geo.gs with
        | none, _, _ => (.error (.py .valueError), o)
        | some own, n :: m :: _, some gs =>
          match own.call with
          | none => (.error (.py .typeError), o)
          | some call =>
            if n ≤ 0 ∨ m ≤ 0 then (.error .unmodelled, o)
            else (.ok (), { o with coefs := some (.fir (call (lags gs m.toNat) (lags gs n.toNat))) })
        | some _, _ :: _ :: _, none => (.error (.py .typeError), o)
        | some _, _, _ => (.error (.py .indexError), o)

open Classical in
/-- `set_moments(skew, kurtosis)`, l.628-653; `fit` is `_fit_johnson_by_moments(0, 1, ·, ·, True)`. Quotients by zero are `nan` and not modelled further. -/
def setMoments (fit : ℝ → ℝ → Except PyErr Dist) (o : Obj) (skew kurtosis : ℝ) : Except LErr Unit × Obj :=
  let o := { o with moments := some (skew, kurtosis) }
  match o.coefs with
  | none => (.error (.py .attributeError), o)
  | some (.fir _) => (.error .unmodelled, o)
  | some (.linear c) =>
    let alpha := toData c.n c.m c.coef
    if (alpha.map fun a => a ^ 2 * a).sum = 0 ∨ (alpha.map fun a => (a ^ 2) ^ 2).sum = 0 then (.error .unmodelled, o)
    else
      match fit (seqSkew alpha skew) (seqKurt alpha kurtosis) with
      | .error e => (.error (.py e), o)
      | .ok d => (.ok (), { o with dist := d })

/-- `set_quantiles(quantiles)`, l.674-680; `stats` is `dist.stats('sk')`, `none` if it is `nan`. -/
def setQuantiles (fit : ℝ → ℝ → Except PyErr Dist) (stats : Dist → Option (ℝ × ℝ)) (o : Obj) (x0 x1 x2 x3 : ℝ) : Except LErr Unit × Obj :=
  match stats (fitByQuantiles x0 x1 x2 x3) with
  | none => (.error .unmodelled, o)
  | some (skew, kurtosis) => setMoments fit o skew kurtosis

/-- `output_shape`, l.811-817: two numbers. -/
def outputShape (given own : Option (List ℤ)) : Except PyErr (ℕ × ℕ) :=
  match given <|> own with
  | none => .error .valueError
  | some [n, m] => .ok (n.toNat, m.toNat)
  | some _ => .error .valueError

/-- `discretise(output_shape, periodic, create_new)`, l.803-831, for shapes with at least one point: the profile and the geometry of the new surface. `rvs d r c` is the array of the numbers drawn from `d` for the size `(r, c)`. -/
def discretise (rvs : Dist → ℕ → ℕ → ℕ → ℕ → ℝ) (o : Obj) (shape : Option (List ℤ)) (periodic createNew : Bool) : Except LErr (Option (Profile × Geo ℝ)) × Obj :=
  match o.coefs with
  | none => (.error (.py .attributeError), o)
  | some (.fir _) => (.error .unmodelled, o)
  | some (.linear c) =>
    match outputShape shape o.geo.shape with
    | .error e => (.error (.py e), o)
    | .ok size =>
      match Filter.discretise (some c) (some size) none periodic (rvs o.dist) with
      | .error e => (.error (.py e), o)
      | .ok p =>
        if createNew then
          match newSurface (some [p.rows, p.cols]) none o.geo.gs none none with
          | (_, some e) => (.error (.py e), o)
          | (geo, none) => (.ok (some (p, geo)), o)
        else
          match setProfile o.geo [p.rows, p.cols] with
          | (geo, some e) => (.error (.py e), { o with profile := some p, geo := geo })
          | (geo, none) => (.ok none, { o with profile := some p, geo := geo, discrete := true })

end

end Verif.FilterState
