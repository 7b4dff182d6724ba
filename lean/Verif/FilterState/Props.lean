import Mathlib.Tactic.FieldSimp
import Verif.Filter.Moments
import Verif.FilterState.Model

/-!
# C140: the state of filter surfaces
-/

namespace Verif.FilterState

noncomputable section

open Verif.Filter (Coefficients Profile LErr lags seqSkew seqKurt sumSq sumCube Standard expectSum)
open Verif.Johnson (Dist fitByQuantiles)
open Verif.SurfaceGeo (Geo setGs setProfile newSurface)
open Verif.Conv (toData)

/-! ## Specification -/

/-- The grid with `n` points from zero on. -/
def IsGrid (gs : ℝ) (n : ℕ) (l : List ℝ) : Prop := l.length = n ∧ ∀ i, i < n → l[i]? = some (gs * i)

/-- Distributions that are the same but for location and scale. -/
def SameShape : Dist → Dist → Prop
  | .norm _ _, .norm _ _ => True
  | .lognorm s _ c, .lognorm s' _ c' => s = s' ∧ c.isSome = c'.isSome
  | .johnsonsu a b _ _, .johnsonsu a' b' _ _ => a = a' ∧ b = b'
  | .johnsonsb a b _ _, .johnsonsb a' b' _ _ => a = a' ∧ b = b'
  | _, _ => False

/-! ## Proofs -/

theorem lags_grid (gs : ℝ) (n : ℕ) : IsGrid gs n (lags gs n) := by
  refine ⟨by simp [lags], fun i hi => ?_⟩
  simp [lags, hi]

/-- **C140, the filter of the given target.** With a target of type `ACF`, a span of positive numbers and a known spacing the filter is made from this target on the grid of the span, the target is kept,
and apart from the name of the method nothing else is changed. -/
theorem C140_given (o : Obj) (call : List ℝ → List ℝ → Sampled) (n m : ℕ) (hn : 0 < n) (hm : 0 < m) (rest : List ℤ) (gs : ℝ) (hg : o.geo.gs = some gs) :
    ∃ ks els, IsGrid gs m ks ∧ IsGrid gs n els ∧ fir o (some ⟨true, some call⟩) (some (n :: m :: rest)) =
      (.ok (), { o with target := some ⟨true, some call⟩, surfaceType := "fir_filter", coefs := some (.fir (call ks els)) }) := by
  refine ⟨lags gs m, lags gs n, lags_grid gs m, lags_grid gs n, ?_⟩
  simp [fir, spaced, hg, hn.ne', hm.ne']

/-- The hypotheses can be met. -/
example : ∃ o : Obj, o.geo.gs = some 2 ∧ 0 < 3 ∧ 0 < 4 := ⟨⟨none, ⟨some 2, none, none, none, none⟩, none, .norm 0 1, none, "Random", none, false⟩, rfl, by decide, by decide⟩

/-- **C140, defaults.** Without arguments the own target and the own shape are used; without a spacing it is set to one first, as by the setter. -/
theorem C140_default (o : Obj) (own : Target) (ho : o.target = some own) (span : Option (List ℤ)) :
    fir o none span = fir o (some own) span ∧
      (∀ sh, o.geo.gs.isSome → o.geo.shape = some sh → fir o (some own) none = fir o (some own) (some sh)) ∧
      (o.geo.gs = none → (setGs o.geo (.value 1)).2 = none →
        (setGs o.geo (.value 1)).1.gs = some 1 ∧ fir o none span = fir { o with geo := (setGs o.geo (.value 1)).1 } none span) := by
  refine ⟨by simp [fir, ho], fun sh hg hs => ?_, fun hg he => ?_⟩
  · obtain ⟨g, hg⟩ := Option.isSome_iff_exists.1 hg
    simp [fir, spaced, hg, hs]
  · have h1 : (setGs o.geo (.value 1)).1.gs = some 1 := by
      unfold setGs
      dsimp only
      repeat' split
      all_goals rfl
    refine ⟨h1, ?_⟩
    rcases hr : setGs o.geo (.value 1) with ⟨g, e⟩
    rw [hr] at he h1
    dsimp only at he h1
    subst he
    simp [fir, spaced, ho, hg, hr, h1]

/-- The hypotheses can be met: a shape without spacing. -/
example : (setGs (⟨none, none, some [2, 3], some 6, none⟩ : Geo ℝ) (.value 1)).2 = none := rfl

/-- **C140, a given target of another type.** A target that is not an `ACF` is ignored: with an own target the call does the same as without the argument, and without one it raises and leaves the filter. -/
theorem C140_ignored_wrong (o : Obj) (t : Target) (ht : t.isAcf = false) (span : Option (List ℤ)) :
    (∀ own, o.target = some own → fir o (some t) span = fir o none span) ∧
      (o.target = none → (∀ u, (fir o (some t) span).1 ≠ .ok u) ∧ (fir o (some t) span).2.coefs = o.coefs) := by
  refine ⟨fun own ho => ?_, fun ho => ?_⟩
  · simp only [fir, ho]
    rcases spaced o.geo with ⟨geo, _ | e⟩
    · cases hsp : (span <|> geo.shape) with
      | none => simp [hsp]
      | some sp => simp [hsp, ht]
    · rfl
  · simp only [fir, ho]
    rcases spaced o.geo with ⟨geo, _ | e⟩
    · cases hsp : (span <|> geo.shape) with
      | none => simp [hsp]
      | some sp => simp [hsp, ht]
    · simp

/-- The hypotheses can be met, and the ignored target would give another filter. -/
example : ∃ (o : Obj) (t own : Target), t.isAcf = false ∧ o.target = some own ∧ t.call.isSome ∧
    (fir o (some t) (some [1, 1])).2.coefs = some (.fir ((1, 1), fun _ _ => 5)) ∧ t.call = some fun _ _ => ((1, 1), fun _ _ => 7) :=
  ⟨⟨some ⟨true, some fun _ _ => ((1, 1), fun _ _ => 5)⟩, ⟨some 1, none, none, none, none⟩, none, .norm 0 1, none, "Random", none, false⟩, ⟨false, some fun _ _ => ((1, 1), fun _ _ => 7)⟩,
    ⟨true, some fun _ _ => ((1, 1), fun _ _ => 5)⟩, rfl, rfl, rfl, by simp [fir, spaced], rfl⟩

/-- **C140, a call that raises.** Without span and shape `fir_filter` raises, but the name of the method is that of the failed one and the spacing has become one, while the filter is still the old one. -/
theorem C140_failed_wrong (o : Obj) (target : Option Target) (ht : (target <|> o.target).isSome) (hg : o.geo.gs = none) (hs : o.geo.shape = none) (he : o.geo.extent = none)
    (hp : o.geo.prof = none) :
    fir o target none = (.error (.py .valueError), { o with surfaceType := "fir_filter", geo := { o.geo with gs := some 1 } }) := by
  obtain ⟨t, ht⟩ := Option.isSome_iff_exists.1 ht
  simp [fir, spaced, ht, hg, setGs, hp, he, hs]

/-- The hypotheses can be met by a new surface. -/
example : ∃ o : Obj, new (some ⟨true, none⟩) none none none = .ok o ∧ o.target.isSome ∧ o.geo.gs = none ∧ o.geo.shape = none ∧ o.geo.extent = none ∧ o.geo.prof = none :=
  ⟨⟨some ⟨true, none⟩, Geo.new, none, .norm 0 1, none, "Random", none, false⟩, rfl, rfl, rfl, rfl, rfl, rfl⟩

/-- **C140, `set_moments` without a filter.** The call raises, but the surface has the moments afterwards, with the distribution it had before. -/
theorem C140_moments_failed_wrong (fit : ℝ → ℝ → Except PyErr Dist) (o : Obj) (h : o.coefs = none) (skew kurtosis : ℝ) :
    (setMoments fit o skew kurtosis).1 = .error (.py .attributeError) ∧ (setMoments fit o skew kurtosis).2 = { o with moments := some (skew, kurtosis) } := by
  simp [setMoments, h]

/-- The hypotheses can be met by a new surface. -/
example : ∃ o : Obj, new none (some 1) none none = .ok o ∧ o.coefs = none := ⟨_, rfl, rfl⟩

/-- **C140, the distribution after another filter.** After `set_moments` and then another filter the distribution and the moments are those set for the first filter; noise that has the skewness
the first filter needs gives a surface with the skewness asked for only if it is zero or both filters have the same ratio of the sum of cubes and the power 3/2 of the sum of squares. -/
theorem C140_stale_wrong {ι : Type} [Fintype ι] (w x : Dist → ι → ℝ) (fit : ℝ → ℝ → Except PyErr Dist) (hfit : ∀ s k d, fit s k = .ok d → ∃ k', Standard (w d) (x d) s k')
    (o : Obj) (c₁ c₂ : Coefficients) (h₁ : o.coefs = some (.linear c₁)) (skew kurtosis : ℝ) (hok : (setMoments fit o skew kurtosis).1 = .ok ()) :
    let o' := storeFilter (setMoments fit o skew kurtosis).2 c₂
    let α₁ := toData c₁.n c₁.m c₁.coef
    let α₂ := toData c₂.n c₂.m c₂.coef
    o'.coefs = some (.linear c₂) ∧ o'.moments = some (skew, kurtosis) ∧ o'.dist = (setMoments fit o skew kurtosis).2.dist ∧
      (expectSum (w o'.dist) (x o'.dist) α₁ (fun s => s ^ 3) = skew * expectSum (w o'.dist) (x o'.dist) α₁ (fun s => s ^ 2) ^ (3 / 2 : ℝ)) ∧
      (expectSum (w o'.dist) (x o'.dist) α₂ (fun s => s ^ 3) = skew * expectSum (w o'.dist) (x o'.dist) α₂ (fun s => s ^ 2) ^ (3 / 2 : ℝ) ↔
        skew = 0 ∨ sumSq α₁ ^ (3 / 2 : ℝ) * (α₂.map fun a => a ^ 3).sum = sumSq α₂ ^ (3 / 2 : ℝ) * (α₁.map fun a => a ^ 3).sum) := by
  intro o' α₁ α₂
  have hcube : ∀ l : List ℝ, (l.map fun a => a ^ 2 * a).sum = (l.map fun a => a ^ 3).sum := by
    intro l; congr 2
  simp only [setMoments, h₁] at hok
  by_cases hz : ((toData c₁.n c₁.m c₁.coef).map fun a => a ^ 2 * a).sum = 0 ∨ ((toData c₁.n c₁.m c₁.coef).map fun a => (a ^ 2) ^ 2).sum = 0
  · rw [if_pos hz] at hok; simp at hok
  · rw [if_neg hz] at hok
    rcases hf : fit (seqSkew (toData c₁.n c₁.m c₁.coef) skew) (seqKurt (toData c₁.n c₁.m c₁.coef) kurtosis) with e | d
    · rw [hf] at hok; simp at hok
    · have hd : (setMoments fit o skew kurtosis).2 = { o with moments := some (skew, kurtosis), dist := d } := by
        simp only [setMoments, h₁, if_neg hz, hf]
      obtain ⟨k', hstd⟩ := hfit _ _ _ hf
      have ho' : o'.dist = d := by show (storeFilter _ _).dist = d; rw [hd]; rfl
      have hz1 : (α₁.map fun a => a ^ 3).sum ≠ 0 := by rw [← hcube]; exact fun h => hz (.inl h)
      refine ⟨rfl, ?_, rfl, ?_, ?_⟩
      · show (storeFilter _ _).moments = _
        rw [hd]; rfl
      · rw [ho']; exact Filter.C81_skewness α₁ skew hz1 hstd
      · rw [ho', Filter.third_eq hstd, Filter.variance_eq hstd]
        have e : seqSkew (toData c₁.n c₁.m c₁.coef) skew = skew * sumSq α₁ ^ (3 / 2 : ℝ) / (α₁.map fun a => a ^ 3).sum := by
          unfold seqSkew; rw [hcube]
        rw [e, show sumCube α₂ = (α₂.map fun a => a ^ 3).sum from rfl, div_mul_eq_mul_div, div_eq_iff hz1]
        constructor
        · intro h
          by_cases hs : skew = 0
          · exact .inl hs
          · right
            have : skew * (sumSq α₁ ^ (3 / 2 : ℝ) * (α₂.map fun a => a ^ 3).sum) = skew * (sumSq α₂ ^ (3 / 2 : ℝ) * (α₁.map fun a => a ^ 3).sum) := by
              rw [← mul_assoc, h, mul_assoc]
            exact mul_left_cancel₀ hs this
        · rintro (h | h)
          · rw [h]; simp
          · rw [mul_assoc, h, ← mul_assoc]

/-- The hypotheses can be met by noise of skewness 3/2, and the skewness is wrong for the second of the filters `[[1]]` and `[[1, 1]]`. -/
example : ∃ (w x : Dist → Bool → ℝ) (fit : ℝ → ℝ → Except PyErr Dist) (o : Obj) (c₁ c₂ : Coefficients), (∀ s k d, fit s k = .ok d → ∃ k', Standard (w d) (x d) s k') ∧
    o.coefs = some (.linear c₁) ∧ (setMoments fit o (3 / 2) 0).1 = .ok () ∧
    ¬(sumSq (toData c₁.n c₁.m c₁.coef) ^ (3 / 2 : ℝ) * ((toData c₂.n c₂.m c₂.coef).map fun a => a ^ 3).sum =
      sumSq (toData c₂.n c₂.m c₂.coef) ^ (3 / 2 : ℝ) * ((toData c₁.n c₁.m c₁.coef).map fun a => a ^ 3).sum) := by
  classical
  have d1 : toData 1 1 (fun _ _ => (1 : ℝ)) = [1] := by simp [toData, Conv.indices]
  have d2 : toData 1 2 (fun _ _ => (1 : ℝ)) = [1, 1] := by simp [toData, Conv.indices, List.range_succ]
  refine ⟨fun _ b => if b then 1 / 5 else 4 / 5, fun _ b => if b then 2 else -(1 / 2), fun s _ => if s = 3 / 2 then .ok (.norm 0 1) else .error .valueError,
    ⟨none, Geo.new, some (.linear ⟨1, 1, fun _ _ => 1⟩), .norm 0 1, none, "linear_transform", none, false⟩, ⟨1, 1, fun _ _ => 1⟩, ⟨1, 2, fun _ _ => 1⟩, ?_, rfl, ?_, ?_⟩
  · intro s k d h
    dsimp only at h
    split_ifs at h with hs
    refine ⟨13 / 4, ⟨fun i => ?_, ?_, ?_, ?_, ?_, ?_⟩⟩
    · cases i <;> norm_num
    all_goals simp only [Fintype.sum_bool, hs]; norm_num
  · have hs : seqSkew [1] (3 / 2) = 3 / 2 := by simp [seqSkew, sumSq]
    simp [setMoments, d1, hs]
  · rw [d1, d2]
    simp only [sumSq, List.map_cons, List.map_nil, List.sum_cons, List.sum_nil]
    norm_num
    intro h
    have h2 : (2 : ℝ) ^ (3 / 2 : ℝ) > 2 ^ (1 : ℝ) := Real.rpow_lt_rpow_of_exponent_lt (by norm_num) (by norm_num)
    rw [Real.rpow_one] at h2
    linarith

/-- Scaling and moving the quantiles gives the same distribution but for location and scale. -/
theorem quantiles_shape (x0 x1 x2 x3 k c : ℝ) (hk : 0 < k) : SameShape (fitByQuantiles (k * x0 + c) (k * x1 + c) (k * x2 + c) (k * x3 + c)) (fitByQuantiles x0 x1 x2 x3) := by
  have q : ∀ a b d e : ℝ, (k * a + c - (k * b + c)) / (k * d + c - (k * e + c)) = (a - b) / (d - e) := by
    intro a b d e
    rw [show k * a + c - (k * b + c) = k * (a - b) by ring, show k * d + c - (k * e + c) = k * (d - e) by ring, mul_div_mul_left _ _ hk.ne']
  simp only [fitByQuantiles, q]
  split_ifs
  · simp only [Johnson.bounded, SameShape, q, and_self]
  · simp only [Johnson.unbounded, SameShape, and_self]
  · simp only [Johnson.lognormal, Johnson.johnsonsl, SameShape, true_and]
    split_ifs <;> rfl
  · simp only [Johnson.normal, SameShape]

/-- **C140, `set_quantiles`.** Quantiles that are scaled and moved give the same distribution and the same moments, so that the surface cannot have both the one and the other quantiles. (Skewness and
kurtosis do not depend on location and scale.) -/
theorem C140_quantiles_wrong (fit : ℝ → ℝ → Except PyErr Dist) (stats : Dist → Option (ℝ × ℝ)) (hstats : ∀ d d', SameShape d d' → stats d = stats d') (o : Obj)
    (x0 x1 x2 x3 k c : ℝ) (hk : 0 < k) : setQuantiles fit stats o (k * x0 + c) (k * x1 + c) (k * x2 + c) (k * x3 + c) = setQuantiles fit stats o x0 x1 x2 x3 := by
  simp only [setQuantiles, hstats _ _ (quantiles_shape x0 x1 x2 x3 k c hk)]

/-- The hypotheses can be met: skewness and kurtosis of the normal distribution, and quantiles that become others. -/
example : ∃ stats : Dist → Option (ℝ × ℝ), (∀ d d', SameShape d d' → stats d = stats d') ∧ stats (.norm 3 2) = some (0, 0) ∧ (0 : ℝ) < 2 ∧ (2 : ℝ) * 1 + 5 ≠ 1 :=
  ⟨fun d => match d with | .norm _ _ => some (0, 0) | _ => none, by
    intro d d' h
    cases d <;> cases d' <;> first | rfl | exact h.elim, rfl, by norm_num, by norm_num⟩

/-- **C140, `discretise`.** With `create_new` the surface stays as it is, and the new one has the requested shape, the profile that the surface would have got and its spacing.
Otherwise the surface is discrete, has this profile and shape, and target, filter, distribution and moments are as before. -/
theorem C140_discretise (rvs : Dist → ℕ → ℕ → ℕ → ℕ → ℝ) (o : Obj) (c : Coefficients) (hc : o.coefs = some (.linear c)) (h1 : 0 < c.n) (h2 : 0 < c.m) (n m : ℕ) (hn : 0 < n) (hm : 0 < m)
    (shape : Option (List ℤ)) (hs : (shape <|> o.geo.shape) = some [(n : ℤ), (m : ℤ)]) (periodic : Bool) (gs : ℝ) (hg : o.geo.gs = some gs) :
    ∃ p geo o', discretise rvs o shape periodic true = (.ok (some (p, geo)), o) ∧ discretise rvs o shape periodic false = (.ok none, o') ∧
      p.rows = n ∧ p.cols = m ∧ Filter.discretise (some c) (some (n, m)) none periodic (rvs o.dist) = .ok p ∧
      geo = ⟨some gs, some [n * gs, m * gs], some [n, m], some (n * m), some [n, m]⟩ ∧ o'.geo = ⟨some gs, some [gs * n, gs * m], some [n, m], some (n * m), some [n, m]⟩ ∧
      o'.profile = some p ∧ o'.discrete = true ∧ o'.target = o.target ∧ o'.coefs = o.coefs ∧ o'.dist = o.dist ∧ o'.moments = o.moments := by
  have r1 : n + c.n - 1 - c.n + 1 = n := by omega
  have r2 : m + c.m - 1 - c.m + 1 = m := by omega
  have hd : discretise rvs o shape periodic = fun createNew => discretise rvs o (some [(n : ℤ), (m : ℤ)]) periodic createNew := by
    funext b
    simp only [discretise, outputShape, hs]
    rfl
  rw [hd]
  refine ⟨⟨n, m, (Filter.convValid (n + c.n - 1) (m + c.m - 1) (if periodic then fun i j => rvs o.dist n m (i % n) (j % m) else rvs o.dist (n + c.n - 1) (m + c.m - 1)) c.n c.m c.coef)⟩,
    ⟨some gs, some [n * gs, m * gs], some [n, m], some (n * m), some [n, m]⟩,
    { o with profile := some ⟨n, m, (Filter.convValid (n + c.n - 1) (m + c.m - 1) (if periodic then fun i j => rvs o.dist n m (i % n) (j % m) else rvs o.dist (n + c.n - 1) (m + c.m - 1)) c.n c.m c.coef)⟩,
             geo := ⟨some gs, some [gs * n, gs * m], some [n, m], some (n * m), some [n, m]⟩, discrete := true }, ?_, ?_, rfl, rfl, ?_, rfl, rfl, rfl, rfl, rfl, rfl, rfl, rfl⟩
  · simp [discretise, hc, outputShape, Filter.discretise, r1, r2, hg, newSurface, SurfaceGeo.andThen, SurfaceGeo.ifGiven, SurfaceGeo.baseInit, setProfile, setGs, Geo.new]
  · simp [discretise, hc, outputShape, Filter.discretise, r1, r2, hg, setProfile]
  · simp [Filter.discretise, r1, r2]

/-- The hypotheses can be met: the shape of the surface is used. -/
example : ∃ (o : Obj) (c : Coefficients), o.coefs = some (.linear c) ∧ 0 < c.n ∧ 0 < c.m ∧ ((none : Option (List ℤ)) <|> o.geo.shape) = some [((4 : ℕ) : ℤ), ((5 : ℕ) : ℤ)] ∧ o.geo.gs = some 2 :=
  ⟨⟨none, ⟨some 2, some [8, 10], some [4, 5], some 20, none⟩, some (.linear ⟨2, 2, fun _ _ => 1⟩), .norm 0 1, none, "linear_transform", none, false⟩, ⟨2, 2, fun _ _ => 1⟩, rfl, by decide, by decide, rfl, rfl⟩

/-- **C140, `discretise` that raises.** Without a filter or without a shape the call raises and the surface stays as it is. -/
theorem C140_discretise_raises (rvs : Dist → ℕ → ℕ → ℕ → ℕ → ℝ) (o : Obj) (shape : Option (List ℤ)) (periodic createNew : Bool) :
    (o.coefs = none → discretise rvs o shape periodic createNew = (.error (.py .attributeError), o)) ∧
      (∀ c, o.coefs = some (.linear c) → (shape <|> o.geo.shape) = none → discretise rvs o shape periodic createNew = (.error (.py .valueError), o)) := by
  refine ⟨fun h => by simp [discretise, h], fun c h hs => by simp [discretise, h, outputShape, hs]⟩

/-- Both cases exist. -/
example : ∃ o o' : Obj, o.coefs = none ∧ o'.coefs = some (.linear ⟨1, 1, fun _ _ => 1⟩) ∧ o'.geo.shape = none :=
  ⟨⟨none, Geo.new, none, .norm 0 1, none, "Random", none, false⟩, ⟨none, Geo.new, some (.linear ⟨1, 1, fun _ _ => 1⟩), .norm 0 1, none, "linear_transform", none, false⟩, rfl, rfl, rfl⟩

end

end Verif.FilterState
