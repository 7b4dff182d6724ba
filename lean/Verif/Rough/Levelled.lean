import Verif.Rough.TurnedBearing

/-!
# C170: the roughness of a surface that was levelled differently

`roughness`, `slippy/surface/roughness_funcs.py` l.174-372 (models `Params` and `Bearing`), of a surface to which a constant, a tilt or another polynomial is added that the flattening takes away (l.192-201).
-/

namespace Verif.Rough

/-! ## Specification -/

/-- The second surface is the first one plus a polynomial that the flattening can take away: powers up to 1 of each coordinate, or up to 2 for curved surfaces. -/
structure Tilted (curved : Bool) (p p' : Arr (Option ℝ)) : Prop where
  rows : p'.rows = p.rows
  cols : p'.cols = p.cols
  val : ∃ d : ℕ → ℕ → ℝ, ∀ i j : ℕ, i < p.rows → j < p.cols → p'.val i j = (p.val i j).map fun v => v + evalPoly (if curved then 2 else 1) d j i

/-- The same heights at all points. -/
structure SameHeights (a b : Arr (Option ℝ)) : Prop where
  rows : b.rows = a.rows
  cols : b.cols = a.cols
  val : ∀ i j, i < a.rows → j < a.cols → b.val i j = a.val i j

/-! ## The parameters of the same heights -/

theorem same_values {a b : Arr (Option ℝ)} (h : SameHeights a b) (m : Option (Arr Bool)) : valuesAt b (selected b.rows b.cols m) = valuesAt a (selected a.rows a.cols m) := by
  unfold valuesAt
  rw [h.rows, h.cols]
  refine List.map_congr_left ?_
  rintro ⟨i, j⟩ hq
  have := (mem_selected _ _ _ i j).1 hq
  exact h.val i j this.1 this.2.1

theorem same_moved {a b : Arr (Option ℝ)} (h : SameHeights a b) : ∃ c, Moved .rows a c ∧ Moved .rows c b := by
  refine ⟨⟨a.rows, a.cols, fun i j => a.val (a.rows - 1 - i) j⟩, ⟨rfl, fun i j hi _ => ?_⟩, ⟨?_, fun i j hi hj => ?_⟩⟩
  · simp only [Move.to]
    rw [show a.rows - 1 - (a.rows - 1 - i) = i by omega]
  · rw [h.rows, h.cols]
    rfl
  · simp only [Move.to] at hi hj ⊢
    exact h.val _ _ (by omega) hj

theorem same_single {a b : Arr (Option ℝ)} (h : SameHeights a b) (gs : Option ℝ) (four : Bool) (name : Param) : (single ⟨gs, four, none⟩ b none name).1 = (single ⟨gs, four, none⟩ a none name).1 := by
  obtain ⟨c, h1, h2⟩ := same_moved h
  rw [single_moved h2 (m := none) (m' := none) trivial (by simp), single_moved h1 (m := none) (m' := none) trivial (by simp)]

theorem same_ofKept {a b : Arr (Option ℝ)} (h : SameHeights a b) (gs : Option ℝ) (name : BParam) : ofKept gs b none name = ofKept gs a none name := by
  have h1 := same_values h none
  have h2 : leftOut b none = leftOut a none := h1
  have h3 : kept b none = kept a none := by
    unfold kept
    rw [h1, h.rows, h.cols]
    by_cases hs : a.rows < 2 ∨ a.cols < 2
    · rw [if_pos hs, if_pos hs]
    · rw [if_neg hs, if_neg hs]
      have e : ((List.range a.rows).map fun i => (List.range a.cols).map fun j => (b.val i j).getD 0) = (List.range a.rows).map fun i => (List.range a.cols).map fun j => (a.val i j).getD 0 := by
        refine List.map_congr_left fun i hi => List.map_congr_left fun j hj => ?_
        rw [h.val i j (List.mem_range.1 hi) (List.mem_range.1 hj)]
      rw [e]
  unfold ofKept
  rw [h3, h2]

/-! ## Flattening -/

theorem flatten_call {lstsq : List (List ℝ) → List (Option ℝ) → Option (List ℝ)} {p eta : Arr (Option ℝ)} {m : Option (Arr Bool)} {curved : Bool} (e : flatten lstsq p m curved false = .ok eta) :
    ∃ co, subtractPolynomial lstsq false p (if curved then 2 else 1) (toMask m) = .ok (eta, co) := by
  simp only [flatten, Bool.false_eq_true, if_false] at e
  cases hc : subtractPolynomial lstsq false p (if curved then 2 else 1) (toMask m) with
  | error x => rw [hc] at e; cases e
  | ok r =>
    rw [hc] at e
    obtain ⟨a, b⟩ := r
    cases e
    exact ⟨b, rfl⟩

/-- What remains at the points used. -/
theorem tilted_used {lstsq : List (List ℝ) → List (Option ℝ) → Option (List ℝ)} (hl : LeastSquares lstsq) {curved : Bool} {p p' : Arr (Option ℝ)} (ht : Tilted curved p p') {m : Option (Arr Bool)}
    (hs : ∀ a, m = some a → a.rows = p.rows ∧ a.cols = p.cols) (hnum : ∀ i j, i < p.rows → j < p.cols → used m i j = true → p.val i j ≠ none) {eta eta' : Arr (Option ℝ)} (e : flatten lstsq p m curved false = .ok eta)
    (e' : flatten lstsq p' m curved false = .ok eta') :
    eta.rows = p.rows ∧ eta.cols = p.cols ∧ eta'.rows = p.rows ∧ eta'.cols = p.cols ∧ ∀ i j, i < p.rows → j < p.cols → used m i j = true → eta'.val i j = eta.val i j := by
  have hs' : ∀ a, m = some a → a.rows = p'.rows ∧ a.cols = p'.cols := by rw [ht.rows, ht.cols]; exact hs
  obtain ⟨co, f⟩ := flatten_call e
  obtain ⟨co', f'⟩ := flatten_call e'
  obtain ⟨k1, k2, -⟩ := subtract_keeps hs f
  obtain ⟨k1', k2', -⟩ := subtract_keeps hs' f'
  obtain ⟨d, hd⟩ := ht.val
  refine ⟨k1, k2, k1'.trans ht.rows, k2'.trans ht.cols, ?_⟩
  have hh : ∀ i j, i < p.rows → j < p.cols → used m i j = true → p.val i j = some ((p.val i j).getD 0) := by
    intro i j a b c
    cases hv : p.val i j with
    | none => exact absurd hv (hnum i j a b c)
    | some v => rfl
  refine C50_polynomial_added hl (polyMask_toMask hs) (polyMask_toMask hs') ht.rows ht.cols f f' (fun i j => (p.val i j).getD 0) d hh ?_
  intro i j a b c
  rw [hd i j a b, hh i j a b c]
  rfl

/-- **C170, without a mask.** All parameters that are made from heights, summits, cells and the bearing curve are the same for a surface and for the surface plus a constant, a tilt or another polynomial that the flattening takes away, if the least squares routine finds a fit for both
and all heights are numbers. -/
theorem C170_unmasked {lstsq : List (List ℝ) → List (Option ℝ) → Option (List ℝ)} (hl : LeastSquares lstsq) {curved : Bool} {p p' : Arr (Option ℝ)} (ht : Tilted curved p p') (hnum : ∀ i j, i < p.rows → j < p.cols → p.val i j ≠ none) {eta eta' : Arr (Option ℝ)}
    (e : flatten lstsq p none curved false = .ok eta) (e' : flatten lstsq p' none curved false = .ok eta') (gs : Option ℝ) (four : Bool) :
    (∀ name, roughness lstsq ⟨gs, four, none⟩ p' .none curved false name = roughness lstsq ⟨gs, four, none⟩ p .none curved false name) ∧
    ∀ name, bearing lstsq gs p' .none curved false name = bearing lstsq gs p .none curved false name := by
  obtain ⟨a1, a2, a3, a4, a5⟩ := tilted_used hl ht (m := none) (by simp) (fun i j a b _ => hnum i j a b) e e'
  have hsame : SameHeights eta eta' := ⟨a3.trans a1.symm, a4.trans a2.symm, fun i j hi hj => a5 i j (a1 ▸ hi) (a2 ▸ hj) rfl⟩
  refine ⟨fun name => ?_, fun name => ?_⟩
  · unfold roughness
    simp only [maskArray, e, e']
    exact same_single hsame gs four name
  · rw [bearing_of (show maskArray p' .none = .ok none from rfl) e', bearing_of (show maskArray p .none = .ok none from rfl) e]
    exact same_ofKept hsame gs name

/-- A valley and the valley with a tilt: the hypotheses of `C170_unmasked` can be met. -/
def tiltedValley : Arr (Option ℝ) := ⟨3, 2, fun i j => some ((if i = 1 then -2 else 1) + (2 * j + 5 : ℝ))⟩

theorem valley_tilted : Tilted false valley tiltedValley := by
  refine ⟨rfl, rfl, fun i j => if j = 0 then (if i = 0 then 5 else if i = 1 then 2 else 0) else 0, fun i j _ _ => ?_⟩
  simp [valley, tiltedValley, evalPoly, Finset.sum_range_succ]
  ring

example : LeastSquares bestFit ∧ Tilted false valley tiltedValley ∧ (∀ i j, valley.val i j ≠ none) ∧ (∃ eta, flatten bestFit valley none false false = .ok eta) ∧ ∃ eta, flatten bestFit tiltedValley none false false = .ok eta := by
  refine ⟨bestFit_leastSquares, valley_tilted, fun i j => by simp [valley], valley_fits.1, ?_⟩
  have ht : terms 1 = [(0, 0), (0, 1), (1, 0), (1, 1)] := by decide
  have hs : selected 3 2 none = [(0, 0), (0, 1), (1, 0), (1, 1), (2, 0), (2, 1)] := by decide
  refine flatten_of_fit (z := [6, 8, 3, 5, 6, 8]) (c := [5, 0, 2, 0]) ?_ ⟨?_, ?_⟩
  · show ((selected 3 2 none).map fun q => tiltedValley.val q.1 q.2) = _
    rw [hs]
    simp [tiltedValley]
    norm_num
  · simp only [List.mem_map]
    rintro _ ⟨q, _, rfl⟩
    simp [gRow, ht]
  · intro d hd
    match d, hd with
    | [x, y, z, w], _ =>
      show ((((selected 3 2 none).map (gRow 1)).zip _).map _).sum ≤ ((((selected 3 2 none).map (gRow 1)).zip _).map _).sum
      rw [hs]
      simp [gRow, ht, monomial]
      nlinarith [sq_nonneg (x - 5), sq_nonneg (x - 5 + y), sq_nonneg (x - 5 + 2 * y), sq_nonneg (x - 5 + (z - 2)), sq_nonneg (x - 5 + y + (z - 2) + w), sq_nonneg (x - 5 + 2 * y + (z - 2) + 2 * w)]

/-- **C170, with a mask.** The parameters that are made from the heights used only (sq, sa, ssk, sku, sv, and stp and sbi) do not depend on the levelling. -/
theorem C170_masked_partial {lstsq : List (List ℝ) → List (Option ℝ) → Option (List ℝ)} (hl : LeastSquares lstsq) {curved : Bool} {p p' : Arr (Option ℝ)} (ht : Tilted curved p p') {m : Arr Bool} (hm : m.rows = p.rows ∧ m.cols = p.cols)
    (hnum : ∀ i j, i < p.rows → j < p.cols → m.val i j = true → p.val i j ≠ none) {eta eta' : Arr (Option ℝ)} (e : flatten lstsq p (some m) curved false = .ok eta) (e' : flatten lstsq p' (some m) curved false = .ok eta') (st : Settings) (gs : Option ℝ) :
    (∀ name ∈ [Param.sq, .sa, .ssk, .sku, .sv], roughness lstsq st p' (.array m) curved false name = roughness lstsq st p (.array m) curved false name) ∧
    ∀ name ∈ [BParam.stp, .sbi], bearing lstsq gs p' (.array m) curved false name = bearing lstsq gs p (.array m) curved false name := by
  have hs : ∀ a, some m = some a → a.rows = p.rows ∧ a.cols = p.cols := by
    rintro a ha
    cases ha
    exact hm
  obtain ⟨a1, a2, a3, a4, a5⟩ := tilted_used hl ht (m := some m) hs hnum e e'
  have hv : valuesAt eta' (selected eta'.rows eta'.cols (some m)) = valuesAt eta (selected eta.rows eta.cols (some m)) := by
    unfold valuesAt
    rw [a1, a2, a3, a4]
    refine List.map_congr_left ?_
    rintro ⟨i, j⟩ hq
    have := (mem_selected _ _ _ i j).1 hq
    exact a5 i j this.1 this.2.1 this.2.2
  have k : maskArray p (.array m) = .ok (some m) := by simp only [maskArray]; rw [if_pos hm]
  have k' : maskArray p' (.array m) = .ok (some m) := by simp only [maskArray]; rw [ht.rows, ht.cols, if_pos hm]
  constructor
  · intro name hn
    unfold roughness
    rw [k, k']
    simp only [e, e']
    simp only [List.mem_cons, List.not_mem_nil, or_false] at hn
    rcases hn with rfl | rfl | rfl | rfl | rfl <;> simp only [single, hv]
  · intro name hn
    rw [bearing_of k' e', bearing_of k e]
    unfold ofKept
    simp only [kept, hv]
    cases (valuesAt eta (selected eta.rows eta.cols (some m))).mapM id with
    | none => rfl
    | some l =>
      simp only [List.mem_cons, List.not_mem_nil, or_false] at hn
      rcases hn with rfl | rfl <;> rfl

/-! ## Summits with a mask -/

/-- A peak beside a column of zeros. -/
def peak : Arr (Option ℝ) := ⟨3, 4, fun i j => some (if i = 1 ∧ j = 1 then 1 else 0)⟩

/-- The same with a tilt. -/
def tiltedPeak : Arr (Option ℝ) := ⟨3, 4, fun i j => some ((if i = 1 ∧ j = 1 then 1 else 0) + 2 * (j : ℝ))⟩

/-- The column of zeros is used. -/
def lastColumn : Arr Bool := ⟨3, 4, fun _ j => j == 3⟩

theorem peak_tilted : Tilted false peak tiltedPeak := by
  refine ⟨rfl, rfl, fun i j => if i = 1 ∧ j = 0 then 2 else 0, fun i j _ _ => ?_⟩
  simp [peak, tiltedPeak, evalPoly, Finset.sum_range_succ]

/-- Heights that are a polynomial at the points used have a fit. -/
theorem flatten_exact {p : Arr (Option ℝ)} {m : Arr Bool} (hm : m.rows = p.rows ∧ m.cols = p.cols) (d : ℕ → ℕ → ℝ) (h : ∀ i j : ℕ, i < p.rows → j < p.cols → m.val i j = true → p.val i j = some (evalPoly 1 d j i)) :
    ∃ eta, flatten bestFit p (some m) false false = .ok eta := by
  simp only [flatten, Bool.false_eq_true, if_false, subtractPolynomial]
  rw [polyMask_toMask (m := some m) (by rintro a ha; cases ha; exact hm)]
  simp only
  have hz : ((selected p.rows p.cols (some m)).map fun q => p.val q.1 q.2) = ((selected p.rows p.cols (some m)).map fun q => evalPoly 1 d q.2 q.1).map some := by
    rw [List.map_map]
    refine List.map_congr_left ?_
    rintro ⟨i, j⟩ hq
    have := (mem_selected _ _ _ i j).1 hq
    exact h i j this.1 this.2.1 this.2.2
  rw [hz]
  unfold bestFit
  rw [dif_pos]
  · exact ⟨_, rfl⟩
  · refine ⟨(terms 1).map fun t => d t.1 t.2, _, rfl, by simp only [List.mem_map]; rintro _ ⟨q, _, rfl⟩; simp [gRow], fun e _ => ?_⟩
    simp only [List.zip_map', List.map_map, Function.comp_def, dot_eq, polyAt_eval, sub_self]
    refine le_trans (le_of_eq (b := 0) (by simp)) ?_
    exact List.sum_nonneg (by simp only [List.mem_map, forall_exists_index, and_imp]; rintro _ q _ rfl; positivity)

theorem peak_fit : ∃ eta, flatten bestFit peak (some lastColumn) false false = .ok eta := by
  refine flatten_exact ⟨rfl, rfl⟩ (fun _ _ => 0) fun i j _ _ hj => ?_
  have hj : j = 3 := by simpa [lastColumn] using hj
  subst hj
  simp [peak, evalPoly]

theorem tiltedPeak_fit : ∃ eta, flatten bestFit tiltedPeak (some lastColumn) false false = .ok eta := by
  refine flatten_exact ⟨rfl, rfl⟩ (fun i j => if i = 1 ∧ j = 0 then 2 else 0) fun i j _ _ hj => ?_
  have hj : j = 3 := by simpa [lastColumn] using hj
  subst hj
  simp [tiltedPeak, evalPoly, Finset.sum_range_succ]

/-- The density of summits of a flattened surface with a mask, from the summits. -/
theorem sds_of {lstsq : List (List ℝ) → List (Option ℝ) → Option (List ℝ)} {p eta : Arr (Option ℝ)} {m : Arr Bool} (hm : m.rows = p.rows ∧ m.cols = p.cols) (e : flatten lstsq p (some m) false false = .ok eta) (gs : Option ℝ) (four : Bool)
    (hne : selected p.rows p.cols (some m) ≠ []) :
    roughness lstsq ⟨gs, four, none⟩ p (.array m) false false .sds = .ok (.num (some (((marks (over eta (some m)) four).length : ℝ) / (selected p.rows p.cols (some m)).length))) := by
  have hs : ∀ a, some m = some a → a.rows = p.rows ∧ a.cols = p.cols := by
    rintro a ha
    cases ha
    exact hm
  obtain ⟨co, f⟩ := flatten_call e
  obtain ⟨k1, k2, -⟩ := subtract_keeps hs f
  have k : maskArray p (.array m) = .ok (some m) := by simp only [maskArray]; rw [if_pos hm]
  unfold roughness
  rw [k]
  simp only [e, single]
  rw [find_eq eta (some m) four (by rw [k1, k2]; exact hs)]
  simp only
  rw [k1, k2, if_neg (by simpa [valuesAt] using hne)]
  simp only [valuesAt, List.length_map]
  rfl

/-- **C170 is false for summits with a mask.** Only the points used are flattened, and they are then kept out of the search for summits, so that the summits are those of the other points before the flattening. A tilt that is taken away at the points used removes a summit. -/
theorem C170_summits_wrong (gs : Option ℝ) (four : Bool) : Tilted false peak tiltedPeak ∧
    roughness bestFit ⟨gs, four, none⟩ peak (.array lastColumn) false false .sds = .ok (.num (some (1 / 3))) ∧ roughness bestFit ⟨gs, four, none⟩ tiltedPeak (.array lastColumn) false false .sds = .ok (.num (some 0)) := by
  have hsel : selected 3 4 (some lastColumn) = [(0, 3), (1, 3), (2, 3)] := by decide
  have hs : ∀ {p : Arr (Option ℝ)}, p.rows = 3 → p.cols = 4 → ∀ a, some lastColumn = some a → a.rows = p.rows ∧ a.cols = p.cols := by
    rintro p h1 h2 a ha
    cases ha
    rw [h1, h2]
    exact ⟨rfl, rfl⟩
  have val : ∀ {p eta : Arr (Option ℝ)}, p.rows = 3 → p.cols = 4 → flatten bestFit p (some lastColumn) false false = .ok eta → eta.rows = 3 ∧ eta.cols = 4 ∧ ∀ i j, (over eta (some lastColumn)).val i j = if j = 3 then none else p.val i j := by
    intro p eta h1 h2 e
    obtain ⟨co, f⟩ := flatten_call e
    obtain ⟨k1, k2, k3⟩ := subtract_keeps (hs h1 h2) f
    refine ⟨k1.trans h1, k2.trans h2, fun i j => ?_⟩
    by_cases hj : j = 3
    · simp [over, lastColumn, hj]
    · have := k3 i j (by simp [used, lastColumn, hj])
      simp [over, lastColumn, hj, this]
  have right : ∀ i j, Next four i j i (j + 1) := by
    intro i j
    cases four <;> simp [Next, Next4, Next8]
    omega
  refine ⟨peak_tilted, ?_, ?_⟩
  · obtain ⟨eta, e⟩ := peak_fit
    obtain ⟨r1, r2, r3⟩ := val rfl rfl e
    rw [sds_of ⟨rfl, rfl⟩ e gs four (by show selected 3 4 _ ≠ []; rw [hsel]; simp)]
    have hmk : (marks (over eta (some lastColumn)) four).Perm [(1, 1)] := by
      refine (List.perm_ext_iff_of_nodup ?_ (by simp)).2 ?_
      · exact nodup_selected _ _ _
      rintro ⟨i, j⟩
      rw [mem_marks]
      simp only [List.mem_singleton, Prod.mk.injEq]
      constructor
      · rintro ⟨h1, h2, h3, h4, h5⟩
        rw [(over_shape eta _).1, r1] at h2
        rw [(over_shape eta _).2, r2] at h4
        have hi : i = 1 := by omega
        refine ⟨hi, ?_⟩
        by_contra hj
        have hj : j = 2 := by omega
        subst hj
        obtain ⟨x, y, e1, -, -⟩ := h5 _ _ (right i 2)
        rw [r3] at e1
        simp at e1
      · rintro ⟨rfl, rfl⟩
        refine ⟨by norm_num, by rw [(over_shape eta _).1, r1]; norm_num, by norm_num, by rw [(over_shape eta _).2, r2]; norm_num, fun k l hn => ?_⟩
        obtain ⟨q1, q2⟩ := next_in (r := 3) (c := 3) hn (by norm_num) (by norm_num)
        have hne : ¬ (k = 1 ∧ l = 1) := by
          rintro ⟨rfl, rfl⟩
          cases four <;> simp [Next, Next4, Next8] at hn
        refine ⟨0, 1, ?_, ?_, by norm_num⟩
        · rw [r3, if_neg (by omega)]
          simp [peak, hne]
        · rw [r3]
          simp [peak]
    show Except.ok (Out.num (some (((marks (over eta (some lastColumn)) four).length : ℝ) / (selected 3 4 (some lastColumn)).length))) = _
    rw [hmk.length_eq, hsel]
    norm_num
  · obtain ⟨eta, e⟩ := tiltedPeak_fit
    obtain ⟨r1, r2, r3⟩ := val rfl rfl e
    rw [sds_of ⟨rfl, rfl⟩ e gs four (by show selected 3 4 _ ≠ []; rw [hsel]; simp)]
    have hmk : marks (over eta (some lastColumn)) four = [] := by
      rw [List.eq_nil_iff_forall_not_mem]
      rintro ⟨i, j⟩ hq
      rw [mem_marks] at hq
      obtain ⟨h1, h2, h3, h4, h5⟩ := hq
      simp only at h1 h2 h3 h4 h5
      rw [(over_shape eta _).1, r1] at h2
      rw [(over_shape eta _).2, r2] at h4
      have hi : i = 1 := by omega
      obtain ⟨x, y, e1, e2, e3⟩ := h5 _ _ (right i j)
      rw [r3] at e1 e2
      have hj : j = 1 ∨ j = 2 := by omega
      subst hi
      rcases hj with rfl | rfl
      · simp [tiltedPeak] at e1 e2
        linarith
      · simp at e1
    show Except.ok (Out.num (some (((marks (over eta (some lastColumn)) four).length : ℝ) / (selected 3 4 (some lastColumn)).length))) = _
    rw [hmk]
    simp

/-- The hypotheses of `C170_masked_partial` can be met: the same surfaces. -/
example : LeastSquares bestFit ∧ Tilted false peak tiltedPeak ∧ (lastColumn.rows = peak.rows ∧ lastColumn.cols = peak.cols) ∧ (∀ i j, peak.val i j ≠ none) ∧ (∃ eta, flatten bestFit peak (some lastColumn) false false = .ok eta) ∧
    ∃ eta, flatten bestFit tiltedPeak (some lastColumn) false false = .ok eta :=
  ⟨bestFit_leastSquares, peak_tilted, ⟨rfl, rfl⟩, fun i j => by simp [peak], peak_fit, tiltedPeak_fit⟩

end Verif.Rough
