import Verif.Rough.Turned
import Verif.Rough.BearingProps
import Verif.Rough.TextureProps

/-!
# C169: the functional and spatial parameters of a mirrored or turned surface

stp, sbi, sci, svi (model `Bearing`) and str (model `Texture`), `slippy/surface/roughness_funcs.py` l.292-338. The moves are those of `Turned`.
-/

namespace Verif.Rough

/-! ## Specification -/

/-- The same result, where the entries of an array may be in another order. -/
inductive UpToOrder : Except BErr BOut → Except BErr BOut → Prop where
  | same (x : Except BErr BOut) : UpToOrder x x
  | arr {l l' : List (Option ℝ)} (h : l.Perm l') : UpToOrder (.ok (.arr l)) (.ok (.arr l'))

theorem UpToOrder.of_eq {x y : Except BErr BOut} (h : x = y) : UpToOrder x y := h ▸ .same x

/-! ## Lists -/

theorem foldl_max_perm {v v' : ℝ} {l l' : List ℝ} (h : (v :: l).Perm (v' :: l')) : l.foldl max v = l'.foldl max v' := by
  obtain ⟨a1, a2⟩ := foldl_max_mem l v
  obtain ⟨b1, b2⟩ := foldl_max_mem l' v'
  exact le_antisymm (b2 _ (h.mem_iff.1 a1)) (a2 _ (h.mem_iff.2 b1))

theorem rms_perm {l l' : List ℝ} (h : l.Perm l') : rms l = rms l' := by
  unfold rms
  rw [(h.map _).sum_eq, h.length_eq]

theorem sortValues_eq {l l' : List ℝ} (h : l.Perm l') : sortValues l = sortValues l' :=
  List.Perm.eq_of_pairwise' (r := (· ≤ ·)) (sortValues_sorted l) (sortValues_sorted l') (((sortValues_perm l).trans h).trans (sortValues_perm l').symm)

theorem stp_perm {l l' : List ℝ} (h : l.Perm l') (gs : Option ℝ) : stp gs (.picked l) = stp gs (.picked l') := by
  cases l with
  | nil => rw [h.nil_eq.symm]
  | cons v vs =>
    cases l' with
    | nil => exact absurd h.eq_nil (by simp)
    | cons v' vs' =>
      cases gs with
      | none => rfl
      | some gs =>
        have e : ∀ x : ℝ, (v :: vs).countP (fun y => decide (y < x)) = (v' :: vs').countP fun y => decide (y < x) := fun x => h.countP_eq _
        simp only [stp]
        rw [rms_perm h, foldl_min_perm h, foldl_max_perm h, h.length_eq]
        simp only [e]

theorem sbi_perm {l l' : List ℝ} (h : l.Perm l') : sbi (.picked l) = sbi (.picked l') := by
  simp only [sbi]
  rw [sortValues_eq h, h.length_eq, rms_perm h]

/-- `get_mat_vr` treats each height alike. -/
theorem matVr_each (h : ℝ) {p p' : List ℝ} (hp : p.Perm p') (hne : p ≠ []) : ∃ f : ℝ → Option ℝ, matVr h p true = .ok (p.map f) ∧ matVr h p' true = .ok (p'.map f) := by
  cases p with
  | nil => exact absurd rfl hne
  | cons v vs =>
    cases p' with
    | nil => exact absurd hp.eq_nil (by simp)
    | cons v' vs' =>
      have e1 := foldl_min_perm hp
      have e2 := foldl_max_perm hp
      have e3 := hp.length_eq
      have e4 : ∀ c : ℝ, ((v :: vs).map fun y => y - c).sum = ((v' :: vs').map fun y => y - c).sum := fun c => (hp.map _).sum_eq
      have key : ∀ (v : ℝ) (vs : List ℝ), matVr h (v :: vs) true = .ok ((v :: vs).map fun x =>
          divide (((v :: vs).length : ℝ) * (vs.foldl max v - vs.foldl min v) - ((v :: vs).map fun x => x - vs.foldl min v).sum - ((vs.foldl max v - h) * ((v :: vs).length : ℝ) - ((v :: vs).map fun y => y - h).sum * (if h < x then 1 else 0)))
            (((v :: vs).length : ℝ) * (vs.foldl max v - vs.foldl min v) - ((v :: vs).map fun x => x - vs.foldl min v).sum)) := by
        intro v vs
        simp only [matVr, if_true, List.map_map]
        rfl
      refine ⟨_, key v vs, ?_⟩
      rw [key v' vs', e1, e2, e3, e4, e4]

theorem voidOf_each (h : ℝ) {r r' : List (Option ℝ)} (hr : r.Perm r') :
    (∃ e, ∀ h, voidOf h r = .error e ∧ voidOf h r' = .error e) ∨ ∃ p p' : List ℝ, p.Perm p' ∧ ∀ h, ∃ f : ℝ → Option ℝ, voidOf h r = .ok (p.map f) ∧ voidOf h r' = .ok (p'.map f) := by
  have h1 : none ∈ r ↔ none ∈ r' := hr.mem_iff
  have h3 := hr.filterMap id
  by_cases h2 : none ∈ r
  · refine .inl ⟨.unmodelled, fun h => ?_⟩
    unfold voidOf
    rw [mapM_id_eq, mapM_id_eq, if_pos h2, if_pos (h1.1 h2)]
    exact ⟨rfl, rfl⟩
  · by_cases h4 : r.filterMap id = []
    · refine .inl ⟨.py .valueError, fun h => ?_⟩
      unfold voidOf
      rw [mapM_id_eq, mapM_id_eq, if_neg h2, if_neg fun e => h2 (h1.2 e), h4]
      rw [h4] at h3
      rw [h3.nil_eq.symm]
      exact ⟨rfl, rfl⟩
    · refine .inr ⟨_, _, h3, fun h => ?_⟩
      obtain ⟨f, e1, e2⟩ := matVr_each h h3 h4
      refine ⟨f, ?_, ?_⟩
      · unfold voidOf
        rw [mapM_id_eq, if_neg h2]
        simp only [e1]
      · unfold voidOf
        rw [mapM_id_eq, if_neg fun e => h2 (h1.2 e)]
        simp only [e2]

theorem perArea_perm {l l' : List ℝ} (h : l.Perm l') {a a' : List (Option ℝ)} (ha : a.Perm a') (gs : Option ℝ) : UpToOrder (perArea gs l a) (perArea gs l' a') := by
  unfold perArea
  cases gs with
  | none => exact .same _
  | some gs =>
    simp only
    rw [rms_perm h, h.length_eq]
    exact .arr (ha.map _)

theorem svi_perm {l l' : List ℝ} (h : l.Perm l') {r r' : List (Option ℝ)} (hr : r.Perm r') (gs : Option ℝ) : UpToOrder (svi gs r (.picked l)) (svi gs r' (.picked l')) := by
  simp only [svi]
  rw [sortValues_eq h, h.length_eq]
  cases (sortValues l')[4 * l'.length / 5]? with
  | none => exact .same _
  | some x =>
    simp only
    rcases voidOf_each x hr with ⟨e, he⟩ | ⟨p, p', hp, hf⟩
    · rw [(he x).1, (he x).2]
      exact .same _
    · obtain ⟨f, e1, e2⟩ := hf x
      rw [e1, e2]
      exact perArea_perm h (hp.map f) gs

theorem sci_perm {l l' : List ℝ} (h : l.Perm l') {r r' : List (Option ℝ)} (hr : r.Perm r') (gs : Option ℝ) : UpToOrder (sci gs r (.picked l)) (sci gs r' (.picked l')) := by
  by_cases h1 : l.length = 1
  · obtain ⟨v, rfl⟩ := List.length_eq_one_iff.1 h1
    have e := List.singleton_perm.1 h
    subst e
    simp only [sci]
    cases (sortValues [v])[[v].length / 20]? with
    | none => exact .same _
    | some x =>
      simp only
      by_cases ht : truncate (v * 0.8) = 0 ∨ truncate (v * 0.8) = -1
      · rw [if_pos ht, if_pos ht]
        rcases voidOf_each x hr with ⟨e, he⟩ | ⟨p, p', hp, hf⟩
        · rw [(he x).1, (he x).2]
          exact .same _
        · obtain ⟨f, e1, e2⟩ := hf x
          obtain ⟨g, g1, g2⟩ := hf v
          rw [e1, e2]
          simp only [g1, g2]
          refine perArea_perm (List.Perm.refl _) ?_ gs
          rw [List.zipWith_map, List.zipWith_map, List.zipWith_self, List.zipWith_self]
          exact hp.map _
      · rw [if_neg ht, if_neg ht]
        exact .same _
  · have key : ∀ (r : List (Option ℝ)) (l : List ℝ), l.length ≠ 1 → sci gs r (.picked l) = match (sortValues l)[l.length / 20]? with
        | none => .error (.py .indexError)
        | some _ => .error (.py .typeError) := by
      intro r l hl
      simp only [sci]
      match l, hl with
      | [], _ => rfl
      | a :: b :: l, _ => rfl
    rw [key r l h1, key r' l' (h.length_eq ▸ h1), sortValues_eq h, h.length_eq]
    exact .same _

/-! ## C169 -/

theorem not_moved {mv : Move} {m m' : Arr Bool} (h : Moved mv m m') : Moved mv (⟨m.rows, m.cols, fun i j => !m.val i j⟩ : Arr Bool) ⟨m'.rows, m'.cols, fun i j => !m'.val i j⟩ :=
  ⟨h.shape, fun i j h1 h2 => congrArg (! ·) (h.val i j h1 h2)⟩

/-- What `roughness` makes of a flattened surface and a mask. -/
noncomputable def ofKept (gs : Option ℝ) (eta : Arr (Option ℝ)) (m : Option (Arr Bool)) (name : BParam) : Except BErr BOut :=
  match kept eta m with
  | .error e => .error e
  | .ok k => match name with
    | .stp => stp gs k
    | .sbi => sbi k
    | .sci => sci gs (leftOut eta m) k
    | .svi => svi gs (leftOut eta m) k

theorem bearing_of {lstsq : List (List ℝ) → List (Option ℝ) → Option (List ℝ)} {gs : Option ℝ} {p eta : Arr (Option ℝ)} {k : MaskArg ℝ} {m : Option (Arr Bool)} {curved noFlat : Bool} (h1 : maskArray p k = .ok m)
    (h2 : flatten lstsq p m curved noFlat = .ok eta) (name : BParam) : bearing lstsq gs p k curved noFlat name = ofKept gs eta m name := by
  unfold bearing ofKept
  rw [h1]
  simp only [h2]
  cases kept eta m with
  | error e => rfl
  | ok k => cases name <;> rfl

theorem ofKept_moved {mv : Move} {p p' : Arr (Option ℝ)} (h : Moved mv p p') {m m' : Arr Bool} (hm : Moved mv m m') (hs : m.rows = p.rows ∧ m.cols = p.cols) (gs : Option ℝ) :
    ofKept gs p' (some m') .stp = ofKept gs p (some m) .stp ∧ ofKept gs p' (some m') .sbi = ofKept gs p (some m) .sbi ∧ ∀ name, UpToOrder (ofKept gs p' (some m') name) (ofKept gs p (some m) name) := by
  have hin : ∀ (m : Option (Arr Bool)), ∀ q ∈ selected p.rows p.cols m, q.1 < p.rows ∧ q.2 < p.cols := by
    rintro m ⟨i, j⟩ hq
    have := (mem_selected _ _ _ i j).1 hq
    exact ⟨this.1, this.2.1⟩
  have hv : (valuesAt p' (selected p'.rows p'.cols (some m'))).Perm (valuesAt p (selected p.rows p.cols (some m))) := by
    refine values_perm h (hin _) ?_
    rw [h.rows_eq, h.cols_eq]
    refine selected_moved (mv := mv) (show MovedArray mv (some m) (some m') from hm) ?_
    rintro a ha
    cases ha
    exact hs
  have hr : (leftOut p' (some m')).Perm (leftOut p (some m)) := by
    unfold leftOut
    refine values_perm h (hin _) ?_
    rw [h.rows_eq, h.cols_eq]
    refine selected_moved (mv := mv) (show MovedArray mv (some _) (some _) from not_moved hm) ?_
    rintro a ha
    cases ha
    exact hs
  have hn : none ∈ valuesAt p' (selected p'.rows p'.cols (some m')) ↔ none ∈ valuesAt p (selected p.rows p.cols (some m)) := hv.mem_iff
  unfold ofKept
  simp only [kept]
  rw [mapM_id_eq, mapM_id_eq]
  by_cases hx : none ∈ valuesAt p (selected p.rows p.cols (some m))
  · rw [if_pos hx, if_pos (hn.2 hx)]
    exact ⟨rfl, rfl, fun _ => .same _⟩
  · rw [if_neg hx, if_neg fun y => hx (hn.1 y)]
    have hl := hv.filterMap id
    refine ⟨stp_perm hl gs, sbi_perm hl, fun name => ?_⟩
    cases name with
    | stp => exact .of_eq (stp_perm hl gs)
    | sbi => exact .of_eq (sbi_perm hl)
    | sci => exact sci_perm hl hr gs
    | svi => exact svi_perm hl hr gs

/-- **C169, with a mask.** The bearing curve (stp) and the bearing index (sbi) of a surface that is mirrored, or whose axes are exchanged, together with the mask, are those of the surface, and so are the retention indices (sci, svi) apart from the order of the entries of the array
that is given instead of a number; a call that fails then fails in the same way. Without flattening. -/
theorem C169_masked_partial (lstsq : List (List ℝ) → List (Option ℝ) → Option (List ℝ)) (mv : Move) {p p' : Arr (Option ℝ)} (h : Moved mv p p') {k k' : MaskArg ℝ} (hk : MovedMask mv k k') (hmask : maskArray p k ≠ .ok none) (gs : Option ℝ) (curved : Bool) :
    bearing lstsq gs p' k' curved true .stp = bearing lstsq gs p k curved true .stp ∧ bearing lstsq gs p' k' curved true .sbi = bearing lstsq gs p k curved true .sbi ∧
    ∀ name, UpToOrder (bearing lstsq gs p' k' curved true name) (bearing lstsq gs p k curved true name) := by
  rcases maskArray_moved h hk with ⟨e, e1, e2⟩ | ⟨m, m', e1, e2, hm, hs⟩
  · unfold bearing
    rw [e1, e2]
    exact ⟨rfl, rfl, fun _ => .same _⟩
  · cases m with
    | none => exact absurd e1 hmask
    | some m =>
      cases m' with
      | none => exact absurd hm (by simp [MovedArray])
      | some m' =>
        have f1 : flatten lstsq p (some m) curved true = .ok p := by simp [flatten]
        have f2 : flatten lstsq p' (some m') curved true = .ok p' := by simp [flatten]
        have := ofKept_moved h hm (hs m rfl) gs
        simp only [bearing_of e1 f1, bearing_of e2 f2]
        exact this

/-- **C169, with a mask and flattening.** The same for the surface after a plane or a curved surface is taken away, if the least squares routine finds a fit for both and the heights used are numbers. -/
theorem C169_flattened_partial {lstsq : List (List ℝ) → List (Option ℝ) → Option (List ℝ)} (hl : LeastSquares lstsq) (mv : Move) {p p' : Arr (Option ℝ)} (h : Moved mv p p') {k k' : MaskArg ℝ} (hk : MovedMask mv k k') (gs : Option ℝ) (curved : Bool)
    {m m' : Arr Bool} {eta eta' : Arr (Option ℝ)} (hm : maskArray p k = .ok (some m)) (hm' : maskArray p' k' = .ok (some m')) (f1 : flatten lstsq p (some m) curved false = .ok eta) (f2 : flatten lstsq p' (some m') curved false = .ok eta')
    (hnum : ∀ i j, i < p.rows → j < p.cols → used (some m) i j = true → p.val i j ≠ none) :
    bearing lstsq gs p' k' curved false .stp = bearing lstsq gs p k curved false .stp ∧ bearing lstsq gs p' k' curved false .sbi = bearing lstsq gs p k curved false .sbi ∧
    ∀ name, UpToOrder (bearing lstsq gs p' k' curved false name) (bearing lstsq gs p k curved false name) := by
  have hmv := (C168_flattened hl mv h hk gs false curved hm hm' f1 f2 hnum).1
  rcases maskArray_moved h hk with ⟨e, e1, e2⟩ | ⟨n, n', e1, e2, hn, hs⟩
  · rw [e1] at hm
    cases hm
  · have h1 := hm
    have h2 := hm'
    rw [e1] at hm
    rw [e2] at hm'
    cases hm
    cases hm'
    have hshape : eta.rows = p.rows ∧ eta.cols = p.cols := by
      simp only [flatten, Bool.false_eq_true, if_false] at f1
      cases hc : subtractPolynomial lstsq false p (if curved then 2 else 1) (toMask (some m)) with
      | error x => rw [hc] at f1; cases f1
      | ok r =>
        rw [hc] at f1
        obtain ⟨u, v⟩ := r
        cases f1
        have := subtract_keeps hs hc
        exact ⟨this.1, this.2.1⟩
    have := ofKept_moved hmv hn (by rw [hshape.1, hshape.2]; exact hs m rfl) gs
    simp only [bearing_of h1 f1, bearing_of h2 f2]
    exact this

/-- The hypotheses of `C169_flattened_partial` can be met: the valley of `C168_flattened` with a mask that takes all points. -/
example : LeastSquares bestFit ∧ Moved .axes valley valley' ∧ MovedMask .axes (.array ⟨3, 2, fun _ _ => true⟩) (.array ⟨2, 3, fun _ _ => true⟩) ∧ maskArray valley (.array ⟨3, 2, fun _ _ => true⟩) = .ok (some ⟨3, 2, fun _ _ => true⟩) ∧
    maskArray valley' (.array ⟨2, 3, fun _ _ => true⟩) = .ok (some ⟨2, 3, fun _ _ => true⟩) ∧ (∃ eta, flatten bestFit valley (some ⟨3, 2, fun _ _ => true⟩) false false = .ok eta) ∧
    ∃ eta, flatten bestFit valley' (some ⟨2, 3, fun _ _ => true⟩) false false = .ok eta := by
  have same : ∀ {p : Arr (Option ℝ)} {r c : ℕ}, r = p.rows → c = p.cols → (∃ eta, flatten bestFit p none false false = .ok eta) → ∃ eta, flatten bestFit p (some ⟨r, c, fun _ _ => true⟩) false false = .ok eta := by
    rintro p r c rfl rfl ⟨eta, he⟩
    refine ⟨eta, ?_⟩
    rw [← he]
    simp only [flatten, Bool.false_eq_true, if_false, subtractPolynomial, toMask, polyMask, and_self, if_true]
    rfl
  exact ⟨bestFit_leastSquares, valley_moved, .array ⟨rfl, fun _ _ _ _ => rfl⟩, rfl, rfl, same rfl rfl valley_fits.1, same rfl rfl valley_fits.2⟩

/-- A surface with a mask whose columns are reversed: the hypotheses of `C169_masked_partial` can be met, and the index is a number. -/
example : Moved .cols (⟨1, 3, fun _ j => some (if j = 0 then 1 else if j = 1 then -1 else 7 : ℝ)⟩ : Arr (Option ℝ)) ⟨1, 3, fun _ j => some (if j = 2 then 1 else if j = 1 then -1 else 7)⟩ ∧
    MovedMask .cols (.array ⟨1, 3, fun _ j => decide (j < 2)⟩) (.array ⟨1, 3, fun _ j => decide (0 < j)⟩) ∧
    maskArray (⟨1, 3, fun _ j => some (if j = 0 then 1 else if j = 1 then -1 else 7 : ℝ)⟩ : Arr (Option ℝ)) (.array ⟨1, 3, fun _ j => decide (j < 2)⟩) ≠ .ok none := by
  refine ⟨⟨rfl, fun i j _ hj => ?_⟩, .array ⟨rfl, fun i j _ hj => ?_⟩, by simp [maskArray]⟩
  · simp only at hj
    interval_cases j <;> simp [Move.to]
  · simp only at hj
    interval_cases j <;> simp [Move.to]

/-- Two rows of two heights. -/
def twoRows : Arr (Option ℝ) := ⟨2, 2, fun i _ => some (i + 1 : ℝ)⟩

/-- The rows in the reverse order. -/
def twoRows' : Arr (Option ℝ) := ⟨2, 2, fun i _ => some (2 - i : ℝ)⟩

theorem twoRows_moved : Moved .rows twoRows twoRows' := by
  refine ⟨rfl, fun i j hi _ => ?_⟩
  simp only [twoRows, twoRows', Move.to] at hi ⊢
  interval_cases i <;> norm_num

/-- **C169 is false without a mask.** The bearing index is then made from the row of the array that stands at 5 % of the number of points, so that it changes if the order of the rows is reversed. -/
theorem C169_unmasked_wrong (lstsq : List (List ℝ) → List (Option ℝ) → Option (List ℝ)) (gs : Option ℝ) (curved : Bool) :
    ¬ UpToOrder (bearing lstsq gs twoRows' .none curved true .sbi) (bearing lstsq gs twoRows .none curved true .sbi) := by
  have hs : selected 2 2 none = [(0, 0), (0, 1), (1, 0), (1, 1)] := by decide
  have e1 : bearing lstsq gs twoRows .none curved true .sbi = .ok (.arr [divide (rms [1, 1, 2, 2]) 1, divide (rms [1, 1, 2, 2]) 1]) := by
    simp [bearing, maskArray, flatten, kept, twoRows, valuesAt, hs, sbi, List.range_succ, sortValues]
    norm_num
  have e2 : bearing lstsq gs twoRows' .none curved true .sbi = .ok (.arr [divide (rms [2, 2, 1, 1]) 2, divide (rms [2, 2, 1, 1]) 2]) := by
    simp [bearing, maskArray, flatten, kept, twoRows', valuesAt, hs, sbi, List.range_succ, sortValues]
    norm_num
  have hr : rms [2, 2, 1, 1] = rms [1, 1, 2, 2] := by
    unfold rms
    norm_num
  have hpos : 0 < rms [1, 1, 2, 2] := by
    unfold rms
    apply Real.sqrt_pos.2
    norm_num
  rw [e1, e2, hr]
  generalize rms [1, 1, 2, 2] = s at hpos
  have d1 : divide s 1 = some s := by simp [divide]
  have d2 : divide s 2 = some (s / 2) := by simp [divide]
  rw [d1, d2]
  intro hu
  have key : ∀ x y, UpToOrder x y → ∀ l l', x = .ok (.arr l) → y = .ok (.arr l') → l.Perm l' := by
    intro x y hxy
    cases hxy with
    | same =>
      intro l l' e e'
      rw [e] at e'
      cases e'
      exact List.Perm.refl _
    | arr hp =>
      intro l l' e e'
      cases e
      cases e'
      exact hp
  have := (key _ _ hu _ _ rfl rfl).mem_iff (a := some s)
  simp at this
  linarith

/-- The surfaces of `C169_unmasked_wrong` are mirror images. -/
example : Moved .rows twoRows twoRows' ∧ MovedMask .rows .none .none := ⟨twoRows_moved, .none⟩

/-! ## The texture ratio -/

/-- Two peaks on a diagonal. -/
noncomputable def diagonal (i j : ℕ) : ℝ := if (i = 0 ∧ j = 0) ∨ (i = 1 ∧ j = 1) then 3 else 0

/-- The rows in the reverse order. -/
noncomputable def diagonal' (i j : ℕ) : ℝ := if (i = 4 ∧ j = 0) ∨ (i = 3 ∧ j = 1) then 3 else 0

theorem diagonal_acf (i j : ℕ) (hi : i < 5) (hj : j < 5) : Acf.original 5 5 diagonal i j = if i = 2 ∧ j = 2 then 18 / 25 else if (i = 1 ∧ j = 1) ∨ (i = 3 ∧ j = 3) then 9 / 25 else 0 := by
  unfold Acf.original Acf.correlateSame Acf.correlateFull
  interval_cases i <;> interval_cases j <;> simp [Finset.sum_range_succ, Acf.padded, diagonal] <;> norm_num

theorem diagonal_acf' (i j : ℕ) (hi : i < 5) (hj : j < 5) : Acf.original 5 5 diagonal' i j = if i = 2 ∧ j = 2 then 18 / 25 else if (i = 1 ∧ j = 3) ∨ (i = 3 ∧ j = 1) then 9 / 25 else 0 := by
  unfold Acf.original Acf.correlateSame Acf.correlateFull
  interval_cases i <;> interval_cases j <;> simp [Finset.sum_range_succ, Acf.padded, diagonal'] <;> norm_num

/-- The ratio for an autocorrelation with values above 0.2 at three points. -/
theorem str_five (p : ℕ → ℕ → ℝ) (k l : ℕ) (hk : k < 5) (hl : l < 5) (hkl : ¬ (k = 2 ∧ l = 3)) (hkl' : ¬ (k = 2 ∧ l = 1)) (b : ℝ) (hb : distance 1 5 5 k l = b) (hb1 : distance 1 5 5 (4 - k) (4 - l) ≤ b) (hb2 : distance 1 5 5 2 2 ≤ b)
    (hacf : ∀ i j, i < 5 → j < 5 → Acf.original 5 5 p i j = if i = 2 ∧ j = 2 then 18 / 25 else if (i = k ∧ j = l) ∨ (i = 4 - k ∧ j = 4 - l) then 9 / 25 else 0) :
    texStr false ⟨5, 5, p⟩ = .ok ((Real.sqrt (1 / 2) - 1 / 2) / (b + 1 / 2)) := by
  obtain ⟨lo, hi', he, hlo, hhi⟩ := str_unfold (N := 5) (by norm_num) p
  have hd : distance 1 5 5 2 3 = Real.sqrt (1 / 2) := by
    unfold distance offset
    norm_num
  have h1 : pyMin lo = .ok (Real.sqrt (1 / 2)) := by
    apply pyMin_of
    · refine (hlo _).2 ⟨2, 3, by norm_num, by norm_num, ?_, hd.symm⟩
      rw [hacf 2 3 (by norm_num) (by norm_num), if_neg (by norm_num), if_neg (by omega)]
      norm_num
    · intro x hx
      obtain ⟨i, j, hi, hj, -, rfl⟩ := (hlo x).1 hx
      unfold distance
      apply Real.sqrt_le_sqrt
      unfold offset
      interval_cases i <;> interval_cases j <;> norm_num
  have h2 : pyMax hi' = .ok b := by
    apply pyMax_of
    · refine (hhi _).2 ⟨k, l, hk, hl, ?_, hb.symm⟩
      rw [hacf k l hk hl]
      by_cases hc : k = 2 ∧ l = 2
      · rw [if_pos hc]; norm_num
      · rw [if_neg hc, if_pos (.inl ⟨rfl, rfl⟩)]; norm_num
    · intro x hx
      obtain ⟨i, j, hi, hj, hhigh, rfl⟩ := (hhi x).1 hx
      rw [hacf i j hi hj] at hhigh
      by_cases hc : i = 2 ∧ j = 2
      · rw [hc.1, hc.2]; exact hb2
      · rw [if_neg hc] at hhigh
        by_cases hc2 : (i = k ∧ j = l) ∨ (i = 4 - k ∧ j = 4 - l)
        · rcases hc2 with ⟨rfl, rfl⟩ | ⟨rfl, rfl⟩
          · exact hb.le
          · exact hb1
        · rw [if_neg hc2] at hhigh
          norm_num at hhigh
  rw [he, h1, h2]

/-- **C169 is false for the texture ratio.** The distances of str are measured from a point that is half a step beside the middle of the autocorrelation if the number of points is odd; two peaks on a diagonal and their mirror image then have different ratios. -/
theorem C169_str_wrong : Moved .rows (⟨5, 5, diagonal⟩ : Arr ℝ) ⟨5, 5, diagonal'⟩ ∧ ∃ a b, texStr false ⟨5, 5, diagonal⟩ = .ok a ∧ texStr false ⟨5, 5, diagonal'⟩ = .ok b ∧ a < b := by
  refine ⟨⟨rfl, fun i j hi hj => ?_⟩, ?_⟩
  · simp only [Move.to, diagonal, diagonal'] at hi hj ⊢
    interval_cases i <;> simp
  · have d1 : distance 1 5 5 1 1 = Real.sqrt (9 / 2) := by unfold distance offset; norm_num
    have d2 : distance 1 5 5 3 3 = Real.sqrt (1 / 2) := by unfold distance offset; norm_num
    have d3 : distance 1 5 5 2 2 = Real.sqrt (1 / 2) := by unfold distance offset; norm_num
    have d4 : distance 1 5 5 1 3 = Real.sqrt (5 / 2) := by unfold distance offset; norm_num
    have d5 : distance 1 5 5 3 1 = Real.sqrt (5 / 2) := by unfold distance offset; norm_num
    have e1 := str_five diagonal 1 1 (by norm_num) (by norm_num) (by norm_num) (by norm_num) _ d1 (d2.trans_le (Real.sqrt_le_sqrt (by norm_num))) (d3.trans_le (Real.sqrt_le_sqrt (by norm_num))) diagonal_acf
    have e2 := str_five diagonal' 1 3 (by norm_num) (by norm_num) (by norm_num) (by norm_num) _ d4 d5.le (d3.trans_le (Real.sqrt_le_sqrt (by norm_num))) diagonal_acf'
    refine ⟨_, _, e1, e2, ?_⟩
    have h1 : 1 / 2 < Real.sqrt (1 / 2) := by
      apply Real.lt_sqrt_of_sq_lt
      norm_num
    have h2 : Real.sqrt (5 / 2) < Real.sqrt (9 / 2) := Real.sqrt_lt_sqrt (by norm_num) (by norm_num)
    have h3 := Real.sqrt_nonneg (5 / 2)
    exact div_lt_div_of_pos_left (by linarith) (by linarith) (by linarith)

end Verif.Rough
