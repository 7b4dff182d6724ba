import Verif.Rough.Levelled

/-!
# C171: roughness parameters in other units of length

`roughness`, `slippy/surface/roughness_funcs.py` l.174-372 (model `Params`), of a surface whose heights, and whose grid spacing, are given in another unit of length.
-/

namespace Verif.Rough

/-! ## Specification -/

/-- The same surface in another unit: all heights are multiplied by `u`, missing heights are missing. -/
structure InUnits (u : ℝ) (p p' : Arr (Option ℝ)) : Prop where
  rows : p'.rows = p.rows
  cols : p'.cols = p.cols
  val : ∀ i j, i < p.rows → j < p.cols → p'.val i j = (p.val i j).map (u * ·)

/-- The power of the length in the unit of a parameter: heights are lengths, the skew, the kurtosis and the developed area ratio are numbers, a curvature is one over a length and a density of summits one over an area. -/
def lengthPower : Param → ℤ
  | .sq | .sa | .sv | .sz => 1
  | .ssk | .sku | .sdr | .unknown => 0
  | .ssc => -1
  | .sds => -2

/-- A result multiplied by a number. -/
noncomputable def Out.times (k : ℝ) : Out → Out
  | .num v => .num (v.map (k * ·))
  | .arr l => .arr (l.map (Option.map (k * ·)))

/-! ## Lists -/

theorem mapM_map (k : ℝ) (l : List (Option ℝ)) : (l.map (Option.map (k * ·))).mapM id = (l.mapM id).map (List.map (k * ·)) := by
  induction l with
  | nil => rfl
  | cons a l ih =>
    rw [List.map_cons, List.mapM_cons, List.mapM_cons, ih]
    cases a with
    | none => rfl
    | some a => cases l.mapM id <;> rfl

theorem sum_times (k : ℝ) (l : List ℝ) : (l.map (k * ·)).sum = k * l.sum := by
  induction l with
  | nil => simp
  | cons a l ih => rw [List.map_cons, List.sum_cons, List.sum_cons, ih]; ring

theorem mean_times (k : ℝ) (l : List (Option ℝ)) : mean (l.map (Option.map (k * ·))) = (mean l).map (k * ·) := by
  unfold mean
  rw [mapM_map]
  cases l.mapM id with
  | none => rfl
  | some v =>
    simp only [Option.map_some]
    by_cases h : v = []
    · subst h; simp
    · rw [if_neg (by simpa using h), if_neg h, sum_times, List.length_map, Option.map_some, mul_div_assoc]

theorem power_times (k : ℝ) (l : List (Option ℝ)) (n : ℕ) : power (l.map (Option.map (k * ·))) n = (power l n).map (Option.map (k ^ n * ·)) := by
  simp only [power, List.map_map]
  refine List.map_congr_left fun a _ => ?_
  cases a <;> simp [mul_pow]

theorem sq_times {k : ℝ} (hk : 0 < k) (l : List (Option ℝ)) : sq (l.map (Option.map (k * ·))) = (sq l).map (k * ·) := by
  unfold sq
  rw [power_times, mean_times, Option.map_map, Option.map_map]
  congr 1
  funext v
  simp only [Function.comp_apply]
  rw [Real.sqrt_mul (sq_nonneg k), Real.sqrt_sq hk.le]

theorem sa_times {k : ℝ} (hk : 0 < k) (l : List (Option ℝ)) : sa (l.map (Option.map (k * ·))) = (sa l).map (k * ·) := by
  unfold sa
  rw [← mean_times, List.map_map, List.map_map]
  congr 1
  refine List.map_congr_left fun a _ => ?_
  cases a <;> simp [abs_mul, abs_of_pos hk]

theorem ssk_times {k : ℝ} (hk : 0 < k) (l : List (Option ℝ)) : ssk (l.map (Option.map (k * ·))) = ssk l := by
  unfold ssk
  rw [power_times, mean_times, sq_times hk]
  cases mean (power l 3) with
  | none => rfl
  | some m =>
    cases sq l with
    | none => rfl
    | some s =>
      simp only [Option.map_some]
      by_cases h : s = 0
      · subst h; simp
      · rw [if_neg (mul_ne_zero hk.ne' h), if_neg h, mul_pow, mul_div_mul_left _ _ (by positivity)]

theorem sku_times {k : ℝ} (hk : 0 < k) (l : List (Option ℝ)) : sku (l.map (Option.map (k * ·))) = sku l := by
  unfold sku
  rw [power_times, mean_times, sq_times hk]
  cases mean (power l 4) with
  | none => rfl
  | some m =>
    cases sq l with
    | none => rfl
    | some s =>
      simp only [Option.map_some]
      by_cases h : s = 0
      · subst h; simp
      · rw [if_neg (mul_ne_zero hk.ne' h), if_neg h, mul_pow, mul_div_mul_left _ _ (by positivity)]

theorem foldl_min_times {k : ℝ} (hk : 0 < k) (l : List ℝ) (v : ℝ) : (l.map (k * ·)).foldl min (k * v) = k * l.foldl min v := by
  induction l generalizing v with
  | nil => rfl
  | cons a l ih => rw [List.map_cons, List.foldl_cons, List.foldl_cons, ← mul_min_of_nonneg _ _ hk.le, ih]

theorem least_times {k : ℝ} (hk : 0 < k) (l : List (Option ℝ)) : least (l.map (Option.map (k * ·))) = (least l).map (Option.map (k * ·)) := by
  unfold least
  by_cases h : l = []
  · subst h; rfl
  · rw [if_neg (by simpa using h), if_neg h, mapM_map]
    cases l.mapM id with
    | none => rfl
    | some v =>
      cases v with
      | nil => rfl
      | cons v vs =>
        simp only [Option.map_some, List.map_cons, foldl_min_times hk]
        rfl

theorem sortNan_times {k : ℝ} (hk : 0 < k) (l : List (Option ℝ)) : sortNan (l.map (Option.map (k * ·))) = (sortNan l).map (Option.map (k * ·)) := by
  unfold sortNan
  have h1 : (l.map (Option.map (k * ·))).filterMap id = (l.filterMap id).map (k * ·) := by
    rw [List.filterMap_map, List.map_filterMap]
    rfl
  have h2 : (l.map (Option.map (k * ·))).filter (fun h => h.isNone) = (l.filter (fun h => h.isNone)).map (Option.map (k * ·)) := by
    rw [List.filter_map]
    congr 1
    refine List.filter_congr fun a _ => ?_
    cases a <;> rfl
  rw [h1, h2, ← List.map_insertionSort (· ≤ ·) (· ≤ ·) (k * ·) _ (fun a _ b _ => (mul_le_mul_iff_of_pos_left hk).symm), List.map_append, List.map_map, List.map_map]
  rfl

theorem ten_times {k : ℝ} (hk : 0 < k) (v s : List (Option ℝ)) : ten (v.map (Option.map (k * ·))) (s.map (Option.map (k * ·))) = (ten v s).map (List.map (Option.map (k * ·))) := by
  unfold ten
  simp only [sortNan_times hk, List.length_map, ← List.map_take, ← List.map_drop]
  generalize (sortNan v).take 5 = a
  generalize (sortNan s).drop ((sortNan s).length - 5) = b
  have hf : ∀ x y : Option ℝ, (do let x ← x.map (k * ·); let y ← y.map (k * ·); some (|x| + |y| / 5)) = (do let x ← x; let y ← y; some (|x| + |y| / 5) : Option ℝ).map (k * ·) := by
    intro x y
    cases x with
    | none => rfl
    | some x =>
      cases y with
      | none => rfl
      | some y => simp [abs_mul, abs_of_pos hk]; ring
  unfold broadcast
  simp only [List.length_map]
  by_cases h : a.length = b.length
  · rw [if_pos h, if_pos h]
    show Except.ok _ = Except.ok _
    rw [List.zipWith_map, List.map_zipWith]
    simp only [hf]
  · rw [if_neg h, if_neg h]
    match a, b, h with
    | [], [], h => simp at h
    | [], [y], h => rfl
    | [], y :: z :: b, h => rfl
    | [x], [], h => rfl
    | [x], [y], h => simp at h
    | [x], y :: z :: b, h =>
      show Except.ok _ = Except.ok _
      rw [List.map_map, List.map_map]
      exact congrArg _ (List.map_congr_left fun y _ => hf x y)
    | x :: w :: a, [], h => rfl
    | x :: w :: a, [y], h =>
      show Except.ok _ = Except.ok _
      rw [← List.map_cons (f := Option.map (k * ·)), List.map_map, List.map_map]
      exact congrArg _ (List.map_congr_left fun x _ => hf x y)
    | x :: w :: a, y :: z :: b, h => rfl

/-! ## Surfaces -/

theorem values_units {u : ℝ} {p p' : Arr (Option ℝ)} (h : InUnits u p p') {l : List (ℕ × ℕ)} (hl : ∀ q ∈ l, q.1 < p.rows ∧ q.2 < p.cols) : valuesAt p' l = (valuesAt p l).map (Option.map (u * ·)) := by
  unfold valuesAt
  rw [List.map_map]
  exact List.map_congr_left fun q hq => h.val q.1 q.2 (hl q hq).1 (hl q hq).2

theorem selected_in {r c : ℕ} {m : Option (Arr Bool)} : ∀ q ∈ selected r c m, q.1 < r ∧ q.2 < c := by
  rintro ⟨i, j⟩ hq
  have := (mem_selected _ _ _ i j).1 hq
  exact ⟨this.1, this.2.1⟩

theorem over_units {u : ℝ} {p p' : Arr (Option ℝ)} (h : InUnits u p p') (m : Option (Arr Bool)) : InUnits u (over p m) (over p' m) := by
  cases m with
  | none => exact h
  | some m =>
    refine ⟨h.rows, h.cols, fun i j hi hj => ?_⟩
    simp only [over]
    rw [h.val i j hi hj]
    split <;> rfl

theorem neg_units {u : ℝ} {p p' : Arr (Option ℝ)} (h : InUnits u p p') : InUnits u (neg p) (neg p') := by
  refine ⟨h.rows, h.cols, fun i j hi hj => ?_⟩
  simp only [neg]
  rw [h.val i j hi hj, Option.map_map, Option.map_map]
  congr 1
  funext v
  simp only [Function.comp_apply]
  ring

theorem lower_times {k : ℝ} (hk : 0 < k) (a b : Option ℝ) : Lower (a.map (k * ·)) (b.map (k * ·)) ↔ Lower a b := by
  cases a <;> cases b <;> simp [Lower, hk]

theorem marks_units {u : ℝ} (hu : 0 < u) {f f' : Arr (Option ℝ)} (h : InUnits u f f') (four : Bool) : marks f' four = marks f four := by
  unfold marks
  have hr : (markSummits f' four).rows = (markSummits f four).rows := by simp only [markSummits, h.rows]
  have hc : (markSummits f' four).cols = (markSummits f four).cols := by simp only [markSummits, h.cols]
  rw [hr, hc]
  unfold selected
  refine List.filter_congr fun q _ => ?_
  show (markSummits f' four).val q.1 q.2 = (markSummits f four).val q.1 q.2
  rw [Bool.eq_iff_iff, mark_iff, mark_iff]
  unfold IsSummit
  rw [h.rows, h.cols]
  refine and_congr_right fun _ => and_congr_right fun h1 => and_congr_right fun _ => and_congr_right fun h2 => forall_congr' fun k => forall_congr' fun l => forall_congr' fun hn => ?_
  obtain ⟨e1, e2⟩ := next_in hn h1 h2
  rw [h.val k l e1 e2, h.val q.1 q.2 (by omega) (by omega), lower_times hu]

theorem curvature_units {u : ℝ} (hu : 0 < u) {f f' : Arr (Option ℝ)} (h : InUnits u f f') {four : Bool} (gs : ℝ) {q : ℕ × ℕ} (hq : q ∈ marks f four) : curvature f' (u * gs) q = (curvature f gs q).map (u⁻¹ * ·) := by
  obtain ⟨h1, h2, h3, h4, -⟩ := (mem_marks _ _ _).1 hq
  unfold curvature
  rw [h.val _ _ (by omega) (by omega), h.val _ _ h2 (by omega), h.val _ _ (by omega) (by omega), h.val _ _ (by omega) h4, h.val q.1 q.2 (by omega) (by omega)]
  cases f.val (q.1 - 1) q.2 <;> cases f.val (q.1 + 1) q.2 <;> cases f.val q.1 (q.2 - 1) <;> cases f.val q.1 (q.2 + 1) <;> cases f.val q.1 q.2 <;> try rfl
  rename_i a b c d e
  simp only [Option.map_some, Option.bind_eq_bind, Option.bind_some]
  refine congrArg some ?_
  rw [mul_pow]
  by_cases hg : gs = 0
  · simp [hg]
  · field_simp

theorem cell_units {u : ℝ} (hu : 0 < u) (g a b c d : ℝ) : cellArea ((u * g) ^ 2) (u * a) (u * b) (u * c) (u * d) = u ^ 2 * cellArea (g ^ 2) a b c d := by
  have key : ∀ x y : ℝ, Real.sqrt ((u * g) ^ 2 + (u * x - u * y) ^ 2) = u * Real.sqrt (g ^ 2 + (x - y) ^ 2) := by
    intro x y
    rw [show (u * g) ^ 2 + (u * x - u * y) ^ 2 = u ^ 2 * (g ^ 2 + (x - y) ^ 2) by ring, Real.sqrt_mul (sq_nonneg u), Real.sqrt_sq hu.le]
  unfold cellArea
  rw [key, key, key, key]
  ring

theorem sdr_units {u : ℝ} (hu : 0 < u) {p p' : Arr (Option ℝ)} (h : InUnits u p p') (gs : ℝ) :
    sdr p'.rows p'.cols (fun i j => (p'.val i j).getD 0) (u * gs) = sdr p.rows p.cols (fun i j => (p.val i j).getD 0) gs := by
  have hv : ∀ i j, i < p.rows → j < p.cols → (p'.val i j).getD 0 = u * (p.val i j).getD 0 := by
    intro i j hi hj
    rw [h.val i j hi hj]
    cases p.val i j <;> simp
  unfold sdr
  rw [h.rows, h.cols]
  have hs : (((List.range (p.rows - 1)).product (List.range (p.cols - 1))).map fun q => cellArea ((u * gs) ^ 2) ((p'.val q.1 q.2).getD 0) ((p'.val q.1 (q.2 + 1)).getD 0) ((p'.val (q.1 + 1) q.2).getD 0) ((p'.val (q.1 + 1) (q.2 + 1)).getD 0)).sum =
      u ^ 2 * (((List.range (p.rows - 1)).product (List.range (p.cols - 1))).map fun q => cellArea (gs ^ 2) ((p.val q.1 q.2).getD 0) ((p.val q.1 (q.2 + 1)).getD 0) ((p.val (q.1 + 1) q.2).getD 0) ((p.val (q.1 + 1) (q.2 + 1)).getD 0)).sum := by
    rw [← sum_times, List.map_map]
    refine congrArg List.sum (List.map_congr_left ?_)
    rintro ⟨i, j⟩ hq
    have hq := List.mem_product.1 hq
    have h1 := List.mem_range.1 hq.1
    have h2 := List.mem_range.1 hq.2
    simp only [Function.comp_apply]
    rw [hv i j (by omega) (by omega), hv i (j + 1) (by omega) (by omega), hv (i + 1) j (by omega) (by omega), hv (i + 1) (j + 1) (by omega) (by omega), cell_units hu]
  simp only [hs]
  generalize (((List.range (p.rows - 1)).product (List.range (p.cols - 1))).map fun q => cellArea (gs ^ 2) ((p.val q.1 q.2).getD 0) ((p.val q.1 (q.2 + 1)).getD 0) ((p.val (q.1 + 1) q.2).getD 0) ((p.val (q.1 + 1) (q.2 + 1)).getD 0)).sum = A
  by_cases h0 : p.rows - 1 = 0 ∨ p.cols - 1 = 0
  · rw [if_pos h0, if_pos h0]
  · rw [if_neg h0, if_neg h0]
    by_cases hA : A = 0
    · rw [if_pos hA, if_pos (by rw [hA, mul_zero])]
    · rw [if_neg hA, if_neg (mul_ne_zero (by positivity) hA)]
      refine congrArg (fun x => Except.ok (some x)) ?_
      field_simp

theorem single_units {u : ℝ} (hu : 0 < u) {p p' : Arr (Option ℝ)} (h : InUnits u p p') {m : Option (Arr Bool)} (hs : ∀ a, m = some a → a.rows = p.rows ∧ a.cols = p.cols) (gs : Option ℝ) (four : Bool) (name : Param) :
    (single ⟨gs.map (u * ·), four, none⟩ p' m name).1 = (single ⟨gs, four, none⟩ p m name).1.map (Out.times (if name = .sds then 1 else u ^ lengthPower name)) := by
  have hs' : ∀ a, m = some a → a.rows = p'.rows ∧ a.cols = p'.cols := by rw [h.rows, h.cols]; exact hs
  have hv : valuesAt p' (selected p'.rows p'.cols m) = (valuesAt p (selected p.rows p.cols m)).map (Option.map (u * ·)) := by
    rw [h.rows, h.cols]
    exact values_units h selected_in
  have ho := over_units h m
  have hmk := marks_units hu ho four
  have one : ∀ v : Option ℝ, v.map (fun x => 1 * x) = v := by intro v; cases v <;> simp
  cases name with
  | sq => simp [single, hv, sq_times hu, lengthPower, Except.map, Out.times]
  | sa => simp [single, hv, sa_times hu, lengthPower, Except.map, Out.times]
  | ssk => simp [single, hv, ssk_times hu, lengthPower, Except.map, Out.times]
  | sku => simp [single, hv, sku_times hu, lengthPower, Except.map, Out.times]
  | sv =>
    simp only [single, hv, least_times hu]
    cases least (valuesAt p (selected p.rows p.cols m)) <;> simp [lengthPower, Except.map, Out.times]
  | unknown => rfl
  | sdr =>
    simp only [single, hv]
    cases gs with
    | none => rfl
    | some gs =>
      simp only [Option.map_some, reduceCtorEq, if_false]
      by_cases e : m.isSome = true
      · rw [if_pos e, if_pos e]
        rfl
      · rw [if_neg e, if_neg e, mapM_map]
        cases (valuesAt p (selected p.rows p.cols m)).mapM id with
        | none => simp [Except.map, Out.times]
        | some l =>
          simp only [Option.map_some, sdr_units hu h]
          cases sdr p.rows p.cols (fun i j => (p.val i j).getD 0) gs <;> simp [lengthPower, Except.map, Out.times]
  | sds =>
    simp only [single]
    rw [find_eq p m four hs, find_eq p' m four hs']
    simp only [if_true]
    have e1 : (marks (over p' m) four).length = (marks (over p m) four).length := by rw [hmk]
    unfold marks at e1
    rw [hv]
    simp only [e1, List.length_map, List.map_eq_nil_iff, Except.map, Out.times, one]
  | sz =>
    simp only [single]
    rw [find_eq p m four hs, find_eq p' m four hs']
    simp only
    have q1 := over_shape p m
    have q2 := over_shape p' m
    have f1 := find_eq (neg (over p m)) m four (by intro a ha; change _ = (over p m).rows ∧ _ = (over p m).cols; rw [q1.1, q1.2]; exact hs a ha)
    have f2 := find_eq (neg (over p' m)) m four (by intro a ha; change _ = (over p' m).rows ∧ _ = (over p' m).cols; rw [q2.1, q2.2]; exact hs' a ha)
    unfold neg at f1 f2
    rw [f1, f2]
    simp only
    have hmn := marks_units hu (over_units (neg_units ho) m) four
    have r1 := over_shape (neg (over p m)) m
    have w1 : valuesAt (over p' m) (marks (over p' m) four) = (valuesAt (over p m) (marks (over p m) four)).map (Option.map (u * ·)) := by
      rw [hmk]
      exact values_units ho fun q hq => marks_in hq
    have w2 : valuesAt (over p' m) (marks (over (neg (over p' m)) m) four) = (valuesAt (over p m) (marks (over (neg (over p m)) m) four)).map (Option.map (u * ·)) := by
      rw [hmn]
      refine values_units ho fun q hq => ?_
      have := marks_in hq
      rw [r1.1, r1.2] at this
      exact this
    unfold marks neg at w2
    unfold marks at w1
    rw [w1, w2, ten_times hu]
    generalize ten _ _ = r
    cases r <;> simp [lengthPower, Except.map, Out.times]
  | ssc =>
    simp only [single]
    rw [find_eq p m four hs, find_eq p' m four hs']
    cases gs with
    | none => rfl
    | some gs =>
      simp only [Option.map_some]
      have w : (marks (over p' m) four).map (curvature (over p' m) (u * gs)) = ((marks (over p m) four).map (curvature (over p m) gs)).map (Option.map (u⁻¹ * ·)) := by
        rw [hmk, List.map_map]
        exact List.map_congr_left fun q hq => curvature_units hu ho gs hq
      unfold marks at w
      rw [w, mean_times]
      simp [lengthPower, Except.map, Out.times]

/-! ## Flattening -/

theorem flatten_units {lstsq : List (List ℝ) → List (Option ℝ) → Option (List ℝ)} (hl : LeastSquares lstsq) {u : ℝ} (hu : 0 < u) {p p' : Arr (Option ℝ)} (h : InUnits u p p') {m : Option (Arr Bool)} (hs : ∀ a, m = some a → a.rows = p.rows ∧ a.cols = p.cols)
    (hnum : ∀ i j, i < p.rows → j < p.cols → used m i j = true → p.val i j ≠ none) {curved : Bool} {eta eta' : Arr (Option ℝ)} (e : flatten lstsq p m curved false = .ok eta) (e' : flatten lstsq p' m curved false = .ok eta') : InUnits u eta eta' := by
  have hs' : ∀ a, m = some a → a.rows = p'.rows ∧ a.cols = p'.cols := by rw [h.rows, h.cols]; exact hs
  obtain ⟨co, f⟩ := flatten_call e
  obtain ⟨co', f'⟩ := flatten_call e'
  generalize (if curved then 2 else 1) = n at f f'
  obtain ⟨k1, k2, k3⟩ := subtract_keeps hs f
  obtain ⟨k1', k2', k3'⟩ := subtract_keeps hs' f'
  refine ⟨by rw [k1', k1, h.rows], by rw [k2', k2, h.cols], ?_⟩
  rw [k1, k2]
  intro i j hi hj
  by_cases hused : used m i j = true
  · have hmem := (mem_selected p.rows p.cols m i j).2 ⟨hi, hj, hused⟩
    have hh : ∀ i j, i < p.rows → j < p.cols → used m i j = true → p.val i j = some ((p.val i j).getD 0) := by
      intro i j a b c
      cases hv : p.val i j with
      | none => exact absurd hv (hnum i j a b c)
      | some v => rfl
    have hh' : ∀ i j, i < p'.rows → j < p'.cols → used m i j = true → p'.val i j = some (u * (p.val i j).getD 0) := by
      intro i j a b c
      rw [h.rows] at a
      rw [h.cols] at b
      rw [h.val i j a b, hh i j a b c]
      rfl
    obtain ⟨-, -, c, a1, -, a2⟩ := call_fit hl (polyMask_toMask hs) f hh (List.ne_nil_of_mem hmem)
    obtain ⟨-, -, c', b1, -, b2⟩ := call_fit hl (polyMask_toMask hs') f' hh' (List.ne_nil_of_mem (by rw [h.rows, h.cols]; exact hmem))
    rw [h.rows, h.cols] at b1 b2
    have scale : ∀ (k : ℝ) (d : ℕ → ℕ → ℝ) (x y : ℝ), evalPoly n (fun i j => k * d i j) x y = k * evalPoly n d x y := by
      intro k d x y
      simp only [evalPoly, Finset.mul_sum]
      refine Finset.sum_congr rfl fun _ _ => Finset.sum_congr rfl fun _ _ => ?_
      ring
    have total : ∀ d : ℕ → ℕ → ℝ, ((selected p.rows p.cols m).map fun q => (u * (p.val q.1 q.2).getD 0 - u * evalPoly n d q.2 q.1) ^ 2).sum = u ^ 2 * ((selected p.rows p.cols m).map fun q => ((p.val q.1 q.2).getD 0 - evalPoly n d q.2 q.1) ^ 2).sum := by
      intro d
      rw [← sum_times, List.map_map]
      refine congrArg List.sum (List.map_congr_left fun q _ => ?_)
      simp only [Function.comp_apply]
      ring
    have best : ∀ d : ℕ → ℕ → ℝ, ((selected p.rows p.cols m).map fun q => (u * (p.val q.1 q.2).getD 0 - evalPoly n (fun i j => u * c i j) q.2 q.1) ^ 2).sum ≤ ((selected p.rows p.cols m).map fun q => (u * (p.val q.1 q.2).getD 0 - evalPoly n d q.2 q.1) ^ 2).sum := by
      intro d
      have e1 := total c
      have e2 := total fun i j => u⁻¹ * d i j
      simp only [scale] at e2 ⊢
      simp only [mul_inv_cancel_left₀ hu.ne'] at e2
      rw [e1, e2]
      have := a2 fun i j => u⁻¹ * d i j
      simp only [scale] at this
      exact mul_le_mul_of_nonneg_left this (sq_nonneg u)
    have same := best_unique n _ (fun i j => u * (p.val i j).getD 0) c' _ b2 best hmem
    simp only [scale] at same
    rw [a1 i j hi hj, if_pos hused, b1 i j hi hj, if_pos hused, same, Option.map_some]
    refine congrArg some ?_
    ring
  · have hf : used m i j = false := by simpa using hused
    rw [k3 i j hf, k3' i j hf]
    exact h.val i j hi hj

/-! ## The calls -/

/-- The surface with all heights in another unit. -/
noncomputable def inUnit (u : ℝ) (p : Arr (Option ℝ)) : Arr (Option ℝ) := ⟨p.rows, p.cols, fun i j => (p.val i j).map (u * ·)⟩

theorem inUnit_units (u : ℝ) (p : Arr (Option ℝ)) : InUnits u p (inUnit u p) := ⟨rfl, rfl, fun _ _ _ _ => rfl⟩

/-- The mask does not depend on the unit. -/
theorem maskArray_units (u : ℝ) (p : Arr (Option ℝ)) (k : MaskArg ℝ) : maskArray (inUnit u p) k = maskArray p k := by
  cases k with
  | none => rfl
  | array m => rfl
  | float v =>
    cases v with
    | some v => rfl
    | none => simp [maskArray, inUnit]

theorem call_units {lstsq : List (List ℝ) → List (Option ℝ) → Option (List ℝ)} {u : ℝ} (hu : 0 < u) {p : Arr (Option ℝ)} (k : MaskArg ℝ) (gs : Option ℝ) (four curved noFlat : Bool) (name : Param)
    (hf : noFlat = true ∨ noFlat = false ∧ LeastSquares lstsq ∧ ∀ m, maskArray p k = .ok m → (∀ i j, i < p.rows → j < p.cols → used m i j = true → p.val i j ≠ none) ∧ (∃ eta, flatten lstsq p m curved false = .ok eta) ∧ ∃ eta, flatten lstsq (inUnit u p) m curved false = .ok eta) :
    roughness lstsq ⟨gs.map (u * ·), four, none⟩ (inUnit u p) k curved noFlat name = (roughness lstsq ⟨gs, four, none⟩ p k curved noFlat name).map (Out.times (if name = .sds then 1 else u ^ lengthPower name)) := by
  unfold roughness
  rw [maskArray_units]
  cases hm : maskArray p k with
  | error e => rfl
  | ok m =>
    have hs := mask_shape hm
    rcases hf with rfl | ⟨rfl, hl, hf⟩
    · simp only [flatten, if_true]
      exact single_units hu (inUnit_units u p) hs gs four name
    · obtain ⟨hnum, ⟨eta, e⟩, eta', e'⟩ := hf m hm
      simp only [e, e']
      obtain ⟨co, f⟩ := flatten_call e
      obtain ⟨k1, k2, -⟩ := subtract_keeps hs f
      exact single_units hu (flatten_units hl hu (inUnit_units u p) hs hnum e e') (by rw [k1, k2]; exact hs) gs four name

/-- **C171, all parameters but the density of summits, without flattening.** If the heights and the grid spacing of a surface are given in another unit, the result is the result in the first unit times the power of the unit that belongs to the parameter: heights (sq, sa, sv and the
entries of sz) as lengths, ssk, sku and sdr not at all, and the mean curvature of summits ssc as one over a length. Where one call fails the other fails with the same exception. Any shape, missing heights, each kind of mask. -/
theorem C171_raw_partial (lstsq : List (List ℝ) → List (Option ℝ) → Option (List ℝ)) {u : ℝ} (hu : 0 < u) (p : Arr (Option ℝ)) (k : MaskArg ℝ) (gs : Option ℝ) (four curved : Bool) (name : Param) (hn : name ≠ .sds) :
    roughness lstsq ⟨gs.map (u * ·), four, none⟩ (inUnit u p) k curved true name = (roughness lstsq ⟨gs, four, none⟩ p k curved true name).map (Out.times (u ^ lengthPower name)) := by
  rw [call_units hu k gs four curved true name (.inl rfl), if_neg hn]

/-- Metres to millimetres, and the curvature of summits. -/
example : (0 : ℝ) < 1000 ∧ Param.ssc ≠ .sds := ⟨by norm_num, by decide⟩

/-- **C171, all parameters but the density of summits, with flattening**, for a least squares routine that finds a fit in both units, and heights used that are numbers. -/
theorem C171_flattened_partial {lstsq : List (List ℝ) → List (Option ℝ) → Option (List ℝ)} (hl : LeastSquares lstsq) {u : ℝ} (hu : 0 < u) {p eta eta' : Arr (Option ℝ)} {k : MaskArg ℝ} {m : Option (Arr Bool)} (hm : maskArray p k = .ok m) {curved : Bool}
    (hnum : ∀ i j, i < p.rows → j < p.cols → used m i j = true → p.val i j ≠ none) (e : flatten lstsq p m curved false = .ok eta) (e' : flatten lstsq (inUnit u p) m curved false = .ok eta') (gs : Option ℝ) (four : Bool) (name : Param) (hn : name ≠ .sds) :
    roughness lstsq ⟨gs.map (u * ·), four, none⟩ (inUnit u p) k curved false name = (roughness lstsq ⟨gs, four, none⟩ p k curved false name).map (Out.times (u ^ lengthPower name)) := by
  rw [call_units hu k gs four curved false name (.inr ⟨rfl, hl, fun m' h => by rw [hm] at h; cases h; exact ⟨hnum, ⟨eta, e⟩, eta', e'⟩⟩), if_neg hn]

/-- The peak in another unit has a fit as well. -/
theorem peak_unit_fit (u : ℝ) : ∃ eta, flatten bestFit (inUnit u peak) (some lastColumn) false false = .ok eta := by
  refine flatten_exact ⟨rfl, rfl⟩ (fun _ _ => 0) fun i j _ _ hj => ?_
  have hj : j = 3 := by simpa [lastColumn] using hj
  subst hj
  simp [inUnit, peak, evalPoly]

/-- The hypotheses can be met: a peak beside the column used. -/
example : LeastSquares bestFit ∧ maskArray peak (.array lastColumn) = .ok (some lastColumn) ∧ (∀ i j, peak.val i j ≠ none) ∧ (∃ eta, flatten bestFit peak (some lastColumn) false false = .ok eta) ∧ ∃ eta, flatten bestFit (inUnit 1000 peak) (some lastColumn) false false = .ok eta :=
  ⟨bestFit_leastSquares, rfl, fun i j => by simp [peak], peak_fit, peak_unit_fit 1000⟩

/-- **C171 is false for the density of summits.** The density is the number of summits for each point, not for each unit of area, so that it does not change with the unit: the density of the same surface is a third in metres and in millimetres, where a density for each unit of area
would be a million times smaller. -/
theorem C171_density_wrong :
    (∀ (lstsq : List (List ℝ) → List (Option ℝ) → Option (List ℝ)) (u : ℝ), 0 < u → ∀ (p : Arr (Option ℝ)) (k : MaskArg ℝ) (gs : Option ℝ) (four curved : Bool), roughness lstsq ⟨gs.map (u * ·), four, none⟩ (inUnit u p) k curved true .sds = roughness lstsq ⟨gs, four, none⟩ p k curved true .sds) ∧
    ∀ gs four, roughness bestFit ⟨some (1000 * gs), four, none⟩ (inUnit 1000 peak) (.array lastColumn) false false .sds ≠ (roughness bestFit ⟨some gs, four, none⟩ peak (.array lastColumn) false false .sds).map (Out.times (1000 ^ lengthPower .sds)) := by
  have one : ∀ r : Except PyErr Out, r.map (Out.times 1) = r := by
    intro r
    cases r with
    | error e => rfl
    | ok o =>
      refine congrArg Except.ok ?_
      cases o with
      | num v => cases v <;> simp [Out.times]
      | arr l =>
        simp only [Out.times, one_mul]
        rw [show (Option.map fun x : ℝ => x) = id from Option.map_id, List.map_id]
  refine ⟨fun lstsq u hu p k gs four curved => ?_, fun gs four => ?_⟩
  · rw [call_units hu k gs four curved true .sds (.inl rfl), if_pos rfl, one]
  · have h := call_units (lstsq := bestFit) (u := 1000) (by norm_num) (p := peak) (.array lastColumn) (some gs) four false false .sds
      (.inr ⟨rfl, bestFit_leastSquares, fun m hm => by
        have hm : m = some lastColumn := by
          have : maskArray peak (.array lastColumn) = .ok (some lastColumn) := rfl
          rw [this] at hm
          cases hm
          rfl
        subst hm
        exact ⟨fun i j _ _ _ => by simp [peak], peak_fit, peak_unit_fit 1000⟩⟩)
    rw [if_pos rfl, one, (C170_summits_wrong (some gs) four).2.1] at h
    rw [show some (1000 * gs) = Option.map (1000 * ·) (some gs) from rfl, h, (C170_summits_wrong (some gs) four).2.1]
    intro e
    simp only [Except.map, Out.times, Except.ok.injEq, Out.num.injEq, Option.map_some, Option.some.injEq, lengthPower] at e
    norm_num at e

end Verif.Rough
