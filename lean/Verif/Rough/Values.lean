import Mathlib.Tactic.FieldSimp
import Verif.Rough.Props

/-!
# C48, C73, C74: values of the parameters of summits and valleys, and of the void ratio
-/

namespace Verif.Rough

/-- All heights are the numbers `r`. -/
def Heights (p : Arr (Option ℝ)) (r : ℕ → ℕ → ℝ) : Prop := ∀ i j, i < p.rows → j < p.cols → p.val i j = some (r i j)

theorem mapM_some_map {α : Type} (l : List (ℕ × ℕ)) (f : ℕ × ℕ → Option α) (g : ℕ × ℕ → α) (h : ∀ q ∈ l, f q = some (g q)) : (l.map f).mapM id = some (l.map g) := by
  rw [List.map_congr_left h, ← mapM_some (l.map g), List.map_map]
  rfl

theorem selected_none {rows cols : ℕ} {q : ℕ × ℕ} : q ∈ selected rows cols Option.none ↔ q.1 < rows ∧ q.2 < cols := by
  rcases q with ⟨i, j⟩
  rw [mem_selected]
  simp [used]

theorem selected_length (rows cols : ℕ) : (selected rows cols Option.none).length = rows * cols := by
  have h : (selected rows cols Option.none) = (List.range rows).product (List.range cols) := by simp [selected, used]
  rw [h]
  exact (List.length_product _ _).trans (by rw [List.length_range, List.length_range])

theorem selected_nodup (rows cols : ℕ) (m : Option (Arr Bool)) : (selected rows cols m).Nodup := by
  unfold selected
  exact (List.Nodup.product List.nodup_range List.nodup_range).filter _

/-- C48, sv. Without a mask and flattening, sv is the least height. -/
theorem C48_sv (lstsq : List (List ℝ) → List (Option ℝ) → Option (List ℝ)) (st : Settings) {p : Arr (Option ℝ)} {r : ℕ → ℕ → ℝ} (hp : Heights p r) (hr : 0 < p.rows) (hc : 0 < p.cols)
    (curved : Bool) : ∃ v, roughness lstsq st p .none curved true .sv = .ok (.num (some v)) ∧ (∃ i j, i < p.rows ∧ j < p.cols ∧ v = r i j) ∧ ∀ i j, i < p.rows → j < p.cols → v ≤ r i j := by
  have hm : (valuesAt p (selected p.rows p.cols Option.none)).mapM id = some ((selected p.rows p.cols Option.none).map fun q => r q.1 q.2) :=
    mapM_some_map _ (fun q => p.val q.1 q.2) _ fun q hq => hp q.1 q.2 (selected_none.mp hq).1 (selected_none.mp hq).2
  have h00 : ((0, 0) : ℕ × ℕ) ∈ selected p.rows p.cols Option.none := selected_none.mpr ⟨hr, hc⟩
  have hne : valuesAt p (selected p.rows p.cols Option.none) ≠ [] := by
    intro h
    rw [valuesAt, List.map_eq_nil_iff] at h
    rw [h] at h00
    cases h00
  have hroot : roughness lstsq st p .none curved true .sv = (least (valuesAt p (selected p.rows p.cols Option.none))).map .num := rfl
  rw [hroot]
  cases hl : (selected p.rows p.cols Option.none).map fun q => r q.1 q.2 with
  | nil =>
    rw [List.map_eq_nil_iff] at hl
    rw [hl] at h00
    cases h00
  | cons v vs =>
    rw [hl] at hm
    have hleast : least (valuesAt p (selected p.rows p.cols Option.none)) = .ok (some (vs.foldl min v)) := by
      unfold least
      rw [if_neg hne, hm]
    rw [hleast]
    refine ⟨vs.foldl min v, rfl, ?_, fun i j hi hj => ?_⟩
    · have hmem : ∀ (vs : List ℝ) (v : ℝ), vs.foldl min v ∈ v :: vs := by
        intro vs
        induction vs with
        | nil => simp
        | cons a vs ih =>
          intro v
          have := ih (min v a)
          rw [List.foldl_cons]
          rcases List.mem_cons.mp this with h | h
          · rcases min_choice v a with h' | h' <;> rw [h, h'] <;> simp
          · simp [h]
      have := hmem vs v
      rw [← hl, List.mem_map] at this
      obtain ⟨q, hq, he⟩ := this
      exact ⟨q.1, q.2, (selected_none.mp hq).1, (selected_none.mp hq).2, he.symm⟩
    · have : r i j ∈ v :: vs := by
        rw [← hl, List.mem_map]
        exact ⟨(i, j), selected_none.mpr ⟨hi, hj⟩, rfl⟩
      rcases List.mem_cons.mp this with h | h
      · rw [h]; exact (foldl_min_le vs v).1
      · exact (foldl_min_le vs v).2 _ h

example : Heights ⟨2, 2, fun i j => some ((i : ℝ) - j)⟩ (fun i j => (i : ℝ) - j) := fun _ _ _ _ => rfl

/-- The summits of a profile, as a list. -/
def SummitList (p : Arr (Option ℝ)) (four : Bool) (l : List (ℕ × ℕ)) : Prop := l.Nodup ∧ ∀ q, q ∈ l ↔ IsSummit p four q.1 q.2

theorem summitList {p : Arr (Option ℝ)} {four : Bool} {s : Arr Bool} (h1 : s.rows = p.rows) (h2 : s.cols = p.cols) (h : ∀ i j, s.val i j = true ↔ IsSummit p four i j) :
    SummitList p four (selected s.rows s.cols (some s)) := by
  refine ⟨selected_nodup _ _ _, fun q => ?_⟩
  rcases q with ⟨i, j⟩
  rw [mem_selected, ← h]
  simp only [used]
  constructor
  · exact fun h => h.2.2
  · intro h3
    have := (h i j).mp h3
    unfold IsSummit at this
    exact ⟨by omega, by omega, h3⟩

/-- C48, sds. Without mask, filter and flattening, sds is the number of summits per point. -/
theorem C48_sds (lstsq : List (List ℝ) → List (Option ℝ) → Option (List ℝ)) (gs : Option ℝ) (four : Bool) {p : Arr (Option ℝ)} (hr : 2 ≤ p.rows) (hc : 2 ≤ p.cols) (curved : Bool) :
    ∃ l, SummitList p four l ∧ roughness lstsq ⟨gs, four, Option.none⟩ p .none curved true .sds = .ok (.num (some (l.length / (p.rows * p.cols)))) := by
  obtain ⟨s, hs, s1, s2, hv⟩ := C47_summits p four Option.none hr hc (by simp)
  refine ⟨selected s.rows s.cols (some s), summitList s1 s2 hv, ?_⟩
  have hroot : roughness lstsq ⟨gs, four, Option.none⟩ p .none curved true .sds = (single ⟨gs, four, Option.none⟩ p Option.none .sds).1 := rfl
  have hlen : (valuesAt p (selected p.rows p.cols Option.none)).length = p.rows * p.cols := by rw [valuesAt, List.length_map, selected_length]
  have hne : valuesAt p (selected p.rows p.cols Option.none) ≠ [] := by
    intro h
    rw [h] at hlen
    have : 0 < p.rows * p.cols := by positivity
    rw [← hlen] at this
    simp at this
  rw [hroot]
  simp only [single, toMask, hs]
  rw [if_neg hne, hlen]
  push_cast
  rfl

example := C48_sds (fun _ _ => Option.none) (some 1) true (p := ⟨3, 4, fun i j => some (i * j)⟩) (by norm_num) (by norm_num) false

/-- C48, ssc. On a paraboloid with the curvatures `a` and `b` along the axes the mean summit curvature is `(a + b) / 2`, if there is a summit on the grid. -/
theorem C48_ssc (lstsq : List (List ℝ) → List (Option ℝ) → Option (List ℝ)) {gs : ℝ} (hg : gs ≠ 0) (four : Bool) {p : Arr (Option ℝ)} {a b x y c : ℝ}
    (hp : Heights p fun i j => c - a / 2 * (i * gs - x) ^ 2 - b / 2 * (j * gs - y) ^ 2) (hr : 2 ≤ p.rows) (hc : 2 ≤ p.cols) {i j : ℕ} (hs : IsSummit p four i j) (curved : Bool) :
    roughness lstsq ⟨some gs, four, Option.none⟩ p .none curved true .ssc = .ok (.num (some ((a + b) / 2))) := by
  obtain ⟨s, hs', s1, s2, hv⟩ := C47_summits p four Option.none hr hc (by simp)
  have hlist := summitList s1 s2 hv
  have hroot : roughness lstsq ⟨some gs, four, Option.none⟩ p .none curved true .ssc = (single ⟨some gs, four, Option.none⟩ p Option.none .ssc).1 := rfl
  rw [hroot]
  simp only [single, toMask, hs']
  generalize selected s.rows s.cols (some s) = l at hlist
  have hcur : ∀ q ∈ l, curvature p gs q = some ((a + b) / 2) := by
    rintro ⟨i, j⟩ hq
    have hsum : IsSummit p four i j := (hlist.2 (i, j)).mp hq
    unfold IsSummit at hsum
    unfold curvature
    dsimp only
    rw [hp (i - 1) j (by omega) (by omega), hp (i + 1) j (by omega) (by omega), hp i (j - 1) (by omega) (by omega), hp i (j + 1) (by omega) (by omega), hp i j (by omega) (by omega)]
    simp only [Option.bind_eq_bind, Option.bind_some, Option.some.injEq]
    have hi : ((i - 1 : ℕ) : ℝ) = (i : ℝ) - 1 := by rw [Nat.cast_sub (by omega), Nat.cast_one]
    have hj : ((j - 1 : ℕ) : ℝ) = (j : ℝ) - 1 := by rw [Nat.cast_sub (by omega), Nat.cast_one]
    rw [hi, hj]
    push_cast
    field_simp
    ring
  have hne : l ≠ [] := List.ne_nil_of_mem ((hlist.2 (i, j)).mpr hs)
  have hmean : mean (l.map (curvature p gs)) = some ((a + b) / 2) := by
    have e : l.map (curvature p gs) = (l.map fun _ => (a + b) / 2).map some := by
      rw [List.map_map]
      exact List.map_congr_left hcur
    rw [e, mean_some (by simpa using hne), List.map_const', List.sum_replicate, List.length_replicate, nsmul_eq_mul]
    have : (l.length : ℝ) ≠ 0 := by
      rw [Nat.cast_ne_zero]
      simpa using hne
    congr 1
    field_simp
  rw [hmean]

/-- A paraboloid with its top on the middle of three times three points. -/
example : IsSummit ⟨3, 3, fun i j => some (0 - 2 / 2 * ((i : ℝ) * 1 - 1) ^ 2 - 4 / 2 * ((j : ℝ) * 1 - 1) ^ 2)⟩ true 1 1 := by
  refine ⟨by norm_num, by norm_num, by norm_num, by norm_num, fun k l h => ?_⟩
  refine ⟨_, _, rfl, rfl, ?_⟩
  simp only [Next, if_true, Next4] at h
  have : (k = 1 ∧ (l = 0 ∨ l = 2)) ∨ (l = 1 ∧ (k = 0 ∨ k = 2)) := by omega
  rcases this with ⟨rfl, rfl | rfl⟩ | ⟨rfl, rfl | rfl⟩ <;> norm_num

/-- **C48 is false** for the mean summit curvature without a grid spacing: because of a misspelt name in the list of parameters that need it, `TypeError` is raised; for sdr it is the documented `ValueError`. -/
theorem C48_ssc_spacing_wrong (lstsq : List (List ℝ) → List (Option ℝ) → Option (List ℝ)) (four : Bool) (p : Arr (Option ℝ)) (curved : Bool) :
    roughness lstsq ⟨Option.none, four, Option.none⟩ p .none curved true .ssc = .error .typeError ∧
    roughness lstsq ⟨Option.none, four, Option.none⟩ p .none curved true .sdr = .error .valueError := ⟨rfl, rfl⟩

/-! ## C73: which summits and valleys -/

/-- The five lowest values of a list, in order. -/
def Lowest (l five : List ℝ) : Prop := five.length = 5 ∧ five.Pairwise (· ≤ ·) ∧ ∃ rest, (five ++ rest).Perm l ∧ ∀ x ∈ five, ∀ y ∈ rest, x ≤ y

/-- The five highest values of a list, in order. -/
def Highest (l five : List ℝ) : Prop := five.length = 5 ∧ five.Pairwise (· ≤ ·) ∧ ∃ rest, (five ++ rest).Perm l ∧ ∀ x ∈ five, ∀ y ∈ rest, y ≤ x

theorem sortNan_some (l : List ℝ) : ∃ s : List ℝ, sortNan (l.map some) = s.map some ∧ s.Perm l ∧ s.Pairwise (· ≤ ·) := by
  classical
  refine ⟨l.insertionSort (· ≤ ·), ?_, List.perm_insertionSort _ _, ?_⟩
  · have h1 : (l.map some).filterMap id = l := by
      rw [List.filterMap_map]
      exact List.filterMap_some
    have h2 : (l.map some).filter (fun h => h.isNone) = [] := by
      rw [List.filter_eq_nil_iff]
      simp
    unfold sortNan
    rw [h1, h2, List.append_nil]
  · exact List.pairwise_insertionSort _ l

/-- C73, which points are used (partial: what is done with the heights is wrong, see `C73_entries_wrong`). For at least five summits and valleys, the result is made from the five lowest valleys and the five highest summits. -/
theorem C73_points_partial {v s : List ℝ} (hv : 5 ≤ v.length) (hs : 5 ≤ s.length) :
    ∃ v5 s5, Lowest v v5 ∧ Highest s s5 ∧ ten (v.map some) (s.map some) = .ok ((List.zipWith (fun x y => |x| + |y| / 5) v5 s5).map some) := by
  obtain ⟨v', e1, p1, o1⟩ := sortNan_some v
  obtain ⟨s', e2, p2, o2⟩ := sortNan_some s
  have l1 : v'.length = v.length := p1.length_eq
  have l2 : s'.length = s.length := p2.length_eq
  have hL1 : (v'.take 5).length = 5 := by rw [List.length_take]; omega
  have hL2 : (s'.drop (s'.length - 5)).length = 5 := by rw [List.length_drop]; omega
  refine ⟨v'.take 5, s'.drop (s'.length - 5), ⟨hL1, o1.sublist (List.take_sublist _ _), v'.drop 5, by rwa [List.take_append_drop], ?_⟩,
    ⟨hL2, o2.sublist (List.drop_sublist _ _), s'.take (s'.length - 5), ?_, ?_⟩, ?_⟩
  · rw [← List.take_append_drop 5 v', List.pairwise_append] at o1
    exact o1.2.2
  · exact List.perm_append_comm.trans (by rwa [List.take_append_drop])
  · rw [← List.take_append_drop (s'.length - 5) s', List.pairwise_append] at o2
    exact fun x hx y hy => o2.2.2 y hy x hx
  · unfold ten
    dsimp only
    rw [e1, e2, List.length_map, ← List.map_take, ← List.map_drop]
    unfold broadcast
    rw [if_pos (by rw [List.length_map, List.length_map, hL1, hL2]), List.zipWith_map, List.map_zipWith]
    rfl

example : 5 ≤ [(1 : ℝ), 2, 3, 4, 5, 6].length := by simp

/-- C73, which points are used (partial, as above). Without mask, filter and flattening, the summits are those of the profile and the valleys those points that are summits of the profile turned upside down; the heights are
those of the profile. -/
theorem C73_valleys_partial (lstsq : List (List ℝ) → List (Option ℝ) → Option (List ℝ)) (gs : Option ℝ) (four : Bool) {p : Arr (Option ℝ)} (hr : 2 ≤ p.rows) (hc : 2 ≤ p.cols) (curved : Bool) :
    ∃ v s, SummitList p four s ∧ SummitList ⟨p.rows, p.cols, fun i j => (p.val i j).map fun h => -h⟩ four v ∧
      roughness lstsq ⟨gs, four, Option.none⟩ p .none curved true .sz = (ten (v.map fun q => p.val q.1 q.2) (s.map fun q => p.val q.1 q.2)).map .arr := by
  obtain ⟨s, hs, s1, s2, hsv⟩ := C47_summits p four Option.none hr hc (by simp)
  obtain ⟨w, hw, w1, w2, hwv⟩ := C47_summits (⟨p.rows, p.cols, fun i j => (p.val i j).map fun h => -1 * h⟩ : Arr (Option ℝ)) four Option.none hr hc (by simp)
  refine ⟨selected w.rows w.cols (some w), selected s.rows s.cols (some s), summitList s1 s2 hsv, ?_, ?_⟩
  · have := summitList w1 w2 hwv
    simpa only [Option.map_none, Option.getD_none, neg_one_mul] using this
  · have hroot : roughness lstsq ⟨gs, four, Option.none⟩ p .none curved true .sz = (single ⟨gs, four, Option.none⟩ p Option.none .sz).1 := rfl
    rw [hroot]
    simp only [single, toMask, hs, hw]
    rfl

example : 2 ≤ (⟨3, 3, fun _ _ => some 0⟩ : Arr (Option ℝ)).rows := by norm_num

/-! ## C74: void ratio -/

theorem foldl_max_ge (vs : List ℝ) (v : ℝ) : v ≤ vs.foldl max v ∧ ∀ x ∈ vs, x ≤ vs.foldl max v := by
  induction vs generalizing v with
  | nil => simp
  | cons a l ih =>
    obtain ⟨h1, h2⟩ := ih (max v a)
    refine ⟨(le_max_left _ _).trans h1, fun x hx => ?_⟩
    rcases List.mem_cons.1 hx with rfl | hx
    · exact (le_max_right _ _).trans h1
    · exact h2 x hx

theorem sum_sub (l : List ℝ) (c : ℝ) : (l.map fun x => x - c).sum = l.sum - l.length * c := by
  induction l with
  | nil => simp
  | cons a l ih =>
    simp only [List.map_cons, List.sum_cons, List.length_cons, ih]
    push_cast
    ring

theorem sum_lt {l : List ℝ} {m : ℝ} (h : ∀ x ∈ l, x ≤ m) (hne : ∃ x ∈ l, x ≠ m) : l.sum < l.length * m := by
  have h1 : ∀ x ∈ l.map (fun x => m - x), 0 ≤ x := by
    intro x hx
    obtain ⟨y, hy, rfl⟩ := List.mem_map.mp hx
    exact sub_nonneg.2 (h y hy)
  obtain ⟨x, hx, hxm⟩ := hne
  have h2 := List.single_le_sum h1 _ (List.mem_map_of_mem (f := fun x => m - x) hx)
  have h3 : 0 < m - x := sub_pos.2 (lt_of_le_of_ne (h x hx) hxm)
  have h4 : (l.map fun x => m - x).sum = l.length * m - l.sum := by
    clear h h1 h2 hx
    induction l with
    | nil => simp
    | cons a l ih =>
      simp only [List.map_cons, List.sum_cons, List.length_cons, ih]
      push_cast
      ring
  linarith

/-- C74, void ratio (partial, missing: heights between the lowest and the highest point). There is no void below a height that is below all points, and all of the void is below the highest point. -/
theorem C74_void_partial (v : ℝ) (vs : List ℝ) (hne : ∃ x ∈ v :: vs, x ≠ vs.foldl max v) :
    (∀ height, (∀ x ∈ v :: vs, height < x) → matVr height (v :: vs) true = .ok (List.replicate (v :: vs).length (some 0))) ∧
    matVr (vs.foldl max v) (v :: vs) true = .ok (List.replicate (v :: vs).length (some 1)) := by
  have hmax : ∀ x ∈ v :: vs, x ≤ vs.foldl max v := by
    intro x hx
    rcases List.mem_cons.1 hx with rfl | hx
    · exact (foldl_max_ge vs x).1
    · exact (foldl_max_ge vs v).2 x hx
  have hlt := sum_lt hmax hne
  generalize hl : v :: vs = l at *
  have htot : (l.length : ℝ) * (vs.foldl max v - vs.foldl min v) - (l.map fun x => x - vs.foldl min v).sum = l.length * vs.foldl max v - l.sum := by
    rw [sum_sub]; ring
  constructor
  · intro height hh
    rw [← hl]
    unfold matVr
    simp only [if_true, hl, List.map_map, Except.ok.injEq, htot]
    rw [← List.map_const']
    apply List.map_congr_left
    intro x hx
    simp only [Function.comp_apply, if_pos (hh x hx), mul_one]
    rw [if_neg (by linarith), sum_sub, show (l.length : ℝ) * vs.foldl max v - l.sum - ((vs.foldl max v - height) * l.length - (l.sum - l.length * height)) = 0 by ring, zero_div]
  · rw [← hl]
    unfold matVr
    simp only [if_true, hl, List.map_map, Except.ok.injEq, htot]
    rw [← List.map_const']
    apply List.map_congr_left
    intro x hx
    simp only [Function.comp_apply, if_neg (not_lt.mpr (hmax x hx)), mul_zero]
    rw [if_neg (by linarith), sub_self, zero_mul, sub_zero, sub_zero, div_self (by linarith)]

example : ∃ x ∈ (1 : ℝ) :: [2], x ≠ [2].foldl max 1 := ⟨1, by simp, by norm_num⟩

end Verif.Rough
