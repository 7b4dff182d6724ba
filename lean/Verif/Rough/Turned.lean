import Verif.Rough.Props
import Mathlib.Data.List.Sort
import Mathlib.Data.List.Perm.Basic
import Mathlib.Data.Nat.Choose.Sum

/-!
# C168: the roughness of a mirrored or turned surface

`roughness`, `slippy/surface/roughness_funcs.py` l.174-372 (model `Params`), with the rows or the columns in the reverse order, or rows and columns exchanged. Without low pass filter.
-/

namespace Verif.Rough

/-! ## Specification -/

/-- The moves that give all mirrored and turned surfaces. -/
inductive Move where
  | rows
  | cols
  | axes

/-- Where a point of an array of `r` rows and `c` columns goes. -/
def Move.to (r c : ℕ) : Move → ℕ × ℕ → ℕ × ℕ
  | .rows, q => (r - 1 - q.1, q.2)
  | .cols, q => (q.1, c - 1 - q.2)
  | .axes, q => (q.2, q.1)

/-- The shape after the move. -/
def Move.shape (r c : ℕ) : Move → ℕ × ℕ
  | .axes => (c, r)
  | _ => (r, c)

/-- The second array is the first one after the move. -/
structure Moved {α : Type} (mv : Move) (a a' : Arr α) : Prop where
  shape : (a'.rows, a'.cols) = mv.shape a.rows a.cols
  val : ∀ i j, i < a.rows → j < a.cols → a'.val (mv.to a.rows a.cols (i, j)).1 (mv.to a.rows a.cols (i, j)).2 = a.val i j

/-- The masks after the move. -/
inductive MovedMask (mv : Move) : MaskArg ℝ → MaskArg ℝ → Prop where
  | none : MovedMask mv .none .none
  | float (v : Option ℝ) : MovedMask mv (.float v) (.float v)
  | array {m m' : Arr Bool} (h : Moved mv m m') : MovedMask mv (.array m) (.array m')

/-! ## Lists -/

theorem mapM_id_eq (l : List (Option ℝ)) : l.mapM id = if none ∈ l then none else some (l.filterMap id) := by
  induction l with
  | nil => simp
  | cons a l ih =>
    rw [List.mapM_cons, ih]
    cases a with
    | none => simp
    | some a => by_cases h : none ∈ l <;> simp [h]

theorem mean_perm {l l' : List (Option ℝ)} (h : l.Perm l') : mean l = mean l' := by
  unfold mean
  rw [mapM_id_eq, mapM_id_eq]
  have h1 : none ∈ l ↔ none ∈ l' := h.mem_iff
  by_cases h2 : none ∈ l
  · rw [if_pos h2, if_pos (h1.1 h2)]
  · rw [if_neg h2, if_neg fun e => h2 (h1.2 e)]
    have h3 := h.filterMap id
    simp only
    rw [h3.sum_eq, h3.length_eq]
    by_cases h4 : l.filterMap id = []
    · rw [if_pos h4, if_pos (by rw [h4] at h3; exact h3.nil_eq.symm)]
    · rw [if_neg h4, if_neg fun e => h4 (by rw [e] at h3; exact h3.eq_nil)]

theorem power_perm {l l' : List (Option ℝ)} (h : l.Perm l') (n : ℕ) : (power l n).Perm (power l' n) := h.map _

theorem foldl_min_perm {v v' : ℝ} {l l' : List ℝ} (h : (v :: l).Perm (v' :: l')) : l.foldl min v = l'.foldl min v' := by
  have key : ∀ (l : List ℝ) (v : ℝ), l.foldl min v ∈ v :: l ∧ ∀ x ∈ v :: l, l.foldl min v ≤ x := by
    intro l
    induction l with
    | nil => intro v; simp
    | cons a l ih =>
      intro v
      obtain ⟨h1, h2⟩ := ih (min v a)
      rw [List.foldl_cons]
      constructor
      · rcases List.mem_cons.1 h1 with h | h
        · rw [h]
          rcases min_choice v a with e | e <;> simp [e]
        · simp [h]
      · intro x hx
        rcases List.mem_cons.1 hx with rfl | hx
        · exact le_trans (h2 _ List.mem_cons_self) (min_le_left _ _)
        · rcases List.mem_cons.1 hx with rfl | hx
          · exact le_trans (h2 _ List.mem_cons_self) (min_le_right _ _)
          · exact h2 x (List.mem_cons_of_mem _ hx)
  obtain ⟨a1, a2⟩ := key l v
  obtain ⟨b1, b2⟩ := key l' v'
  exact le_antisymm (a2 _ (h.mem_iff.2 b1)) (b2 _ (h.mem_iff.1 a1))

theorem least_perm {l l' : List (Option ℝ)} (h : l.Perm l') : least l = least l' := by
  unfold least
  by_cases h0 : l = []
  · subst h0
    rw [h.nil_eq.symm]
  · rw [if_neg h0, if_neg fun e => h0 (by rw [e] at h; exact h.eq_nil), mapM_id_eq, mapM_id_eq]
    have h1 : none ∈ l ↔ none ∈ l' := h.mem_iff
    by_cases h2 : none ∈ l
    · rw [if_pos h2, if_pos (h1.1 h2)]
    · rw [if_neg h2, if_neg fun e => h2 (h1.2 e)]
      have h3 := h.filterMap id
      cases h4 : l.filterMap id with
      | nil =>
        rw [h4] at h3
        rw [h3.nil_eq.symm]
      | cons v vs =>
        cases h5 : l'.filterMap id with
        | nil =>
          rw [h4, h5] at h3
          exact absurd h3.eq_nil (by simp)
        | cons v' vs' =>
          rw [h4, h5] at h3
          simp only [foldl_min_perm h3]

theorem sortNan_perm {l l' : List (Option ℝ)} (h : l.Perm l') : sortNan l = sortNan l' := by
  classical
  unfold sortNan
  congr 1
  · have h1 := h.filterMap id
    have : (l.filterMap id).insertionSort (· ≤ ·) = (l'.filterMap id).insertionSort (· ≤ ·) := by
      refine List.Perm.eq_of_pairwise' (r := (· ≤ ·)) ?_ ?_ ?_
      · exact List.pairwise_insertionSort _ _
      · exact List.pairwise_insertionSort _ _
      · exact ((List.perm_insertionSort _ _).trans h1).trans (List.perm_insertionSort _ _).symm
    rw [this]
  · have h1 := h.filter fun h => h.isNone
    have key : ∀ l : List (Option ℝ), l.filter (fun h => h.isNone) = List.replicate (l.filter fun h => h.isNone).length none := by
      intro l
      rw [List.eq_replicate_iff]
      refine ⟨rfl, fun x hx => ?_⟩
      have := (List.mem_filter.1 hx).2
      cases x with
      | none => rfl
      | some v => simp at this
    rw [key l, key l', h1.length_eq]

/-! ## Points -/

theorem to_lt {r c : ℕ} (mv : Move) {q : ℕ × ℕ} (h1 : q.1 < r) (h2 : q.2 < c) : (mv.to r c q).1 < (mv.shape r c).1 ∧ (mv.to r c q).2 < (mv.shape r c).2 := by
  cases mv <;> simp only [Move.to, Move.shape] <;> omega

theorem to_inj {r c : ℕ} (mv : Move) {q q' : ℕ × ℕ} (h1 : q.1 < r) (h2 : q.2 < c) (h3 : q'.1 < r) (h4 : q'.2 < c) (h : mv.to r c q = mv.to r c q') : q = q' := by
  obtain ⟨a, b⟩ := q
  obtain ⟨a', b'⟩ := q'
  cases mv <;> simp only [Move.to, Prod.mk.injEq] at h h1 h2 h3 h4 ⊢ <;> omega

theorem to_surj {r c : ℕ} (mv : Move) {q : ℕ × ℕ} (h1 : q.1 < (mv.shape r c).1) (h2 : q.2 < (mv.shape r c).2) : ∃ q', q'.1 < r ∧ q'.2 < c ∧ mv.to r c q' = q := by
  obtain ⟨a, b⟩ := q
  cases mv with
  | rows => exact ⟨(r - 1 - a, b), by simp only [Move.shape] at *; omega, by simp only [Move.shape] at *; omega, by simp only [Move.to, Move.shape] at *; congr 1; omega⟩
  | cols => exact ⟨(a, c - 1 - b), by simp only [Move.shape] at *; omega, by simp only [Move.shape] at *; omega, by simp only [Move.to, Move.shape] at *; congr 1; omega⟩
  | axes => exact ⟨(b, a), by simp only [Move.shape] at *; omega, by simp only [Move.shape] at *; omega, rfl⟩

theorem nodup_selected (r c : ℕ) (m : Option (Arr Bool)) : (selected r c m).Nodup := (List.Nodup.product List.nodup_range List.nodup_range).filter _

/-- Two lists of points without repetition, the second with the points of the first after the move. -/
theorem points_perm {r c : ℕ} (mv : Move) {L L' : List (ℕ × ℕ)} (h1 : L.Nodup) (h2 : L'.Nodup) (hL : ∀ q ∈ L, q.1 < r ∧ q.2 < c) (hL' : ∀ q ∈ L', q.1 < (mv.shape r c).1 ∧ q.2 < (mv.shape r c).2)
    (h : ∀ q, q.1 < r → q.2 < c → (mv.to r c q ∈ L' ↔ q ∈ L)) : L'.Perm (L.map (mv.to r c)) := by
  rw [List.perm_ext_iff_of_nodup h2]
  · intro q
    constructor
    · intro hq
      obtain ⟨q', e1, e2, rfl⟩ := to_surj mv (hL' q hq).1 (hL' q hq).2
      exact List.mem_map_of_mem ((h q' e1 e2).1 hq)
    · intro hq
      obtain ⟨q', hq', rfl⟩ := List.mem_map.1 hq
      exact (h q' (hL q' hq').1 (hL q' hq').2).2 hq'
  · exact h1.map_on fun x hx y hy e => to_inj mv (hL x hx).1 (hL x hx).2 (hL y hy).1 (hL y hy).2 e

theorem values_perm {α : Type} {mv : Move} {a a' : Arr α} (h : Moved mv a a') {L L' : List (ℕ × ℕ)} (hL : ∀ q ∈ L, q.1 < a.rows ∧ q.2 < a.cols) (hp : L'.Perm (L.map (mv.to a.rows a.cols))) :
    (valuesAt a' L').Perm (valuesAt a L) := by
  unfold valuesAt
  refine (hp.map _).trans ?_
  rw [List.map_map]
  refine List.Perm.of_eq (List.map_congr_left fun q hq => ?_)
  exact h.val q.1 q.2 (hL q hq).1 (hL q hq).2

/-- The masks as arrays after the move. -/
def MovedArray (mv : Move) : Option (Arr Bool) → Option (Arr Bool) → Prop
  | none, none => True
  | some m, some m' => Moved mv m m'
  | _, _ => False

theorem used_moved {mv : Move} {m m' : Option (Arr Bool)} (h : MovedArray mv m m') {r c : ℕ} (hs : ∀ a, m = some a → a.rows = r ∧ a.cols = c) {q : ℕ × ℕ} (h1 : q.1 < r) (h2 : q.2 < c) :
    used m' (mv.to r c q).1 (mv.to r c q).2 = used m q.1 q.2 := by
  cases m with
  | none =>
    cases m' with
    | none => rfl
    | some m' => exact absurd h (by simp [MovedArray])
  | some m =>
    cases m' with
    | none => exact absurd h (by simp [MovedArray])
    | some m' =>
      obtain ⟨e1, e2⟩ := hs m rfl
      have h : Moved mv m m' := h
      have := h.val q.1 q.2 (by omega) (by omega)
      rw [e1, e2] at this
      exact this

theorem selected_moved {mv : Move} {m m' : Option (Arr Bool)} (h : MovedArray mv m m') {r c : ℕ} (hs : ∀ a, m = some a → a.rows = r ∧ a.cols = c) :
    (selected (mv.shape r c).1 (mv.shape r c).2 m').Perm ((selected r c m).map (mv.to r c)) := by
  refine points_perm mv (nodup_selected _ _ _) (nodup_selected _ _ _) ?_ ?_ ?_
  · rintro ⟨i, j⟩ hq
    have := (mem_selected _ _ _ i j).1 hq
    exact ⟨this.1, this.2.1⟩
  · rintro ⟨i, j⟩ hq
    have := (mem_selected _ _ _ i j).1 hq
    exact ⟨this.1, this.2.1⟩
  · rintro q h1 h2
    have h3 := to_lt mv h1 h2
    have h4 := used_moved h hs h1 h2
    have e1 := mem_selected (mv.shape r c).1 (mv.shape r c).2 m' (mv.to r c q).1 (mv.to r c q).2
    have e2 := mem_selected r c m q.1 q.2
    rw [h4] at e1
    exact e1.trans ((by tauto : _ ↔ _).trans e2.symm)

/-! ## Summits -/

theorem next_moved {r c : ℕ} (mv : Move) (four : Bool) {q q' : ℕ × ℕ} (h1 : q.1 < r) (h2 : q.2 < c) (h3 : q'.1 < r) (h4 : q'.2 < c) :
    Next four (mv.to r c q).1 (mv.to r c q).2 (mv.to r c q').1 (mv.to r c q').2 ↔ Next four q.1 q.2 q'.1 q'.2 := by
  unfold Next
  cases four
  · simp only [Bool.false_eq_true, if_false]
    unfold Next8
    cases mv <;> simp only [Move.to] <;> omega
  · simp only [if_true]
    unfold Next4
    cases mv <;> simp only [Move.to] <;> omega

theorem next_in {r c : ℕ} {four : Bool} {i j k l : ℕ} (h : Next four i j k l) (h1 : i + 1 < r) (h2 : j + 1 < c) : k < r ∧ l < c := by
  unfold Next at h
  cases four
  · simp only [Bool.false_eq_true, if_false] at h
    unfold Next8 at h
    omega
  · simp only [if_true] at h
    unfold Next4 at h
    omega

theorem inner_moved {r c : ℕ} (mv : Move) {q : ℕ × ℕ} (h1 : q.1 < r) (h2 : q.2 < c) :
    (0 < (mv.to r c q).1 ∧ (mv.to r c q).1 + 1 < (mv.shape r c).1 ∧ 0 < (mv.to r c q).2 ∧ (mv.to r c q).2 + 1 < (mv.shape r c).2) ↔ 0 < q.1 ∧ q.1 + 1 < r ∧ 0 < q.2 ∧ q.2 + 1 < c := by
  cases mv <;> simp only [Move.to, Move.shape] <;> omega

theorem Moved.rows_eq {α : Type} {mv : Move} {a a' : Arr α} (h : Moved mv a a') : a'.rows = (mv.shape a.rows a.cols).1 := congrArg Prod.fst h.shape

theorem Moved.cols_eq {α : Type} {mv : Move} {a a' : Arr α} (h : Moved mv a a') : a'.cols = (mv.shape a.rows a.cols).2 := congrArg Prod.snd h.shape

theorem summit_moved {mv : Move} {f f' : Arr (Option ℝ)} (h : Moved mv f f') (four : Bool) {q : ℕ × ℕ} (h1 : q.1 < f.rows) (h2 : q.2 < f.cols) :
    IsSummit f' four (mv.to f.rows f.cols q).1 (mv.to f.rows f.cols q).2 ↔ IsSummit f four q.1 q.2 := by
  have hin := inner_moved mv h1 h2
  have hv := h.val q.1 q.2 h1 h2
  unfold IsSummit
  rw [h.rows_eq, h.cols_eq]
  constructor
  · rintro ⟨a1, a2, a3, a4, a5⟩
    obtain ⟨b1, b2, b3, b4⟩ := hin.1 ⟨a1, a2, a3, a4⟩
    refine ⟨b1, b2, b3, b4, fun k l hn => ?_⟩
    obtain ⟨e1, e2⟩ := next_in hn b2 b4
    have := a5 _ _ ((next_moved mv four h1 h2 (q' := (k, l)) e1 e2).2 hn)
    rw [h.val k l e1 e2, hv] at this
    exact this
  · rintro ⟨b1, b2, b3, b4, b5⟩
    obtain ⟨a1, a2, a3, a4⟩ := hin.2 ⟨b1, b2, b3, b4⟩
    refine ⟨a1, a2, a3, a4, fun k l hn => ?_⟩
    obtain ⟨e1, e2⟩ := next_in hn a2 a4
    obtain ⟨q', d1, d2, d3⟩ := to_surj (r := f.rows) (c := f.cols) mv (q := (k, l)) e1 e2
    have hn' : Next four q.1 q.2 q'.1 q'.2 := by
      refine (next_moved mv four h1 h2 d1 d2).1 ?_
      rw [d3]
      exact hn
    have := b5 _ _ hn'
    rw [← hv, ← h.val q'.1 q'.2 d1 d2, d3] at this
    exact this

/-- The points marked by `find_summits`. -/
noncomputable def marks (f : Arr (Option ℝ)) (four : Bool) : List (ℕ × ℕ) := selected (markSummits f four).rows (markSummits f four).cols (some (markSummits f four))

theorem mem_marks (f : Arr (Option ℝ)) (four : Bool) (q : ℕ × ℕ) : q ∈ marks f four ↔ IsSummit f four q.1 q.2 := by
  have e := mem_selected (markSummits f four).rows (markSummits f four).cols (some (markSummits f four)) q.1 q.2
  refine e.trans ?_
  have e2 := mark_iff f four q.1 q.2
  constructor
  · rintro ⟨-, -, h⟩
    exact e2.1 h
  · intro h
    refine ⟨?_, ?_, e2.2 h⟩
    · have := h.2.1; simp only [markSummits]; omega
    · have := h.2.2.2.1; simp only [markSummits]; omega

theorem marks_in {f : Arr (Option ℝ)} {four : Bool} {q : ℕ × ℕ} (h : q ∈ marks f four) : q.1 < f.rows ∧ q.2 < f.cols := by
  have := (mem_marks f four q).1 h
  exact ⟨by have := this.2.1; omega, by have := this.2.2.2.1; omega⟩

theorem marks_moved {mv : Move} {f f' : Arr (Option ℝ)} (h : Moved mv f f') (four : Bool) : (marks f' four).Perm ((marks f four).map (mv.to f.rows f.cols)) := by
  refine points_perm mv (nodup_selected _ _ _) (nodup_selected _ _ _) (fun q hq => marks_in hq) ?_ ?_
  · intro q hq
    have := marks_in hq
    rw [h.rows_eq, h.cols_eq] at this
    exact this
  · intro q h1 h2
    rw [mem_marks, mem_marks]
    exact summit_moved h four h1 h2

/-- The curvature from the five values. -/
noncomputable def five (gs : ℝ) (a b c d m : Option ℝ) : Option ℝ := do
  let a ← a
  let b ← b
  let c ← c
  let d ← d
  let m ← m
  some (-(1 / 2) * (a + b + c + d - 4 * m) / gs ^ 2)

theorem five_rows (gs : ℝ) (a b c d m : Option ℝ) : five gs b a c d m = five gs a b c d m := by
  cases a <;> cases b <;> cases c <;> cases d <;> cases m <;> simp [five, add_comm]

theorem five_cols (gs : ℝ) (a b c d m : Option ℝ) : five gs a b d c m = five gs a b c d m := by
  cases a <;> cases b <;> cases c <;> cases d <;> cases m <;> simp [five]
  ring

theorem five_axes (gs : ℝ) (a b c d m : Option ℝ) : five gs c d a b m = five gs a b c d m := by
  cases a <;> cases b <;> cases c <;> cases d <;> cases m <;> simp [five]
  ring

theorem curvature_moved {mv : Move} {f f' : Arr (Option ℝ)} (h : Moved mv f f') (gs : ℝ) {q : ℕ × ℕ} (h0 : 0 < q.1 ∧ q.1 + 1 < f.rows ∧ 0 < q.2 ∧ q.2 + 1 < f.cols) :
    curvature f' gs (mv.to f.rows f.cols q) = curvature f gs q := by
  obtain ⟨i, j⟩ := q
  simp only at h0
  have v0 := h.val i j (by omega) (by omega)
  have v1 := h.val (i - 1) j (by omega) (by omega)
  have v2 := h.val (i + 1) j (by omega) (by omega)
  have v3 := h.val i (j - 1) (by omega) (by omega)
  have v4 := h.val i (j + 1) (by omega) (by omega)
  change five gs _ _ _ _ _ = five gs (f.val (i - 1) j) (f.val (i + 1) j) (f.val i (j - 1)) (f.val i (j + 1)) (f.val i j)
  cases mv with
  | rows =>
    simp only [Move.to] at v0 v1 v2 v3 v4 ⊢
    rw [show f.rows - 1 - (i - 1) = f.rows - 1 - i + 1 by omega] at v1
    rw [show f.rows - 1 - (i + 1) = f.rows - 1 - i - 1 by omega] at v2
    rw [v0, v1, v2, v3, v4, five_rows]
  | cols =>
    simp only [Move.to] at v0 v1 v2 v3 v4 ⊢
    rw [show f.cols - 1 - (j - 1) = f.cols - 1 - j + 1 by omega] at v3
    rw [show f.cols - 1 - (j + 1) = f.cols - 1 - j - 1 by omega] at v4
    rw [v0, v1, v2, v3, v4, five_cols]
  | axes =>
    simp only [Move.to] at v0 v1 v2 v3 v4 ⊢
    rw [v0, v1, v2, v3, v4, five_axes]

/-! ## The developed area -/

theorem cells_moved (mv : Move) (r c : ℕ) : ((List.range ((mv.shape r c).1 - 1)).product (List.range ((mv.shape r c).2 - 1))).Perm (((List.range (r - 1)).product (List.range (c - 1))).map (mv.to (r - 1) (c - 1))) := by
  have hs : mv.shape (r - 1) (c - 1) = ((mv.shape r c).1 - 1, (mv.shape r c).2 - 1) := by cases mv <;> rfl
  refine points_perm mv (List.Nodup.product List.nodup_range List.nodup_range) (List.Nodup.product List.nodup_range List.nodup_range) ?_ ?_ ?_
  · rintro ⟨a, b⟩ hq
    have := List.pair_mem_product.1 hq
    simpa using this
  · rintro ⟨a, b⟩ hq
    rw [hs]
    have := List.pair_mem_product.1 hq
    simpa using this
  · rintro ⟨a, b⟩ h1 h2
    have h3 := to_lt mv h1 h2
    rw [hs] at h3
    have e1 : mv.to (r - 1) (c - 1) (a, b) ∈ (List.range ((mv.shape r c).1 - 1)).product (List.range ((mv.shape r c).2 - 1)) := List.pair_mem_product.2 ⟨List.mem_range.2 h3.1, List.mem_range.2 h3.2⟩
    have e2 : (a, b) ∈ (List.range (r - 1)).product (List.range (c - 1)) := List.pair_mem_product.2 (by simpa using ⟨h1, h2⟩)
    exact ⟨fun _ => e2, fun _ => e1⟩

theorem area_rows (g a b c d : ℝ) : cellArea g c d a b = cellArea g a b c d := by
  unfold cellArea
  rw [show (c - d) ^ 2 = (d - c) ^ 2 by ring, show (b - a) ^ 2 = (a - b) ^ 2 by ring, show (c - a) ^ 2 = (a - c) ^ 2 by ring, show (d - b) ^ 2 = (b - d) ^ 2 by ring]
  ring

theorem area_axes (g a b c d : ℝ) : cellArea g a c b d = cellArea g a b c d := by
  unfold cellArea
  rw [show (d - b) ^ 2 = (b - d) ^ 2 by ring, show (c - d) ^ 2 = (d - c) ^ 2 by ring]
  ring

theorem area_cols (g a b c d : ℝ) : cellArea g b a d c = cellArea g a b c d := by
  rw [← area_axes g b a d c, area_rows, area_axes]

theorem sdr_moved {mv : Move} {f f' : Arr (Option ℝ)} (h : Moved mv f f') (gs : ℝ) :
    sdr f'.rows f'.cols (fun i j => (f'.val i j).getD 0) gs = sdr f.rows f.cols (fun i j => (f.val i j).getD 0) gs := by
  have hsum : (((List.range (f'.rows - 1)).product (List.range (f'.cols - 1))).map fun q => cellArea (gs ^ 2) ((f'.val q.1 q.2).getD 0) ((f'.val q.1 (q.2 + 1)).getD 0) ((f'.val (q.1 + 1) q.2).getD 0) ((f'.val (q.1 + 1) (q.2 + 1)).getD 0)).sum =
      (((List.range (f.rows - 1)).product (List.range (f.cols - 1))).map fun q => cellArea (gs ^ 2) ((f.val q.1 q.2).getD 0) ((f.val q.1 (q.2 + 1)).getD 0) ((f.val (q.1 + 1) q.2).getD 0) ((f.val (q.1 + 1) (q.2 + 1)).getD 0)).sum := by
    rw [h.rows_eq, h.cols_eq, ((cells_moved mv f.rows f.cols).map _).sum_eq, List.map_map]
    refine congrArg List.sum (List.map_congr_left ?_)
    rintro ⟨i, j⟩ hq
    obtain ⟨h1, h2⟩ := List.pair_mem_product.1 hq
    rw [List.mem_range] at h1 h2
    have v1 := h.val i j (by omega) (by omega)
    have v2 := h.val i (j + 1) (by omega) (by omega)
    have v3 := h.val (i + 1) j (by omega) (by omega)
    have v4 := h.val (i + 1) (j + 1) (by omega) (by omega)
    cases mv with
    | rows =>
      simp only [Move.to, Function.comp_apply] at v1 v2 v3 v4 ⊢
      rw [show f.rows - 1 - i = f.rows - 1 - 1 - i + 1 by omega] at v1 v2
      rw [show f.rows - 1 - (i + 1) = f.rows - 1 - 1 - i by omega] at v3 v4
      rw [v1, v2, v3, v4, area_rows]
    | cols =>
      simp only [Move.to, Function.comp_apply] at v1 v2 v3 v4 ⊢
      rw [show f.cols - 1 - j = f.cols - 1 - 1 - j + 1 by omega] at v1 v3
      rw [show f.cols - 1 - (j + 1) = f.cols - 1 - 1 - j by omega] at v2 v4
      rw [v1, v2, v3, v4, area_cols]
    | axes =>
      simp only [Move.to, Function.comp_apply] at v1 v2 v3 v4 ⊢
      rw [v1, v2, v3, v4, area_axes]
  have e1 : (f'.rows - 1 = 0 ∨ f'.cols - 1 = 0) ↔ (f.rows - 1 = 0 ∨ f.cols - 1 = 0) := by
    rw [h.rows_eq, h.cols_eq]
    cases mv <;> simp only [Move.shape] <;> tauto
  have e2 : f'.rows * f'.cols = f.rows * f.cols := by
    rw [h.rows_eq, h.cols_eq]
    cases mv <;> simp only [Move.shape]
    exact Nat.mul_comm _ _
  unfold sdr
  simp only [hsum, e2, e1]

/-! ## One parameter -/

/-- The profile with the points of the mask overwritten. -/
def over (p : Arr (Option ℝ)) : Option (Arr Bool) → Arr (Option ℝ)
  | some m => { p with val := fun i j => if m.val i j then Option.none else p.val i j }
  | Option.none => p

theorem find_eq (p : Arr (Option ℝ)) (m : Option (Arr Bool)) (four : Bool) (hs : ∀ a, m = some a → a.rows = p.rows ∧ a.cols = p.cols) :
    findSummits p (toMask m) four none = .ok (markSummits (over p m) four, over p m) := by
  unfold findSummits
  cases m with
  | none => rfl
  | some m =>
    have : maskArray p (toMask (some m)) = .ok (some m) := by simp only [toMask, maskArray]; rw [if_pos (hs m rfl)]
    rw [this]
    rfl

theorem over_moved {mv : Move} {p p' : Arr (Option ℝ)} (h : Moved mv p p') {m m' : Option (Arr Bool)} (hm : MovedArray mv m m') (hs : ∀ a, m = some a → a.rows = p.rows ∧ a.cols = p.cols) :
    Moved mv (over p m) (over p' m') := by
  cases m with
  | none =>
    cases m' with
    | none => exact h
    | some m' => exact absurd hm (by simp [MovedArray])
  | some m =>
    cases m' with
    | none => exact absurd hm (by simp [MovedArray])
    | some m' =>
      refine ⟨h.shape, fun i j h1 h2 => ?_⟩
      have e := used_moved hm hs (q := (i, j)) h1 h2
      have e : m'.val (mv.to p.rows p.cols (i, j)).1 (mv.to p.rows p.cols (i, j)).2 = m.val i j := e
      change (if m'.val (mv.to p.rows p.cols (i, j)).1 (mv.to p.rows p.cols (i, j)).2 = true then none else p'.val (mv.to p.rows p.cols (i, j)).1 (mv.to p.rows p.cols (i, j)).2) = if m.val i j = true then none else p.val i j
      rw [e, h.val i j h1 h2]

theorem over_shape (p : Arr (Option ℝ)) (m : Option (Arr Bool)) : (over p m).rows = p.rows ∧ (over p m).cols = p.cols := by cases m <;> exact ⟨rfl, rfl⟩

/-- The negated profile. -/
def neg (p : Arr (Option ℝ)) : Arr (Option ℝ) := ⟨p.rows, p.cols, fun i j => (p.val i j).map fun v => -1 * v⟩

theorem neg_moved {mv : Move} {p p' : Arr (Option ℝ)} (h : Moved mv p p') : Moved mv (neg p) (neg p') := ⟨h.shape, fun i j h1 h2 => congrArg (Option.map fun v => -1 * v) (h.val i j h1 h2)⟩

theorem shape_moved {mv : Move} {p p' : Arr (Option ℝ)} (h : Moved mv p p') {m m' : Option (Arr Bool)} (hm : MovedArray mv m m') (hs : ∀ a, m = some a → a.rows = p.rows ∧ a.cols = p.cols) :
    ∀ a, m' = some a → a.rows = p'.rows ∧ a.cols = p'.cols := by
  rintro a rfl
  cases m with
  | none => exact absurd hm (by simp [MovedArray])
  | some m =>
    have hm : Moved mv m a := hm
    obtain ⟨e1, e2⟩ := hs m rfl
    rw [hm.rows_eq, hm.cols_eq, h.rows_eq, h.cols_eq, e1, e2]
    exact ⟨rfl, rfl⟩

theorem single_moved {mv : Move} {p p' : Arr (Option ℝ)} (h : Moved mv p p') {m m' : Option (Arr Bool)} (hm : MovedArray mv m m') (hs : ∀ a, m = some a → a.rows = p.rows ∧ a.cols = p.cols) (gs : Option ℝ) (four : Bool)
    (name : Param) : (single ⟨gs, four, none⟩ p' m' name).1 = (single ⟨gs, four, none⟩ p m name).1 := by
  have hs' := shape_moved h hm hs
  have hsel : (selected p'.rows p'.cols m').Perm ((selected p.rows p.cols m).map (mv.to p.rows p.cols)) := by
    rw [h.rows_eq, h.cols_eq]
    exact selected_moved hm hs
  have hv : (valuesAt p' (selected p'.rows p'.cols m')).Perm (valuesAt p (selected p.rows p.cols m)) := by
    refine values_perm h ?_ hsel
    rintro ⟨i, j⟩ hq
    have := (mem_selected _ _ _ i j).1 hq
    exact ⟨this.1, this.2.1⟩
  have ho := over_moved h hm hs
  have hmk := marks_moved ho four
  have hsome : m'.isSome = m.isSome := by
    cases m <;> cases m' <;> first | rfl | exact absurd hm (by simp [MovedArray])
  have hsq : sq (valuesAt p' (selected p'.rows p'.cols m')) = sq (valuesAt p (selected p.rows p.cols m)) := by
    unfold sq
    rw [mean_perm (power_perm hv 2)]
  cases name with
  | sq => simp only [single, hsq]
  | sa => simp only [single, sa]; rw [mean_perm (hv.map _)]
  | ssk => simp only [single, ssk]; rw [mean_perm (power_perm hv 3), hsq]
  | sku => simp only [single, sku]; rw [mean_perm (power_perm hv 4), hsq]
  | sv => simp only [single]; rw [least_perm hv]
  | unknown => rfl
  | sdr =>
    simp only [single, hsome]
    cases gs with
    | none => rfl
    | some gs =>
      have hne : ¬ (some gs = none) := by simp
      simp only [if_neg hne]
      by_cases e : m.isSome = true
      · rw [if_pos e, if_pos e]
      · rw [if_neg e, if_neg e, mapM_id_eq, mapM_id_eq]
        have hn : none ∈ valuesAt p' (selected p'.rows p'.cols m') ↔ none ∈ valuesAt p (selected p.rows p.cols m) := hv.mem_iff
        by_cases e2 : none ∈ valuesAt p (selected p.rows p.cols m)
        · rw [if_pos e2, if_pos (hn.2 e2)]
        · rw [if_neg e2, if_neg fun e3 => e2 (hn.1 e3)]
          simp only [sdr_moved h]
  | sds =>
    simp only [single]
    rw [find_eq p m four hs, find_eq p' m' four hs']
    simp only
    have e1 : (marks (over p' m') four).length = (marks (over p m) four).length := by rw [hmk.length_eq, List.length_map]
    have e2 := hv.length_eq
    have e3 : valuesAt p' (selected p'.rows p'.cols m') = [] ↔ valuesAt p (selected p.rows p.cols m) = [] := by rw [← List.length_eq_zero_iff, e2, List.length_eq_zero_iff]
    unfold marks at e1
    simp only [e1, e2, e3]
  | sz =>
    simp only [single]
    rw [find_eq p m four hs, find_eq p' m' four hs']
    simp only
    have q1 := over_shape p m
    have q2 := over_shape p' m'
    have f1 := find_eq (neg (over p m)) m four (by intro a ha; change _ = (over p m).rows ∧ _ = (over p m).cols; rw [q1.1, q1.2]; exact hs a ha)
    have f2 := find_eq (neg (over p' m')) m' four (by intro a ha; change _ = (over p' m').rows ∧ _ = (over p' m').cols; rw [q2.1, q2.2]; exact hs' a ha)
    unfold neg at f1 f2
    rw [f1, f2]
    simp only
    have hneg := over_moved (neg_moved ho) hm (by intro a ha; change _ = (over p m).rows ∧ _ = (over p m).cols; rw [q1.1, q1.2]; exact hs a ha)
    have hmn := marks_moved hneg four
    have r1 := over_shape (neg (over p m)) m
    have w1 : (valuesAt (over p' m') (marks (over p' m') four)).Perm (valuesAt (over p m) (marks (over p m) four)) := values_perm ho (fun q hq => marks_in hq) hmk
    have w2 : (valuesAt (over p' m') (marks (over (neg (over p' m')) m') four)).Perm (valuesAt (over p m) (marks (over (neg (over p m)) m) four)) := by
      refine values_perm ho (fun q hq => ?_) ?_
      · have := marks_in hq
        rw [r1.1, r1.2] at this
        exact this
      · rw [r1.1, r1.2] at hmn
        exact hmn
    unfold marks neg at w2
    unfold marks at w1
    unfold ten
    rw [sortNan_perm w1, sortNan_perm w2]
  | ssc =>
    simp only [single]
    rw [find_eq p m four hs, find_eq p' m' four hs']
    cases gs with
    | none => rfl
    | some gs =>
      simp only
      have w : ((marks (over p' m') four).map (curvature (over p' m') gs)).Perm ((marks (over p m) four).map (curvature (over p m) gs)) := by
        refine (hmk.map _).trans (List.Perm.of_eq ?_)
        rw [List.map_map]
        refine List.map_congr_left fun q hq => ?_
        have := (mem_marks _ _ _).1 hq
        exact curvature_moved ho gs ⟨this.1, this.2.1, this.2.2.1, this.2.2.2.1⟩
      unfold marks at w
      rw [mean_perm w]

theorem maskArray_moved {mv : Move} {p p' : Arr (Option ℝ)} (h : Moved mv p p') {k k' : MaskArg ℝ} (hk : MovedMask mv k k') :
    (∃ e, maskArray p k = .error e ∧ maskArray p' k' = .error e) ∨
    ∃ m m', maskArray p k = .ok m ∧ maskArray p' k' = .ok m' ∧ MovedArray mv m m' ∧ ∀ a, m = some a → a.rows = p.rows ∧ a.cols = p.cols := by
  cases hk with
  | none => exact .inr ⟨_, _, rfl, rfl, trivial, by simp⟩
  | float v =>
    cases v with
    | none =>
      refine .inr ⟨_, _, rfl, rfl, ⟨h.shape, fun i j h1 h2 => ?_⟩, ?_⟩
      · exact congrArg Option.isSome (h.val i j h1 h2)
      · rintro a ha
        cases ha
        exact ⟨rfl, rfl⟩
    | some v => exact .inl ⟨_, rfl, rfl⟩
  | @array m m' hm =>
    have e : (m'.rows = p'.rows ∧ m'.cols = p'.cols) ↔ (m.rows = p.rows ∧ m.cols = p.cols) := by
      rw [hm.rows_eq, hm.cols_eq, h.rows_eq, h.cols_eq]
      cases mv <;> simp only [Move.shape] <;> tauto
    by_cases hs : m.rows = p.rows ∧ m.cols = p.cols
    · refine .inr ⟨some m, some m', by simp only [maskArray]; rw [if_pos hs], by simp only [maskArray]; rw [if_pos (e.2 hs)], hm, ?_⟩
      rintro a ha
      cases ha
      exact hs
    · exact .inl ⟨.typeError, by simp only [maskArray]; rw [if_neg hs], by simp only [maskArray]; rw [if_neg fun x => hs (e.1 x)]⟩

/-- **C168, without flattening.** Each parameter of a surface that is mirrored, or whose axes are exchanged, together with the mask, is that of the surface; where one fails the other fails with the same exception. Any shape, missing heights, each kind of mask, four or eight
neighbours. -/
theorem C168_raw (lstsq : List (List ℝ) → List (Option ℝ) → Option (List ℝ)) (mv : Move) (p p' : Arr (Option ℝ)) (h : Moved mv p p') (k k' : MaskArg ℝ) (hk : MovedMask mv k k') (gs : Option ℝ) (four curved : Bool) (name : Param) :
    roughness lstsq ⟨gs, four, none⟩ p' k' curved true name = roughness lstsq ⟨gs, four, none⟩ p k curved true name := by
  unfold roughness
  rcases maskArray_moved h hk with ⟨e, e1, e2⟩ | ⟨m, m', e1, e2, hm, hs⟩
  · rw [e1, e2]
  · rw [e1, e2]
    simp only [flatten, if_true]
    exact single_moved h hm hs gs four name

/-- A profile of two rows and three columns with a missing height, and a mask, with the axes exchanged: the hypotheses of `C168_raw` can be met. -/
example : Moved .axes (⟨2, 3, fun i j => if i = 0 ∧ j = 2 then none else some ((i : ℝ) + 2 * j)⟩ : Arr (Option ℝ)) ⟨3, 2, fun i j => if j = 0 ∧ i = 2 then none else some ((j : ℝ) + 2 * i)⟩ ∧
    MovedMask .axes (.array ⟨2, 3, fun i _ => i == 0⟩) (.array ⟨3, 2, fun _ j => j == 0⟩) := ⟨⟨rfl, fun _ _ _ _ => rfl⟩, .array ⟨rfl, fun _ _ _ _ => rfl⟩⟩

/-- The same for the rows in the reverse order. -/
example : Moved .rows (⟨2, 3, fun i j => some ((i : ℝ) + 2 * j)⟩ : Arr (Option ℝ)) ⟨2, 3, fun i j => some (((1 - i : ℕ) : ℝ) + 2 * j)⟩ ∧ MovedMask .rows (.float none) (.float none) := by
  refine ⟨⟨rfl, fun i j hi _ => ?_⟩, .float _⟩
  simp only [Move.to]
  rw [show 1 - (2 - 1 - i) = i by simp only at hi; omega]

/-- The array turned by a quarter. -/
def quarter {α : Type} (a : Arr α) : Arr α := ⟨a.cols, a.rows, fun i j => a.val j (a.cols - 1 - i)⟩

theorem quarter_moved {α : Type} (a : Arr α) : ∃ b, Moved .axes a b ∧ Moved .rows b (quarter a) := by
  refine ⟨⟨a.cols, a.rows, fun i j => a.val j i⟩, ⟨rfl, fun _ _ _ _ => rfl⟩, ⟨rfl, fun i j hi _ => ?_⟩⟩
  simp only [Move.to, quarter]
  rw [show a.cols - 1 - (a.cols - 1 - i) = i by simp only at hi; omega]

/-- **C168, turned.** A surface turned by a quarter, with its mask, has the parameters of the surface. -/
theorem C168_quarter (lstsq : List (List ℝ) → List (Option ℝ) → Option (List ℝ)) (p : Arr (Option ℝ)) (m : Arr Bool) (gs : Option ℝ) (four curved : Bool) (name : Param) :
    roughness lstsq ⟨gs, four, none⟩ (quarter p) (.array (quarter m)) curved true name = roughness lstsq ⟨gs, four, none⟩ p (.array m) curved true name := by
  obtain ⟨b, h1, h2⟩ := quarter_moved p
  obtain ⟨n, k1, k2⟩ := quarter_moved m
  rw [C168_raw lstsq .rows b _ h2 _ _ (.array k2), C168_raw lstsq .axes p b h1 _ _ (.array k1)]

/-- The turned surface is another surface. -/
example : (quarter (⟨1, 2, fun _ j => some (j : ℝ)⟩ : Arr (Option ℝ))).rows = 2 ∧ (quarter (⟨1, 2, fun _ j => some (j : ℝ)⟩ : Arr (Option ℝ))).val 0 0 = some 1 := by
  refine ⟨rfl, ?_⟩
  simp [quarter]

/-! ## Flattening -/

/-- The functions that are polynomials with powers up to `n`. -/
def IsPoly (n : ℕ) (f : ℝ → ℝ → ℝ) : Prop := ∃ d, ∀ x y, evalPoly n d x y = f x y

theorem IsPoly.zero (n : ℕ) : IsPoly n fun _ _ => 0 := ⟨fun _ _ => 0, fun x y => by simp [evalPoly]⟩

theorem IsPoly.add {n : ℕ} {f g : ℝ → ℝ → ℝ} (hf : IsPoly n f) (t : ℝ) (hg : IsPoly n g) : IsPoly n fun x y => f x y + t * g x y := by
  obtain ⟨c, hc⟩ := hf
  obtain ⟨d, hd⟩ := hg
  exact ⟨fun i j => c i j + t * d i j, fun x y => by rw [eval_linear, hc, hd]⟩

theorem IsPoly.sum {n : ℕ} {α : Type} (s : Finset α) (t : α → ℝ) (f : α → ℝ → ℝ → ℝ) (hf : ∀ a ∈ s, IsPoly n (f a)) : IsPoly n fun x y => ∑ a ∈ s, t a * f a x y := by
  classical
  induction s using Finset.induction_on with
  | empty => simpa using IsPoly.zero n
  | insert a s ha ih =>
    have h1 := (ih fun b hb => hf b (Finset.mem_insert_of_mem hb)).add (t a) (hf a (Finset.mem_insert_self a s))
    obtain ⟨d, hd⟩ := h1
    exact ⟨d, fun x y => by rw [hd]; beta_reduce; rw [Finset.sum_insert ha]; ring⟩

theorem IsPoly.mono {n a b : ℕ} (ha : a ≤ n) (hb : b ≤ n) : IsPoly n fun x y => x ^ a * y ^ b := ⟨_, eval_single n a b ha hb⟩

theorem IsPoly.swap {n : ℕ} {f : ℝ → ℝ → ℝ} (hf : IsPoly n f) : IsPoly n fun x y => f y x := by
  obtain ⟨c, hc⟩ := hf
  refine ⟨fun i j => c j i, fun x y => ?_⟩
  beta_reduce
  rw [← hc]
  unfold evalPoly
  rw [Finset.sum_comm]
  exact Finset.sum_congr rfl fun i _ => Finset.sum_congr rfl fun j _ => by ring

theorem IsPoly.mirror {n : ℕ} {f : ℝ → ℝ → ℝ} (hf : IsPoly n f) (C : ℝ) : IsPoly n fun x y => f (C - x) y := by
  obtain ⟨c, hc⟩ := hf
  have h1 : ∀ a b, a ≤ n → b ≤ n → IsPoly n fun x y => (C - x) ^ a * y ^ b := by
    intro a b ha hb
    have := IsPoly.sum (n := n) (Finset.range (a + 1)) (fun k => (-1) ^ k * C ^ (a - k) * (a.choose k : ℝ)) (fun k x y => x ^ k * y ^ b) (fun k hk => IsPoly.mono (by have := Finset.mem_range.1 hk; omega) hb)
    obtain ⟨d, hd⟩ := this
    refine ⟨d, fun x y => ?_⟩
    rw [hd]
    beta_reduce
    rw [show C - x = -x + C by ring, add_pow, Finset.sum_mul]
    refine Finset.sum_congr rfl fun k _ => ?_
    rw [neg_pow x k]
    ring
  have h2 : IsPoly n fun x y => ∑ i ∈ Finset.range (n + 1), 1 * ∑ j ∈ Finset.range (n + 1), c i j * ((C - x) ^ i * y ^ j) :=
    IsPoly.sum _ _ _ fun i hi => IsPoly.sum _ _ _ fun j hj => h1 i j (by have := Finset.mem_range.1 hi; omega) (by have := Finset.mem_range.1 hj; omega)
  obtain ⟨d, hd⟩ := h2
  refine ⟨d, fun x y => ?_⟩
  rw [hd]
  beta_reduce
  rw [← hc]
  unfold evalPoly
  exact Finset.sum_congr rfl fun i _ => by rw [one_mul]; exact Finset.sum_congr rfl fun j _ => by ring

/-- A polynomial of the moved points is a polynomial of the points. -/
theorem poly_moved (mv : Move) (r c n : ℕ) (e : ℕ → ℕ → ℝ) : ∃ d, ∀ q : ℕ × ℕ, q.1 < r → q.2 < c → evalPoly n d q.2 q.1 = evalPoly n e (mv.to r c q).2 (mv.to r c q).1 := by
  have h0 : IsPoly n fun x y => evalPoly n e x y := ⟨e, fun _ _ => rfl⟩
  cases mv with
  | rows =>
    obtain ⟨d, hd⟩ := (h0.swap.mirror ((r - 1 : ℕ) : ℝ)).swap
    refine ⟨d, fun q h1 _ => ?_⟩
    rw [hd]
    simp only [Move.to]
    rw [Nat.cast_sub (show q.1 ≤ r - 1 by omega)]
  | cols =>
    obtain ⟨d, hd⟩ := h0.mirror ((c - 1 : ℕ) : ℝ)
    refine ⟨d, fun q _ h2 => ?_⟩
    rw [hd]
    simp only [Move.to]
    rw [Nat.cast_sub (show q.2 ≤ c - 1 by omega)]
  | axes =>
    obtain ⟨d, hd⟩ := h0.swap
    exact ⟨d, fun q _ _ => hd _ _⟩

/-- The move backwards. -/
theorem to_back {r c : ℕ} (mv : Move) {q : ℕ × ℕ} (h1 : q.1 < r) (h2 : q.2 < c) : mv.to (mv.shape r c).1 (mv.shape r c).2 (mv.to r c q) = q := by
  obtain ⟨a, b⟩ := q
  simp only at h1 h2
  cases mv with
  | rows => exact Prod.ext (by change r - 1 - (r - 1 - a) = a; omega) rfl
  | cols => exact Prod.ext rfl (by change c - 1 - (c - 1 - b) = b; omega)
  | axes => rfl

theorem poly_back (mv : Move) (r c n : ℕ) (e : ℕ → ℕ → ℝ) : ∃ d, ∀ q : ℕ × ℕ, q.1 < r → q.2 < c → evalPoly n d (mv.to r c q).2 (mv.to r c q).1 = evalPoly n e q.2 q.1 := by
  obtain ⟨d, hd⟩ := poly_moved mv (mv.shape r c).1 (mv.shape r c).2 n e
  refine ⟨d, fun q h1 h2 => ?_⟩
  have h3 := to_lt mv h1 h2
  rw [hd _ h3.1 h3.2, to_back mv h1 h2]

/-- Two best polynomials agree at the points. -/
theorem best_unique (n : ℕ) (pts : List (ℕ × ℕ)) (h : ℕ → ℕ → ℝ) (c d : ℕ → ℕ → ℝ)
    (hc : ∀ e : ℕ → ℕ → ℝ, (pts.map fun q => (h q.1 q.2 - evalPoly n c q.2 q.1) ^ 2).sum ≤ (pts.map fun q => (h q.1 q.2 - evalPoly n e q.2 q.1) ^ 2).sum)
    (hd : ∀ e : ℕ → ℕ → ℝ, (pts.map fun q => (h q.1 q.2 - evalPoly n d q.2 q.1) ^ 2).sum ≤ (pts.map fun q => (h q.1 q.2 - evalPoly n e q.2 q.1) ^ 2).sum) {q : ℕ × ℕ} (hq : q ∈ pts) :
    evalPoly n c q.2 q.1 = evalPoly n d q.2 q.1 := by
  have o1 := fit_orthogonal n pts h c hc fun i j => c i j + (-1) * d i j
  have o2 := fit_orthogonal n pts h d hd fun i j => c i j + (-1) * d i j
  simp only [eval_linear] at o1 o2
  have key : (pts.map fun q => (evalPoly n c q.2 q.1 - evalPoly n d q.2 q.1) ^ 2).sum =
      (pts.map fun q => (h q.1 q.2 - evalPoly n d q.2 q.1) * (evalPoly n c q.2 q.1 + (-1) * evalPoly n d q.2 q.1)).sum - (pts.map fun q => (h q.1 q.2 - evalPoly n c q.2 q.1) * (evalPoly n c q.2 q.1 + (-1) * evalPoly n d q.2 q.1)).sum := by
    clear hc hd o1 o2 hq
    induction pts with
    | nil => simp
    | cons a l ih => simp only [List.map_cons, List.sum_cons, ih]; ring
  rw [o1, o2, sub_zero] at key
  have := all_zero (f := fun q => evalPoly n c q.2 q.1 - evalPoly n d q.2 q.1) key.le hq
  linarith

theorem polyMask_toMask {p : Arr (Option ℝ)} {m : Option (Arr Bool)} (hs : ∀ a, m = some a → a.rows = p.rows ∧ a.cols = p.cols) : polyMask p (toMask m) = .ok m := by
  cases m with
  | none => rfl
  | some m => simp only [toMask, polyMask]; rw [if_pos (hs m rfl)]

/-- A successful flattening gives the shape of the profile, and leaves the points that are not used. -/
theorem subtract_keeps {lstsq : List (List ℝ) → List (Option ℝ) → Option (List ℝ)} {p eta : Arr (Option ℝ)} {m : Option (Arr Bool)} {n : ℕ} {co : List ℝ} (hs : ∀ a, m = some a → a.rows = p.rows ∧ a.cols = p.cols)
    (h : subtractPolynomial lstsq false p n (toMask m) = .ok (eta, co)) : eta.rows = p.rows ∧ eta.cols = p.cols ∧ ∀ i j, used m i j = false → eta.val i j = p.val i j := by
  unfold subtractPolynomial at h
  rw [polyMask_toMask hs] at h
  simp only at h
  split at h
  · cases h
  · rw [if_neg (by simp)] at h
    simp only [Except.ok.injEq, Prod.mk.injEq] at h
    obtain ⟨rfl, -⟩ := h
    exact ⟨rfl, rfl, fun i j hu => by simp [hu]⟩

theorem flatten_moved {lstsq : List (List ℝ) → List (Option ℝ) → Option (List ℝ)} (hl : LeastSquares lstsq) {mv : Move} {p p' : Arr (Option ℝ)} (h : Moved mv p p') {m m' : Option (Arr Bool)} (hm : MovedArray mv m m')
    (hs : ∀ a, m = some a → a.rows = p.rows ∧ a.cols = p.cols) (hnum : ∀ i j, i < p.rows → j < p.cols → used m i j = true → p.val i j ≠ none) {curved : Bool} {eta eta' : Arr (Option ℝ)}
    (e1 : flatten lstsq p m curved false = .ok eta) (e2 : flatten lstsq p' m' curved false = .ok eta') : Moved mv eta eta' := by
  have hs' := shape_moved h hm hs
  have pm := polyMask_toMask hs
  have pm' := polyMask_toMask hs'
  have ex : ∀ {p eta : Arr (Option ℝ)} {m : Option (Arr Bool)}, flatten lstsq p m curved false = .ok eta → ∃ co, subtractPolynomial lstsq false p (if curved then 2 else 1) (toMask m) = .ok (eta, co) := by
    intro p eta m e
    simp only [flatten, Bool.false_eq_true, if_false] at e
    cases hc : subtractPolynomial lstsq false p (if curved then 2 else 1) (toMask m) with
    | error x => rw [hc] at e; cases e
    | ok r =>
      rw [hc] at e
      obtain ⟨a, b⟩ := r
      cases e
      exact ⟨b, rfl⟩
  obtain ⟨co, f1⟩ := ex e1
  obtain ⟨co', f2⟩ := ex e2
  generalize (if curved then 2 else 1) = n at f1 f2
  obtain ⟨k1, k2, k3⟩ := subtract_keeps hs f1
  obtain ⟨k1', k2', k3'⟩ := subtract_keeps hs' f2
  refine ⟨by rw [k1, k2, k1', k2']; exact h.shape, ?_⟩
  rw [k1, k2]
  intro i j hi hj
  have hu := used_moved hm hs (q := (i, j)) hi hj
  have ht := to_lt mv (q := (i, j)) hi hj
  rw [← h.rows_eq, ← h.cols_eq] at ht
  by_cases hused : used m i j = true
  · have hmem := (mem_selected p.rows p.cols m i j).2 ⟨hi, hj, hused⟩
    have hmem' := (mem_selected p'.rows p'.cols m' _ _).2 ⟨ht.1, ht.2, hu.trans hused⟩
    have hh : ∀ i j, i < p.rows → j < p.cols → used m i j = true → p.val i j = some ((p.val i j).getD 0) := by
      intro i j a b c
      cases hv : p.val i j with
      | none => exact absurd hv (hnum i j a b c)
      | some v => rfl
    have hh' : ∀ i j, i < p'.rows → j < p'.cols → used m' i j = true → p'.val i j = some ((p'.val i j).getD 0) := by
      intro i j a b c
      rw [h.rows_eq] at a
      rw [h.cols_eq] at b
      obtain ⟨q, d1, d2, d3⟩ := to_surj (r := p.rows) (c := p.cols) mv (q := (i, j)) a b
      have u := used_moved hm hs d1 d2
      have v := h.val q.1 q.2 d1 d2
      have d3 : mv.to p.rows p.cols (q.1, q.2) = (i, j) := d3
      rw [show mv.to p.rows p.cols q = (i, j) from d3] at u
      rw [d3] at v
      simp only at u v
      rw [v]
      exact hh q.1 q.2 d1 d2 (u ▸ c)
    obtain ⟨-, -, c, a1, -, a2⟩ := call_fit hl pm f1 hh (List.ne_nil_of_mem hmem)
    obtain ⟨-, -, c', b1, -, b2⟩ := call_fit hl pm' f2 hh' (List.ne_nil_of_mem hmem')
    obtain ⟨d, hd⟩ := poly_moved mv p.rows p.cols n c'
    have hsel : (selected p'.rows p'.cols m').Perm ((selected p.rows p.cols m).map (mv.to p.rows p.cols)) := by
      rw [h.rows_eq, h.cols_eq]
      exact selected_moved hm hs
    have hsum : ∀ (x x' : ℕ → ℕ → ℝ), (∀ q : ℕ × ℕ, q.1 < p.rows → q.2 < p.cols → evalPoly n x q.2 q.1 = evalPoly n x' (mv.to p.rows p.cols q).2 (mv.to p.rows p.cols q).1) →
        ((selected p'.rows p'.cols m').map fun q => ((p'.val q.1 q.2).getD 0 - evalPoly n x' q.2 q.1) ^ 2).sum = ((selected p.rows p.cols m).map fun q => ((p.val q.1 q.2).getD 0 - evalPoly n x q.2 q.1) ^ 2).sum := by
      intro x x' hx
      rw [(hsel.map _).sum_eq, List.map_map]
      refine congrArg List.sum (List.map_congr_left ?_)
      rintro ⟨i, j⟩ hq
      have hq := (mem_selected _ _ _ i j).1 hq
      simp only [Function.comp_apply]
      rw [h.val i j hq.1 hq.2.1, ← hx (i, j) hq.1 hq.2.1]
    have hd2 : ∀ e : ℕ → ℕ → ℝ, ((selected p.rows p.cols m).map fun q => ((p.val q.1 q.2).getD 0 - evalPoly n d q.2 q.1) ^ 2).sum ≤ ((selected p.rows p.cols m).map fun q => ((p.val q.1 q.2).getD 0 - evalPoly n e q.2 q.1) ^ 2).sum := by
      intro e
      obtain ⟨e', he'⟩ := poly_back mv p.rows p.cols n e
      rw [← hsum d c' hd, ← hsum e e' fun q x y => (he' q x y).symm]
      exact b2 e'
    have same := best_unique n _ (fun i j => (p.val i j).getD 0) c d a2 hd2 hmem
    rw [a1 i j hi hj, if_pos hused, b1 _ _ ht.1 ht.2, if_pos (hu.trans hused), h.val i j hi hj, ← hd (i, j) hi hj]
    simp only at same
    rw [same]
  · have hf : used m i j = false := by simpa using hused
    rw [k3 i j hf, k3' _ _ (hu.trans hf)]
    exact h.val i j hi hj

/-- **C168, with flattening.** The same if a plane or a curved surface is taken away first, for a least squares routine that finds a fit for both and heights used that are numbers: what is taken away from the moved surface is what is taken away from the surface, moved. -/
theorem C168_flattened {lstsq : List (List ℝ) → List (Option ℝ) → Option (List ℝ)} (hl : LeastSquares lstsq) (mv : Move) {p p' : Arr (Option ℝ)} (h : Moved mv p p') {k k' : MaskArg ℝ} (hk : MovedMask mv k k') (gs : Option ℝ) (four curved : Bool)
    {m m' : Option (Arr Bool)} {eta eta' : Arr (Option ℝ)} (hm : maskArray p k = .ok m) (hm' : maskArray p' k' = .ok m') (e1 : flatten lstsq p m curved false = .ok eta) (e2 : flatten lstsq p' m' curved false = .ok eta')
    (hnum : ∀ i j, i < p.rows → j < p.cols → used m i j = true → p.val i j ≠ none) :
    Moved mv eta eta' ∧ ∀ name, roughness lstsq ⟨gs, four, none⟩ p' k' curved false name = roughness lstsq ⟨gs, four, none⟩ p k curved false name := by
  rcases maskArray_moved h hk with ⟨e, x1, x2⟩ | ⟨n, n', x1, x2, hmm, hs⟩
  · rw [x1] at hm; cases hm
  · rw [x1] at hm
    rw [x2] at hm'
    cases hm
    cases hm'
    have hmv := flatten_moved hl h hmm hs hnum e1 e2
    refine ⟨hmv, fun name => ?_⟩
    unfold roughness
    rw [x1, x2]
    simp only [e1, e2]
    refine single_moved hmv hmm ?_ gs four name
    intro a ha
    have : eta.rows = p.rows ∧ eta.cols = p.cols := by
      simp only [flatten, Bool.false_eq_true, if_false] at e1
      cases hc : subtractPolynomial lstsq false p (if curved then 2 else 1) (toMask m) with
      | error x => rw [hc] at e1; cases e1
      | ok r =>
        rw [hc] at e1
        obtain ⟨u, v⟩ := r
        cases e1
        have := subtract_keeps hs hc
        exact ⟨this.1, this.2.1⟩
    rw [this.1, this.2]
    exact hs a ha

/-- A valley along the rows, which is not changed by the fit of a plane, and along the columns. -/
def valley : Arr (Option ℝ) := ⟨3, 2, fun i _ => some (if i = 1 then -2 else 1)⟩

/-- The same with the axes exchanged. -/
def valley' : Arr (Option ℝ) := ⟨2, 3, fun _ j => some (if j = 1 then -2 else 1)⟩

theorem valley_moved : Moved .axes valley valley' := ⟨rfl, fun _ _ _ _ => rfl⟩

theorem flatten_of_fit {p : Arr (Option ℝ)} {z c : List ℝ} (hz : ((selected p.rows p.cols none).map fun q => p.val q.1 q.2) = z.map some) (hg : GoodFit ((selected p.rows p.cols none).map (gRow 1)) z c) :
    ∃ eta, flatten bestFit p none false false = .ok eta := by
  simp only [flatten, Bool.false_eq_true, if_false, subtractPolynomial, toMask, polyMask]
  rw [hz]
  unfold bestFit
  rw [dif_pos ⟨c, z, rfl, hg⟩]
  exact ⟨_, rfl⟩

theorem valley_fits : (∃ eta, flatten bestFit valley none false false = .ok eta) ∧ ∃ eta, flatten bestFit valley' none false false = .ok eta := by
  have ht : terms 1 = [(0, 0), (0, 1), (1, 0), (1, 1)] := by decide
  have hs : selected 3 2 none = [(0, 0), (0, 1), (1, 0), (1, 1), (2, 0), (2, 1)] := by decide
  have hs' : selected 2 3 none = [(0, 0), (0, 1), (0, 2), (1, 0), (1, 1), (1, 2)] := by decide
  have four : ∀ d : List ℝ, d.length = 4 → ∃ x y z w, d = [x, y, z, w] := by
    intro d hd
    match d, hd with
    | [x, y, z, w], _ => exact ⟨x, y, z, w, rfl⟩
  constructor
  · refine flatten_of_fit (z := [1, 1, -2, -2, 1, 1]) (c := [0, 0, 0, 0]) ?_ ⟨?_, ?_⟩
    · show ((selected 3 2 none).map fun q => valley.val q.1 q.2) = _
      rw [hs]
      simp [valley]
    · simp only [List.mem_map]
      rintro _ ⟨q, _, rfl⟩
      simp [gRow, ht]
    · intro d hd
      obtain ⟨x, y, z, w, rfl⟩ := four d hd
      show ((((selected 3 2 none).map (gRow 1)).zip _).map _).sum ≤ ((((selected 3 2 none).map (gRow 1)).zip _).map _).sum
      rw [hs]
      simp [gRow, ht, monomial]
      nlinarith [sq_nonneg x, sq_nonneg (x + y), sq_nonneg (x + 2 * y), sq_nonneg (x + z), sq_nonneg (x + y + z + w), sq_nonneg (x + 2 * y + z + 2 * w)]
  · refine flatten_of_fit (z := [1, -2, 1, 1, -2, 1]) (c := [0, 0, 0, 0]) ?_ ⟨?_, ?_⟩
    · show ((selected 2 3 none).map fun q => valley'.val q.1 q.2) = _
      rw [hs']
      simp [valley']
    · simp only [List.mem_map]
      rintro _ ⟨q, _, rfl⟩
      simp [gRow, ht]
    · intro d hd
      obtain ⟨x, y, z, w, rfl⟩ := four d hd
      show ((((selected 2 3 none).map (gRow 1)).zip _).map _).sum ≤ ((((selected 2 3 none).map (gRow 1)).zip _).map _).sum
      rw [hs']
      simp [gRow, ht, monomial]
      nlinarith [sq_nonneg x, sq_nonneg (x + y), sq_nonneg (x + z), sq_nonneg (x + 2 * z), sq_nonneg (x + y + z + w), sq_nonneg (x + y + 2 * z + 2 * w)]

/-- The hypotheses of `C168_flattened` can be met by a surface that is not flat after the fit of a plane. -/
example : LeastSquares bestFit ∧ Moved .axes valley valley' ∧ MovedMask .axes .none .none ∧ maskArray valley .none = .ok none ∧ maskArray valley' .none = .ok none ∧ (∃ eta, flatten bestFit valley none false false = .ok eta) ∧
    (∃ eta, flatten bestFit valley' none false false = .ok eta) ∧ ∀ i j, valley.val i j ≠ none :=
  ⟨bestFit_leastSquares, valley_moved, .none, rfl, rfl, valley_fits.1, valley_fits.2, fun i j => by simp [valley]⟩

end Verif.Rough
