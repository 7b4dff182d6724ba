import Verif.Rough.Values
import Verif.Rough.Bearing

/-!
# C125: the functional parameters
-/

namespace Verif.Rough

/-! ## Specification -/

/-- `x` is the value of `l` with number `k` from below, counted from 0. -/
def FromBelow (l : List ℝ) (k : ℕ) (x : ℝ) : Prop := x ∈ l ∧ (l.filter (· < x)).length ≤ k ∧ k < (l.filter (· ≤ x)).length

/-- `x` is a height with at most the `k` highest points above it: the bearing level of `k` points. -/
def BearingLevel (l : List ℝ) (k : ℕ) (x : ℝ) : Prop := x ∈ l ∧ (l.filter (x < ·)).length ≤ k

/-- The share of the points below a relative height. -/
noncomputable def shareBelow (l : List ℝ) (h : ℝ) : ℝ := ((l.filter (fun x => x / Real.sqrt ((l.map fun v => v ^ 2).sum / l.length) < h)).length : ℝ) / l.length

/-! ## Lemmas -/

theorem sortValues_perm (l : List ℝ) : (sortValues l).Perm l := List.perm_insertionSort _ l

theorem sortValues_length (l : List ℝ) : (sortValues l).length = l.length := (sortValues_perm l).length_eq

theorem sortValues_sorted (l : List ℝ) : (sortValues l).Pairwise (· ≤ ·) := List.pairwise_insertionSort _ l

theorem sorted_split (l : List ℝ) (k : ℕ) (hk : k < (sortValues l).length) :
    ∃ a b : List ℝ, (a ++ (sortValues l)[k] :: b).Perm l ∧ a.length = k ∧ (∀ y ∈ a, y ≤ (sortValues l)[k]) ∧ (∀ y ∈ b, (sortValues l)[k] ≤ y) := by
  have e : (sortValues l).take k ++ (sortValues l)[k] :: (sortValues l).drop (k + 1) = sortValues l := by
    rw [List.cons_getElem_drop_succ, List.take_append_drop]
  have hs := sortValues_sorted l
  rw [← e, List.pairwise_append] at hs
  refine ⟨(sortValues l).take k, (sortValues l).drop (k + 1), by rw [e]; exact sortValues_perm l, by rw [List.length_take]; omega, fun y hy => hs.2.2 y hy _ List.mem_cons_self, ?_⟩
  intro y hy
  exact (List.pairwise_cons.1 hs.2.1).1 y hy

theorem sorted_fromBelow (l : List ℝ) (k : ℕ) (hk : k < (sortValues l).length) : FromBelow l k (sortValues l)[k] := by
  obtain ⟨a, b, hp, ha, h1, h2⟩ := sorted_split l k hk
  generalize (sortValues l)[k] = x at *
  refine ⟨hp.mem_iff.1 (by simp), ?_, ?_⟩
  · rw [← (hp.filter _).length_eq, List.filter_append, List.filter_cons_of_neg (by simp), List.length_append]
    have : b.filter (fun y => decide (y < x)) = [] := List.filter_eq_nil_iff.2 fun y hy => by simpa using h2 y hy
    rw [this]
    have := List.length_filter_le (fun y => decide (y < x)) a
    simpa [ha] using this
  · rw [← (hp.filter _).length_eq, List.filter_append, List.filter_cons_of_pos (by simp), List.length_append]
    have : a.filter (fun y => decide (y ≤ x)) = a := List.filter_eq_self.2 fun y hy => by simpa using h1 y hy
    rw [this]
    simp only [List.length_cons]
    omega

theorem fromBelow_above {l : List ℝ} (hn : l.Nodup) {k : ℕ} {x : ℝ} (h : FromBelow l k x) : (l.filter (x < ·)).length + k + 1 = l.length := by
  obtain ⟨hx, h1, h2⟩ := h
  have e1 : (l.filter (· ≤ x)).length + (l.filter (x < ·)).length = l.length := by
    have := List.length_eq_length_filter_add (l := l) (fun y => decide (y ≤ x))
    rw [this]
    congr 2
    apply List.filter_congr
    intro y _
    by_cases hy : y ≤ x
    · simp [hy]
    · simp [hy, not_le.1 hy]
  have e2 : (l.filter (· ≤ x)).length ≤ (l.filter (· < x)).length + 1 := by
    have h3 : (l.filter (· ≤ x)).length = ((l.filter (· ≤ x)).filter (· < x)).length + ((l.filter (· ≤ x)).filter (fun y => !decide (y < x))).length :=
      List.length_eq_length_filter_add _
    have h4 : (l.filter (· ≤ x)).filter (· < x) = l.filter (· < x) := by
      rw [List.filter_filter]
      apply List.filter_congr
      intro y _
      by_cases hy : y < x
      · simp [hy, hy.le]
      · simp [hy]
    have h5 : ((l.filter (· ≤ x)).filter (fun y => !decide (y < x))).length ≤ 1 := by
      have hnd : ((l.filter (· ≤ x)).filter (fun y => !decide (y < x))).Nodup := (hn.filter _).filter _
      have hall : ∀ y ∈ (l.filter (· ≤ x)).filter (fun y => !decide (y < x)), y = x := by
        intro y hy
        simp only [List.mem_filter, decide_eq_true_eq, Bool.not_eq_true', decide_eq_false_iff_not, not_lt] at hy
        exact le_antisymm hy.1.2 hy.2
      match hL : (l.filter (· ≤ x)).filter (fun y => !decide (y < x)), hnd, hall with
      | [], _, _ => simp
      | [_], _, _ => simp
      | y :: z :: t, hnd, hall =>
        exfalso
        have := hall y (by simp)
        have := hall z (by simp)
        simp_all
    rw [h3, h4]
    omega
  omega

theorem flatten_heights {lstsq : List (List ℝ) → List (Option ℝ) → Option (List ℝ)} {p : Arr (Option ℝ)} {r : ℕ → ℕ → ℝ} (hp : Heights p r) {curved noFlat : Bool} {eta : Arr (Option ℝ)}
    (h : flatten lstsq p Option.none curved noFlat = .ok eta) : eta.rows = p.rows ∧ eta.cols = p.cols ∧ ∃ r', Heights eta r' := by
  unfold flatten at h
  split_ifs at h with hn hc
  · injection h with h
    subst h
    exact ⟨rfl, rfl, r, hp⟩
  all_goals
    simp only [subtractPolynomial, polyMask, toMask] at h
    generalize lstsq _ _ = c at h
    cases c with
    | none => simp [Except.map] at h
    | some c =>
      simp only [Bool.false_eq_true, false_and, if_false, Except.map] at h
      injection h with h
      subst h
      exact ⟨rfl, rfl, fun i j => r i j - polyAt (if curved then 2 else 1) c (i, j), fun i j hi hj => by simp [used, hp i j hi hj, hc]⟩

theorem kept_whole {p : Arr (Option ℝ)} {r : ℕ → ℕ → ℝ} (hp : Heights p r) (hr : 2 ≤ p.rows) (hc : 2 ≤ p.cols) :
    kept p Option.none = .ok (.whole ((List.range p.rows).map fun i => (List.range p.cols).map fun j => r i j)) := by
  unfold kept
  rw [if_neg (by omega)]
  have h := mapM_some_map (selected p.rows p.cols Option.none) (fun q => p.val q.1 q.2) (fun q => r q.1 q.2) fun q hq => by
    obtain ⟨h1, h2⟩ := selected_none.1 hq
    exact hp q.1 q.2 h1 h2
  unfold valuesAt
  rw [h]
  dsimp only
  congr 2
  apply List.map_congr_left
  intro i hi
  apply List.map_congr_left
  intro j hj
  rw [hp i j (List.mem_range.1 hi) (List.mem_range.1 hj)]
  rfl

theorem flatten_length (n m : ℕ) (f : ℕ → ℕ → ℝ) : ((List.range n).map fun i => (List.range m).map fun j => f i j).flatten.length = n * m := by
  rw [List.length_flatten, List.map_map]
  have : (List.length ∘ fun i => (List.range m).map fun j => f i j) = fun _ => m := by funext i; simp
  rw [this]
  simp

theorem bearing_whole {lstsq : List (List ℝ) → List (Option ℝ) → Option (List ℝ)} (gs : Option ℝ) {p : Arr (Option ℝ)} {r : ℕ → ℕ → ℝ} (hp : Heights p r) (hr : 2 ≤ p.rows) (hc : 2 ≤ p.cols)
    (curved noFlat : Bool) (name : BParam) :
    (∃ e, bearing lstsq gs p .none curved noFlat name = .error (.py e)) ∨
    ∃ (r' : ℕ → ℕ → ℝ) (rest : List (Option ℝ)), bearing lstsq gs p .none curved noFlat name =
      match name with
      | .stp => stp gs (.whole ((List.range p.rows).map fun i => (List.range p.cols).map fun j => r' i j))
      | .sbi => sbi (.whole ((List.range p.rows).map fun i => (List.range p.cols).map fun j => r' i j))
      | .sci => sci gs rest (.whole ((List.range p.rows).map fun i => (List.range p.cols).map fun j => r' i j))
      | .svi => svi gs rest (.whole ((List.range p.rows).map fun i => (List.range p.cols).map fun j => r' i j)) := by
  unfold bearing
  simp only [maskArray]
  cases hf : flatten lstsq p Option.none curved noFlat with
  | error e => exact Or.inl ⟨e, rfl⟩
  | ok eta =>
    obtain ⟨h1, h2, r', hr'⟩ := flatten_heights hp hf
    refine Or.inr ⟨r', leftOut eta Option.none, ?_⟩
    dsimp only
    rw [kept_whole hr' (by omega) (by omega), h1, h2]
    cases name <;> rfl

theorem bearing_picked {lstsq : List (List ℝ) → List (Option ℝ) → Option (List ℝ)} (gs : Option ℝ) {p : Arr (Option ℝ)} {m : Arr Bool} (hm : m.rows = p.rows ∧ m.cols = p.cols) {l : List ℝ}
    (hl : valuesAt p (selected p.rows p.cols (some m)) = l.map some) (curved : Bool) (name : BParam) :
    bearing lstsq gs p (.array m) curved true name =
      match name with
      | .stp => stp gs (.picked l)
      | .sbi => sbi (.picked l)
      | .sci => sci gs (leftOut p (some m)) (.picked l)
      | .svi => svi gs (leftOut p (some m)) (.picked l) := by
  unfold bearing
  simp only [maskArray, if_pos hm, flatten, if_true, kept, hl, mapM_some]
  cases name <;> rfl

/-! ## Without a mask -/

/-- **C125 is false: without a mask.** For every profile with at least two rows and columns and every grid spacing the parameters stp, sci and svi raise an exception, with and without flattening. -/
theorem C125_unmasked_wrong (lstsq : List (List ℝ) → List (Option ℝ) → Option (List ℝ)) (gs : Option ℝ) {p : Arr (Option ℝ)} {r : ℕ → ℕ → ℝ} (hp : Heights p r) (hr : 2 ≤ p.rows) (hc : 2 ≤ p.cols)
    (curved noFlat : Bool) :
    (∃ e, bearing lstsq gs p .none curved noFlat .stp = .error (.py e)) ∧ (∃ e, bearing lstsq gs p .none curved noFlat .sci = .error (.py e)) ∧
      ∃ e, bearing lstsq gs p .none curved noFlat .svi = .error (.py e) := by
  refine ⟨?_, ?_, ?_⟩
  · rcases bearing_whole (lstsq := lstsq) gs hp hr hc curved noFlat .stp with h | ⟨r', rest, h⟩
    · exact h
    · exact ⟨.valueError, h⟩
  · rcases bearing_whole (lstsq := lstsq) gs hp hr hc curved noFlat .sci with h | ⟨r', rest, h⟩
    · exact h
    · rw [h]
      simp only [sci]
      split
      · exact ⟨_, rfl⟩
      · exact ⟨_, rfl⟩
  · rcases bearing_whole (lstsq := lstsq) gs hp hr hc curved noFlat .svi with h | ⟨r', rest, h⟩
    · exact h
    · rw [h]
      simp only [svi]
      rw [List.getElem?_eq_none (by
        rw [flatten_length]
        simp only [List.length_map, List.length_range]
        rw [Nat.le_div_iff_mul_le (by norm_num)]
        nlinarith)]
      exact ⟨_, rfl⟩

/-- A profile with two rows and three columns. -/
example : Heights ⟨2, 3, fun i j => some (i - j : ℝ)⟩ (fun i j => (i - j : ℝ)) ∧ bearing (fun _ _ => Option.none) (some 1) ⟨2, 3, fun i j => some (i - j : ℝ)⟩ .none false true .stp = .error (.py .valueError) := by
  refine ⟨fun i j _ _ => rfl, ?_⟩
  unfold bearing
  simp only [maskArray, flatten, if_true, kept_whole (p := ⟨2, 3, fun i j => some (i - j : ℝ)⟩) (r := fun i j => (i - j : ℝ)) (fun i j _ _ => rfl) (by norm_num) (by norm_num), stp]

/-- **C125 is false: the bearing index without a mask.** For a profile with at least 20 columns (and two rows) it raises an exception, `IndexError` if the profile is not flattened; with less columns the result is an array with an entry for each column. -/
theorem C125_sbi_unmasked_wrong (lstsq : List (List ℝ) → List (Option ℝ) → Option (List ℝ)) (gs : Option ℝ) {p : Arr (Option ℝ)} {r : ℕ → ℕ → ℝ} (hp : Heights p r) (hr : 2 ≤ p.rows) (hc : 2 ≤ p.cols)
    (curved : Bool) :
    (20 ≤ p.cols → (∀ noFlat, ∃ e, bearing lstsq gs p .none curved noFlat .sbi = .error (.py e)) ∧ bearing lstsq gs p .none curved true .sbi = .error (.py .indexError)) ∧
    (p.cols < 20 → ∃ l, bearing lstsq gs p .none curved true .sbi = .ok (.arr l) ∧ l.length = p.cols) := by
  constructor
  · intro h20
    have key : ∀ r' : ℕ → ℕ → ℝ, sbi (.whole ((List.range p.rows).map fun i => (List.range p.cols).map fun j => r' i j)) = .error (.py .indexError) := by
      intro r'
      simp only [sbi]
      rw [List.getElem?_eq_none (by
        rw [flatten_length]
        simp only [List.length_map, List.length_range]
        rw [Nat.le_div_iff_mul_le (by norm_num)]
        nlinarith)]
    constructor
    · intro noFlat
      rcases bearing_whole (lstsq := lstsq) gs hp hr hc curved noFlat .sbi with h | ⟨r', rest, h⟩
      · exact h
      · rw [h]
        exact ⟨_, key r'⟩
    · unfold bearing
      simp only [maskArray, flatten, if_true, kept_whole hp hr hc]
      exact key r
  · intro h20
    unfold bearing
    simp only [maskArray, flatten, if_true, kept_whole hp hr hc, sbi]
    have hi : p.rows * p.cols / 20 < p.rows := by
      rw [Nat.div_lt_iff_lt_mul (by norm_num)]
      nlinarith
    rw [List.getElem?_eq_getElem (by rw [flatten_length]; simpa using hi)]
    refine ⟨_, rfl, ?_⟩
    simp [sortValues_length]

/-- A profile with 20 columns and one with 19. -/
example : (∃ e, bearing (fun _ _ => Option.none) Option.none ⟨2, 20, fun i j => some (i - j : ℝ)⟩ .none false false .sbi = .error (.py e)) ∧
    ∃ l, bearing (fun _ _ => Option.none) Option.none ⟨2, 19, fun i j => some (i - j : ℝ)⟩ .none false true .sbi = .ok (.arr l) ∧ l.length = 19 :=
  ⟨((C125_sbi_unmasked_wrong _ _ (r := fun i j => (i - j : ℝ)) (fun i j _ _ => rfl) (by norm_num) (by norm_num) false).1 (by norm_num)).1 false,
    (C125_sbi_unmasked_wrong _ _ (p := ⟨2, 19, fun i j => some (i - j : ℝ)⟩) (r := fun i j => (i - j : ℝ)) (fun i j _ _ => rfl) (by norm_num) (by norm_num) false).2 (by norm_num)⟩

/-! ## With a mask -/

/-- **C125, the bearing index with a mask.** It is the root mean square height of the points that the mask keeps over the height with number N / 20 from below. -/
theorem C125_sbi_partial (lstsq : List (List ℝ) → List (Option ℝ) → Option (List ℝ)) (gs : Option ℝ) {p : Arr (Option ℝ)} {m : Arr Bool} (hm : m.rows = p.rows ∧ m.cols = p.cols) {l : List ℝ}
    (hl : valuesAt p (selected p.rows p.cols (some m)) = l.map some) (hne : l ≠ []) (curved : Bool) :
    ∃ x, FromBelow l (l.length / 20) x ∧ (x ≠ 0 → bearing lstsq gs p (.array m) curved true .sbi = .ok (.num (some (Real.sqrt ((l.map fun v => v ^ 2).sum / l.length) / x)))) ∧
      (x = 0 → bearing lstsq gs p (.array m) curved true .sbi = .ok (.num Option.none)) := by
  have hpos : 0 < l.length := List.length_pos_of_ne_nil hne
  have hk : l.length / 20 < (sortValues l).length := by rw [sortValues_length]; omega
  refine ⟨_, sorted_fromBelow l _ hk, fun hx => ?_, fun hx => ?_⟩ <;>
    rw [bearing_picked gs hm hl] <;> simp only [sbi] <;> rw [List.getElem?_eq_getElem hk] <;> simp [divide, hx, rms]

/-- Two points, of which the mask keeps both (`C125_stp_spacing_wrong` too). -/
example : valuesAt ⟨1, 2, fun _ j => some (if j = 0 then 1 else -1 : ℝ)⟩ (selected 1 2 (some ⟨1, 2, fun _ _ => true⟩)) = ([1, -1] : List ℝ).map some := by
  simp [valuesAt, selected, used, List.range_succ, List.product]

/-- **C125 is false: the height of the bearing index.** The height used is not the level with at most 5 % of the points above it: for two or more points with different heights more than 5 % of them, all but N / 20 + 1, are above it. -/
theorem C125_sbi_level_wrong {l : List ℝ} (hn : l.Nodup) (h2 : 2 ≤ l.length) {x : ℝ} (hx : FromBelow l (l.length / 20) x) : ¬ BearingLevel l (l.length / 20) x := by
  rintro ⟨_, h⟩
  have := fromBelow_above hn hx
  omega

/-- Of the heights 1 and -1 the lower one is used. -/
example : FromBelow [1, -1] (([1, -1] : List ℝ).length / 20) (-1) ∧ ([1, -1] : List ℝ).Nodup ∧ BearingLevel [1, -1] (([1, -1] : List ℝ).length / 20) 1 := by
  refine ⟨⟨by simp, ?_, ?_⟩, by norm_num, by simp, ?_⟩
  · norm_num
  · norm_num
  · norm_num

/-- **C125 is false: `stp` without a grid spacing** raises `TypeError`, although the bearing curve does not depend on it. -/
theorem C125_stp_spacing_wrong (lstsq : List (List ℝ) → List (Option ℝ) → Option (List ℝ)) {p : Arr (Option ℝ)} {m : Arr Bool} (hm : m.rows = p.rows ∧ m.cols = p.cols) {l : List ℝ}
    (hl : valuesAt p (selected p.rows p.cols (some m)) = l.map some) (hne : l ≠ []) (curved : Bool) :
    bearing lstsq Option.none p (.array m) curved true .stp = .error (.py .typeError) := by
  rw [bearing_picked _ hm hl]
  obtain ⟨v, vs, rfl⟩ := List.exists_cons_of_ne_nil hne
  rfl

/-- **C125 is false: the core fluid retention index.** With a mask that keeps two or more points it raises `TypeError`, with a mask that keeps none `IndexError`. -/
theorem C125_sci_wrong (lstsq : List (List ℝ) → List (Option ℝ) → Option (List ℝ)) (gs : Option ℝ) {p : Arr (Option ℝ)} {m : Arr Bool} (hm : m.rows = p.rows ∧ m.cols = p.cols) {l : List ℝ}
    (hl : valuesAt p (selected p.rows p.cols (some m)) = l.map some) (hne : l.length ≠ 1) (curved : Bool) :
    bearing lstsq gs p (.array m) curved true .sci = .error (.py (if l = [] then .indexError else .typeError)) := by
  rw [bearing_picked gs hm hl]
  match l, hne with
  | [], _ => simp [sci, sortValues]
  | a :: b :: t, _ =>
    simp only [sci]
    rw [List.getElem?_eq_getElem (by rw [sortValues_length]; simp only [List.length_cons]; omega)]
    simp

/-- **C125, a mask that keeps nothing.** stp raises `ValueError` (no smallest height), the other parameters `IndexError`, whatever the grid spacing. -/
theorem C125_nothing_kept (lstsq : List (List ℝ) → List (Option ℝ) → Option (List ℝ)) (gs : Option ℝ) {p : Arr (Option ℝ)} {m : Arr Bool} (hm : m.rows = p.rows ∧ m.cols = p.cols)
    (hl : valuesAt p (selected p.rows p.cols (some m)) = []) (curved : Bool) (name : BParam) :
    bearing lstsq gs p (.array m) curved true name = .error (.py (match name with | .stp => .valueError | _ => .indexError)) := by
  rw [bearing_picked (l := []) gs hm hl]
  cases name <;> simp [stp, sbi, sci, svi, sortValues]

example := C125_nothing_kept (fun _ _ => Option.none) (some 1) (p := ⟨1, 2, fun _ _ => some 1⟩) (m := ⟨1, 2, fun _ _ => false⟩) ⟨rfl, rfl⟩ (by simp [valuesAt, selected, used, List.range_succ, List.product]) false .svi

/-- The two points. -/
example : bearing (fun _ _ => Option.none) (some 1) ⟨1, 2, fun _ j => some (if j = 0 then 1 else -1 : ℝ)⟩ (.array ⟨1, 2, fun _ _ => true⟩) false true .sci = .error (.py .typeError) := by
  rw [C125_sci_wrong (l := [1, -1]) _ _ ⟨rfl, rfl⟩ (by simp [valuesAt, selected, used, List.range_succ, List.product]) (by simp)]
  simp

/-- **C125 is false: the core fluid retention index of a single point.** The value is used as an index: at 5/4 or above, and at -5/2 or below, it raises `IndexError`. -/
theorem C125_sci_single_wrong (lstsq : List (List ℝ) → List (Option ℝ) → Option (List ℝ)) (gs : Option ℝ) {p : Arr (Option ℝ)} {m : Arr Bool} (hm : m.rows = p.rows ∧ m.cols = p.cols) {v : ℝ}
    (hl : valuesAt p (selected p.rows p.cols (some m)) = [some v]) (hv : 5 / 4 ≤ v ∨ v ≤ -(5 / 2)) (curved : Bool) :
    bearing lstsq gs p (.array m) curved true .sci = .error (.py .indexError) := by
  rw [bearing_picked (l := [v]) gs hm hl]
  have hs : (sortValues [v])[[v].length / 20]? = some v := by simp [sortValues]
  simp only [sci, hs]
  rw [if_neg]
  unfold truncate
  rcases hv with h | h
  · rw [if_pos (by linarith)]
    have : 1 ≤ ⌊v * 0.8⌋ := Int.le_floor.2 (by push_cast; linarith)
    omega
  · rw [if_neg (by push Not; linarith)]
    have : ⌈v * 0.8⌉ ≤ -2 := Int.ceil_le.2 (by push_cast; linarith)
    omega

/-- A single point of height 2. -/
example : valuesAt ⟨1, 1, fun _ _ => some (2 : ℝ)⟩ (selected 1 1 (some ⟨1, 1, fun _ _ => true⟩)) = [some 2] ∧ (5 / 4 : ℝ) ≤ 2 := by
  constructor
  · simp [valuesAt, selected, used, List.product]
  · norm_num

theorem voidOf_some (h : ℝ) (o : List ℝ) : voidOf h (o.map some) = match matVr h o true with
    | .error e => .error (.py e)
    | .ok l => .ok l := by
  simp only [voidOf, mapM_some]
  cases matVr h o true <;> rfl

/-- **C125 is false: the valley fluid retention index.** The height is that with number 4 N / 5 from below of the points that the mask keeps, but the volume is that of the points `o` that the mask leaves out: a mask that keeps all
raises `ValueError`; otherwise the result is an array with an entry for each of the points left out, and without a grid spacing a `TypeError`. -/
theorem C125_svi_wrong (lstsq : List (List ℝ) → List (Option ℝ) → Option (List ℝ)) {p : Arr (Option ℝ)} {m : Arr Bool} (hm : m.rows = p.rows ∧ m.cols = p.cols) {l o : List ℝ}
    (hl : valuesAt p (selected p.rows p.cols (some m)) = l.map some) (hne : l ≠ [])
    (ho : valuesAt p (selected p.rows p.cols (some ⟨m.rows, m.cols, fun i j => !m.val i j⟩)) = o.map some) (curved : Bool) :
    (o = [] → ∀ gs, bearing lstsq gs p (.array m) curved true .svi = .error (.py .valueError)) ∧
    (o ≠ [] → bearing lstsq Option.none p (.array m) curved true .svi = .error (.py .typeError) ∧
      ∀ gs, ∃ a, bearing lstsq (some gs) p (.array m) curved true .svi = .ok (.arr a) ∧ a.length = o.length) := by
  have hpos : 0 < l.length := List.length_pos_of_ne_nil hne
  have hk : 4 * l.length / 5 < (sortValues l).length := by rw [sortValues_length]; omega
  have key : ∀ gs, bearing lstsq gs p (.array m) curved true .svi = match voidOf (sortValues l)[4 * l.length / 5] (o.map some) with
      | .error e => .error e
      | .ok a => perArea gs l a := by
    intro gs
    rw [bearing_picked gs hm hl]
    simp only [svi]
    rw [List.getElem?_eq_getElem hk]
    simp only [leftOut, ho]
    cases voidOf (sortValues l)[4 * l.length / 5] (o.map some) <;> rfl
  constructor
  · rintro rfl gs
    rw [key]
    simp [voidOf, matVr]
  · intro h
    obtain ⟨a, ha⟩ : ∃ a, matVr (sortValues l)[4 * l.length / 5] o true = .ok a ∧ a.length = o.length := by
      cases o with
      | nil => exact absurd rfl h
      | cons v vs => exact ⟨_, rfl, by simp⟩
    constructor
    · rw [key, voidOf_some, ha.1]
      rfl
    · intro gs
      rw [key, voidOf_some, ha.1]
      exact ⟨_, rfl, by simp [ha.2]⟩

/-- Three points, of which the mask keeps one. -/
example : ∃ a, bearing (fun _ _ => Option.none) (some 1) ⟨1, 3, fun _ j => some (j : ℝ)⟩ (.array ⟨1, 3, fun _ j => j == 1⟩) false true .svi = .ok (.arr a) ∧ a.length = 2 :=
  ((C125_svi_wrong _ (p := ⟨1, 3, fun _ j => some (j : ℝ)⟩) (m := ⟨1, 3, fun _ j => j == 1⟩) ⟨rfl, rfl⟩ (l := [1]) (o := [0, 2]) (by simp [valuesAt, selected, used, List.range_succ, List.product]) (by simp)
    (by simp [valuesAt, selected, used, List.range_succ, List.product]) false).2 (by simp)).2 1

theorem foldl_min_mem (vs : List ℝ) (v : ℝ) : vs.foldl min v ∈ v :: vs ∧ ∀ x ∈ v :: vs, vs.foldl min v ≤ x := by
  induction vs generalizing v with
  | nil => simp
  | cons a t ih =>
    obtain ⟨h1, h2⟩ := ih (min v a)
    rw [List.foldl_cons]
    constructor
    · rcases List.mem_cons.1 h1 with h | h
      · rw [h]
        rcases min_choice v a with e | e <;> rw [e] <;> simp
      · simp [h]
    · intro x hx
      have h3 := h2 (min v a) (by simp)
      rcases List.mem_cons.1 hx with rfl | hx
      · exact h3.trans (min_le_left _ _)
      · rcases List.mem_cons.1 hx with rfl | hx
        · exact h3.trans (min_le_right _ _)
        · exact h2 x (by simp [hx])

theorem foldl_max_mem (vs : List ℝ) (v : ℝ) : vs.foldl max v ∈ v :: vs ∧ ∀ x ∈ v :: vs, x ≤ vs.foldl max v := by
  induction vs generalizing v with
  | nil => simp
  | cons a t ih =>
    obtain ⟨h1, h2⟩ := ih (max v a)
    rw [List.foldl_cons]
    constructor
    · rcases List.mem_cons.1 h1 with h | h
      · rw [h]
        rcases max_choice v a with e | e <;> rw [e] <;> simp
      · simp [h]
    · intro x hx
      have h3 := h2 (max v a) (by simp)
      rcases List.mem_cons.1 hx with rfl | hx
      · exact (le_max_left _ _).trans h3
      · rcases List.mem_cons.1 hx with rfl | hx
        · exact (le_max_right _ _).trans h3
        · exact h2 x (by simp [hx])

/-- **C125, the bearing curve with a mask.** For heights that are not all zero and a grid spacing there are 100 heights, in equal steps from the lowest to the highest height over the root mean square; each ratio is the number of
points whose height, not divided by anything, is below, over the area of the points kept. -/
theorem C125_stp_partial (lstsq : List (List ℝ) → List (Option ℝ) → Option (List ℝ)) {gs : ℝ} (hg : gs ≠ 0) {p : Arr (Option ℝ)} {m : Arr Bool} (hm : m.rows = p.rows ∧ m.cols = p.cols) {l : List ℝ}
    (hl : valuesAt p (selected p.rows p.cols (some m)) = l.map some) {s : ℝ} (hs : s = Real.sqrt ((l.map fun v => v ^ 2).sum / l.length)) (h0 : s ≠ 0) (curved : Bool) :
    ∃ lo ∈ l, ∃ hi ∈ l, (∀ x ∈ l, lo ≤ x ∧ x ≤ hi) ∧ ∃ h : ℕ → ℝ, (∀ k, h k = lo / s + k * ((hi / s - lo / s) / 99)) ∧
      bearing lstsq (some gs) p (.array m) curved true .stp = .ok (.curve ((List.range 100).map fun k => some (h k))
        ((List.range 100).map fun k => some (((l.filter fun x => x < h k).length : ℝ) / (l.length * gs ^ 2)))) := by
  cases l with
  | nil => simp at hs; exact absurd hs h0
  | cons v vs =>
    obtain ⟨a1, a2⟩ := foldl_min_mem vs v
    obtain ⟨b1, b2⟩ := foldl_max_mem vs v
    refine ⟨_, a1, _, b1, fun x hx => ⟨a2 x hx, b2 x hx⟩, fun k => vs.foldl min v / s + k * ((vs.foldl max v / s - vs.foldl min v / s) / 99), fun k => rfl, ?_⟩
    rw [bearing_picked (some gs) hm hl]
    simp only [stp]
    have hrms : rms (v :: vs) = s := hs.symm
    rw [hrms, if_neg h0]
    have hA : ((v :: vs).length : ℝ) * gs ^ 2 ≠ 0 := mul_ne_zero (by simp only [List.length_cons]; positivity) (pow_ne_zero 2 hg)
    simp only [linspace, List.map_map]
    congr 2
    apply List.map_congr_left
    intro k _
    simp only [Function.comp_apply, divide, if_neg hA]
    congr 2
    rw [List.countP_eq_length_filter]

/-- The heights 1 and -1 have the root mean square 1. -/
example : Real.sqrt ((([1, -1] : List ℝ).map fun v => v ^ 2).sum / ([1, -1] : List ℝ).length) = 1 := by
  norm_num

/-- **C125 is false: the bearing curve compares unscaled heights.** For the heights `a` and `-a` with `a > 1` and the spacing 1 every ratio is 1/2, though the share of points below the first relative height is 0. -/
theorem C125_stp_scale_wrong (lstsq : List (List ℝ) → List (Option ℝ) → Option (List ℝ)) {a : ℝ} (ha : 1 < a) :
    bearing lstsq (some 1) ⟨1, 2, fun _ j => some (if j = 0 then a else -a)⟩ (.array ⟨1, 2, fun _ _ => true⟩) false true .stp =
      .ok (.curve ((List.range 100).map fun k : ℕ => some (-1 + k * (2 / 99))) (List.replicate 100 (some (1 / 2)))) ∧ shareBelow [a, -a] (-1) = 0 := by
  have ha0 : 0 < a := by linarith
  have hs : Real.sqrt ((([a, -a] : List ℝ).map fun v => v ^ 2).sum / ([a, -a] : List ℝ).length) = a := by
    have : (([a, -a] : List ℝ).map fun v => v ^ 2).sum / (([a, -a] : List ℝ).length : ℝ) = a ^ 2 := by simp
    rw [this, Real.sqrt_sq ha0.le]
  constructor
  · rw [bearing_picked (l := [a, -a]) (some 1) ⟨rfl, rfl⟩ (by simp [valuesAt, selected, used, List.range_succ, List.product])]
    simp only [stp]
    have hrms : rms [a, -a] = a := hs
    rw [hrms, if_neg ha0.ne']
    have e1 : ([-a] : List ℝ).foldl min a / a = -1 := by
      simp only [List.foldl_cons, List.foldl_nil]
      rw [min_eq_right (by linarith)]
      field_simp
    have e2 : ([-a] : List ℝ).foldl max a / a = 1 := by
      simp only [List.foldl_cons, List.foldl_nil]
      rw [max_eq_left (by linarith)]
      field_simp
    rw [e1, e2]
    simp only [linspace, List.map_map]
    refine congrArg Except.ok ?_
    have e3 : (1 - -1 : ℝ) = 2 := by norm_num
    rw [e3]
    congr 1
    rw [show List.replicate 100 (some (1 / 2 : ℝ)) = (List.range 100).map fun _ => some (1 / 2 : ℝ) by simp [List.map_const']]
    apply List.map_congr_left
    intro k hk
    have hk : (k : ℝ) ≤ 99 := by exact_mod_cast Nat.le_of_lt_succ (List.mem_range.1 hk)
    have hk0 : (0 : ℝ) ≤ k := Nat.cast_nonneg k
    simp only [Function.comp_apply, List.countP_cons, List.countP_nil]
    have c1 : ¬ a < -1 + k * (2 / 99) := by linarith
    have c2 : -a < -1 + k * (2 / 99) := by linarith
    simp [c1, c2, divide]
  · unfold shareBelow
    rw [hs]
    have d1 : a / a = 1 := div_self ha0.ne'
    have d2 : -a / a = -1 := by rw [neg_div, d1]
    simp [d1, d2]

example : (1 : ℝ) < 2 := by norm_num

/-- **C125 is false: the unit of the bearing curve.** The ratios are divided by the square of the grid spacing: for the heights `a` and `-a` with `0 < a < 1` all points are below the last height, and the last ratio is not 1 but
`1 / gs ^ 2`. -/
theorem C125_stp_area_wrong (lstsq : List (List ℝ) → List (Option ℝ) → Option (List ℝ)) {a gs : ℝ} (h0 : 0 < a) (h1 : a < 1) (hg : gs ≠ 0) :
    ∃ hs rs, bearing lstsq (some gs) ⟨1, 2, fun _ j => some (if j = 0 then a else -a)⟩ (.array ⟨1, 2, fun _ _ => true⟩) false true .stp = .ok (.curve hs rs) ∧ hs[99]? = some (some 1) ∧ rs[99]? = some (some (1 / gs ^ 2)) := by
  have hs : Real.sqrt ((([a, -a] : List ℝ).map fun v => v ^ 2).sum / ([a, -a] : List ℝ).length) = a := by
    have : (([a, -a] : List ℝ).map fun v => v ^ 2).sum / (([a, -a] : List ℝ).length : ℝ) = a ^ 2 := by simp
    rw [this, Real.sqrt_sq h0.le]
  obtain ⟨lo, hlo, hi, hhi, hb, h, hh, he⟩ := C125_stp_partial lstsq hg (p := ⟨1, 2, fun _ j => some (if j = 0 then a else -a)⟩) (m := ⟨1, 2, fun _ _ => true⟩) ⟨rfl, rfl⟩ (l := [a, -a])
    (by simp [valuesAt, selected, used, List.range_succ, List.product]) hs.symm h0.ne' false
  have b1 := hb a (by simp)
  have b2 := hb (-a) (by simp)
  have e1 : lo = -a := by
    simp only [List.mem_cons, List.not_mem_nil, or_false] at hlo
    rcases hlo with rfl | rfl
    · linarith
    · rfl
  have e2 : hi = a := by
    simp only [List.mem_cons, List.not_mem_nil, or_false] at hhi
    rcases hhi with rfl | rfl
    · rfl
    · linarith
  have e3 : h 99 = 1 := by
    rw [hh, e1, e2]
    field_simp
    norm_num
  refine ⟨_, _, he, ?_, ?_⟩
  · rw [List.getElem?_map, List.getElem?_range (by norm_num)]
    simp [e3]
  · rw [List.getElem?_map, List.getElem?_range (by norm_num)]
    have c1 : -a < (1 : ℝ) := by linarith
    simp only [Option.map_some, e3]
    simp [h1, c1]
    field_simp

example : (0 : ℝ) < 1 / 2 ∧ (1 / 2 : ℝ) < 1 ∧ (1 / 10 : ℝ) ≠ 0 := by norm_num

/-- **C125 is false: names.** The names Sdelq, Smr and Svr of the description are refused. -/
theorem C125_names_wrong : branch "Sdelq" = .error .valueError ∧ branch "Smr" = .error .valueError ∧ branch "Svr" = .error .valueError ∧ branch "Sbi" = .ok "sbi" := by
  decide +kernel

end Verif.Rough
