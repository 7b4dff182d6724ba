import Verif.Holes.Props

/-!
# Filling holes (C107): rows of holes, and which values are holes
-/

namespace Verif.Holes

open Verif

variable {K : Type} [Field K] [LinearOrder K]

/-! ## Specification -/

/-- What the docstring calls a hole: the given value, or for `'auto'` a value that is not a finite number. -/
def Missing : HoleValue K → Option K → Prop
  | .auto, x => x = none
  | .value v, x => x = some v

/-- The rows `r0 ≤ i < r1` have no holes, the others have nothing else. -/
def RowsOf (R C : ℕ) (hole : ℕ → ℕ → Prop) (r0 r1 : ℕ) : Prop := ∀ i j, i < R → j < C → (hole i j ↔ i < r0 ∨ r1 ≤ i)

/-! ## The loops -/

theorem isHole_iff (h : HoleValue K) (x : Option K) : isHole h x = true ↔ Missing h x := by
  cases h <;> simp [isHole, Missing]

section rows

variable [IsStrictOrderedRing K]

theorem mostly_none {thresh : K} (h0 : 0 ≤ thresh) {line : ℕ → Bool} {n start e : ℕ} (h : ∀ j, start ≤ j → j < n - e → line j = false) : mostly thresh line n start e = false := by
  unfold mostly
  rw [decide_eq_false_iff_not]
  rintro ⟨hne, hlt⟩
  have hf : (List.range' start (n - e - start)).filter line = [] := by
    rw [List.filter_eq_nil_iff]
    intro j hj
    rw [List.mem_range'_1] at hj
    rw [h j hj.1 (by omega)]
    simp
  rw [hf] at hlt
  simp at hlt
  exact absurd hlt (not_lt.2 h0)

variable {thresh : K} {R C : ℕ} {hole : ℕ → ℕ → Bool} {r0 r1 : ℕ} (h0 : 0 ≤ thresh) (ht : thresh < 1) (hr : r0 < r1) (hr' : r1 ≤ R) (hC : 2 * r0 < C) (hC' : 2 * (R - r1) < C)
  (hh : RowsOf R C (fun i j => hole i j = true) r0 r1)

/-- After `k` passes. -/
structure RowInv (R r0 r1 k : ℕ) (b : Box) (g : Good) : Prop where
  startR : b.startR = min k r0
  endR : b.endR = min k (R - r1)
  startC : b.startC ≤ min k (max r0 (R - r1))
  endC : b.endC ≤ min k (max r0 (R - r1))
  top : g.top = true → r0 ≤ k
  bottom : g.bottom = true → R - r1 ≤ k

include h0 ht hr hr' hC hC' hh in
theorem cutPass_rows {k : ℕ} {b : Box} {g : Good} (h : RowInv R r0 r1 k b g) : ∃ s, cutPass thresh R C hole b g = .ok s ∧ RowInv R r0 r1 (k + 1) s.1 s.2 := by
  obtain ⟨q1, q2, q3, q4, q5, q6⟩ := h
  have hno : ∀ i j, i < R → j < C → r0 ≤ i → i < r1 → hole i j = false := by
    intro i j hi hj a1 a2
    rw [← Bool.not_eq_true]
    exact fun hx => by have := (hh i j hi hj).1 hx; omega
  have e1 : ∃ g1 : Good, cutTop thresh R C hole b g = .ok ({ b with startR := min (k + 1) r0 }, g1) ∧ (g1.top = true → r0 ≤ k + 1) ∧ g1.bottom = g.bottom := by
    unfold cutTop
    rw [if_neg (by omega)]
    by_cases hk : k < r0
    · rw [if_pos (mostly_all ht (by omega) fun j _ hj => (hh _ j (by omega) (by omega)).2 (by omega))]
      refine ⟨g, ?_, fun hg => by have := q5 hg; omega, rfl⟩
      congr 3
      omega
    · rw [if_neg (by rw [mostly_none h0 fun j _ hj => hno _ j (by omega) (by omega) (by omega) (by omega)]; simp)]
      refine ⟨{ g with top := true }, ?_, fun _ => by omega, rfl⟩
      have : b.startR = min (k + 1) r0 := by omega
      rw [← this]
  obtain ⟨g1, e1, t1, t1'⟩ := e1
  have e2 : ∃ g2 : Good, cutBottom thresh R C hole { b with startR := min (k + 1) r0 } g1 = .ok ({ b with startR := min (k + 1) r0, endR := min (k + 1) (R - r1) }, g2) ∧ g2.top = g1.top ∧ (g2.bottom = true → R - r1 ≤ k + 1) := by
    unfold cutBottom
    dsimp only
    rw [if_neg (by omega)]
    by_cases hk : k < R - r1
    · rw [if_pos (mostly_all ht (by omega) fun j _ hj => (hh _ j (by omega) (by omega)).2 (by omega))]
      refine ⟨g1, ?_, rfl, fun hg => by have := q6 (t1' ▸ hg); omega⟩
      congr 3
      omega
    · rw [if_neg (by rw [mostly_none h0 fun j _ hj => hno _ j (by omega) (by omega) (by omega) (by omega)]; simp)]
      refine ⟨{ g1 with bottom := true }, ?_, rfl, fun _ => by omega⟩
      have : b.endR = min (k + 1) (R - r1) := by omega
      rw [← this]
  obtain ⟨g2, e2, t2, t2'⟩ := e2
  have e3 : ∃ c g3, cutLeft thresh R C hole { b with startR := min (k + 1) r0, endR := min (k + 1) (R - r1) } g2 = .ok ({ b with startR := min (k + 1) r0, endR := min (k + 1) (R - r1), startC := c }, g3) ∧
      c ≤ min (k + 1) (max r0 (R - r1)) ∧ g3.top = g2.top ∧ g3.bottom = g2.bottom := by
    unfold cutLeft
    dsimp only
    rw [if_neg (by omega)]
    by_cases hk : k + 1 < max r0 (R - r1)
    · split_ifs
      · exact ⟨_, _, rfl, by omega, rfl, rfl⟩
      · exact ⟨_, _, rfl, by omega, rfl, rfl⟩
    · rw [if_neg (by rw [mostly_none h0 fun i _ hi => hno i _ (by omega) (by omega) (by omega) (by omega)]; simp)]
      exact ⟨_, _, rfl, by omega, rfl, rfl⟩
  obtain ⟨c, g3, e3, t3, t3', t3''⟩ := e3
  have e4 : ∃ d g4, cutRight thresh R C hole { b with startR := min (k + 1) r0, endR := min (k + 1) (R - r1), startC := c } g3 =
      .ok ({ b with startR := min (k + 1) r0, endR := min (k + 1) (R - r1), startC := c, endC := d }, g4) ∧
      d ≤ min (k + 1) (max r0 (R - r1)) ∧ g4.top = g3.top ∧ g4.bottom = g3.bottom := by
    unfold cutRight
    dsimp only
    rw [if_neg (by omega)]
    by_cases hk : k + 1 < max r0 (R - r1)
    · split_ifs
      · exact ⟨_, _, rfl, by omega, rfl, rfl⟩
      · exact ⟨_, _, rfl, by omega, rfl, rfl⟩
    · rw [if_neg (by rw [mostly_none h0 fun i _ hi => hno i _ (by omega) (by omega) (by omega) (by omega)]; simp)]
      exact ⟨_, _, rfl, by omega, rfl, rfl⟩
  obtain ⟨d, g4, e4, t4, t4', t4''⟩ := e4
  refine ⟨_, by unfold cutPass; simp only [bind, Except.bind, e1, e2, e3]; exact e4, rfl, rfl, t3, t4, fun hg => t1 ?_, fun hg => t2' ?_⟩
  · rw [← t2, ← t3', ← t4']; exact hg
  · rw [← t3'', ← t4'']; exact hg

include h0 ht hr hr' hC hC' hh in
theorem cut_rows : ∀ (n k : ℕ) (b : Box) (g : Good), RowInv R r0 r1 k b g → cut thresh R C hole n b g = none ∨
    ∃ c d, c ≤ max r0 (R - r1) ∧ d ≤ max r0 (R - r1) ∧ cut thresh R C hole n b g = some (.ok ⟨r0, R - r1, c, d⟩) := by
  intro n
  have fin : ∀ (n k : ℕ) (b : Box) (g : Good), RowInv R r0 r1 k b g → g.all = true → ∃ c d, c ≤ max r0 (R - r1) ∧ d ≤ max r0 (R - r1) ∧ cut thresh R C hole n b g = some (.ok ⟨r0, R - r1, c, d⟩) := by
    intro n k b g h hg
    rw [cut_all hg]
    simp only [Good.all, Bool.and_eq_true] at hg
    obtain ⟨⟨⟨g1, g2⟩, -⟩, -⟩ := hg
    have := h.top g1
    have := h.bottom g2
    obtain ⟨q1, q2, q3, q4, -, -⟩ := h
    obtain ⟨x1, x2, x3, x4⟩ := b
    dsimp only at q1 q2 q3 q4
    refine ⟨x3, x4, by omega, by omega, ?_⟩
    congr 3 <;> omega
  induction n with
  | zero =>
    intro k b g h
    by_cases hg : g.all = true
    · exact .inr (fin 0 k b g h hg)
    · left
      rw [cut, if_neg hg]
  | succ n ih =>
    intro k b g h
    by_cases hg : g.all = true
    · exact .inr (fin _ k b g h hg)
    · obtain ⟨s, e, hs⟩ := cutPass_rows h0 ht hr hr' hC hC' hh h
      rw [cut, if_neg hg]
      simp only [e]
      exact ih (k + 1) s.1 s.2 hs

include h0 ht hr hr' hC hC' hh in
theorem addBack_rows : ∀ (n c d : ℕ) (g : Good), c ≤ max r0 (R - r1) → d ≤ max r0 (R - r1) → (g.left = false → c = 0) → (g.right = false → d = 0) →
    addBack thresh R C hole n ⟨r0, R - r1, c, d⟩ g = none ∨ addBack thresh R C hole n ⟨r0, R - r1, c, d⟩ g = some ⟨r0, R - r1, 0, 0⟩ := by
  have fin : ∀ (n c d : ℕ) (g : Good), (g.left = false → c = 0) → (g.right = false → d = 0) → g.any = false → addBack thresh R C hole n ⟨r0, R - r1, c, d⟩ g = some ⟨r0, R - r1, 0, 0⟩ := by
    intro n c d g h1 h2 hg
    rw [addBack_none hg]
    simp only [Good.any, Bool.or_eq_false_iff] at hg
    rw [h1 hg.1.2, h2 hg.2]
  have hno : ∀ i j, i < R → j < C → r0 ≤ i → i < r1 → hole i j = false := by
    intro i j hi hj a1 a2
    rw [← Bool.not_eq_true]
    exact fun hx => by have := (hh i j hi hj).1 hx; omega
  intro n
  induction n with
  | zero =>
    intro c d g _ _ h1 h2
    by_cases hg : g.any = false
    · exact .inr (fin 0 c d g h1 h2 hg)
    · left
      rw [addBack, if_neg hg]
  | succ n ih =>
    intro c d g hc hd h1 h2
    by_cases hg : g.any = false
    · exact .inr (fin _ c d g h1 h2 hg)
    · rw [addBack, if_neg hg]
      have e1 : ∀ g, addTop thresh C hole ⟨r0, R - r1, c, d⟩ g = (⟨r0, R - r1, c, d⟩, { g with top := false }) := by
        intro g
        unfold addTop
        rw [if_neg]
        rintro ⟨p1, p2⟩
        dsimp only at p1 p2
        rw [mostly_all ht (by omega) fun j _ hj => (hh _ j (by omega) (by omega)).2 (by omega)] at p2
        cases p2
      have e2 : ∀ g, addBottom thresh R C hole ⟨r0, R - r1, c, d⟩ g = (⟨r0, R - r1, c, d⟩, { g with bottom := false }) := by
        intro g
        unfold addBottom
        rw [if_neg]
        rintro ⟨p1, p2⟩
        dsimp only at p1 p2
        rw [mostly_all ht (by omega) fun j _ hj => (hh _ j (by omega) (by omega)).2 (by omega)] at p2
        cases p2
      have e3 : ∀ g : Good, (g.left = false → c = 0) → ∃ g3 : Good, addLeft thresh R hole ⟨r0, R - r1, c, d⟩ g = (⟨r0, R - r1, c - 1, d⟩, g3) ∧ (g3.left = false → c - 1 = 0) ∧ g3.right = g.right := by
        intro g hg
        unfold addLeft
        dsimp only
        by_cases h : 0 < c
        · rw [if_pos ⟨h, mostly_none h0 fun i _ hi => hno i _ (by omega) (by omega) (by omega) (by omega)⟩]
          exact ⟨g, rfl, fun hl => by have := hg hl; omega, rfl⟩
        · rw [if_neg (fun x => h x.1)]
          have : c = 0 := by omega
          subst this
          exact ⟨_, rfl, fun _ => rfl, rfl⟩
      have e4 : ∀ g : Good, (g.right = false → d = 0) → ∃ g4 : Good, addRight thresh R C hole ⟨r0, R - r1, c - 1, d⟩ g = (⟨r0, R - r1, c - 1, d - 1⟩, g4) ∧ (g4.right = false → d - 1 = 0) ∧ g4.left = g.left := by
        intro g hg
        unfold addRight
        dsimp only
        by_cases h : 0 < d
        · rw [if_pos ⟨h, mostly_none h0 fun i _ hi => hno i _ (by omega) (by omega) (by omega) (by omega)⟩]
          exact ⟨g, rfl, fun hl => by have := hg hl; omega, rfl⟩
        · rw [if_neg (fun x => h x.1)]
          have : d = 0 := by omega
          subst this
          exact ⟨_, rfl, fun _ => rfl, rfl⟩
      obtain ⟨g3, e3, l3, r3⟩ := e3 { g with top := false, bottom := false } h1
      obtain ⟨g4, e4, r4, l4⟩ := e4 g3 (by rw [r3]; exact h2)
      have hp : addPass thresh R C hole ⟨r0, R - r1, c, d⟩ g = (⟨r0, R - r1, c - 1, d - 1⟩, g4) := by
        unfold addPass
        simp only [e1, e2, e3, e4]
      rw [hp]
      exact ih (c - 1) (d - 1) g4 (by omega) (by omega) (by rw [l4]; exact l3) r4

include h0 ht hr hr' hC hC' hh in
theorem border_rows {n : ℕ} (hn : 2 * R + 2 * C + 1 ≤ n) : border thresh R C hole n = some (.ok ⟨r0, R - r1, 0, 0⟩) := by
  obtain ⟨r, hb⟩ := border_ends thresh R C hole
  have hb := hb n hn
  unfold border at hb ⊢
  rcases cut_rows h0 ht hr hr' hC hC' hh n 0 ⟨0, 0, 0, 0⟩ ⟨false, false, false, false⟩ ⟨by simp, by simp, by simp, by simp, by simp, by simp⟩ with h | ⟨c, d, hc, hd, h⟩
  · rw [h] at hb
    cases hb
  · rw [h] at hb ⊢
    dsimp only at hb ⊢
    rcases addBack_rows h0 ht hr hr' hC hC' hh n c d ⟨true, true, true, true⟩ hc hd (by simp) (by simp) with h' | h'
    · rw [h'] at hb
      cases hb
    · rw [h']
      rfl

end rows

/-! ## C107 -/

/-- **C107, rows of holes.** If the rows `r0 ≤ i < r1` have no holes and the others nothing else, and more than twice as many columns as there are rows of holes at either end, these rows are left with all their columns, whatever
the threshold: columns that are removed while the rows of holes are still there are added back. Missing: other profiles, and fewer columns. -/
theorem C107_rows_partial [IsStrictOrderedRing K] (inpaint : ℕ → ℕ → (ℕ → ℕ → Option K) → (ℕ → ℕ → Bool) → ℕ → ℕ → Option K) (h : HoleValue K) {thresh : K} (h0 : 0 ≤ thresh) (ht : thresh < 1) (p : Profile K) {r0 r1 : ℕ} (hr : r0 < r1)
    (hr' : r1 ≤ p.rows) (hC : 2 * r0 < p.cols) (hC' : 2 * (p.rows - r1) < p.cols) (hh : RowsOf p.rows p.cols (fun i j => Missing h (p.value i j)) r0 r1) {n : ℕ} (hn : 2 * p.rows + 2 * p.cols + 1 ≤ n) :
    ∃ out, fillHoles inpaint h false true thresh n ⟨p, false⟩ = some (⟨out, false⟩, .ok none) ∧ out.rows = r1 - r0 ∧ out.cols = p.cols ∧
      ∃ f m, out.value = inpaint (r1 - r0) p.cols f m ∧ ∀ i j, i < r1 - r0 → j < p.cols → f i j = p.value (r0 + i) j ∧ m i j = false := by
  have hb := border_rows (hole := fun i j => isHole h (p.value i j)) h0 ht hr hr' hC hC' (fun i j hi hj => (isHole_iff h _).trans (hh i j hi hj)) hn
  have e1 : span p.rows r0 (p.rows - r1) = r1 - r0 := by unfold span; omega
  have e2 : span p.cols 0 0 = p.cols := by unfold span; omega
  unfold fillHoles
  simp only [Surf.profile, Bool.false_eq_true, if_false, if_true, hb, e1, e2]
  refine ⟨_, rfl, rfl, rfl, _, _, rfl, fun i j hi hj => ?_⟩
  have : isHole h (p.value (r0 + i) j) = false := by
    rw [← Bool.not_eq_true, isHole_iff]
    exact fun hx => by have := (hh (r0 + i) j (by omega) hj).1 hx; omega
  simp [crop, zeroed, this]

/-- **C107, the mask.** Without `remove_boarder` the whole profile of a surface that is not inverted is given to the inpainting with exactly the holes in the mask, and with zeros there; with a copy asked for the result is returned, else it is
the profile of the surface. -/
theorem C107_mask (inpaint : ℕ → ℕ → (ℕ → ℕ → Option K) → (ℕ → ℕ → Bool) → ℕ → ℕ → Option K) (h : HoleValue K) (mkCopy : Bool) (thresh : K) (n : ℕ) (p : Profile K) :
    ∃ after r f m, fillHoles inpaint h mkCopy false thresh n ⟨p, false⟩ = some (after, .ok r) ∧ (∀ i j, m i j = true ↔ Missing h (p.value i j)) ∧ (∀ i j, Missing h (p.value i j) → f i j = some 0) ∧
      (∀ i j, ¬Missing h (p.value i j) → f i j = p.value i j) ∧ (mkCopy = true → r = some ⟨⟨p.rows, p.cols, inpaint p.rows p.cols f m⟩, false⟩) ∧
      (mkCopy = false → r = none ∧ after = ⟨⟨p.rows, p.cols, inpaint p.rows p.cols f m⟩, false⟩) := by
  have e1 : span p.rows 0 0 = p.rows := by unfold span; omega
  have e2 : span p.cols 0 0 = p.cols := by unfold span; omega
  have e3 : ∀ {A : Type} (f : ℕ → ℕ → A), crop ⟨0, 0, 0, 0⟩ f = f := fun f => funext fun i => funext fun j => by simp [crop]
  have hf : fillHoles inpaint h mkCopy false thresh n ⟨p, false⟩ =
      if mkCopy then some (⟨zeroed h p, false⟩, .ok (some ⟨⟨p.rows, p.cols, inpaint p.rows p.cols (zeroed h p).value fun i j => isHole h (p.value i j)⟩, false⟩))
      else some (⟨⟨p.rows, p.cols, inpaint p.rows p.cols (zeroed h p).value fun i j => isHole h (p.value i j)⟩, false⟩, .ok none) := by
    unfold fillHoles
    simp only [Surf.profile, Bool.false_eq_true, if_false, e1, e2, e3]
  have f1 : ∀ i j, Missing h (p.value i j) → (zeroed h p).value i j = some 0 := fun i j hm => by
    rw [← isHole_iff] at hm
    simp [zeroed, hm]
  have f2 : ∀ i j, ¬Missing h (p.value i j) → (zeroed h p).value i j = p.value i j := fun i j hm => by
    rw [← isHole_iff] at hm
    simp [zeroed, hm]
  cases mkCopy with
  | true => exact ⟨_, _, _, _, hf, fun i j => isHole_iff h _, f1, f2, fun _ => rfl, (fun e => by cases e)⟩
  | false => exact ⟨_, _, _, _, hf, fun i j => isHole_iff h _, f1, f2, (fun e => by cases e), fun _ => ⟨rfl, rfl⟩⟩

/-! ## Examples -/

/-- Six rows of holes above two rows of values, with thirteen columns and the threshold one half: in the first three passes columns are removed, too, and all are added back. -/
example (inpaint : ℕ → ℕ → (ℕ → ℕ → Option ℚ) → (ℕ → ℕ → Bool) → ℕ → ℕ → Option ℚ) : ∃ out, fillHoles inpaint (.value 0) false true (1 / 2) 43 ⟨⟨8, 13, fun i j => if i < 6 then some 0 else some (1 + i + j)⟩, false⟩ =
    some (⟨out, false⟩, .ok none) ∧ out.rows = 2 ∧ out.cols = 13 := by
  obtain ⟨out, h1, h2, h3, -⟩ := C107_rows_partial inpaint (.value 0) (thresh := (1 / 2 : ℚ)) (by norm_num) (by norm_num) ⟨8, 13, fun i j => if i < 6 then some 0 else some (1 + i + j)⟩ (r0 := 6) (r1 := 8) (by norm_num) (by norm_num)
    (by norm_num) (by norm_num) (fun i j hi hj => by
      dsimp only at hi hj
      by_cases h : i < 6
      · simp [Missing, h]
      · have : (1 + (i : ℚ) + j) ≠ 0 := by positivity
        simp only [Missing, h, if_false, Option.some.injEq, this, false_or, false_iff]
        omega) (n := 43) (by norm_num)
  exact ⟨out, h1, h2, h3⟩

example : cutPass (1 / 2 : ℚ) 8 13 (fun i _ => decide (i < 6)) ⟨0, 0, 0, 0⟩ ⟨false, false, false, false⟩ = .ok (⟨1, 0, 1, 1⟩, ⟨false, true, false, false⟩) := by decide +kernel

/-- A surface with one hole, marked by the value one. -/
example : Missing (.value (1 : ℚ)) (some 1) ∧ ¬Missing (.value (1 : ℚ)) none ∧ Missing .auto (none : Option ℚ) := ⟨rfl, by simp [Missing], rfl⟩

end Verif.Holes
