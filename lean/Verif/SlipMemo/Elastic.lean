import Verif.SlipMemo.Props
import Verif.Conv.BackendProps
import Verif.Definite.Tangential

/-!
# C160: the tangential deformation of partial slip is that of the elastic bodies

`TangentialPartialSlip.solve` convolves the tangential loads with influence matrices whose span is the shape of the grid (l.104, 112-113), so that a load acts on the nodes within half the grid only.
-/

namespace Verif.SlipMemo

open Verif HeightResults Materials Definite Finset

/-! ## Model -/

/-- `influence_matrix(span, [h] * 2, [component])[component]` of an `Elastic` material, `materials.py` l.567-579 (Verif.InfMat, Verif.Conv.fillMatrix). -/
noncomputable def elastic (b : Body) : Influence := fun span h c => .ok (Conv.fillMatrix span.1 span.2 fun x y => (InfMat.coefficient c h h b.G b.v none none x y).getD 0)

/-- Two elastic bodies with the same spacing of the grid. -/
noncomputable def bodies (b1 b2 : Body) (h : ℝ) : Surfaces := ⟨some (elastic b1), some (elastic b2), h, h⟩

/-- `conv_func_full(loads_in_domain, True)` of `solve`, `tangential_partial_slip.py` l.104-113 and l.136: the matrix of l.104-108, planned with itself for the loads (that is, for arrays of its own shape) and the contact nodes as the domain. -/
noncomputable def deformation (be : Conv.Backend) (periodic : Conv.Circular) (s : Surfaces) (component : String) (n0 n1 : ℕ) (m : Memo) (contact : ℕ → ℕ → Bool) (loads : List ℝ) : Except PyErr Conv.Arr :=
  match (prepare s component (n0, n1) m).1 with
  | .error e => .error e
  | .ok t =>
    match Conv.plan be periodic n0 n1 n0 n1 t with
    | .error e => .error e
    | .ok f => .ok (Conv.innerIgnoreDomain f n0 n1 contact loads)

/-! ## Specification -/

/-- The array of all `u i j`. -/
def grid (n0 n1 : ℕ) (u : ℕ → ℕ → ℝ) : Conv.Arr := ⟨[n0, n1], (Conv.indices n0 n1).map fun p => u p.1 p.2⟩

/-- The loads of the contact nodes, in the order in which they are given to the solver. -/
def inContact (n0 n1 : ℕ) (contact : ℕ → ℕ → Bool) (l : ℕ → ℕ → ℝ) : List ℝ := (Conv.nodes n0 n1 contact).map fun p => l p.1 p.2

/-- The loads on the whole grid: none outside of the contact. -/
def onGrid (contact : ℕ → ℕ → Bool) (l : ℕ → ℕ → ℝ) : ℕ → ℕ → ℝ := fun a c => if contact a c then l a c else 0

/-- The displacement of both bodies against each other in direction `d` under the tractions `l`. -/
noncomputable def relative (b1 b2 : Body) (h : ℝ) (d : Dir) (n0 n1 : ℕ) (l : ℕ → ℕ → ℝ) (i j : ℕ) : ℝ := movement b1 h d n0 n1 l i j + movement b2 h d n0 n1 l i j

/-- Less than half of `n` nodes apart. -/
def Near (n i a : ℕ) : Prop := 2 * |(i : ℤ) - a| < n

/-- More than half of `n` nodes apart. -/
def Far (n i a : ℕ) : Prop := (n : ℤ) < 2 * |(i : ℤ) - a|

/-! ## Lemmas -/

/-- The offset is that of an entry of the matrix. -/
def Stored (n i a : ℕ) : Prop := 0 ≤ (i : ℤ) - a + ((n - 1) / 2 : ℕ) ∧ (i : ℤ) - a + ((n - 1) / 2 : ℕ) < n

theorem stored_near {n i a : ℕ} (h : Near n i a) : Stored n i a := by
  unfold Near at h
  have h1 := neg_abs_le ((i : ℤ) - a)
  have h2 := le_abs_self ((i : ℤ) - a)
  unfold Stored
  omega

theorem stored_far {n i a : ℕ} (h : Far n i a) : ¬ Stored n i a := by
  unfold Far at h
  unfold Stored
  rcases abs_cases ((i : ℤ) - a) with ⟨e, -⟩ | ⟨e, -⟩ <;> rw [e] at h <;> omega

open Classical in
theorem read_entry {n0 n1 : ℕ} (h0 : 0 < n0) (h1 : 0 < n1) (k : ℤ → ℤ → ℝ) (i j a c : ℕ) :
    Conv.readAt n0 n1 (Conv.fillMatrix n0 n1 k) (Conv.position false n0 i a) (Conv.position false n1 j c) = if Stored n0 i a ∧ Stored n1 j c then k ((j : ℤ) - c) ((i : ℤ) - a) else 0 := by
  unfold Conv.readAt Conv.position
  simp only [Bool.false_eq_true, if_false]
  by_cases hs : Stored n0 i a ∧ Stored n1 j c
  · rw [if_pos hs, if_pos ⟨hs.1.1, hs.1.2, hs.2.1, hs.2.2⟩]
    unfold Conv.fillMatrix
    rw [Conv.offset_position n0 h0, Conv.offset_position n1 h1, Int.toNat_of_nonneg hs.1.1, Int.toNat_of_nonneg hs.2.1]
    congr 1 <;> ring
  · rw [if_neg hs, if_neg fun x => hs ⟨⟨x.1, x.2.1⟩, x.2.2⟩]

/-- The coefficients of both bodies. -/
noncomputable def both (b1 b2 : Body) (h : ℝ) (d : Dir) (x y : ℤ) : ℝ :=
  (InfMat.coefficient (name (d, d)) h h b1.G b1.v none none x y).getD 0 + (InfMat.coefficient (name (d, d)) h h b2.G b2.v none none x y).getD 0

theorem relative_both (b1 b2 : Body) {h : ℝ} (hh : 0 < h) (d : Dir) (n0 n1 : ℕ) (l : ℕ → ℕ → ℝ) (i j : ℕ) :
    relative b1 b2 h d n0 n1 l i j = ∑ a ∈ range n0, ∑ c ∈ range n1, l a c * both b1 b2 h d ((j : ℤ) - c) ((i : ℤ) - a) := by
  unfold relative
  rw [← C154_square b1 hh, ← C154_square b2 hh]
  unfold response both
  simp only [mul_add, sum_add_distrib]
  rfl

theorem one_positive {b : Body} (hb : Soft b) {h : ℝ} (hh : 0 < h) (d : Dir) (x y : ℤ) : 0 < (InfMat.coefficient (name (d, d)) h h b.G b.v none none x y).getD 0 := by
  obtain ⟨p, q, hp, hq, e⟩ := coefficient_comb b none hb (fun _ h => by cases h) hh hh d
  have := e x y
  simp only [Option.map_none] at this
  rw [this]
  have hX : 0 < InfMat.termX x y := by
    have := Bouss.termY_pos y x
    rw [Bouss.termY_eq] at this
    rwa [Bouss.termX_eq]
  have := Bouss.termY_pos x y
  positivity

theorem both_positive {b1 b2 : Body} (hb1 : Soft b1) (hb2 : Soft b2) {h : ℝ} (hh : 0 < h) (d : Dir) (x y : ℤ) : 0 < both b1 b2 h d x y := add_pos (one_positive hb1 hh d x y) (one_positive hb2 hh d x y)

open Classical in
/-- What the convolution gives for two elastic bodies, after any calls for the same surfaces. -/
theorem deformation_eq (be : Conv.Backend) (hbe : be.Ok) {periodic : Conv.Circular} (hp : Conv.Means periodic false false) (b1 b2 : Body) (h : ℝ) (d : Dir) {n0 n1 : ℕ} (h0 : 0 < n0) (h1 : 0 < n1) (spans : List Span)
    (contact : ℕ → ℕ → Bool) (l : ℕ → ℕ → ℝ) :
    deformation be periodic (bodies b1 b2 h) (name (d, d)) n0 n1 (after (name (d, d)) Memo.new (spans.map fun x => (bodies b1 b2 h, x))) contact (inContact n0 n1 contact l) =
      .ok (grid n0 n1 fun i j => ∑ a ∈ range n0, ∑ c ∈ range n1, onGrid contact l a c * if Stored n0 i a ∧ Stored n1 j c then both b1 b2 h d ((j : ℤ) - c) ((i : ℤ) - a) else 0) := by
  have hr : Right (bodies b1 b2 h) (name (d, d)) (n0, n1) (Conv.fillMatrix n0 n1 (both b1 b2 h d)) := ⟨_, _, _, _, rfl, rfl, rfl, rfl, fun _ _ => rfl⟩
  obtain ⟨g1, g2⟩ := C147_unchanged_partial (bodies b1 b2 h) rfl (name (d, d)) spans (n0, n1)
  obtain ⟨t, ht⟩ := g2 ⟨_, hr⟩
  have et : t = Conv.fillMatrix n0 n1 (both b1 b2 h d) := by
    obtain ⟨f1, f2, a, b, e1, e2, e3, e4, e5⟩ := g1 t ht
    injection e1 with e1
    injection e2 with e2
    subst e1 e2
    injection e3 with e3
    injection e4 with e4
    subst e3 e4
    funext i j
    exact e5 i j
  subst et
  obtain ⟨f, hf, e⟩ := Conv.C118_ignore_domain be hbe periodic false false hp n0 n1 n0 n1 h0 h1 (fun x => by cases x) (fun x => by cases x) (Conv.fillMatrix n0 n1 (both b1 b2 h d)) contact l
  unfold deformation
  rw [ht]
  dsimp only
  rw [hf]
  dsimp only
  unfold inContact
  rw [e]
  unfold grid Conv.superpose
  simp only [read_entry h0 h1]
  rfl

/-! ## What holds -/

/-- **C160, near loads (partial).** For two elastic bodies and axes that are not periodic, after any earlier calls, the deformation at every node which is less than half the grid away from all contact nodes on both axes is the displacement of
the two half spaces against each other under the loads of the contact nodes. Missing: the other nodes, see `C160_far_wrong`. -/
theorem C160_deformation_partial (be : Conv.Backend) (hbe : be.Ok) {periodic : Conv.Circular} (hp : Conv.Means periodic false false) (b1 b2 : Body) {h : ℝ} (hh : 0 < h) (d : Dir) {n0 n1 : ℕ} (h0 : 0 < n0) (h1 : 0 < n1)
    (spans : List Span) (contact : ℕ → ℕ → Bool) (l : ℕ → ℕ → ℝ) :
    ∃ u, deformation be periodic (bodies b1 b2 h) (name (d, d)) n0 n1 (after (name (d, d)) Memo.new (spans.map fun x => (bodies b1 b2 h, x))) contact (inContact n0 n1 contact l) = .ok (grid n0 n1 u) ∧
      ∀ i j, (∀ a c, a < n0 → c < n1 → contact a c = true → Near n0 i a ∧ Near n1 j c) → u i j = relative b1 b2 h d n0 n1 (onGrid contact l) i j := by
  refine ⟨_, deformation_eq be hbe hp b1 b2 h d h0 h1 spans contact l, fun i j hn => ?_⟩
  rw [relative_both b1 b2 hh]
  refine sum_congr rfl fun a ha => sum_congr rfl fun c hc => ?_
  by_cases hcon : contact a c = true
  · obtain ⟨x, y⟩ := hn a c (mem_range.mp ha) (mem_range.mp hc) hcon
    rw [if_pos ⟨stored_near x, stored_near y⟩]
  · unfold onGrid
    rw [if_neg hcon, zero_mul, zero_mul]

/-- Steel on a polymer, a contact of two nodes in the middle of a grid of four by four, read by two nodes. -/
example := C160_deformation_partial .cuda trivial (.pair false false) ⟨80e9, 0.3⟩ ⟨8e9, 0.4⟩ (h := 1e-6) (by norm_num) .x (n0 := 4) (n1 := 4) (by norm_num) (by norm_num) [(4, 4), (3, 3)] (fun i j => i == 1 && (j == 1 || j == 2))
  fun _ _ => 1
example : ∀ j ∈ [1, 2], ∀ a c, a < 4 → c < 4 → (a == 1 && (c == 1 || c == 2)) = true → Near 4 2 a ∧ Near 4 j c := by
  unfold Near
  intro j hj a c ha hc
  simp only [List.mem_cons, List.not_mem_nil, or_false] at hj
  rcases hj with rfl | rfl <;> interval_cases a <;> interval_cases c <;> decide

/-- **C160, one solution (partial).** Loads that move a compact contact equally are equal: for contact nodes that are all less than half the grid apart on both axes, two loads that deform the contact nodes equally are the same on them.
Missing: contacts that reach over more than half of the grid, for which the matrix is another one, see `C160_far_wrong`. -/
theorem C160_unique_partial (be : Conv.Backend) (hbe : be.Ok) {periodic : Conv.Circular} (hp : Conv.Means periodic false false) {b1 b2 : Body} (hb1 : Soft b1) (hb2 : Soft b2) {h : ℝ} (hh : 0 < h) (d : Dir) {n0 n1 : ℕ}
    (h0 : 0 < n0) (h1 : 0 < n1) (m : Memo) (hm : ∃ spans : List Span, m = after (name (d, d)) Memo.new (spans.map fun x => (bodies b1 b2 h, x))) (contact : ℕ → ℕ → Bool)
    (hc : ∀ i j a c, i < n0 → j < n1 → a < n0 → c < n1 → contact i j = true → contact a c = true → Near n0 i a ∧ Near n1 j c) (l l' : ℕ → ℕ → ℝ) {u u' : ℕ → ℕ → ℝ}
    (hu : deformation be periodic (bodies b1 b2 h) (name (d, d)) n0 n1 m contact (inContact n0 n1 contact l) = .ok (grid n0 n1 u))
    (hu' : deformation be periodic (bodies b1 b2 h) (name (d, d)) n0 n1 m contact (inContact n0 n1 contact l') = .ok (grid n0 n1 u'))
    (he : ∀ i j, i < n0 → j < n1 → contact i j = true → u i j = u' i j) : ∀ i j, i < n0 → j < n1 → contact i j = true → l i j = l' i j := by
  obtain ⟨spans, rfl⟩ := hm
  have key : ∀ (l : ℕ → ℕ → ℝ) (u : ℕ → ℕ → ℝ),
      deformation be periodic (bodies b1 b2 h) (name (d, d)) n0 n1 (after (name (d, d)) Memo.new (spans.map fun x => (bodies b1 b2 h, x))) contact (inContact n0 n1 contact l) = .ok (grid n0 n1 u) →
      ∀ i j, i < n0 → j < n1 → contact i j = true → u i j = relative b1 b2 h d n0 n1 (onGrid contact l) i j := by
    intro l u hu i j hi hj hij
    obtain ⟨w, e, hw⟩ := C160_deformation_partial be hbe hp b1 b2 hh d h0 h1 spans contact l
    rw [hu] at e
    injection e with e
    unfold grid at e
    injection e with _ e
    have e := List.map_inj_left.mp e (i, j) (Conv.mem_indices.mpr ⟨hi, hj⟩)
    dsimp only at e
    rw [e]
    exact hw i j fun a c ha hc' hac => hc i j a c hi hj ha hc' hij hac
  by_contra hne
  push Not at hne
  obtain ⟨i0, j0, hi0, hj0, hc0, hl0⟩ := hne
  set w : ℕ → ℕ → ℝ := fun a c => onGrid contact l a c - onGrid contact l' a c with hw
  have hw0 : ∃ i j, i < n0 ∧ j < n1 ∧ w i j ≠ 0 := ⟨i0, j0, hi0, hj0, by
    simp only [hw, onGrid, hc0, if_true]
    exact sub_ne_zero.mpr hl0⟩
  have p1 := C154_work hb1 hh d hw0
  have p2 := C154_work hb2 hh d hw0
  have hlin : ∀ i j, relative b1 b2 h d n0 n1 w i j = relative b1 b2 h d n0 n1 (onGrid contact l) i j - relative b1 b2 h d n0 n1 (onGrid contact l') i j := by
    intro i j
    simp only [relative_both b1 b2 hh, hw, sub_mul, sum_sub_distrib]
  have hz : shearWork b1 h d n0 n1 w w + shearWork b2 h d n0 n1 w w = 0 := by
    unfold shearWork
    rw [← sum_add_distrib]
    refine sum_eq_zero fun i hi => ?_
    rw [← sum_add_distrib]
    refine sum_eq_zero fun j hj => ?_
    rw [← mul_add]
    change w i j * relative b1 b2 h d n0 n1 w i j = 0
    by_cases hij : contact i j = true
    · rw [hlin, ← key l u hu i j (mem_range.mp hi) (mem_range.mp hj) hij, ← key l' u' hu' i j (mem_range.mp hi) (mem_range.mp hj) hij, he i j (mem_range.mp hi) (mem_range.mp hj) hij, sub_self, mul_zero]
    · simp only [hw, onGrid, if_neg hij, sub_zero, zero_mul]
  linarith

/-- The same contact; `C160_deformation_partial` gives both deformations. -/
example (l l' : ℕ → ℕ → ℝ) {u u' : ℕ → ℕ → ℝ} := C160_unique_partial .cuda trivial (.pair false false) steel (b2 := ⟨8e9, 0.4⟩) ⟨by norm_num, by norm_num⟩ (h := 1e-6) (by norm_num) .x (n0 := 4) (n1 := 4) (by norm_num)
  (by norm_num) Memo.new ⟨[], rfl⟩ (fun i j => i == 1 && (j == 1 || j == 2))
  (by
    unfold Near
    intro i j a c hi hj ha hc
    interval_cases i <;> interval_cases j <;> interval_cases a <;> interval_cases c <;> decide) l l' (u := u) (u' := u')

/-! ## What is false -/

/-- **C160 is false: far loads.** For two elastic bodies, axes that are not periodic and loads that are not negative, the deformation never exceeds the displacement of the half spaces, and it is smaller at every node which is more than half the
grid away from a loaded contact node on one of the axes. -/
theorem C160_far_wrong (be : Conv.Backend) (hbe : be.Ok) {periodic : Conv.Circular} (hp : Conv.Means periodic false false) {b1 b2 : Body} (hb1 : Soft b1) (hb2 : Soft b2) {h : ℝ} (hh : 0 < h) (d : Dir) {n0 n1 : ℕ}
    (h0 : 0 < n0) (h1 : 0 < n1) (spans : List Span) (contact : ℕ → ℕ → Bool) {l : ℕ → ℕ → ℝ} (hl : ∀ a c, 0 ≤ l a c) :
    ∃ u, deformation be periodic (bodies b1 b2 h) (name (d, d)) n0 n1 (after (name (d, d)) Memo.new (spans.map fun x => (bodies b1 b2 h, x))) contact (inContact n0 n1 contact l) = .ok (grid n0 n1 u) ∧
      (∀ i j, u i j ≤ relative b1 b2 h d n0 n1 (onGrid contact l) i j) ∧
      ∀ i j a c, a < n0 → c < n1 → contact a c = true → 0 < l a c → Far n0 i a ∨ Far n1 j c → u i j < relative b1 b2 h d n0 n1 (onGrid contact l) i j := by
  classical
  have hg : ∀ a c, 0 ≤ onGrid contact l a c := fun a c => by
    unfold onGrid
    split_ifs
    · exact hl a c
    · exact le_refl 0
  have hle : ∀ i j a c, onGrid contact l a c * (if Stored n0 i a ∧ Stored n1 j c then both b1 b2 h d ((j : ℤ) - c) ((i : ℤ) - a) else 0) ≤ onGrid contact l a c * both b1 b2 h d ((j : ℤ) - c) ((i : ℤ) - a) := by
    intro i j a c
    refine mul_le_mul_of_nonneg_left ?_ (hg a c)
    split_ifs
    · exact le_refl _
    · exact (both_positive hb1 hb2 hh d _ _).le
  refine ⟨_, deformation_eq be hbe hp b1 b2 h d h0 h1 spans contact l, fun i j => ?_, fun i j a c ha hc hac hpos hfar => ?_⟩
  · rw [relative_both b1 b2 hh]
    exact sum_le_sum fun a _ => sum_le_sum fun c _ => hle i j a c
  · rw [relative_both b1 b2 hh]
    refine sum_lt_sum (fun a _ => sum_le_sum fun c _ => hle i j a c) ⟨a, mem_range.mpr ha, sum_lt_sum (fun c _ => hle i j a c) ⟨c, mem_range.mpr hc, ?_⟩⟩
    rw [if_neg fun x => hfar.elim (fun y => stored_far y x.1) (fun y => stored_far y x.2), mul_zero]
    refine mul_pos ?_ (both_positive hb1 hb2 hh d _ _)
    unfold onGrid
    rw [if_pos hac]
    exact hpos

/-- Nodes of the first and the last row loaded, on a grid of four by one: each is far from the other. -/
example := C160_far_wrong .cuda trivial (.pair false false) steel (b2 := ⟨8e9, 0.4⟩) ⟨by norm_num, by norm_num⟩ (h := 1e-6) (by norm_num) .x (n0 := 4) (n1 := 1) (by norm_num) (by norm_num) [] (fun i _ => i == 0 || i == 3)
  (l := fun _ _ => 1) fun _ _ => zero_le_one
example : Far 4 3 0 := by unfold Far; decide

/-- **C160 is false: reciprocity.** On a grid with an even number of rows a load at the first row moves the row half the grid away, but the same load there does not move the first row, although half spaces are reciprocal. -/
theorem C160_reciprocity_wrong (be : Conv.Backend) (hbe : be.Ok) {periodic : Conv.Circular} (hp : Conv.Means periodic false false) {b1 b2 : Body} (hb1 : Soft b1) (hb2 : Soft b2) {h : ℝ} (hh : 0 < h) (d : Dir) {k n1 : ℕ}
    (h0 : 0 < k) (h1 : 0 < n1) (spans : List Span) :
    ∃ u v, deformation be periodic (bodies b1 b2 h) (name (d, d)) (2 * k) n1 (after (name (d, d)) Memo.new (spans.map fun x => (bodies b1 b2 h, x))) (fun _ _ => true)
        (inContact (2 * k) n1 (fun _ _ => true) fun a c => if a = 0 ∧ c = 0 then 1 else 0) = .ok (grid (2 * k) n1 u) ∧
      deformation be periodic (bodies b1 b2 h) (name (d, d)) (2 * k) n1 (after (name (d, d)) Memo.new (spans.map fun x => (bodies b1 b2 h, x))) (fun _ _ => true)
        (inContact (2 * k) n1 (fun _ _ => true) fun a c => if a = k ∧ c = 0 then 1 else 0) = .ok (grid (2 * k) n1 v) ∧
      0 < u k 0 ∧ v 0 0 = 0 := by
  classical
  have nonneg : ∀ a c : ℕ, 0 ≤ onGrid (fun _ _ => true) (fun a c => if a = 0 ∧ c = 0 then (1 : ℝ) else 0) a c *
      if Stored (2 * k) k a ∧ Stored n1 0 c then both b1 b2 h d (((0 : ℕ) : ℤ) - c) ((k : ℤ) - a) else 0 := by
    intro a c
    refine mul_nonneg ?_ ?_
    · unfold onGrid
      rw [if_pos rfl]
      beta_reduce
      split_ifs
      · exact zero_le_one
      · exact le_refl 0
    · split_ifs
      · exact (both_positive hb1 hb2 hh d _ _).le
      · exact le_refl 0
  refine ⟨_, _, deformation_eq be hbe hp b1 b2 h d (by omega) h1 spans _ _, deformation_eq be hbe hp b1 b2 h d (by omega) h1 spans _ _, ?_, ?_⟩
  · refine sum_pos' (fun a _ => sum_nonneg fun c _ => ?_) ⟨0, mem_range.mpr (by omega), sum_pos' (fun c _ => ?_) ⟨0, mem_range.mpr h1, ?_⟩⟩
    · exact nonneg a c
    · exact nonneg 0 c
    · have := both_positive hb1 hb2 hh d (((0 : ℕ) : ℤ) - (0 : ℕ)) ((k : ℤ) - (0 : ℕ))
      rw [if_pos ⟨by unfold Stored; omega, by unfold Stored; omega⟩]
      simpa [onGrid] using this
  · refine sum_eq_zero fun a _ => sum_eq_zero fun c _ => ?_
    by_cases ha : a = k
    · rw [if_neg fun x => ?_, mul_zero]
      have := x.1
      unfold Stored at this
      omega
    · simp [onGrid, ha]

example := C160_reciprocity_wrong .cuda trivial (.same false) steel (b2 := ⟨8e9, 0.4⟩) ⟨by norm_num, by norm_num⟩ (h := 1e-6) (by norm_num) .y (k := 2) (n1 := 3) (by norm_num) (by norm_num) [(4, 3)]

end Verif.SlipMemo
