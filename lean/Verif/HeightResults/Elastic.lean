import Verif.HeightResults.Props
import Verif.Conv.Props
import Verif.Bouss.Props

/-!
# C149: the height search for two elastic bodies

The influence matrices are made for the shape of the gap, `_step_utils.py` l.145-151 and l.198-204, so that they hold the coefficients of half the grid to each side. (`solve_normal_interference` takes twice the shape, l.530.)
-/

namespace Verif.HeightResults

open Verif HeightCache Conv Finset

/-- Shear modulus and Poisson's ratio. -/
structure Body where
  G : ℝ
  v : ℝ

/-- `material.influence_matrix(span=(n0, n1), grid_spacing=[h, h], components=['zz'])['zz']` of `Elastic`, `materials.py` l.567-579 (Verif.InfMat, Verif.Conv.fillMatrix). -/
noncomputable def zz (b : Body) (n0 n1 : ℕ) (h : ℝ) : ℕ → ℕ → ℝ := fillMatrix n0 n1 fun x y => (InfMat.coefficient "zz" h h b.G b.v none none x y).getD 0

/-- The object for two elastic bodies, `_step_utils.py` l.145-151 and l.198-204: the matrices have the shape of the gap. -/
noncomputable def Setup.elastic (S : Setup) (b1 b2 : Body) : Setup := { S with im1 := zz b1 S.rows S.cols S.spacing, im2 := zz b2 S.rows S.cols S.spacing }

/-! ## Specification -/

/-- The displacement of a half space at the node `(i, j)` under the pressures `p` on the cells of a grid of spacing `h`. -/
noncomputable def settlement (b : Body) (h : ℝ) (n0 n1 : ℕ) (p : ℕ → ℕ → ℝ) (i j : ℕ) : ℝ :=
  ∑ a ∈ range n0, ∑ c ∈ range n1, p a c * Bouss.cell (Bouss.pointLoad b.G b.v 'z' 'z') h h ((j : ℤ) - c) ((i : ℤ) - a)

/-- The node `i` is at most half the axis of `n` nodes away from `a`. -/
def Near (n i a : ℕ) : Prop := a ≤ i + (n - 1) / 2 ∧ i ≤ a + n / 2

/-! ## Lemmas -/

lemma zz_coefficient (b : Body) {h : ℝ} (hh : 0 < h) (x y : ℤ) : (InfMat.coefficient "zz" h h b.G b.v none none x y).getD 0 = Bouss.cell (Bouss.pointLoad b.G b.v 'z' 'z') h h x y := by
  rw [Bouss.C85_normal_partial hh]
  rfl

lemma cell_pos {b : Body} (hG : 0 < b.G) (hv : b.v < 1) {h : ℝ} (hh : 0 < h) (x y : ℤ) : 0 < Bouss.cell (Bouss.pointLoad b.G b.v 'z' 'z') h h x y := by
  obtain ⟨c, hc, hp⟩ := Bouss.C87_positive hh hh hG hv x y
  rw [Bouss.C85_normal_partial hh] at hc
  cases hc
  exact hp

lemma readAt_zz (b : Body) {h : ℝ} (hh : 0 < h) {n0 n1 : ℕ} (h0 : 0 < n0) (h1 : 0 < n1) {u v : ℤ} (hu : 0 ≤ u) (hu' : u < n0) (hv : 0 ≤ v) (hv' : v < n1) :
    readAt n0 n1 (zz b n0 n1 h) u v = Bouss.cell (Bouss.pointLoad b.G b.v 'z' 'z') h h (v - ((n1 - 1) / 2 : ℕ)) (u - ((n0 - 1) / 2 : ℕ)) := by
  unfold readAt
  rw [if_pos ⟨hu, hu', hv, hv'⟩]
  unfold zz fillMatrix
  dsimp only
  rw [zz_coefficient b hh, offset_position n1 h1, offset_position n0 h0, Int.toNat_of_nonneg hu, Int.toNat_of_nonneg hv]

lemma readAt_near (b : Body) {h : ℝ} (hh : 0 < h) {n0 n1 : ℕ} (h0 : 0 < n0) (h1 : 0 < n1) {i j a c : ℕ} (hi : Near n0 i a) (hj : Near n1 j c) :
    readAt n0 n1 (zz b n0 n1 h) (position false n0 i a) (position false n1 j c) = Bouss.cell (Bouss.pointLoad b.G b.v 'z' 'z') h h ((j : ℤ) - c) ((i : ℤ) - a) := by
  unfold Near at hi hj
  have e0 : position false n0 i a = (i : ℤ) - a + ((n0 - 1) / 2 : ℕ) := by simp [position]
  have e1 : position false n1 j c = (j : ℤ) - c + ((n1 - 1) / 2 : ℕ) := by simp [position]
  rw [e0, e1, readAt_zz b hh h0 h1 (by omega) (by omega) (by omega) (by omega)]
  congr 1 <;> ring

lemma readAt_far (im : ℕ → ℕ → ℝ) {n0 n1 i j a c : ℕ} (hn0 : 0 < n0) (hn1 : 0 < n1) (hf : ¬(Near n0 i a ∧ Near n1 j c)) : readAt n0 n1 im (position false n0 i a) (position false n1 j c) = 0 := by
  unfold readAt
  rw [if_neg]
  rintro ⟨h1, h2, h3, h4⟩
  refine hf ⟨?_, ?_⟩
  · unfold Near; simp only [position, Bool.false_eq_true, if_false] at h1 h2; omega
  · unfold Near; simp only [position, Bool.false_eq_true, if_false] at h3 h4; omega

lemma superpose_near (b : Body) {h : ℝ} (hh : 0 < h) {n0 n1 : ℕ} (h0 : 0 < n0) (h1 : 0 < n1) (p : ℕ → ℕ → ℝ) (i j : ℕ) (hn : ∀ a c, a < n0 → c < n1 → p a c ≠ 0 → Near n0 i a ∧ Near n1 j c) :
    superpose false false n0 n1 n0 n1 (zz b n0 n1 h) p i j = settlement b h n0 n1 p i j := by
  unfold superpose settlement
  refine sum_congr rfl fun a ha => sum_congr rfl fun c hc => ?_
  by_cases hp : p a c = 0
  · rw [hp, zero_mul, zero_mul]
  · obtain ⟨e0, e1⟩ := hn a c (mem_range.1 ha) (mem_range.1 hc) hp
    rw [readAt_near b hh h0 h1 e0 e1]

lemma superpose_far (im : ℕ → ℕ → ℝ) {n0 n1 : ℕ} (h0 : 0 < n0) (h1 : 0 < n1) (p : ℕ → ℕ → ℝ) (i j : ℕ) (hn : ∀ a c, a < n0 → c < n1 → p a c ≠ 0 → ¬(Near n0 i a ∧ Near n1 j c)) :
    superpose false false n0 n1 n0 n1 im p i j = 0 := by
  unfold superpose
  refine sum_eq_zero fun a ha => sum_eq_zero fun c hc => ?_
  by_cases hp : p a c = 0
  · rw [hp, zero_mul]
  · rw [readAt_far im h0 h1 (hn a c (mem_range.1 ha) (mem_range.1 hc) hp), mul_zero]

lemma settlement_pos {b : Body} (hG : 0 < b.G) (hv : b.v < 1) {h : ℝ} (hh : 0 < h) {n0 n1 : ℕ} (p : ℕ → ℕ → ℝ) (hp : ∀ a c, a < n0 → c < n1 → 0 ≤ p a c) (hq : ∃ a c, a < n0 ∧ c < n1 ∧ 0 < p a c) (i j : ℕ) :
    0 < settlement b h n0 n1 p i j := by
  obtain ⟨a, c, ha, hc, hpos⟩ := hq
  unfold settlement
  refine sum_pos' (fun a ha => sum_nonneg fun c hc => mul_nonneg (hp a c (mem_range.1 ha) (mem_range.1 hc)) (cell_pos hG hv hh _ _).le) ⟨a, mem_range.2 ha, ?_⟩
  exact sum_pos' (fun c hc => mul_nonneg (hp a c ha (mem_range.1 hc)) (cell_pos hG hv hh _ _).le) ⟨c, mem_range.2 hc, mul_pos hpos (cell_pos hG hv hh _ _)⟩

/-! ## Theorems -/

/-- C149: after a solution for two elastic bodies the displacements read at a node are those of the two half spaces under the pressures read, if every loaded node is at most half the grid away from it; in particular at all contact nodes
if they lie within half the grid. Missing: nodes farther away, for which it is false. -/
theorem C149_near_partial (S : Setup) (b1 b2 : Body) (hh : 0 < S.spacing) (hS : Sound S false false) (l : ℝ) (o : Obj) (h0 : new (S.elastic b1 b2) l = .ok o) (ops : List Op) (h : ℝ)
    (hn : h ∉ (run (S.elastic b1 b2) o ops).cache.heights) (hc : ∃ i j, i < S.rows ∧ j < S.cols ∧ sought S ops h i j) :
    ∃ f, (read (S.elastic b1 b2) (call (S.elastic b1 b2) (run (S.elastic b1 b2) o ops) h).1).1 = .ok (some f) ∧ f.interference = h ∧
      (∀ i j, i < S.rows → j < S.cols → (∀ a c, a < S.rows → c < S.cols → f.loads a c ≠ 0 → Near S.rows i a ∧ Near S.cols j c) →
        f.disp1 i j = settlement b1 S.spacing S.rows S.cols f.loads i j ∧ f.disp2 i j = settlement b2 S.spacing S.rows S.cols f.loads i j ∧
        f.total i j = settlement b1 S.spacing S.rows S.cols f.loads i j + settlement b2 S.spacing S.rows S.cols f.loads i j) ∧
      (∀ s t, (∀ i j, i < S.rows → j < S.cols → sought S ops h i j → s ≤ i ∧ i ≤ s + (S.rows - 1) / 2 ∧ t ≤ j ∧ j ≤ t + (S.cols - 1) / 2) →
        ∀ i j, i < S.rows → j < S.cols → sought S ops h i j → f.total i j = settlement b1 S.spacing S.rows S.cols f.loads i j + settlement b2 S.spacing S.rows S.cols f.loads i j) := by
  have hS' : Sound (S.elastic b1 b2) false false := ⟨hS.backend, hS.periodic, hS.rows, hS.cols, hS.matrices⟩
  obtain ⟨f, d, hd, hf, hr, hq⟩ := C148_results_partial (S.elastic b1 b2) false false hS' l o h0 ops h hn hc
  have key : ∀ i j, i < S.rows → j < S.cols → (∀ a c, a < S.rows → c < S.cols → f.loads a c ≠ 0 → Near S.rows i a ∧ Near S.cols j c) →
        f.disp1 i j = settlement b1 S.spacing S.rows S.cols f.loads i j ∧ f.disp2 i j = settlement b2 S.spacing S.rows S.cols f.loads i j ∧
        f.total i j = settlement b1 S.spacing S.rows S.cols f.loads i j + settlement b2 S.spacing S.rows S.cols f.loads i j := by
    intro i j hi hj hl
    have e1 := (hf.first i j hi hj).trans (superpose_near b1 hh hS.rows hS.cols f.loads i j hl)
    have e2 := (hf.second i j hi hj).trans (superpose_near b2 hh hS.rows hS.cols f.loads i j hl)
    exact ⟨e1, e2, by rw [hf.total i j hi hj, e1, e2]⟩
  refine ⟨f, hq [] trivial, hf.interference, key, fun s t hbox i j hi hj hs => (key i j hi hj fun a c ha hc' hne => ?_).2.2⟩
  have hsc : sought S ops h a c := by
    by_contra hns
    exact hne (hf.outside a c ha hc' hns)
  have b1 := hbox i j hi hj hs
  have b2 := hbox a c ha hc' hsc
  unfold Near
  omega

/-- C149: at nodes that are more than half the grid away from all loads the total displacement read is zero, although both bodies settle there. -/
theorem C149_far_wrong (S : Setup) (b1 b2 : Body) (hG1 : 0 < b1.G) (hv1 : b1.v < 1) (hG2 : 0 < b2.G) (hv2 : b2.v < 1) (hh : 0 < S.spacing) (hS : Sound S false false) (l : ℝ) (o : Obj)
    (h0 : new (S.elastic b1 b2) l = .ok o) (ops : List Op) (h : ℝ) (hn : h ∉ (run (S.elastic b1 b2) o ops).cache.heights) (hc : ∃ i j, i < S.rows ∧ j < S.cols ∧ sought S ops h i j)
    (hp : ∀ L q, 0 < (S.bccg h L).1 q) (i j : ℕ) (hi : i < S.rows) (hj : j < S.cols) (hfar : ∀ a c, a < S.rows → c < S.cols → sought S ops h a c → ¬(Near S.rows i a ∧ Near S.cols j c)) :
    ∃ f, (read (S.elastic b1 b2) (call (S.elastic b1 b2) (run (S.elastic b1 b2) o ops) h).1).1 = .ok (some f) ∧ f.total i j = 0 ∧
      0 < settlement b1 S.spacing S.rows S.cols f.loads i j ∧ 0 < settlement b2 S.spacing S.rows S.cols f.loads i j := by
  have hS' : Sound (S.elastic b1 b2) false false := ⟨hS.backend, hS.periodic, hS.rows, hS.cols, hS.matrices⟩
  obtain ⟨f, d, hd, hf, hr, hq⟩ := C148_results_partial (S.elastic b1 b2) false false hS' l o h0 ops h hn hc
  have hnn : ∀ a c, a < S.rows → c < S.cols → 0 ≤ f.loads a c := by
    intro a c ha hc'
    by_cases hs : sought S ops h a c
    · rw [hf.inside a c ha hc' hs]; exact (hp _ _).le
    · rw [hf.outside a c ha hc' hs]
  have hpos : ∃ a c, a < S.rows ∧ c < S.cols ∧ 0 < f.loads a c := by
    obtain ⟨a, c, ha, hc', hs⟩ := hc
    exact ⟨a, c, ha, hc', by rw [hf.inside a c ha hc' hs]; exact hp _ _⟩
  have hl : ∀ a c, a < S.rows → c < S.cols → f.loads a c ≠ 0 → ¬(Near S.rows i a ∧ Near S.cols j c) := by
    intro a c ha hc' hne
    refine hfar a c ha hc' ?_
    by_contra hns
    exact hne (hf.outside a c ha hc' hns)
  refine ⟨f, hq [] trivial, ?_, settlement_pos hG1 hv1 hh _ hnn hpos i j, settlement_pos hG2 hv2 hh _ hnn hpos i j⟩
  rw [hf.total i j hi hj, (hf.first i j hi hj).trans (superpose_far _ hS.rows hS.cols _ i j hl), (hf.second i j hi hj).trans (superpose_far _ hS.rows hS.cols _ i j hl), add_zero]

/-- C149: the solver does not see such nodes either: the displacement that it is given for a load on one node is zero at every node more than half the grid away, whatever the load. -/
theorem C149_solver_wrong (S : Setup) (b1 b2 : Body) (hG1 : 0 < b1.G) (hv1 : b1.v < 1) (hG2 : 0 < b2.G) (hv2 : b2.v < 1) (hh : 0 < S.spacing) (hS : Sound S false false) (a c i j : ℕ) (ha : a < S.rows) (hc : c < S.cols)
    (hi : i < S.rows) (hj : j < S.cols) (hfar : ¬(Near S.rows i a ∧ Near S.cols j c)) (p : ℝ) (hp : 0 < p) :
    ∃ F, plan (S.elastic b1 b2) (fun u w => (S.elastic b1 b2).im1 u w + (S.elastic b1 b2).im2 u w) = .ok F ∧ F (fun u w => if u = a ∧ w = c then p else 0) i j = 0 ∧
      0 < settlement b1 S.spacing S.rows S.cols (fun u w => if u = a ∧ w = c then p else 0) i j + settlement b2 S.spacing S.rows S.cols (fun u w => if u = a ∧ w = c then p else 0) i j := by
  have hS' : Sound (S.elastic b1 b2) false false := ⟨hS.backend, hS.periodic, hS.rows, hS.cols, hS.matrices⟩
  obtain ⟨F, hF, hF'⟩ := hS'.plan fun u w => (S.elastic b1 b2).im1 u w + (S.elastic b1 b2).im2 u w
  have hnn : ∀ u w, u < S.rows → w < S.cols → 0 ≤ (if u = a ∧ w = c then p else 0) := by
    intro u w _ _
    split_ifs
    · exact hp.le
    · exact le_rfl
  have hpos : ∃ u w, u < S.rows ∧ w < S.cols ∧ 0 < (if u = a ∧ w = c then p else 0) := ⟨a, c, ha, hc, by rwa [if_pos ⟨rfl, rfl⟩]⟩
  refine ⟨F, hF, ?_, add_pos (settlement_pos hG1 hv1 hh _ hnn hpos i j) (settlement_pos hG2 hv2 hh _ hnn hpos i j)⟩
  rw [hF' _ i j hi hj]
  refine superpose_far _ hS.rows hS.cols _ i j fun u w _ _ hne => ?_
  by_cases e : u = a ∧ w = c
  · rw [e.1, e.2]; exact hfar
  · rw [if_neg e] at hne; exact absurd rfl hne

/-- C149: with both axes periodic every loaded node acts from exactly one place, its image nearest to the node: the one whose distance along each axis is at most half of it. -/
theorem C149_periodic (S : Setup) (b1 b2 : Body) (hh : 0 < S.spacing) (hS : Sound S true true) (l : ℝ) (o : Obj) (h0 : new (S.elastic b1 b2) l = .ok o) (ops : List Op) (h : ℝ)
    (hn : h ∉ (run (S.elastic b1 b2) o ops).cache.heights) (hc : ∃ i j, i < S.rows ∧ j < S.cols ∧ sought S ops h i j)
    (image : ℕ → ℕ → ℕ → ℤ) (himg : ∀ n i a, 0 < n → (∃ m : ℤ, image n i a = (i : ℤ) - a + m * n) ∧ -(((n - 1) / 2 : ℕ) : ℤ) ≤ image n i a ∧ image n i a ≤ (n / 2 : ℕ)) :
    ∃ f, (read (S.elastic b1 b2) (call (S.elastic b1 b2) (run (S.elastic b1 b2) o ops) h).1).1 = .ok (some f) ∧ ∀ i j, i < S.rows → j < S.cols →
      f.disp1 i j = ∑ a ∈ range S.rows, ∑ c ∈ range S.cols, f.loads a c * Bouss.cell (Bouss.pointLoad b1.G b1.v 'z' 'z') S.spacing S.spacing (image S.cols j c) (image S.rows i a) ∧
      f.disp2 i j = ∑ a ∈ range S.rows, ∑ c ∈ range S.cols, f.loads a c * Bouss.cell (Bouss.pointLoad b2.G b2.v 'z' 'z') S.spacing S.spacing (image S.cols j c) (image S.rows i a) := by
  have hS' : Sound (S.elastic b1 b2) true true := ⟨hS.backend, hS.periodic, hS.rows, hS.cols, hS.matrices⟩
  obtain ⟨f, d, hd, hf, hr, hq⟩ := C148_results_partial (S.elastic b1 b2) true true hS' l o h0 ops h hn hc
  have pos : ∀ n i a, 0 < n → 0 ≤ position true n i a ∧ position true n i a < n ∧ position true n i a - ((n - 1) / 2 : ℕ) = image n i a := by
    intro n i a hn
    obtain ⟨⟨m, hm⟩, h1, h2⟩ := himg n i a hn
    have hn' : (0 : ℤ) < n := by exact_mod_cast hn
    have e : position true n i a = image n i a + ((n - 1) / 2 : ℕ) := by
      unfold position
      rw [if_pos rfl, hm]
      have : (i : ℤ) - a + ((n - 1) / 2 : ℕ) = ((i : ℤ) - a + m * n + ((n - 1) / 2 : ℕ)) + n * (-m) := by ring
      rw [this, Int.add_mul_emod_self_left, Int.emod_eq_of_lt]
      · rw [← hm]; omega
      · rw [← hm]; omega
    rw [e]
    refine ⟨by omega, by omega, by ring⟩
  have key : ∀ (b : Body) i j, superpose true true S.rows S.cols S.rows S.cols (zz b S.rows S.cols S.spacing) f.loads i j =
      ∑ a ∈ range S.rows, ∑ c ∈ range S.cols, f.loads a c * Bouss.cell (Bouss.pointLoad b.G b.v 'z' 'z') S.spacing S.spacing (image S.cols j c) (image S.rows i a) := by
    intro b i j
    unfold superpose
    refine sum_congr rfl fun a _ => sum_congr rfl fun c _ => ?_
    obtain ⟨p1, p2, p3⟩ := pos S.rows i a hS.rows
    obtain ⟨q1, q2, q3⟩ := pos S.cols j c hS.cols
    rw [readAt_zz b hh hS.rows hS.cols p1 p2 q1 q2, p3, q3]
  exact ⟨f, hq [] trivial, fun i j hi hj => ⟨(hf.first i j hi hj).trans (key b1 i j), (hf.second i j hi hj).trans (key b2 i j)⟩⟩

/-! ## Concrete cases -/

/-- The hypotheses of `C149_far_wrong` and `C149_solver_wrong`: the gap of one row of three nodes, of which only the first is in contact at height 1/2; the last is two nodes away. -/
example : ∃ f, (read ((demo true).elastic ⟨1, 1 / 4⟩ ⟨2, 1 / 3⟩) (call ((demo true).elastic ⟨1, 1 / 4⟩ ⟨2, 1 / 3⟩) demo0 (1 / 2)).1).1 = .ok (some f) ∧ f.total 0 2 = 0 ∧
    0 < settlement ⟨1, 1 / 4⟩ (1 / 2) 1 3 f.loads 0 2 := by
  have hs : ∀ a c, sought (demo true) [] (1 / 2) a c ↔ c = 0 := by
    intro a c
    change (c : ℝ) < 1 / 2 ↔ c = 0
    constructor
    · intro h
      by_contra hn
      have : (1 : ℝ) ≤ c := by exact_mod_cast Nat.one_le_iff_ne_zero.2 hn
      linarith
    · rintro rfl
      norm_num
  obtain ⟨f, h1, h2, h3, -⟩ := C149_far_wrong (demo true) ⟨1, 1 / 4⟩ ⟨2, 1 / 3⟩ (by norm_num) (by norm_num) (by norm_num) (by norm_num) (by norm_num [demo]) demo_sound 7 demo0
    (by unfold new HeightCache.init; simp [demo, Setup.elastic, Setup.problem, demo0]) [] (1 / 2) (by simp [run, demo0]) ⟨0, 0, by simp [demo], by simp [demo], (hs 0 0).2 rfl⟩ (fun _ _ => by norm_num [demo])
    0 2 (by simp [demo]) (by simp [demo]) (fun a c _ _ h => by rw [(hs a c).1 h]; simp [Near, demo])
  exact ⟨f, h1, h2, h3⟩

/-- The hypotheses of `C149_near_partial`: two contact nodes in a row of three, which are one node apart; and an image as in `C149_periodic`. -/
example : (∀ i j, i < (demo true).rows → j < (demo true).cols → sought (demo true) [] (3 / 2) i j → 0 ≤ i ∧ i ≤ 0 + ((demo true).rows - 1) / 2 ∧ 0 ≤ j ∧ j ≤ 0 + ((demo true).cols - 1) / 2) ∧
    (∀ n i a : ℕ, 0 < n → (∃ m : ℤ, ((i : ℤ) - a + ((n - 1) / 2 : ℕ)) % n - ((n - 1) / 2 : ℕ) = (i : ℤ) - a + m * n) ∧ -(((n - 1) / 2 : ℕ) : ℤ) ≤ ((i : ℤ) - a + ((n - 1) / 2 : ℕ)) % n - ((n - 1) / 2 : ℕ) ∧
      ((i : ℤ) - a + ((n - 1) / 2 : ℕ)) % n - ((n - 1) / 2 : ℕ) ≤ (n / 2 : ℕ)) := by
  refine ⟨fun i j hi hj hs => ?_, fun n i a hn => ⟨⟨-(((i : ℤ) - a + ((n - 1) / 2 : ℕ)) / n), ?_⟩, ?_, ?_⟩⟩
  · simp only [demo] at hi hj ⊢
    change (j : ℝ) < 3 / 2 at hs
    have : j < 2 := by
      by_contra hn
      have : (2 : ℝ) ≤ j := by exact_mod_cast not_lt.1 hn
      linarith
    omega
  · have := Int.emod_add_mul_ediv ((i : ℤ) - a + ((n - 1) / 2 : ℕ)) n
    linarith
  · have := Int.emod_nonneg ((i : ℤ) - a + ((n - 1) / 2 : ℕ)) (show (n : ℤ) ≠ 0 by omega)
    linarith
  · have := Int.emod_lt_of_pos ((i : ℤ) - a + ((n - 1) / 2 : ℕ)) (show (0 : ℤ) < n by omega)
    omega

end Verif.HeightResults
