import Verif.ReynoldsNew.Regular

/-!
# C155: nodes without pressure after a converged sweep

`slippy/contact/unified_reynolds_solver.py` l.274-281: each row system is solved as if there were no bounds, and the solution is clipped afterwards.
-/

namespace Verif.ReynoldsNew

open Verif Tdma Reynolds

noncomputable section

/-- What flows into the cell of a node by the pressure gradient, less the wedge term, the squeeze term and the product of the increments of density and gap (C64). It is zero where
the discretised Reynolds equation holds. Where the film is broken it must not be positive: there the surfaces carry more away than they bring. -/
def surplus (d : Data) (p : Reynolds.Field ℝ) (i row : Nat) : ℝ :=
  let e := fun a b => mobility (d.density a b) (d.gap a b) (d.viscosity a b) d.lambdaBar d.minGap
  let next := (row + 1) % d.length
  let last := (row + d.length - 1) % d.length
  (flow (e i row) (e (i + 1) row) (p i row) (p (i + 1) row) d.dx - flow (e (i - 1) row) (e i row) (p (i - 1) row) (p i row) d.dx) / d.dx +
      (flow (e i row) (e i next) (p i row) (p i next) d.dx - flow (e i last) (e i row) (p i last) (p i row) d.dx) / d.dx -
    ((d.density i row * d.gap i row - d.density (i - 1) row * d.gap (i - 1) row) / d.dx +
      (d.density i row * d.gap i row - d.prevDensity i row * d.prevGap i row) * (if d.dt = 0 then 0 else 1 / d.dt) +
      (d.density i row - d.density (i - 1) row) * (d.gap i row - d.gap (i - 1) row) / d.dx)

theorem surplus_eq (d : Data) (p : Reynolds.Field ℝ) (i row : Nat) (hdx : d.dx ≠ 0) (hrho : d.density i row ≠ 0) (hrow : row < d.length) :
    surplus d p i row = d.density i row * (d.coefA row i * p (i - 1) row + d.coefB row i * p i row + d.coefC row i * p (i + 1) row - d.coefF p row i) := by
  have hnext : d.rowPlus row = (row + 1) % d.length := by
    unfold Data.rowPlus
    split
    · exact (Nat.mod_eq_of_lt ‹_›).symm
    · rw [show row + 1 = d.length by omega, Nat.mod_self]
  have hlast : d.rowMinus row = (row + d.length - 1) % d.length := by
    unfold Data.rowMinus
    split
    · rename_i hz
      rw [hz, Nat.zero_add]
      exact (Nat.mod_eq_of_lt (by omega)).symm
    · rw [show row + d.length - 1 = (row - 1) + d.length by omega, Nat.add_mod_right]
      exact (Nat.mod_eq_of_lt (by omega)).symm
  have hdt : (if d.dt = 0 then 0 else 1 / d.dt) = d.recipDt := by
    unfold Data.recipDt
    by_cases hz : d.dt = 0
    · rw [if_pos hz, if_neg (by simpa using hz)]
    · rw [if_neg hz, if_pos hz]
  unfold surplus
  simp only [← hnext, ← hlast, hdt, ← epsilon_mobility]
  unfold Data.coefA Data.coefB Data.coefC Data.coefF Data.q1 Data.q2 Data.recipDx2Rho Data.recipDx Data.d1 Data.d2 Data.d4 Data.d5 flow
  field_simp
  ring

/-- What a converged sweep means for a row: the rows' system is solved, and clipping its solution gives the pressure. -/
theorem fixed_row {d : Data} {dgtsv : Dgtsv} (he : Exact dgtsv) (h : Forward d) (hk : OwnKernel d) {maxPressure : ℝ} {forward periodic : Bool} {p : Reynolds.Field ℝ}
    (hfix : (solve d dgtsv maxPressure forward periodic none p).2 = .ok p) {i row : Nat} (hc : Computed periodic d.width d.length i row) :
    SolvesTri d.width (d.aAll row) (d.bAll row) (d.cAll row) (d.rowSolve dgtsv p row) (d.fAll p row) ∧
      ∀ k, 1 ≤ k → k + 1 < d.width → clipR maxPressure (d.rowSolve dgtsv p row k) = p k row := by
  have hrows : ∀ r ∈ pyRange forward (rowOrder forward periodic d.length).1 (rowOrder forward periodic d.length).2, 0 ≤ r ∧ r < d.length := by
    intro r hr
    rw [mem_rows] at hr
    exact ⟨hr.1, hr.2.1⟩
  have hfold := sweep_ok (clipR maxPressure) (fun q row i => d.rowSolve dgtsv q row i) d.width d.length _ hrows p
  have hfix' : sweep (clipR maxPressure) (fun q row i => d.rowSolve dgtsv q row i) d.width d.length
    (pyRange forward (rowOrder forward periodic d.length).1 (rowOrder forward periodic d.length).2) p = .ok p := hfix
  rw [hfix'] at hfold
  have hall := fixed_rows _ _ _ _ (fun r hr => (hrows r hr).1) (nodup_pyRange _ _ _) p (by injection hfold with h; exact h.symm) row
    ((computed_iff forward periodic d.width d.length i row).1 hc).2.2
  rw [Int.toNat_natCast] at hall
  refine ⟨he _ _ _ _ _ (C142_one_solution h hk row _), fun k hk1 hk2 => ?_⟩
  have := congrFun (congrFun hall k) row
  unfold sweepRow at this
  rwa [if_pos ⟨rfl, hk1, hk2⟩] at this

/-- **C155, what holds at every node**: after a converged sweep the surplus of a node comes from what was clipped off at the node and its two neighbours in the row. -/
theorem C155_surplus_partial {d : Data} {dgtsv : Dgtsv} (he : Exact dgtsv) (h : Forward d) (hk : OwnKernel d) {maxPressure : ℝ} {forward periodic : Bool} {p : Reynolds.Field ℝ}
    (hfix : (solve d dgtsv maxPressure forward periodic none p).2 = .ok p) {i row : Nat} (hc : Computed periodic d.width d.length i row) :
    let over := fun k => p k row - d.rowSolve dgtsv p row k
    surplus d p i row = d.density i row * (d.coefA row i * over (i - 1) + d.coefB row i * over i + d.coefC row i * over (i + 1)) := by
  intro over
  obtain ⟨hi1, hi2, hrow, -⟩ := id hc
  obtain ⟨hx, -⟩ := fixed_row he h hk hfix hc
  have hr := hx i (by omega)
  rw [if_neg (by omega), if_neg (by omega)] at hr
  unfold Data.aAll Data.bAll Data.cAll Data.fAll at hr
  rw [if_pos (by omega), if_pos (by omega), if_pos (by omega), if_pos (by omega), show i - 1 + 1 = i by omega] at hr
  rw [surplus_eq d p i row h.dx.ne' (h.density i row).ne' hrow, ← hr]
  simp only [over]
  ring

/-- **C155, what holds at the lowest node**: where the solution of the row system is lowest among the neighbours (and below zero) the pressure is zero and the surplus is not positive, as it
should be in a broken film. -/
theorem C155_lowest_partial {d : Data} {dgtsv : Dgtsv} (he : Exact dgtsv) (h : Forward d) (hk : OwnKernel d) {maxPressure : ℝ} (hm : 0 ≤ maxPressure) {forward periodic : Bool}
    {p : Reynolds.Field ℝ} (hfix : (solve d dgtsv maxPressure forward periodic none p).2 = .ok p) {i row : Nat} (hc : Computed periodic d.width d.length i row)
    (hends : p 0 row = 0 ∧ p (d.width - 1) row = 0) (h0 : d.rowSolve dgtsv p row i ≤ 0)
    (hlow : ∀ k, k + 1 = i ∨ k = i + 1 → d.rowSolve dgtsv p row i ≤ d.rowSolve dgtsv p row k ∧ d.rowSolve dgtsv p row k ≤ maxPressure) :
    p i row = 0 ∧ surplus d p i row ≤ 0 := by
  obtain ⟨hi1, hi2, hrow, -⟩ := id hc
  obtain ⟨hx, hclip⟩ := fixed_row he h hk hfix hc
  have hp0 : p i row = 0 := by
    rw [← hclip i hi1 hi2]
    unfold clipR
    rw [max_eq_right h0, min_eq_left hm]
  refine ⟨hp0, ?_⟩
  obtain ⟨z0, z1⟩ := C142_ends he h hk p row (by omega)
  have hover : ∀ k, k + 1 = i ∨ k = i + 1 → 0 ≤ p k row - d.rowSolve dgtsv p row k ∧ p k row - d.rowSolve dgtsv p row k ≤ -d.rowSolve dgtsv p row i := by
    intro k hki
    obtain ⟨l1, l2⟩ := hlow k hki
    by_cases e0 : k = 0
    · rw [e0] at l1 ⊢
      rw [z0, hends.1]
      exact ⟨by norm_num, by linarith⟩
    by_cases e1 : k = d.width - 1
    · rw [e1] at l1 ⊢
      rw [z1, hends.2]
      exact ⟨by norm_num, by linarith⟩
    rw [← hclip k (by omega) (by omega)]
    unfold clipR
    rcases le_total (d.rowSolve dgtsv p row k) 0 with hs | hs
    · rw [max_eq_right hs, min_eq_left hm]
      exact ⟨by linarith, by linarith⟩
    · rw [max_eq_left hs, min_eq_left l2]
      exact ⟨by linarith, by linarith⟩
  obtain ⟨a0, a1⟩ := hover (i - 1) (by omega)
  obtain ⟨c0, c1⟩ := hover (i + 1) (by omega)
  have key := C155_surplus_partial he h hk hfix hc
  simp only [hp0] at key
  rw [key]
  refine mul_nonpos_of_nonneg_of_nonpos (h.density i row).le ?_
  obtain ⟨-, k1, k2, k3⟩ := C141_order
  obtain ⟨k, l, m⟩ := hk
  obtain ⟨s0, s1, w1, w2, hs1, hs, hw2, hw, hco⟩ := coefs h (by rw [k, l]; exact k1.le) (by rw [l, m]; exact k2) (by rw [m]; exact k3) row
  obtain ⟨a, c, e, ha, hc', he', eA, eB, eC⟩ := hco i
  rw [eA, eB, eC]
  generalize p (i - 1) row - d.rowSolve dgtsv p row (i - 1) = u at *
  generalize p (i + 1) row - d.rowSolve dgtsv p row (i + 1) = v at *
  generalize d.rowSolve dgtsv p row i = x at *
  have t1 := mul_le_mul_of_nonneg_left a1 (add_nonneg ha (by linarith : (0 : ℝ) ≤ w1))
  have t2 := mul_le_mul_of_nonneg_left c1 hc'
  have t3 := mul_nonneg hs1 a0
  have t4 := mul_nonneg (add_nonneg hw2.le hs1) c0
  have t5 := mul_nonneg he' (neg_nonneg.mpr h0)
  have t6 := mul_nonneg (by linarith : 0 ≤ s0) (neg_nonneg.mpr h0)
  linarith

/-! ## A film with two inner nodes -/

/-- How much the gap rises from the first to the second node of the row, and from there to the third, so that `x1` and `x2` solve the row system of the pressures `p1` and `p2`. -/
def rises (x1 x2 p1 p2 : ℝ) : ℝ × ℝ :=
  (ak 0 * p1 + ak 1 * p2 - (ak 1 * p1 + ak 2 * p2) + (-4 - 3 * ak 1 - ak 0) * x1 + (1 + ak 2) * x2,
    ak 1 * p1 + ak 0 * p2 - (ak 0 * p1 + ak 1 * p2) + (1 + ak 0) * x1 + (-4 - 3 * ak 1 - ak 0) * x2)

/-- The gap along the row. -/
def risingGap (r : ℝ × ℝ) (i : Nat) : ℝ := 1 + |r.1| + |r.2| + (if 1 ≤ i then r.1 else 0) + (if 2 ≤ i then r.2 else 0)

theorem risingGap_pos (r : ℝ × ℝ) (i : Nat) : 0 < risingGap r i := by
  unfold risingGap
  have h1 := neg_abs_le r.1
  have h2 := neg_abs_le r.2
  have h3 := abs_nonneg r.1
  have h4 := abs_nonneg r.2
  split_ifs <;> linarith

/-- A steady film of 4 by 3 nodes with constant density; the viscosity is such that the mobility is the same everywhere. -/
def twoNodes (r : ℝ × ℝ) : Data :=
  ⟨4, 3, fun i _ => risingGap r i, fun i _ => risingGap r i ^ 3 / (1 + ak 1), fun _ _ => 1, fun _ _ => 1, fun _ _ => 1, 1, 0, 1, 0, ak 0, ak 1, ak 2⟩

theorem twoNodes_forward (r : ℝ × ℝ) : Forward (twoNodes r) := by
  obtain ⟨-, h1, h2, h3⟩ := C141_order
  refine ⟨one_pos, le_rfl, fun _ _ => one_pos, fun i j => ?_, one_pos, le_rfl⟩
  have := risingGap_pos r i
  show 0 < risingGap r i ^ 3 / (1 + ak 1)
  have : 0 < 1 + ak 1 := by linarith
  positivity

theorem twoNodes_epsilon (r : ℝ × ℝ) (i j : Nat) : (twoNodes r).epsilon i j = 1 + ak 1 := by
  obtain ⟨-, h1, h2, h3⟩ := C141_order
  have := risingGap_pos r i
  have h4 : 1 + ak 1 ≠ 0 := by linarith
  unfold Data.epsilon twoNodes
  rw [if_neg (by simpa using this.le)]
  simp only
  field_simp

/-- The pressure: zero but for the two inner nodes. -/
def twoPressures (p1 p2 : ℝ) : Reynolds.Field ℝ := fun i j => if j = 1 then (if i = 1 then p1 else if i = 2 then p2 else 0) else 0

theorem twoNodes_solves (x1 x2 p1 p2 : ℝ) : let d := twoNodes (rises x1 x2 p1 p2)
    SolvesTri d.width (d.aAll 1) (d.bAll 1) (d.cAll 1) (fun i => if i = 1 then x1 else if i = 2 then x2 else 0) (d.fAll (twoPressures p1 p2) 1) := by
  intro d
  have he : ∀ i j, d.epsilon i j = 1 + ak 1 := twoNodes_epsilon _
  have hw : d.width = 4 := rfl
  have g0 : ∀ j, d.gap 0 j = risingGap (rises x1 x2 p1 p2) 0 := fun _ => rfl
  have g1 : ∀ j, d.gap 1 j = risingGap (rises x1 x2 p1 p2) 0 + (rises x1 x2 p1 p2).1 := fun _ => by
    show risingGap _ 1 = _
    simp [risingGap]
  have g2 : ∀ j, d.gap 2 j = risingGap (rises x1 x2 p1 p2) 0 + (rises x1 x2 p1 p2).1 + (rises x1 x2 p1 p2).2 := fun _ => by
    show risingGap _ 2 = _
    simp [risingGap]
  have hr : ∀ i j, d.recipDx2Rho i j = 1 := fun i j => by simp [Data.recipDx2Rho, d, twoNodes]
  have hx : d.recipDx = 1 := by simp [Data.recipDx, d, twoNodes]
  have ht : d.recipDt = 0 := by simp [Data.recipDt, d, twoNodes]
  have hrho : ∀ i j, d.density i j = 1 := fun _ _ => rfl
  have k0 : d.ak00 = ak 0 := rfl
  have k1 : d.ak10 = ak 1 := rfl
  have k2 : d.ak20 = ak 2 := rfl
  have n1 : d.rowPlus 1 = 2 := rfl
  have n2 : d.rowMinus 1 = 0 := rfl
  rw [hw]
  intro k hk
  interval_cases k
  · simp [Data.bAll, Data.cAll, Data.fAll]
  · simp only [Data.aAll, Data.bAll, Data.cAll, Data.fAll, Data.coefA, Data.coefB, Data.coefC, Data.coefF, Data.d1, Data.d2, Data.d4, Data.d5, he, hr, hx, ht, hrho, k0, k1, k2, n1, n2,
      Data.q1, Data.q2, hw, twoPressures]
    norm_num
    rw [g0, g1]
    unfold rises
    ring
  · simp only [Data.aAll, Data.bAll, Data.cAll, Data.fAll, Data.coefA, Data.coefB, Data.coefC, Data.coefF, Data.d1, Data.d2, Data.d4, Data.d5, he, hr, hx, ht, hrho, k0, k1, k2, n1, n2,
      Data.q1, Data.q2, hw, twoPressures]
    norm_num
    rw [g1, g2]
    unfold rises
    ring
  · simp [Data.aAll, Data.bAll, Data.fAll, hw]

theorem twoNodes_row (x1 x2 p1 p2 : ℝ) {g : Dgtsv} (hg : Exact g) : ∀ i < 4,
    (twoNodes (rises x1 x2 p1 p2)).rowSolve g (twoPressures p1 p2) 1 i = if i = 1 then x1 else if i = 2 then x2 else 0 := by
  intro i hi
  have hf := twoNodes_forward (rises x1 x2 p1 p2)
  have hk : OwnKernel (twoNodes (rises x1 x2 p1 p2)) := ⟨rfl, rfl, rfl⟩
  exact tri_unique (pivots_ne hf hk 1) (hg _ _ _ _ _ (C142_one_solution hf hk 1 _)) (twoNodes_solves x1 x2 p1 p2) i hi

theorem twoNodes_fixed (x1 x2 m : ℝ) {g : Dgtsv} (hg : Exact g) (forward : Bool) :
    (solve (twoNodes (rises x1 x2 (clipR m x1) (clipR m x2))) g m forward false none (twoPressures (clipR m x1) (clipR m x2))).2 =
      .ok (twoPressures (clipR m x1) (clipR m x2)) := by
  have hrow := twoNodes_row x1 x2 (clipR m x1) (clipR m x2) hg
  set d := twoNodes (rises x1 x2 (clipR m x1) (clipR m x2))
  have : (solve d g m forward false none (twoPressures (clipR m x1) (clipR m x2))).2 =
      .ok (sweepRow (clipR m) (fun q row i => d.rowSolve g q row i) 4 (twoPressures (clipR m x1) (clipR m x2)) 1) := by
    cases forward <;> rfl
  rw [this]
  congr 1
  funext i j
  unfold sweepRow
  by_cases hc : j = 1 ∧ 1 ≤ i ∧ i + 1 < 4
  · rw [if_pos hc, hc.1]
    beta_reduce
    rw [hrow i (by omega)]
    have : i = 1 ∨ i = 2 := by omega
    rcases this with rfl | rfl <;> simp [twoPressures]
  · rw [if_neg hc]

/-- **C155 does not hold beside a broken film**: there are films for which a converged sweep leaves a node with a pressure strictly between zero and the maximum at which the Reynolds equation
does not hold, however the row systems are solved and whatever the direction: the next node was clipped, and the equation was solved with the negative value. -/
theorem C155_positive_wrong {m : ℝ} (hm : 1 < m) (forward : Bool) : ∃ d p, Forward d ∧ OwnKernel d ∧ Computed false d.width d.length 1 1 ∧ p 1 1 = 1 ∧ p 2 1 = 0 ∧
    (∀ g, Exact g → (solve d g m forward false none p).2 = .ok p) ∧ 1 < surplus d p 1 1 := by
  obtain ⟨-, h1, h2, h3⟩ := C141_order
  have c1 : clipR m 1 = 1 := by unfold clipR; rw [max_eq_left zero_le_one, min_eq_left hm.le]
  have c2 : clipR m (-1) = 0 := by unfold clipR; rw [max_eq_right (by norm_num), min_eq_left (by linarith)]
  have hfix := fun g (hg : Exact g) => twoNodes_fixed 1 (-1) m hg forward
  simp only [c1, c2] at hfix
  refine ⟨twoNodes (rises 1 (-1) 1 0), twoPressures 1 0, twoNodes_forward _, ⟨rfl, rfl, rfl⟩, by simp [Computed, twoNodes], by simp [twoPressures], by simp [twoPressures], hfix, ?_⟩
  have : surplus (twoNodes (rises 1 (-1) 1 0)) (twoPressures 1 0) 1 1 = 1 + ak 2 := by
    unfold surplus
    simp only [← epsilon_mobility, twoNodes_epsilon]
    simp [twoNodes, twoPressures, flow, risingGap, rises]
    ring
  rw [this]
  linarith

/-- **C155 does not hold inside of a broken film**: there are films for which a converged sweep leaves no pressure at all although the gap narrows in the direction of motion at the first inner
node, where the Reynolds equation asks for pressure: the surplus is positive there. -/
theorem C155_zero_wrong {m : ℝ} (hm : 0 ≤ m) (forward : Bool) : ∃ d, Forward d ∧ OwnKernel d ∧ Computed false d.width d.length 1 1 ∧
    (∀ g, Exact g → (solve d g m forward false none fun _ _ => 0).2 = .ok fun _ _ => 0) ∧ d.gap 1 1 < d.gap 0 1 ∧ 0 < surplus d (fun _ _ => 0) 1 1 := by
  obtain ⟨-, h1, h2, h3⟩ := C141_order
  have c : ∀ x ≤ (0 : ℝ), clipR m x = 0 := fun x hx => by unfold clipR; rw [max_eq_right hx, min_eq_left hm]
  have hz : twoPressures 0 0 = fun _ _ => 0 := by funext i j; simp [twoPressures]
  set K := 5 + 3 * ak 1 + ak 0 with hK
  have hfix := fun g (hg : Exact g) => twoNodes_fixed (-1) (-K) m hg forward
  simp only [c (-1) (by norm_num), c (-K) (by linarith), hz] at hfix
  have hfall : (rises (-1) (-K) 0 0).1 < 0 := by
    unfold rises
    have : 0 < ak 2 * K := mul_pos h3 (by linarith)
    simp only
    linarith
  have hgap : risingGap (rises (-1) (-K) 0 0) 1 - risingGap (rises (-1) (-K) 0 0) 0 = (rises (-1) (-K) 0 0).1 := by simp [risingGap]
  refine ⟨twoNodes (rises (-1) (-K) 0 0), twoNodes_forward _, ⟨rfl, rfl, rfl⟩, by simp [Computed, twoNodes], hfix, ?_, ?_⟩
  · show risingGap _ 1 < risingGap _ 0
    linarith
  · have : surplus (twoNodes (rises (-1) (-K) 0 0)) (fun _ _ => 0) 1 1 = -(risingGap (rises (-1) (-K) 0 0) 1 - risingGap (rises (-1) (-K) 0 0) 0) := by
      unfold surplus
      simp [twoNodes, flow]
    rw [this, hgap]
    linarith

/-! ## The hypotheses can be met -/

open Classical in
theorem exact_exists : ∃ g, Exact g :=
  ⟨fun n a b c f => if hx : ∃ x, SolvesTri n a b c x f ∧ ∀ y, SolvesTri n a b c y f → ∀ i < n, y i = x i then hx.choose else fun _ => 0,
    fun n a b c f hx => by simp only [dif_pos hx]; exact hx.choose_spec.1⟩

/-- In the film of `C155_positive_wrong` the second inner node is a lowest one; the theorems with hypotheses apply to it. -/
example : surplus (twoNodes (rises 1 (-1) 1 0)) (twoPressures 1 0) 2 1 ≤ 0 := by
  obtain ⟨g, hg⟩ := exact_exists
  have hfix := twoNodes_fixed 1 (-1) 2 hg true
  have c1 : clipR 2 1 = 1 := by norm_num [clipR]
  have c2 : clipR 2 (-1) = 0 := by norm_num [clipR]
  simp only [c1, c2] at hfix
  have hrow := twoNodes_row 1 (-1) 1 0 hg
  have := C155_surplus_partial hg (twoNodes_forward _) ⟨rfl, rfl, rfl⟩ hfix (i := 2) (row := 1) (by simp [Computed, twoNodes])
  refine (C155_lowest_partial hg (twoNodes_forward _) ⟨rfl, rfl, rfl⟩ (by norm_num) hfix (i := 2) (row := 1) (by simp [Computed, twoNodes]) (by simp [twoPressures, twoNodes]) ?_ ?_).2
  · rw [hrow 2 (by norm_num)]
    norm_num
  · intro k hk
    have : k = 1 ∨ k = 3 := by omega
    rcases this with rfl | rfl <;> rw [hrow 2 (by norm_num), hrow _ (by norm_num)] <;> norm_num

example := C155_positive_wrong (m := 2) (by norm_num) true

example := C155_zero_wrong (m := 2) (by norm_num) false

end

end Verif.ReynoldsNew
