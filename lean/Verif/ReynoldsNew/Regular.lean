import Verif.ReynoldsNew.Tri
import Verif.ReynoldsNew.Props
import Verif.Reynolds.Props

/-!
# C142: the row systems of the Reynolds solver have exactly one solution
-/

namespace Verif.ReynoldsNew

open Verif Tdma Reynolds

noncomputable section

/-- Fields and constants of a film that flows forwards: everything that is divided by is positive. -/
structure Forward (d : Data) : Prop where
  dx : 0 < d.dx
  dt : 0 ≤ d.dt
  density : ∀ i j, 0 < d.density i j
  viscosity : ∀ i j, 0 < d.viscosity i j
  lambdaBar : 0 < d.lambdaBar
  minGap : 0 ≤ d.minGap

theorem epsilon_nonneg {d : Data} (h : Forward d) (i j : Nat) : 0 ≤ d.epsilon i j := by
  unfold Data.epsilon
  split_ifs with hg
  · exact le_rfl
  · have := h.density i j
    have := h.viscosity i j
    have := h.lambdaBar
    have : 0 ≤ d.gap i j := h.minGap.trans (not_lt.mp hg)
    positivity

theorem recipDt_nonneg {d : Data} (h : Forward d) : 0 ≤ d.recipDt := by
  unfold Data.recipDt
  have := h.dt
  split_ifs <;> positivity

/-- The coefficients of a row in terms of numbers that are not negative: `a`, `c`, `e` for the flows, `s0`, `s1` for the squeeze terms, `w1`, `w2` for the
wedge terms. -/
theorem coefs {d : Data} (h : Forward d) (h01 : 3 * d.ak10 ≤ d.ak00) (h12 : d.ak20 < d.ak10) (h2 : 0 < d.ak20) (row : Nat) :
    ∃ s0 s1 w1 w2 : ℝ, 0 ≤ s1 ∧ 3 * s1 ≤ s0 ∧ 0 < w2 ∧ w2 ≤ w1 ∧ ∀ i, ∃ a c e : ℝ, 0 ≤ a ∧ 0 ≤ c ∧ 0 ≤ e ∧
      d.coefA row i = a + w1 - s1 ∧ d.coefB row i = -(a + c + e + s0 + w1) ∧ d.coefC row i = c - w2 - s1 := by
  have ht := recipDt_nonneg h
  have hx : 0 < d.recipDx := by unfold Data.recipDx; have := h.dx; positivity
  refine ⟨d.ak00 * d.recipDt, d.ak10 * d.recipDt, (d.ak00 - d.ak10) * d.recipDx, (d.ak10 - d.ak20) * d.recipDx, mul_nonneg (by linarith) ht, ?_,
    mul_pos (by linarith) hx, mul_le_mul_of_nonneg_right (by linarith) hx.le, fun i => ?_⟩
  · have := mul_le_mul_of_nonneg_right h01 ht
    linarith
  · have hr : 0 < d.recipDx2Rho i row := by
      unfold Data.recipDx2Rho
      have := h.dx
      have := h.density i row
      positivity
    have p : ∀ i j i' j', 0 ≤ 0.5 * (d.epsilon i j + d.epsilon i' j') := fun i j i' j' => by
      have := epsilon_nonneg h i j
      have := epsilon_nonneg h i' j'
      positivity
    refine ⟨d.d1 row i * d.recipDx2Rho i row, d.d2 row i * d.recipDx2Rho i row, (d.d4 row i + d.d5 row i) * d.recipDx2Rho i row,
      mul_nonneg (p _ _ _ _) hr.le, mul_nonneg (p _ _ _ _) hr.le, mul_nonneg (add_nonneg (p _ _ _ _) (p _ _ _ _)) hr.le, ?_, ?_, ?_⟩
    · unfold Data.coefA; ring
    · unfold Data.coefB; ring
    · unfold Data.coefC; ring

/-- One step of the elimination. -/
theorem step_neg {s0 s1 w1 w2 a c e C q : ℝ} (hs1 : 0 ≤ s1) (hs : 3 * s1 ≤ s0) (hw2 : 0 < w2) (hw : w2 ≤ w1) (ha : 0 ≤ a) (hc : 0 ≤ c) (he : 0 ≤ e)
    (hq : 0 < q) (hqC : C < q) (hqs : s0 - s1 ≤ q) (hC : -(w2 + s1) ≤ C) :
    let q' := a + c + e + s0 + w1 - (a + w1 - s1) * C / q
    0 < q' ∧ c - w2 - s1 < q' ∧ s0 - s1 ≤ q' := by
  intro q'
  have key : (a + w1 - s1) * C / q ≤ a + w1 + s1 ∧ ((a + w1 - s1) * C / q = a + w1 + s1 → s0 = 0 → False) ∧ (a + w1 - s1) * C / q ≤ a + w1 + s1 := by
    have main : (a + w1 - s1) * C / q < a + w1 + s1 ∨ (a + w1 - s1) * C / q ≤ 0 := by
      rcases le_or_gt 0 (a + w1 - s1) with hA | hA
      · rcases le_or_gt C 0 with hC0 | hC0
        · right
          exact div_nonpos_of_nonpos_of_nonneg (mul_nonpos_of_nonneg_of_nonpos hA hC0) hq.le
        · left
          rw [div_lt_iff₀ hq]
          have h1 : (a + w1 - s1) * C ≤ (a + w1 - s1) * q := mul_le_mul_of_nonneg_left hqC.le hA
          rcases hA.eq_or_lt with h0 | h0
          · rw [← h0, zero_mul]
            have : 0 < a + w1 + s1 := by linarith
            positivity
          · have h2 : (a + w1 - s1) * C < (a + w1 - s1) * q := mul_lt_mul_of_pos_left hqC h0
            have h3 : (a + w1 - s1) * q ≤ (a + w1 + s1) * q := mul_le_mul_of_nonneg_right (by linarith) hq.le
            linarith
      · rcases le_or_gt 0 C with hC0 | hC0
        · right
          exact div_nonpos_of_nonpos_of_nonneg (mul_nonpos_of_nonpos_of_nonneg hA.le hC0) hq.le
        · left
          rw [div_lt_iff₀ hq]
          have hCq : -C ≤ q := by linarith
          have h1 : (a + w1 - s1) * C = (s1 - a - w1) * (-C) := by ring
          have h2 : (s1 - a - w1) * (-C) ≤ (s1 - a - w1) * q := mul_le_mul_of_nonneg_left hCq (by linarith)
          have h3 : (s1 - a - w1) * q < (a + w1 + s1) * q := mul_lt_mul_of_pos_right (by linarith) hq
          linarith
    refine ⟨?_, fun h1 _ => ?_, ?_⟩
    · rcases main with h | h <;> linarith
    · rcases main with h | h <;> linarith
    · rcases main with h | h <;> linarith
  have hpos : (a + w1 - s1) * C / q < a + c + e + s0 + w1 := by
    rcases hs1.eq_or_lt with h0 | h0
    · rcases (by linarith : (0 : ℝ) ≤ s0).eq_or_lt with h1 | h1
      · have := lt_of_le_of_ne key.1 (fun h => key.2.1 h h1.symm)
        linarith
      · linarith [key.1]
    · linarith [key.1]
  refine ⟨by simp only [q']; linarith, ?_, ?_⟩
  · simp only [q']
    rcases hs1.eq_or_lt with h0 | h0 <;> linarith [key.1]
  · simp only [q']
    linarith [key.1]

theorem pivots {d : Data} (h : Forward d) (h01 : 3 * d.ak10 ≤ d.ak00) (h12 : d.ak20 < d.ak10) (h2 : 0 < d.ak20) (row : Nat) :
    ∀ k < d.width, (k = 0 ∧ pivot (d.aAll row) (d.bAll row) (d.cAll row) k = 1) ∨
      (1 ≤ k ∧ k + 1 < d.width ∧ pivot (d.aAll row) (d.bAll row) (d.cAll row) k < 0) ∨
      (k + 1 = d.width ∧ pivot (d.aAll row) (d.bAll row) (d.cAll row) k = 1) := by
  obtain ⟨s0, s1, w1, w2, hs1, hs, hw2, hw, hco⟩ := coefs h h01 h12 h2 row
  have inner : ∀ k, k + 2 < d.width → 0 < -pivot (d.aAll row) (d.bAll row) (d.cAll row) (k + 1) ∧
      d.coefC row (k + 1) < -pivot (d.aAll row) (d.bAll row) (d.cAll row) (k + 1) ∧ s0 - s1 ≤ -pivot (d.aAll row) (d.bAll row) (d.cAll row) (k + 1) := by
    intro k
    induction k with
    | zero =>
      intro hk
      obtain ⟨a, c, e, ha, hc, he, eA, eB, eC⟩ := hco 1
      have hp : pivot (d.aAll row) (d.bAll row) (d.cAll row) (0 + 1) = d.coefB row 1 := by
        simp only [pivot, Data.cAll, Data.bAll]
        rw [if_pos ⟨by omega, by omega⟩]
        simp
      rw [hp, eB]
      show _ ∧ d.coefC row 1 < _ ∧ _
      rw [eC]
      refine ⟨by linarith, by linarith, by linarith⟩
    | succ k ih =>
      intro hk
      obtain ⟨q1, q2, q3⟩ := ih (by omega)
      obtain ⟨a, c, e, ha, hc, he, eA, eB, eC⟩ := hco (k + 1 + 1)
      obtain ⟨a', c', e', ha', hc', he', eA', eB', eC'⟩ := hco (k + 1)
      have hp : -pivot (d.aAll row) (d.bAll row) (d.cAll row) (k + 1 + 1) =
          a + c + e + s0 + w1 - (a + w1 - s1) * d.coefC row (k + 1) / (-pivot (d.aAll row) (d.bAll row) (d.cAll row) (k + 1)) := by
        have : pivot (d.aAll row) (d.bAll row) (d.cAll row) (k + 1 + 1) = d.coefB row (k + 1 + 1) -
            d.coefA row (k + 1 + 1) * d.coefC row (k + 1) / pivot (d.aAll row) (d.bAll row) (d.cAll row) (k + 1) := by
          conv_lhs => rw [pivot]
          unfold Data.aAll Data.bAll Data.cAll
          rw [if_pos (⟨by omega, by omega⟩ : 1 ≤ k + 1 + 1 ∧ k + 1 + 1 + 1 < d.width), if_pos (by omega : k + 1 + 2 < d.width),
            if_pos (⟨by omega, by omega⟩ : 1 ≤ k + 1 ∧ k + 1 + 1 < d.width)]
        rw [this, eA, eB, div_neg]
        ring
      rw [hp, eC]
      exact step_neg hs1 hs hw2 hw ha hc he q1 q2 q3 (by rw [eC']; linarith)
  intro k hk
  match k with
  | 0 =>
    left
    simp [pivot, Data.bAll]
  | k + 1 =>
    rcases Nat.lt_or_ge (k + 2) d.width with h1 | h1
    · right; left
      exact ⟨by omega, h1, by linarith [(inner k h1).1]⟩
    · right; right
      refine ⟨by omega, ?_⟩
      simp only [pivot, Data.aAll, Data.bAll]
      rw [if_neg (by omega), if_neg (by omega)]
      simp

/-- The coefficients of the system are those of a new solver (C141). -/
def OwnKernel (d : Data) : Prop := d.ak00 = ak 0 ∧ d.ak10 = ak 1 ∧ d.ak20 = ak 2

theorem pivots_ne {d : Data} (h : Forward d) (hk : OwnKernel d) (row : Nat) : ∀ k < d.width, pivot (d.aAll row) (d.bAll row) (d.cAll row) k ≠ 0 := by
  obtain ⟨-, h1, h2, h3⟩ := C141_order
  obtain ⟨e0, e1, e2⟩ := hk
  intro k hk
  rcases pivots h (by rw [e0, e1]; exact h1.le) (by rw [e1, e2]; exact h2) (by rw [e2]; exact h3) row k hk with ⟨-, h⟩ | ⟨-, -, h⟩ | ⟨-, h⟩
  · rw [h]; norm_num
  · exact h.ne
  · rw [h]; norm_num

/-- **C142**: with the coefficients of a new solver every row system has exactly one solution, for every right-hand side, every gap (also where the bodies
touch and there is no flow), every width and every time step that is not negative. -/
theorem C142_one_solution {d : Data} (h : Forward d) (hk : OwnKernel d) (row : Nat) (f : Nat → ℝ) :
    ∃ x, SolvesTri d.width (d.aAll row) (d.bAll row) (d.cAll row) x f ∧
      ∀ y, SolvesTri d.width (d.aAll row) (d.bAll row) (d.cAll row) y f → ∀ i < d.width, y i = x i := by
  obtain ⟨x, hx⟩ := tri_exists f (pivots_ne h hk row)
  exact ⟨x, hx, fun y hy => tri_unique (pivots_ne h hk row) hy hx⟩

/-- A film with a dry node. -/
def dryFilm : Data :=
  ⟨5, 4, fun i _ => if i = 2 then 0 else 1, fun _ _ => 1, fun _ _ => 1, fun _ _ => 1, fun _ _ => 1, 1 / 10, 0, 1, 1 / 100, ak 0, ak 1, ak 2⟩

theorem dryFilm_forward : Forward dryFilm := by
  constructor <;> (try intro _ _) <;> norm_num [dryFilm]

example : Forward dryFilm ∧ OwnKernel dryFilm := ⟨dryFilm_forward, rfl, rfl, rfl⟩

/-- A solver for tridiagonal systems that returns a solution whenever there is exactly one. -/
def Exact (dgtsv : Dgtsv) : Prop :=
  ∀ n a b c f, (∃ x, SolvesTri n a b c x f ∧ ∀ y, SolvesTri n a b c y f → ∀ i < n, y i = x i) → SolvesTri n a b c (dgtsv n a b c f) f

/-- **C142**: a solution of the row system that the code computes has the pressure zero at both ends. -/
theorem C142_ends {d : Data} {dgtsv : Dgtsv} (he : Exact dgtsv) (h : Forward d) (hk : OwnKernel d) (p : Reynolds.Field ℝ) (row : Nat) (hw : 2 ≤ d.width) :
    d.rowSolve dgtsv p row 0 = 0 ∧ d.rowSolve dgtsv p row (d.width - 1) = 0 := by
  have hs := he _ _ _ _ (d.fAll p row) (C142_one_solution h hk row _)
  have h0 := hs 0 (by omega)
  have h1 := hs (d.width - 1) (by omega)
  rw [if_pos rfl, if_neg (by omega)] at h0
  rw [if_neg (by omega), if_pos (by omega)] at h1
  have e1 : d.aAll row (d.width - 1 - 1) = 0 := by unfold Data.aAll; rw [if_neg (by omega)]
  have e2 : d.bAll row (d.width - 1) = 1 := by unfold Data.bAll; rw [if_neg (by omega)]
  have e3 : d.fAll p row (d.width - 1) = 0 := by unfold Data.fAll; rw [if_neg (by omega)]
  rw [e1, e2, e3] at h1
  simp only [Data.bAll, Data.cAll, Data.fAll, Nat.not_lt_zero, Nat.le_zero, one_ne_zero, false_and, if_false] at h0
  unfold Data.rowSolve tdma
  exact ⟨by linarith, by linarith⟩

theorem sweepRow_same {d : Data} {g1 g2 : Dgtsv} (h1 : Exact g1) (h2 : Exact g2) (h : Forward d) (hk : OwnKernel d) (clip : ℝ → ℝ) (p : Reynolds.Field ℝ) (row : Nat) :
    sweepRow clip (fun q row i => d.rowSolve g1 q row i) d.width p row = sweepRow clip (fun q row i => d.rowSolve g2 q row i) d.width p row := by
  funext i j
  unfold sweepRow
  by_cases hc : j = row ∧ 1 ≤ i ∧ i + 1 < d.width
  · rw [if_pos hc, if_pos hc]
    have s1 := h1 _ _ _ _ (d.fAll p row) (C142_one_solution h hk row _)
    have s2 := h2 _ _ _ _ (d.fAll p row) (C142_one_solution h hk row _)
    have := tri_unique (pivots_ne h hk row) s1 s2 i (by omega)
    simp only [Data.rowSolve, tdma]
    rw [this]
  · rw [if_neg hc, if_neg hc]

/-- **C142**: so the pressure after a sweep does not depend on how the systems are solved: two solvers for tridiagonal systems that find solutions where there is
exactly one give the same pressure. -/
theorem C142_determined {d : Data} {g1 g2 : Dgtsv} (h1 : Exact g1) (h2 : Exact g2) (h : Forward d) (hk : OwnKernel d) (maxPressure : ℝ)
    (forward periodic : Bool) (order : Option (ℤ × ℤ)) (p : Reynolds.Field ℝ) :
    solve d g1 maxPressure forward periodic order p = solve d g2 maxPressure forward periodic order p := by
  unfold solve solveWith
  have key : ∀ (rows : List ℤ) (p : Reynolds.Field ℝ), sweep (clipR maxPressure) (fun q row i => d.rowSolve g1 q row i) d.width d.length rows p =
      sweep (clipR maxPressure) (fun q row i => d.rowSolve g2 q row i) d.width d.length rows p := by
    intro rows
    induction rows with
    | nil => intro p; rfl
    | cons r rest ih =>
      intro p
      simp only [sweep, sweepRow_same h1 h2 h hk, ih]
  simp only [key]

open Classical in
/-- Solvers like that exist (also for `C142_ends`, with the film `dryFilm`). -/
example : ∃ g, Exact g :=
  ⟨fun n a b c f => if hx : ∃ x, SolvesTri n a b c x f ∧ ∀ y, SolvesTri n a b c y f → ∀ i < n, y i = x i then hx.choose else fun _ => 0,
    fun n a b c f hx => by simp only [dif_pos hx]; exact hx.choose_spec.1⟩

/-! ## A film that flows backwards -/

/-- Three nodes along the row; the flow of the nodes and the speed parameter are given. -/
def threeNodes (dx lambda : ℝ) : Data :=
  ⟨3, 3, fun _ _ => 1, fun _ _ => 1, fun _ _ => 1, fun _ _ => 1, fun _ _ => 1, dx, 0, lambda, 1 / 100, ak 0, ak 1, ak 2⟩

/-- **C142 does not hold for negative speeds**: for each spacing there is a negative speed parameter for which the row system of a steady film of constant
thickness has the pivot zero: it has solutions other than zero for the right-hand side zero, and none for others. -/
theorem C142_backwards_wrong {dx : ℝ} (hdx : 0 < dx) : ∃ lambda < 0, OwnKernel (threeNodes dx lambda) ∧
    (∃ x, SolvesTri 3 ((threeNodes dx lambda).aAll 1) ((threeNodes dx lambda).bAll 1) ((threeNodes dx lambda).cAll 1) x (fun _ => 0) ∧ x 1 ≠ 0) ∧
    ¬ ∃ x, SolvesTri 3 ((threeNodes dx lambda).aAll 1) ((threeNodes dx lambda).bAll 1) ((threeNodes dx lambda).cAll 1) x (fun i => if i = 1 then 1 else 0) := by
  obtain ⟨-, h1, h2, h3⟩ := C141_order
  have hw : 0 < ak 0 - ak 1 := by linarith
  set lam := -(4 / (dx * (ak 0 - ak 1))) with hl
  have hneg : lam < 0 := by
    have : 0 < 4 / (dx * (ak 0 - ak 1)) := by positivity
    linarith
  have he : ∀ i j, (threeNodes dx lam).epsilon i j = 1 / lam := fun i j => by
    unfold Data.epsilon threeNodes
    rw [if_neg (by norm_num)]
    norm_num
  have hb : (threeNodes dx lam).coefB 1 1 = 0 := by
    unfold Data.coefB Data.d1 Data.d2 Data.d4 Data.d5 Data.recipDt Data.recipDx Data.recipDx2Rho
    simp only [he]
    simp only [threeNodes, ne_eq, not_true_eq_false, if_false]
    rw [hl]
    field_simp
    ring
  have m0 : (threeNodes dx lam).bAll 1 0 = 1 := by simp [Data.bAll]
  have m1 : (threeNodes dx lam).bAll 1 1 = 0 := by simp only [Data.bAll, threeNodes]; exact hb
  have m2 : (threeNodes dx lam).bAll 1 2 = 1 := by simp [Data.bAll, threeNodes]
  have a1 : (threeNodes dx lam).aAll 1 1 = 0 := by simp [Data.aAll, threeNodes]
  have c0 : (threeNodes dx lam).cAll 1 0 = 0 := by simp [Data.cAll]
  refine ⟨lam, hneg, ⟨rfl, rfl, rfl⟩, ⟨fun i => if i = 1 then 1 else 0, fun i hi => ?_, by simp⟩, ?_⟩
  · have : i = 0 ∨ i = 1 ∨ i = 2 := by omega
    rcases this with rfl | rfl | rfl <;> simp [m0, m1, m2, a1, c0]
  · rintro ⟨x, hx⟩
    have e0 := hx 0 (by omega)
    have e1 := hx 1 (by omega)
    have e2 := hx 2 (by omega)
    simp [m0, c0] at e0
    simp [m2, a1] at e2
    simp [m1, e0, e2] at e1

example : (0 : ℝ) < 1 / 10 := by norm_num

end

end Verif.ReynoldsNew
