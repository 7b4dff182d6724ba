import Verif.ReynoldsNew.Cavitation
import Mathlib.Algebra.BigOperators.Ring.Finset
import Mathlib.Algebra.Order.BigOperators.Group.Finset
import Mathlib.Algebra.BigOperators.Fin

/-!
# C163: the balance of the lubricant in a region of the film

`slippy/contact/unified_reynolds_solver.py` l.214-291 and l.319-358. The flows through the faces between cells are written down from the physical quantities; the sum over a
block of cells leaves the flows through its boundary.
-/

namespace Verif.ReynoldsNew

open Verif Tdma Reynolds Finset

noncomputable section

/-! ## Specification -/

/-- The mobility of a node. -/
def mob (d : Data) (i j : Nat) : ℝ := mobility (d.density i j) (d.gap i j) (d.viscosity i j) d.lambdaBar d.minGap

/-- The mass that flows from the node `(i, j)` to `(i + 1, j)`: carried by the surfaces, less what the pressure drives back. -/
def along (d : Data) (p : Reynolds.Field ℝ) (i j : Nat) : ℝ :=
  d.density i j * d.gap i j - flow (mob d i j) (mob d (i + 1) j) (p i j) (p (i + 1) j) d.dx

/-- The mass that flows from the node `(i, j)` to the next row; the row after the last one is the first one. -/
def across (d : Data) (p : Reynolds.Field ℝ) (i j : Nat) : ℝ :=
  - flow (mob d i j) (mob d i ((j + 1) % d.length)) (p i j) (p i ((j + 1) % d.length)) d.dx

/-- The mass in a block of `m` by `n` cells that begins after column `a` and row `c`. -/
def massIn (rho h : Reynolds.Field ℝ) (a c m n : Nat) : ℝ := ∑ l ∈ range n, ∑ k ∈ range m, rho (a + k + 1) (c + l + 1) * h (a + k + 1) (c + l + 1)

/-- What leaves the block in the direction of motion and to the sides, less what enters it. -/
def leaving (d : Data) (p : Reynolds.Field ℝ) (a c m n : Nat) : ℝ :=
  ∑ l ∈ range n, (along d p (a + m) (c + l + 1) - along d p a (c + l + 1)) + ∑ k ∈ range m, (across d p (a + k + 1) (c + n) - across d p (a + k + 1) c)

/-- The products of the increments of density and gap in the block. -/
def products (d : Data) (a c m n : Nat) : ℝ :=
  ∑ l ∈ range n, ∑ k ∈ range m, (d.density (a + k + 1) (c + l + 1) - d.density (a + k) (c + l + 1)) * (d.gap (a + k + 1) (c + l + 1) - d.gap (a + k) (c + l + 1))

/-- Unbroken film: all nodes of the block are computed, and they and their neighbours in the row are strictly inside of the range of pressures (or on the boundary). -/
def Film (periodic : Bool) (d : Data) (maxPressure : ℝ) (p : Reynolds.Field ℝ) (a c m n : Nat) : Prop :=
  ∀ k < m, ∀ l < n, Computed periodic d.width d.length (a + k + 1) (c + l + 1) ∧ Unclipped d.width maxPressure p (c + l + 1) (a + k) ∧
    Unclipped d.width maxPressure p (c + l + 1) (a + k + 1) ∧ Unclipped d.width maxPressure p (c + l + 1) (a + k + 2)

/-! ## Lemmas -/

/-- The balance of one cell. -/
theorem cell (d : Data) (p : Reynolds.Field ℝ) (i j : Nat) (hdx : d.dx ≠ 0) (hj : j + 1 < d.length + 1) :
    (along d p (i + 1) j - along d p i j) + (across d p (i + 1) j - across d p (i + 1) ((j + d.length - 1) % d.length)) =
      -(d.dx * ((d.density (i + 1) j * d.gap (i + 1) j - d.prevDensity (i + 1) j * d.prevGap (i + 1) j) * (if d.dt = 0 then 0 else 1 / d.dt))) -
        (d.density (i + 1) j - d.density i j) * (d.gap (i + 1) j - d.gap i j) - d.dx * surplus d p (i + 1) j := by
  have hback : ((j + d.length - 1) % d.length + 1) % d.length = j := by
    rcases Nat.eq_zero_or_pos j with rfl | h
    · rw [show 0 + d.length - 1 = d.length - 1 by omega, Nat.mod_eq_of_lt (show d.length - 1 < d.length by omega), show d.length - 1 + 1 = d.length by omega, Nat.mod_self]
    · rw [show j + d.length - 1 = j - 1 + d.length by omega, Nat.add_mod_right, Nat.mod_eq_of_lt (show j - 1 < d.length by omega), show j - 1 + 1 = j by omega, Nat.mod_eq_of_lt (by omega)]
  unfold along across surplus mob
  rw [hback]
  simp only [Nat.add_sub_cancel]
  field_simp
  ring

theorem film_surplus {d : Data} {dgtsv : Dgtsv} (he : Exact dgtsv) (h : Forward d) (hk : OwnKernel d) {maxPressure : ℝ} {forward periodic : Bool} {p : Reynolds.Field ℝ}
    (hfix : (solve d dgtsv maxPressure forward periodic none p).2 = .ok p) {i j : Nat} (hc : Computed periodic d.width d.length (i + 1) j)
    (h0 : Unclipped d.width maxPressure p j i) (h1 : Unclipped d.width maxPressure p j (i + 1)) (h2 : Unclipped d.width maxPressure p j (i + 2)) :
    surplus d p (i + 1) j = 0 := by
  have := C64_converged_sweep_solves_reynolds d dgtsv maxPressure forward periodic p (i + 1) j (fixed_row he h hk hfix hc).1 hfix hc h.dx.ne' (h.density _ _).ne'
    (by simpa using h0) h1 h2
  unfold surplus
  simp only at this ⊢
  rw [this]
  ring

theorem previous_row (L c l : Nat) (h : c + l + 1 < L) : (c + l + 1 + L - 1) % L = c + l := by
  rw [show c + l + 1 + L - 1 = c + l + L by omega, Nat.add_mod_right, Nat.mod_eq_of_lt (by omega)]

/-- The sum over a block leaves the boundary. -/
theorem block (d : Data) (p : Reynolds.Field ℝ) (a c m n : Nat) (hdx : d.dx ≠ 0) (hn : c + n < d.length) :
    leaving d p a c m n = -(d.dx * (massIn d.density d.gap a c m n - massIn d.prevDensity d.prevGap a c m n) * (if d.dt = 0 then 0 else 1 / d.dt)) -
      products d a c m n - d.dx * ∑ l ∈ range n, ∑ k ∈ range m, surplus d p (a + k + 1) (c + l + 1) := by
  have h1 : ∑ l ∈ range n, (along d p (a + m) (c + l + 1) - along d p a (c + l + 1)) =
      ∑ l ∈ range n, ∑ k ∈ range m, (along d p (a + k + 1) (c + l + 1) - along d p (a + k) (c + l + 1)) := by
    refine sum_congr rfl fun l _ => ?_
    exact (sum_range_sub (fun k => along d p (a + k) (c + l + 1)) m).symm
  have h2 : ∑ k ∈ range m, (across d p (a + k + 1) (c + n) - across d p (a + k + 1) c) =
      ∑ l ∈ range n, ∑ k ∈ range m, (across d p (a + k + 1) (c + l + 1) - across d p (a + k + 1) (c + l)) := by
    rw [sum_comm]
    refine sum_congr rfl fun k _ => ?_
    exact (sum_range_sub (fun l => across d p (a + k + 1) (c + l)) n).symm
  unfold leaving massIn products
  rw [h1, h2, mul_sum, ← sum_sub_distrib, mul_sum, sum_mul, ← sum_add_distrib, ← sum_neg_distrib, ← sum_sub_distrib, ← sum_sub_distrib]
  refine sum_congr rfl fun l hl => ?_
  rw [mul_sum, ← sum_sub_distrib, mul_sum, sum_mul, ← sum_add_distrib, ← sum_neg_distrib, ← sum_sub_distrib, ← sum_sub_distrib]
  refine sum_congr rfl fun k _ => ?_
  have hl' : c + l + 1 < d.length := by have := mem_range.1 hl; omega
  have := cell d p (a + k) (c + l + 1) hdx (by omega)
  rw [previous_row d.length c l hl'] at this
  rw [this]
  ring

/-! ## C163 -/

/-- **C163, the balance of a block**: after a converged sweep, in any block of unbroken film, what leaves the block less what enters it is the loss of mass in it over the time
step, less the products of the increments of density and gap. -/
theorem C163_balance_partial {d : Data} {dgtsv : Dgtsv} (he : Exact dgtsv) (h : Forward d) (hk : OwnKernel d) {maxPressure : ℝ} {forward periodic : Bool} {p : Reynolds.Field ℝ}
    (hfix : (solve d dgtsv maxPressure forward periodic none p).2 = .ok p) {a c m n : Nat} (hn : c + n < d.length) (hf : Film periodic d maxPressure p a c m n) :
    leaving d p a c m n = -(d.dx * (massIn d.density d.gap a c m n - massIn d.prevDensity d.prevGap a c m n) * (if d.dt = 0 then 0 else 1 / d.dt)) - products d a c m n := by
  rw [block d p a c m n h.dx.ne' hn]
  have : ∑ l ∈ range n, ∑ k ∈ range m, surplus d p (a + k + 1) (c + l + 1) = 0 := by
    refine sum_eq_zero fun l hl => sum_eq_zero fun k hk' => ?_
    obtain ⟨h1, h2, h3, h4⟩ := hf k (mem_range.1 hk') l (mem_range.1 hl)
    exact film_surplus he h hk hfix h1 h2 h3 h4
  rw [this]
  ring

/-- **C163 holds for a lubricant of constant density**: without a time step (a steady film) exactly as much leaves the block as enters it. -/
theorem C163_constant_density_partial {d : Data} {dgtsv : Dgtsv} (he : Exact dgtsv) (h : Forward d) (hk : OwnKernel d) {maxPressure : ℝ} {forward periodic : Bool}
    {p : Reynolds.Field ℝ} (hfix : (solve d dgtsv maxPressure forward periodic none p).2 = .ok p) {a c m n : Nat} (hn : c + n < d.length)
    (hf : Film periodic d maxPressure p a c m n) (hrho : ∀ i j i' j', d.density i j = d.density i' j') (hdt : d.dt = 0) :
    leaving d p a c m n = 0 := by
  rw [C163_balance_partial he h hk hfix hn hf, if_pos hdt]
  have : products d a c m n = 0 := by
    refine sum_eq_zero fun l _ => sum_eq_zero fun k _ => ?_
    rw [hrho (a + k + 1) (c + l + 1) (a + k) (c + l + 1)]
    ring
  rw [this]
  ring

/-- **C163 does not hold for compressible lubricants**: in a steady film in which the gap narrows and the density rises in the direction of motion, as in the inlet of every
contact, more leaves the block than enters it. -/
theorem C163_created_wrong {d : Data} {dgtsv : Dgtsv} (he : Exact dgtsv) (h : Forward d) (hk : OwnKernel d) {maxPressure : ℝ} {forward periodic : Bool} {p : Reynolds.Field ℝ}
    (hfix : (solve d dgtsv maxPressure forward periodic none p).2 = .ok p) {a c m n : Nat} (hn : c + n < d.length) (hf : Film periodic d maxPressure p a c m n)
    (hdt : d.dt = 0) (hm : 0 < m) (hn0 : 0 < n)
    (hinlet : ∀ k < m, ∀ l < n, d.gap (a + k + 1) (c + l + 1) < d.gap (a + k) (c + l + 1) ∧ d.density (a + k) (c + l + 1) < d.density (a + k + 1) (c + l + 1)) :
    0 < leaving d p a c m n := by
  rw [C163_balance_partial he h hk hfix hn hf, if_pos hdt]
  have : products d a c m n < 0 := by
    unfold products
    refine sum_neg (fun l hl => sum_neg (fun k hk' => ?_) ⟨0, mem_range.2 hm⟩) ⟨0, mem_range.2 hn0⟩
    obtain ⟨h1, h2⟩ := hinlet k (mem_range.1 hk') l (mem_range.1 hl)
    exact mul_neg_of_pos_of_neg (by linarith) (by linarith)
  linarith

/-- Around the ring of rows nothing is gained. -/
theorem ring_sum (s : Nat → ℝ) (L : Nat) : ∑ j ∈ range L, (s j - s ((j + L - 1) % L)) = 0 := by
  cases L with
  | zero => simp
  | succ n =>
    rw [sum_sub_distrib, sub_eq_zero, sum_range_succ, sum_range_succ']
    congr 1
    · refine sum_congr rfl fun j hj => ?_
      have := mem_range.1 hj
      rw [show j + 1 + (n + 1) - 1 = j + (n + 1) by omega, Nat.add_mod_right, Nat.mod_eq_of_lt (by omega)]
    · rw [show 0 + (n + 1) - 1 = n by omega, Nat.mod_eq_of_lt (by omega)]

/-- **C163 for periodic films**: in a steady periodic film of constant density the same mass flows through each section. -/
theorem C163_sections_partial {d : Data} {dgtsv : Dgtsv} (he : Exact dgtsv) (h : Forward d) (hk : OwnKernel d) {maxPressure : ℝ} {forward : Bool} {p : Reynolds.Field ℝ}
    (hfix : (solve d dgtsv maxPressure forward true none p).2 = .ok p) (hrho : ∀ i j i' j', d.density i j = d.density i' j') (hdt : d.dt = 0) {a b : Nat} (hab : a ≤ b)
    (hf : ∀ i, a ≤ i → i < b → ∀ j < d.length, Computed true d.width d.length (i + 1) j ∧ Unclipped d.width maxPressure p j i ∧ Unclipped d.width maxPressure p j (i + 1) ∧
      Unclipped d.width maxPressure p j (i + 2)) :
    ∑ j ∈ range d.length, along d p a j = ∑ j ∈ range d.length, along d p b j := by
  induction b, hab using Nat.le_induction with
  | base => rfl
  | succ b hab ih =>
    rw [ih fun i h1 h2 => hf i h1 (by omega)]
    have key : ∑ j ∈ range d.length, ((along d p (b + 1) j - along d p b j) + (across d p (b + 1) j - across d p (b + 1) ((j + d.length - 1) % d.length))) = 0 := by
      refine sum_eq_zero fun j hj => ?_
      obtain ⟨h1, h2, h3, h4⟩ := hf b hab (by omega) j (mem_range.1 hj)
      rw [cell d p b j h.dx.ne' (by have := mem_range.1 hj; omega), film_surplus he h hk hfix h1 h2 h3 h4, if_pos hdt, hrho (b + 1) j b j]
      ring
    rw [sum_add_distrib, ring_sum, add_zero, sum_sub_distrib] at key
    linarith

/-- **C163 over time**: for any number of converged time steps, each of which starts with the density and the gap that the one before ended with, the mass in a block of
unbroken film changes by what has entered less what has left, but for the products of the increments. -/
theorem C163_time_partial {dgtsv : Dgtsv} (he : Exact dgtsv) {maxPressure : ℝ} {forward periodic : Bool} (N : Nat) (d : Nat → Data) (p : Nat → Reynolds.Field ℝ)
    {dx dt : ℝ} (hdt : dt ≠ 0) {a c m n : Nat}
    (hs : ∀ s < N, Forward (d s) ∧ OwnKernel (d s) ∧ (d s).dx = dx ∧ (d s).dt = dt ∧ c + n < (d s).length ∧
      (solve (d s) dgtsv maxPressure forward periodic none (p s)).2 = .ok (p s) ∧ Film periodic (d s) maxPressure (p s) a c m n)
    (hchain : ∀ s, s + 1 < N → (d (s + 1)).prevDensity = (d s).density ∧ (d (s + 1)).prevGap = (d s).gap) (hN : 0 < N) :
    dx * (massIn (d (N - 1)).density (d (N - 1)).gap a c m n - massIn (d 0).prevDensity (d 0).prevGap a c m n) =
      - dt * ∑ s ∈ range N, (leaving (d s) (p s) a c m n + products (d s) a c m n) := by
  have one : ∀ s < N, dx * (massIn (d s).density (d s).gap a c m n - massIn (d s).prevDensity (d s).prevGap a c m n) =
      - dt * (leaving (d s) (p s) a c m n + products (d s) a c m n) := by
    intro s hsN
    obtain ⟨h1, h2, h3, h4, h5, h6, h7⟩ := hs s hsN
    rw [C163_balance_partial he h1 h2 h6 h5 h7, h3, h4, if_neg hdt]
    field_simp
    ring
  obtain ⟨M, rfl⟩ : ∃ M, N = M + 1 := ⟨N - 1, by omega⟩
  clear hN
  rw [Nat.add_sub_cancel]
  induction M with
  | zero => simpa using one 0 (by omega)
  | succ M ih =>
    have h1 := ih (fun s h => hs s (by omega)) (fun s h => hchain s (by omega)) (fun s h => one s (by omega))
    have h2 := one (M + 1) (by omega)
    obtain ⟨e1, e2⟩ := hchain M (by omega)
    rw [e1, e2] at h2
    rw [sum_range_succ, mul_add, ← h1, ← h2]
    ring

/-! ## Examples -/

/-- One inner node behind a step of the gap from 2 to 1 and of the density from `rho0` to 1, with the coefficients of the solver. -/
def inlet (rho0 dt : ℝ) : Data :=
  { exampleData rho0 with
    prevDensity := (exampleData rho0).density, prevGap := (exampleData rho0).gap, dt := dt, ak00 := ak 0, ak10 := ak 1, ak20 := ak 2 }

theorem inlet_forward {rho0 dt : ℝ} (h0 : 0 < rho0) (hdt : 0 ≤ dt) : Forward (inlet rho0 dt) := by
  refine ⟨one_pos, hdt, fun i j => ?_, fun _ _ => one_pos, one_pos, le_rfl⟩
  show 0 < if i = 0 ∧ j = 1 then rho0 else 1
  split_ifs
  · exact h0
  · exact one_pos

theorem inlet_solves {rho0 dt : ℝ} (h0 : 0 < rho0) : SolvesTri 3 ((inlet rho0 dt).aAll 1) ((inlet rho0 dt).bAll 1) ((inlet rho0 dt).cAll 1)
    (fun i => if i = 1 then 2 * rho0 / (7 + 8 * rho0) else 0) ((inlet rho0 dt).fAll (exampleField rho0) 1) := by
  have hne : (7 + 8 * rho0) ≠ 0 := by positivity
  intro k hk
  interval_cases k
  · simp [Data.bAll, Data.cAll, Data.fAll]
  · simp [Data.aAll, Data.bAll, Data.cAll, Data.fAll, inlet, exampleData, exampleField, Data.coefB, Data.coefF,
      Data.recipDx, Data.recipDx2Rho, Data.d1, Data.d2, Data.d4, Data.d5, Data.epsilon, Data.q1, Data.q2, Data.rowPlus, Data.rowMinus]
    norm_num
    field_simp
    ring
  · simp [Data.aAll, Data.bAll, Data.fAll, inlet, exampleData]

theorem inlet_fixed {rho0 dt : ℝ} (h0 : 0 < rho0) (hdt : 0 ≤ dt) {g : Dgtsv} (hg : Exact g) :
    (solve (inlet rho0 dt) g 1 true false none (exampleField rho0)).2 = .ok (exampleField rho0) := by
  have hne : 0 < (7 + 8 * rho0) := by positivity
  have hlt : 2 * rho0 / (7 + 8 * rho0) ≤ 1 := by rw [div_le_one hne]; linarith
  have hpos : 0 ≤ 2 * rho0 / (7 + 8 * rho0) := by positivity
  have hk : OwnKernel (inlet rho0 dt) := ⟨rfl, rfl, rfl⟩
  have hrow : (inlet rho0 dt).rowSolve g (exampleField rho0) 1 1 = 2 * rho0 / (7 + 8 * rho0) := by
    have := tri_unique (pivots_ne (inlet_forward h0 hdt) hk 1) (hg _ _ _ _ _ (C142_one_solution (inlet_forward h0 hdt) hk 1 ((inlet rho0 dt).fAll (exampleField rho0) 1)))
      (inlet_solves h0) 1 (show 1 < 3 by decide)
    rw [if_pos rfl] at this
    exact this
  show Except.ok (sweepRow (clipR 1) (fun q row i => (inlet rho0 dt).rowSolve g q row i) 3 (exampleField rho0) 1) = _
  congr 1
  funext i j
  unfold sweepRow
  split
  · rename_i h
    have hi : i = 1 := by omega
    have hj : j = 1 := h.1
    subst hi hj
    beta_reduce
    rw [hrow]
    unfold exampleField clipR
    rw [if_pos ⟨rfl, rfl⟩, max_eq_left hpos, min_eq_left hlt]
  · rfl

theorem inlet_film {rho0 dt : ℝ} (h0 : 0 < rho0) : Film false (inlet rho0 dt) 1 (exampleField rho0) 0 0 1 1 := by
  intro k hk l hl
  obtain rfl : k = 0 := by omega
  obtain rfl : l = 0 := by omega
  obtain ⟨h1, -, -, h2, h3, h4⟩ := example_meets rho0 h0
  exact ⟨h1, h2, h3, h4⟩

/-- The hypotheses of `C163_balance_partial`, `C163_created_wrong` (density 1/2 before the node) and `C163_constant_density_partial` (density 1). -/
example : (∃ g, Exact g ∧ (solve (inlet (1 / 2) 0) g 1 true false none (exampleField (1 / 2))).2 = .ok (exampleField (1 / 2)) ∧
      (solve (inlet 1 0) g 1 true false none (exampleField 1)).2 = .ok (exampleField 1)) ∧
    Forward (inlet (1 / 2) 0) ∧ Forward (inlet 1 0) ∧ OwnKernel (inlet (1 / 2) 0) ∧ OwnKernel (inlet 1 0) ∧
    0 + 1 < (inlet (1 / 2) 0).length ∧ Film false (inlet (1 / 2) 0) 1 (exampleField (1 / 2)) 0 0 1 1 ∧ Film false (inlet 1 0) 1 (exampleField 1) 0 0 1 1 ∧
    (∀ k < 1, ∀ l < 1, (inlet (1 / 2) 0).gap (0 + k + 1) (0 + l + 1) < (inlet (1 / 2) 0).gap (0 + k) (0 + l + 1) ∧
      (inlet (1 / 2) 0).density (0 + k) (0 + l + 1) < (inlet (1 / 2) 0).density (0 + k + 1) (0 + l + 1)) ∧
    ∀ i j i' j', (inlet 1 0).density i j = (inlet 1 0).density i' j' := by
  obtain ⟨g, hg⟩ := exact_exists
  refine ⟨⟨g, hg, inlet_fixed (by norm_num) le_rfl hg, inlet_fixed one_pos le_rfl hg⟩, inlet_forward (by norm_num) le_rfl, inlet_forward one_pos le_rfl, ⟨rfl, rfl, rfl⟩,
    ⟨rfl, rfl, rfl⟩, by decide, inlet_film (by norm_num), inlet_film one_pos, ?_, ?_⟩
  · intro k hk l hl
    obtain rfl : k = 0 := by omega
    obtain rfl : l = 0 := by omega
    norm_num [inlet, exampleData]
  · intro i j i' j'
    simp [inlet, exampleData]

/-- The hypotheses of `C163_time_partial`: two time steps. -/
example : ∃ g, Exact g ∧ ∀ s < 2, Forward (inlet (1 / 2) 1) ∧ OwnKernel (inlet (1 / 2) 1) ∧ (inlet (1 / 2) 1).dx = 1 ∧ (inlet (1 / 2) 1).dt = 1 ∧
    0 + 1 < (inlet (1 / 2) 1).length ∧ (solve (inlet (1 / 2) 1) g 1 true false none (exampleField (1 / 2))).2 = .ok (exampleField (1 / 2)) ∧
    Film false (inlet (1 / 2) 1) 1 (exampleField (1 / 2)) 0 0 1 1 ∧
    (s + 1 < 2 → (inlet (1 / 2) 1).prevDensity = (inlet (1 / 2) 1).density ∧ (inlet (1 / 2) 1).prevGap = (inlet (1 / 2) 1).gap) := by
  obtain ⟨g, hg⟩ := exact_exists
  exact ⟨g, hg, fun s _ => ⟨inlet_forward (by norm_num) zero_le_one, ⟨rfl, rfl, rfl⟩, rfl, rfl, by decide, inlet_fixed (by norm_num) zero_le_one hg, inlet_film (by norm_num),
    fun _ => ⟨rfl, rfl⟩⟩⟩

/-- A periodic film of two rows behind a step of the gap. -/
def ribbon : Data :=
  ⟨3, 2, fun i _ => if i = 0 then 2 else 1, fun _ _ => 1, fun _ _ => 1, fun _ _ => 1, fun _ _ => 1, 1, 0, 1, 0, ak 0, ak 1, ak 2⟩

/-- Its pressures. -/
def ribbonField : Reynolds.Field ℝ := fun i _ => if i = 1 then 2 / 11 else 0

theorem ribbon_forward : Forward ribbon := ⟨one_pos, le_rfl, fun _ _ => one_pos, fun _ _ => one_pos, one_pos, le_rfl⟩

theorem ribbon_solves (row : Nat) : SolvesTri 3 (ribbon.aAll row) (ribbon.bAll row) (ribbon.cAll row) (fun i => if i = 1 then 2 / 11 else 0) (ribbon.fAll ribbonField row) := by
  intro k hk
  interval_cases k
  · simp [Data.bAll, Data.cAll, Data.fAll]
  · simp [Data.aAll, Data.bAll, Data.cAll, Data.fAll, ribbon, ribbonField, Data.coefB, Data.coefF, Data.recipDt,
      Data.recipDx, Data.recipDx2Rho, Data.d1, Data.d2, Data.d4, Data.d5, Data.epsilon, Data.q1, Data.q2]
    norm_num
    ring
  · simp [Data.aAll, Data.bAll, Data.fAll, ribbon]

theorem ribbon_fixed {g : Dgtsv} (hg : Exact g) : (solve ribbon g 1 true true none ribbonField).2 = .ok ribbonField := by
  have hk : OwnKernel ribbon := ⟨rfl, rfl, rfl⟩
  have hrow : ∀ row, ribbon.rowSolve g ribbonField row 1 = 2 / 11 := fun row => by
    have := tri_unique (pivots_ne ribbon_forward hk row) (hg _ _ _ _ _ (C142_one_solution ribbon_forward hk row (ribbon.fAll ribbonField row))) (ribbon_solves row) 1 (by decide)
    rw [if_pos rfl] at this
    exact this
  have hone : ∀ row, sweepRow (clipR 1) (fun q row i => ribbon.rowSolve g q row i) 3 ribbonField row = ribbonField := by
    intro row
    funext i j
    unfold sweepRow
    split
    · rename_i h
      have hi : i = 1 := by omega
      subst hi
      beta_reduce
      rw [hrow]
      norm_num [ribbonField, clipR]
    · rfl
  show Except.ok (sweepRow (clipR 1) (fun q row i => ribbon.rowSolve g q row i) 3 (sweepRow (clipR 1) (fun q row i => ribbon.rowSolve g q row i) 3 ribbonField 0) 1) = _
  rw [hone, hone]

/-- The hypotheses of `C163_sections_partial`. -/
example : (∃ g, Exact g ∧ (solve ribbon g 1 true true none ribbonField).2 = .ok ribbonField) ∧ Forward ribbon ∧ OwnKernel ribbon ∧
    (∀ i j i' j', ribbon.density i j = ribbon.density i' j') ∧ ribbon.dt = 0 ∧
    ∀ i, 0 ≤ i → i < 1 → ∀ j < ribbon.length, Computed true ribbon.width ribbon.length (i + 1) j ∧ Unclipped ribbon.width 1 ribbonField j i ∧
      Unclipped ribbon.width 1 ribbonField j (i + 1) ∧ Unclipped ribbon.width 1 ribbonField j (i + 2) := by
  obtain ⟨g, hg⟩ := exact_exists
  refine ⟨⟨g, hg, ribbon_fixed hg⟩, ribbon_forward, ⟨rfl, rfl, rfl⟩, fun _ _ _ _ => rfl, rfl, ?_⟩
  intro i _ hi j hj
  obtain rfl : i = 0 := by omega
  refine ⟨⟨le_rfl, by decide, hj, nofun⟩, Or.inr ⟨Or.inl rfl, rfl⟩, Or.inl ⟨le_rfl, by decide, ?_, ?_⟩, Or.inr ⟨Or.inr rfl, rfl⟩⟩ <;> norm_num [ribbonField]

end

end Verif.ReynoldsNew
