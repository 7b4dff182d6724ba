import Mathlib.Tactic.IntervalCases
import Mathlib.Algebra.BigOperators.Field
import Verif.Rough.BearingProps
import Verif.Rough.Texture
import Verif.Acf.Props

/-!
# C126: the spatial parameters
-/

namespace Verif.Rough

/-! ## Specification -/

/-- The mean square height of a profile. -/
noncomputable def meanSquare (N : ℕ) (p : ℕ → ℕ → ℝ) : ℝ := (∑ a ∈ Finset.range N, ∑ b ∈ Finset.range N, p a b ^ 2) / (N * N)

/-- The distance of the shift that entry `i, j` of the autocorrelation belongs to: the shift is zero for the entry `N / 2, N / 2`. -/
noncomputable def lagDistance (N : ℕ) (gs : ℝ) (i j : ℕ) : ℝ := gs * Real.sqrt (((i : ℝ) - (N / 2 : ℕ)) ^ 2 + ((j : ℝ) - (N / 2 : ℕ)) ^ 2)

/-! ## Lemmas -/

theorem centre_eq (N : ℕ) (hN : 0 < N) (p : ℕ → ℕ → ℝ) : Acf.original N N p (N / 2) (N / 2) = meanSquare N p := by
  rw [Acf.C51_centre N N p hN hN]
  rfl

theorem acf_le (N : ℕ) (hN : 0 < N) (p : ℕ → ℕ → ℝ) (i j : ℕ) : Acf.original N N p i j ≤ meanSquare N p := by
  rw [← centre_eq N hN]
  exact (le_abs_self _).trans (Acf.C51_largest N N p i j hN hN)

theorem distance_eq (gs : ℝ) (N i j : ℕ) (hg : 0 ≤ gs) : distance gs N N i j = gs * distance 1 N N i j := by
  unfold distance
  rw [show (gs * offset N j) ^ 2 + (gs * offset N i) ^ 2 = gs ^ 2 * ((1 * offset N j) ^ 2 + (1 * offset N i) ^ 2) by ring, Real.sqrt_mul (sq_nonneg _), Real.sqrt_sq hg]

theorem distance_swap (gs : ℝ) (N i j : ℕ) : distance gs N N i j = distance gs N N j i := by
  unfold distance
  rw [add_comm]

theorem distance_nonneg (gs : ℝ) (n m i j : ℕ) : 0 ≤ distance gs n m i j := Real.sqrt_nonneg _

theorem distance_sq (N i j : ℕ) : distance 1 N N i j ^ 2 = offset N j ^ 2 + offset N i ^ 2 := by
  unfold distance
  rw [Real.sq_sqrt (by positivity)]
  ring

theorem pyMin_ok {l : List ℝ} {v : ℝ} (h : pyMin l = .ok v) : v ∈ l ∧ ∀ x ∈ l, v ≤ x := by
  cases l with
  | nil => simp [pyMin] at h
  | cons a t =>
    simp only [pyMin] at h
    injection h with h
    subst h
    exact foldl_min_mem t a

theorem pyMax_ok {l : List ℝ} {v : ℝ} (h : pyMax l = .ok v) : v ∈ l ∧ ∀ x ∈ l, x ≤ v := by
  cases l with
  | nil => simp [pyMax] at h
  | cons a t =>
    simp only [pyMax] at h
    injection h with h
    subst h
    exact foldl_max_mem t a

theorem pyMin_of {l : List ℝ} {v : ℝ} (h1 : v ∈ l) (h2 : ∀ x ∈ l, v ≤ x) : pyMin l = .ok v := by
  cases l with
  | nil => simp at h1
  | cons a t =>
    obtain ⟨h3, h4⟩ := foldl_min_mem t a
    simp only [pyMin]
    rw [le_antisymm (h4 v h1) (h2 _ h3)]

theorem pyMax_of {l : List ℝ} {v : ℝ} (h1 : v ∈ l) (h2 : ∀ x ∈ l, x ≤ v) : pyMax l = .ok v := by
  cases l with
  | nil => simp at h1
  | cons a t =>
    obtain ⟨h3, h4⟩ := foldl_max_mem t a
    simp only [pyMax]
    rw [le_antisymm (h2 _ h3) (h4 v h1)]

theorem mem_pick {gs : ℝ} {N : ℕ} {s : ℕ → ℕ → Bool} {l : List ℝ} (h : pick gs N N s = .ok l) (v : ℝ) : v ∈ l ↔ ∃ i j, i < N ∧ j < N ∧ s i j = true ∧ v = distance gs N N i j := by
  unfold pick at h
  rw [if_pos rfl] at h
  injection h with h
  subst h
  simp only [List.mem_map, Prod.exists, mem_selected, used]
  constructor
  · rintro ⟨i, j, ⟨h1, h2, h3⟩, rfl⟩
    exact ⟨i, j, h1, h2, h3, rfl⟩
  · rintro ⟨i, j, h1, h2, h3, rfl⟩
    exact ⟨i, j, ⟨h1, h2, h3⟩, rfl⟩

theorem offset_even (n j : ℕ) : offset (2 * n) j = (j : ℝ) - n := by
  unfold offset
  push_cast
  ring

theorem offset_odd (n j : ℕ) : offset (2 * n + 1) j = (j : ℝ) - n - 1 / 2 := by
  unfold offset
  push_cast
  ring

theorem sal_unfold {gs : ℝ} {N : ℕ} (hN : 4 ≤ N) (p : ℕ → ℕ → ℝ) :
    ∃ l, texSal (some gs) false ⟨N, N, p⟩ = pyMin l ∧ ∀ v, v ∈ l ↔ ∃ i j, i < N ∧ j < N ∧ Acf.original N N p i j < 1 / 5 ∧ v = distance gs N N i j := by
  unfold texSal
  simp only [Bool.false_eq_true, if_false, acfOf]
  rw [if_neg (by omega)]
  dsimp only
  cases hp : pick gs N N (fun i j => decide (Acf.original N N p i j < 1 / 5)) with
  | error e => simp [pick] at hp
  | ok l =>
    refine ⟨l, rfl, fun v => ?_⟩
    rw [mem_pick hp]
    simp only [decide_eq_true_eq]

theorem str_unfold {N : ℕ} (hN : 4 ≤ N) (p : ℕ → ℕ → ℝ) :
    ∃ l h, (texStr false ⟨N, N, p⟩ = match pyMin l with
      | .error e => .error e
      | .ok a => match pyMax h with
        | .error e => .error e
        | .ok b => .ok ((a - 1 / 2) / (b + 1 / 2))) ∧
      (∀ v, v ∈ l ↔ ∃ i j, i < N ∧ j < N ∧ Acf.original N N p i j < 1 / 5 ∧ v = distance 1 N N i j) ∧
      ∀ v, v ∈ h ↔ ∃ i j, i < N ∧ j < N ∧ 1 / 5 < Acf.original N N p i j ∧ v = distance 1 N N i j := by
  unfold texStr
  simp only [Bool.false_eq_true, if_false, acfOf]
  rw [if_neg (by omega)]
  dsimp only
  cases hp : pick 1 N N (fun i j => decide (Acf.original N N p i j < 1 / 5)) with
  | error e => simp [pick] at hp
  | ok l =>
    cases hq : pick 1 N N (fun i j => decide (1 / 5 < Acf.original N N p i j)) with
    | error e => simp [pick] at hq
    | ok h =>
      refine ⟨l, h, ?_, fun v => ?_, fun v => ?_⟩
      · dsimp only
        cases hx : pyMin l with
        | error e => rfl
        | ok a =>
          dsimp only
          cases hy : pyMax h <;> rfl
      · rw [mem_pick hp]
        simp only [decide_eq_true_eq]
      · rw [mem_pick hq]
        simp only [decide_eq_true_eq]

/-! ## Refused calls -/

/-- **C126, refused.** A mask is refused for str and sal, and a missing grid spacing for sal, with `ValueError`; a missing grid spacing is a `TypeError` for std. -/
theorem C126_refused (gs : Option ℝ) (eta : Arr ℝ) (hr : 0 < eta.rows) (hc : 0 < eta.cols) (masked : Bool) :
    texStr true eta = .error (.py .valueError) ∧ texSal gs true eta = .error (.py .valueError) ∧ texSal Option.none masked eta = .error (.py .valueError) ∧
      texStd Option.none eta = .error (.py .typeError) := by
  refine ⟨by simp [texStr], ?_, by simp [texSal], ?_⟩
  · cases gs <;> simp [texSal]
  · unfold texStd
    cases h : pairs eta.rows eta.cols with
    | nil =>
      have : (0, 0) ∈ pairs eta.rows eta.cols := List.mem_product.2 ⟨List.mem_range.2 hr, List.mem_range.2 hc⟩
      rw [h] at this
      simp at this
    | cons q qs => rfl

example := C126_refused (some 1) ⟨2, 3, fun i _ => i⟩ (by norm_num) (by norm_num) false

/-- **C126, small profiles.** str and sal need at least 4 rows and 4 columns, as the autocorrelation function is interpolated. -/
theorem C126_small (gs : ℝ) {eta : Arr ℝ} (h : eta.rows < 4 ∨ eta.cols < 4) : texStr false eta = .error .spline ∧ texSal (some gs) false eta = .error .spline := by
  unfold texStr texSal
  simp only [Bool.false_eq_true, if_false, acfOf]
  rw [if_pos h]
  exact ⟨rfl, rfl⟩

example := C126_small 1 (eta := ⟨3, 5, fun _ _ => 0⟩) (.inl (by norm_num))

example : 0 < (⟨4, 5, fun _ _ => 0⟩ : Arr ℝ).rows ∧ 0 < (⟨4, 5, fun _ _ => 0⟩ : Arr ℝ).cols := by norm_num

/-- **C126 is false: profiles that are not square.** For every profile with different numbers of rows and columns (at least 4) str and sal raise `IndexError`: the array of distances is transposed. -/
theorem C126_shape_wrong (gs : ℝ) {eta : Arr ℝ} (hr : 4 ≤ eta.rows) (hc : 4 ≤ eta.cols) (h : eta.rows ≠ eta.cols) :
    texStr false eta = .error (.py .indexError) ∧ texSal (some gs) false eta = .error (.py .indexError) := by
  unfold texStr texSal
  simp only [Bool.false_eq_true, if_false, acfOf]
  rw [if_neg (by omega)]
  simp [pick, h]

example : (4 : ℕ) ≤ 8 ∧ (4 : ℕ) ≤ 9 ∧ (8 : ℕ) ≠ 9 := by norm_num

/-! ## The decay length -/

/-- **C126, the decay length of square profiles of even size.** It is the smallest distance of a shift for which the autocorrelation is below 0.2; if there is none, a `ValueError`. -/
theorem C126_sal_partial {gs : ℝ} (hg : 0 ≤ gs) {n : ℕ} (hn : 2 ≤ n) (p : ℕ → ℕ → ℝ) :
    ((∃ i j, i < 2 * n ∧ j < 2 * n ∧ Acf.original (2 * n) (2 * n) p i j < 1 / 5) →
      ∃ i j, i < 2 * n ∧ j < 2 * n ∧ Acf.original (2 * n) (2 * n) p i j < 1 / 5 ∧ texSal (some gs) false ⟨2 * n, 2 * n, p⟩ = .ok (lagDistance (2 * n) gs i j) ∧
        ∀ i' j', i' < 2 * n → j' < 2 * n → Acf.original (2 * n) (2 * n) p i' j' < 1 / 5 → lagDistance (2 * n) gs i j ≤ lagDistance (2 * n) gs i' j') ∧
    ((∀ i j, i < 2 * n → j < 2 * n → 1 / 5 ≤ Acf.original (2 * n) (2 * n) p i j) → texSal (some gs) false ⟨2 * n, 2 * n, p⟩ = .error (.py .valueError)) := by
  obtain ⟨l, hl, hm⟩ := sal_unfold (gs := gs) (N := 2 * n) (by omega) p
  have hd : ∀ i j, distance gs (2 * n) (2 * n) i j = lagDistance (2 * n) gs i j := by
    intro i j
    rw [distance_eq gs _ i j hg, lagDistance]
    unfold distance
    rw [offset_even, offset_even, show 2 * n / 2 = n by omega]
    congr 2
    ring
  constructor
  · rintro ⟨i0, j0, h1, h2, h3⟩
    cases h : pyMin l with
    | error e =>
      cases l with
      | nil => exact absurd ((hm (distance gs (2 * n) (2 * n) i0 j0)).2 ⟨i0, j0, h1, h2, h3, rfl⟩) (by simp)
      | cons a t => simp [pyMin] at h
    | ok v =>
      obtain ⟨m1, m2⟩ := pyMin_ok h
      obtain ⟨i, j, g1, g2, g3, rfl⟩ := (hm v).1 m1
      refine ⟨i, j, g1, g2, g3, by rw [hl, h, hd], fun i' j' k1 k2 k3 => ?_⟩
      rw [← hd, ← hd]
      exact m2 _ ((hm _).2 ⟨i', j', k1, k2, k3, rfl⟩)
  · intro h
    rw [hl]
    cases l with
    | nil => rfl
    | cons a t =>
      obtain ⟨i, j, g1, g2, g3, _⟩ := (hm a).1 (by simp)
      exact absurd g3 (not_lt.2 (h i j g1 g2))

/-- A flat profile has such shifts. -/
example : ∃ i j, i < 2 * 2 ∧ j < 2 * 2 ∧ Acf.original (2 * 2) (2 * 2) (fun _ _ => 0) i j < 1 / 5 := by
  refine ⟨0, 0, by norm_num, by norm_num, ?_⟩
  simp [Acf.original, Acf.correlateSame, Acf.correlateFull]

theorem all_low {N : ℕ} (hN : 0 < N) {p : ℕ → ℕ → ℝ} (h : meanSquare N p < 1 / 5) (i j : ℕ) : Acf.original N N p i j < 1 / 5 := (acf_le N hN p i j).trans_lt h

/-- **C126 is false: the threshold is not relative.** For every square profile with a mean square height below 0.2 the decay length is 0 for even sizes and `gs / sqrt 2` for odd sizes, whatever its autocorrelation is, and str raises
`ValueError`. -/
theorem C126_threshold_wrong {gs : ℝ} (hg : 0 ≤ gs) {n : ℕ} (hn : 2 ≤ n) (p : ℕ → ℕ → ℝ) :
    (meanSquare (2 * n) p < 1 / 5 → texSal (some gs) false ⟨2 * n, 2 * n, p⟩ = .ok 0 ∧ texStr false ⟨2 * n, 2 * n, p⟩ = .error (.py .valueError)) ∧
    (meanSquare (2 * n + 1) p < 1 / 5 → texSal (some gs) false ⟨2 * n + 1, 2 * n + 1, p⟩ = .ok (gs / Real.sqrt 2) ∧ texStr false ⟨2 * n + 1, 2 * n + 1, p⟩ = .error (.py .valueError)) := by
  have hstr : ∀ N, 4 ≤ N → meanSquare N p < 1 / 5 → texStr false ⟨N, N, p⟩ = .error (.py .valueError) := by
    intro N hN h
    obtain ⟨l, m, he, hl, hm⟩ := str_unfold hN p
    have : m = [] := by
      cases m with
      | nil => rfl
      | cons a t =>
        obtain ⟨i, j, _, _, g, _⟩ := (hm a).1 (by simp)
        exact absurd (all_low (by omega) h i j) (not_lt.2 g.le)
    rw [he, this]
    cases l with
    | nil => rfl
    | cons a t => rfl
  constructor
  · intro h
    refine ⟨?_, hstr _ (by omega) h⟩
    obtain ⟨l, hl, hm⟩ := sal_unfold (gs := gs) (N := 2 * n) (by omega) p
    rw [hl]
    refine pyMin_of ((hm 0).2 ⟨n, n, by omega, by omega, all_low (by omega) h n n, ?_⟩) fun x hx => ?_
    · unfold distance
      rw [offset_even]
      simp
    · obtain ⟨i, j, _, _, _, rfl⟩ := (hm x).1 hx
      exact distance_nonneg _ _ _ _ _
  · intro h
    refine ⟨?_, hstr _ (by omega) h⟩
    obtain ⟨l, hl, hm⟩ := sal_unfold (gs := gs) (N := 2 * n + 1) (by omega) p
    have hhalf : Real.sqrt (1 / 2) = 1 / Real.sqrt 2 := by rw [Real.sqrt_div (by norm_num), Real.sqrt_one]
    rw [hl]
    refine pyMin_of ((hm _).2 ⟨n, n, by omega, by omega, all_low (by omega) h n n, ?_⟩) fun x hx => ?_
    · rw [distance_eq gs _ _ _ hg]
      unfold distance
      rw [offset_odd, show (1 * ((n : ℝ) - n - 1 / 2)) ^ 2 + (1 * ((n : ℝ) - n - 1 / 2)) ^ 2 = 1 / 2 by ring, hhalf]
      ring
    · obtain ⟨i, j, _, _, _, rfl⟩ := (hm x).1 hx
      rw [distance_eq gs _ _ _ hg, div_eq_mul_one_div, ← hhalf]
      apply mul_le_mul_of_nonneg_left _ hg
      unfold distance
      apply Real.sqrt_le_sqrt
      have hq : ∀ k : ℕ, 1 / 4 ≤ offset (2 * n + 1) k ^ 2 := by
        intro k
        rw [offset_odd]
        rcases Nat.lt_or_ge n k with hk | hk
        · have : (n : ℝ) + 1 ≤ k := by exact_mod_cast hk
          nlinarith
        · have : (k : ℝ) ≤ n := by exact_mod_cast hk
          nlinarith
      have := hq i
      have := hq j
      linarith

/-- A constant height of 0.1. -/
example : meanSquare (2 * 2) (fun _ _ => 1 / 10) < 1 / 5 := by
  norm_num [meanSquare]

/-- **C126, direction of the axes.** Exchanging rows and columns of a square profile changes neither str nor sal. -/
theorem C126_transposed (gs : Option ℝ) (masked : Bool) (N : ℕ) (p : ℕ → ℕ → ℝ) :
    texSal gs masked ⟨N, N, fun i j => p j i⟩ = texSal gs masked ⟨N, N, p⟩ ∧ texStr masked ⟨N, N, fun i j => p j i⟩ = texStr masked ⟨N, N, p⟩ := by
  have hacf : ∀ i j, Acf.original N N (fun i j => p j i) i j = Acf.original N N p j i := by
    intro i j
    unfold Acf.original Acf.correlateSame Acf.correlateFull
    rw [Finset.sum_comm]
    congr 1
    apply Finset.sum_congr rfl
    intro b _
    apply Finset.sum_congr rfl
    intro a _
    congr 1
    unfold Acf.padded
    apply if_congr _ rfl rfl
    tauto
  have same : ∀ {l l' : List ℝ}, (∀ v, v ∈ l ↔ v ∈ l') → pyMin l = pyMin l' ∧ pyMax l = pyMax l' := by
    intro l l' h
    cases l with
    | nil =>
      cases l' with
      | nil => exact ⟨rfl, rfl⟩
      | cons a t => exact absurd ((h a).2 (by simp)) (by simp)
    | cons a t =>
      obtain ⟨m1, m2⟩ := foldl_min_mem t a
      obtain ⟨x1, x2⟩ := foldl_max_mem t a
      exact ⟨(pyMin_of ((h _).1 m1) fun x hx => m2 x ((h x).2 hx)).symm, (pyMax_of ((h _).1 x1) fun x hx => x2 x ((h x).2 hx)).symm⟩
  have swap : ∀ (gs : ℝ) (P : ℝ → Prop) (v : ℝ), (∃ i j, i < N ∧ j < N ∧ P (Acf.original N N (fun i j => p j i) i j) ∧ v = distance gs N N i j) ↔
      ∃ i j, i < N ∧ j < N ∧ P (Acf.original N N p i j) ∧ v = distance gs N N i j := by
    intro gs P v
    constructor
    · rintro ⟨i, j, h1, h2, h3, rfl⟩
      exact ⟨j, i, h2, h1, by rwa [hacf] at h3, distance_swap _ _ _ _⟩
    · rintro ⟨i, j, h1, h2, h3, rfl⟩
      exact ⟨j, i, h2, h1, by rwa [hacf], distance_swap _ _ _ _⟩
  rcases Nat.lt_or_ge N 4 with hN | hN
  · constructor
    · unfold texSal acfOf
      simp [hN]
    · unfold texStr acfOf
      simp [hN]
  · constructor
    · cases gs with
      | none => rfl
      | some gs =>
        cases masked with
        | true => rfl
        | false =>
          obtain ⟨l, e1, h1⟩ := sal_unfold (gs := gs) hN p
          obtain ⟨l', e2, h2⟩ := sal_unfold (gs := gs) hN (fun i j => p j i)
          rw [e1, e2]
          exact (same fun v => by rw [h1, h2]; exact swap gs (· < 1 / 5) v).1
    · cases masked with
      | true => rfl
      | false =>
        obtain ⟨l, m, e1, h1, g1⟩ := str_unfold hN p
        obtain ⟨l', m', e2, h2, g2⟩ := str_unfold hN (fun i j => p j i)
        rw [e1, e2, (same (l := l') (l' := l) fun v => by rw [h1, h2]; exact swap 1 (· < 1 / 5) v).1, (same (l := m') (l' := m) fun v => by rw [g1, g2]; exact swap 1 (1 / 5 < ·) v).2]

/-! ## The texture ratio -/

theorem far {N i j : ℕ} (h : i ≠ N / 2 ∨ j ≠ N / 2) : 1 / 2 < distance 1 N N i j := by
  have h2 : 1 / 2 ≤ distance 1 N N i j ^ 2 := by
    rw [distance_sq]
    have ev : ∀ n k : ℕ, k ≠ n → 1 ≤ offset (2 * n) k ^ 2 := by
      intro n k hk
      rw [offset_even]
      rcases Nat.lt_or_gt_of_ne hk with h | h
      · have : (k : ℝ) + 1 ≤ n := by exact_mod_cast h
        nlinarith
      · have : (n : ℝ) + 1 ≤ k := by exact_mod_cast h
        nlinarith
    have od : ∀ n k : ℕ, 1 / 4 ≤ offset (2 * n + 1) k ^ 2 := by
      intro n k
      rw [offset_odd]
      rcases Nat.lt_or_ge n k with h | h
      · have : (n : ℝ) + 1 ≤ k := by exact_mod_cast h
        nlinarith
      · have : (k : ℝ) ≤ n := by exact_mod_cast h
        nlinarith
    obtain ⟨n, rfl | rfl⟩ : ∃ n, N = 2 * n ∨ N = 2 * n + 1 := ⟨N / 2, by omega⟩
    · rw [show 2 * n / 2 = n by omega] at h
      rcases h with h | h
      · have := ev n i h
        nlinarith [sq_nonneg (offset (2 * n) j)]
      · have := ev n j h
        nlinarith [sq_nonneg (offset (2 * n) i)]
    · have := od n i
      have := od n j
      linarith
  have h3 := distance_nonneg 1 N N i j
  nlinarith

theorem near {c c' e : ℝ} (h : |c - c'| ≤ 1) : Real.sqrt (c ^ 2 + e ^ 2) - 1 ≤ Real.sqrt (c' ^ 2 + e ^ 2) := by
  rw [sub_le_iff_le_add]
  apply Real.sqrt_le_iff.2
  have h1 := Real.sqrt_nonneg (c' ^ 2 + e ^ 2)
  have h2 := Real.sq_sqrt (show 0 ≤ c' ^ 2 + e ^ 2 by positivity)
  have h3 : |c'| ≤ Real.sqrt (c' ^ 2 + e ^ 2) := by
    rw [← Real.sqrt_sq_eq_abs]
    exact Real.sqrt_le_sqrt (by nlinarith)
  refine ⟨by linarith, ?_⟩
  have h4 : |c| ≤ |c'| + 1 := by
    have := abs_sub_abs_le_abs_sub c c'
    linarith
  have h5 : c ^ 2 ≤ (|c'| + 1) ^ 2 := by
    rw [← sq_abs c]
    exact pow_le_pow_left₀ (abs_nonneg c) h4 2
  have h6 : |c'| ^ 2 = c' ^ 2 := sq_abs c'
  nlinarith

/-- One step towards the centre. -/
theorem step_in (N i : ℕ) (hi : i < N) (h : i ≠ N / 2) : ∃ i', i' < N ∧ Int.natAbs ((i' : ℤ) - (N / 2 : ℕ)) + 1 = Int.natAbs ((i : ℤ) - (N / 2 : ℕ)) ∧ offset N i' ^ 2 ≤ offset N i ^ 2 ∧ |offset N i - offset N i'| ≤ 1 := by
  rcases Nat.lt_or_gt_of_ne h with h | h
  · refine ⟨i + 1, by omega, by omega, ?_, ?_⟩
    · unfold offset
      push_cast
      have : (i : ℝ) + 1 ≤ (N : ℝ) / 2 := by
        have : 2 * (i + 1) ≤ N := by omega
        have : (2 : ℝ) * (i + 1) ≤ N := by exact_mod_cast this
        linarith
      nlinarith
    · unfold offset
      push_cast
      rw [show (N : ℝ) / -2 + i - (N / -2 + (i + 1)) = -1 by ring]
      norm_num
  · obtain ⟨k, rfl⟩ : ∃ k, i = k + 1 := ⟨i - 1, by omega⟩
    refine ⟨k, by omega, by omega, ?_, ?_⟩
    · unfold offset
      push_cast
      have : (N : ℝ) / 2 ≤ (k : ℝ) + 1 / 2 := by
        have : N ≤ 2 * k + 1 := by omega
        have : (N : ℝ) ≤ 2 * k + 1 := by exact_mod_cast this
        linarith
      nlinarith
    · unfold offset
      push_cast
      rw [show (N : ℝ) / -2 + (k + 1) - (N / -2 + k) = 1 by ring]
      norm_num

theorem reach {N : ℕ} {acf : ℕ → ℕ → ℝ} (hc : 1 / 5 < acf (N / 2) (N / 2)) (hno : ∀ i j, i < N → j < N → acf i j ≠ 1 / 5) {d : ℝ}
    (hd : ∀ i j, i < N → j < N → acf i j < 1 / 5 → d ≤ distance 1 N N i j) (k : ℕ) :
    ∀ i j, i < N → j < N → Int.natAbs ((i : ℤ) - (N / 2 : ℕ)) + Int.natAbs ((j : ℤ) - (N / 2 : ℕ)) = k → acf i j < 1 / 5 → distance 1 N N i j = d →
      ∃ i' j', i' < N ∧ j' < N ∧ 1 / 5 < acf i' j' ∧ d - 1 ≤ distance 1 N N i' j' := by
  have dist : ∀ i j, distance 1 N N i j = Real.sqrt (offset N j ^ 2 + offset N i ^ 2) := by
    intro i j
    unfold distance
    rw [one_mul, one_mul]
  induction k using Nat.strong_induction_on with
  | _ k ih =>
    intro i j hi hj hk hlow hdist
    by_cases h1 : i = N / 2
    · by_cases h2 : j = N / 2
      · rw [h1, h2] at hlow
        linarith
      · obtain ⟨j', a1, a2, a3, a4⟩ := step_in N j hj h2
        have hnear : d - 1 ≤ distance 1 N N i j' := by
          rw [← hdist, dist, dist]
          exact near a4
        rcases lt_trichotomy (acf i j') (1 / 5) with hl | he | hg
        · have hle : distance 1 N N i j' ≤ d := by
            rw [← hdist, dist, dist]
            exact Real.sqrt_le_sqrt (by linarith)
          exact ih _ (by omega) i j' hi a1 rfl hl (le_antisymm hle (hd i j' hi a1 hl))
        · exact absurd he (hno i j' hi a1)
        · exact ⟨i, j', hi, a1, hg, hnear⟩
    · obtain ⟨i', a1, a2, a3, a4⟩ := step_in N i hi h1
      have hnear : d - 1 ≤ distance 1 N N i' j := by
        rw [← hdist, dist, dist, add_comm, add_comm (offset N j ^ 2)]
        exact near a4
      rcases lt_trichotomy (acf i' j) (1 / 5) with hl | he | hg
      · have hle : distance 1 N N i' j ≤ d := by
          rw [← hdist, dist, dist]
          exact Real.sqrt_le_sqrt (by linarith)
        exact ih _ (by omega) i' j a1 hj rfl hl (le_antisymm hle (hd i' j a1 hj hl))
      · exact absurd he (hno i' j a1 hj)
      · exact ⟨i', j, a1, hj, hg, hnear⟩

/-- **C126, the texture ratio of square profiles.** If it is a number it is above 0, and at most 1 if no entry of the autocorrelation is exactly 0.2. -/
theorem C126_str_range {N : ℕ} {p : ℕ → ℕ → ℝ} {v : ℝ} (h : texStr false ⟨N, N, p⟩ = .ok v) :
    0 < v ∧ ((∀ i j, i < N → j < N → Acf.original N N p i j ≠ 1 / 5) → v ≤ 1) := by
  have hN : 4 ≤ N := by
    by_contra hN
    unfold texStr acfOf at h
    simp [not_le.1 hN] at h
  obtain ⟨l, m, he, hl, hm⟩ := str_unfold hN p
  rw [he] at h
  cases ha : pyMin l with
  | error e => rw [ha] at h; simp at h
  | ok a =>
    cases hb : pyMax m with
    | error e => rw [ha, hb] at h; simp at h
    | ok b =>
      rw [ha, hb] at h
      simp only [Except.ok.injEq] at h
      obtain ⟨a1, a2⟩ := pyMin_ok ha
      obtain ⟨b1, b2⟩ := pyMax_ok hb
      obtain ⟨i, j, hi, hj, hlow, hda⟩ := (hl a).1 a1
      obtain ⟨i2, j2, hi2, hj2, hhigh, hdb⟩ := (hm b).1 b1
      have hc : 1 / 5 < Acf.original N N p (N / 2) (N / 2) := by
        rw [centre_eq N (by omega)]
        exact hhigh.trans_le (acf_le N (by omega) p i2 j2)
      have hb0 : 0 ≤ b := by rw [hdb]; exact distance_nonneg _ _ _ _ _
      have hfar : 1 / 2 < a := by
        rw [hda]
        apply far
        by_contra hcon
        push Not at hcon
        rw [hcon.1, hcon.2] at hlow
        linarith
      constructor
      · rw [← h]
        exact div_pos (by linarith) (by linarith)
      · intro hno
        obtain ⟨i', j', k1, k2, k3, k4⟩ := reach hc hno (d := a) (fun i j h1 h2 h3 => a2 _ ((hl _).2 ⟨i, j, h1, h2, h3, rfl⟩)) _ i j hi hj rfl hlow hda.symm
        have := b2 _ ((hm _).2 ⟨i', j', k1, k2, k3, rfl⟩)
        rw [← h, div_le_one (by linarith)]
        linarith

/-- A single peak in four rows and columns has the texture ratio 1. -/
example : texStr false ⟨4, 4, fun i j => if i = 0 ∧ j = 0 then 4 else 0⟩ = .ok 1 := by
  have hacf : ∀ i j, i < 4 → j < 4 → Acf.original 4 4 (fun i j => if i = 0 ∧ j = 0 then 4 else 0) i j = if i = 2 ∧ j = 2 then 1 else 0 := by
    intro i j hi hj
    unfold Acf.original Acf.correlateSame Acf.correlateFull
    interval_cases i <;> interval_cases j <;> norm_num [Finset.sum_range_succ, Acf.padded] <;> decide
  obtain ⟨l, m, he, hl, hm⟩ := str_unfold (N := 4) (by norm_num) (fun i j => if i = 0 ∧ j = 0 then 4 else 0)
  have hd : distance 1 4 4 2 1 = 1 ∧ distance 1 4 4 2 2 = 0 := by
    unfold distance offset
    norm_num
  have h1 : pyMin l = .ok 1 := by
    apply pyMin_of
    · exact (hl 1).2 ⟨2, 1, by norm_num, by norm_num, by rw [hacf 2 1 (by norm_num) (by norm_num)]; norm_num, hd.1.symm⟩
    · intro x hx
      obtain ⟨i, j, hi, hj, hlow, rfl⟩ := (hl x).1 hx
      rw [hacf i j hi hj] at hlow
      have : 1 ≤ distance 1 4 4 i j ^ 2 := by
        rw [distance_sq]
        unfold offset
        interval_cases i <;> interval_cases j <;> first | (norm_num at hlow; done) | norm_num
      have := distance_nonneg 1 4 4 i j
      nlinarith
  have h2 : pyMax m = .ok 0 := by
    apply pyMax_of
    · exact (hm 0).2 ⟨2, 2, by norm_num, by norm_num, by rw [hacf 2 2 (by norm_num) (by norm_num)]; norm_num, hd.2.symm⟩
    · intro x hx
      obtain ⟨i, j, hi, hj, hhigh, rfl⟩ := (hm x).1 hx
      rw [hacf i j hi hj] at hhigh
      have : i = 2 ∧ j = 2 := by
        by_contra hcon
        rw [if_neg hcon] at hhigh
        norm_num at hhigh
      rw [this.1, this.2, hd.2]
  rw [he, h1, h2]
  norm_num

/-! ## The texture direction -/

theorem argmax_spec (f : ℕ × ℕ → ℝ) (R : ℕ × ℕ → ℕ × ℕ → Prop) (hR : ∀ a b c, R a b → R b c → R a c) (qs : List (ℕ × ℕ)) : ∀ q, (q :: qs).Pairwise R →
    argmax f q qs ∈ q :: qs ∧ ∀ x ∈ q :: qs, f x < f (argmax f q qs) ∨ (f x = f (argmax f q qs) ∧ (x = argmax f q qs ∨ R (argmax f q qs) x)) := by
  induction qs with
  | nil => intro q _; simp [argmax]
  | cons a t ih =>
    intro q hp
    rw [List.pairwise_cons, List.pairwise_cons] at hp
    obtain ⟨p1, p2, p3⟩ := hp
    have e : argmax f q (a :: t) = argmax f (if f q < f a then a else q) t := rfl
    rw [e]
    split_ifs with h
    · obtain ⟨i1, i2⟩ := ih a (List.pairwise_cons.2 ⟨p2, p3⟩)
      refine ⟨List.mem_cons_of_mem _ i1, fun x hx => ?_⟩
      rcases List.mem_cons.1 hx with rfl | hx
      · left
        rcases i2 a (by simp) with h' | h'
        · exact h.trans h'
        · rw [← h'.1]
          exact h
      · exact i2 x hx
    · obtain ⟨i1, i2⟩ := ih q (List.pairwise_cons.2 ⟨fun b hb => p1 b (by simp [hb]), p3⟩)
      constructor
      · rcases List.mem_cons.1 i1 with h' | h' <;> simp [h']
      · intro x hx
        rcases List.mem_cons.1 hx with rfl | hx
        · exact i2 x (by simp)
        · rcases List.mem_cons.1 hx with rfl | hx
          · rcases i2 q (by simp) with h' | ⟨h1, h2⟩
            · exact Or.inl ((not_lt.1 h).trans_lt h')
            · rcases lt_or_eq_of_le (not_lt.1 h) with h3 | h3
              · exact Or.inl (h3.trans_eq h1)
              · refine Or.inr ⟨h3.trans h1, Or.inr ?_⟩
                rcases h2 with h2 | h2
                · rw [← h2]
                  exact p1 x (by simp)
                · exact hR _ _ _ h2 (p1 x (by simp))
          · exact i2 x (by simp [hx])

/-- The order of the rows. -/
def Before (a b : ℕ × ℕ) : Prop := a.1 < b.1 ∨ (a.1 = b.1 ∧ a.2 < b.2)

theorem before_trans (a b c : ℕ × ℕ) (h1 : Before a b) (h2 : Before b c) : Before a c := by
  unfold Before at *
  omega

theorem pairs_pairwise (n m : ℕ) : (pairs n m).Pairwise Before := by
  unfold pairs List.product
  rw [List.pairwise_flatMap]
  constructor
  · intro a _
    rw [List.pairwise_map]
    exact List.pairwise_lt_range.imp fun h => Or.inr ⟨rfl, h⟩
  · refine List.pairwise_lt_range.imp fun {a b} h x hx y hy => ?_
    rw [List.mem_map] at hx hy
    obtain ⟨_, _, rfl⟩ := hx
    obtain ⟨_, _, rfl⟩ := hy
    exact Or.inl h

theorem mem_pairs {n m : ℕ} {q : ℕ × ℕ} : q ∈ pairs n m ↔ q.1 < n ∧ q.2 < m := by
  unfold pairs
  obtain ⟨a, b⟩ := q
  exact List.mem_product.trans (by rw [List.mem_range, List.mem_range])

/-- The direction for the frequencies `i` and `j`. -/
noncomputable def direction (i j : ℕ) : Option ℝ := if j = 0 then (if i = 0 then Option.none else some (Real.pi / 2)) else some (-Real.arctan ((i : ℝ) / j))

theorem std_unfold {gs : ℝ} (hg : gs ≠ 0) {eta : Arr ℝ} (hr : 0 < eta.rows) (hc : 0 < eta.cols) :
    ∃ i j, i < eta.rows ∧ j < eta.cols ∧ texStd (some gs) eta = .ok (direction i j) ∧
      ∀ k l, k < eta.rows → l < eta.cols →
        Complex.normSq (Spectra.dft eta.rows eta.cols (fun a b => (eta.val a b : ℂ)) k l) < Complex.normSq (Spectra.dft eta.rows eta.cols (fun a b => (eta.val a b : ℂ)) i j) ∨
        (Complex.normSq (Spectra.dft eta.rows eta.cols (fun a b => (eta.val a b : ℂ)) k l) = Complex.normSq (Spectra.dft eta.rows eta.cols (fun a b => (eta.val a b : ℂ)) i j) ∧ ((k, l) = (i, j) ∨ Before (i, j) (k, l))) := by
  unfold texStd
  have hpw := pairs_pairwise eta.rows eta.cols
  cases h : pairs eta.rows eta.cols with
  | nil =>
    have : (0, 0) ∈ pairs eta.rows eta.cols := mem_pairs.2 ⟨hr, hc⟩
    rw [h] at this
    simp at this
  | cons q qs =>
    rw [h] at hpw
    dsimp only
    rw [if_neg hg]
    have hA : (0 : ℝ) < ((eta.rows * eta.cols : ℕ) : ℝ) * gs ^ 2 := mul_pos (by exact_mod_cast Nat.mul_pos hr hc) (by positivity)
    obtain ⟨s1, s2⟩ := argmax_spec (fun q : ℕ × ℕ => Complex.normSq (Spectra.dft eta.rows eta.cols (fun a b => (eta.val a b : ℂ)) q.1 q.2) / ((eta.rows * eta.cols : ℕ) * gs ^ 2)) Before before_trans qs q hpw
    generalize argmax _ q qs = ij at *
    rw [← h] at s1 s2
    obtain ⟨m1, m2⟩ := mem_pairs.1 s1
    refine ⟨ij.1, ij.2, m1, m2, ?_, fun k l hk hl => ?_⟩
    · unfold direction
      split_ifs with h1 h2 h3
      · rfl
      · congr 2
        ring
      · congr 2
        ring
      · exact absurd (Real.arctan_lt_pi_div_two _) h3
    · rcases s2 (k, l) (mem_pairs.2 ⟨hk, hl⟩) with s | ⟨s, t⟩
      · exact Or.inl ((div_lt_div_iff_of_pos_right hA).1 s)
      · exact Or.inr ⟨(div_left_inj' hA.ne').1 s, t⟩

/-- **C126, the texture direction.** For a grid spacing that is not zero there are indices `i` and `j` of a largest entry of the power spectrum, so that the result is nan for `i = j = 0`, a right angle for `j = 0 < i`, and otherwise the
angle with the tangent `- i / j`. -/
theorem C126_std_partial {gs : ℝ} (hg : gs ≠ 0) {eta : Arr ℝ} (hr : 0 < eta.rows) (hc : 0 < eta.cols) :
    ∃ i j, i < eta.rows ∧ j < eta.cols ∧
      (∀ k l, k < eta.rows → l < eta.cols → Complex.normSq (Spectra.dft eta.rows eta.cols (fun a b => (eta.val a b : ℂ)) k l) ≤ Complex.normSq (Spectra.dft eta.rows eta.cols (fun a b => (eta.val a b : ℂ)) i j)) ∧
      (i = 0 ∧ j = 0 → texStd (some gs) eta = .ok Option.none) ∧ (0 < i ∧ j = 0 → texStd (some gs) eta = .ok (some (Real.pi / 2))) ∧
      (0 < j → ∃ v, texStd (some gs) eta = .ok (some v) ∧ Real.tan v = -((i : ℝ) / j) ∧ -(Real.pi / 2) < v ∧ v ≤ 0) := by
  obtain ⟨i, j, hi, hj, he, hmax⟩ := std_unfold hg hr hc
  refine ⟨i, j, hi, hj, fun k l hk hl => ?_, ?_, ?_, ?_⟩
  · rcases hmax k l hk hl with h | h
    · exact h.le
    · exact h.1.le
  · rintro ⟨rfl, rfl⟩
    rw [he]
    rfl
  · rintro ⟨h1, rfl⟩
    rw [he]
    simp [direction, h1.ne']
  · intro h
    refine ⟨-Real.arctan ((i : ℝ) / j), by rw [he]; simp [direction, h.ne'], by rw [Real.tan_neg, Real.tan_arctan], ?_, ?_⟩
    · have := Real.arctan_lt_pi_div_two ((i : ℝ) / j)
      linarith
    · have : 0 ≤ Real.arctan ((i : ℝ) / j) := Real.arctan_nonneg.2 (by positivity)
      linarith

/-- The hypotheses of `C126_std_partial` and `C126_std_range_wrong`. -/
example : (1 : ℝ) ≠ 0 ∧ 0 < (⟨4, 5, fun i j => (i * j : ℝ)⟩ : Arr ℝ).rows ∧ 0 < (⟨4, 5, fun i j => (i * j : ℝ)⟩ : Arr ℝ).cols := by norm_num

/-- **C126 is false: no direction between 0 and a right angle.** Whatever the profile is, the result is never in the open interval from 0 to `pi / 2`, nor above `pi / 2`. -/
theorem C126_std_range_wrong {gs : ℝ} (hg : gs ≠ 0) {eta : Arr ℝ} (hr : 0 < eta.rows) (hc : 0 < eta.cols) {v : ℝ} (h : texStd (some gs) eta = .ok (some v)) : v ≤ 0 ∨ v = Real.pi / 2 := by
  obtain ⟨i, j, _, _, _, h1, h2, h3⟩ := C126_std_partial hg hr hc
  rcases Nat.eq_zero_or_pos j with hj | hj
  · rcases Nat.eq_zero_or_pos i with hi | hi
    · rw [h1 ⟨hi, hj⟩] at h
      simp at h
    · rw [h2 ⟨hi, hj⟩] at h
      simp only [Except.ok.injEq, Option.some.injEq] at h
      exact Or.inr h.symm
  · obtain ⟨w, hw, _, _, hle⟩ := h3 hj
    rw [hw] at h
    simp only [Except.ok.injEq, Option.some.injEq] at h
    exact Or.inl (h ▸ hle)

/-- The sum of the powers of a root of unity. -/
noncomputable def rootSum (N : ℕ) (t : ℤ) : ℂ := ∑ a ∈ Finset.range N, Complex.exp (-2 * Real.pi * Complex.I * ((t * a : ℂ) / N))

theorem rootSum_eq {N : ℕ} (hN : 0 < N) (t : ℤ) : rootSum N t = if (N : ℤ) ∣ t then (N : ℂ) else 0 := by
  have hNc : (N : ℂ) ≠ 0 := by exact_mod_cast hN.ne'
  set z : ℂ := Complex.exp (-2 * Real.pi * Complex.I * (t / N)) with hz
  have hsum : rootSum N t = ∑ a ∈ Finset.range N, z ^ a := by
    unfold rootSum
    apply Finset.sum_congr rfl
    intro a _
    rw [hz, ← Complex.exp_nat_mul]
    congr 1
    ring
  have hone : z = 1 ↔ (N : ℤ) ∣ t := by
    rw [hz, Complex.exp_eq_one_iff]
    have h2pi : (2 * (Real.pi : ℂ) * Complex.I) ≠ 0 := by
      simp [Real.pi_ne_zero, Complex.I_ne_zero]
    constructor
    · rintro ⟨n, hn⟩
      have h1 : (2 * (Real.pi : ℂ) * Complex.I) * (-(t : ℂ)) = (2 * (Real.pi : ℂ) * Complex.I) * (n * N) := by
        field_simp at hn
        linear_combination (2 * (Real.pi : ℂ) * Complex.I) * hn
      have h2 := mul_left_cancel₀ h2pi h1
      have h3 : -t = n * N := by exact_mod_cast h2
      exact ⟨-n, by linarith⟩
    · rintro ⟨k, rfl⟩
      refine ⟨-k, ?_⟩
      push_cast
      field_simp
  rw [hsum]
  split_ifs with h
  · rw [hone.2 h]
    simp
  · have hz1 : z ≠ 1 := fun h' => h (hone.1 h')
    have hzN : z ^ N = 1 := by
      rw [hz, ← Complex.exp_nat_mul, Complex.exp_eq_one_iff]
      refine ⟨-t, ?_⟩
      push_cast
      field_simp
    rw [geom_sum_eq hz1, hzN, sub_self, zero_div]

/-- The transform of a wave with the frequencies 1 and `s`. -/
theorem dft_wave {N : ℕ} (s : ℤ) (k l : ℕ) :
    Spectra.dft N N (fun a b => ((Real.cos (2 * Real.pi * ((a + s * b : ℝ) / N)) : ℝ) : ℂ)) k l = (rootSum N (k - 1) * rootSum N (l - s) + rootSum N (k + 1) * rootSum N (l + s)) / 2 := by
  unfold Spectra.dft rootSum
  rw [Finset.sum_mul_sum, Finset.sum_mul_sum, ← Finset.sum_add_distrib, Finset.sum_div]
  apply Finset.sum_congr rfl
  intro a _
  rw [← Finset.sum_add_distrib, Finset.sum_div]
  apply Finset.sum_congr rfl
  intro b _
  dsimp only
  rw [Complex.ofReal_cos, Complex.cos, ← Complex.exp_add, ← Complex.exp_add, div_mul_eq_mul_div, add_mul, ← Complex.exp_add, ← Complex.exp_add]
  congr 3
  · push_cast
    ring
  · push_cast
    ring

theorem wave_direction {N : ℕ} (hN : 3 ≤ N) {gs : ℝ} (hg : gs ≠ 0) {s : ℤ} {t : ℕ} (ht : t < N) (hst : (N : ℤ) ∣ t - s) (hs : s = 1 ∨ s = -1) :
    texStd (some gs) ⟨N, N, fun a b => Real.cos (2 * Real.pi * ((a + s * b : ℝ) / N))⟩ = .ok (direction 1 t) := by
  obtain ⟨i, j, hi, hj, he, hmax⟩ := std_unfold hg (eta := ⟨N, N, fun a b => Real.cos (2 * Real.pi * ((a + s * b : ℝ) / N))⟩) (by dsimp only; omega) (by dsimp only; omega)
  dsimp only at hi hj hmax
  have hdft : ∀ k l, Spectra.dft N N (fun a b => ((Real.cos (2 * Real.pi * ((a + s * b : ℝ) / N)) : ℝ) : ℂ)) k l = (rootSum N (k - 1) * rootSum N (l - s) + rootSum N (k + 1) * rootSum N (l + s)) / 2 := dft_wave s
  have hNpos : 0 < N := by omega
  have no2 : ¬ (N : ℤ) ∣ ((1 : ℕ) : ℤ) + 1 := by
    intro h
    have := Int.le_of_dvd (by norm_num) h
    push_cast at this
    omega
  have hval : Complex.normSq (Spectra.dft N N (fun a b => ((Real.cos (2 * Real.pi * ((a + s * b : ℝ) / N)) : ℝ) : ℂ)) 1 t) ≠ 0 := by
    rw [hdft, rootSum_eq hNpos, rootSum_eq hNpos, rootSum_eq hNpos, if_pos (by simp), if_pos hst, if_neg no2]
    simp
    omega
  have hfirst := hmax 1 t (by omega) ht
  have hne : Spectra.dft N N (fun a b => ((Real.cos (2 * Real.pi * ((a + s * b : ℝ) / N)) : ℝ) : ℂ)) i j ≠ 0 := by
    intro h
    rw [h] at hfirst
    simp only [map_zero] at hfirst
    rcases hfirst with h' | h'
    · exact absurd h' (not_lt.2 (Complex.normSq_nonneg _))
    · exact hval h'.1
  rw [hdft, rootSum_eq hNpos, rootSum_eq hNpos, rootSum_eq hNpos, rootSum_eq hNpos] at hne
  have small : ∀ x y : ℕ, x < N → y < N → (N : ℤ) ∣ (x : ℤ) - y → x = y := by
    intro x y hx hy h
    have : ((x : ℤ) - y).natAbs < (N : ℤ).natAbs := by omega
    have := Int.eq_zero_of_dvd_of_natAbs_lt_natAbs h this
    omega
  have hcase : (i = 1 ∧ j = t) ∨ i = N - 1 := by
    by_cases h1 : (N : ℤ) ∣ (i : ℤ) - 1
    · have hi1 : i = 1 := small i 1 hi (by omega) (by exact_mod_cast h1)
      by_cases h2 : (N : ℤ) ∣ (j : ℤ) - s
      · refine Or.inl ⟨hi1, small j t hj ht ?_⟩
        have := Int.dvd_sub h2 hst
        rwa [show (j : ℤ) - s - (t - s) = j - t by ring] at this
      · exfalso
        subst hi1
        rw [if_neg h2, if_neg no2] at hne
        simp at hne
    · by_cases h3 : (N : ℤ) ∣ (i : ℤ) + 1
      · right
        have : (N : ℤ) ∣ (i : ℤ) - (N - 1 : ℕ) := by
          have := Int.dvd_sub h3 (dvd_refl (N : ℤ))
          rwa [show (i : ℤ) + 1 - N = (i : ℤ) - (N - 1 : ℕ) by omega] at this
        exact small i (N - 1) hi (by omega) this
      · exfalso
        rw [if_neg h1, if_neg h3] at hne
        simp at hne
  rcases hcase with ⟨rfl, rfl⟩ | hi'
  · exact he
  · exfalso
    -- the entry in the last row is not larger, and not the first
    have hb : ∀ k l : ℕ, Complex.normSq (Spectra.dft N N (fun a b => ((Real.cos (2 * Real.pi * ((a + s * b : ℝ) / N)) : ℝ) : ℂ)) k l) ≤ Complex.normSq (Spectra.dft N N (fun a b => ((Real.cos (2 * Real.pi * ((a + s * b : ℝ) / N)) : ℝ) : ℂ)) 1 t) := by
      intro k l
      rw [hdft, hdft, rootSum_eq hNpos, rootSum_eq hNpos, rootSum_eq hNpos, rootSum_eq hNpos, rootSum_eq hNpos, rootSum_eq hNpos, rootSum_eq hNpos, rootSum_eq hNpos, if_pos (show (N : ℤ) ∣ ((1 : ℕ) : ℤ) - 1 by simp), if_pos hst, if_neg no2]
      by_cases h1 : (N : ℤ) ∣ (k : ℤ) - 1
      · have h3 : ¬ (N : ℤ) ∣ (k : ℤ) + 1 := by
          intro h3
          have := Int.dvd_sub h3 h1
          rw [show (k : ℤ) + 1 - (k - 1) = ((1 : ℕ) : ℤ) + 1 by push_cast; ring] at this
          exact no2 this
        rw [if_pos h1, if_neg h3]
        split_ifs <;> simp <;> positivity
      · rw [if_neg h1]
        split_ifs <;> simp <;> positivity
    rcases hfirst with h' | ⟨_, h'⟩
    · exact absurd h' (not_lt.2 (hb i j))
    · rcases h' with h' | h'
      · have := congrArg Prod.fst h'
        dsimp only at this
        omega
      · unfold Before at h'
        dsimp only at h'
        omega

/-- **C126 is false: mirrored textures.** Waves with ridges at 45 degrees to the axes: for the wave in one diagonal the result is `- pi / 4`, for the mirrored wave it is not `pi / 4` but the arctangent of `1 / (N - 1)`, because the
frequency -1 is read as `N - 1`. -/
theorem C126_std_mirror_wrong {N : ℕ} (hN : 3 ≤ N) {gs : ℝ} (hg : gs ≠ 0) :
    texStd (some gs) ⟨N, N, fun a b => Real.cos (2 * Real.pi * ((a + b : ℝ) / N))⟩ = .ok (some (-(Real.pi / 4))) ∧
    texStd (some gs) ⟨N, N, fun a b => Real.cos (2 * Real.pi * ((a - b : ℝ) / N))⟩ = .ok (some (-Real.arctan (1 / (N - 1)))) := by
  constructor
  · have h := wave_direction hN hg (s := 1) (t := 1) (by omega) (by simp) (Or.inl rfl)
    simp only [Int.cast_one, one_mul] at h
    rw [h]
    simp [direction, Real.arctan_one]
  · have h := wave_direction hN hg (s := -1) (t := N - 1) (by omega) (by rw [Nat.cast_sub (by omega)]; simp) (Or.inr rfl)
    simp only [Int.cast_neg, Int.cast_one, neg_mul, one_mul, ← sub_eq_add_neg] at h
    rw [h]
    unfold direction
    rw [if_neg (by omega)]
    rw [Nat.cast_sub (by omega)]
    simp

example : (3 : ℕ) ≤ 16 ∧ (1 : ℝ) ≠ 0 := by norm_num

end Verif.Rough
