import Verif.Tdma.Model
import Verif.Tdma.Spec
import Mathlib.Tactic.Linarith
import Mathlib.Tactic.LinearCombination
import Mathlib.Tactic.NormNum
import Mathlib.Tactic.Ring
import Mathlib.Tactic.FieldSimp
import Mathlib.Tactic.IntervalCases

/-!
# C27: the cyclic tridiagonal solver solves the cyclic system
-/

namespace Verif.Tdma

theorem gamma_ne (main : Nat → ℝ) : gamma main ≠ 0 := by
  unfold gamma
  split
  · simpa using ‹main 0 ≠ 0›
  · exact one_ne_zero

theorem changed_first (n : Nat) (h : 2 ≤ n) (lower main upper : Nat → ℝ) :
    changedMain false n lower main upper 0 = main 0 - gamma main := by
  unfold changedMain
  rw [Function.update_of_ne (by omega), Function.update_self]
  simp [store]

theorem changed_last (n : Nat) (h : 2 ≤ n) (lower main upper : Nat → ℝ) :
    changedMain false n lower main upper (n - 1) = main (n - 1) - lower 0 * upper (n - 1) / gamma main := by
  unfold changedMain
  rw [Function.update_self, Function.update_of_ne (by omega)]
  simp [store]

theorem changed_middle (b : Bool) (n i : Nat) (h0 : i ≠ 0) (h1 : i ≠ n - 1) (lower main upper : Nat → ℝ) :
    changedMain b n lower main upper i = main i := by
  unfold changedMain
  rw [Function.update_of_ne h1, Function.update_of_ne h0]

theorem u_first (n : Nat) (h : 2 ≤ n) (main upper : Nat → ℝ) : uVector false n main upper 0 = gamma main := by
  unfold uVector
  rw [Function.update_of_ne (by omega), Function.update_self]
  simp [store]

theorem u_last (n : Nat) (main upper : Nat → ℝ) : uVector false n main upper (n - 1) = upper (n - 1) := by
  unfold uVector
  rw [Function.update_self]
  simp [store]

theorem u_middle (b : Bool) (n i : Nat) (h0 : i ≠ 0) (h1 : i ≠ n - 1) (main upper : Nat → ℝ) : uVector b n main upper i = 0 := by
  unfold uVector
  rw [Function.update_of_ne h1, Function.update_of_ne h0]

/-- A solution `y` of the changed tridiagonal system with right-hand side `r` gives the rows of the cyclic system up to a
multiple of `u`. -/
theorem cyclic_rows (n : Nat) (hn : 3 ≤ n) (lower main upper y r : Nat → ℝ)
    (h : SolvesTri n (fun i => lower (i + 1)) (changedMain false n lower main upper) upper y r) (i : Nat) (hi : i < n) :
    lower i * y ((i + n - 1) % n) + main i * y i + upper i * y ((i + 1) % n) =
      r i + uVector false n main upper i * (y 0 + y (n - 1) * lower 0 / gamma main) := by
  have hg := gamma_ne main
  have hrow := h i hi
  beta_reduce at hrow
  rcases Nat.eq_zero_or_pos i with rfl | h0
  · have e1 : (0 + n - 1) % n = n - 1 := by rw [Nat.zero_add]; exact Nat.mod_eq_of_lt (by omega)
    have e2 : (0 + 1) % n = 1 := Nat.mod_eq_of_lt (by omega)
    rw [e1, e2, u_first n (by omega)]
    rw [if_pos rfl, if_neg (by omega), changed_first n (by omega)] at hrow
    rw [← hrow]
    field_simp
    ring
  · have e1 : (i + n - 1) % n = i - 1 := by
      rw [show i + n - 1 = (i - 1) + n by omega, Nat.add_mod_right]
      exact Nat.mod_eq_of_lt (by omega)
    by_cases hl : i = n - 1
    · have e2 : (i + 1) % n = 0 := by rw [show i + 1 = n by omega]; exact Nat.mod_self n
      rw [e1, e2]
      rw [if_neg (by omega), if_pos (by omega), show i - 1 + 1 = i by omega] at hrow
      have hc : changedMain false n lower main upper i = main i - lower 0 * upper i / gamma main := by
        rw [hl]; exact changed_last n (by omega) lower main upper
      have hu : uVector false n main upper i = upper i := by rw [hl]; exact u_last n main upper
      rw [hc] at hrow
      rw [hu, ← hrow, ← hl]
      field_simp
      ring
    · have e2 : (i + 1) % n = i + 1 := Nat.mod_eq_of_lt (by omega)
      rw [e1, e2, u_middle false n i (by omega) hl]
      rw [if_neg (by omega), if_neg (by omega), show i - 1 + 1 = i by omega, changed_middle false n i (by omega) hl] at hrow
      rw [← hrow]
      ring

/-- **C27**: for at least three unknowns, if both inner tridiagonal systems are solved exactly and the correction is defined, the vector
returned solves the cyclic system with the diagonals given by the caller. Missing: that the arguments are left unchanged, which is false
(`C27_argument_changed`). -/
theorem C27_solves_cyclic_system_partial (dgtsv : Dgtsv) (n : Nat) (hn : 3 ≤ n) (lower main upper rhs : Nat → ℝ)
    (hx : SolvesTri n (fun i => lower (i + 1)) (changedMain false n lower main upper) upper
      (dgtsv n (fun i => lower (i + 1)) (changedMain false n lower main upper) upper rhs) rhs)
    (hz : SolvesTri n (fun i => lower (i + 1)) (changedMain false n lower main upper) upper
      (dgtsv n (fun i => lower (i + 1)) (changedMain false n lower main upper) upper (uVector false n main upper))
      (uVector false n main upper))
    (hd : denominator n lower main
      (dgtsv n (fun i => lower (i + 1)) (changedMain false n lower main upper) upper (uVector false n main upper)) ≠ 0) :
    SolvesCyclic n lower main upper (cyclicTdma dgtsv false false n lower main upper rhs).1 rhs := by
  intro i hi
  have rx := cyclic_rows n hn lower main upper _ _ hx i hi
  have rz := cyclic_rows n hn lower main upper _ _ hz i hi
  unfold cyclicTdma
  dsimp only
  generalize dgtsv n (fun i => lower (i + 1)) (changedMain false n lower main upper) upper rhs = x at *
  generalize dgtsv n (fun i => lower (i + 1)) (changedMain false n lower main upper) upper (uVector false n main upper) = z at *
  have hfac : (x 0 + x (n - 1) * lower 0 / gamma main) / denominator n lower main z * denominator n lower main z =
      x 0 + x (n - 1) * lower 0 / gamma main := div_mul_cancel₀ _ hd
  generalize (x 0 + x (n - 1) * lower 0 / gamma main) / denominator n lower main z = f at *
  unfold denominator at hfac
  linear_combination rx - f * rz - uVector false n main upper i * hfac

/-- **C27**: the correction is defined whenever the cyclic system is regular and the second inner system is solved exactly. -/
theorem C27_correction_defined (n : Nat) (hn : 3 ≤ n) (lower main upper z : Nat → ℝ) (hr : Regular n lower main upper)
    (hz : SolvesTri n (fun i => lower (i + 1)) (changedMain false n lower main upper) upper z (uVector false n main upper)) :
    denominator n lower main z ≠ 0 := by
  intro hd
  have h0 : SolvesCyclic n lower main upper z (fun _ => 0) := by
    intro i hi
    rw [cyclic_rows n hn lower main upper _ _ hz i hi]
    unfold denominator at hd
    linear_combination uVector false n main upper i * hd
  have hz0 := hr z h0 0 (by omega)
  have hz1 := hr z h0 (n - 1) (by omega)
  unfold denominator at hd
  rw [hz0, hz1] at hd
  norm_num at hd

/-- A solver that knows the solutions of the two inner systems of the example: three unknowns, main diagonal 3, all other entries 1. -/
noncomputable def exampleSolver : Dgtsv := fun _ _ _ _ rhs => fun i =>
  if i = 0 then (9 * rhs 0 - 10 / 3 * rhs 1 + rhs 2) / (152 / 3)
  else if i = 1 then (-(10 / 3) * rhs 0 + 20 * rhs 1 - 6 * rhs 2) / (152 / 3)
  else (rhs 0 - 6 * rhs 1 + 17 * rhs 2) / (152 / 3)

/-- A concrete case of the hypotheses of `C27_solves_cyclic_system_partial` and `C27_tdma_unchanged`: the cyclic matrix with 3 on the diagonal and 1 elsewhere. -/
example : SolvesTri 3 (fun _ => 1) (changedMain false 3 (fun _ => 1) (fun _ => 3) (fun _ => 1)) (fun _ => 1)
      (exampleSolver 3 (fun _ => 1) (changedMain false 3 (fun _ => 1) (fun _ => 3) (fun _ => 1)) (fun _ => 1) (fun _ => 5)) (fun _ => 5) ∧
    Regular 3 (fun _ => 1) (fun _ => 3) (fun _ => 1) := by
  constructor
  · intro i hi
    interval_cases i
    · rw [changed_first 3 (by norm_num)]
      norm_num [exampleSolver, gamma]
    · rw [changed_middle false 3 1 (by norm_num) (by norm_num)]
      norm_num [exampleSolver]
    · have := changed_last 3 (by norm_num) (fun _ => (1 : ℝ)) (fun _ => 3) (fun _ => 1)
      norm_num [gamma] at this
      norm_num [exampleSolver, this]
  · intro x hx i hi
    have h0 := hx 0 (by norm_num)
    have h1 := hx 1 (by norm_num)
    have h2 := hx 2 (by norm_num)
    norm_num at h0 h1 h2
    interval_cases i <;> linarith

/-- **C27, negation**: "Nothing is mutated by this function" is false: the first item of the main diagonal of the caller is changed by
every call. -/
theorem C27_argument_changed (dgtsv : Dgtsv) (n : Nat) (hn : 2 ≤ n) (lower main upper rhs : Nat → ℝ) :
    (cyclicTdma dgtsv false false n lower main upper rhs).2 0 ≠ main 0 := by
  show changedMain false n lower main upper 0 ≠ main 0
  rw [changed_first n hn]
  have := gamma_ne main
  intro h
  apply this
  linarith

example := C27_argument_changed exampleSolver 3 (by norm_num) (fun _ => 1) (fun _ => 3) (fun _ => 1) (fun _ => 5)

/-- What the main diagonal of the caller is after the call. -/
theorem C27_argument_after (dgtsv : Dgtsv) (n : Nat) (hn : 2 ≤ n) (lower main upper rhs : Nat → ℝ) (h0 : main 0 ≠ 0) :
    (cyclicTdma dgtsv false false n lower main upper rhs).2 0 = 2 * main 0 ∧
    (cyclicTdma dgtsv false false n lower main upper rhs).2 (n - 1) = main (n - 1) + lower 0 * upper (n - 1) / main 0 ∧
    ∀ i, i ≠ 0 → i ≠ n - 1 → (cyclicTdma dgtsv false false n lower main upper rhs).2 i = main i := by
  have hg : gamma main = -main 0 := by unfold gamma; rw [if_pos h0]
  refine ⟨?_, ?_, ?_⟩
  · show changedMain false n lower main upper 0 = _
    rw [changed_first n hn, hg]; ring
  · show changedMain false n lower main upper (n - 1) = _
    rw [changed_last n hn, hg]; field_simp; ring
  · intro i hi hl
    exact changed_middle false n i hi hl lower main upper

example : (cyclicTdma exampleSolver false false 3 (fun _ => 1) (fun _ => 3) (fun _ => 1) (fun _ => 5)).2 0 = 6 := by
  rw [(C27_argument_after exampleSolver 3 (by norm_num) _ _ _ _ (by norm_num)).1]; norm_num

/-- The other function of the module leaves its arguments alone and returns what LAPACK returns. -/
theorem C27_tdma_unchanged (dgtsv : Dgtsv) (n : Nat) (lower main upper rhs : Nat → ℝ)
    (h : SolvesTri n lower main upper (dgtsv n lower main upper rhs) rhs) :
    (tdma dgtsv n lower main upper rhs).2 = main ∧ SolvesTri n lower main upper (tdma dgtsv n lower main upper rhs).1 rhs := ⟨rfl, h⟩

/-- The diagonals of a cyclic system: main diagonal (1, 1, 1), top right 1, bottom left -1, all else zero. -/
def badLower : Nat → ℝ := fun i => if i = 0 then 1 else 0
/-- See `badLower`. -/
def badUpper : Nat → ℝ := fun i => if i = 2 then -1 else 0

/-- **C27, limit of the method**: there are regular cyclic systems for which the inner system has no solution at all, so no solver
can meet the hypothesis that the inner solves are exact. -/
theorem C27_inner_system_may_be_singular :
    Regular 3 badLower (fun _ => 1) badUpper ∧
    ¬ ∃ x, SolvesTri 3 (fun i => badLower (i + 1)) (changedMain false 3 badLower (fun _ => 1) badUpper) badUpper x (fun _ => 1) := by
  constructor
  · intro x hx i hi
    have h0 := hx 0 (by norm_num)
    have h1 := hx 1 (by norm_num)
    have h2 := hx 2 (by norm_num)
    norm_num [badLower, badUpper] at h0 h1 h2
    interval_cases i <;> linarith
  · rintro ⟨x, hx⟩
    have h2 := hx 2 (by norm_num)
    have hc := changed_last 3 (by norm_num) badLower (fun _ => (1 : ℝ)) badUpper
    norm_num [gamma, badLower, badUpper] at hc
    norm_num [badLower] at h2
    rw [hc] at h2
    norm_num at h2

theorem store_eq_iff (x : ℝ) : store true x = x ↔ ∃ k : ℤ, x = k := by
  unfold store
  rw [if_pos rfl]
  constructor
  · intro h
    split_ifs at h
    · exact ⟨⌊x⌋, h.symm⟩
    · exact ⟨⌈x⌉, h.symm⟩
  · rintro ⟨k, rfl⟩
    simp

/-- **C27, negation for integer arrays**: with a right-hand side of integers the vector `u` is an array of integers, too, so that its entries are cut off. With exact inner solves the vector returned then solves the
cyclic system only if no correction is needed or if both the first entry of the main diagonal and the corner entry are whole numbers. -/
theorem C27_integer_right_hand_side (dgtsv : Dgtsv) (n : Nat) (hn : 3 ≤ n) (lower main upper rhs x z : Nat → ℝ)
    (ex : dgtsv n (fun i => lower (i + 1)) (changedMain false n lower main upper) upper rhs = x)
    (ez : dgtsv n (fun i => lower (i + 1)) (changedMain false n lower main upper) upper (uVector true n main upper) = z)
    (hx : SolvesTri n (fun i => lower (i + 1)) (changedMain false n lower main upper) upper x rhs)
    (hz : SolvesTri n (fun i => lower (i + 1)) (changedMain false n lower main upper) upper z (uVector true n main upper))
    (hd : denominator n lower main z ≠ 0) (h0 : main 0 ≠ 0) :
    SolvesCyclic n lower main upper (cyclicTdma dgtsv false true n lower main upper rhs).1 rhs ↔
      x 0 - x (n - 1) * lower 0 / main 0 = 0 ∨ (∃ k : ℤ, main 0 = k) ∧ ∃ k : ℤ, upper (n - 1) = k := by
  have hg : gamma main = -main 0 := by unfold gamma; rw [if_pos h0]
  have hfac : (x 0 + x (n - 1) * lower 0 / gamma main) / denominator n lower main z * denominator n lower main z =
      x 0 + x (n - 1) * lower 0 / gamma main := div_mul_cancel₀ _ hd
  have hf0 : (x 0 + x (n - 1) * lower 0 / gamma main) / denominator n lower main z = 0 ↔ x 0 - x (n - 1) * lower 0 / main 0 = 0 := by
    rw [div_eq_zero_iff, or_iff_left hd, hg, div_neg, ← sub_eq_add_neg]
  have key : ∀ i, i < n → (lower i * (cyclicTdma dgtsv false true n lower main upper rhs).1 ((i + n - 1) % n) + main i * (cyclicTdma dgtsv false true n lower main upper rhs).1 i
      + upper i * (cyclicTdma dgtsv false true n lower main upper rhs).1 ((i + 1) % n) = rhs i ↔
      (x 0 + x (n - 1) * lower 0 / gamma main) / denominator n lower main z * (uVector false n main upper i - uVector true n main upper i) = 0) := by
    intro i hi
    have rx := cyclic_rows n hn lower main upper _ _ hx i hi
    have rz := cyclic_rows n hn lower main upper _ _ hz i hi
    unfold cyclicTdma
    dsimp only
    rw [ex, ez]
    generalize (x 0 + x (n - 1) * lower 0 / gamma main) / denominator n lower main z = f at *
    unfold denominator at hfac
    constructor
    · intro h
      linear_combination h - rx + f * rz + uVector false n main upper i * hfac
    · intro h
      linear_combination h + rx - f * rz - uVector false n main upper i * hfac
  constructor
  · intro h
    by_cases hf : (x 0 + x (n - 1) * lower 0 / gamma main) / denominator n lower main z = 0
    · exact .inl (hf0.1 hf)
    · refine .inr ⟨?_, ?_⟩
      · have e := (mul_eq_zero.1 ((key 0 (by omega)).1 (h 0 (by omega)))).resolve_left hf
        rw [u_first n (by omega)] at e
        unfold uVector at e
        rw [Function.update_of_ne (by omega), Function.update_self] at e
        obtain ⟨k, hk⟩ := (store_eq_iff _).1 (sub_eq_zero.1 e).symm
        refine ⟨-k, ?_⟩
        push_cast
        rw [← hk, hg, neg_neg]
      · have e := (mul_eq_zero.1 ((key (n - 1) (by omega)).1 (h (n - 1) (by omega)))).resolve_left hf
        rw [u_last] at e
        unfold uVector at e
        rw [Function.update_self] at e
        exact (store_eq_iff _).1 (sub_eq_zero.1 e).symm
  · intro h i hi
    refine (key i hi).2 ?_
    rcases h with h | ⟨⟨k, hk⟩, l, hl⟩
    · rw [hf0.2 h, zero_mul]
    · have : uVector true n main upper = uVector false n main upper := by
        unfold uVector
        rw [(store_eq_iff (gamma main)).2 ⟨-k, by rw [hg, hk]; push_cast; ring⟩, (store_eq_iff (upper (n - 1))).2 ⟨l, hl⟩]
        rfl
      rw [this, sub_self, mul_zero]

/-- The same for a main diagonal of integers: its changed last entry is cut off. With exact inner solves the vector returned solves the cyclic system only if its last entry is zero or if the change is a whole number. -/
theorem C27_integer_main_diagonal (dgtsv : Dgtsv) (n : Nat) (hn : 3 ≤ n) (lower main upper rhs : Nat → ℝ) (hi0 : ∃ k : ℤ, main 0 = k) (hi1 : ∃ k : ℤ, main (n - 1) = k)
    (h0 : main 0 ≠ 0)
    (hx : SolvesTri n (fun i => lower (i + 1)) (changedMain true n lower main upper) upper
      (dgtsv n (fun i => lower (i + 1)) (changedMain true n lower main upper) upper rhs) rhs)
    (hz : SolvesTri n (fun i => lower (i + 1)) (changedMain true n lower main upper) upper
      (dgtsv n (fun i => lower (i + 1)) (changedMain true n lower main upper) upper (uVector false n main upper)) (uVector false n main upper))
    (hd : denominator n lower main (dgtsv n (fun i => lower (i + 1)) (changedMain true n lower main upper) upper (uVector false n main upper)) ≠ 0) :
    SolvesCyclic n lower main upper (cyclicTdma dgtsv true false n lower main upper rhs).1 rhs ↔
      (cyclicTdma dgtsv true false n lower main upper rhs).1 (n - 1) = 0 ∨ ∃ k : ℤ, lower 0 * upper (n - 1) / main 0 = k := by
  have hg : gamma main = -main 0 := by unfold gamma; rw [if_pos h0]
  obtain ⟨k0, hk0⟩ := hi0
  obtain ⟨k1, hk1⟩ := hi1
  -- the system that is solved instead
  let c : ℝ := main (n - 1) - lower 0 * upper (n - 1) / gamma main
  let main2 : Nat → ℝ := Function.update main (n - 1) (main (n - 1) + (store true c - c))
  have m20 : main2 0 = main 0 := Function.update_of_ne (by omega) _ _
  have m2l : main2 (n - 1) = main (n - 1) + (store true c - c) := Function.update_self _ _ _
  have g2 : gamma main2 = gamma main := by unfold gamma; rw [m20]
  have t0 : changedMain true n lower main upper 0 = main 0 - gamma main := by
    unfold changedMain
    rw [Function.update_of_ne (by omega), Function.update_self, (store_eq_iff _).2 ⟨2 * k0, by rw [hg, hk0]; push_cast; ring⟩]
  have tl : changedMain true n lower main upper (n - 1) = store true c := by
    unfold changedMain
    rw [Function.update_self, Function.update_of_ne (by omega)]
  have ec : changedMain true n lower main upper = changedMain false n lower main2 upper := by
    funext i
    by_cases i0 : i = 0
    · rw [i0, t0, changed_first n (by omega), m20, g2]
    · by_cases il : i = n - 1
      · rw [il, tl, changed_last n (by omega), m2l, g2]
        show store true c = main (n - 1) + (store true c - (main (n - 1) - lower 0 * upper (n - 1) / gamma main)) - lower 0 * upper (n - 1) / gamma main
        ring
      · rw [changed_middle true n i i0 il, changed_middle false n i i0 il]
        exact (Function.update_of_ne il _ _).symm
  have eu : uVector false n main upper = uVector false n main2 upper := by unfold uVector; rw [g2]
  have hd2 : denominator n lower main2 = denominator n lower main := by funext z; unfold denominator; rw [g2]
  have er : (cyclicTdma dgtsv true false n lower main upper rhs).1 = (cyclicTdma dgtsv false false n lower main2 upper rhs).1 := by
    unfold cyclicTdma
    dsimp only
    rw [ec, eu, g2, hd2]
  have hs : SolvesCyclic n lower main2 upper (cyclicTdma dgtsv true false n lower main upper rhs).1 rhs := by
    rw [er]
    rw [ec] at hx
    rw [ec, eu] at hz hd
    exact C27_solves_cyclic_system_partial dgtsv n hn lower main2 upper rhs hx hz (by rw [hd2]; exact hd)
  generalize (cyclicTdma dgtsv true false n lower main upper rhs).1 = y at hs ⊢
  have hc : (store true c - c = 0) ↔ ∃ k : ℤ, lower 0 * upper (n - 1) / main 0 = k := by
    rw [sub_eq_zero, store_eq_iff]
    show (∃ k : ℤ, main (n - 1) - lower 0 * upper (n - 1) / gamma main = k) ↔ _
    rw [hg, div_neg, hk1]
    constructor
    · rintro ⟨k, hk⟩
      exact ⟨k - k1, by push_cast; linarith⟩
    · rintro ⟨k, hk⟩
      exact ⟨k + k1, by push_cast; linarith⟩
  have hlast := hs (n - 1) (by omega)
  rw [m2l] at hlast
  constructor
  · intro h
    have h' := h (n - 1) (by omega)
    have : (store true c - c) * y (n - 1) = 0 := by linear_combination hlast - h'
    rcases mul_eq_zero.1 this with e | e
    · exact .inr (hc.1 e)
    · exact .inl e
  · intro h i hi
    have hrow := hs i hi
    by_cases il : i = n - 1
    · subst il
      rw [m2l] at hrow
      have : (store true c - c) * y (n - 1) = 0 := by
        rcases h with e | e
        · rw [e, mul_zero]
        · rw [hc.2 e, zero_mul]
      linear_combination hrow - this
    · rw [show main2 i = main i from Function.update_of_ne il _ _] at hrow
      exact hrow

/-- Divides by the main diagonal, which solves systems without other entries. -/
noncomputable def diagonalSolver : Dgtsv := fun _ _ main _ rhs => fun i => rhs i / main i

/-- The hypotheses of `C27_integer_right_hand_side`: three equations with main diagonal 2, corner entries 1 and 1/2 and zeros elsewhere, so that the inner systems are diagonal. With a corner entry that is not a whole number, and a correction that is not zero: the vector returned does not solve the system. -/
example : ¬SolvesCyclic 3 (fun i => if i = 0 then 1 else 0) (fun _ => 2) (fun i => if i = 2 then 1 / 2 else 0)
    (cyclicTdma diagonalSolver false true 3 (fun i => if i = 0 then 1 else 0) (fun _ => 2) (fun i => if i = 2 then 1 / 2 else 0) (fun _ => 9)).1 (fun _ => 9) := by
  have hg : gamma (fun _ => (2 : ℝ)) = -2 := by unfold gamma; rw [if_pos (by norm_num)]
  have c0 : changedMain false 3 (fun i => if i = 0 then 1 else 0) (fun _ => (2 : ℝ)) (fun i => if i = 2 then 1 / 2 else 0) 0 = 4 := by
    rw [changed_first 3 (by norm_num), hg]; norm_num
  have c1 : changedMain false 3 (fun i => if i = 0 then 1 else 0) (fun _ => (2 : ℝ)) (fun i => if i = 2 then 1 / 2 else 0) 1 = 2 := changed_middle false 3 1 (by norm_num) (by norm_num) _ _ _
  have c2 : changedMain false 3 (fun i => if i = 0 then 1 else 0) (fun _ => (2 : ℝ)) (fun i => if i = 2 then 1 / 2 else 0) 2 = 9 / 4 := by
    have := changed_last 3 (by norm_num) (fun i => if i = 0 then 1 else 0) (fun _ => (2 : ℝ)) (fun i => if i = 2 then 1 / 2 else 0)
    norm_num [hg] at this
    rw [this]
  have u0 : uVector true 3 (fun _ => (2 : ℝ)) (fun i => if i = 2 then 1 / 2 else 0) 0 = -2 := by
    unfold uVector
    rw [Function.update_of_ne (by norm_num), Function.update_self, hg]
    exact (store_eq_iff _).2 ⟨-2, by norm_num⟩
  have u2 : uVector true 3 (fun _ => (2 : ℝ)) (fun i => if i = 2 then 1 / 2 else 0) 2 = 0 := by
    unfold uVector
    rw [Function.update_self]
    norm_num [store]
  have inner : ∀ r : Nat → ℝ, SolvesTri 3 (fun i => (fun i => if i = 0 then (1 : ℝ) else 0) (i + 1))
      (changedMain false 3 (fun i => if i = 0 then 1 else 0) (fun _ => (2 : ℝ)) (fun i => if i = 2 then 1 / 2 else 0)) (fun i => if i = 2 then 1 / 2 else 0)
      (diagonalSolver 3 (fun i => (fun i => if i = 0 then (1 : ℝ) else 0) (i + 1))
        (changedMain false 3 (fun i => if i = 0 then 1 else 0) (fun _ => (2 : ℝ)) (fun i => if i = 2 then 1 / 2 else 0)) (fun i => if i = 2 then 1 / 2 else 0) r) r := by
    intro r i hi
    generalize changedMain false 3 (fun i => if i = 0 then (1 : ℝ) else 0) (fun _ => (2 : ℝ)) (fun i => if i = 2 then 1 / 2 else 0) = m at c0 c1 c2 ⊢
    interval_cases i
    · simp [diagonalSolver, c0]
      ring
    · simp [diagonalSolver, c1]
      ring
    · simp [diagonalSolver, c2]
      ring
  rw [C27_integer_right_hand_side diagonalSolver 3 (by norm_num) _ _ _ _ _ _ rfl rfl (inner _) (inner _) ?_ (by norm_num)]
  · rintro (h | ⟨-, k, hk⟩)
    · simp only [diagonalSolver, c0] at h
      norm_num [c2] at h
    · norm_num at hk
      have h2 : (2 * k : ℝ) = 1 := by rw [← hk]; norm_num
      have : 2 * k = 1 := by exact_mod_cast h2
      omega
  · unfold denominator
    simp only [diagonalSolver, c0, u0, hg]
    norm_num [c2, u2]

end Verif.Tdma
