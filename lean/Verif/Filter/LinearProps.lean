import Verif.Filter.Linear
import Verif.Filter.Props
import Verif.Conv.BackendProps
import Mathlib.Algebra.BigOperators.Field
import Mathlib.Tactic.IntervalCases
import Mathlib.Tactic.NormNum
import Mathlib.Tactic.Linarith

/-!
# C127: surfaces filtered with the result of the linear transform method have the target autocorrelation

The noise is white: its products have the expectation 1 for the same and 0 for different numbers. The expectation is any linear functional.
-/

namespace Verif.Filter

open Finset Verif.Conv

/-! ## Spec -/

variable {Ω : Type}

/-- Noise of `R` by `C` numbers without correlation and with unit variance. -/
def White (E : (Ω → ℝ) →ₗ[ℝ] ℝ) (R C : ℕ) (eta : Ω → ℕ → ℕ → ℝ) : Prop :=
  ∀ i j k l, i < R → j < C → k < R → l < C → E (fun w => eta w i j * eta w k l) = if i = k ∧ j = l then 1 else 0

/-- The value of an ACF for the lag `(p, q)` in rows and columns: for an ACF made from a profile or a surface the first argument belongs to the rows, for a function it is x, which belongs to the columns. -/
def wanted (src : Acf.Source) (f : ℝ → ℝ → ℝ) (gs : ℝ) (p q : ℕ) : ℝ :=
  match src with
  | .array | .surface => f (gs * p) (gs * q)
  | .function | .string => f (gs * q) (gs * p)

/-- `G` is the gradient of `F`, for lists of `k` numbers: it gives the derivative in every direction. -/
def IsGradient (k : ℕ) (F : List ℝ → ℝ) (G : List ℝ → List ℝ) : Prop :=
  ∀ x d : List ℝ, x.length = k → d.length = k → HasDerivAt (fun t : ℝ => F (List.zipWith (fun a b => a + t * b) x d)) (∑ i ∈ range k, (G x).getD i 0 * d.getD i 0) 0

/-! ## Autocorrelation of filtered noise -/

section covariance

variable (E : (Ω → ℝ) →ₗ[ℝ] ℝ)

lemma expect_sum {ι : Type} (s : Finset ι) (g : ι → Ω → ℝ) : E (fun w => ∑ i ∈ s, g i w) = ∑ i ∈ s, E (g i) := by
  rw [← map_sum]
  congr 1
  funext w
  simp

lemma expect_mul (c : ℝ) (g : Ω → ℝ) : E (fun w => c * g w) = c * E g := by
  rw [← smul_eq_mul, ← map_smul]
  rfl

/-- The expectation of the product of two weighted sums of the noise. -/
lemma expect_product {R C : ℕ} {eta : Ω → ℕ → ℕ → ℝ} (h : White E R C eta) (n m : ℕ) (f : ℕ → ℕ → ℝ) (u v u' v' : ℕ → ℕ) (hu : ∀ a < n, u a < R) (hv : ∀ b < m, v b < C) (hu' : ∀ a < n, u' a < R) (hv' : ∀ b < m, v' b < C) :
    E (fun w => (∑ a ∈ range n, ∑ b ∈ range m, f a b * eta w (u a) (v b)) * ∑ a ∈ range n, ∑ b ∈ range m, f a b * eta w (u' a) (v' b)) =
      ∑ a ∈ range n, ∑ b ∈ range m, ∑ a' ∈ range n, ∑ b' ∈ range m, if u a = u' a' ∧ v b = v' b' then f a b * f a' b' else 0 := by
  have h1 : (fun w => (∑ a ∈ range n, ∑ b ∈ range m, f a b * eta w (u a) (v b)) * ∑ a ∈ range n, ∑ b ∈ range m, f a b * eta w (u' a) (v' b)) =
      fun w => ∑ a ∈ range n, ∑ b ∈ range m, ∑ a' ∈ range n, ∑ b' ∈ range m, (f a b * f a' b') * (eta w (u a) (v b) * eta w (u' a') (v' b')) := by
    funext w
    rw [sum_mul]
    refine sum_congr rfl fun a _ => ?_
    rw [sum_mul]
    refine sum_congr rfl fun b _ => ?_
    rw [mul_sum]
    refine sum_congr rfl fun a' _ => ?_
    rw [mul_sum]
    exact sum_congr rfl fun b' _ => by ring
  rw [h1, expect_sum]
  refine sum_congr rfl fun a ha => ?_
  rw [expect_sum]
  refine sum_congr rfl fun b hb => ?_
  rw [expect_sum]
  refine sum_congr rfl fun a' ha' => ?_
  rw [expect_sum]
  refine sum_congr rfl fun b' hb' => ?_
  rw [mem_range] at ha hb ha' hb'
  rw [expect_mul, h _ _ _ _ (hu a ha) (hv b hb) (hu' a' ha') (hv' b' hb')]
  split <;> simp

/-- A sum over pairs with a fixed distance. -/
lemma sum_distance (n p : ℕ) (G : ℕ → ℕ → ℝ) : ∑ a ∈ range n, ∑ a' ∈ range n, (if a' = a + p then G a a' else 0) = ∑ a ∈ range (n - p), G a (a + p) := by
  have h1 : ∀ a ∈ range n, (∑ a' ∈ range n, if a' = a + p then G a a' else 0) = if a + p < n then G a (a + p) else 0 := by
    intro a _
    rw [sum_ite_eq' (range n) (a + p) (fun a' => G a a')]
    simp
  rw [sum_congr rfl h1, ← sum_filter]
  refine sum_congr ?_ fun _ _ => rfl
  ext a
  simp only [mem_filter, mem_range]
  omega

lemma sum_pairs (n m p q : ℕ) (P : ℕ → ℕ → ℕ → ℕ → Prop) [∀ a b a' b', Decidable (P a b a' b')] (G : ℕ → ℕ → ℕ → ℕ → ℝ)
    (hP : ∀ a b a' b', a < n → b < m → a' < n → b' < m → (P a b a' b' ↔ a' = a + p ∧ b' = b + q)) :
    ∑ a ∈ range n, ∑ b ∈ range m, ∑ a' ∈ range n, ∑ b' ∈ range m, (if P a b a' b' then G a b a' b' else 0) = ∑ a ∈ range (n - p), ∑ b ∈ range (m - q), G a b (a + p) (b + q) := by
  have h1 : ∀ a ∈ range n, (∑ b ∈ range m, ∑ a' ∈ range n, ∑ b' ∈ range m, (if P a b a' b' then G a b a' b' else 0)) =
      ∑ a' ∈ range n, if a' = a + p then ∑ b ∈ range m, ∑ b' ∈ range m, (if b' = b + q then G a b a' b' else 0) else 0 := by
    intro a ha
    rw [sum_comm]
    refine sum_congr rfl fun a' ha' => ?_
    split
    · rename_i h
      refine sum_congr rfl fun b hb => sum_congr rfl fun b' hb' => ?_
      rw [mem_range] at ha hb ha' hb'
      refine if_congr ?_ rfl rfl
      rw [hP a b a' b' ha hb ha' hb']
      exact ⟨fun h => h.2, fun hb => ⟨h, hb⟩⟩
    · rename_i h
      refine sum_eq_zero fun b hb => sum_eq_zero fun b' hb' => if_neg fun hh => h ?_
      rw [mem_range] at ha hb ha' hb'
      exact ((hP a b a' b' ha hb ha' hb').1 hh).1
  rw [sum_congr rfl h1, sum_distance n p (fun a a' => ∑ b ∈ range m, ∑ b' ∈ range m, (if b' = b + q then G a b a' b' else 0))]
  exact sum_congr rfl fun a _ => sum_distance m q (fun b b' => G a b (a + p) b')

lemma sum_pairs_back (n m p q : ℕ) (P : ℕ → ℕ → ℕ → ℕ → Prop) [∀ a b a' b', Decidable (P a b a' b')] (G : ℕ → ℕ → ℕ → ℕ → ℝ)
    (hP : ∀ a b a' b', a < n → b < m → a' < n → b' < m → (P a b a' b' ↔ a' = a + p ∧ b = b' + q)) :
    ∑ a ∈ range n, ∑ b ∈ range m, ∑ a' ∈ range n, ∑ b' ∈ range m, (if P a b a' b' then G a b a' b' else 0) = ∑ a ∈ range (n - p), ∑ b ∈ range (m - q), G a (b + q) (a + p) b := by
  rw [← sum_pairs n m p q (fun a b a' b' => P a b' a' b) (fun a b a' b' => G a b' a' b) fun a b a' b' ha hb ha' hb' => hP a b' a' b ha hb' ha' hb]
  refine sum_congr rfl fun a _ => ?_
  rw [sum_comm]
  conv_rhs => rw [sum_comm]
  exact sum_congr rfl fun a' _ => sum_comm

end covariance

/-- **C127, autocorrelation.** The autocorrelation of a surface made from white noise is that of the filter, at all points and lags; also for periodic surfaces, for lags that leave room for the filter. -/
theorem C127_autocorrelation (E : (Ω → ℝ) →ₗ[ℝ] ℝ) (f : Coefficients) (hn : 0 < f.n) (hm : 0 < f.m) (outputShape ownShape : Option (ℕ × ℕ)) (N M : ℕ) (hs : requested outputShape ownShape = some (N, M)) (periodic : Bool)
    (rvs : Ω → ℕ → ℕ → ℕ → ℕ → ℝ) (hw : if periodic then White E N M (fun w => rvs w N M) else White E (N + f.n - 1) (M + f.m - 1) (fun w => rvs w (N + f.n - 1) (M + f.m - 1)))
    (P : Ω → Profile) (hP : ∀ w, discretise (some f) outputShape ownShape periodic (rvs w) = .ok (P w)) (i j p q : ℕ) (hi : i + p < N) (hj : j + q < M) (hper : periodic = true → p + f.n ≤ N ∧ q + f.m ≤ M) :
    E (fun w => (P w).height i j * (P w).height (i + p) (j + q)) = acfDirect f.n f.m f.coef p q ∧
    E (fun w => (P w).height i (j + q) * (P w).height (i + p) j) = ∑ k ∈ range (f.n - p), ∑ l ∈ range (f.m - q), f.coef k (l + q) * f.coef (k + p) l := by
  have hh : ∀ w i j, i < N → j < M → (P w).height i j = ∑ a ∈ range f.n, ∑ b ∈ range f.m, f.coef a b * noiseAt periodic N M f.n f.m (rvs w) (i + (f.n - 1) - a) (j + (f.m - 1) - b) := by
    intro w i j hi hj
    obtain ⟨q, hq, -, -, hh⟩ := C54_moving_average f hn hm outputShape ownShape N M hs (by omega) (by omega) periodic (rvs w)
    rw [hP w] at hq
    cases hq
    exact hh i j hi hj
  have e1 : (fun w => (P w).height i j * (P w).height (i + p) (j + q)) = fun w => (∑ a ∈ range f.n, ∑ b ∈ range f.m, f.coef a b * noiseAt periodic N M f.n f.m (rvs w) (i + (f.n - 1) - a) (j + (f.m - 1) - b)) *
      ∑ a ∈ range f.n, ∑ b ∈ range f.m, f.coef a b * noiseAt periodic N M f.n f.m (rvs w) (i + p + (f.n - 1) - a) (j + q + (f.m - 1) - b) := by
    funext w
    rw [hh w i j (by omega) (by omega), hh w (i + p) (j + q) hi hj]
  have e2 : (fun w => (P w).height i (j + q) * (P w).height (i + p) j) = fun w => (∑ a ∈ range f.n, ∑ b ∈ range f.m, f.coef a b * noiseAt periodic N M f.n f.m (rvs w) (i + (f.n - 1) - a) (j + q + (f.m - 1) - b)) *
      ∑ a ∈ range f.n, ∑ b ∈ range f.m, f.coef a b * noiseAt periodic N M f.n f.m (rvs w) (i + p + (f.n - 1) - a) (j + (f.m - 1) - b) := by
    funext w
    rw [hh w i (j + q) (by omega) hj, hh w (i + p) j hi (by omega)]
  rw [e1, e2]
  cases periodic with
  | false =>
    simp only [Bool.false_eq_true, if_false] at hw
    simp only [noiseAt, Bool.false_eq_true, if_false]
    constructor
    · rw [expect_product E hw f.n f.m f.coef (fun a => i + (f.n - 1) - a) (fun b => j + (f.m - 1) - b) (fun a => i + p + (f.n - 1) - a) (fun b => j + q + (f.m - 1) - b) (fun a _ => by omega) (fun a _ => by omega) (fun a _ => by omega) (fun a _ => by omega)]
      exact sum_pairs f.n f.m p q _ (fun a b a' b' => f.coef a b * f.coef a' b') fun a b a' b' ha hb ha' hb' => by omega
    · rw [expect_product E hw f.n f.m f.coef (fun a => i + (f.n - 1) - a) (fun b => j + q + (f.m - 1) - b) (fun a => i + p + (f.n - 1) - a) (fun b => j + (f.m - 1) - b) (fun a _ => by omega) (fun a _ => by omega) (fun a _ => by omega) (fun a _ => by omega)]
      exact sum_pairs_back f.n f.m p q _ (fun a b a' b' => f.coef a b * f.coef a' b') fun a b a' b' ha hb ha' hb' => by omega
  | true =>
    simp only [if_true] at hw
    simp only [noiseAt, if_true]
    obtain ⟨h1, h2⟩ := hper rfl
    have hN : 0 < N := by omega
    have hM : 0 < M := by omega
    have mod : ∀ N n p i a a' : ℕ, 0 < N → p + n ≤ N → a < n → a' < n → ((i + (n - 1) - a) % N = (i + p + (n - 1) - a') % N ↔ a' = a + p) := by
      intro N n p i a a' hN hp ha ha'
      constructor
      · intro h
        have hd := (Nat.modEq_iff_dvd (n := N) (a := i + (n - 1) - a) (b := i + p + (n - 1) - a')).1 h
        obtain ⟨c, hc⟩ := hd
        have hb : ((i + p + (n - 1) - a' : ℕ) : ℤ) - ((i + (n - 1) - a : ℕ) : ℤ) = p + a - a' := by omega
        rw [hb] at hc
        have hlow : -(N : ℤ) < p + a - a' := by omega
        have hup : (p + a - a' : ℤ) < N := by omega
        rw [hc] at hlow hup
        have hc0 : c = 0 := by
          by_contra hne
          rcases lt_or_gt_of_ne hne with hneg | hpos
          · have : (N : ℤ) * c ≤ N * (-1) := mul_le_mul_of_nonneg_left (by omega) (by omega)
            omega
          · have : (N : ℤ) * 1 ≤ N * c := mul_le_mul_of_nonneg_left (by omega) (by omega)
            omega
        rw [hc0] at hc
        omega
      · rintro rfl
        congr 1
        omega
    constructor
    · rw [expect_product E hw f.n f.m f.coef (fun a => (i + (f.n - 1) - a) % N) (fun b => (j + (f.m - 1) - b) % M) (fun a => (i + p + (f.n - 1) - a) % N) (fun b => (j + q + (f.m - 1) - b) % M)
        (fun a _ => Nat.mod_lt _ hN) (fun a _ => Nat.mod_lt _ hM) (fun a _ => Nat.mod_lt _ hN) (fun a _ => Nat.mod_lt _ hM)]
      exact sum_pairs f.n f.m p q _ (fun a b a' b' => f.coef a b * f.coef a' b') fun a b a' b' ha hb ha' hb' => by
        rw [mod N f.n p i a a' hN h1 ha ha', mod M f.m q j b b' hM h2 hb hb']
    · rw [expect_product E hw f.n f.m f.coef (fun a => (i + (f.n - 1) - a) % N) (fun b => (j + q + (f.m - 1) - b) % M) (fun a => (i + p + (f.n - 1) - a) % N) (fun b => (j + (f.m - 1) - b) % M)
        (fun a _ => Nat.mod_lt _ hN) (fun a _ => Nat.mod_lt _ hM) (fun a _ => Nat.mod_lt _ hN) (fun a _ => Nat.mod_lt _ hM)]
      exact sum_pairs_back f.n f.m p q _ (fun a b a' b' => f.coef a b * f.coef a' b') fun a b a' b' ha hb ha' hb' => by
        rw [mod N f.n p i a a' hN h1 ha ha', eq_comm (a := (j + q + (f.m - 1) - b) % M), mod M f.m q j b' b hM h2 hb' hb]

/-- There is white noise of every size, with an expectation that is an average. -/
theorem exists_white (R C : ℕ) : ∃ (Ω : Type) (E : (Ω → ℝ) →ₗ[ℝ] ℝ) (eta : Ω → ℕ → ℕ → ℝ), White E R C eta ∧ E (fun _ => 1) = 1 := by
  classical
  let I := Fin R × Fin C
  let card : ℝ := Fintype.card (I → Bool)
  have hcard : card ≠ 0 := Nat.cast_ne_zero.2 Fintype.card_ne_zero
  let sgn : (I → Bool) → ℕ → ℕ → ℝ := fun w i j => if h : i < R ∧ j < C then (if w (⟨i, h.1⟩, ⟨j, h.2⟩) then 1 else -1) else 0
  refine ⟨I → Bool, ⟨⟨fun g => (∑ w, g w) / card, fun g g' => ?_⟩, fun c g => ?_⟩, sgn, fun i j k l hi hj hk hl => ?_, ?_⟩
  · simp only [Pi.add_apply, sum_add_distrib, add_div]
  · simp only [Pi.smul_apply, smul_eq_mul, ← mul_sum, RingHom.id_apply, mul_div_assoc]
  · show (∑ w, sgn w i j * sgn w k l) / card = _
    have e1 : ∀ w, sgn w i j = if w (⟨i, hi⟩, ⟨j, hj⟩) then 1 else -1 := fun w => dif_pos ⟨hi, hj⟩
    have e2 : ∀ w, sgn w k l = if w (⟨k, hk⟩, ⟨l, hl⟩) then 1 else -1 := fun w => dif_pos ⟨hk, hl⟩
    simp only [e1, e2]
    split
    · rename_i h
      obtain ⟨rfl, rfl⟩ := h
      have : ∀ w : I → Bool, (if w (⟨i, hi⟩, ⟨j, hj⟩) then (1 : ℝ) else -1) * (if w (⟨i, hi⟩, ⟨j, hj⟩) then (1 : ℝ) else -1) = 1 := fun w => by split <;> norm_num
      simp only [this, sum_const, card_univ, nsmul_eq_mul, mul_one]
      exact div_self hcard
    · rename_i h
      have hne : ((⟨k, hk⟩, ⟨l, hl⟩) : I) ≠ (⟨i, hi⟩, ⟨j, hj⟩) := fun he => by
        rw [Prod.mk.injEq, Fin.mk.injEq, Fin.mk.injEq] at he
        exact h ⟨he.1.symm, he.2.symm⟩
      let flip : (I → Bool) → (I → Bool) := fun w => Function.update w (⟨i, hi⟩, ⟨j, hj⟩) (!w (⟨i, hi⟩, ⟨j, hj⟩))
      have hflip : ∀ w, flip (flip w) = w := fun w => by
        funext a
        by_cases ha : a = (⟨i, hi⟩, ⟨j, hj⟩)
        · subst ha; simp [flip]
        · simp [flip, Function.update_of_ne ha]
      have hsum : (∑ w : I → Bool, (if w (⟨i, hi⟩, ⟨j, hj⟩) then (1 : ℝ) else -1) * (if w (⟨k, hk⟩, ⟨l, hl⟩) then (1 : ℝ) else -1)) =
          ∑ w : I → Bool, -((if w (⟨i, hi⟩, ⟨j, hj⟩) then (1 : ℝ) else -1) * (if w (⟨k, hk⟩, ⟨l, hl⟩) then (1 : ℝ) else -1)) := by
        refine Finset.sum_nbij' flip flip (fun _ _ => mem_univ _) (fun _ _ => mem_univ _) (fun w _ => hflip w) (fun w _ => hflip w) fun w _ => ?_
        have h1 : flip w (⟨i, hi⟩, ⟨j, hj⟩) = !w (⟨i, hi⟩, ⟨j, hj⟩) := by simp [flip]
        have h2 : flip w (⟨k, hk⟩, ⟨l, hl⟩) = w (⟨k, hk⟩, ⟨l, hl⟩) := by simp [flip, Function.update_of_ne hne]
        rw [h1, h2]
        cases w (⟨i, hi⟩, ⟨j, hj⟩) <;> cases w (⟨k, hk⟩, ⟨l, hl⟩) <;> simp
      rw [sum_neg_distrib] at hsum
      have : (∑ w : I → Bool, (if w (⟨i, hi⟩, ⟨j, hj⟩) then (1 : ℝ) else -1) * (if w (⟨k, hk⟩, ⟨l, hl⟩) then (1 : ℝ) else -1)) = 0 := by linarith
      rw [this, zero_div]
  · show (∑ w : I → Bool, (1 : ℝ)) / card = 1
    simp only [sum_const, card_univ, nsmul_eq_mul, mul_one]
    exact div_self hcard

/-- The hypotheses can be met, for periodic surfaces too. -/
example : ∃ (Ω : Type) (E : (Ω → ℝ) →ₗ[ℝ] ℝ) (rvs : Ω → ℕ → ℕ → ℕ → ℕ → ℝ), White E 5 6 (fun w => rvs w 5 6) ∧
    ∀ w, ∃ P, discretise (some ⟨2, 3, fun a b => a + b⟩) (some (5, 6)) none true (rvs w) = .ok P := by
  obtain ⟨Ω, E, eta, h, -⟩ := exists_white 5 6
  exact ⟨Ω, E, fun w _ _ => eta w, h, fun w => ⟨_, rfl⟩⟩

/-! ## Arrays -/

lemma toData_succ (n m : ℕ) (g : ℕ → ℕ → ℝ) : toData (n + 1) m g = toData n m g ++ (List.range m).map fun j => g n j := by
  unfold toData indices
  rw [List.range_succ, List.flatMap_append, List.map_append]
  simp [List.map_map, Function.comp_def]

lemma toData_length (n m : ℕ) (g : ℕ → ℕ → ℝ) : (toData n m g).length = n * m := by
  induction n with
  | zero => simp [toData, indices]
  | succ n ih => rw [toData_succ, List.length_append, ih, List.length_map, List.length_range, Nat.succ_mul]

lemma ofData_toData (n m : ℕ) (g : ℕ → ℕ → ℝ) (i j : ℕ) (hi : i < n) (hj : j < m) : ofData m (toData n m g) i j = g i j := by
  induction n with
  | zero => omega
  | succ n ih =>
    unfold ofData at ih ⊢
    rw [toData_succ, List.getD_eq_getElem?_getD]
    rcases Nat.lt_succ_iff_lt_or_eq.1 hi with h | rfl
    · have hlt : i * m + j < (toData n m g).length := by
        rw [toData_length]
        calc i * m + j < i * m + m := by omega
          _ = (i + 1) * m := by rw [Nat.succ_mul]
          _ ≤ n * m := Nat.mul_le_mul_right _ h
      rw [List.getElem?_append_left hlt, ← List.getD_eq_getElem?_getD]
      exact ih h
    · rw [List.getElem?_append_right (by rw [toData_length]; omega), toData_length, Nat.add_sub_cancel_left]
      simp [hj]

lemma ofData_map_half (m : ℕ) (x : List ℝ) (i j : ℕ) : ofData m (x.map (· / 2)) i j = ofData m x i j / 2 := by
  unfold ofData
  simp only [List.getD_eq_getElem?_getD, List.getElem?_map]
  cases x[i * m + j]? <;> simp

/-! ## The first guess -/

lemma energy_nonneg (n m : ℕ) (c : ℕ → ℕ → ℝ) : 0 ≤ energy n m c := sum_nonneg fun _ _ => sum_nonneg fun _ _ => sq_nonneg _

lemma energy_pos (n m : ℕ) (c : ℕ → ℕ → ℝ) (hn : 0 < n) (hm : 0 < m) (h : c 0 0 ≠ 0) : 0 < energy n m c := by
  unfold energy
  refine lt_of_lt_of_le (lt_of_lt_of_le (sq_pos_of_pos (abs_pos.2 h)) ?_) (single_le_sum (f := fun i => ∑ j ∈ range m, c i j ^ 2) (fun i _ => sum_nonneg fun _ _ => sq_nonneg _) (mem_range.2 hn))
  rw [sq_abs]
  exact single_le_sum (f := fun j => c 0 j ^ 2) (fun i _ => sq_nonneg _) (mem_range.2 hm)

lemma acfDirect_zero (n m : ℕ) (c : ℕ → ℕ → ℝ) : acfDirect n m c 0 0 = energy n m c := by
  unfold acfDirect energy
  simp only [Nat.sub_zero, Nat.add_zero, pow_two]

lemma guess_energy (n m : ℕ) (t : ℕ → ℕ → ℝ) (x : List ℝ) (h : initialGuess n m t = some x) : x.length = n * m ∧ energy n m (ofData m x) = t 0 0 := by
  unfold initialGuess at h
  split at h
  · exact nomatch h
  · rename_i h0
    split at h
    · exact nomatch h
    · rename_i h1
      cases h
      refine ⟨toData_length _ _ _, ?_⟩
      have : ∀ r : ℝ, 0 ≤ r → energy n m (ofData m (toData n m fun i j => weighted n m t i j * r ^ (1 / 2 : ℝ))) = energy n m (weighted n m t) * r := by
        intro r hr
        unfold energy
        rw [sum_mul]
        refine sum_congr rfl fun i hi => ?_
        rw [sum_mul]
        refine sum_congr rfl fun j hj => ?_
        rw [mem_range] at hi hj
        rw [ofData_toData n m _ i j hi hj, mul_pow, ← Real.sqrt_eq_rpow, Real.sq_sqrt hr]
      rw [this _ (not_lt.1 h1), mul_div_cancel₀ _ h0]

/-- **C127, first guess.** For a target with a positive variance the first guess exists, and a surface filtered with it has the variance of the target. -/
theorem C127_first_guess (n m : ℕ) (hn : 0 < n) (hm : 0 < m) (t : ℕ → ℕ → ℝ) (ht : 0 < t 0 0) :
    ∃ x, initialGuess n m t = some x ∧ x.length = n * m ∧ acfDirect n m (ofData m x) 0 0 = t 0 0 := by
  have hw : weighted n m t 0 0 ≠ 0 := by
    unfold weighted
    have h1 : ((n - 0 : ℕ) : ℝ) ≠ 0 := Nat.cast_ne_zero.2 (by omega)
    have h2 : ((m - 0 : ℕ) : ℝ) ≠ 0 := Nat.cast_ne_zero.2 (by omega)
    exact div_ne_zero ht.ne' (mul_ne_zero h1 h2)
  have he := energy_pos n m (weighted n m t) hn hm hw
  have h : ∃ x, initialGuess n m t = some x := by
    unfold initialGuess
    rw [if_neg he.ne', if_neg (not_lt.2 (div_pos ht he).le)]
    exact ⟨_, rfl⟩
  obtain ⟨x, hx⟩ := h
  obtain ⟨h1, h2⟩ := guess_energy n m t x hx
  exact ⟨x, hx, h1, by rw [acfDirect_zero, h2]⟩

/-- There are such targets. -/
example : (0 : ℝ) < (fun i j : ℕ => 1 / (1 + i + j : ℝ)) 0 0 := by norm_num

lemma sum_mirror_le (n : ℕ) (hn : 0 < n) (F : ℕ → ℝ) (hF : ∀ k, 0 ≤ F k) : ∑ r ∈ range (n * 2 - 1), F (if n - 1 ≤ r then r - (n - 1) else n - 1 - r) = 2 * (∑ k ∈ range n, F k) - F 0 := by
  obtain ⟨n, rfl⟩ : ∃ k, n = k + 1 := ⟨n - 1, by omega⟩
  have e : (n + 1) * 2 - 1 = n + (n + 1) := by omega
  rw [e, sum_range_add]
  have h1 : ∑ r ∈ range n, F (if n + 1 - 1 ≤ r then r - (n + 1 - 1) else n + 1 - 1 - r) = ∑ k ∈ range n, F (k + 1) := by
    rw [← sum_range_reflect (fun k => F (k + 1)) n]
    refine sum_congr rfl fun r hr => ?_
    rw [mem_range] at hr
    rw [if_neg (by omega)]
    congr 1
    omega
  have h2 : ∑ k ∈ range (n + 1), F (if n + 1 - 1 ≤ n + k then n + k - (n + 1 - 1) else n + 1 - 1 - (n + k)) = ∑ k ∈ range (n + 1), F k := by
    refine sum_congr rfl fun r _ => ?_
    rw [if_pos (by omega)]
    congr 1
    omega
  rw [h1, h2, sum_range_succ' F n]
  ring

lemma energy_mirrored (n m : ℕ) (hn : 0 < n) (c : ℕ → ℕ → ℝ) : energy (n * 2 - 1) m (mirrored n c) = 2 * energy n m c - ∑ j ∈ range m, c 0 j ^ 2 := by
  unfold energy
  rw [← sum_mirror_le n hn (fun k => ∑ j ∈ range m, c k j ^ 2) fun k => sum_nonneg fun _ _ => sq_nonneg _]
  refine sum_congr rfl fun r _ => ?_
  unfold mirrored
  split <;> rfl

/-- **C127, first guess of symmetric filters.** The first guess for a symmetric filter, half of the first guess, gives a surface with at most half of the variance of the target. -/
theorem C127_first_guess_symmetric_wrong (n m : ℕ) (hn : 0 < n) (t : ℕ → ℕ → ℝ) (x : List ℝ) (h : initialGuess n m t = some x) :
    acfDirect (n * 2 - 1) m (mirrored n (ofData m (x.map (· / 2)))) 0 0 ≤ t 0 0 / 2 := by
  obtain ⟨-, he⟩ := guess_energy n m t x h
  rw [acfDirect_zero, energy_mirrored n m hn]
  have h1 : energy n m (ofData m (x.map (· / 2))) = t 0 0 / 4 := by
    rw [← he]
    unfold energy
    rw [sum_div]
    refine sum_congr rfl fun i _ => ?_
    rw [sum_div]
    refine sum_congr rfl fun j _ => ?_
    rw [ofData_map_half]
    ring
  have h2 : 0 ≤ ∑ j ∈ range m, ofData m (x.map (· / 2)) 0 j ^ 2 := sum_nonneg fun _ _ => sq_nonneg _
  rw [h1]
  linarith

/-- There is such a guess, for a target of positive variance. -/
example : ∃ x, initialGuess 3 4 (fun i j : ℕ => 1 / (1 + i + j : ℝ)) = some x := by
  obtain ⟨x, hx, -⟩ := C127_first_guess 3 4 (by norm_num) (by norm_num) (fun i j : ℕ => 1 / (1 + i + j : ℝ)) (by norm_num)
  exact ⟨x, hx⟩

/-! ## The fit -/

/-- What a call that returns has done. -/
lemma linear_ok (mn : Minimizer) (n m : ℕ) (symmetric : Bool) (maxIt : Option ℕ) (s s' : Surf) (warn : Bool) (h : linearTransform mn n m symmetric maxIt s = (.ok warn, s')) (src : Acf.Source) (f : ℝ → ℝ → ℝ) (hs : s.acf = some (src, f)) :
    0 < n ∧ 0 < m ∧ s'.gs = some (s.gs.getD 1) ∧ s'.acf = s.acf ∧ ∃ x x0, mn (objective symmetric (Acf.call src f (lags (s.gs.getD 1) m) (lags (s.gs.getD 1) n)).1.1 (Acf.call src f (lags (s.gs.getD 1) m) (lags (s.gs.getD 1) n)).1.2
      (Acf.call src f (lags (s.gs.getD 1) m) (lags (s.gs.getD 1) n)).2) (gradient symmetric (Acf.call src f (lags (s.gs.getD 1) m) (lags (s.gs.getD 1) n)).1.1 (Acf.call src f (lags (s.gs.getD 1) m) (lags (s.gs.getD 1) n)).1.2
      (Acf.call src f (lags (s.gs.getD 1) m) (lags (s.gs.getD 1) n)).2) x0 = .ok (x, !warn) ∧ x0.length = (Acf.call src f (lags (s.gs.getD 1) m) (lags (s.gs.getD 1) n)).1.1 * (Acf.call src f (lags (s.gs.getD 1) m) (lags (s.gs.getD 1) n)).1.2 ∧ x.length = n * m ∧ s'.coefficients = some (stored symmetric n m x) := by
  unfold linearTransform at h
  simp only [hs] at h
  split at h
  · exact nomatch h
  · rename_i hnm
    split at h
    · exact nomatch h
    · rename_i x0 hx0
      split at h
      · exact nomatch h
      · rename_i x success hmn
        split at h
        · rename_i hl
          simp only [Prod.mk.injEq, Except.ok.injEq] at h
          obtain ⟨rfl, rfl⟩ := h
          exact ⟨by omega, by omega, rfl, hs ▸ rfl, x, _, hmn.trans (by rw [Bool.not_not]), by cases symmetric <;> simp [(guess_energy _ _ _ _ hx0).1], hl, rfl⟩
        · exact nomatch h

lemma lags_getD (gs : ℝ) (n i : ℕ) (hi : i < n) : (lags gs n).getD i 0 = gs * i := by
  unfold lags
  simp [List.getD_eq_getElem?_getD, hi]

lemma lags_length (gs : ℝ) (n : ℕ) : (lags gs n).length = n := by simp [lags]

/-- One square of a sum of squares. -/
lemma entry_le (n m : ℕ) (F : ℕ → ℕ → ℝ) (hF : ∀ i j, 0 ≤ F i j) (p q : ℕ) (hp : p < n) (hq : q < m) : F p q ≤ ∑ i ∈ range n, ∑ j ∈ range m, F i j :=
  (single_le_sum (f := fun j => F p j) (fun _ _ => hF _ _) (mem_range.2 hq)).trans (single_le_sum (f := fun i => ∑ j ∈ range m, F i j) (fun _ _ => sum_nonneg fun _ _ => hF _ _) (mem_range.2 hp))

/-- The objective is the sum of the squared differences of the target and the autocorrelation of the filter that is stored. -/
lemma objective_eq (symmetric : Bool) (n m : ℕ) (hn : 0 < n) (t : ℕ → ℕ → ℝ) (x : List ℝ) :
    objective symmetric n m t x = ∑ p ∈ range n, ∑ q ∈ range m, (t p q - acfDirect (stored symmetric n m x).n (stored symmetric n m x).m (stored symmetric n m x).coef p q) ^ 2 := by
  cases symmetric with
  | false =>
    show minFun n m t (ofData m x) = ∑ p ∈ range n, ∑ q ∈ range m, (t p q - acfDirect n m (ofData m x) p q) ^ 2
    unfold minFun
    refine sum_congr rfl fun p hp => sum_congr rfl fun q hq => ?_
    rw [C55_estimates_agree n m _ p q (mem_range.1 hp) (mem_range.1 hq)]
  | true =>
    show minFunSymmetric n m t (ofData m x) = ∑ p ∈ range n, ∑ q ∈ range m, (t p q - acfDirect (n * 2 - 1) m (mirrored n (ofData m x)) p q) ^ 2
    unfold minFunSymmetric
    refine sum_congr rfl fun p hp => sum_congr rfl fun q hq => ?_
    rw [mem_range] at hp hq
    rw [C55_estimates_agree (n * 2 - 1) m _ p q (by omega) hq]

lemma sum_flat (n m : ℕ) (h : ℕ → ℝ) : ∑ k ∈ range (n * m), h k = ∑ i ∈ range n, ∑ j ∈ range m, h (i * m + j) := by
  induction n with
  | zero => simp
  | succ n ih => rw [Nat.succ_mul, sum_range_add, ih, sum_range_succ]

lemma ofData_line (m : ℕ) (x d : List ℝ) (h : x.length = d.length) (t : ℝ) : ofData m (List.zipWith (fun a b => a + t * b) x d) = fun i j => ofData m x i j + t * ofData m d i j := by
  funext i j
  unfold ofData
  simp only [List.getD_eq_getElem?_getD, List.getElem?_zipWith]
  by_cases hlt : i * m + j < x.length
  · rw [List.getElem?_eq_getElem hlt, List.getElem?_eq_getElem (h ▸ hlt)]
    rfl
  · rw [List.getElem?_eq_none (not_lt.1 hlt), List.getElem?_eq_none (h ▸ not_lt.1 hlt)]
    simp

/-- The gradient handed to the minimisation is that of the objective. -/
lemma objective_gradient (symmetric : Bool) (n m : ℕ) (hn : 0 < n) (t : ℕ → ℕ → ℝ) : IsGradient (n * m) (objective symmetric n m t) (gradient symmetric n m t) := by
  intro x d hx hd
  have hl := ofData_line m x d (hx.trans hd.symm)
  rw [sum_flat]
  cases symmetric with
  | false =>
    have := C55_gradient n m t (ofData m x) (ofData m d)
    have e : (fun r : ℝ => objective false n m t (List.zipWith (fun a b => a + r * b) x d)) = fun r => minFun n m t fun i j => ofData m x i j + r * ofData m d i j := by
      funext r
      show minFun n m t (ofData m _) = _
      rw [hl r]
    rw [e]
    refine this.congr_deriv (sum_congr rfl fun i hi => sum_congr rfl fun j hj => ?_)
    rw [← ofData_toData n m (getGrad n m t (ofData m x)) i j (mem_range.1 hi) (mem_range.1 hj)]
    rfl
  | true =>
    have := C55_gradient_symmetric n m hn t (ofData m x) (ofData m d)
    have e : (fun r : ℝ => objective true n m t (List.zipWith (fun a b => a + r * b) x d)) = fun r => minFunSymmetric n m t fun i j => ofData m x i j + r * ofData m d i j := by
      funext r
      show minFunSymmetric n m t (ofData m _) = _
      rw [hl r]
    rw [e]
    refine this.congr_deriv (sum_congr rfl fun i hi => sum_congr rfl fun j hj => ?_)
    rw [← ofData_toData n m (getGradSymmetric n m t (ofData m x)) i j (mem_range.1 hi) (mem_range.1 hj)]
    rfl

lemma call_pos (src : Acf.Source) (f : ℝ → ℝ → ℝ) (x y : List ℝ) (hx : 0 < x.length) (hy : 0 < y.length) : 0 < (Acf.call src f x y).1.1 := by
  cases src <;> assumption

/-- The autocorrelation of a mirrored filter is the same for both signs of the lag. -/
lemma mirrored_back (n m : ℕ) (hn : 0 < n) (c : ℕ → ℕ → ℝ) (p q : ℕ) :
    ∑ k ∈ range (n * 2 - 1 - p), ∑ l ∈ range (m - q), mirrored n c k (l + q) * mirrored n c (k + p) l = acfDirect (n * 2 - 1) m (mirrored n c) p q := by
  have hm : ∀ r col, r < n * 2 - 1 → mirrored n c (n * 2 - 1 - 1 - r) col = mirrored n c r col := by
    intro r col hr
    unfold mirrored
    split <;> split
    · congr 1; omega
    · congr 1; omega
    · congr 1; omega
    · omega
  unfold acfDirect
  rw [← sum_range_reflect]
  refine sum_congr rfl fun k hk => sum_congr rfl fun l _ => ?_
  rw [mem_range] at hk
  rw [← hm (n * 2 - 1 - p - 1 - k) (l + q) (by omega), ← hm (n * 2 - 1 - p - 1 - k + p) l (by omega), mul_comm]
  congr 2 <;> omega

/-- **C127, the fit.** If the objective is at most `ε` when a minimisation with the right gradient returns, then at every lag within the shape of the filter the autocorrelation of the surfaces differs from the target by at most the root of `ε`; for symmetric filters also at the lags of the other sign.
Missing: targets made from an array or a surface with a filter that is not square. -/
theorem C127_fit_partial (E : (Ω → ℝ) →ₗ[ℝ] ℝ) (mn : Minimizer) (ε : ℝ) (hmn : ∀ F G x0 x ok, IsGradient x0.length F G → mn F G x0 = .ok (x, ok) → F x ≤ ε) (n m : ℕ) (symmetric : Bool) (maxIt : Option ℕ) (s s' : Surf) (warn : Bool)
    (h : linearTransform mn n m symmetric maxIt s = (.ok warn, s')) (src : Acf.Source) (f : ℝ → ℝ → ℝ) (hs : s.acf = some (src, f)) (hl : src = .function ∨ src = .string ∨ n = m)
    (c : Coefficients) (hc : s'.coefficients = some c) (outputShape ownShape : Option (ℕ × ℕ)) (N M : ℕ) (hr : requested outputShape ownShape = some (N, M)) (periodic : Bool)
    (rvs : Ω → ℕ → ℕ → ℕ → ℕ → ℝ) (hw : if periodic then White E N M (fun w => rvs w N M) else White E (N + c.n - 1) (M + c.m - 1) (fun w => rvs w (N + c.n - 1) (M + c.m - 1)))
    (P : Ω → Profile) (hP : ∀ w, discretise s'.coefficients outputShape ownShape periodic (rvs w) = .ok (P w)) (i j p q : ℕ) (hi : i + p < N) (hj : j + q < M) (hper : periodic = true → p + c.n ≤ N ∧ q + c.m ≤ M) (hp : p < n) (hq : q < m) :
    (E (fun w => (P w).height i j * (P w).height (i + p) (j + q)) - wanted src f (s.gs.getD 1) p q) ^ 2 ≤ ε ∧
    (symmetric = true → (E (fun w => (P w).height i (j + q) * (P w).height (i + p) j) - wanted src f (s.gs.getD 1) p q) ^ 2 ≤ ε) := by
  obtain ⟨hn, hm, -, -, x, x0, hx, hx0, -, hcoef⟩ := linear_ok mn n m symmetric maxIt s s' warn h src f hs
  have hle := hmn _ _ _ _ _ (hx0 ▸ objective_gradient symmetric _ _ (call_pos src f _ _ (by rw [lags_length]; exact hm) (by rw [lags_length]; exact hn)) _) hx
  rw [hcoef] at hc hP
  cases hc
  have hpos : 0 < (stored symmetric n m x).n ∧ 0 < (stored symmetric n m x).m := by cases symmetric <;> simp only [stored, Bool.false_eq_true, if_false, if_true] <;> omega
  obtain ⟨a1, a2⟩ := C127_autocorrelation E (stored symmetric n m x) hpos.1 hpos.2 outputShape ownShape N M hr periodic rvs hw P hP i j p q hi hj hper
  have hshape : (Acf.call src f (lags (s.gs.getD 1) m) (lags (s.gs.getD 1) n)).1 = (n, m) := by
    rcases hl with rfl | rfl | rfl
    · simp [Acf.call, lags_length]
    · simp [Acf.call, lags_length]
    · cases src <;> simp [Acf.call, lags_length]
  have hval : (Acf.call src f (lags (s.gs.getD 1) m) (lags (s.gs.getD 1) n)).2 p q = wanted src f (s.gs.getD 1) p q := by
    rcases hl with rfl | rfl | rfl
    · simp only [Acf.call, wanted, lags_getD _ _ _ hp, lags_getD _ _ _ hq]
    · simp only [Acf.call, wanted, lags_getD _ _ _ hp, lags_getD _ _ _ hq]
    · cases src <;> simp only [Acf.call, wanted, lags_getD _ _ _ hp, lags_getD _ _ _ hq]
  rw [hshape, objective_eq symmetric n m hn] at hle
  have key : (wanted src f (s.gs.getD 1) p q - acfDirect (stored symmetric n m x).n (stored symmetric n m x).m (stored symmetric n m x).coef p q) ^ 2 ≤ ε := by
    rw [← hval]
    exact (entry_le n m (fun p q => ((Acf.call src f (lags (s.gs.getD 1) m) (lags (s.gs.getD 1) n)).2 p q - acfDirect (stored symmetric n m x).n (stored symmetric n m x).m (stored symmetric n m x).coef p q) ^ 2) (fun _ _ => sq_nonneg _) p q hp hq).trans hle
  constructor
  · rw [a1, ← neg_sub, neg_sq]
    exact key
  · rintro rfl
    have hb := mirrored_back n m hn (ofData m x) p q
    rw [a2]
    have : ∑ k ∈ range ((stored true n m x).n - p), ∑ l ∈ range ((stored true n m x).m - q), (stored true n m x).coef k (l + q) * (stored true n m x).coef (k + p) l = acfDirect (stored true n m x).n (stored true n m x).m (stored true n m x).coef p q := hb
    rw [this, ← neg_sub, neg_sq]
    exact key

/-- **C127, the stored filter.** The filter has the shape asked for; a symmetric one has twice as many rows less one, and the same rows from both ends. The grid spacing is kept, and 1 if there was none; the target is kept. -/
theorem C127_stored (mn : Minimizer) (n m : ℕ) (symmetric : Bool) (maxIt : Option ℕ) (s s' : Surf) (warn : Bool) (h : linearTransform mn n m symmetric maxIt s = (.ok warn, s')) :
    ∃ c, s'.coefficients = some c ∧ c.n = (if symmetric then 2 * n - 1 else n) ∧ c.m = m ∧ (symmetric = true → ∀ r col, r < c.n → c.coef (c.n - 1 - r) col = c.coef r col) ∧ s'.gs = some (s.gs.getD 1) ∧ s'.acf = s.acf := by
  cases hs : s.acf with
  | none =>
    unfold linearTransform at h
    simp only [hs] at h
    exact nomatch h
  | some a =>
    obtain ⟨src, f⟩ := a
    obtain ⟨hn, hm, hgs, hacf, x, x0, hx, hx0, -, hcoef⟩ := linear_ok mn n m symmetric maxIt s s' warn h src f hs
    refine ⟨_, hcoef, ?_, ?_, ?_, hgs, by rw [hacf, hs]⟩
    · cases symmetric <;> simp only [stored, Bool.false_eq_true, if_false, if_true]
      omega
    · cases symmetric <;> rfl
    · rintro rfl r col hr
      simp only [stored, if_true] at hr ⊢
      unfold mirrored
      split <;> split
      · congr 1; omega
      · congr 1; omega
      · congr 1; omega
      · omega

/-- **C127, a minimisation that does not improve.** If the minimisation returns its first guess, the surfaces have the variance of the target, but with a symmetric filter at most half of it. -/
theorem C127_unimproved_wrong (mn : Minimizer) (hmn : ∀ F G x0, ∃ ok, mn F G x0 = .ok (x0, ok)) (n m : ℕ) (hn : 0 < n) (hm : 0 < m) (maxIt : Option ℕ) (s : Surf) (f : ℝ → ℝ → ℝ)
    (hs : s.acf = some (.function, f)) (hf : 0 < wanted .function f (s.gs.getD 1) 0 0) (symmetric : Bool) :
    ∃ warn s' c, linearTransform mn n m symmetric maxIt s = (.ok warn, s') ∧ s'.coefficients = some c ∧
      (symmetric = false → acfDirect c.n c.m c.coef 0 0 = wanted .function f (s.gs.getD 1) 0 0) ∧
      (symmetric = true → acfDirect c.n c.m c.coef 0 0 ≤ wanted .function f (s.gs.getD 1) 0 0 / 2) := by
  have hshape : (Acf.call .function f (lags (s.gs.getD 1) m) (lags (s.gs.getD 1) n)).1 = (n, m) := by simp [Acf.call, lags_length]
  have hval : (Acf.call .function f (lags (s.gs.getD 1) m) (lags (s.gs.getD 1) n)).2 0 0 = wanted .function f (s.gs.getD 1) 0 0 := by
    simp only [Acf.call, wanted, lags_getD _ _ _ hm, lags_getD _ _ _ hn]
  obtain ⟨x0, h0, hl, he⟩ := C127_first_guess n m hn hm (Acf.call .function f (lags (s.gs.getD 1) m) (lags (s.gs.getD 1) n)).2 (hval ▸ hf)
  have hnm : ¬ (n = 0 ∨ m = 0) := by omega
  cases symmetric with
  | false =>
    obtain ⟨ok, hok⟩ := hmn (objective false n m (Acf.call .function f (lags (s.gs.getD 1) m) (lags (s.gs.getD 1) n)).2)
      (gradient false n m (Acf.call .function f (lags (s.gs.getD 1) m) (lags (s.gs.getD 1) n)).2) x0
    refine ⟨!ok, { s with surfaceType := "linear_transform", gs := some (s.gs.getD 1), coefficients := some (stored false n m x0) }, stored false n m x0, ?_, rfl, fun _ => ?_, fun h => by simp at h⟩
    · unfold linearTransform
      simp only [hs, if_neg hnm, hshape, h0, Bool.false_eq_true, if_false, hok, if_pos hl]
    · rw [← hval, ← he]
      rfl
  | true =>
    obtain ⟨ok, hok⟩ := hmn (objective true n m (Acf.call .function f (lags (s.gs.getD 1) m) (lags (s.gs.getD 1) n)).2)
      (gradient true n m (Acf.call .function f (lags (s.gs.getD 1) m) (lags (s.gs.getD 1) n)).2) (x0.map (· / 2))
    have hl2 : (x0.map (· / 2)).length = n * m := by rw [List.length_map, hl]
    refine ⟨!ok, { s with surfaceType := "linear_transform", gs := some (s.gs.getD 1), coefficients := some (stored true n m (x0.map (· / 2))) }, stored true n m (x0.map (· / 2)), ?_, rfl, fun h => by simp at h, fun _ => ?_⟩
    · unfold linearTransform
      simp only [hs, if_neg hnm, hshape, h0, if_true, hok, if_pos hl2]
    · rw [← hval]
      exact C127_first_guess_symmetric_wrong n m hn _ x0 h0

/-- There is such a minimisation, and such a target. -/
example : (∀ (F : List ℝ → ℝ) (G : List ℝ → List ℝ) x0, ∃ ok, (fun _ _ x0 => .ok (x0, true) : Minimizer) F G x0 = .ok (x0, ok)) ∧ 0 < wanted .function (fun x y => 2 / (1 + x ^ 2 + y ^ 2)) 1 0 0 :=
  ⟨fun _ _ _ => ⟨true, rfl⟩, by simp [wanted]⟩

/-- **C127, limit of iterations.** `max_it` has no effect. -/
theorem C127_max_it_wrong (mn : Minimizer) (n m : ℕ) (symmetric : Bool) (maxIt maxIt' : Option ℕ) (s : Surf) : linearTransform mn n m symmetric maxIt s = linearTransform mn n m symmetric maxIt' s := rfl

/-- **C127, failures.** A call that raises leaves coefficients and target as they are, but names the method; without a target it is a `ValueError`. -/
theorem C127_failure (mn : Minimizer) (n m : ℕ) (symmetric : Bool) (maxIt : Option ℕ) (s s' : Surf) (e : LErr) (h : linearTransform mn n m symmetric maxIt s = (.error e, s')) :
    s'.coefficients = s.coefficients ∧ s'.acf = s.acf ∧ s'.surfaceType = "linear_transform" ∧ (s.acf = none → e = .py .valueError) := by
  unfold linearTransform at h
  dsimp only at h
  split at h
  · rename_i hs
    simp only [Prod.mk.injEq, Except.error.injEq] at h
    obtain ⟨rfl, rfl⟩ := h
    exact ⟨rfl, rfl, rfl, fun _ => rfl⟩
  · rename_i src f hs
    have hne : s.acf ≠ none := by rw [hs]; simp
    split at h
    · cases h; exact ⟨rfl, rfl, rfl, fun h => absurd h hne⟩
    · split at h
      · cases h; exact ⟨rfl, rfl, rfl, fun h => absurd h hne⟩
      · split at h
        · cases h; exact ⟨rfl, rfl, rfl, fun h => absurd h hne⟩
        · split at h
          · cases h
          · cases h; exact ⟨rfl, rfl, rfl, fun h => absurd h hne⟩

/-! ## Where it fails -/

/-- **C127, other filters than square ones for a target from an array or a surface.** For a filter of one row, even an exact fit gives surfaces whose autocorrelation along a row is that of the target along a column. -/
theorem C127_layout_wrong (E : (Ω → ℝ) →ₗ[ℝ] ℝ) (mn : Minimizer) (hmn : ∀ F G x0 x ok, mn F G x0 = .ok (x, ok) → F x ≤ 0) (m : ℕ) (maxIt : Option ℕ) (s s' : Surf) (warn : Bool)
    (h : linearTransform mn 1 m false maxIt s = (.ok warn, s')) (src : Acf.Source) (hsrc : src = .array ∨ src = .surface) (f : ℝ → ℝ → ℝ) (hs : s.acf = some (src, f)) (N M : ℕ)
    (rvs : Ω → ℕ → ℕ → ℕ → ℕ → ℝ) (hw : White E (N + 1 - 1) (M + m - 1) (fun w => rvs w (N + 1 - 1) (M + m - 1)))
    (P : Ω → Profile) (hP : ∀ w, discretise s'.coefficients (some (N, M)) none false (rvs w) = .ok (P w)) (i j q : ℕ) (hi : i < N) (hj : j + q < M) (hq : q < m) :
    E (fun w => (P w).height i j * (P w).height i (j + q)) = f (s.gs.getD 1 * q) 0 ∧ wanted src f (s.gs.getD 1) 0 q = f 0 (s.gs.getD 1 * q) := by
  obtain ⟨hn, hm, -, -, x, x0, hx, hx0, hlen, hcoef⟩ := linear_ok mn 1 m false maxIt s s' warn h src f hs
  have hle := hmn _ _ _ _ _ hx
  rw [hcoef] at hP
  obtain ⟨a1, -⟩ := C127_autocorrelation E ⟨1, m, ofData m x⟩ hn hm (some (N, M)) none N M rfl false rvs hw P hP i j 0 q hi hj (fun h => nomatch h)
  refine ⟨?_, by rcases hsrc with rfl | rfl <;> simp [wanted]⟩
  rw [Nat.add_zero] at a1
  rw [a1]
  have hshape : (Acf.call src f (lags (s.gs.getD 1) m) (lags (s.gs.getD 1) 1)).1 = (m, 1) := by rcases hsrc with rfl | rfl <;> simp [Acf.call, lags_length]
  have hval : (Acf.call src f (lags (s.gs.getD 1) m) (lags (s.gs.getD 1) 1)).2 q 0 = f (s.gs.getD 1 * q) 0 := by
    rcases hsrc with rfl | rfl <;> simp only [Acf.call, lags_getD _ _ _ hq, lags_getD _ 1 0 Nat.one_pos, Nat.cast_zero, mul_zero]
  rw [hshape, objective_eq false m 1 hm] at hle
  have key := (entry_le m 1 (fun p q => ((Acf.call src f (lags (s.gs.getD 1) m) (lags (s.gs.getD 1) 1)).2 p q - acfDirect m 1 (ofData 1 x) p q) ^ 2) (fun _ _ => sq_nonneg _) q 0 hq Nat.one_pos).trans hle
  have h0 := pow_eq_zero_iff (two_ne_zero) |>.1 (le_antisymm key (sq_nonneg _))
  rw [hval] at h0
  rw [sub_eq_zero.1 h0]
  unfold acfDirect ofData
  simp

/-- **C127, symmetric filters of one row for a target from an array or a surface.** Not even the variance is right, unless the target has no correlation along a column. -/
theorem C127_layout_symmetric_wrong (E : (Ω → ℝ) →ₗ[ℝ] ℝ) (mn : Minimizer) (hmn : ∀ F G x0 x ok, mn F G x0 = .ok (x, ok) → F x ≤ 0) (m : ℕ) (maxIt : Option ℕ) (s s' : Surf) (warn : Bool)
    (h : linearTransform mn 1 m true maxIt s = (.ok warn, s')) (src : Acf.Source) (hsrc : src = .array ∨ src = .surface) (f : ℝ → ℝ → ℝ) (hs : s.acf = some (src, f)) (q : ℕ) (hq0 : 0 < q) (hq : q < m) (hf : f (s.gs.getD 1 * q) 0 ≠ 0) (N M : ℕ)
    (rvs : Ω → ℕ → ℕ → ℕ → ℕ → ℝ) (hw : White E (N + 1 - 1) (M + m - 1) (fun w => rvs w (N + 1 - 1) (M + m - 1)))
    (P : Ω → Profile) (hP : ∀ w, discretise s'.coefficients (some (N, M)) none false (rvs w) = .ok (P w)) (i j : ℕ) (hi : i < N) (hj : j < M) :
    E (fun w => (P w).height i j * (P w).height i j) < wanted src f (s.gs.getD 1) 0 0 := by
  obtain ⟨hn, hm, -, -, x, x0, hx, hx0, hlen, hcoef⟩ := linear_ok mn 1 m true maxIt s s' warn h src f hs
  have hle := hmn _ _ _ _ _ hx
  rw [hcoef] at hP
  obtain ⟨a1, -⟩ := C127_autocorrelation E ⟨1, m, mirrored 1 (ofData m x)⟩ hn hm (some (N, M)) none N M rfl false rvs hw P hP i j 0 0 hi hj (fun h => nomatch h)
  rw [Nat.add_zero, Nat.add_zero] at a1
  rw [a1]
  have hshape : (Acf.call src f (lags (s.gs.getD 1) m) (lags (s.gs.getD 1) 1)).1 = (m, 1) := by rcases hsrc with rfl | rfl <;> simp [Acf.call, lags_length]
  have hval : ∀ q, q < m → (Acf.call src f (lags (s.gs.getD 1) m) (lags (s.gs.getD 1) 1)).2 q 0 = f (s.gs.getD 1 * q) 0 := by
    intro q hq
    rcases hsrc with rfl | rfl <;> simp only [Acf.call, lags_getD _ _ _ hq, lags_getD _ 1 0 Nat.one_pos, Nat.cast_zero, mul_zero]
  rw [hshape, objective_eq true m 1 hm] at hle
  have fit : ∀ q, q < m → f (s.gs.getD 1 * q) 0 = acfDirect (m * 2 - 1) 1 (mirrored m (ofData 1 x)) q 0 := by
    intro q hq
    have key := (entry_le m 1 (fun p q => ((Acf.call src f (lags (s.gs.getD 1) m) (lags (s.gs.getD 1) 1)).2 p q - acfDirect (m * 2 - 1) 1 (mirrored m (ofData 1 x)) p q) ^ 2) (fun _ _ => sq_nonneg _) q 0 hq Nat.one_pos).trans hle
    have h0 := pow_eq_zero_iff (two_ne_zero) |>.1 (le_antisymm key (sq_nonneg _))
    rw [hval q hq] at h0
    exact sub_eq_zero.1 h0
  have hwant : wanted src f (s.gs.getD 1) 0 0 = acfDirect (m * 2 - 1) 1 (mirrored m (ofData 1 x)) 0 0 := by
    rw [← fit 0 hm]
    rcases hsrc with rfl | rfl <;> simp [wanted]
  have e1 : acfDirect 1 m (mirrored 1 (ofData m x)) 0 0 = ∑ k ∈ range m, x.getD k 0 ^ 2 := by
    rw [acfDirect_zero]
    simp [energy, mirrored, ofData]
  have e2 : acfDirect (m * 2 - 1) 1 (mirrored m (ofData 1 x)) 0 0 = 2 * (∑ k ∈ range m, x.getD k 0 ^ 2) - x.getD 0 0 ^ 2 := by
    rw [acfDirect_zero, energy_mirrored m 1 hm]
    simp [energy, ofData]
  have hne : ∃ k, 0 < k ∧ k < m ∧ x.getD k 0 ≠ 0 := by
    by_contra hno
    push Not at hno
    apply hf
    rw [fit q hq]
    unfold acfDirect
    refine sum_eq_zero fun k hk => sum_eq_zero fun l hl => ?_
    rw [mem_range] at hk
    have hz : ∀ r, r < m * 2 - 1 → r ≠ m - 1 → mirrored m (ofData 1 x) r l = 0 := by
      intro r hr hne
      have hl0 : l = 0 := by rw [mem_range] at hl; omega
      subst hl0
      unfold mirrored ofData
      split
      · have := hno (r - (m - 1)) (by omega) (by omega)
        simpa using this
      · have := hno (m - 1 - r) (by omega) (by omega)
        simpa using this
    by_cases hk1 : k = m - 1
    · rw [Nat.add_zero, hz (k + q) (by omega) (by omega), mul_zero]
    · rw [hz k (by omega) hk1, zero_mul]
  obtain ⟨k, hk0, hkm, hk⟩ := hne
  show acfDirect 1 m (mirrored 1 (ofData m x)) 0 0 < _
  rw [hwant, e1, e2]
  obtain ⟨m, rfl⟩ : ∃ l, m = l + 1 := ⟨m - 1, by omega⟩
  rw [sum_range_succ']
  have : 0 < ∑ k ∈ range m, x.getD (k + 1) 0 ^ 2 := by
    refine lt_of_lt_of_le (sq_pos_of_pos (abs_pos.2 hk)) ?_
    rw [sq_abs]
    obtain ⟨k, rfl⟩ : ∃ l, k = l + 1 := ⟨k - 1, by omega⟩
    exact single_le_sum (f := fun k => x.getD (k + 1) 0 ^ 2) (fun i _ => sq_nonneg _) (mem_range.2 (by omega))
  linarith

open Classical in
/-- A minimisation that knows the answer: it returns the given numbers if the objective is zero there. -/
noncomputable def knows (xs : List ℝ) : Minimizer := fun F _ _ => if F xs ≤ 0 then .ok (xs, true) else .error .valueError

lemma knows_exact (xs : List ℝ) : ∀ F G x0 x ok, knows xs F G x0 = .ok (x, ok) → F x ≤ 0 := by
  intro F G x0 x ok h
  unfold knows at h
  split at h
  · rename_i hF
    cases h
    exact hF
  · exact nomatch h

lemma knows_call (xs : List ℝ) (n m : ℕ) (hn : 0 < n) (hm : 0 < m) (symmetric : Bool) (src : Acf.Source) (f : ℝ → ℝ → ℝ) (hlen : xs.length = n * m) (h0 : 0 < f 0 0)
    (hobj : ∀ p q, p < (Acf.call src f (lags 1 m) (lags 1 n)).1.1 → q < (Acf.call src f (lags 1 m) (lags 1 n)).1.2 → (Acf.call src f (lags 1 m) (lags 1 n)).2 p q =
      acfDirect (stored symmetric (Acf.call src f (lags 1 m) (lags 1 n)).1.1 (Acf.call src f (lags 1 m) (lags 1 n)).1.2 xs).n (stored symmetric (Acf.call src f (lags 1 m) (lags 1 n)).1.1 (Acf.call src f (lags 1 m) (lags 1 n)).1.2 xs).m
        (stored symmetric (Acf.call src f (lags 1 m) (lags 1 n)).1.1 (Acf.call src f (lags 1 m) (lags 1 n)).1.2 xs).coef p q) :
    linearTransform (knows xs) n m symmetric none ⟨some (src, f), none, none, "Random"⟩ = (.ok false, ⟨some (src, f), some 1, some (stored symmetric n m xs), "linear_transform"⟩) := by
  have hpos := call_pos src f (lags 1 m) (lags 1 n) (by rw [lags_length]; exact hm) (by rw [lags_length]; exact hn)
  have hpos2 : 0 < (Acf.call src f (lags 1 m) (lags 1 n)).1.2 := by cases src <;> simp only [Acf.call, lags_length] <;> assumption
  have hval : (Acf.call src f (lags 1 m) (lags 1 n)).2 0 0 = f 0 0 := by cases src <;> simp [Acf.call, lags_getD, hn, hm, List.getD_eq_getElem?_getD, lags]
  obtain ⟨x0, hx0, -⟩ := C127_first_guess _ _ hpos hpos2 (Acf.call src f (lags 1 m) (lags 1 n)).2 (by rw [hval]; exact h0)
  have hle : objective symmetric (Acf.call src f (lags 1 m) (lags 1 n)).1.1 (Acf.call src f (lags 1 m) (lags 1 n)).1.2 (Acf.call src f (lags 1 m) (lags 1 n)).2 xs ≤ 0 := by
    rw [objective_eq symmetric _ _ hpos]
    refine le_of_eq (sum_eq_zero fun p hp => sum_eq_zero fun q hq => ?_)
    rw [← hobj p q (mem_range.1 hp) (mem_range.1 hq), sub_self]
    norm_num
  unfold linearTransform
  simp only [Option.getD_none]
  rw [if_neg (by omega), hx0]
  simp only [knows, if_pos hle, if_pos hlen]
  rfl

/-- An even function. -/
noncomputable def diagonal : ℝ → ℝ → ℝ := fun x y => if x = 0 ∧ y = 0 then 2 else if |x| = 1 ∧ |y| = 1 then 1 else 0

lemma diagonal_call : linearTransform (knows [1, 0, 0, 1]) 2 2 false none ⟨some (.function, diagonal), none, none, "Random"⟩ =
    (.ok false, ⟨some (.function, diagonal), some 1, some (stored false 2 2 [1, 0, 0, 1]), "linear_transform"⟩) := by
  refine knows_call _ 2 2 (by norm_num) (by norm_num) false .function diagonal rfl (by norm_num [diagonal]) fun p q hp hq => ?_
  simp only [Acf.call, lags_length] at hp hq
  interval_cases p <;> interval_cases q <;> norm_num [Acf.call, lags, stored, acfDirect, ofData, diagonal, sum_range_succ, List.range_succ]

/-- **C127, lags of the other sign.** Without symmetry, an exact fit to a target that is the same for both signs of the lag can give surfaces without any correlation at a lag of the other sign where the target has some. -/
theorem C127_other_sign_wrong : ∃ (f : ℝ → ℝ → ℝ) (mn : Minimizer) (s s' : Surf), (∀ x y, f (-x) y = f x y ∧ f x (-y) = f x y) ∧ (∀ F G x0 x ok, mn F G x0 = .ok (x, ok) → F x ≤ 0) ∧
    s.acf = some (.function, f) ∧ linearTransform mn 2 2 false none s = (.ok false, s') ∧ wanted .function f (s.gs.getD 1) 1 1 = 1 ∧
    ∀ (Ω : Type) (E : (Ω → ℝ) →ₗ[ℝ] ℝ) (N M : ℕ) (rvs : Ω → ℕ → ℕ → ℕ → ℕ → ℝ) (P : Ω → Profile), White E (N + 2 - 1) (M + 2 - 1) (fun w => rvs w (N + 2 - 1) (M + 2 - 1)) →
      (∀ w, discretise s'.coefficients (some (N, M)) none false (rvs w) = .ok (P w)) → ∀ i j, i + 1 < N → j + 1 < M →
        E (fun w => (P w).height i j * (P w).height (i + 1) (j + 1)) = 1 ∧ E (fun w => (P w).height i (j + 1) * (P w).height (i + 1) j) = 0 := by
  refine ⟨diagonal, knows [1, 0, 0, 1], _, _, fun x y => by simp [diagonal], knows_exact _, rfl, diagonal_call, by norm_num [wanted, diagonal], ?_⟩
  intro Ω E N M rvs P hw hP i j hi hj
  obtain ⟨h1, h2⟩ := C127_autocorrelation E (stored false 2 2 [1, 0, 0, 1]) (by norm_num [stored]) (by norm_num [stored]) (some (N, M)) none N M rfl false rvs hw P hP i j 1 1 hi hj (fun h => nomatch h)
  rw [h1, h2]
  constructor <;> norm_num [stored, acfDirect, ofData, sum_range_succ]

/-- The hypotheses of `C127_fit_partial` and `C127_stored` can be met, with noise. -/
example : ∃ (Ω : Type) (E : (Ω → ℝ) →ₗ[ℝ] ℝ) (s s' : Surf) (c : Coefficients) (rvs : Ω → ℕ → ℕ → ℕ → ℕ → ℝ) (P : Ω → Profile), linearTransform (knows [1, 0, 0, 1]) 2 2 false none s = (.ok false, s') ∧ s.acf = some (.function, diagonal) ∧
    s'.coefficients = some c ∧ White E (9 + c.n - 1) (8 + c.m - 1) (fun w => rvs w (9 + c.n - 1) (8 + c.m - 1)) ∧ ∀ w, discretise s'.coefficients (some (9, 8)) none false (rvs w) = .ok (P w) := by
  obtain ⟨Ω, E, eta, h, -⟩ := exists_white 10 9
  exact ⟨Ω, E, _, _, _, fun w _ _ => eta w, _, diagonal_call, rfl, rfl, h, fun w => rfl⟩

/-- Those of `C127_layout_wrong`, for filters of one row. -/
example : ∃ s s', linearTransform (knows [1, 1 / 2]) 1 2 false none s = (.ok false, s') ∧ s.acf = some (.array, fun x _ => if x = 0 then 5 / 4 else 1 / 2) := by
  refine ⟨_, _, knows_call _ 1 2 (by norm_num) (by norm_num) false .array (fun x _ => if x = 0 then 5 / 4 else 1 / 2) rfl (by norm_num) fun p q hp hq => ?_, rfl⟩
  simp only [Acf.call, lags_length] at hp hq
  interval_cases p <;> interval_cases q <;> norm_num [Acf.call, lags, stored, acfDirect, ofData, sum_range_succ, List.range_succ]

/-- And of `C127_layout_symmetric_wrong`, for symmetric ones. -/
example : ∃ s s', linearTransform (knows [1, 1]) 1 2 true none s = (.ok false, s') ∧ s.acf = some (.surface, fun x _ => if x = 0 then 3 else 2) ∧ (fun x _ : ℝ => if x = 0 then (3 : ℝ) else 2) (s.gs.getD 1 * (1 : ℕ)) 0 ≠ 0 := by
  refine ⟨_, _, knows_call _ 1 2 (by norm_num) (by norm_num) true .surface (fun x _ => if x = 0 then 3 else 2) rfl (by norm_num) fun p q hp hq => ?_, rfl, by norm_num⟩
  simp only [Acf.call, lags_length] at hp hq
  interval_cases p <;> interval_cases q <;> norm_num [Acf.call, lags, stored, acfDirect, ofData, mirrored, sum_range_succ, List.range_succ]

/-- A call that raises (`C127_failure`). -/
example : ∃ s', linearTransform (knows []) 3 4 true (some 10) ⟨none, some 2, none, "Random"⟩ = (.error (.py .valueError), s') := ⟨_, rfl⟩

end Verif.Filter
