import Verif.Contact.Spec
import Mathlib.Topology.MetricSpace.Contracting
import Mathlib.Analysis.InnerProductSpace.PiL2
import Mathlib.Tactic.Linarith
import Mathlib.Tactic.Ring
import Mathlib.Tactic.FieldSimp
import Mathlib.Tactic.Positivity

/-!
# The contact problem: at most one solution, and one
-/

namespace Verif.Contact

open Finset

variable {ι : Type} [Fintype ι]

/-- Two solutions for different overlaps: the work of the difference. -/
theorem work_le {T : ι → Prop} {L : (ι → ℝ) →ₗ[ℝ] (ι → ℝ)} {b b' : ι → ℝ} {M : ι → Option ℝ} {u u' : ι → ℝ} (h : Solution T L b M u) (h' : Solution T L b' M u') :
    ∑ i, (u' i - u i) * L (u' - u) i ≤ ∑ i, (u' i - u i) * (b' i - b i) := by
  refine sum_le_sum fun i _ => ?_
  rw [map_sub, Pi.sub_apply]
  by_cases hT : T i
  · have key : (u' i - u i) * ((L u' i - b' i) - (L u i - b i)) ≤ 0 := by
      have n := h.nonneg i hT
      have n' := h'.nonneg i hT
      have a1 : (u' i - u i) * (L u' i - b' i) ≤ 0 := by
        rcases lt_trichotomy (b' i) (L u' i) with hg | hg | hg
        · rw [h'.gap i hT hg]
          nlinarith
        · rw [hg]; simp
        · have := h.limit i hT _ (h'.overlap i hT hg)
          nlinarith
      have a2 : 0 ≤ (u' i - u i) * (L u i - b i) := by
        rcases lt_trichotomy (b i) (L u i) with hg | hg | hg
        · rw [h.gap i hT hg]
          nlinarith
        · rw [hg]; simp
        · have := h'.limit i hT _ (h.overlap i hT hg)
          nlinarith
      linarith [mul_sub (u' i - u i) (L u' i - b' i) (L u i - b i)]
    nlinarith [key]
  · rw [h.outside i hT, h'.outside i hT]
    simp

theorem unique {T : ι → Prop} {L : (ι → ℝ) →ₗ[ℝ] (ι → ℝ)} (hL : Definite L) {b : ι → ℝ} {M : ι → Option ℝ} {u u' : ι → ℝ} (h : Solution T L b M u) (h' : Solution T L b M u') : u' = u := by
  by_contra hne
  have h1 := work_le h h'
  have h2 := hL (u' - u) (sub_ne_zero.2 hne)
  simp only [sub_self, mul_zero, sum_const_zero] at h1
  simp only [Pi.sub_apply] at h2
  linarith

/-- The pressure moved into its bounds. -/
noncomputable def clamp (m : Option ℝ) (x : ℝ) : ℝ := match m with
  | none => max 0 x
  | some m => max 0 (min m x)

theorem clamp_lipschitz (m : Option ℝ) (x y : ℝ) : |clamp m x - clamp m y| ≤ |x - y| := by
  cases m with
  | none =>
    unfold clamp
    refine (abs_max_sub_max_le_max _ _ _ _).trans ?_
    simp
  | some m =>
    unfold clamp
    refine (abs_max_sub_max_le_max _ _ _ _).trans ?_
    simp only [sub_self, abs_zero]
    refine max_le (abs_nonneg _) ((abs_min_sub_min_le_max _ _ _ _).trans ?_)
    simp

/-- A fixed point of the projected step is a solution. -/
theorem solution_of_fixed {T : ι → Prop} {L : (ι → ℝ) →ₗ[ℝ] (ι → ℝ)} {b : ι → ℝ} {M : ι → Option ℝ} (hM : ∀ i m, M i = some m → 0 ≤ m) {t : ℝ} (ht : 0 < t) {u : ι → ℝ}
    (h : ∀ i, T i → u i = clamp (M i) (u i - t * (L u i - b i))) (h0 : ∀ i, ¬T i → u i = 0) : Solution T L b M u where
  outside := h0
  nonneg i hT := by
    rw [h i hT]
    unfold clamp
    split <;> exact le_max_left _ _
  limit i hT m hm := by
    rw [h i hT, hm]
    exact max_le (hM i m hm) (min_le_left _ _)
  gap i hT hg := by
    have e := h i hT
    have hp : 0 < t * (L u i - b i) := mul_pos ht (sub_pos.2 hg)
    unfold clamp at e
    split at e
    · rcases max_choice 0 (u i - t * (L u i - b i)) with hc | hc <;> rw [hc] at e <;> linarith
    · rename_i m _
      rcases max_choice 0 (min m (u i - t * (L u i - b i))) with hc | hc <;> rw [hc] at e
      · exact e
      · have := min_le_right m (u i - t * (L u i - b i))
        linarith
  overlap i hT hg := by
    have e := h i hT
    have hp : 0 < t * (b i - L u i) := mul_pos ht (sub_pos.2 hg)
    have hs : u i - t * (L u i - b i) = u i + t * (b i - L u i) := by ring
    rw [hs] at e
    unfold clamp at e
    split at e
    · have := le_max_right 0 (u i + t * (b i - L u i))
      linarith
    · rename_i m hm
      rcases min_choice m (u i + t * (b i - L u i)) with hc | hc
      · rw [hc, max_eq_right (hM i m hm)] at e
        rw [hm, e]
      · have := le_max_right 0 (min m (u i + t * (b i - L u i)))
        rw [hc] at this e
        linarith

/-- The work of definite bodies is at least a multiple of the sum of squares. -/
theorem Definite.bound {L : (ι → ℝ) →ₗ[ℝ] (ι → ℝ)} (hL : Definite L) : ∃ c > 0, ∀ w : ι → ℝ, c * ∑ i, w i ^ 2 ≤ ∑ i, w i * L w i := by
  let E := EuclideanSpace ℝ ι
  have psub : ∀ (x y : E) i, (x - y) i = x i - y i := fun x y i => rfl
  have psmul : ∀ (r : ℝ) (x : E) i, (r • x) i = r * x i := fun r x i => rfl
  have nsq : ∀ x : E, ‖x‖ ^ 2 = ∑ i, x i ^ 2 := fun x => by
    rw [EuclideanSpace.norm_sq_eq]
    exact sum_congr rfl fun i _ => by rw [Real.norm_eq_abs, sq_abs]
  let A : E →ₗ[ℝ] E := (WithLp.linearEquiv 2 ℝ (ι → ℝ)).symm.toLinearMap ∘ₗ L ∘ₗ (WithLp.linearEquiv 2 ℝ (ι → ℝ)).toLinearMap
  have hA : ∀ (x : E) i, A x i = L (fun j => x j) i := fun x i => rfl
  let A' : E →L[ℝ] E := LinearMap.toContinuousLinearMap A
  have hA' : ∀ x, A' x = A x := fun x => rfl
  -- a lower bound of the work
  obtain ⟨c, hc, hlow⟩ : ∃ c > 0, ∀ x : E, c * ‖x‖ ^ 2 ≤ ∑ i, x i * A x i := by
    by_cases hne : Nonempty ι
    · have hnt : Nontrivial E := by infer_instance
      have hcont : Continuous fun x : E => ∑ i, x i * A x i := by
        refine continuous_finset_sum _ fun i _ => ?_
        have h1 : Continuous fun x : E => x i := (EuclideanSpace.proj i : E →L[ℝ] ℝ).continuous
        have h2 : Continuous fun x : E => A x i := (EuclideanSpace.proj i : E →L[ℝ] ℝ).continuous.comp A'.continuous
        exact h1.mul h2
      obtain ⟨x0, hx0, hmin⟩ := (isCompact_sphere (0 : E) 1).exists_isMinOn (NormedSpace.sphere_nonempty.2 zero_le_one) hcont.continuousOn
      refine ⟨∑ i, x0 i * A x0 i, ?_, ?_⟩
      · apply hL
        intro h0
        have : x0 = 0 := by
          ext i
          exact congrFun h0 i
        rw [this] at hx0
        simp at hx0
      · intro x
        by_cases hx : x = 0
        · simp [hx]
        · have hn : 0 < ‖x‖ := norm_pos_iff.2 hx
          have hm := hmin (a := ‖x‖⁻¹ • x) (by
            rw [mem_sphere_zero_iff_norm, norm_smul, norm_inv, norm_norm, inv_mul_cancel₀ hn.ne'])
          simp only [Set.mem_setOf_eq, map_smul] at hm
          have : ∑ i, (‖x‖⁻¹ • x) i * (‖x‖⁻¹ • A x) i = (‖x‖ ^ 2)⁻¹ * ∑ i, x i * A x i := by
            rw [mul_sum]
            refine sum_congr rfl fun i _ => ?_
            rw [psmul, psmul, sq, mul_inv]; ring
          rw [this] at hm
          rw [inv_mul_eq_div, le_div_iff₀ (by positivity)] at hm
          exact hm
    · refine ⟨1, one_pos, fun x => ?_⟩
      have : IsEmpty ι := not_nonempty_iff.1 hne
      rw [nsq]; simp
  refine ⟨c, hc, fun w => ?_⟩
  have := hlow (WithLp.toLp 2 w)
  rw [nsq] at this
  exact this

open Classical in
/-- There is a solution. -/
theorem exists_solution (T : ι → Prop) {L : (ι → ℝ) →ₗ[ℝ] (ι → ℝ)} (hL : Definite L) (b : ι → ℝ) {M : ι → Option ℝ} (hM : ∀ i m, M i = some m → 0 ≤ m) : ∃ u, Solution T L b M u := by
  let E := EuclideanSpace ℝ ι
  have psub : ∀ (x y : E) i, (x - y) i = x i - y i := fun x y i => rfl
  have psmul : ∀ (r : ℝ) (x : E) i, (r • x) i = r * x i := fun r x i => rfl
  have nsq : ∀ x : E, ‖x‖ ^ 2 = ∑ i, x i ^ 2 := fun x => by
    rw [EuclideanSpace.norm_sq_eq]
    exact sum_congr rfl fun i _ => by rw [Real.norm_eq_abs, sq_abs]
  let A : E →ₗ[ℝ] E := (WithLp.linearEquiv 2 ℝ (ι → ℝ)).symm.toLinearMap ∘ₗ L ∘ₗ (WithLp.linearEquiv 2 ℝ (ι → ℝ)).toLinearMap
  have hA : ∀ (x : E) i, A x i = L (fun j => x j) i := fun x i => rfl
  let A' : E →L[ℝ] E := LinearMap.toContinuousLinearMap A
  have hA' : ∀ x, A' x = A x := fun x => rfl
  obtain ⟨c, hc, hlow'⟩ := hL.bound
  have hlow : ∀ x : E, c * ‖x‖ ^ 2 ≤ ∑ i, x i * A x i := fun x => by
    rw [nsq]
    exact hlow' fun i => x i
  -- the step
  let B := ‖A'‖ + c + 1
  have hB : 0 < B := by have := norm_nonneg A'; positivity
  have hAB : ∀ x, ‖A x‖ ≤ B * ‖x‖ := fun x => by
    refine (A'.le_opNorm x).trans (mul_le_mul_of_nonneg_right ?_ (norm_nonneg _))
    simp only [B]; linarith
  let t := c / B ^ 2
  have ht : 0 < t := by positivity
  let F : E → E := fun x => WithLp.toLp 2 fun i => if T i then clamp (M i) (x i - t * (A x i - b i)) else 0
  have hF : ∀ x i, F x i = if T i then clamp (M i) (x i - t * (A x i - b i)) else 0 := fun x i => rfl
  have hcB : c < B := by have := norm_nonneg A'; simp only [B]; linarith
  have hr0 : 0 ≤ 1 - c ^ 2 / B ^ 2 := by
    rw [sub_nonneg, div_le_one (by positivity)]
    exact pow_le_pow_left₀ hc.le hcB.le 2
  let K : NNReal := ⟨Real.sqrt (1 - c ^ 2 / B ^ 2), Real.sqrt_nonneg _⟩
  have hK : K < 1 := by
    rw [← NNReal.coe_lt_coe]
    show Real.sqrt _ < 1
    rw [Real.sqrt_lt' one_pos]
    have : 0 < c ^ 2 / B ^ 2 := by positivity
    linarith
  have hdist : ∀ x y, ‖F x - F y‖ ^ 2 ≤ (1 - c ^ 2 / B ^ 2) * ‖x - y‖ ^ 2 := by
    intro x y
    have h1 : ‖F x - F y‖ ^ 2 ≤ ∑ i, ((x - y) i - t * A (x - y) i) ^ 2 := by
      rw [nsq]
      refine sum_le_sum fun i _ => ?_
      rw [sq_le_sq, psub, hF, hF]
      split
      · refine (clamp_lipschitz _ _ _).trans (le_of_eq ?_)
        rw [map_sub, psub, psub]
        congr 1
        ring
      · simp
    refine h1.trans ?_
    have h2 : ∑ i, ((x - y) i - t * A (x - y) i) ^ 2 = ‖x - y‖ ^ 2 - 2 * t * (∑ i, (x - y) i * A (x - y) i) + t ^ 2 * ‖A (x - y)‖ ^ 2 := by
      rw [nsq, nsq, mul_sum, mul_sum, ← sum_sub_distrib, ← sum_add_distrib]
      exact sum_congr rfl fun i _ => by ring
    rw [h2]
    have h3 := hlow (x - y)
    have h4 : ‖A (x - y)‖ ^ 2 ≤ B ^ 2 * ‖x - y‖ ^ 2 := by
      rw [← mul_pow]
      exact pow_le_pow_left₀ (norm_nonneg _) (hAB _) 2
    have h5 : t ^ 2 * ‖A (x - y)‖ ^ 2 ≤ t ^ 2 * (B ^ 2 * ‖x - y‖ ^ 2) := mul_le_mul_of_nonneg_left h4 (by positivity)
    have h6 : 2 * t * (c * ‖x - y‖ ^ 2) ≤ 2 * t * (∑ i, (x - y) i * A (x - y) i) := mul_le_mul_of_nonneg_left h3 (by positivity)
    have h7 : t ^ 2 * (B ^ 2 * ‖x - y‖ ^ 2) = c ^ 2 / B ^ 2 * ‖x - y‖ ^ 2 := by
      simp only [t]; field_simp
    have h8 : 2 * t * (c * ‖x - y‖ ^ 2) = 2 * (c ^ 2 / B ^ 2) * ‖x - y‖ ^ 2 := by
      simp only [t]; field_simp
    rw [h7] at h5
    rw [h8] at h6
    linarith
  have hlip : LipschitzWith K F := by
    refine LipschitzWith.of_dist_le_mul fun x y => ?_
    rw [dist_eq_norm, dist_eq_norm]
    show _ ≤ Real.sqrt _ * _
    rw [← Real.sqrt_sq (norm_nonneg (F x - F y)), ← Real.sqrt_sq (norm_nonneg (x - y)), ← Real.sqrt_mul hr0]
    exact Real.sqrt_le_sqrt (hdist x y)
  have hcw : ContractingWith K F := ⟨hK, hlip⟩
  have hfix := hcw.fixedPoint_isFixedPt
  refine ⟨fun i => ContractingWith.fixedPoint F hcw i, solution_of_fixed hM ht (fun i hT => ?_) fun i hT => ?_⟩
  · have := congrArg (fun x : E => x i) hfix
    simp only at this
    rw [hF, if_pos hT] at this
    exact this.symm
  · have := congrArg (fun x : E => x i) hfix
    simp only at this
    rw [hF, if_neg hT] at this
    exact this.symm

end Verif.Contact
