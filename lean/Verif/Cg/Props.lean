import Mathlib.Tactic.Ring
import Mathlib.Tactic.FinCases
import Mathlib.Tactic.NormNum
import Mathlib.Tactic.Linarith
import Mathlib.Tactic.FieldSimp
import Mathlib.Tactic.Positivity
import Mathlib.Algebra.Module.LinearMap.Defs
import Mathlib.Algebra.Module.Pi
import Mathlib.Algebra.Module.LinearMap.End
import Verif.Cg.Model

/-!
# Property C12: loads found from displacements reproduce the displacements
-/

namespace Verif.Cg

open Verif

variable {ι : Type} [Fintype ι]

/-- `A` acts on finite loads as the linear map `L`. -/
def ActsAs (A : (ι → XR) → ι → XR) (L : (ι → ℝ) →ₗ[ℝ] (ι → ℝ)) : Prop := ∀ u : ι → ℝ, A (fun i => .fin (u i)) = fun i => .fin (L u i)

/-- Extension by zero of a vector on the prescribed entries. -/
noncomputable def extend (target : ι → XR) (v : Dom target → ℝ) : ι → ℝ := by
  classical exact fun i => if h : prescribed target i then v ⟨i, h⟩ else 0

lemma scatter_fin (target : ι → XR) (v : Dom target → ℝ) :
    scatter target (fun i => .fin (v i)) = fun i => .fin (extend target v i) := by
  funext i
  unfold scatter extend
  split <;> rfl

lemma dot_fin {κ : Type} [Fintype κ] (a b : κ → ℝ) : dot (fun i => XR.fin (a i)) (fun i => .fin (b i)) = .fin (∑ i, a i * b i) := by
  unfold dot
  simp only [XR.fin_mul, XR.sum_fin]

lemma norm_fin {κ : Type} [Fintype κ] (a : κ → ℝ) : norm (fun i => XR.fin (a i)) = .fin (Real.sqrt (∑ i, a i ^ 2)) := by
  unfold norm
  rw [dot_fin]
  have : ¬ (∑ i, a i * a i) < 0 := not_lt.mpr (Finset.sum_nonneg fun i _ => mul_self_nonneg _)
  simp [XR.sqrt, this, pow_two]

/-- Loads that are all numbers. -/
def AllFin {κ : Type} (v : κ → XR) : Prop := ∀ i, XR.IsFin (v i)

lemma allFin_iff {κ : Type} (v : κ → XR) : AllFin v ↔ ∃ u : κ → ℝ, v = fun i => .fin (u i) := by
  constructor
  · intro h
    choose u hu using h
    exact ⟨u, funext hu⟩
  · rintro ⟨u, rfl⟩ i
    exact ⟨u i, rfl⟩

/-- C12: entries without a prescribed displacement keep the load of the initial guess, whatever the operator does, also in
runs that end with the warning or with infinities. -/
theorem C12_free_entries_untouched (A : (ι → XR) → ι → XR) (target : ι → XR) (maxIt : ℤ) (tol : XR) (guess : ι → XR) (i : ι)
    (hi : target i = .nan) : (solve A target maxIt tol guess).loads i = guess i := by
  have key : ∀ loads r d it, (loop A target maxIt tol loads r d it).loads i = loads i := by
    intro loads r d it
    fun_induction loop A target maxIt tol loads r d it with
    | case1 loads r d it h z alpha loads' hw => simp [loads', addOnDom, prescribed, hi]
    | case2 loads r d it h z alpha loads' rNew beta d' hw ih =>
      rw [ih]; simp [loads', addOnDom, prescribed, hi]
    | case3 => rfl
  exact key _ _ _ _

example : ∃ target : Fin 2 → XR, target 0 = .nan ∧ target 1 ≠ .nan := ⟨![.nan, .fin 1], rfl, by simp⟩

/-- The displacements returned are those of the loads returned. -/
theorem C12_displacements_of_loads (A : (ι → XR) → ι → XR) (target : ι → XR) (maxIt : ℤ) (tol : XR) (guess : ι → XR) :
    (solve A target maxIt tol guess).displacements = A (solve A target maxIt tol guess).loads := by
  have key : ∀ loads r d it, (loop A target maxIt tol loads r d it).displacements = A (loop A target maxIt tol loads r d it).loads := by
    intro loads r d it
    fun_induction loop A target maxIt tol loads r d it with
    | case1 => rfl
    | case2 loads r d it h z alpha loads' rNew beta d' hw ih => exact ih
    | case3 => rfl
  exact key _ _ _ _

/-- The residual carried by the loop belongs to the loads carried by the loop, if those are numbers. -/
def ResidualInv (L : (ι → ℝ) →ₗ[ℝ] (ι → ℝ)) (target : ι → XR) (loads : ι → XR) (r : Dom target → XR) : Prop :=
  ∀ u : ι → ℝ, (loads = fun i => .fin (u i)) → ∀ i : Dom target, r i = target i.1 - .fin (L u i.1)

lemma residualInv_step (A : (ι → XR) → ι → XR) (L : (ι → ℝ) →ₗ[ℝ] (ι → ℝ)) (hA : ActsAs A L) (target : ι → XR)
    (loads : ι → XR) (r d : Dom target → XR) (alpha : XR) (h : ResidualInv L target loads r) :
    ResidualInv L target (addOnDom target loads (fun i => alpha * d i))
      (fun i => r i - alpha * gather target (A (scatter target d)) i) := by
  classical
  intro u hu i
  have hval : ∀ j, addOnDom target loads (fun i => alpha * d i) j = .fin (u j) := fun j => congrFun hu j
  have hd : ∀ j : Dom target, XR.IsFin (loads j.1) ∧ XR.IsFin alpha ∧ XR.IsFin (d j) := by
    intro j
    have := hval j.1
    simp only [addOnDom, j.2, dif_pos] at this
    have h2 : XR.IsFin (loads j.1 + alpha * d j) := ⟨_, this⟩
    rw [XR.isFin_add, XR.isFin_mul] at h2
    exact ⟨h2.1, h2.2.1, h2.2.2⟩
  have hloads : AllFin loads := by
    intro j
    by_cases hj : prescribed target j
    · exact (hd ⟨j, hj⟩).1
    · have := hval j
      simp only [addOnDom, hj, dif_neg, not_false_eq_true] at this
      exact ⟨_, this⟩
  obtain ⟨w, hw⟩ := (allFin_iff loads).mp hloads
  obtain ⟨e, he⟩ := (allFin_iff d).mp (fun j => (hd j).2.2)
  obtain ⟨a, ha⟩ := (hd i).2.1
  have hr := h w hw i
  subst ha
  have huw : u = w + a • extend target e := by
    funext j
    have := hval j
    rw [hw, he] at this
    by_cases hj : prescribed target j
    · simp only [addOnDom, hj, dif_pos, XR.fin_mul, XR.fin_add, XR.fin_inj] at this
      simp [extend, hj, ← this]
    · simp only [addOnDom, hj, dif_neg, not_false_eq_true, XR.fin_inj] at this
      simp [extend, hj, ← this]
  have hL : L u i.1 = L w i.1 + a * L (extend target e) i.1 := by
    rw [huw, map_add, map_smul]; simp
  beta_reduce
  rw [hr, he, scatter_fin, hA, hL]
  simp only [gather]
  cases ht : target i.1 with
  | fin t => simp only [XR.fin_sub, XR.fin_mul, XR.fin_inj]; ring
  | pinf => simp [XR.sub_def, XR.add, XR.neg]
  | ninf => simp [XR.sub_def, XR.add, XR.neg]
  | nan => exact absurd ht i.2

/-- C12 (partial: only if the loads returned are numbers, see `C12_silent_nan` for what happens otherwise and
`C12_definite_operator_partial` for when they always are). A run without the warning returns loads whose displacements are within the
tolerance of the prescribed ones, in Euclidean norm and therefore at every prescribed entry; with displacements of the
returned loads meaning the linear map `L`. -/
theorem C12_within_tolerance_partial (A : (ι → XR) → ι → XR) (L : (ι → ℝ) →ₗ[ℝ] (ι → ℝ)) (hA : ActsAs A L) (target : ι → XR)
    (maxIt : ℤ) (tol : ℝ) (guess : ι → XR) (presc : ι → ℝ) (hp : ∀ i, target i ≠ .nan → target i = .fin (presc i))
    (u : ι → ℝ) (hres : (solve A target maxIt (.fin tol) guess).loads = fun i => .fin (u i))
    (hw : (solve A target maxIt (.fin tol) guess).warned = false) :
    Real.sqrt (∑ i : Dom target, (presc i.1 - L u i.1) ^ 2) < tol ∧
      ∀ i, target i ≠ .nan → |presc i - L u i| < tol := by
  have key : ∀ loads r d it, ResidualInv L target loads r →
      (loop A target maxIt (.fin tol) loads r d it).loads = (fun i => .fin (u i)) →
      (loop A target maxIt (.fin tol) loads r d it).warned = false →
      Real.sqrt (∑ i : Dom target, (presc i.1 - L u i.1) ^ 2) < tol := by
    intro loads r d it
    fun_induction loop A target maxIt (.fin tol) loads r d it with
    | case1 => intro _ _ hw; simp at hw
    | case2 loads r d it h z alpha loads' rNew beta d' hw ih =>
      intro hinv h1 h2
      exact ih (residualInv_step A L hA target loads r d alpha hinv) h1 h2
    | case3 loads r d it h =>
      intro hinv h1 _
      have hr : r = fun i => .fin (presc i.1 - L u i.1) := by
        funext i
        rw [hinv u h1 i, hp i.1 i.2, XR.fin_sub]
      rw [hr, norm_fin, XR.le_fin] at h
      exact not_le.mp h
  have hinit : ResidualInv L target guess (gather target (fun i => target i - A guess i)) := by
    intro w hw' i
    simp only [gather]
    rw [hw', hA]
  have hmain := key guess _ _ 0 hinit hres hw
  refine ⟨hmain, fun i hi => ?_⟩
  have h1 : (presc i - L u i) ^ 2 ≤ ∑ i : Dom target, (presc i.1 - L u i.1) ^ 2 :=
    Finset.single_le_sum (f := fun i : Dom target => (presc i.1 - L u i.1) ^ 2) (fun _ _ => sq_nonneg _)
      (Finset.mem_univ (⟨i, hi⟩ : Dom target))
  calc |presc i - L u i| = Real.sqrt ((presc i - L u i) ^ 2) := (Real.sqrt_sq_eq_abs _).symm
    _ ≤ _ := Real.sqrt_le_sqrt h1
    _ < tol := hmain

/-- The operator seen by the flat vectors: loads at the prescribed entries to displacements at the prescribed entries. -/
noncomputable def restricted (target : ι → XR) (L : (ι → ℝ) →ₗ[ℝ] (ι → ℝ)) (v : Dom target → ℝ) : Dom target → ℝ :=
  fun i => L (extend target v) i.1

/-- Positive definite on the prescribed entries. -/
def Definite (target : ι → XR) (L : (ι → ℝ) →ₗ[ℝ] (ι → ℝ)) : Prop :=
  ∀ v : Dom target → ℝ, v ≠ 0 → 0 < ∑ i, v i * restricted target L v i

/-- One pass of the loop on numbers: `a` is the step length. -/
lemma loop_fin (A : (ι → XR) → ι → XR) (L : (ι → ℝ) →ₗ[ℝ] (ι → ℝ)) (hA : ActsAs A L) (target : ι → XR)
    (maxIt : ℤ) (tol : ℝ) (x : ι → ℝ) (r d : Dom target → ℝ) (it : ℤ)
    (hdz : (∑ i, d i * restricted target L d i) ≠ 0) (hrr : (∑ i, r i * r i) ≠ 0)
    (hn : tol ≤ Real.sqrt (∑ i, r i ^ 2)) :
    let a := (∑ i, r i * r i) / ∑ i, d i * restricted target L d i
    let r' := fun i => r i - a * restricted target L d i
    let d' := fun i => r' i + (∑ i, r' i * r' i) / (∑ i, r i * r i) * d i
    let x' := x + a • extend target d
    loop A target maxIt (.fin tol) (fun i => .fin (x i)) (fun i => .fin (r i)) (fun i => .fin (d i)) it =
      if maxIt < it + 1 then ⟨fun i => .fin (x' i), fun i => .fin (L x' i), true⟩
      else loop A target maxIt (.fin tol) (fun i => .fin (x' i)) (fun i => .fin (r' i)) (fun i => .fin (d' i)) (it + 1) := by
  intro a r' d' x'
  have hz : gather target (A (scatter target fun i => .fin (d i))) = fun i => .fin (restricted target L d i) := by
    funext i
    rw [scatter_fin, hA]; rfl
  have ha : dot (fun i => XR.fin (r i)) (fun i => .fin (r i)) / dot (fun i => XR.fin (d i)) (fun i => .fin (restricted target L d i)) = .fin a := by
    rw [dot_fin, dot_fin, XR.fin_div _ hdz]
  have hx : addOnDom target (fun i => .fin (x i)) (fun i => XR.fin a * .fin (d i)) = fun i => .fin (x' i) := by
    classical
    funext i
    by_cases h : prescribed target i
    · simp [addOnDom, h, x', extend]
    · simp [addOnDom, h, x', extend]
  have hr : (fun i => XR.fin (r i) - XR.fin a * .fin (restricted target L d i)) = fun i => .fin (r' i) := by
    funext i; simp [r']
  have hb : dot (fun i => XR.fin (r' i)) (fun i => .fin (r' i)) / dot (fun i => XR.fin (r i)) (fun i => .fin (r i)) =
      .fin ((∑ i, r' i * r' i) / ∑ i, r i * r i) := by
    rw [dot_fin, dot_fin, XR.fin_div _ hrr]
  rw [loop, norm_fin, if_pos ((XR.le_fin _ _).mpr hn)]
  simp only [hz, ha, hx, hr, hb, hA x']
  rfl

/-- The data on which the conjugate gradient loop works is finite and the search direction is not orthogonal to the residual. -/
lemma loop_definite (A : (ι → XR) → ι → XR) (L : (ι → ℝ) →ₗ[ℝ] (ι → ℝ)) (hA : ActsAs A L) (target : ι → XR)
    (hdef : Definite target L) (maxIt : ℤ) (tol : ℝ) (ht : 0 < tol) : ∀ (n : ℕ) (x : ι → ℝ) (r d : Dom target → ℝ) (it : ℤ),
      (maxIt - it).toNat = n → (∑ i, d i * r i = ∑ i, r i * r i) →
      ∃ u : ι → ℝ, (loop A target maxIt (.fin tol) (fun i => .fin (x i)) (fun i => .fin (r i)) (fun i => .fin (d i)) it).loads =
        fun i => .fin (u i) := by
  intro n
  induction n using Nat.strong_induction_on with
  | _ n ih =>
    intro x r d it hn hdr
    by_cases hcont : tol ≤ Real.sqrt (∑ i, r i ^ 2)
    · have hrr : 0 < ∑ i, r i * r i := by
        have : 0 < Real.sqrt (∑ i, r i ^ 2) := lt_of_lt_of_le ht hcont
        rw [Real.sqrt_pos] at this
        simpa [pow_two] using this
      have hd0 : d ≠ 0 := by
        rintro rfl
        simp at hdr
        simp [← hdr] at hrr
      have hdz := hdef d hd0
      rw [loop_fin A L hA target maxIt tol x r d it hdz.ne' hrr.ne' hcont]
      split_ifs with hw
      · exact ⟨_, rfl⟩
      · refine ih _ ?_ _ _ _ (it + 1) rfl ?_
        · omega
        · set a := (∑ i, r i * r i) / ∑ i, d i * restricted target L d i with ha
          set b := (∑ i, (r i - a * restricted target L d i) * (r i - a * restricted target L d i)) / ∑ i, r i * r i
          have horth : ∑ i, d i * (r i - a * restricted target L d i) = 0 := by
            have : ∑ i, d i * (r i - a * restricted target L d i) = ∑ i, d i * r i - a * ∑ i, d i * restricted target L d i := by
              rw [Finset.mul_sum, ← Finset.sum_sub_distrib]
              exact Finset.sum_congr rfl fun i _ => by ring
            rw [this, hdr, ha, div_mul_cancel₀ _ hdz.ne', sub_self]
          have : ∑ i, (r i - a * restricted target L d i + b * d i) * (r i - a * restricted target L d i) =
              ∑ i, (r i - a * restricted target L d i) * (r i - a * restricted target L d i) +
                b * ∑ i, d i * (r i - a * restricted target L d i) := by
            rw [Finset.mul_sum, ← Finset.sum_add_distrib]
            exact Finset.sum_congr rfl fun i _ => by ring
          rw [this, horth, mul_zero, add_zero]
    · rw [loop, norm_fin, if_neg (by rw [XR.le_fin]; exact hcont)]
      exact ⟨x, rfl⟩

/-- C12 (partial: for operators that are positive definite on the prescribed entries, and positive tolerances). The loads returned are numbers, and if
the warning was not issued the displacements of these loads are within the tolerance of the prescribed displacements at
every prescribed entry. -/
theorem C12_definite_operator_partial (A : (ι → XR) → ι → XR) (L : (ι → ℝ) →ₗ[ℝ] (ι → ℝ)) (hA : ActsAs A L) (target : ι → XR)
    (hdef : Definite target L) (maxIt : ℤ) (tol : ℝ) (ht : 0 < tol) (guess : ι → ℝ) (presc : ι → ℝ)
    (hp : ∀ i, target i ≠ .nan → target i = .fin (presc i)) :
    ∃ u : ι → ℝ, (solve A target maxIt (.fin tol) (fun i => .fin (guess i))).loads = (fun i => .fin (u i)) ∧
      ((solve A target maxIt (.fin tol) (fun i => .fin (guess i))).warned = false →
        ∀ i, target i ≠ .nan → |presc i - L u i| < tol) := by
  have hr : gather target (fun i => target i - A (fun i => .fin (guess i)) i) = fun i => .fin (presc i.1 - L guess i.1) := by
    funext i
    rw [hA]
    simp only [gather]
    rw [hp i.1 i.2, XR.fin_sub]
  obtain ⟨u, hu⟩ := loop_definite A L hA target hdef maxIt tol ht _ guess (fun i => presc i.1 - L guess i.1)
    (fun i => presc i.1 - L guess i.1) 0 rfl rfl
  rw [← hr] at hu
  exact ⟨u, hu, fun hw => (C12_within_tolerance_partial A L hA target maxIt tol _ presc hp u hu hw).2⟩

/-- The hypotheses of the two theorems: one prescribed node out of two, an operator of two coupled springs. -/
noncomputable def springs : (Fin 2 → ℝ) →ₗ[ℝ] (Fin 2 → ℝ) where
  toFun v := ![2 * v 0 + v 1, v 0 + 2 * v 1]
  map_add' u v := by funext i; fin_cases i <;> simp <;> ring
  map_smul' c v := by funext i; fin_cases i <;> simp <;> ring

open Classical in
/-- An operator that acts as `L` on numbers and gives `nan` if a load is not a number. -/
noncomputable def lift (L : (ι → ℝ) →ₗ[ℝ] (ι → ℝ)) (v : ι → XR) : ι → XR :=
  if h : ∃ u : ι → ℝ, v = fun i => .fin (u i) then fun i => .fin (L h.choose i) else fun _ => .nan

lemma lift_acts (L : (ι → ℝ) →ₗ[ℝ] (ι → ℝ)) : ActsAs (lift L) L := by
  intro u
  have h : ∃ w : ι → ℝ, (fun i => XR.fin (u i)) = fun i => .fin (w i) := ⟨u, rfl⟩
  have hw : h.choose = u := by
    funext i
    have := congrFun h.choose_spec i
    simpa using this.symm
  unfold lift
  rw [dif_pos h, hw]

/-- The hypotheses of `C12_within_tolerance_partial` hold. -/
example : ActsAs (lift springs) springs ∧ Definite ![.nan, .fin 1] springs ∧
    (∀ i, (![.nan, .fin 1] : Fin 2 → XR) i ≠ .nan → (![.nan, .fin 1] : Fin 2 → XR) i = .fin ((fun _ => 1 : Fin 2 → ℝ) i)) := by
  refine ⟨lift_acts _, ?_, ?_⟩
  · intro v hv
    have h1 : prescribed (![.nan, .fin 1] : Fin 2 → XR) 1 := by simp [prescribed]
    have huniv : (Finset.univ : Finset (Dom (![.nan, .fin 1] : Fin 2 → XR))) = {⟨1, h1⟩} := by
      ext ⟨i, hi⟩
      have : i = 1 := by
        fin_cases i
        · exact absurd rfl hi
        · rfl
      simp [this]
    have hv1 : v ⟨1, h1⟩ ≠ 0 := by
      intro h0
      apply hv
      funext ⟨i, hi⟩
      have : i = 1 := by
        fin_cases i
        · exact absurd rfl hi
        · rfl
      subst this
      exact h0
    rw [huniv, Finset.sum_singleton]
    have : restricted (![.nan, .fin 1] : Fin 2 → XR) springs v ⟨1, h1⟩ = 2 * v ⟨1, h1⟩ := by
      simp [restricted, springs, extend, prescribed]
    rw [this]
    nlinarith [mul_self_pos.mpr hv1]
  · intro i hi
    fin_cases i
    · exact absurd rfl hi
    · rfl

/-- C12, negation in full: with an operator that gives no displacement in the searched direction the division of l.185 gives
an infinity, the residual becomes `nan`, and the loop ends without the warning and with loads that are no numbers. Stated
for every prescribed displacement different from zero by at least the tolerance, one node and every iteration limit ≥ 1. -/
theorem C12_silent_nan (t tol : ℝ) (htol : 0 < tol) (ht : tol ≤ |t|) (maxIt : ℤ) (hm : 1 ≤ maxIt) :
    let res := solve (ι := Unit) (fun _ _ => .fin 0) (fun _ => .fin t) maxIt (.fin tol) (fun _ => .fin 0)
    res.warned = false ∧ ¬ XR.IsFin (res.loads ()) := by
  intro res
  have ht0 : t ≠ 0 := by rintro rfl; simp at ht; linarith
  have hpr : prescribed (fun _ : Unit => XR.fin t) () := by simp [prescribed]
  have huniv : (Finset.univ : Finset (Dom (fun _ : Unit => XR.fin t))) = {⟨(), hpr⟩} := by
    ext ⟨i, hi⟩; simp
  have hsum : ∀ g : Dom (fun _ : Unit => XR.fin t) → XR, ∑ i, g i = g ⟨(), hpr⟩ := by
    intro g; rw [huniv, Finset.sum_singleton]
  have hr : gather (fun _ : Unit => XR.fin t) (fun _ => XR.fin t - XR.fin 0) = fun _ => .fin t := by
    funext i; simp [gather]
  have h1 : res = loop (fun _ _ => .fin 0) (fun _ => .fin t) maxIt (.fin tol) (fun _ => .fin 0) (fun _ => .fin t) (fun _ => .fin t) 0 := by
    simp only [res, solve, hr]
  have hn : norm (fun _ : Dom (fun _ : Unit => XR.fin t) => XR.fin t) = .fin |t| := by
    rw [norm, dot, hsum]
    have : ¬ t * t < 0 := not_lt.mpr (mul_self_nonneg t)
    simp [XR.sqrt, this, Real.sqrt_mul_self_eq_abs]
  have hinf : ∀ x : ℝ, x ≠ 0 → ¬ XR.IsFin (XR.signInf x) := fun x _ => XR.not_isFin_signInf x
  have halpha : dot (fun _ : Dom (fun _ : Unit => XR.fin t) => XR.fin t) (fun _ => .fin t) /
      dot (fun _ : Dom (fun _ : Unit => XR.fin t) => XR.fin t) (gather (fun _ : Unit => XR.fin t) (fun _ => .fin 0)) = .pinf := by
    rw [dot, dot, hsum, hsum]
    have : 0 < t * t := mul_self_pos.mpr ht0
    simp [gather, XR.div_def, XR.div, XR.signInf, this]
  have hnew : (fun i : Dom (fun _ : Unit => XR.fin t) => XR.fin t - XR.pinf * gather (fun _ : Unit => XR.fin t) (fun _ => .fin 0) i) =
      fun _ => .nan := by
    funext i
    simp [gather, XR.mul_def, XR.mul, XR.signInf, XR.sub_def, XR.add, XR.neg]
  rw [h1, loop, hn, if_pos ((XR.le_fin _ _).mpr ht)]
  simp only [halpha, hnew]
  rw [if_neg (by omega), loop, if_neg]
  · refine ⟨rfl, ?_⟩
    simp only [addOnDom, hpr, dif_pos]
    rw [XR.isFin_add, XR.isFin_mul]
    rintro ⟨_, ⟨x, hx⟩, _⟩
    simp at hx
  · rw [norm, dot, hsum]
    simp [XR.sqrt, XR.le]

example : (0 : ℝ) < 1 / 100 ∧ (1 / 100 : ℝ) ≤ |1| ∧ (1 : ℤ) ≤ 100 := by norm_num

end Verif.Cg
