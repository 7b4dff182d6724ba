import Mathlib.LinearAlgebra.Dimension.Constructions
import Mathlib.LinearAlgebra.FiniteDimensional.Lemmas
import Mathlib.Data.Matrix.Mul
import Verif.Cg.Props

/-!
# Property C61: the inverse solver needs at most as many iterations as there are prescribed entries
-/

namespace Verif.Cg

open Verif Submodule
open scoped Matrix

variable {ι : Type} [Fintype ι]

/-- The restricted operator as a linear map. -/
noncomputable def restrictedMap (target : ι → XR) (L : (ι → ℝ) →ₗ[ℝ] (ι → ℝ)) : (Dom target → ℝ) →ₗ[ℝ] (Dom target → ℝ) where
  toFun := restricted target L
  map_add' u v := by
    have : extend target (u + v) = extend target u + extend target v := by
      classical
      funext i; by_cases h : prescribed target i <;> simp [extend, h]
    funext i
    simp [restricted, this]
  map_smul' c v := by
    have : extend target (c • v) = c • extend target v := by
      classical
      funext i; by_cases h : prescribed target i <;> simp [extend, h]
    funext i
    simp [restricted, this]

/-- The restricted operator is symmetric. -/
def Symmetric (target : ι → XR) (L : (ι → ℝ) →ₗ[ℝ] (ι → ℝ)) : Prop :=
  ∀ u v : Dom target → ℝ, ∑ i, u i * restricted target L v i = ∑ i, v i * restricted target L u i

/-- What the conjugate gradient method keeps about the space `K` spanned by the earlier residuals. -/
structure Krylov {D : Type} [Fintype D] (M : (D → ℝ) →ₗ[ℝ] (D → ℝ)) (r d : D → ℝ) (K : Submodule ℝ (D → ℝ)) : Prop where
  orth : ∀ v ∈ K, r ⬝ᵥ v = 0
  conj : ∀ v ∈ K, v ⬝ᵥ M d = 0
  dir : d - r ∈ K
  next : ∀ v ∈ K, M v ∈ K ⊔ span ℝ {r}

lemma Krylov.dr {D : Type} [Fintype D] {M : (D → ℝ) →ₗ[ℝ] (D → ℝ)} {r d : D → ℝ} {K : Submodule ℝ (D → ℝ)}
    (h : Krylov M r d K) : r ⬝ᵥ d = r ⬝ᵥ r := by
  have := h.orth _ h.dir
  rw [dotProduct_sub] at this
  linarith

lemma Krylov.step {D : Type} [Fintype D] {M : (D → ℝ) →ₗ[ℝ] (D → ℝ)} (hs : ∀ u v, u ⬝ᵥ M v = v ⬝ᵥ M u) {r d : D → ℝ}
    {K : Submodule ℝ (D → ℝ)} (h : Krylov M r d K) (hrr : r ⬝ᵥ r ≠ 0) (hd : d ⬝ᵥ M d ≠ 0) :
    let a := r ⬝ᵥ r / (d ⬝ᵥ M d)
    let r' := r - a • M d
    Krylov M r' (r' + (r' ⬝ᵥ r' / (r ⬝ᵥ r)) • d) (K ⊔ span ℝ {r}) := by
  intro a r'
  have ha : a ≠ 0 := div_ne_zero hrr hd
  have hKd : d ∈ K ⊔ span ℝ {r} := by
    have : d = (d - r) + r := by abel
    rw [this]
    exact add_mem (mem_sup_left h.dir) (mem_sup_right (mem_span_singleton_self r))
  -- the new residual is orthogonal to the old space and to the old residual
  have o1 : ∀ v ∈ K, r' ⬝ᵥ v = 0 := by
    intro v hv
    rw [sub_dotProduct, smul_dotProduct, h.orth v hv, dotProduct_comm (M d) v, h.conj v hv]
    simp
  have o2 : r' ⬝ᵥ d = 0 := by
    rw [sub_dotProduct, smul_dotProduct, h.dr, dotProduct_comm (M d) d]
    simp only [a, smul_eq_mul]
    rw [div_mul_cancel₀ _ hd, sub_self]
  have o3 : r' ⬝ᵥ r = 0 := by
    have := o1 _ h.dir
    rw [dotProduct_sub, o2] at this
    linarith
  have orth : ∀ v ∈ K ⊔ span ℝ {r}, r' ⬝ᵥ v = 0 := by
    intro v hv
    obtain ⟨x, hx, y, hy, rfl⟩ := mem_sup.mp hv
    obtain ⟨c, rfl⟩ := mem_span_singleton.mp hy
    rw [dotProduct_add, o1 x hx, dotProduct_smul, o3]; simp
  have hMd : M d = a⁻¹ • (r - r') := by
    simp only [r', sub_sub_cancel, smul_smul, inv_mul_cancel₀ ha, one_smul]
  refine ⟨orth, ?_, ?_, ?_⟩
  · -- conjugacy
    have c1 : ∀ v ∈ K, v ⬝ᵥ M (r' + (r' ⬝ᵥ r' / (r ⬝ᵥ r)) • d) = 0 := by
      intro v hv
      rw [map_add, map_smul, dotProduct_add, dotProduct_smul, h.conj v hv, hs v r', orth _ (h.next v hv)]
      simp
    have c2 : d ⬝ᵥ M (r' + (r' ⬝ᵥ r' / (r ⬝ᵥ r)) • d) = 0 := by
      rw [map_add, map_smul, dotProduct_add, dotProduct_smul, hs d r']
      have e : r' ⬝ᵥ M d = -(a⁻¹ * (r' ⬝ᵥ r')) := by
        rw [hMd, dotProduct_smul, dotProduct_sub, o3]; simp
      rw [e]
      simp only [a, smul_eq_mul]
      field_simp
      ring
    intro v hv
    obtain ⟨x, hx, y, hy, rfl⟩ := mem_sup.mp hv
    obtain ⟨c, rfl⟩ := mem_span_singleton.mp hy
    have hr : r = d - (d - r) := by abel
    have c3 : r ⬝ᵥ M (r' + (r' ⬝ᵥ r' / (r ⬝ᵥ r)) • d) = 0 := by
      conv_lhs => rw [show r ⬝ᵥ M (r' + (r' ⬝ᵥ r' / (r ⬝ᵥ r)) • d) =
        (d - (d - r)) ⬝ᵥ M (r' + (r' ⬝ᵥ r' / (r ⬝ᵥ r)) • d) from by rw [← hr]]
      rw [sub_dotProduct, c2, c1 _ h.dir, sub_zero]
    rw [add_dotProduct, c1 x hx, smul_dotProduct, c3]; simp
  · have : r' + (r' ⬝ᵥ r' / (r ⬝ᵥ r)) • d - r' = (r' ⬝ᵥ r' / (r ⬝ᵥ r)) • d := by abel
    rw [this]
    exact smul_mem _ _ hKd
  · intro v hv
    obtain ⟨x, hx, y, hy, rfl⟩ := mem_sup.mp hv
    obtain ⟨c, rfl⟩ := mem_span_singleton.mp hy
    have hr : c • r = c • d - c • (d - r) := by rw [← smul_sub]; congr 1; abel
    rw [hr, map_add, map_sub, map_smul, map_smul]
    have m1 : M d ∈ K ⊔ span ℝ {r} ⊔ span ℝ {r'} := by
      rw [hMd]
      exact smul_mem _ _ (sub_mem (mem_sup_left (mem_sup_right (mem_span_singleton_self r)))
        (mem_sup_right (mem_span_singleton_self r')))
    exact add_mem (mem_sup_left (h.next x hx)) (sub_mem (smul_mem _ _ m1) (smul_mem _ _ (mem_sup_left (h.next _ h.dir))))

lemma finrank_grow {D : Type} [Fintype D] {r : D → ℝ} {K : Submodule ℝ (D → ℝ)} (h : ∀ v ∈ K, r ⬝ᵥ v = 0) (hr : r ⬝ᵥ r ≠ 0) :
    Module.finrank ℝ K + 1 ≤ Module.finrank ℝ (K ⊔ span ℝ {r} : Submodule ℝ (D → ℝ)) := by
  have hlt : K < K ⊔ span ℝ {r} := by
    refine lt_of_le_of_ne le_sup_left fun heq => hr (h r ?_)
    rw [heq]
    exact mem_sup_right (mem_span_singleton_self r)
  exact Nat.succ_le_of_lt (finrank_lt_finrank_of_lt hlt)

lemma loop_never_warns (A : (ι → XR) → ι → XR) (L : (ι → ℝ) →ₗ[ℝ] (ι → ℝ)) (hA : ActsAs A L) (target : ι → XR)
    (hdef : Definite target L) (hsym : Symmetric target L) (maxIt : ℤ) (hm : (Fintype.card (Dom target) : ℤ) ≤ maxIt)
    (tol : ℝ) (ht : 0 < tol) : ∀ (n : ℕ) (x : ι → ℝ) (r d : Dom target → ℝ) (it : ℤ) (K : Submodule ℝ (Dom target → ℝ)),
      (maxIt - it).toNat = n → Krylov (restrictedMap target L) r d K → it ≤ Module.finrank ℝ K →
      (loop A target maxIt (.fin tol) (fun i => .fin (x i)) (fun i => .fin (r i)) (fun i => .fin (d i)) it).warned = false := by
  intro n
  induction n using Nat.strong_induction_on with
  | _ n ih =>
    intro x r d it K hn hK hit
    by_cases hcont : tol ≤ Real.sqrt (∑ i, r i ^ 2)
    · have hrr : 0 < r ⬝ᵥ r := by
        have : 0 < Real.sqrt (∑ i, r i ^ 2) := lt_of_lt_of_le ht hcont
        rw [Real.sqrt_pos] at this
        simpa [pow_two, dotProduct] using this
      have hd0 : d ≠ 0 := by
        rintro rfl
        have := hK.dr
        simp only [dotProduct_zero] at this
        exact hrr.ne this
      have hdz := hdef d hd0
      have hgrow := finrank_grow hK.orth hrr.ne'
      have hle : Module.finrank ℝ (K ⊔ span ℝ {r} : Submodule ℝ (Dom target → ℝ)) ≤ Fintype.card (Dom target) := by
        have := (K ⊔ span ℝ {r}).finrank_le
        rwa [Module.finrank_fintype_fun_eq_card] at this
      rw [loop_fin A L hA target maxIt tol x r d it hdz.ne' hrr.ne' hcont]
      rw [if_neg (by omega)]
      have hsym' : ∀ u v, u ⬝ᵥ restrictedMap target L v = v ⬝ᵥ restrictedMap target L u := hsym
      have hdz' : d ⬝ᵥ restrictedMap target L d ≠ 0 := hdz.ne'
      have hstep := hK.step hsym' hrr.ne' hdz'
      refine ih _ ?_ _ _ _ (it + 1) (K ⊔ span ℝ {r}) rfl hstep ?_
      · omega
      · omega
    · rw [loop, norm_fin, if_neg (by rw [XR.le_fin]; exact hcont)]

/-- C61: for an operator that is symmetric and positive definite on the prescribed entries, an iteration limit of at least
the number of prescribed entries is never exceeded (in exact arithmetic): the warning is not issued, and the loads returned
reproduce every prescribed displacement within the tolerance. -/
theorem C61_converges_within_number_of_entries (A : (ι → XR) → ι → XR) (L : (ι → ℝ) →ₗ[ℝ] (ι → ℝ)) (hA : ActsAs A L)
    (target : ι → XR) (hdef : Definite target L) (hsym : Symmetric target L) (maxIt : ℤ)
    (hm : (Fintype.card (Dom target) : ℤ) ≤ maxIt) (tol : ℝ) (ht : 0 < tol) (guess presc : ι → ℝ)
    (hp : ∀ i, target i ≠ .nan → target i = .fin (presc i)) :
    (solve A target maxIt (.fin tol) (fun i => .fin (guess i))).warned = false ∧
      ∃ u : ι → ℝ, (solve A target maxIt (.fin tol) (fun i => .fin (guess i))).loads = (fun i => .fin (u i)) ∧
        ∀ i, target i ≠ .nan → |presc i - L u i| < tol := by
  have hr : gather target (fun i => target i - A (fun i => .fin (guess i)) i) = fun i => .fin (presc i.1 - L guess i.1) := by
    funext i
    rw [hA]
    simp only [gather]
    rw [hp i.1 i.2, XR.fin_sub]
  have hw : (solve A target maxIt (.fin tol) (fun i => .fin (guess i))).warned = false := by
    have := loop_never_warns A L hA target hdef hsym maxIt hm tol ht _ guess (fun i => presc i.1 - L guess i.1)
      (fun i => presc i.1 - L guess i.1) 0 ⊥ rfl
      ⟨fun v hv => by simp [(mem_bot ℝ).mp hv], fun v hv => by simp [(mem_bot ℝ).mp hv], by simp,
        fun v hv => by simp [(mem_bot ℝ).mp hv]⟩ (by simp)
    rw [← hr] at this
    exact this
  obtain ⟨u, hu, h⟩ := C12_definite_operator_partial A L hA target hdef maxIt tol ht guess presc hp
  exact ⟨hw, u, hu, h hw⟩

/-- The hypotheses on the operator hold for two coupled springs with both displacements prescribed. -/
example : Definite (fun _ : Fin 2 => XR.fin 1) springs ∧ Symmetric (fun _ : Fin 2 => XR.fin 1) springs ∧
    (Fintype.card (Dom (fun _ : Fin 2 => XR.fin 1)) : ℤ) ≤ 2 := by
  have hp : ∀ i, prescribed (fun _ : Fin 2 => XR.fin 1) i := by intro i; simp [prescribed]
  let e : Dom (fun _ : Fin 2 => XR.fin 1) ≃ Fin 2 := ⟨Subtype.val, fun i => ⟨i, hp i⟩, fun _ => rfl, fun _ => rfl⟩
  have hsum : ∀ g : Dom (fun _ : Fin 2 => XR.fin 1) → ℝ, ∑ i, g i = g (e.symm 0) + g (e.symm 1) := by
    intro g
    rw [← e.symm.sum_comp, Fin.sum_univ_two]
  have hres : ∀ v i, restricted (fun _ : Fin 2 => XR.fin 1) springs v (e.symm i) =
      springs (fun j => v (e.symm j)) i := by
    intro v i
    have : extend (fun _ : Fin 2 => XR.fin 1) v = fun j => v (e.symm j) := by
      funext j; simp [extend, hp]; rfl
    simp [restricted, this]; rfl
  refine ⟨?_, ?_, ?_⟩
  · intro v hv
    rw [hsum, hres, hres]
    have : v (e.symm 0) ≠ 0 ∨ v (e.symm 1) ≠ 0 := by
      by_contra hc
      push Not at hc
      apply hv
      funext i
      have : i = e.symm (e i) := (e.symm_apply_apply i).symm
      rw [this]
      have : e i = 0 ∨ e i = 1 := by omega
      rcases this with h | h <;> rw [h] <;> simp [hc]
    simp only [springs, LinearMap.coe_mk, AddHom.coe_mk, Matrix.cons_val_zero, Matrix.cons_val_one]
    rcases this with h | h
    · nlinarith [mul_self_pos.mpr h, sq_nonneg (v (e.symm 0) + v (e.symm 1)), mul_self_nonneg (v (e.symm 1))]
    · nlinarith [mul_self_pos.mpr h, sq_nonneg (v (e.symm 0) + v (e.symm 1)), mul_self_nonneg (v (e.symm 0))]
  · intro u v
    rw [hsum, hsum, hres, hres, hres, hres]
    simp [springs]
    ring
  · rw [Fintype.card_congr e]; simp

end Verif.Cg
