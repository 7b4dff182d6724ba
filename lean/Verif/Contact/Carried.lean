import Verif.Contact.Load
import Mathlib.Algebra.Module.LinearMap.Basic
import Mathlib.LinearAlgebra.Pi

/-!
# Which loads a contact carries
-/

namespace Verif.Contact

open Finset

variable {ι : Type} [Fintype ι]

/-- Two heights with the same load have the same pressures. -/
theorem same_load {T : ι → Prop} {L : (ι → ℝ) →ₗ[ℝ] (ι → ℝ)} (hL : Definite L) {gap : ι → ℝ} {M : ι → Option ℝ} {h h' : ℝ} {u u' : ι → ℝ} (hu : Solution T L (fun i => h - gap i) M u)
    (hu' : Solution T L (fun i => h' - gap i) M u') (he : ∑ i, u i = ∑ i, u' i) : u' = u := by
  by_contra hne
  have h1 := load_work hu hu'
  have h2 := hL (u' - u) (sub_ne_zero.2 hne)
  simp only [Pi.sub_apply] at h2
  rw [he, sub_self, mul_zero] at h1
  linarith

/-- Displacements are bounded by a multiple of the load. -/
theorem displacement_le (L : (ι → ℝ) →ₗ[ℝ] (ι → ℝ)) : ∃ C, 0 ≤ C ∧ ∀ u : ι → ℝ, (∀ i, 0 ≤ u i) → ∀ i, L u i ≤ C * ∑ j, u j := by
  classical
  refine ⟨∑ j, ∑ i, |L (Pi.single j 1) i|, sum_nonneg fun j _ => sum_nonneg fun i _ => abs_nonneg _, fun u hu i => ?_⟩
  have e : L u i = ∑ j, u j * L (Pi.single j 1) i := by
    have := congrFun (LinearMap.pi_apply_eq_sum_univ L u) i
    rw [this, Finset.sum_apply]
    refine sum_congr rfl fun j _ => ?_
    rw [Pi.smul_apply, smul_eq_mul]
    have : (fun k => if j = k then (1 : ℝ) else 0) = Pi.single j 1 := by
      funext k
      simp [Pi.single_apply, eq_comm]
    rw [this]
  rw [e, mul_sum]
  refine sum_le_sum fun j _ => ?_
  rw [mul_comm]
  refine mul_le_mul_of_nonneg_right ?_ (hu j)
  refine (le_abs_self _).trans ((single_le_sum (f := fun i => |L (Pi.single j 1) i|) (fun i _ => abs_nonneg _) (mem_univ i)).trans ?_)
  exact single_le_sum (f := fun j => ∑ i, |L (Pi.single j 1) i|) (fun j _ => sum_nonneg fun i _ => abs_nonneg _) (mem_univ j)

/-- Without overlap at any node there is no load. -/
theorem no_load {L : (ι → ℝ) →ₗ[ℝ] (ι → ℝ)} {b : ι → ℝ} {M : ι → Option ℝ} (hM : ∀ i m, M i = some m → 0 ≤ m) (hb : ∀ i, b i ≤ 0) : Solution (fun _ => True) L b M 0 := by
  refine ⟨fun i hi => absurd trivial hi, fun i _ => le_rfl, fun i _ m hm => hM i m hm, fun i _ _ => rfl, fun i _ hlt => ?_⟩
  rw [map_zero, Pi.zero_apply] at hlt
  have := hb i
  linarith

/-- A contact without limit carries every load. -/
theorem load_unbounded [Nonempty ι] {L : (ι → ℝ) →ₗ[ℝ] (ι → ℝ)} (gap : ι → ℝ) (l : ℝ) : ∃ h, ∀ u, Solution (fun _ => True) L (fun i => h - gap i) (fun _ => none) u → l ≤ ∑ i, u i := by
  obtain ⟨C, hC, hb⟩ := displacement_le L
  obtain ⟨i⟩ := ‹Nonempty ι›
  refine ⟨gap i + C * |l| + 1, fun u hu => ?_⟩
  by_contra hc
  push Not at hc
  have h1 := hb u (fun j => hu.nonneg j trivial) i
  have h2 : L u i < gap i + C * |l| + 1 - gap i := by
    have : C * ∑ j, u j ≤ C * |l| := mul_le_mul_of_nonneg_left (hc.le.trans (le_abs_self l)) hC
    linarith
  have := hu.overlap i trivial h2
  cases this

/-- The loads that are carried. -/
theorem load_carried [Nonempty ι] {L : (ι → ℝ) →ₗ[ℝ] (ι → ℝ)} (hL : Definite L) (gap : ι → ℝ) {M : Option ℝ} (hM : ∀ m, M = some m → 0 ≤ m) (l : ℝ) :
    (∃ h u, Solution (fun _ => True) L (fun i => h - gap i) (fun _ => M) u ∧ ∑ i, u i = l) ↔ 0 ≤ l ∧ ∀ m, M = some m → l ≤ Fintype.card ι * m := by
  constructor
  · rintro ⟨h, u, hu, rfl⟩
    refine ⟨sum_nonneg fun i _ => hu.nonneg i trivial, fun m hm => ?_⟩
    refine (sum_le_sum fun i _ => hu.limit i trivial m hm).trans (le_of_eq ?_)
    rw [sum_const, card_univ, nsmul_eq_mul]
  · rintro ⟨h0, hm⟩
    have low : ∀ h, (∀ i, h ≤ gap i) → Solution (fun _ => True) L (fun i => h - gap i) (fun _ => M) 0 := fun h hh => no_load (fun _ m hm => hM m hm) fun i => sub_nonpos.2 (hh i)
    obtain ⟨k0, hk0⟩ : ∃ k : ℝ, ∀ i, k ≤ gap i := by
      obtain ⟨i, hi⟩ := Finite.exists_min gap
      exact ⟨gap i, hi⟩
    obtain ⟨h', u', hu', hl'⟩ : ∃ h' u', Solution (fun _ => True) L (fun i => h' - gap i) (fun _ => M) u' ∧ l ≤ ∑ i, u' i := by
      cases hM' : M with
      | none =>
        obtain ⟨h, hh⟩ := load_unbounded (L := L) gap l
        obtain ⟨u, hu⟩ := exists_solution (fun _ => True) hL (fun i => h - gap i) (M := fun _ => none) (fun _ m hm => by cases hm)
        exact ⟨h, u, hu, hh u hu⟩
      | some m =>
        obtain ⟨i, hi⟩ := Finite.exists_max fun i => L (fun _ => m) i + gap i
        refine ⟨L (fun _ => m) i + gap i, fun _ => m, ⟨fun j hj => absurd trivial hj, fun j _ => hM m hM', fun j _ m' hm' => ?_, fun j _ hlt => ?_, fun j _ _ => rfl⟩, ?_⟩
        · cases hm'; exact le_rfl
        · have := hi j
          linarith
        · rw [sum_const, card_univ, nsmul_eq_mul]
          exact hm m hM'
    rcases le_total k0 h' with hk | hk
    · obtain ⟨k, v, -, -, hv, hs⟩ := load_reached hL (fun _ m hm => hM m hm) (low k0 hk0) hu' hk (l := l) (by simpa using h0) hl'
      exact ⟨k, v, hv, hs⟩
    · have : u' = 0 := unique hL (low h' fun i => hk.trans (hk0 i)) hu'
      subst this
      refine ⟨h', 0, hu', ?_⟩
      simp only [Pi.zero_apply, sum_const_zero] at hl' ⊢
      linarith

end Verif.Contact
