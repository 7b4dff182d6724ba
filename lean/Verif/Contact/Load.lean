import Verif.Contact.Lemmas
import Mathlib.Algebra.Order.Chebyshev
import Mathlib.Topology.Order.IntermediateValue

/-!
# The load of the contact problem as a function of the height
-/

namespace Verif.Contact

open Finset

variable {ι : Type} [Fintype ι]

/-- Pressure never lifts a surface. -/
def Settles (L : (ι → ℝ) →ₗ[ℝ] (ι → ℝ)) : Prop := ∀ w : ι → ℝ, (∀ i, 0 ≤ w i) → ∀ i, 0 ≤ L w i

/-- Nodes without overlap can be left out. -/
theorem extend_solution {L : (ι → ℝ) →ₗ[ℝ] (ι → ℝ)} (hL : Settles L) {b : ι → ℝ} {M : ι → Option ℝ} (hM : ∀ i m, M i = some m → 0 ≤ m) {u : ι → ℝ} (h : Solution (fun i => 0 < b i) L b M u) :
    Solution (fun _ => True) L b M u := by
  have hn : ∀ i, 0 ≤ u i := fun i => by
    by_cases hT : 0 < b i
    · exact h.nonneg i hT
    · exact (h.outside i hT).ge
  refine ⟨fun i hi => absurd trivial hi, fun i _ => hn i, fun i _ m hm => ?_, fun i _ hg => ?_, fun i _ hg => ?_⟩
  · by_cases hT : 0 < b i
    · exact h.limit i hT m hm
    · rw [h.outside i hT]; exact hM i m hm
  · by_cases hT : 0 < b i
    · exact h.gap i hT hg
    · exact h.outside i hT
  · by_cases hT : 0 < b i
    · exact h.overlap i hT hg
    · have := hL u hn i
      linarith

/-- The difference of the loads at two heights. -/
theorem load_work {T : ι → Prop} {L : (ι → ℝ) →ₗ[ℝ] (ι → ℝ)} {gap : ι → ℝ} {M : ι → Option ℝ} {h h' : ℝ} {u u' : ι → ℝ} (hu : Solution T L (fun i => h - gap i) M u)
    (hu' : Solution T L (fun i => h' - gap i) M u') : ∑ i, (u' i - u i) * L (u' - u) i ≤ (h' - h) * (∑ i, u' i - ∑ i, u i) := by
  refine (work_le hu hu').trans (le_of_eq ?_)
  rw [← sum_sub_distrib, mul_sum]
  exact sum_congr rfl fun i _ => by ring

theorem load_mono {T : ι → Prop} {L : (ι → ℝ) →ₗ[ℝ] (ι → ℝ)} (hL : Definite L) {gap : ι → ℝ} {M : ι → Option ℝ} {h h' : ℝ} {u u' : ι → ℝ} (hu : Solution T L (fun i => h - gap i) M u)
    (hu' : Solution T L (fun i => h' - gap i) M u') (hh : h ≤ h') : ∑ i, u i ≤ ∑ i, u' i := by
  by_cases he : u' = u
  · rw [he]
  · have h1 := load_work hu hu'
    have h2 := hL (u' - u) (sub_ne_zero.2 he)
    simp only [Pi.sub_apply] at h2
    by_contra hc
    push Not at hc
    nlinarith

theorem load_strict {T : ι → Prop} {L : (ι → ℝ) →ₗ[ℝ] (ι → ℝ)} (hL : Definite L) {gap : ι → ℝ} {M : ι → Option ℝ} {h h' : ℝ} {u u' : ι → ℝ} (hu : Solution T L (fun i => h - gap i) M u)
    (hu' : Solution T L (fun i => h' - gap i) M u') (hh : h < h') {i : ι} (hi : T i) (hpos : 0 < u i) (hlim : M i ≠ some (u i)) : ∑ i, u i < ∑ i, u' i := by
  by_cases he : u' = u
  · exfalso
    subst he
    have e : L u' i = h - gap i := by
      rcases lt_trichotomy (h - gap i) (L u' i) with hg | hg | hg
      · rw [hu.gap i hi hg] at hpos; exact absurd hpos (lt_irrefl _)
      · exact hg.symm
      · exact absurd (hu.overlap i hi hg) hlim
    exact hlim (hu'.overlap i hi (by rw [e]; linarith))
  · have h1 := load_work hu hu'
    have h2 := hL (u' - u) (sub_ne_zero.2 he)
    simp only [Pi.sub_apply] at h2
    by_contra hc
    push Not at hc
    nlinarith

theorem load_lipschitz {T : ι → Prop} {L : (ι → ℝ) →ₗ[ℝ] (ι → ℝ)} {c : ℝ} (hc : 0 < c) (hL : ∀ w : ι → ℝ, c * ∑ i, w i ^ 2 ≤ ∑ i, w i * L w i) {gap : ι → ℝ} {M : ι → Option ℝ} {h h' : ℝ} {u u' : ι → ℝ}
    (hu : Solution T L (fun i => h - gap i) M u) (hu' : Solution T L (fun i => h' - gap i) M u') (hh : h ≤ h') : ∑ i, u' i - ∑ i, u i ≤ Fintype.card ι / c * (h' - h) := by
  have h1 := (hL (u' - u)).trans (load_work hu hu')
  have h2 := sq_sum_le_card_mul_sum_sq (s := univ) (f := u' - u)
  have h3 : ∑ i, (u' - u) i = ∑ i, u' i - ∑ i, u i := by simp [sum_sub_distrib]
  rw [h3] at h2
  have hn : (0 : ℝ) ≤ Fintype.card ι := Nat.cast_nonneg _
  rw [card_univ] at h2
  set d := ∑ i, u' i - ∑ i, u i
  set S := ∑ i, (u' - u) i ^ 2
  by_contra hcon
  push Not at hcon
  have hd : 0 < d := lt_of_le_of_lt (by have := sub_nonneg.2 hh; positivity) hcon
  have h4 : Fintype.card ι * (h' - h) < c * d := by
    have := mul_lt_mul_of_pos_left hcon hc
    rw [← mul_assoc, mul_div_cancel₀ _ hc.ne'] at this
    exact this
  have h5 : c * d ^ 2 ≤ Fintype.card ι * ((h' - h) * d) := by
    calc c * d ^ 2 ≤ c * (Fintype.card ι * S) := mul_le_mul_of_nonneg_left h2 hc.le
      _ = Fintype.card ι * (c * S) := by ring
      _ ≤ Fintype.card ι * ((h' - h) * d) := mul_le_mul_of_nonneg_left h1 hn
  nlinarith [mul_lt_mul_of_pos_right h4 hd]

/-- Between two heights every load between those of the two is reached. -/
theorem load_reached {L : (ι → ℝ) →ₗ[ℝ] (ι → ℝ)} (hL : Definite L) {gap : ι → ℝ} {M : ι → Option ℝ} (hM : ∀ i m, M i = some m → 0 ≤ m) {h h' : ℝ} {u u' : ι → ℝ}
    (hu : Solution (fun _ => True) L (fun i => h - gap i) M u) (hu' : Solution (fun _ => True) L (fun i => h' - gap i) M u') (hh : h ≤ h') {l : ℝ} (h1 : ∑ i, u i ≤ l) (h2 : l ≤ ∑ i, u' i) :
    ∃ k v, h ≤ k ∧ k ≤ h' ∧ Solution (fun _ => True) L (fun i => k - gap i) M v ∧ ∑ i, v i = l := by
  choose v hv using fun k : ℝ => exists_solution (fun _ => True) hL (fun i => k - gap i) hM
  obtain ⟨c, hc, hb⟩ := hL.bound
  have hcont : Continuous fun k => ∑ i, v k i := by
    refine (LipschitzWith.of_dist_le_mul (K := ⟨Fintype.card ι / c, by positivity⟩) fun x y => ?_).continuous
    show |_ - _| ≤ Fintype.card ι / c * |x - y|
    rcases le_total x y with hxy | hxy
    · have a1 := load_lipschitz hc hb (hv x) (hv y) hxy
      have a2 := load_mono hL (hv x) (hv y) hxy
      rw [abs_of_nonpos (by linarith), abs_of_nonpos (by linarith)]
      linarith
    · have a1 := load_lipschitz hc hb (hv y) (hv x) hxy
      have a2 := load_mono hL (hv y) (hv x) hxy
      rw [abs_of_nonneg (by linarith), abs_of_nonneg (by linarith)]
      linarith
  have e1 : v h = u := unique hL hu (hv h)
  have e2 : v h' = u' := unique hL hu' (hv h')
  obtain ⟨k, ⟨k1, k2⟩, hk⟩ := intermediate_value_Icc hh hcont.continuousOn (show l ∈ Set.Icc (∑ i, v h i) (∑ i, v h' i) by rw [e1, e2]; exact ⟨h1, h2⟩)
  exact ⟨k, v k, k1, k2, hv k, hk⟩

end Verif.Contact
