import Verif.Definite.Tooth
import Verif.Definite.Props

/-!
# Lemmas for C154: each bracket of the coefficients on its own
-/

namespace Verif.Definite

open Real MeasureTheory Set Filter

theorem termY_tooth (x y : ℤ) : InfMat.termY x y = 2 / √π * ∫ u in Ioi (0 : ℝ), bell (InfMat.lo x) (InfMat.hi x) u * tooth y u := by
  have hm := Bouss.hi_ne y
  have hn := Bouss.lo_ne y
  have e : InfMat.termY x y = InfMat.hi y * (∫ s in InfMat.lo x..InfMat.hi x, 1 / √(s ^ 2 + InfMat.hi y ^ 2)) - InfMat.lo y * ∫ s in InfMat.lo x..InfMat.hi x, 1 / √(s ^ 2 + InfMat.lo y ^ 2) := by
    rw [Bouss.inner_recip hm, Bouss.inner_recip hn, Bouss.termY_eq]
    ring
  rw [e, inner_eq hm, inner_eq hn]
  have h1 := integrable_bell hm (InfMat.lo x) (InfMat.hi x)
  have h2 := integrable_bell hn (InfMat.lo x) (InfMat.hi x)
  have e2 : ∫ u in Ioi (0 : ℝ), bell (InfMat.lo x) (InfMat.hi x) u * tooth y u =
      InfMat.hi y * (∫ u in Ioi (0 : ℝ), bell (InfMat.lo x) (InfMat.hi x) u * exp (-(InfMat.hi y ^ 2) * u ^ 2)) - InfMat.lo y * ∫ u in Ioi (0 : ℝ), bell (InfMat.lo x) (InfMat.hi x) u * exp (-(InfMat.lo y ^ 2) * u ^ 2) := by
    rw [← integral_const_mul, ← integral_const_mul, ← integral_sub (h1.const_mul _) (h2.const_mul _)]
    refine integral_congr_ae (ae_of_all _ fun u => ?_)
    beta_reduce
    unfold tooth InfMat.hi InfMat.lo
    ring
  rw [e2]
  ring

theorem integrable_tooth (x y : ℤ) : Integrable (fun u => bell (InfMat.lo x) (InfMat.hi x) u * tooth y u) (volume.restrict (Ioi 0)) := by
  have h1 := integrable_bell (Bouss.hi_ne y) (InfMat.lo x) (InfMat.hi x)
  have h2 := integrable_bell (Bouss.lo_ne y) (InfMat.lo x) (InfMat.hi x)
  refine ((h1.const_mul (InfMat.hi y)).sub (h2.const_mul (InfMat.lo y))).congr (ae_of_all _ fun u => ?_)
  simp only [Pi.sub_apply]
  unfold tooth InfMat.hi InfMat.lo
  ring

theorem form_termY_nonneg (A : Finset (ℤ × ℤ)) (w : ℤ × ℤ → ℝ) : 0 ≤ form A w InfMat.termY := by
  have e : InfMat.termY = fun x y => 2 / √π * ∫ u in Ioi (0 : ℝ), bell (InfMat.lo x) (InfMat.hi x) u * tooth y u := by
    funext x y
    exact termY_tooth x y
  rw [e, form_mul, ← integral_form A w integrable_tooth]
  refine mul_nonneg (by positivity) (setIntegral_nonneg measurableSet_Ioi fun u hu => ?_)
  simp_rw [bell_box hu]
  exact form_tooth_nonneg hu A w

theorem termX_swap (x y : ℤ) : InfMat.termX x y = InfMat.termY y x := by
  rw [Bouss.termX_eq, Bouss.termY_eq]

theorem form_termX_nonneg (A : Finset (ℤ × ℤ)) (w : ℤ × ℤ → ℝ) : 0 ≤ form A w InfMat.termX := by
  have h := form_termY_nonneg (A.map (Equiv.prodComm ℤ ℤ).toEmbedding) fun p => w p.swap
  unfold form at h ⊢
  simp only [Finset.sum_map] at h
  refine h.trans_eq (Finset.sum_congr rfl fun p _ => Finset.sum_congr rfl fun q _ => ?_)
  rw [termX_swap]
  rfl

theorem form_add (A : Finset (ℤ × ℤ)) (w : ℤ × ℤ → ℝ) (k k' : ℤ → ℤ → ℝ) : form A w (fun x y => k x y + k' x y) = form A w k + form A w k' := by
  unfold form
  simp only [mul_add, Finset.sum_add_distrib]

/-- Any positive multiples of the two brackets. -/
theorem form_comb_pos {p q : ℝ} (hp : 0 < p) (hq : 0 < q) {A : Finset (ℤ × ℤ)} {w : ℤ × ℤ → ℝ} (h : ∃ p ∈ A, w p ≠ 0) : 0 < form A w fun x y => p * InfMat.termX x y + q * InfMat.termY x y := by
  have h1 := form_terms_pos h
  rw [form_add A w InfMat.termX InfMat.termY] at h1
  rw [form_add A w (fun x y => p * InfMat.termX x y) (fun x y => q * InfMat.termY x y), form_mul, form_mul]
  have h2 := form_termX_nonneg A w
  have h3 := form_termY_nonneg A w
  rcases h2.eq_or_lt with h2 | h2
  · rw [← h2] at h1 ⊢
    rw [zero_add] at h1
    have := mul_pos hq h1
    linarith
  · have := mul_pos hp h2
    have := mul_nonneg hq.le h3
    linarith

theorem bell_neg (n : ℤ) (u : ℝ) : bell (InfMat.lo (-n)) (InfMat.hi (-n)) u = bell (InfMat.lo n) (InfMat.hi n) u := by
  unfold bell
  have h := intervalIntegral.integral_comp_neg (a := InfMat.lo n) (b := InfMat.hi n) fun s => rexp (-u ^ 2 * s ^ 2)
  rw [show -InfMat.hi n = InfMat.lo (-n) by unfold InfMat.lo InfMat.hi; push_cast; ring, show -InfMat.lo n = InfMat.hi (-n) by unfold InfMat.lo InfMat.hi; push_cast; ring] at h
  rw [← h]
  simp

theorem termY_even (x y : ℤ) : InfMat.termY (-x) (-y) = InfMat.termY x y := by
  rw [termY_tooth, termY_tooth]
  simp_rw [bell_neg, tooth_neg]

theorem termX_even (x y : ℤ) : InfMat.termX (-x) (-y) = InfMat.termX x y := by rw [termX_swap, termY_even, termX_swap]

end Verif.Definite
