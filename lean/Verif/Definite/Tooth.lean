import Mathlib.Analysis.SpecialFunctions.Gaussian.FourierTransform
import Mathlib.MeasureTheory.Integral.IntegralEqImproper
import Mathlib.Analysis.Calculus.Deriv.MeanValue
import Mathlib.Analysis.Real.Pi.Bounds
import Verif.Definite.Form

/-!
# Lemmas for C154: differences of the derivative of a Gaussian over the cells of a line

`tooth n u` is the difference of `s exp (-u² s²)` between the two ends of cell `n`. For narrow Gaussians the value of the own cell outweighs all others; for wide ones the transform is nowhere negative.
-/

namespace Verif.Definite

open Real MeasureTheory Set Filter Finset

/-- The difference over cell `n`. -/
noncomputable def tooth (n : ℤ) (u : ℝ) : ℝ := ((n : ℝ) + 1 / 2) * exp (-((n : ℝ) + 1 / 2) ^ 2 * u ^ 2) - ((n : ℝ) - 1 / 2) * exp (-((n : ℝ) - 1 / 2) ^ 2 * u ^ 2)

theorem tooth_neg (n : ℤ) (u : ℝ) : tooth (-n) u = tooth n u := by
  unfold tooth
  push_cast
  rw [show (-(n : ℝ) + 1 / 2) ^ 2 = ((n : ℝ) - 1 / 2) ^ 2 by ring, show (-(n : ℝ) - 1 / 2) ^ 2 = ((n : ℝ) + 1 / 2) ^ 2 by ring]
  ring

/-! ## Narrow Gaussians -/

/-- The values at the ends of the cells. -/
noncomputable def edge (u : ℝ) (k : ℕ) : ℝ := ((k : ℝ) + 1 / 2) * exp (-((k : ℝ) + 1 / 2) ^ 2 * u ^ 2)

theorem edge_pos (u : ℝ) (k : ℕ) : 0 < edge u k := by unfold edge; positivity

theorem edge_step {u : ℝ} (hu : 1 ≤ u) (k : ℕ) : edge u (k + 1) ≤ edge u k := by
  unfold edge
  push_cast
  have hk : (0 : ℝ) ≤ k := Nat.cast_nonneg k
  have h1 : exp (-((k : ℝ) + 1 + 1 / 2) ^ 2 * u ^ 2) = exp (-((k : ℝ) + 1 / 2) ^ 2 * u ^ 2) * exp (-(2 * (k + 1) * u ^ 2)) := by
    rw [← exp_add]
    ring_nf
  have h2 : (2 * ((k : ℝ) + 1) * u ^ 2) + 1 ≤ exp (2 * (k + 1) * u ^ 2) := add_one_le_exp _
  have h3 : 2 * ((k : ℝ) + 1) ≤ 2 * (k + 1) * u ^ 2 := le_mul_of_one_le_right (by positivity) (one_le_pow₀ hu)
  rw [h1, exp_neg]
  have hE := exp_pos (-((k : ℝ) + 1 / 2) ^ 2 * u ^ 2)
  have hI := exp_pos (2 * ((k : ℝ) + 1) * u ^ 2)
  rw [mul_comm (exp _), ← mul_assoc]
  refine mul_le_mul_of_nonneg_right ?_ hE.le
  rw [← div_eq_mul_inv, div_le_iff₀ hI]
  nlinarith

theorem tooth_zero (u : ℝ) : tooth 0 u = 2 * edge u 0 := by
  unfold tooth edge
  push_cast
  rw [show ((0 : ℝ) - 1 / 2) ^ 2 = (0 + 1 / 2) ^ 2 by ring]
  ring

theorem tooth_succ (k : ℕ) (u : ℝ) : tooth ((k : ℤ) + 1) u = edge u (k + 1) - edge u k := by
  unfold tooth edge
  push_cast
  rw [show (k : ℝ) + 1 - 1 / 2 = k + 1 / 2 by ring]

theorem abs_tooth_succ {u : ℝ} (hu : 1 ≤ u) (k : ℕ) : |tooth ((k : ℤ) + 1) u| = edge u k - edge u (k + 1) := by
  rw [tooth_succ, abs_of_nonpos (by linarith [edge_step hu k])]
  ring

/-- The others together are outweighed by the own cell. -/
theorem others {u : ℝ} (hu : 1 ≤ u) (C : Finset ℤ) (m : ℤ) : ∑ n ∈ C.erase m, |tooth (m - n) u| ≤ tooth 0 u := by
  obtain ⟨N, hN⟩ : ∃ N : ℕ, ∀ n ∈ C, (m - n).natAbs ≤ N := ⟨C.sup fun n => (m - n).natAbs, fun n hn => Finset.le_sup (f := fun n => (m - n).natAbs) hn⟩
  have half : ∀ D : Finset ℤ, (∀ n ∈ D, ∃ k < N, ∀ u, tooth (m - n) u = tooth ((k : ℤ) + 1) u ∧ (m - n).natAbs = k + 1) → (∀ n ∈ D, ∀ n' ∈ D, (m - n).natAbs = (m - n').natAbs → n = n') →
      ∑ n ∈ D, |tooth (m - n) u| ≤ edge u 0 := by
    intro D hD hinj
    have h1 : ∑ n ∈ D, |tooth (m - n) u| = ∑ k ∈ D.image (fun n => (m - n).natAbs - 1), (edge u k - edge u (k + 1)) := by
      rw [Finset.sum_image]
      · refine Finset.sum_congr rfl fun n hn => ?_
        obtain ⟨k, -, hk⟩ := hD n hn
        rw [(hk u).1, (hk u).2, Nat.add_sub_cancel, abs_tooth_succ hu]
      · intro n hn n' hn' he
        obtain ⟨k, -, hk⟩ := hD n hn
        obtain ⟨k', -, hk'⟩ := hD n' hn'
        have e1 := (hk u).2
        have e2 := (hk' u).2
        simp only [e1, e2] at he
        exact hinj n hn n' hn' (by omega)
    have h2 : ∑ k ∈ D.image (fun n => (m - n).natAbs - 1), (edge u k - edge u (k + 1)) ≤ ∑ k ∈ Finset.range N, (edge u k - edge u (k + 1)) := by
      refine Finset.sum_le_sum_of_subset_of_nonneg ?_ fun k _ _ => sub_nonneg.mpr (edge_step hu k)
      intro k hk
      obtain ⟨n, hn, rfl⟩ := Finset.mem_image.mp hk
      obtain ⟨k, hkN, hk⟩ := hD n hn
      rw [(hk u).2]
      exact Finset.mem_range.mpr (by omega)
    rw [h1]
    refine h2.trans ?_
    rw [Finset.sum_range_sub']
    linarith [edge_pos u N]
  have split := Finset.sum_filter_add_sum_filter_not (C.erase m) (fun n => n < m) fun n => |tooth (m - n) u|
  rw [← split, tooth_zero, two_mul]
  refine add_le_add (half _ ?_ ?_) (half _ ?_ ?_)
  · intro n hn
    obtain ⟨hn1, hn2⟩ := Finset.mem_filter.mp hn
    have := hN n (Finset.mem_of_mem_erase hn1)
    refine ⟨(m - n).toNat - 1, by omega, fun u => ⟨?_, by omega⟩⟩
    congr 1
    omega
  · intro n hn n' hn' he
    have h1 := (Finset.mem_filter.mp hn).2
    have h2 := (Finset.mem_filter.mp hn').2
    omega
  · intro n hn
    obtain ⟨hn1, hn2⟩ := Finset.mem_filter.mp hn
    have h3 := hN n (Finset.mem_of_mem_erase hn1)
    have h4 := Finset.ne_of_mem_erase hn1
    refine ⟨(n - m).toNat - 1, by omega, fun u => ⟨?_, by omega⟩⟩
    rw [← tooth_neg]
    congr 1
    omega
  · intro n hn n' hn' he
    have h1 := (Finset.mem_filter.mp hn).2
    have h2 := (Finset.mem_filter.mp hn').2
    omega

/-- The sum of squares weighted by the differences. -/
theorem line_nonneg {u : ℝ} (hu : 1 ≤ u) (C : Finset ℤ) (F : ℤ → ℝ) : 0 ≤ ∑ m ∈ C, ∑ n ∈ C, F m * F n * tooth (m - n) u := by
  have h1 : ∀ m ∈ C, ∑ n ∈ C, F m * F n * tooth (m - n) u = F m ^ 2 * tooth 0 u + ∑ n ∈ C.erase m, F m * F n * tooth (m - n) u := by
    intro m hm
    rw [← Finset.add_sum_erase C _ hm, sub_self]
    ring
  have h2 : ∀ m n, -((F m ^ 2 + F n ^ 2) / 2 * |tooth (m - n) u|) ≤ F m * F n * tooth (m - n) u := by
    intro m n
    have := neg_abs_le (F m * F n * tooth (m - n) u)
    rw [abs_mul] at this
    have h3 : |F m * F n| ≤ (F m ^ 2 + F n ^ 2) / 2 := by
      rw [abs_le]
      constructor <;> nlinarith [sq_nonneg (F m + F n), sq_nonneg (F m - F n)]
    nlinarith [abs_nonneg (tooth (m - n) u)]
  have h3 : ∑ m ∈ C, ∑ n ∈ C.erase m, (F m ^ 2 + F n ^ 2) / 2 * |tooth (m - n) u| = ∑ m ∈ C, F m ^ 2 * ∑ n ∈ C.erase m, |tooth (m - n) u| := by
    have e : ∀ f : ℤ → ℤ → ℝ, ∑ m ∈ C, ∑ n ∈ C.erase m, f m n = ∑ m ∈ C, ∑ n ∈ C, if m = n then 0 else f m n := by
      intro f
      refine Finset.sum_congr rfl fun m hm => ?_
      rw [← Finset.add_sum_erase C (fun n => if m = n then 0 else f m n) hm, if_pos rfl, zero_add]
      exact Finset.sum_congr rfl fun n hn => by rw [if_neg (Finset.ne_of_mem_erase hn).symm]
    have e2 : ∑ m ∈ C, ∑ n ∈ C.erase m, F n ^ 2 / 2 * |tooth (m - n) u| = ∑ m ∈ C, ∑ n ∈ C.erase m, F m ^ 2 / 2 * |tooth (m - n) u| := by
      rw [e, e, Finset.sum_comm]
      refine Finset.sum_congr rfl fun m _ => Finset.sum_congr rfl fun n _ => ?_
      rcases eq_or_ne m n with h | h
      · rw [if_pos h, if_pos h.symm]
      · rw [if_neg h, if_neg h.symm, ← tooth_neg, neg_sub]
    simp only [add_div, add_mul, Finset.sum_add_distrib]
    rw [e2, ← Finset.sum_add_distrib]
    refine Finset.sum_congr rfl fun m _ => ?_
    rw [← Finset.sum_add_distrib, Finset.mul_sum]
    exact Finset.sum_congr rfl fun n _ => by ring
  calc (0 : ℝ) ≤ ∑ m ∈ C, F m ^ 2 * (tooth 0 u - ∑ n ∈ C.erase m, |tooth (m - n) u|) :=
        Finset.sum_nonneg fun m _ => mul_nonneg (sq_nonneg _) (sub_nonneg.mpr (others hu C m))
    _ = ∑ m ∈ C, F m ^ 2 * tooth 0 u - ∑ m ∈ C, ∑ n ∈ C.erase m, (F m ^ 2 + F n ^ 2) / 2 * |tooth (m - n) u| := by
        rw [h3, ← Finset.sum_sub_distrib]
        exact Finset.sum_congr rfl fun m _ => by ring
    _ ≤ ∑ m ∈ C, F m ^ 2 * tooth 0 u + ∑ m ∈ C, ∑ n ∈ C.erase m, F m * F n * tooth (m - n) u := by
        rw [sub_eq_add_neg, ← Finset.sum_neg_distrib]
        refine add_le_add le_rfl (Finset.sum_le_sum fun m _ => ?_)
        rw [← Finset.sum_neg_distrib]
        exact Finset.sum_le_sum fun n _ => h2 m n
    _ = _ := by
        rw [← Finset.sum_add_distrib]
        exact Finset.sum_congr rfl fun m hm => (h1 m hm).symm

/-- The form of a function of the second offset only. -/
theorem form_second (A : Finset (ℤ × ℤ)) (f : ℤ × ℤ → ℝ) (k : ℤ → ℝ) :
    form A f (fun _ y => k y) = ∑ m ∈ A.image Prod.snd, ∑ n ∈ A.image Prod.snd, (∑ p ∈ A with p.2 = m, f p) * (∑ q ∈ A with q.2 = n, f q) * k (m - n) := by
  unfold form
  rw [← Finset.sum_fiberwise_of_maps_to (g := Prod.snd) (t := A.image Prod.snd) fun p hp => Finset.mem_image_of_mem _ hp]
  refine Finset.sum_congr rfl fun m _ => ?_
  have e : ∀ p ∈ A.filter (fun p => p.2 = m), ∑ q ∈ A, f p * f q * k (p.2 - q.2) = f p * ∑ n ∈ A.image Prod.snd, (∑ q ∈ A with q.2 = n, f q) * k (m - n) := by
    intro p hp
    rw [← Finset.sum_fiberwise_of_maps_to (g := Prod.snd) (t := A.image Prod.snd) fun p hp => Finset.mem_image_of_mem _ hp, Finset.mul_sum]
    refine Finset.sum_congr rfl fun n _ => ?_
    rw [Finset.sum_mul, Finset.mul_sum]
    refine Finset.sum_congr rfl fun q hq => ?_
    rw [(Finset.mem_filter.mp hp).2, (Finset.mem_filter.mp hq).2]
    ring
  rw [Finset.sum_congr rfl e, ← Finset.sum_mul, Finset.mul_sum]
  exact Finset.sum_congr rfl fun n _ => by ring

theorem form_cos (A : Finset (ℤ × ℤ)) (w : ℤ × ℤ → ℝ) (ξ : ℝ) (k : ℤ → ℝ) :
    form A w (fun x y => cos (2 * π * x * ξ) * k y) = form A (fun p => w p * cos (2 * π * p.1 * ξ)) (fun _ y => k y) + form A (fun p => w p * sin (2 * π * p.1 * ξ)) (fun _ y => k y) := by
  unfold form
  rw [← Finset.sum_add_distrib]
  refine Finset.sum_congr rfl fun p _ => ?_
  rw [← Finset.sum_add_distrib]
  refine Finset.sum_congr rfl fun q _ => ?_
  beta_reduce
  rw [Int.cast_sub, show 2 * π * ((p.1 : ℝ) - q.1) * ξ = 2 * π * p.1 * ξ - 2 * π * q.1 * ξ by ring, cos_sub]
  ring

theorem narrow {u : ℝ} (hu : 1 ≤ u) (A : Finset (ℤ × ℤ)) (w : ℤ × ℤ → ℝ) (ξ : ℝ) : 0 ≤ form A w fun x y => cos (2 * π * x * ξ) * tooth y u := by
  rw [form_cos, form_second, form_second]
  exact add_nonneg (line_nonneg hu _ _) (line_nonneg hu _ _)

/-! ## Wide Gaussians -/

/-- The weight of the transform. -/
noncomputable def ramp (b ξ : ℝ) : ℝ := ξ * exp (-b * ξ ^ 2)

noncomputable def swing (b ξ : ℝ) : ℝ := ramp b ξ * sin (π * ξ)

theorem continuous_swing (b : ℝ) : Continuous (swing b) := by unfold swing ramp; fun_prop

theorem swing_neg (b ξ : ℝ) : swing b (-ξ) = swing b ξ := by
  unfold swing ramp
  rw [neg_sq, mul_neg, sin_neg]
  ring

theorem integrable_swing {b : ℝ} (hb : 0 < b) {T : ℝ → ℝ} (hT : Continuous T) {B : ℝ} (hB : ∀ x, |T x| ≤ B) : Integrable fun ξ => swing b ξ * T ξ := by
  refine ((integrable_mul_exp_neg_mul_sq hb).mul_const B).mono ((continuous_swing b).mul hT).aestronglyMeasurable (ae_of_all _ fun x => ?_)
  have h1 := abs_sin_le_one (π * x)
  have hB0 : 0 ≤ B := (abs_nonneg _).trans (hB x)
  rw [norm_mul, norm_mul, norm_eq_abs, norm_eq_abs, norm_eq_abs, norm_eq_abs, swing, abs_mul, abs_of_nonneg hB0]
  refine mul_le_mul ?_ (hB x) (abs_nonneg _) (abs_nonneg _)
  exact mul_le_of_le_one_right (abs_nonneg _) h1

theorem deriv_bell (b x : ℝ) : HasDerivAt (fun x => exp (-b * x ^ 2)) (-(2 * b * x) * exp (-b * x ^ 2)) x := by
  have h := ((hasDerivAt_pow 2 x).const_mul (-b)).exp
  convert h using 1
  push_cast
  ring

theorem deriv_ramp (b x : ℝ) : HasDerivAt (ramp b) ((1 - 2 * b * x ^ 2) * exp (-b * x ^ 2)) x := by
  have h := (hasDerivAt_id x).mul (deriv_bell b x)
  refine h.congr_deriv ?_
  simp only [id]
  ring

theorem deriv_slope (b x : ℝ) : HasDerivAt (fun x => (1 - 2 * b * x ^ 2) * exp (-b * x ^ 2)) ((4 * b ^ 2 * x ^ 3 - 6 * b * x) * exp (-b * x ^ 2)) x := by
  have h := (((hasDerivAt_pow 2 x).const_mul (2 * b)).const_sub 1).mul (deriv_bell b x)
  refine h.congr_deriv ?_
  push_cast
  ring

theorem slope_mono {b : ℝ} (hb : 6 ≤ b) : MonotoneOn (fun x => (1 - 2 * b * x ^ 2) * exp (-b * x ^ 2)) (Ici (1 / 2)) := by
  refine monotoneOn_of_deriv_nonneg (convex_Ici _) (fun x _ => (deriv_slope b x).continuousAt.continuousWithinAt) (fun x _ => (deriv_slope b x).differentiableAt.differentiableWithinAt) fun x hx => ?_
  rw [interior_Ici] at hx
  have hx : 1 / 2 < x := hx
  rw [(deriv_slope b x).deriv]
  refine mul_nonneg ?_ (exp_pos _).le
  have h1 : 1 / 4 ≤ x ^ 2 := by nlinarith
  have h2 : 3 ≤ 2 * b * x ^ 2 := by nlinarith
  have : 4 * b ^ 2 * x ^ 3 - 6 * b * x = 2 * b * x * (2 * b * x ^ 2 - 3) := by ring
  rw [this]
  have : 0 ≤ 2 * b * x := by positivity
  exact mul_nonneg this (by linarith)

/-- The fall over one unit decreases. -/
theorem fall_anti {b : ℝ} (hb : 6 ≤ b) : AntitoneOn (fun x => ramp b x - ramp b (x + 1)) (Ici (1 / 2)) := by
  have hd : ∀ x, HasDerivAt (fun x => ramp b x - ramp b (x + 1)) ((1 - 2 * b * x ^ 2) * exp (-b * x ^ 2) - (1 - 2 * b * (x + 1) ^ 2) * exp (-b * (x + 1) ^ 2)) x := fun x =>
    (deriv_ramp b x).sub ((deriv_ramp b (x + 1)).comp_add_const x 1)
  refine antitoneOn_of_deriv_nonpos (convex_Ici _) (fun x _ => (hd x).continuousAt.continuousWithinAt) (fun x _ => (hd x).differentiableAt.differentiableWithinAt) fun x hx => ?_
  rw [interior_Ici] at hx
  have hx : 1 / 2 < x := hx
  rw [(hd x).deriv]
  have := slope_mono hb (mem_Ici.mpr hx.le) (mem_Ici.mpr (by linarith : (1 : ℝ) / 2 ≤ x + 1)) (by linarith)
  beta_reduce at this
  linarith

theorem swing_odd (b : ℝ) (j : ℕ) (ξ : ℝ) : swing b (ξ + (2 * j + 1)) + swing b (ξ + (2 * j + 2)) = -sin (π * ξ) * (ramp b (ξ + (2 * j + 1)) - ramp b (ξ + (2 * j + 1) + 1)) := by
  unfold swing
  have e1 : sin (π * (ξ + (2 * j + 2))) = sin (π * ξ) := by
    have := sin_add_nat_mul_two_pi (π * ξ) (j + 1)
    rw [← this]
    push_cast
    ring_nf
  have e2 : sin (π * (ξ + (2 * j + 1))) = -sin (π * ξ) := by
    have := sin_add_pi (π * (ξ + (2 * j + 1)))
    rw [show π * (ξ + (2 * j + 1)) + π = π * (ξ + (2 * j + 2)) by ring, e1] at this
    linarith
  rw [e1, e2, show ξ + (2 * (j : ℝ) + 2) = ξ + (2 * j + 1) + 1 by ring]
  ring

/-- Two neighbouring arches about whole numbers, from both sides. -/
theorem both {b : ℝ} (hb : 6 ≤ b) (j : ℕ) {ξ : ℝ} (h : |ξ| ≤ 1 / 2) :
    0 ≤ (swing b (ξ + (2 * j + 1)) + swing b (ξ + (2 * j + 2))) + (swing b (-ξ + (2 * j + 1)) + swing b (-ξ + (2 * j + 2))) := by
  rw [swing_odd, swing_odd, mul_neg, sin_neg]
  have hj : (0 : ℝ) ≤ j := Nat.cast_nonneg j
  obtain ⟨h1, h2⟩ := abs_le.mp h
  have m1 : ξ + (2 * (j : ℝ) + 1) ∈ Ici (1 / 2 : ℝ) := mem_Ici.mpr (by linarith)
  have m2 : -ξ + (2 * (j : ℝ) + 1) ∈ Ici (1 / 2 : ℝ) := mem_Ici.mpr (by linarith)
  rcases le_total 0 ξ with hx | hx
  · have hs : 0 ≤ sin (π * ξ) := sin_nonneg_of_nonneg_of_le_pi (by positivity) (by nlinarith [pi_pos])
    have := fall_anti hb m2 m1 (by linarith)
    beta_reduce at this
    nlinarith
  · have hs : 0 ≤ sin (π * -ξ) := sin_nonneg_of_nonneg_of_le_pi (mul_nonneg pi_pos.le (by linarith)) (by nlinarith [pi_pos])
    rw [mul_neg, sin_neg] at hs
    have := fall_anti hb m1 m2 (by linarith)
    beta_reduce at this
    nlinarith

theorem chunk_eq {b : ℝ} {T : ℝ → ℝ} (hT : Continuous T) (hp : ∀ x, T (x + 1) = T x) (j : ℕ) :
    ∫ ξ in (1 / 2 + 2 * j : ℝ)..(1 / 2 + 2 * (j + 1 : ℕ) : ℝ), swing b ξ * T ξ = ∫ ξ in (-(1 / 2) : ℝ)..1 / 2, (swing b (ξ + (2 * j + 1)) + swing b (ξ + (2 * j + 2))) * T ξ := by
  have hc : Continuous fun ξ => swing b ξ * T ξ := (continuous_swing b).mul hT
  have hper : ∀ (n : ℕ) (x : ℝ), T (x + n) = T x := by
    intro n
    induction n with
    | zero => simp
    | succ n ih => intro x; rw [Nat.cast_succ, ← add_assoc, hp, ih]
  rw [← intervalIntegral.integral_add_adjacent_intervals (b := (1 / 2 + 2 * j : ℝ) + 1) (hc.intervalIntegrable _ _) (hc.intervalIntegrable _ _)]
  have e1 := intervalIntegral.integral_comp_add_right (a := -(1 / 2)) (b := 1 / 2) (fun ξ => swing b ξ * T ξ) (2 * j + 1 : ℝ)
  have e2 := intervalIntegral.integral_comp_add_right (a := -(1 / 2)) (b := 1 / 2) (fun ξ => swing b ξ * T ξ) (2 * j + 2 : ℝ)
  rw [show (-(1 / 2) + (2 * (j : ℝ) + 1)) = 1 / 2 + 2 * j by ring, show (1 / 2 + (2 * (j : ℝ) + 1)) = 1 / 2 + 2 * j + 1 by ring] at e1
  rw [show (-(1 / 2) + (2 * (j : ℝ) + 2)) = 1 / 2 + 2 * j + 1 by ring, show (1 / 2 + (2 * (j : ℝ) + 2)) = 1 / 2 + 2 * ((j + 1 : ℕ) : ℝ) by push_cast; ring] at e2
  rw [← e1, ← e2, ← intervalIntegral.integral_add]
  · refine intervalIntegral.integral_congr fun x _ => ?_
    beta_reduce
    have h1 : T (x + (2 * j + 1)) = T x := by have := hper (2 * j + 1) x; push_cast at this; exact this
    have h2 : T (x + (2 * j + 2)) = T x := by have := hper (2 * j + 2) x; push_cast at this; exact this
    rw [h1, h2]
    ring
  · exact (hc.comp (by fun_prop : Continuous fun x : ℝ => x + (2 * (j : ℝ) + 1))).intervalIntegrable _ _
  · exact (hc.comp (by fun_prop : Continuous fun x : ℝ => x + (2 * (j : ℝ) + 2))).intervalIntegrable _ _

theorem chunk_nonneg {b : ℝ} (hb : 6 ≤ b) {T : ℝ → ℝ} (hT : Continuous T) (hp : ∀ x, T (x + 1) = T x) (he : ∀ x, T (-x) = T x) (h0 : ∀ x, 0 ≤ T x) (j : ℕ) :
    0 ≤ ∫ ξ in (1 / 2 + 2 * j : ℝ)..(1 / 2 + 2 * (j + 1 : ℕ) : ℝ), swing b ξ * T ξ := by
  rw [chunk_eq hT hp]
  set f : ℝ → ℝ := fun ξ => (swing b (ξ + (2 * j + 1)) + swing b (ξ + (2 * j + 2))) * T ξ with hf
  have hc : Continuous f := (((continuous_swing b).comp (by fun_prop)).add ((continuous_swing b).comp (by fun_prop))).mul hT
  have e := intervalIntegral.integral_comp_neg (a := -(1 / 2)) (b := 1 / 2) f
  rw [neg_neg] at e
  have h2 : 0 ≤ ∫ ξ in (-(1 / 2) : ℝ)..1 / 2, (f ξ + f (-ξ)) := by
    refine intervalIntegral.integral_nonneg (by norm_num) fun x hx => ?_
    rw [hf]
    beta_reduce
    rw [he, ← add_mul]
    exact mul_nonneg (both hb j (abs_le.mpr hx)) (h0 x)
  rw [intervalIntegral.integral_add (hc.intervalIntegrable _ _) ((by fun_prop : Continuous fun x => f (-x)).intervalIntegrable _ _), e] at h2
  linarith

theorem swing_fold {b : ℝ} (hb : 6 ≤ b) {T : ℝ → ℝ} (hT : Continuous T) {B : ℝ} (hB : ∀ x, |T x| ≤ B) (hp : ∀ x, T (x + 1) = T x) (he : ∀ x, T (-x) = T x) (h0 : ∀ x, 0 ≤ T x) :
    0 ≤ ∫ ξ in Ioi 0, swing b ξ * T ξ := by
  have hc : Continuous fun ξ => swing b ξ * T ξ := (continuous_swing b).mul hT
  have h := intervalIntegral_tendsto_integral_Ioi (μ := volume) 0 (integrable_swing (by linarith) hT hB).integrableOn (b := fun n : ℕ => (1 / 2 + 2 * n : ℝ)) (l := atTop)
    (tendsto_atTop_add_const_left _ _ (tendsto_natCast_atTop_atTop.const_mul_atTop (by norm_num)))
  refine ge_of_tendsto' h fun n => ?_
  rw [← intervalIntegral.integral_add_adjacent_intervals (b := (1 / 2 : ℝ)) (hc.intervalIntegrable _ _) (hc.intervalIntegrable _ _)]
  refine add_nonneg ?_ ?_
  · refine intervalIntegral.integral_nonneg (by norm_num) fun x hx => mul_nonneg ?_ (h0 x)
    refine mul_nonneg (mul_nonneg hx.1 (exp_pos _).le) (sin_nonneg_of_nonneg_of_le_pi (mul_nonneg pi_pos.le hx.1) ?_)
    nlinarith [pi_pos, hx.2]
  · have := intervalIntegral.sum_integral_adjacent_intervals (f := fun ξ => swing b ξ * T ξ) (μ := volume) (a := fun j : ℕ => (1 / 2 + 2 * j : ℝ)) (n := n) fun k _ => hc.intervalIntegrable _ _
    simp only [Nat.cast_zero, mul_zero, add_zero] at this
    rw [← this]
    exact Finset.sum_nonneg fun j _ => chunk_nonneg hb hT hp he h0 j

theorem gauss_sin {b : ℝ} (hb : 0 < b) (t : ℝ) : ∫ ξ : ℝ, ramp b ξ * sin (t * ξ) = t / (2 * b) * (√(π / b) * exp (-t ^ 2 / (4 * b))) := by
  have hi : ∀ s : ℝ, Integrable fun ξ : ℝ => ramp b ξ * sin (s * ξ) := fun s => by
    refine (integrable_mul_exp_neg_mul_sq hb).mono (by unfold ramp; fun_prop) (ae_of_all _ fun x => ?_)
    rw [norm_mul]
    exact mul_le_of_le_one_right (norm_nonneg _) (abs_sin_le_one _)
  have hd : ∀ x : ℝ, HasDerivAt (fun x => sin (t * x)) (t * cos (t * x)) x := fun x => by
    have := ((hasDerivAt_id x).const_mul t).sin
    simp only [id, mul_one] at this
    rwa [mul_comm] at this
  have h := integral_mul_deriv_eq_deriv_mul_of_integrable (u := fun x => sin (t * x)) (v := fun x => exp (-b * x ^ 2)) (u' := fun x => t * cos (t * x)) (v' := fun x => -(2 * b * x) * exp (-b * x ^ 2))
    (fun x _ => hd x) (fun x _ => deriv_bell b x) ?_ ?_ ?_
  · have e1 : ∫ x : ℝ, sin (t * x) * (-(2 * b * x) * exp (-b * x ^ 2)) = -(2 * b) * ∫ ξ : ℝ, ramp b ξ * sin (t * ξ) := by
      rw [← integral_const_mul]
      exact integral_congr_ae (ae_of_all _ fun x => by unfold ramp; ring)
    have e2 : ∫ x : ℝ, t * cos (t * x) * exp (-b * x ^ 2) = t * ∫ ξ : ℝ, exp (-b * ξ ^ 2) * cos (t * ξ) := by
      rw [← integral_const_mul]
      exact integral_congr_ae (ae_of_all _ fun x => by ring)
    rw [e1, e2, gauss_cos hb] at h
    rw [div_mul_eq_mul_div, eq_div_iff (by positivity)]
    linear_combination -h
  · refine ((hi t).const_mul (-(2 * b))).congr (ae_of_all _ fun x => ?_)
    simp only [Pi.mul_apply]
    unfold ramp
    ring
  · refine ((integrable_gauss_cos hb t).const_mul t).congr (ae_of_all _ fun x => ?_)
    simp only [Pi.mul_apply]
    ring
  · refine (integrable_exp_neg_mul_sq hb).mono (by fun_prop) (ae_of_all _ fun x => ?_)
    simp only [Pi.mul_apply]
    rw [norm_mul, mul_comm]
    exact mul_le_of_le_one_right (norm_nonneg _) (abs_sin_le_one _)

theorem tooth_eq {u : ℝ} (hu : 0 < u) (n : ℤ) :
    (u ^ 2 / π) * √(π / (π ^ 2 / u ^ 2)) * tooth n u = 4 * ∫ ξ in Ioi (0 : ℝ), swing (π ^ 2 / u ^ 2) ξ * cos (2 * π * n * ξ) := by
  set b := π ^ 2 / u ^ 2 with hbdef
  have hb : 0 < b := by positivity
  have hi : ∀ s : ℝ, Integrable fun ξ : ℝ => ramp b ξ * sin (s * ξ) := fun s => by
    refine (integrable_mul_exp_neg_mul_sq hb).mono (by unfold ramp; fun_prop) (ae_of_all _ fun x => ?_)
    rw [norm_mul]
    exact mul_le_of_le_one_right (norm_nonneg _) (abs_sin_le_one _)
  have h := integral_comp_abs (f := fun ξ => swing b ξ * cos (2 * π * n * ξ))
  have h2 : ∫ ξ : ℝ, swing b |ξ| * cos (2 * π * n * |ξ|) = ∫ ξ : ℝ, swing b ξ * cos (2 * π * n * ξ) := by
    refine integral_congr_ae (ae_of_all _ fun ξ => ?_)
    beta_reduce
    rcases abs_choice ξ with h | h <;> rw [h]
    rw [swing_neg, mul_neg, cos_neg]
  have h3 : ∫ ξ : ℝ, swing b ξ * cos (2 * π * n * ξ) = 1 / 2 * ((∫ ξ : ℝ, ramp b ξ * sin (2 * π * (n + 1 / 2) * ξ)) - ∫ ξ : ℝ, ramp b ξ * sin (2 * π * (n - 1 / 2) * ξ)) := by
    rw [← integral_sub (hi _) (hi _), ← integral_const_mul]
    refine integral_congr_ae (ae_of_all _ fun ξ => ?_)
    beta_reduce
    rw [show 2 * π * ((n : ℝ) + 1 / 2) * ξ = 2 * π * n * ξ + π * ξ by ring, show 2 * π * ((n : ℝ) - 1 / 2) * ξ = 2 * π * n * ξ - π * ξ by ring, sin_add, sin_sub]
    unfold swing
    ring
  have hex : ∀ s : ℝ, exp (-(2 * π * s) ^ 2 / (4 * b)) = exp (-s ^ 2 * u ^ 2) := fun s => by
    rw [hbdef]
    congr 1
    have := pi_pos
    field_simp
    ring
  have h4 : 4 * ∫ ξ in Ioi (0 : ℝ), swing b ξ * cos (2 * π * n * ξ) = 2 * ∫ ξ : ℝ, swing b ξ * cos (2 * π * n * ξ) := by
    rw [← h2, h]
    ring
  rw [h4, h3, gauss_sin hb, gauss_sin hb, hex, hex]
  have hub : u ^ 2 / π = π / b := by
    rw [hbdef]
    have := pi_pos
    field_simp
  rw [hub]
  unfold tooth
  field_simp

theorem wide {u : ℝ} (h0 : 0 < u) (hu : u ≤ 1) (A : Finset (ℤ × ℤ)) (w : ℤ × ℤ → ℝ) (ξ : ℝ) : 0 ≤ form A w fun x y => cos (2 * π * x * ξ) * tooth y u := by
  set b := π ^ 2 / u ^ 2 with hbdef
  have hb : 6 ≤ b := by
    rw [hbdef, le_div_iff₀ (by positivity)]
    have := pi_gt_three
    nlinarith
  have hcont : Continuous fun η => waves A w ξ η := by unfold waves form; fun_prop
  have hbd : ∀ η, |waves A w ξ η| ≤ ∑ p ∈ A, ∑ q ∈ A, |w p * w q| * 1 := fun η => abs_form_le A w fun x y => abs_cos_cos _ _
  have hper : ∀ η, waves A w ξ (η + 1) = waves A w ξ η := fun η => by unfold waves; simp_rw [cos_shift]
  have heven : ∀ η, waves A w ξ (-η) = waves A w ξ η := fun η => by unfold waves; simp_rw [mul_neg, cos_neg]
  have hf := swing_fold hb hcont hbd hper heven (waves_nonneg A w ξ)
  have e : ∀ η : ℝ, swing b η * waves A w ξ η = form A w fun x y => cos (2 * π * x * ξ) * (swing b η * cos (2 * π * y * η)) := by
    intro η
    unfold waves
    rw [← form_mul]
    congr 1
    funext x y
    ring
  simp_rw [e] at hf
  rw [integral_form A w fun x y => ((integrable_swing (by linarith) (by fun_prop) (fun _ => abs_cos_le_one _)).integrableOn).const_mul _] at hf
  have hk : 0 < (u ^ 2 / π) * √(π / b) := by
    have := pi_pos
    have : 0 < b := by linarith
    positivity
  have e2 : form A w (fun x y => ∫ η in Ioi (0 : ℝ), cos (2 * π * x * ξ) * (swing b η * cos (2 * π * y * η))) = (u ^ 2 / π) * √(π / b) / 4 * form A w fun x y => cos (2 * π * x * ξ) * tooth y u := by
    rw [← form_mul]
    congr 1
    funext x y
    rw [integral_const_mul]
    have := tooth_eq h0 y
    rw [← hbdef] at this
    linear_combination -(cos (2 * π * x * ξ) / 4) * this
  rw [e2] at hf
  exact nonneg_of_mul_nonneg_right hf (by positivity)

/-- The form with a difference in the second direction and cosines in the first is not negative. -/
theorem row_nonneg {u : ℝ} (h0 : 0 < u) (A : Finset (ℤ × ℤ)) (w : ℤ × ℤ → ℝ) (ξ : ℝ) : 0 ≤ form A w fun x y => cos (2 * π * x * ξ) * tooth y u :=
  (le_total u 1).elim (fun h => wide h0 h A w ξ) fun h => narrow h A w ξ

theorem form_tooth_nonneg {u : ℝ} (h0 : 0 < u) (A : Finset (ℤ × ℤ)) (w : ℤ × ℤ → ℝ) : 0 ≤ form A w fun x y => box (π ^ 2 / u ^ 2) x * tooth y u := by
  set b := π ^ 2 / u ^ 2 with hbdef
  have hb : 0 < b := by positivity
  have hB : ∀ ξ : ℝ, |form A w fun x y => cos (2 * π * x * ξ) * tooth y u| ≤ ∑ p ∈ A, ∑ q ∈ A, |w p * w q| * |tooth (p.2 - q.2) u| := by
    intro ξ
    unfold form
    refine (Finset.abs_sum_le_sum_abs _ _).trans (Finset.sum_le_sum fun p _ => (Finset.abs_sum_le_sum_abs _ _).trans (Finset.sum_le_sum fun q _ => ?_))
    rw [abs_mul, abs_mul (cos _)]
    exact mul_le_mul_of_nonneg_left (mul_le_of_le_one_left (abs_nonneg _) (abs_cos_le_one _)) (abs_nonneg _)
  have hf := fold_nonneg hb (T := fun ξ => form A w fun x y => cos (2 * π * x * ξ) * tooth y u) (by unfold form; fun_prop) hB (fun ξ => by simp_rw [cos_shift]) (row_nonneg h0 A w)
  have e : ∀ ξ : ℝ, weight b ξ * form A w (fun x y => cos (2 * π * x * ξ) * tooth y u) = form A w fun x y => weight b ξ * cos (2 * π * x * ξ) * tooth y u := by
    intro ξ
    rw [← form_mul]
    congr 1
    funext x y
    ring
  simp_rw [e] at hf
  rw [integral_form A w fun x y => ((integrable_weight hb (by fun_prop) (fun _ => abs_cos_le_one _)).integrableOn).mul_const _] at hf
  have e2 : form A w (fun x y => ∫ ξ in Ioi (0 : ℝ), weight b ξ * cos (2 * π * x * ξ) * tooth y u) = √(π / b) / 2 * form A w fun x y => box b x * tooth y u := by
    rw [← form_mul]
    congr 1
    funext x y
    rw [integral_mul_const]
    linear_combination -(tooth y u / 2) * box_half hb x
  rw [e2] at hf
  have := pi_pos
  exact nonneg_of_mul_nonneg_right hf (by positivity)

end Verif.Definite
