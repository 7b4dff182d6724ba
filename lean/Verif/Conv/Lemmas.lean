import Mathlib.Tactic.Ring
import Mathlib.Tactic.FieldSimp
import Mathlib.Tactic.Linarith
import Mathlib.Tactic.Positivity
import Mathlib.Algebra.BigOperators.Ring.Finset
import Verif.Conv.Spec

/-!
# Helper lemmas: the transform pair computes the cyclic convolution; index arithmetic of the padding
-/

namespace Verif.Conv

open Finset

section dft

variable {N0 N1 : ℕ} [NeZero N0] [NeZero N1]

lemma chi_add (k a b : Grid N0 N1) : chi k (a + b) = chi k a * chi k b := by
  simp only [chi, Prod.fst_add, Prod.snd_add, mul_add, AddChar.map_add_eq_mul]
  ring

lemma chi_zero (k : Grid N0 N1) : chi k 0 = 1 := by simp [chi]

/-- Orthogonality of characters. -/
lemma sum_chi (a : Grid N0 N1) : ∑ k, chi k a = if a = 0 then ((N0 * N1 : ℕ) : ℂ) else 0 := by
  have h0 := AddChar.sum_mulShift a.1 (ZMod.isPrimitive_stdAddChar N0)
  have h1 := AddChar.sum_mulShift a.2 (ZMod.isPrimitive_stdAddChar N1)
  rw [ZMod.card] at h0 h1
  rw [Fintype.sum_prod_type]
  simp only [chi]
  simp_rw [← Finset.mul_sum]
  rw [← Finset.sum_mul, h0, h1]
  obtain ⟨a0, a1⟩ := a
  simp only [Prod.mk_eq_zero]
  by_cases e0 : a0 = 0 <;> by_cases e1 : a1 = 0 <;> simp [e0, e1]

/-- The inverse transform of a product of transforms is the cyclic convolution. -/
lemma backward_mul (u w : Grid N0 N1 → ℂ) (x : Grid N0 N1) :
    backward (fun k => forward u k * forward w k) x = ∑ a, u a * w (x - a) := by
  have hN : ((N0 * N1 : ℕ) : ℂ) ≠ 0 := by
    exact_mod_cast Nat.mul_ne_zero (NeZero.ne N0) (NeZero.ne N1)
  have key : ∑ k, chi k x * (forward u k * forward w k) = ((N0 * N1 : ℕ) : ℂ) * ∑ a, u a * w (x - a) := by
    calc ∑ k, chi k x * (forward u k * forward w k)
        = ∑ k, ∑ a, ∑ b, (u a * w b) * chi k (x - a - b) := by
          apply Finset.sum_congr rfl
          intro k _
          simp only [forward]
          rw [Finset.sum_mul_sum, Finset.mul_sum]
          apply Finset.sum_congr rfl
          intro a _
          rw [Finset.mul_sum]
          apply Finset.sum_congr rfl
          intro b _
          rw [show x - a - b = x + (-a) + (-b) by abel, chi_add, chi_add]
          ring
      _ = ∑ a, ∑ b, (u a * w b) * ∑ k, chi k (x - a - b) := by
          rw [Finset.sum_comm]
          apply Finset.sum_congr rfl
          intro a _
          rw [Finset.sum_comm]
          apply Finset.sum_congr rfl
          intro b _
          rw [Finset.mul_sum]
      _ = ∑ a, ((N0 * N1 : ℕ) : ℂ) * (u a * w (x - a)) := by
          apply Finset.sum_congr rfl
          intro a _
          rw [Finset.sum_eq_single (x - a)]
          · rw [sum_chi]; simp; ring
          · intro b _ hb
            rw [sum_chi, if_neg, mul_zero]
            intro h
            exact hb (sub_eq_zero.mp h).symm
          · intro h; exact absurd (Finset.mem_univ _) h
      _ = _ := by rw [Finset.mul_sum]
  rw [backward, key, ← mul_assoc, inv_mul_cancel₀ hN, one_mul]

lemma normInv_ne : normInv N0 N1 ≠ 0 := by
  have : (0 : ℝ) < ((N0 * N1 : ℕ) : ℝ) := by
    exact_mod_cast Nat.mul_pos (NeZero.pos N0) (NeZero.pos N1)
  simp only [normInv, ne_eq, Complex.ofReal_eq_zero]
  exact (Real.sqrt_pos.mpr this).ne'

/-- The planned function is the cyclic convolution of the padded loads with the rolled padded influence matrix. -/
lemma inner_eq_cyclic (L0 L1 S0 S1 : ℕ) (im loads : ℕ → ℕ → ℝ) (i j : ℕ) :
    inner N0 N1 L0 L1 S0 S1 im loads i j =
      (∑ a : Grid N0 N1, pad N0 N1 L0 L1 loads a *
        roll N0 N1 ((S0 - 1) / 2) ((S1 - 1) / 2) (pad N0 N1 S0 S1 im) (((i : ZMod N0), (j : ZMod N1)) - a)).re := by
  rw [inner, ← backward_mul]
  congr 1
  have : (fun k => forward (pad N0 N1 L0 L1 loads) k * fftIm S0 S1 im k) =
      fun k => (1 / normInv N0 N1) * (forward (pad N0 N1 L0 L1 loads) k *
        forward (roll N0 N1 ((S0 - 1) / 2) ((S1 - 1) / 2) (pad N0 N1 S0 S1 im)) k) := by
    funext k; simp only [fftIm]; ring
  rw [this]
  simp only [backward]
  have h2 : ∀ k, chi k ((i : ZMod N0), (j : ZMod N1)) * ((1 / normInv N0 N1) * (forward (pad N0 N1 L0 L1 loads) k *
        forward (roll N0 N1 ((S0 - 1) / 2) ((S1 - 1) / 2) (pad N0 N1 S0 S1 im)) k)) =
      (1 / normInv N0 N1) * (chi k ((i : ZMod N0), (j : ZMod N1)) * (forward (pad N0 N1 L0 L1 loads) k *
        forward (roll N0 N1 ((S0 - 1) / 2) ((S1 - 1) / 2) (pad N0 N1 S0 S1 im)) k)) := by
    intro k; ring
  simp_rw [h2]
  rw [← Finset.mul_sum]
  have := normInv_ne (N0 := N0) (N1 := N1)
  field_simp

/-- Sum over the grid of a function that vanishes outside the leading block. -/
lemma sum_grid (L0 L1 : ℕ) (h0 : L0 ≤ N0) (h1 : L1 ≤ N1) (F : ℕ → ℕ → ℝ) (G : Grid N0 N1 → ℂ)
    (hG : ∀ a : Grid N0 N1, a.1.val < L0 → a.2.val < L1 → G a = (F a.1.val a.2.val : ℂ))
    (hz : ∀ a : Grid N0 N1, ¬ (a.1.val < L0 ∧ a.2.val < L1) → G a = 0) :
    (∑ a, G a).re = ∑ a ∈ range L0, ∑ b ∈ range L1, F a b := by
  have hval0 : ∀ n : ℕ, n < L0 → ((n : ZMod N0)).val = n := fun n h => ZMod.val_natCast_of_lt (by omega)
  have hval1 : ∀ n : ℕ, n < L1 → ((n : ZMod N1)).val = n := fun n h => ZMod.val_natCast_of_lt (by omega)
  have : ∑ a, G a = ((∑ p ∈ range L0 ×ˢ range L1, F p.1 p.2 : ℝ) : ℂ) := by
    rw [Complex.ofReal_sum]
    symm
    apply Finset.sum_bij_ne_zero (fun (p : ℕ × ℕ) _ _ => (((p.1 : ZMod N0), (p.2 : ZMod N1)) : Grid N0 N1))
    · intro p _ _; exact Finset.mem_univ _
    · intro p hp _ q hq _ hpq
      simp only [mem_product, mem_range] at hp hq
      simp only [Prod.mk.injEq] at hpq
      have e0 := congrArg ZMod.val hpq.1
      have e1 := congrArg ZMod.val hpq.2
      rw [hval0 _ hp.1, hval0 _ hq.1] at e0
      rw [hval1 _ hp.2, hval1 _ hq.2] at e1
      exact Prod.ext e0 e1
    · intro a _ ha
      have hlt : a.1.val < L0 ∧ a.2.val < L1 := by
        by_contra h; exact ha (hz a h)
      refine ⟨(a.1.val, a.2.val), by simp [hlt], ?_, ?_⟩
      · rw [← hG a hlt.1 hlt.2]; exact ha
      · simp
    · intro p hp _
      simp only [mem_product, mem_range] at hp
      rw [hG _ (by simp [hval0 _ hp.1, hp.1]) (by simp [hval1 _ hp.2, hp.2])]
      simp [hval0 _ hp.1, hval1 _ hp.2]
  rw [this, Complex.ofReal_re, Finset.sum_product]

end dft

/-- What the transform length of an axis has to satisfy. -/
def LenOk (circular : Bool) (L S N : ℕ) : Prop := if circular then L = S ∧ N = L else L + S ≤ N

/-- On one axis: the residue of `i - a + (S-1)/2` lies inside the stored matrix exactly when the position does, and then
they agree. -/
lemma axis_position (c : Bool) (L S N : ℕ) [NeZero N] (h : LenOk c L S N) (i a : ℕ) (hi : i < L) (ha : a < L) :
    ((((i : ZMod N) - (a : ZMod N) + (((S - 1) / 2 : ℕ) : ZMod N))).val < S ↔
        0 ≤ position c S i a ∧ position c S i a < S) ∧
      (((((i : ZMod N) - (a : ZMod N) + (((S - 1) / 2 : ℕ) : ZMod N))).val < S) →
        ((i : ZMod N) - (a : ZMod N) + (((S - 1) / 2 : ℕ) : ZMod N)).val = (position c S i a).toNat) := by
  have hcast : ((i : ZMod N) - (a : ZMod N) + (((S - 1) / 2 : ℕ) : ZMod N)) =
      (((i : ℤ) - a + ((S - 1) / 2 : ℕ) : ℤ) : ZMod N) := by
    rw [Int.cast_add, Int.cast_sub, Int.cast_natCast, Int.cast_natCast, Int.cast_natCast]
  rw [hcast]
  set t : ℤ := (i : ℤ) - a + ((S - 1) / 2 : ℕ) with ht
  have hval : (((t : ZMod N).val : ℕ) : ℤ) = t % N := ZMod.val_intCast t
  unfold LenOk at h
  unfold position
  rw [← ht]
  cases c
  · simp only [Bool.false_eq_true, if_false] at h ⊢
    have hN : 0 < (N : ℤ) := by have := NeZero.pos N; exact_mod_cast this
    have b1 : t < N := by omega
    have b2 : -(N : ℤ) < t := by omega
    by_cases hneg : t < 0
    · have : t % N = t + N := by
        rw [← Int.add_emod_right, Int.emod_eq_of_lt (by omega) (by omega)]
      rw [this] at hval
      omega
    · have : t % N = t := Int.emod_eq_of_lt (by omega) b1
      rw [this] at hval
      omega
  · simp only [if_true] at h ⊢
    obtain ⟨rfl, rfl⟩ := h
    have hN : 0 < (N : ℤ) := by have := NeZero.pos N; exact_mod_cast this
    have := Int.emod_nonneg t hN.ne'
    have := Int.emod_lt_of_pos t hN
    omega

/-- The planned function equals the superposition for admissible transform lengths. -/
lemma inner_eq_superpose (c0 c1 : Bool) (L0 L1 S0 S1 N0 N1 : ℕ) [NeZero N0] [NeZero N1] (h0 : LenOk c0 L0 S0 N0)
    (h1 : LenOk c1 L1 S1 N1) (im loads : ℕ → ℕ → ℝ) (i j : ℕ) (hi : i < L0) (hj : j < L1) :
    inner N0 N1 L0 L1 S0 S1 im loads i j = superpose c0 c1 L0 L1 S0 S1 im loads i j := by
  rw [inner_eq_cyclic, superpose]
  have hL0 : L0 ≤ N0 := by unfold LenOk at h0; split at h0 <;> omega
  have hL1 : L1 ≤ N1 := by unfold LenOk at h1; split at h1 <;> omega
  apply sum_grid L0 L1 hL0 hL1
  · intro a ha0 ha1
    have p0 := axis_position c0 L0 S0 N0 h0 i a.1.val hi ha0
    have p1 := axis_position c1 L1 S1 N1 h1 j a.2.val hj ha1
    simp only [ZMod.natCast_val, ZMod.cast_id', id_eq] at p0 p1
    simp only [pad, ha0, ha1, and_self, if_true, roll, readAt, Prod.fst_sub, Prod.snd_sub, Prod.fst_add, Prod.snd_add]
    push_cast
    congr 1
    by_cases hin0 : ((i : ZMod N0) - a.1 + (((S0 - 1) / 2 : ℕ) : ZMod N0)).val < S0
    · by_cases hin1 : ((j : ZMod N1) - a.2 + (((S1 - 1) / 2 : ℕ) : ZMod N1)).val < S1
      · rw [if_pos ⟨hin0, hin1⟩]
        have q0 := p0.1.mp hin0
        have q1 := p1.1.mp hin1
        rw [if_pos ⟨q0.1, q0.2, q1.1, q1.2⟩, p0.2 hin0, p1.2 hin1]
      · rw [if_neg (fun h => hin1 h.2), if_neg]
        · simp
        · rintro ⟨-, -, g1, g2⟩; exact hin1 (p1.1.mpr ⟨g1, g2⟩)
    · rw [if_neg (fun h => hin0 h.1), if_neg]
      · simp
      · rintro ⟨g1, g2, -, -⟩; exact hin0 (p0.1.mpr ⟨g1, g2⟩)
  · intro a ha
    simp [pad, ha]

end Verif.Conv
