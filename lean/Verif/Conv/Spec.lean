import Verif.Conv.Model

/-!
# Specification of discrete superposition
-/

namespace Verif.Conv

open Finset

/-- What the `circular` argument says about the two axes. -/
inductive Means : Circular → Bool → Bool → Prop
  | same (b : Bool) : Means (.int b) b b
  | pair (b0 b1 : Bool) : Means (.seq [b0, b1]) b0 b1

/-- An array of shape `(S0, S1)` read at any integer position, zero outside. -/
def readAt (S0 S1 : ℕ) (im : ℕ → ℕ → ℝ) (u v : ℤ) : ℝ :=
  if 0 ≤ u ∧ u < S0 ∧ 0 ≤ v ∧ v < S1 then im u.toNat v.toNat else 0

/-- Position in the influence matrix of the coefficient with which a load at node `a` acts on node `i`, on one axis: the
centre of the stored matrix is index `(S - 1) / 2`; on a periodic axis positions are taken modulo the period. -/
def position (circular : Bool) (S : ℕ) (i a : ℕ) : ℤ :=
  if circular then ((i : ℤ) - a + ((S - 1) / 2 : ℕ)) % S else (i : ℤ) - a + ((S - 1) / 2 : ℕ)

/-- Superposition of all loads: what the convolution is meant to compute. -/
def superpose (c0 c1 : Bool) (L0 L1 S0 S1 : ℕ) (im loads : ℕ → ℕ → ℝ) (i j : ℕ) : ℝ :=
  ∑ a ∈ range L0, ∑ b ∈ range L1, loads a b * readAt S0 S1 im (position c0 S0 i a) (position c1 S1 j b)

end Verif.Conv
