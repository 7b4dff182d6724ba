import Mathlib.Analysis.SpecialFunctions.Log.Base
import Verif.Conv.Model

/-!
# The two implementations of the planned convolution: model of `slippy/contact/influence_matrix_utils.py` l.343-451 (CUDA) and l.629-736 (FFTW)

Here with the half spectrum of the real transforms of FFTW, flat inputs and the vectors of loads on a domain, which `Verif.Conv.Model` leaves out. Not modelled: data types; vectors of loads on a domain of another length than the number of its nodes.
-/

namespace Verif.Conv

noncomputable section

open Finset

/-- `n_pow_2`, l.343-344. -/
def nPow2 (a : ℕ) : ℕ := 2 ^ ⌈Real.logb 2 a⌉.toNat

section transforms

variable {N0 N1 : ℕ} [NeZero N0] [NeZero N1]

/-- The spectrum that a real transform of FFTW stores, l.690-694: `N1 // 2 + 1` columns. -/
def rforward (w : Grid N0 N1 → ℂ) : ZMod N0 → Fin (N1 / 2 + 1) → ℂ := fun k0 k1 => forward w (k0, ((k1 : ℕ) : ZMod N1))

/-- The full spectrum that a stored one stands for: the missing columns are the conjugates of the opposite frequencies. -/
def extend (h : ZMod N0 → Fin (N1 / 2 + 1) → ℂ) : Grid N0 N1 → ℂ := fun k =>
  if hk : k.2.val < N1 / 2 + 1 then h k.1 ⟨k.2.val, hk⟩
  else (starRingEnd ℂ) (h (-k.1) ⟨N1 - k.2.val, by have := ZMod.val_lt k.2; omega⟩)

/-- The real backward transform of FFTW, l.695-696. -/
def rbackward (h : ZMod N0 → Fin (N1 / 2 + 1) → ℂ) : Grid N0 N1 → ℝ := fun a => (backward (extend h) a).re

/-- The FFTW function on arrays of the planned shape, l.697-703 and l.716-718. -/
def innerFftw (N0 N1 : ℕ) [NeZero N0] [NeZero N1] (L0 L1 S0 S1 : ℕ) (im loads : ℕ → ℕ → ℝ) (i j : ℕ) : ℝ :=
  Real.sqrt ((N0 * N1 : ℕ) : ℝ) * rbackward (fun k0 k1 => rforward (pad N0 N1 L0 L1 loads) k0 k1 *
    (rforward (roll N0 N1 ((S0 - 1) / 2) ((S1 - 1) / 2) (pad N0 N1 S0 S1 im)) k0 k1 * (1 / normInv N0 N1))) ((i : ZMod N0), (j : ZMod N1))

/-- The CUDA function on arrays of the planned shape, l.417-423 and l.443-445. -/
def innerCuda (N0 N1 : ℕ) [NeZero N0] [NeZero N1] (L0 L1 S0 S1 : ℕ) (im loads : ℕ → ℕ → ℝ) (i j : ℕ) : ℝ :=
  Real.sqrt ((N0 * N1 : ℕ) : ℝ) * (backward (fun k => forward (pad N0 N1 L0 L1 loads) k *
    (forward (roll N0 N1 ((S0 - 1) / 2) ((S1 - 1) / 2) (pad N0 N1 S0 S1 im)) k * (1 / normInv N0 N1))) ((i : ZMod N0), (j : ZMod N1))).re

end transforms

/-- `slippy.CUDA`; with FFTW, `next_fast_len`. -/
inductive Backend where
  | cuda
  | fftw (nfl : ℕ → ℕ)

/-- The length of a padded axis, l.410 and l.686. -/
def Backend.len : Backend → ℕ → ℕ
  | .cuda => nPow2
  | .fftw nfl => nfl

/-- The function on arrays of the planned shape. -/
def Backend.fn (be : Backend) (N0 N1 : ℕ) [NeZero N0] [NeZero N1] : ℕ → ℕ → ℕ → ℕ → (ℕ → ℕ → ℝ) → (ℕ → ℕ → ℝ) → ℕ → ℕ → ℝ :=
  match be with
  | .cuda => innerCuda N0 N1
  | .fftw _ => innerFftw N0 N1

/-- `plan_convolve`, l.954-967, on arrays of the planned shape `(L0, L1)`. As in `planConvolve`, empty arrays are mapped to a `ValueError`. -/
def plan (be : Backend) (c : Circular) (L0 L1 S0 S1 : ℕ) (im : ℕ → ℕ → ℝ) : Except PyErr ((ℕ → ℕ → ℝ) → ℕ → ℕ → ℝ) :=
  match c.flags with
  | .error e => .error e
  | .ok (c0, c1) =>
    match axisLen be.len c0 L0 S0 with
    | .error e => .error e
    | .ok N0 =>
      match axisLen be.len c1 L1 S1 with
      | .error e => .error e
      | .ok N1 =>
        if h : N0 ≠ 0 ∧ N1 ≠ 0 then
          haveI : NeZero N0 := ⟨h.1⟩
          haveI : NeZero N1 := ⟨h.2⟩
          .ok (be.fn N0 N1 L0 L1 S0 S1 im)
        else .error .valueError

/-- An array: its shape, and its entries row by row. -/
structure Arr where
  shape : List ℕ
  data : List ℝ

/-- `np.reshape(a, (L0, L1))` as a function of the indices. -/
def ofData (L1 : ℕ) (d : List ℝ) : ℕ → ℕ → ℝ := fun i j => d.getD (i * L1 + j) 0

/-- All indices of an array of shape `(L0, L1)`, row by row. -/
def indices (L0 L1 : ℕ) : List (ℕ × ℕ) := (List.range L0).flatMap fun i => (List.range L1).map fun j => (i, j)

/-- The entries row by row. -/
def toData (L0 L1 : ℕ) (g : ℕ → ℕ → ℝ) : List ℝ := (indices L0 L1).map fun p => g p.1 p.2

/-- `inner_no_domain`, l.435-447 and l.710-721: inputs of another shape are reshaped and the result is flat. -/
def innerNoDomain (f : (ℕ → ℕ → ℝ) → ℕ → ℕ → ℝ) (L0 L1 : ℕ) (x : Arr) : Except PyErr Arr :=
  if x.shape = [L0, L1] then .ok ⟨[L0, L1], toData L0 L1 (f (ofData L1 x.data))⟩
  else if x.data.length = L0 * L1 then .ok ⟨[L0 * L1], toData L0 L1 (f (ofData L1 x.data))⟩
  else .error .valueError

/-- The nodes of a domain in the order of indexing with a mask. -/
def nodes (L0 L1 : ℕ) (domain : ℕ → ℕ → Bool) : List (ℕ × ℕ) := (indices L0 L1).filter fun p => domain p.1 p.2

/-- `full_loads = zeros(shape); full_loads[domain] = sub_loads`, l.426-427 and l.724-725. -/
def fill (L0 L1 : ℕ) (domain : ℕ → ℕ → Bool) (v : List ℝ) : ℕ → ℕ → ℝ := fun i j =>
  if (i, j) ∈ nodes L0 L1 domain then v.getD ((nodes L0 L1 domain).idxOf (i, j)) 0 else 0

/-- `inner_with_domain(sub_loads)`, l.425-433 and l.723-731: the entries at the nodes of the domain. -/
def innerWithDomain (f : (ℕ → ℕ → ℝ) → ℕ → ℕ → ℝ) (L0 L1 : ℕ) (domain : ℕ → ℕ → Bool) (v : List ℝ) : List ℝ :=
  (nodes L0 L1 domain).map fun p => f (fill L0 L1 domain v) p.1 p.2

/-- `inner_with_domain(sub_loads, ignore_domain=True)`. -/
def innerIgnoreDomain (f : (ℕ → ℕ → ℝ) → ℕ → ℕ → ℝ) (L0 L1 : ℕ) (domain : ℕ → ℕ → Bool) (v : List ℝ) : Arr :=
  ⟨[L0, L1], toData L0 L1 (f (fill L0 L1 domain v))⟩

end

end Verif.Conv
