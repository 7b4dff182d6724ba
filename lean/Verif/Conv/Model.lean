import Mathlib.Analysis.SpecialFunctions.Complex.CircleAddChar
import Mathlib.Analysis.Real.Sqrt
import Verif.Common

/-!
# Planned FFT convolution: model of `slippy/contact/influence_matrix_utils.py`

Modelled: `plan_convolve` (l.898-967, argument handling), `_plan_fftw_convolve` (l.629-736), the index mesh of
`elastic_influence_matrix` (l.258-277) and `_solve_im_loading` (l.84-93, with scipy's `fftconvolve(mode='same')`).
Not modelled: the CUDA twins, data types, the stored half spectrum of real transforms (the full spectrum is used; for real
data it carries the same information).

An array of shape `(n0, n1)` is a function `ℕ → ℕ → ℝ`, of which only the entries below the shape are meaningful; every
definition masks the others explicitly.
-/

namespace Verif.Conv

noncomputable section

open Finset

/-- The value of the `circular` argument, `plan_convolve` l.954-962: a number/bool, a sequence, or something without a
length. -/
inductive Circular
  | int (b : Bool)
  | seq (l : List Bool)
  | other

/-- Lines 954-962 of `plan_convolve`: the pair of flags for the two axes. -/
def Circular.flags : Circular → Except PyErr (Bool × Bool)
  | .int b => .ok (b, b)
  | .seq [a, b] => .ok (a, b)
  | .seq _ => .error .valueError
  | .other => .error .typeError

/-- The transform length of one axis, l.680-686: `nfl` is `pyfftw.next_fast_len`. -/
def axisLen (nfl : ℕ → ℕ) (circular : Bool) (L S : ℕ) : Except PyErr ℕ :=
  if circular then
    if L = S then .ok L else .error .assertionError
  else .ok (2 * nfl (max L S))

/-- Index group of an array of shape `(N0, N1)` on which the transform acts (all indices are taken modulo the shape). -/
abbrev Grid (N0 N1 : ℕ) := ZMod N0 × ZMod N1

/-- `np.pad(a, [[0, N0 - n0], [0, N1 - n1]], 'constant')`, l.700-701 and l.716: zero outside the original array. -/
def pad (N0 N1 n0 n1 : ℕ) (a : ℕ → ℕ → ℝ) : Grid N0 N1 → ℂ :=
  fun u => if u.1.val < n0 ∧ u.2.val < n1 then (a u.1.val u.2.val : ℂ) else 0

/-- `np.roll(im, (-s0, -s1), (-2, -1))`, l.702: entry `u` of the result is entry `u + (s0, s1)` of the argument. -/
def roll (N0 N1 : ℕ) (s0 s1 : ℕ) (w : Grid N0 N1 → ℂ) : Grid N0 N1 → ℂ := fun u => w (u + ((s0 : ZMod N0), (s1 : ZMod N1)))

/-- The character `exp(2πi (k0 a0 / N0 + k1 a1 / N1))`. -/
def chi {N0 N1 : ℕ} [NeZero N0] [NeZero N1] (k a : Grid N0 N1) : ℂ :=
  ZMod.stdAddChar (k.1 * a.1) * ZMod.stdAddChar (k.2 * a.2)

/-- `forward_trans` (FFTW_FORWARD over both axes), l.693-694: the unnormalised discrete Fourier transform. -/
def forward {N0 N1 : ℕ} [NeZero N0] [NeZero N1] (w : Grid N0 N1 → ℂ) : Grid N0 N1 → ℂ := fun k => ∑ a, chi k (-a) * w a

/-- `backward_trans` (FFTW_BACKWARD, normalised by pyfftw's default `normalise_idft=True`), l.695-696. -/
def backward {N0 N1 : ℕ} [NeZero N0] [NeZero N1] (w : Grid N0 N1 → ℂ) : Grid N0 N1 → ℂ :=
  fun a => ((N0 * N1 : ℕ) : ℂ)⁻¹ * ∑ k, chi k a * w k

/-- `norm_inv = forward_trans.N ** 0.5`, l.697 (`N` is the number of points of the transform). -/
def normInv (N0 N1 : ℕ) : ℂ := (Real.sqrt ((N0 * N1 : ℕ) : ℝ) : ℂ)

/-- `fft_im = forward_trans(np.roll(np.pad(im))) * norm`, l.697-703; the roll is by half the *original* shape. -/
def fftIm {N0 N1 : ℕ} [NeZero N0] [NeZero N1] (S0 S1 : ℕ) (im : ℕ → ℕ → ℝ) : Grid N0 N1 → ℂ := fun k =>
  forward (roll N0 N1 ((S0 - 1) / 2) ((S1 - 1) / 2) (pad N0 N1 S0 S1 im)) k * (1 / normInv N0 N1)

/-- `inner_no_domain`, l.710-721, for loads of the planned shape `(L0, L1)`: entry `(i, j)` of the returned array. -/
def inner (N0 N1 : ℕ) [NeZero N0] [NeZero N1] (L0 L1 S0 S1 : ℕ) (im loads : ℕ → ℕ → ℝ) (i j : ℕ) : ℝ :=
  (normInv N0 N1 * backward (fun k => forward (pad N0 N1 L0 L1 loads) k * fftIm S0 S1 im k) ((i : ZMod N0), (j : ZMod N1))).re

/-- `full_loads = np.zeros(shape); full_loads[domain] = sub_loads`, l.724-725: sub loads are given on the domain. -/
def scatter (domain : ℕ → ℕ → Bool) (sub : ℕ → ℕ → ℝ) : ℕ → ℕ → ℝ := fun i j => if domain i j then sub i j else 0

/-- `inner_with_domain`, l.723-731: `sub` are the loads on the domain; the result is meaningful at domain nodes
(`same[domain]`), or everywhere if `ignore_domain`. -/
def innerDomain (N0 N1 : ℕ) [NeZero N0] [NeZero N1] (L0 L1 S0 S1 : ℕ) (im : ℕ → ℕ → ℝ) (domain : ℕ → ℕ → Bool)
    (sub : ℕ → ℕ → ℝ) (i j : ℕ) : ℝ :=
  inner N0 N1 L0 L1 S0 S1 im (scatter domain sub) i j

/-- `plan_convolve` without a domain, on the CPU path: `plan_convolve(loads, im, None, circular)(loads)` for loads of shape
`(L0, L1)` and an influence matrix of shape `(S0, S1)`; l.898-967 and l.629-736. Zero transform lengths do not occur for
non-empty arrays; they are mapped to a `ValueError`. -/
def planConvolve (nfl : ℕ → ℕ) (c : Circular) (L0 L1 S0 S1 : ℕ) (im loads : ℕ → ℕ → ℝ) : Except PyErr (ℕ → ℕ → ℝ) :=
  match c.flags with
  | .error e => .error e
  | .ok (c0, c1) =>
    match axisLen nfl c0 L0 S0 with
    | .error e => .error e
    | .ok N0 =>
      match axisLen nfl c1 L1 S1 with
      | .error e => .error e
      | .ok N1 =>
        if h : N0 ≠ 0 ∧ N1 ≠ 0 then
          haveI : NeZero N0 := ⟨h.1⟩
          haveI : NeZero N1 := ⟨h.2⟩
          .ok (inner N0 N1 L0 L1 S0 S1 im loads)
        else .error .valueError

/-- scipy's `fftconvolve(loads, im, mode='same')` (its documented contract): the full linear convolution, of which the
central part of the shape of the first argument is returned, starting at `(S - 1) // 2`. -/
def sameConvolve (L0 L1 S0 S1 : ℕ) (im loads : ℕ → ℕ → ℝ) (i j : ℕ) : ℝ :=
  ∑ a ∈ range L0, ∑ b ∈ range L1, loads a b *
    (if a ≤ i + (S0 - 1) / 2 ∧ i + (S0 - 1) / 2 - a < S0 ∧ b ≤ j + (S1 - 1) / 2 ∧ j + (S1 - 1) / 2 - b < S1
      then im (i + (S0 - 1) / 2 - a) (j + (S1 - 1) / 2 - b) else 0)

/-- `idmi`/`jdmj` of `elastic_influence_matrix`, l.262-263: the node offset belonging to index `u` of an axis of length
`span`. -/
def offset (span : ℕ) (u : ℕ) : ℤ := (u : ℤ) - (span / 2 : ℕ) + (1 - (span % 2 : ℕ))

/-- The matrix filled by `elastic_influence_matrix`, l.262-277: the offset `i'-i` (x) runs along the second axis and
`j'-j` (y) along the first, `coef x y` is the closed form of the component. -/
def fillMatrix (S0 S1 : ℕ) (coef : ℤ → ℤ → ℝ) : ℕ → ℕ → ℝ := fun u v => coef (offset S1 v) (offset S0 u)

end

end Verif.Conv
