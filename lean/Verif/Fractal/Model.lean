import Mathlib.Analysis.SpecialFunctions.Pow.Real
import Mathlib.Analysis.SpecialFunctions.Trigonometric.Basic
import Mathlib.Algebra.Order.Floor.Ring
import Verif.Conv.Model

/-!
# Model of `HurstFractalSurface` and `_conj_sym` in `slippy/surface/FFTBased.py`

`np.random.rand` is an arbitrary array of draws. `np.fft.ifft2` is the normalised inverse transform `Conv.backward`, on indices modulo the shape.
-/

namespace Verif.Fractal

noncomputable section

open Verif.Conv (Grid backward)

/-- The four assignments of zero in `_conj_sym`, l.431-434. -/
def zeroFour (n m : ℕ) (M : ℕ → ℕ → ℝ) : ℕ → ℕ → ℝ := fun i j => if (i = 0 ∨ i = n / 2) ∧ (j = 0 ∨ j = m / 2) then 0 else M i j

/-- `matrix[1:, 1:m // 2] = mult * np.rot90(matrix[1:, m // 2 + 1:], 2)`, l.436, for even `m`. -/
def leftHalf (n m : ℕ) (mult : ℝ) (M : ℕ → ℕ → ℝ) : ℕ → ℕ → ℝ := fun i j => if 1 ≤ i ∧ 1 ≤ j ∧ j < m / 2 then mult * M (n - i) (m - j) else M i j

/-- `matrix[0, 1:m // 2] = mult * np.flip(matrix[0, m // 2 + 1:])`, l.437, for even `m`. -/
def topRow (m : ℕ) (mult : ℝ) (M : ℕ → ℕ → ℝ) : ℕ → ℕ → ℝ := fun i j => if i = 0 ∧ 1 ≤ j ∧ j < m / 2 then mult * M 0 (m - j) else M i j

/-- `matrix[n // 2 + 1:, c] = mult * np.flip(matrix[1:n // 2, c])`, l.438-439, for even `n`. -/
def column (n c : ℕ) (mult : ℝ) (M : ℕ → ℕ → ℝ) : ℕ → ℕ → ℝ := fun i j => if n / 2 < i ∧ j = c then mult * M (n - i) c else M i j

/-- `_conj_sym`, l.419-441, for even sizes (the only ones it is called with); for other sizes the shapes in the assignments do not agree. -/
def conjSym (n m : ℕ) (mult : ℝ) (M : ℕ → ℕ → ℝ) : ℕ → ℕ → ℝ :=
  column n (m / 2) mult (column n 0 mult (topRow m mult (leftHalf n m mult (zeroFour n m M))))

/-- `_pol2cart` and l.353-356: the complex number with the given magnitude and phase. -/
def polar (r phi : ℝ) : ℂ := ⟨r * Real.cos phi, r * Real.sin phi⟩

/-- `np.fft.ifftshift`, l.358: entry `k` is entry `k + n // 2` of the argument. -/
def ifftshift (n m : ℕ) (F : ℕ → ℕ → ℂ) : Grid n m → ℂ := fun k => F (k.1 + (n / 2 : ℕ)).val (k.2 + (m / 2 : ℕ)).val

/-- L.349-358: the transform of the surface, from the magnitudes and the phases that were drawn. -/
def fouTrans (n m : ℕ) (mag phases : ℕ → ℕ → ℝ) : Grid n m → ℂ :=
  ifftshift n m fun i j => polar (conjSym n m 1 mag i j) (conjSym n m (-1) phases i j)

/-- `np.fft.ifft2`, l.360. -/
def inverse (n m : ℕ) [NeZero n] [NeZero m] (mag phases : ℕ → ℕ → ℝ) : Grid n m → ℂ := backward (fouTrans n m mag phases)

/-- `%` of numpy for floats. -/
def pyMod (x y : ℝ) : ℝ := x - y * ⌊x / y⌋

/-- The correction that `np.unwrap` makes for one difference. -/
def phCorrect (dd : ℝ) : ℝ :=
  if |dd| < Real.pi then 0
  else
    let ddmod := pyMod (dd + Real.pi) (2 * Real.pi) - Real.pi
    (if ddmod = -Real.pi ∧ 0 < dd then Real.pi else ddmod) - dd

/-- `np.unwrap`. -/
def unwrap (p : ℕ → ℝ) (i : ℕ) : ℝ := p i + ∑ k ∈ Finset.range i, phCorrect (p (k + 1) - p k)

/-- The wave vectors of one axis, l.326-330. -/
def waves (m : ℕ) (gs : ℝ) (i : ℕ) : ℝ := unwrap (fun i => 2 * Real.pi / m * (((i + (m - m / 2)) % m : ℕ) : ℝ) - 2 * Real.pi) i / gs

/-- L.333-334. -/
def rho (n m : ℕ) (gs : ℝ) (i j : ℕ) : ℝ := Real.sqrt (waves n gs i ^ 2 + waves m gs j ^ 2)

/-- L.337-339. A distance is never less than a `qr` that is not positive, so the infinite value is never assigned; the infinite power at distance zero (for sizes above two) is at the entry that is set to zero. -/
def rawPsd (n m : ℕ) (gs H qr : ℝ) (i j : ℕ) : ℝ :=
  if i = n / 2 ∧ j = m / 2 then 0
  else if rho n m gs i j < qr then qr ^ (-2 * (H + 1))
  else rho n m gs i j ^ (-2 * (H + 1))

/-- `sum(psd.flatten())`. -/
def total (n m : ℕ) (a : ℕ → ℕ → ℝ) : ℝ := ∑ i ∈ Finset.range n, ∑ j ∈ Finset.range m, a i j

/-- L.342-344: the spectrum scaled to sigma. -/
def psd (n m : ℕ) (gs H qr sigma : ℝ) (i j : ℕ) : ℝ :=
  rawPsd n m gs H qr i j * (sigma / Real.sqrt (total n m (rawPsd n m gs H qr) * (2 * Real.pi) ^ 2 / (m * gs) / (n * gs))) ^ 2

/-- L.348. -/
def magnitudes (n m : ℕ) (gs H qr sigma : ℝ) (i j : ℕ) : ℝ :=
  Real.sqrt (psd n m gs H qr sigma i j / (gs ^ 2 / (n * m * (2 * Real.pi) ^ 2)))

/-- `s + s % 2`, l.318. -/
def roundUp (s : ℕ) : ℕ := s + s % 2

/-- What the call gives: the shape of the profile, its heights (indices modulo the shape) and the stored arrays. -/
structure Realisation where
  rows : ℕ
  cols : ℕ
  height : Grid rows cols → ℝ
  /-- `fft` of the surface that gets the profile. -/
  fft : Grid rows cols → ℂ
  /-- `psd` of the surface that gets the profile. -/
  psd : Grid rows cols → ℝ

/-- `HurstFractalSurface.__init__`, l.249-254: the checked parameters. -/
def checkHurst (H : ℝ) : Except PyErr Unit := open Classical in if 1 < H ∨ H < 0 then .error .valueError else .ok ()

/-- L.324-371: the generated surface with `n` rows and `m` columns. With `return_new` the new surface gets the spectrum that is not shifted (l.366), else `self` gets the shifted one (l.345). Without points l.339 fails. -/
def realise (n m : ℕ) (gs H sigma qr : ℝ) (returnNew : Bool) (draws : ℕ → ℕ → ℝ) : Except PyErr Realisation :=
  let mag := magnitudes n m gs H qr sigma
  let phases := fun i j => -Real.pi + 2 * Real.pi * draws i j
  if h : n ≠ 0 ∧ m ≠ 0 then
    haveI : NeZero n := ⟨h.1⟩
    haveI : NeZero m := ⟨h.2⟩
    .ok { rows := n, cols := m,
          height := fun a => (inverse n m mag phases a).re
          fft := fouTrans n m mag phases
          psd := fun k => if returnNew then psd n m gs H qr sigma k.1.val k.2.val
            else psd n m gs H qr sigma (k.1 + (n / 2 : ℕ)).val (k.2 + (m / 2 : ℕ)).val }
  else .error .indexError

/-- `HurstFractalSurface.discretise`, l.310-371. `hasProfile` says whether `self.profile` is set. L.318: `m` is made from the first number of the shape, `n` from the second. -/
def discretise (H sigma qr : ℝ) (hasProfile : Bool) (shape : Option (ℕ × ℕ)) (gridSpacing : Option ℝ) (returnNew : Bool) (draws : ℕ → ℕ → ℝ) : Except PyErr Realisation :=
  if hasProfile && !returnNew then .error .valueError
  else match shape, gridSpacing with
    | some (s0, s1), some gs => realise (roundUp s1) (roundUp s0) gs H sigma qr returnNew draws
    | _, _ => .error .valueError

end

end Verif.Fractal
