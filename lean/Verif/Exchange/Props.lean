import Verif.Gap.Props
import Verif.Interference.Model
import Verif.HeightResults.Props

/-!
# C166: which of the two bodies is surface 1

`get_gap_from_model` (`slippy/contact/_model_utils.py` l.62-152, model `Verif.Gap`), `solve_normal_interference` for influence matrix materials (`slippy/contact/_step_utils.py` l.526-565,
model `Verif.Interference.solveIm`) and the results of the height search (l.184-236, model `Verif.HeightResults`), with the surfaces exchanged.
-/

namespace Verif.Exchange

open Verif

/-! ## The gap -/

/-- Two gaps with the same smallest value that differ by a constant are equal. -/
theorem same_minimum {α : Type} (S : α → Prop) (f g : α → ℝ) (m c : ℝ) (hf : ∀ x, S x → m ≤ f x) (hf' : ∃ x, S x ∧ f x = m) (hg : ∀ x, S x → m ≤ g x) (hg' : ∃ x, S x ∧ g x = m)
    (h : ∀ x, S x → f x = g x + c) : ∀ x, S x → f x = g x := by
  obtain ⟨x, hx, ex⟩ := hf'
  obtain ⟨y, hy, ey⟩ := hg'
  have h1 := h x hx
  have h2 := h y hy
  have h3 := hf y hy
  have h4 := hg x hx
  intro z hz
  have := h z hz
  have : c = 0 := by linarith
  linarith

/-- The node of the second surface that a point at a whole number of cells is in. -/
theorem cell_of (gs : ℝ) (hgs : 0 < gs) (k : ℕ) (t : ℤ) (h1 : k * gs ≤ t * gs) (h2 : t * gs < (k + 1) * gs) : (k : ℤ) = t := by
  have e1 : (k : ℝ) ≤ t := le_of_mul_le_mul_right h1 hgs
  have e2 : (t : ℝ) < k + 1 := lt_of_mul_lt_mul_right h2 hgs.le
  have e1' : (k : ℤ) ≤ t := by exact_mod_cast e1
  have e2' : t < (k : ℤ) + 1 := by exact_mod_cast e2
  omega

/-- **C166, gap.** Two surfaces of the same grid (spacing and shape) that overlap: with the surfaces exchanged and the off set reversed the gap is the same array. Any interference, off sets of
whole cells, no periodicity. -/
theorem C166_gap_partial (s1 s2 : Gap.Disc) (d : ℝ) (a b : ℤ) (hgs : 0 < s1.gs) (hs : s2.gs = s1.gs) (hr : s2.profile.rows = s1.profile.rows) (hc : s2.profile.cols = s1.profile.cols)
    (ha1 : -a < s1.profile.rows) (ha2 : a < s1.profile.rows) (hb1 : -b < s1.profile.cols) (hb2 : b < s1.profile.cols) :
    ∃ g g', Gap.getGap (some s1) (.discrete s2 .nearest) d (a * s1.gs) (b * s1.gs) false = .ok g ∧
      Gap.getGap (some s2) (.discrete s1 .nearest) d (((-a : ℤ) : ℝ) * s2.gs) (((-b : ℤ) : ℝ) * s2.gs) false = .ok g' ∧ g'.rows = g.rows ∧ g'.cols = g.cols ∧
      ∀ i < g.rows, ∀ j < g.cols, g'.z i j = g.z i j := by
  obtain ⟨g, eg, gr, gc, c, hg⟩ := Gap.C26_difference_overlap s1 s2 d a b s1.profile.rows s1.profile.cols hgs (hs ▸ hgs) (by omega) (by omega)
    (by simp only [Gap.Disc.extentY, hs, hr]; push_cast; ring) (by simp only [Gap.Disc.extentX, hs, hc]; push_cast; ring) le_rfl le_rfl ha1 ha2 hb1 hb2
  obtain ⟨g', eg', gr', gc', c', hg'⟩ := Gap.C26_difference_overlap s2 s1 d (-a) (-b) s2.profile.rows s2.profile.cols (hs ▸ hgs) hgs (by omega) (by omega)
    (by simp only [Gap.Disc.extentY, hs, hr]; push_cast; ring) (by simp only [Gap.Disc.extentX, hs, hc]; push_cast; ring) le_rfl le_rfl (by omega) (by omega) (by omega) (by omega)
  have er : g'.rows = g.rows := by rw [gr, gr']; omega
  have ec : g'.cols = g.cols := by rw [gc, gc']; omega
  refine ⟨g, g', eg, eg', er, ec, ?_⟩
  have val : ∀ i < g.rows, ∀ j < g.cols, g.z i j = -s2.profile.z (a.toNat + i) (b.toNat + j) - s1.profile.z ((-a).toNat + i) ((-b).toNat + j) - c := by
    intro i hi j hj
    obtain ⟨k, -, l, -, ⟨k1, k2⟩, ⟨l1, l2⟩, e⟩ := hg i hi j hj
    rw [hs] at k1 k2 l1 l2
    have e1 := cell_of s1.gs hgs k (((-a).toNat + i : ℕ) + a) (by push_cast at k1 ⊢; linarith) (by push_cast at k2 ⊢; linarith)
    have e2 := cell_of s1.gs hgs l (((-b).toNat + j : ℕ) + b) (by push_cast at l1 ⊢; linarith) (by push_cast at l2 ⊢; linarith)
    have e3 : k = a.toNat + i := by omega
    have e4 : l = b.toNat + j := by omega
    rw [e, e3, e4]
  have val' : ∀ i < g.rows, ∀ j < g.cols, g'.z i j = -s1.profile.z ((-a).toNat + i) ((-b).toNat + j) - s2.profile.z (a.toNat + i) (b.toNat + j) - c' := by
    intro i hi j hj
    obtain ⟨k, -, l, -, ⟨k1, k2⟩, ⟨l1, l2⟩, e⟩ := hg' i (by omega) j (by omega)
    rw [hs] at k1 k2 l1 l2
    have e1 := cell_of s1.gs hgs k (((- -a).toNat + i : ℕ) + -a) (by push_cast at k1 ⊢; linarith) (by push_cast at k2 ⊢; linarith)
    have e2 := cell_of s1.gs hgs l (((- -b).toNat + j : ℕ) + -b) (by push_cast at l1 ⊢; linarith) (by push_cast at l2 ⊢; linarith)
    have e3 : k = (-a).toNat + i := by omega
    have e4 : l = (-b).toNat + j := by omega
    rw [e, e3, e4, neg_neg, neg_neg]
  obtain ⟨m1, i1, hi1, j1, hj1, m2⟩ := Gap.C26_minimum_is_minus_interference _ _ _ _ _ _ _ eg
  obtain ⟨m3, i2, hi2, j2, hj2, m4⟩ := Gap.C26_minimum_is_minus_interference _ _ _ _ _ _ _ eg'
  intro i hi j hj
  refine same_minimum (fun p : ℕ × ℕ => p.1 < g.rows ∧ p.2 < g.cols) (fun p => g'.z p.1 p.2) (fun p => g.z p.1 p.2) (-d) (c - c') ?_ ⟨(i2, j2), by dsimp only; omega, m4⟩ ?_
    ⟨(i1, j1), ⟨hi1, hj1⟩, m2⟩ ?_ (i, j) ⟨hi, hj⟩
  · rintro ⟨i, j⟩ ⟨hi, hj⟩
    exact m3 i (by dsimp only at hi; omega) j (by dsimp only at hj; omega)
  · rintro ⟨i, j⟩ ⟨hi, hj⟩
    exact m1 i hi j hj
  · rintro ⟨i, j⟩ ⟨hi, hj⟩
    dsimp only at hi hj ⊢
    rw [val i hi j hj, val' i hi j hj]
    ring

/-- Hypotheses of `C166_gap_partial`: two surfaces of four by four points, moved by one cell in y and back by two in x. -/
example (z1 z2 : ℕ → ℕ → ℝ) : 0 < (Gap.exampleDisc z1).gs ∧ (Gap.exampleDisc z2).gs = (Gap.exampleDisc z1).gs ∧ (Gap.exampleDisc z2).profile.rows = (Gap.exampleDisc z1).profile.rows ∧
    -(1 : ℤ) < (Gap.exampleDisc z1).profile.rows ∧ (1 : ℤ) < (Gap.exampleDisc z1).profile.rows ∧ -(-2 : ℤ) < (Gap.exampleDisc z1).profile.cols ∧ (-2 : ℤ) < (Gap.exampleDisc z1).profile.cols := by
  simp [Gap.exampleDisc]

/-- The node of a periodic surface that a point close above a whole number of cells is in. -/
theorem cell_of_periodic (gs : ℝ) (hgs : 0 < gs) (N : ℕ) (hN : N < 2 ^ 52) (hN0 : 0 < N) (k : ℕ) (hk : k < N) (t m : ℤ) (h1 : k * gs ≤ t * gs + Gap.eps * (gs * N) + m * (gs * N))
    (h2 : t * gs + Gap.eps * (gs * N) + m * (gs * N) < (k + 1) * gs) : (k : ℤ) = t % N := by
  have he : 0 ≤ Gap.eps * N ∧ Gap.eps * N < 1 := by
    unfold Gap.eps
    have h52 : (N : ℝ) < 2 ^ 52 := by exact_mod_cast hN
    constructor
    · positivity
    · rw [zpow_neg, inv_mul_lt_iff₀ (by positivity)]
      simpa using h52
  have e1 : (k : ℝ) ≤ t + Gap.eps * N + m * N := le_of_mul_le_mul_right (by linarith) hgs
  have e2 : t + Gap.eps * N + m * N < (k : ℝ) + 1 := lt_of_mul_lt_mul_right (by linarith) hgs.le
  have e3 : (k : ℝ) < ((t + m * N + 1 : ℤ) : ℝ) := by push_cast; linarith [he.2]
  have e4 : ((t + m * N : ℤ) : ℝ) < ((k + 1 : ℤ) : ℝ) := by push_cast; linarith [he.1]
  have e3' : (k : ℤ) < t + m * N + 1 := by exact_mod_cast e3
  have e4' : t + m * (N : ℤ) < k + 1 := by exact_mod_cast e4
  have e5 : t + m * (N : ℤ) = k := by omega
  rw [← Int.add_mul_emod_self_right t m N, e5, Int.emod_eq_of_lt (by omega) (by omega)]

/-- The node `t` cells from the first one on a ring of `N` nodes. -/
def ring (N : ℕ) (t : ℤ) : ℕ := (t % N).toNat

theorem ring_lt (N : ℕ) (hN : 0 < N) (t : ℤ) : ring N t < N := by
  have := Int.emod_lt_of_pos t (by omega : (0 : ℤ) < N)
  have := Int.emod_nonneg t (by omega : (N : ℤ) ≠ 0)
  unfold ring
  omega

theorem ring_cast (N : ℕ) (hN : 0 < N) (t : ℤ) : ((ring N t : ℕ) : ℤ) = t % N := by
  have := Int.emod_nonneg t (by omega : (N : ℤ) ≠ 0)
  unfold ring
  omega

theorem ring_back (N : ℕ) (hN : 0 < N) (i : ℕ) (hi : i < N) (a : ℤ) : ((ring N (i + a) : ℕ) - a : ℤ) % N = i := by
  rw [ring_cast N hN, Int.emod_sub_emod, add_sub_cancel_right, Int.emod_eq_of_lt (by omega) (by omega)]

/-- **C166, gap of periodic surfaces.** Two surfaces of the same grid, off sets of any whole number of cells: with the surfaces exchanged and the off set reversed the gap is the same array, moved
around by the off set. -/
theorem C166_gap_periodic_partial (s1 s2 : Gap.Disc) (d : ℝ) (a b : ℤ) (hgs : 0 < s1.gs) (hs : s2.gs = s1.gs) (hr : s2.profile.rows = s1.profile.rows) (hc : s2.profile.cols = s1.profile.cols)
    (hr0 : 0 < s1.profile.rows) (hc0 : 0 < s1.profile.cols) (hr1 : s1.profile.rows < 2 ^ 52) (hc1 : s1.profile.cols < 2 ^ 52) :
    ∃ g g', Gap.getGap (some s1) (.discrete s2 .nearest) d (a * s1.gs) (b * s1.gs) true = .ok g ∧
      Gap.getGap (some s2) (.discrete s1 .nearest) d (((-a : ℤ) : ℝ) * s2.gs) (((-b : ℤ) : ℝ) * s2.gs) true = .ok g' ∧ g'.rows = g.rows ∧ g'.cols = g.cols ∧
      ∀ i < g.rows, ∀ j < g.cols, g'.z i j = g.z (ring g.rows (i + a)) (ring g.cols (j + b)) := by
  obtain ⟨g, eg, gr, gc, c, hg⟩ := Gap.C26_difference_periodic s1 s2 d (a * s1.gs) (b * s1.gs) hgs (hs ▸ hgs) hr0 hc0 (by omega) (by omega)
  obtain ⟨g', eg', gr', gc', c', hg'⟩ := Gap.C26_difference_periodic s2 s1 d (((-a : ℤ) : ℝ) * s2.gs) (((-b : ℤ) : ℝ) * s2.gs) (hs ▸ hgs) hgs (by omega) (by omega) hr0 hc0
  have er : g'.rows = g.rows := by omega
  have ec : g'.cols = g.cols := by omega
  refine ⟨g, g', eg, eg', er, ec, ?_⟩
  have val : ∀ i < g.rows, ∀ j < g.cols, g.z (ring g.rows (i + a)) (ring g.cols (j + b)) = -s2.profile.z i j - s1.profile.z (ring g.rows (i + a)) (ring g.cols (j + b)) - c := by
    intro i hi j hj
    obtain ⟨k, hk, l, hl, m, n, ⟨k1, k2⟩, ⟨l1, l2⟩, e⟩ := hg _ (ring_lt g.rows (by omega) (i + a)) _ (ring_lt g.cols (by omega) (j + b))
    have b1 := ring_back g.rows (by omega) i hi a
    have b2 := ring_back g.cols (by omega) j hj b
    simp only [Gap.Disc.extentY, Gap.Disc.extentX, hs, hr, hc, ← gr, ← gc] at k1 k2 l1 l2
    have e1 := cell_of_periodic s1.gs hgs g.rows (by omega) (by omega) k (by omega) ((ring g.rows (i + a) : ℕ) - a) m (by push_cast at k1 ⊢; linarith) (by push_cast at k2 ⊢; linarith)
    have e2 := cell_of_periodic s1.gs hgs g.cols (by omega) (by omega) l (by omega) ((ring g.cols (j + b) : ℕ) - b) n (by push_cast at l1 ⊢; linarith) (by push_cast at l2 ⊢; linarith)
    have e3 : k = i := by rw [b1] at e1; exact_mod_cast e1
    have e4 : l = j := by rw [b2] at e2; exact_mod_cast e2
    rw [e, e3, e4]
  have val' : ∀ i < g.rows, ∀ j < g.cols, g'.z i j = -s1.profile.z (ring g.rows (i + a)) (ring g.cols (j + b)) - s2.profile.z i j - c' := by
    intro i hi j hj
    obtain ⟨k, hk, l, hl, m, n, ⟨k1, k2⟩, ⟨l1, l2⟩, e⟩ := hg' i (by omega) j (by omega)
    simp only [Gap.Disc.extentY, Gap.Disc.extentX, hs, hr, hc, ← gr, ← gc] at k1 k2 l1 l2
    have e1 := cell_of_periodic s1.gs hgs g.rows (by omega) (by omega) k (by omega) (i + a) m (by push_cast at k1 ⊢; linarith) (by push_cast at k2 ⊢; linarith)
    have e2 := cell_of_periodic s1.gs hgs g.cols (by omega) (by omega) l (by omega) (j + b) n (by push_cast at l1 ⊢; linarith) (by push_cast at l2 ⊢; linarith)
    rw [← ring_cast g.rows (by omega)] at e1
    rw [← ring_cast g.cols (by omega)] at e2
    have e3 : k = ring g.rows (i + a) := by exact_mod_cast e1
    have e4 : l = ring g.cols (j + b) := by exact_mod_cast e2
    rw [e, e3, e4]
  obtain ⟨m1, i1, hi1, j1, hj1, m2⟩ := Gap.C26_minimum_is_minus_interference _ _ _ _ _ _ _ eg
  obtain ⟨m3, i2, hi2, j2, hj2, m4⟩ := Gap.C26_minimum_is_minus_interference _ _ _ _ _ _ _ eg'
  have surj : ∀ N, 0 < N → ∀ i1 < N, ∀ a : ℤ, ring N ((ring N (i1 - a) : ℕ) + a) = i1 := by
    intro N hN i1 hi1 a
    have := ring_back N hN i1 hi1 (-a)
    rw [sub_neg_eq_add] at this
    have e := ring_cast N hN ((ring N (i1 - a) : ℕ) + a)
    rw [← sub_eq_add_neg] at this
    rw [this] at e
    exact_mod_cast e
  intro i hi j hj
  refine same_minimum (fun p : ℕ × ℕ => p.1 < g.rows ∧ p.2 < g.cols) (fun p => g'.z p.1 p.2) (fun p => g.z (ring g.rows (p.1 + a)) (ring g.cols (p.2 + b))) (-d) (c - c') ?_
    ⟨(i2, j2), by dsimp only; omega, m4⟩ ?_ ⟨(ring g.rows (i1 - a), ring g.cols (j1 - b)), ⟨ring_lt _ (by omega) _, ring_lt _ (by omega) _⟩, ?_⟩ ?_ (i, j) ⟨hi, hj⟩
  · rintro ⟨i, j⟩ ⟨hi, hj⟩
    exact m3 i (by dsimp only at hi; omega) j (by dsimp only at hj; omega)
  · rintro ⟨i, j⟩ ⟨hi, hj⟩
    exact m1 _ (ring_lt _ (by omega) _) _ (ring_lt _ (by omega) _)
  · dsimp only
    rw [surj g.rows (by omega) i1 hi1 a, surj g.cols (by omega) j1 hj1 b, m2]
  · rintro ⟨i, j⟩ ⟨hi, hj⟩
    dsimp only at hi hj ⊢
    rw [val i hi j hj, val' i hi j hj]
    ring

/-- Hypotheses of `C166_gap_periodic_partial`; on a ring of four nodes, seven cells back from node one is node two. -/
example (z1 z2 : ℕ → ℕ → ℝ) : 0 < (Gap.exampleDisc z1).gs ∧ (Gap.exampleDisc z2).gs = (Gap.exampleDisc z1).gs ∧ 0 < (Gap.exampleDisc z1).profile.rows ∧
    (Gap.exampleDisc z1).profile.rows < 2 ^ 52 ∧ ring 4 (1 + -7) = 2 := by
  simp [Gap.exampleDisc, ring]

/-- **C166 is false for surfaces of different size.** A surface that is smaller than its partner is accepted as surface 1; as surface 2 it is refused, whatever the off set. -/
theorem C166_size_wrong (s1 s2 : Gap.Disc) (d offY offX : ℝ) (mode : Gap.Mode) (h : s1.extentY < s2.extentY ∨ s1.extentX < s2.extentX) :
    Gap.getGap (some s2) (.discrete s1 mode) d offY offX false = .error .valueError := by
  simp only [Gap.getGap, Bool.false_eq_true, if_false]
  rw [if_pos h]

/-- Two by two points on four by four points: one order is refused, the other gives a gap. -/
example (z1 z2 : ℕ → ℕ → ℝ) (d : ℝ) : (∃ g, Gap.getGap (some ⟨⟨2, 2, z1⟩, 1⟩) (.discrete (Gap.exampleDisc z2) .nearest) d 0 0 false = .ok g) ∧
    Gap.getGap (some (Gap.exampleDisc z2)) (.discrete ⟨⟨2, 2, z1⟩, 1⟩ .nearest) d 0 0 false = .error .valueError := by
  refine ⟨?_, C166_size_wrong _ _ _ _ _ _ (Or.inl (by simp [Gap.exampleDisc, Gap.Disc.extentY]; norm_num))⟩
  obtain ⟨g, hg, -⟩ := Gap.C26_difference_overlap ⟨⟨2, 2, z1⟩, 1⟩ (Gap.exampleDisc z2) d 0 0 4 4 (by simp) (by simp [Gap.exampleDisc]) (by simp) (by simp)
    (by simp [Gap.exampleDisc, Gap.Disc.extentY]) (by simp [Gap.exampleDisc, Gap.Disc.extentX]) (by simp) (by simp) (by simp) (by simp) (by simp) (by simp)
  exact ⟨g, by simpa using hg⟩

/-- **C166 is false for analytic surfaces.** An analytic surface is accepted as surface 2 only: with an analytic (not discrete) surface 1 the call is refused, whatever surface 2 is. -/
theorem C166_analytic_wrong (s : Gap.Disc) (height : ℝ → ℝ → ℝ) (d offY offX : ℝ) (periodic : Bool) (hr : 0 < s.profile.rows) (hc : 0 < s.profile.cols) :
    (∃ g, Gap.getGap (some s) (.analytic height) d offY offX periodic = .ok g) ∧ ∀ s2, Gap.getGap none s2 d offY offX periodic = .error .valueError := by
  constructor
  · exact Gap.shift_ok _ _ hr hc
  · intro s2
    cases s2 <;> rfl

example (z : ℕ → ℕ → ℝ) : 0 < (Gap.exampleDisc z).profile.rows ∧ 0 < (Gap.exampleDisc z).profile.cols := by simp [Gap.exampleDisc]

/-! ## A set interference -/

/-- `min` of two numbers that are not `nan`. -/
theorem smaller_comm (a b : XR) (ha : a ≠ .nan) (hb : b ≠ .nan) : Interference.smaller a b = Interference.smaller b a := by
  cases a <;> cases b <;> simp_all [Interference.smaller, XR.lt]
  rename_i x y
  by_cases h1 : y < x
  · rw [if_pos h1, if_neg (not_lt.mpr h1.le)]
  · by_cases h2 : x < y
    · rw [if_neg h1, if_pos h2]
    · rw [if_neg h1, if_neg h2]
      congr 1
      linarith

/-- A result with the displacements of the surfaces exchanged. -/
def swapped {ι : Type} (r : Interference.Result ι (Interference.Pair ι)) : Interference.Result ι (Interference.Pair ι) :=
  { loads := r.loads, total := r.total, rest := (r.rest.2, r.rest.1), contact := r.contact, failed := r.failed, calls := r.calls }

/-- **C166, set interference.** For two influence matrix materials whose matrices can be found and whose greatest loads are numbers or infinite: with the materials exchanged the loads, the total
displacement, the contact nodes and the verdict are the same, and the displacements of the surfaces are exchanged. -/
theorem C166_interference_partial {n0 n1 : ℕ} (m1 m2 : Materials.Mat) (max1 max2 : XR) (gs : ℝ) (span : Option (ℕ × ℕ)) (z : Interference.Node n0 n1 → ℝ) (contact : Interference.Node n0 n1 → Bool)
    (adhesive : Interference.Adhesive (Interference.Node n0 n1)) (tol : ℝ) (maxIter : ℤ) (guess : Option (Interference.Guess (Interference.Node n0 n1))) (im1 im2 : ℕ → ℕ → ℝ)
    (h1 : m1.im (span.getD (n0 * 2, n1 * 2)) [gs, gs] (.z, .z) = .ok im1) (h2 : m2.im (span.getD (n0 * 2, n1 * 2)) [gs, gs] (.z, .z) = .ok im2) (hm1 : max1 ≠ .nan) (hm2 : max2 ≠ .nan) :
    Interference.solveIm m2 m1 max2 max1 gs span z contact adhesive tol maxIter guess = (Interference.solveIm m1 m2 max1 max2 gs span z contact adhesive tol maxIter guess).map swapped := by
  have e : (fun i j => im2 i j + im1 i j) = fun i j => im1 i j + im2 i j := by funext i j; rw [add_comm]
  have hm : Interference.smaller max2 max1 = Interference.smaller max1 max2 := smaller_comm max2 max1 hm2 hm1
  unfold Interference.solveIm
  simp only [h1, h2, bind, Except.bind]
  generalize Interference.smaller max2 max1 = a at hm ⊢
  generalize Interference.smaller max1 max2 = b at hm ⊢
  generalize (fun i j => im2 i j + im1 i j) = u at e ⊢
  generalize (fun i j => im1 i j + im2 i j) = v at e ⊢
  subst hm e
  cases Interference.startLoads (span.getD (n0 * 2, n1 * 2)) u z guess with
  | error err => rfl
  | ok start =>
    cases adhesive with
    | rule f => rfl
    | number p => rfl

/-- The same for the whole function, with the contact nodes that were used. -/
theorem C166_solve_partial {n0 n1 : ℕ} (pick : Interference.Pick (Interference.Node n0 n1)) (m1 m2 : Materials.Mat) (max1 max2 : XR) (gs interference : ℝ) (gap : Interference.Node n0 n1 → ℝ)
    (c : Interference.Call n0 n1) (im1 im2 : ℕ → ℕ → ℝ) (h1 : m1.im (c.span.getD (n0 * 2, n1 * 2)) [gs, gs] (.z, .z) = .ok im1)
    (h2 : m2.im (c.span.getD (n0 * 2, n1 * 2)) [gs, gs] (.z, .z) = .ok im2) (hm1 : max1 ≠ .nan) (hm2 : max2 ≠ .nan) :
    (Interference.solve pick (.im m2 m1 max2 max1) gs interference gap c).1 = (Interference.solve pick (.im m1 m2 max1 max2) gs interference gap c).1.map swapped ∧
      (Interference.solve pick (.im m2 m1 max2 max1) gs interference gap c).2 = (Interference.solve pick (.im m1 m2 max1 max2) gs interference gap c).2 := by
  unfold Interference.solve
  by_cases h : Interference.count (Interference.startNodes (Interference.needed interference gap) c.contact) = 0
  · simp only [if_pos h]
    exact ⟨rfl, trivial⟩
  · simp only [if_neg h]
    exact ⟨C166_interference_partial m1 m2 max1 max2 gs c.span _ _ _ c.tol c.maxIter c.guess im1 im2 h1 h2 hm1 hm2, trivial⟩

/-- Hypotheses of `C166_interference_partial` and `C166_solve_partial`: a rigid body and one with a constant matrix, greatest loads 5 and infinity. -/
example (span : ℕ × ℕ) (gs : ℝ) : ∃ im1 im2 : ℕ → ℕ → ℝ, Materials.Mat.rigid.im span [gs, gs] (.z, .z) = .ok im1 ∧ (Materials.Mat.general fun _ _ _ => .ok fun _ _ => 3).im span [gs, gs] (.z, .z) = .ok im2 ∧
    im1 ≠ im2 ∧ (XR.pinf ≠ .nan) ∧ XR.fin 5 ≠ .nan :=
  ⟨fun _ _ => 0, fun _ _ => 3, rfl, rfl, fun h => by have := congrFun (congrFun h 0) 0; norm_num at this, by simp, by simp⟩

/-! ## The height search -/

/-- The object with the bodies exchanged. -/
def exchanged (S : HeightResults.Setup) : HeightResults.Setup := { S with im1 := S.im2, im2 := S.im1 }

/-- A dictionary with the displacements of the bodies exchanged. -/
def swapFull (f : HeightResults.Full) : HeightResults.Full := { f with disp1 := f.disp2, disp2 := f.disp1 }

/-- The same for the attribute `_results`. -/
def swapResults : HeightResults.Results → HeightResults.Results
  | .raw l d h => .raw l d h
  | .full f => .full (swapFull f)

/-- The same for the object. -/
def swapObj (o : HeightResults.Obj) : HeightResults.Obj := { o with results := o.results.map swapResults }

/-- Whether a plan can be made, and the error if not, does not depend on the matrix. -/
theorem plan_same (S : HeightResults.Setup) (im im' : ℕ → ℕ → ℝ) :
    (∃ f f', HeightResults.plan S im = .ok f ∧ HeightResults.plan S im' = .ok f') ∨ ∃ e, HeightResults.plan S im = .error e ∧ HeightResults.plan S im' = .error e := by
  unfold HeightResults.plan Conv.plan
  cases S.periodic.flags with
  | error e => exact Or.inr ⟨e, rfl, rfl⟩
  | ok c =>
    obtain ⟨c0, c1⟩ := c
    cases h0 : Conv.axisLen S.backend.len c0 S.rows S.rows with
    | error e => exact Or.inr ⟨e, by simp only [h0], by simp only [h0]⟩
    | ok N0 =>
      cases h1 : Conv.axisLen S.backend.len c1 S.cols S.cols with
      | error e => exact Or.inr ⟨e, by simp only [h0, h1], by simp only [h0, h1]⟩
      | ok N1 =>
        by_cases h : N0 ≠ 0 ∧ N1 ≠ 0
        · left
          simp only [h0, h1, dif_pos h]
          exact ⟨_, _, rfl, rfl⟩
        · right
          simp only [h0, h1, dif_neg h]
          exact ⟨_, rfl, rfl⟩

theorem exchanged_finish (S : HeightResults.Setup) (pl : Option HeightResults.Mask) (v : List ℝ) (d : HeightResults.Mask) (h : ℝ) :
    HeightResults.finish (exchanged S) pl v d h = (HeightResults.finish S pl v d h).map swapFull := by
  have e : (fun i j => S.im2 i j + S.im1 i j) = fun i j => S.im1 i j + S.im2 i j := by funext i j; rw [add_comm]
  have ep : ∀ im, HeightResults.plan (exchanged S) im = HeightResults.plan S im := fun _ => rfl
  have ea : ∀ d, HeightResults.assign (exchanged S) d v = HeightResults.assign S d v := fun _ => rfl
  have e1 : (exchanged S).im1 = S.im2 := rfl
  have e2 : (exchanged S).im2 = S.im1 := rfl
  have ec : HeightResults.convFunc (exchanged S) pl v = HeightResults.convFunc S pl v := by
    cases pl with
    | none => rfl
    | some m => simp only [HeightResults.convFunc, e1, e2, e, ep, ea]
  have es : (exchanged S).spacing = S.spacing := rfl
  unfold HeightResults.finish
  rw [ec, ep, ep, ea, e1, e2, es]
  cases HeightResults.assign S d v with
  | error err => rfl
  | ok loads =>
    cases HeightResults.convFunc S pl v with
    | error err => rfl
    | ok total =>
      rcases plan_same S S.im1 S.im2 with ⟨f, f', h1, h2⟩ | ⟨err, h1, h2⟩
      · simp only [h1, h2, bind, Except.bind, Except.map, swapFull]
      · simp only [h1, h2, bind, Except.bind, Except.map]

theorem exchanged_problem (S : HeightResults.Setup) : (exchanged S).problem = S.problem := rfl

theorem exchanged_read (S : HeightResults.Setup) (o : HeightResults.Obj) :
    (HeightResults.read (exchanged S) (swapObj o)).1 = (HeightResults.read S o).1.map (Option.map swapFull) ∧
      (HeightResults.read (exchanged S) (swapObj o)).2 = swapObj (HeightResults.read S o).2 := by
  obtain ⟨c, r, pl⟩ := o
  have ei : (exchanged S).imMats = S.imMats := rfl
  cases r with
  | none =>
    simp only [HeightResults.read, swapObj, Option.map_none, ei]
    by_cases h : S.imMats = true
    · simp only [h, if_true]; exact ⟨rfl, rfl⟩
    · simp only [h]; exact ⟨rfl, rfl⟩
  | some r =>
    cases r with
    | full f => exact ⟨rfl, rfl⟩
    | raw v d h =>
      simp only [HeightResults.read, swapObj, Option.map_some, swapResults, exchanged_finish]
      cases HeightResults.finish S pl v d h with
      | error e => exact ⟨rfl, rfl⟩
      | ok f => exact ⟨rfl, rfl⟩

theorem exchanged_call (S : HeightResults.Setup) (o : HeightResults.Obj) (h : ℝ) :
    HeightResults.call (exchanged S) (swapObj o) h = (swapObj (HeightResults.call S o h).1, (HeightResults.call S o h).2) := by
  classical
  have ei : (exchanged S).imMats = S.imMats := rfl
  have en : ∀ d, (exchanged S).nodes d = S.nodes d := fun _ => rfl
  have el : ∀ h d, (exchanged S).loads h d = S.loads h d := fun _ _ => rfl
  have ec : (swapObj o).cache = o.cache := rfl
  unfold HeightResults.call
  rw [exchanged_problem, ec, ei]
  by_cases h1 : h ∈ o.cache.heights
  · simp only [if_pos h1]
    rfl
  · simp only [if_neg h1]
    by_cases h2 : S.imMats = true
    · simp only [if_pos h2, en, el]
      by_cases h3 : (S.nodes (HeightCache.nodesFor S.problem o.cache h)).isEmpty = true
      · simp only [if_pos h3]
        rfl
      · simp only [if_neg h3]
        rfl
    · simp only [if_neg h2]
      rfl

/-- **C166, height search.** The object made for the same gap with the matrices of the bodies exchanged: after the same calls, changes of load, clearings and readings it gives the same values (or
the same error) in the next call, holds the same heights and total loads, and what is read from it is the same dictionary with the displacements of the bodies exchanged. -/
theorem C166_search (S : HeightResults.Setup) (maxSetLoad : ℝ) (o : HeightResults.Obj) (ho : HeightResults.new S maxSetLoad = .ok o) (ops : List HeightResults.Op) :
    ∃ o', HeightResults.new { S with im1 := S.im2, im2 := S.im1 } maxSetLoad = .ok o' ∧
      (HeightResults.run { S with im1 := S.im2, im2 := S.im1 } o' ops).cache = (HeightResults.run S o ops).cache ∧
      (∀ h, (HeightResults.call { S with im1 := S.im2, im2 := S.im1 } (HeightResults.run { S with im1 := S.im2, im2 := S.im1 } o' ops) h).2 = (HeightResults.call S (HeightResults.run S o ops) h).2) ∧
      (HeightResults.read { S with im1 := S.im2, im2 := S.im1 } (HeightResults.run { S with im1 := S.im2, im2 := S.im1 } o' ops)).1 =
        (HeightResults.read S (HeightResults.run S o ops)).1.map (Option.map fun f => { f with disp1 := f.disp2, disp2 := f.disp1 }) := by
  have hn : swapObj o = o := by
    unfold HeightResults.new at ho
    cases hi : HeightCache.init S.problem none maxSetLoad with
    | error e => simp [hi] at ho
    | ok s =>
      simp only [hi, Except.ok.injEq] at ho
      rw [← ho]
      rfl
  have hrun : ∀ (ops : List HeightResults.Op) (o : HeightResults.Obj), HeightResults.run (exchanged S) (swapObj o) ops = swapObj (HeightResults.run S o ops) := by
    intro ops
    induction ops with
    | nil => intro o; rfl
    | cons op ops ih =>
      intro o
      have hs : HeightResults.step (exchanged S) (swapObj o) op = swapObj (HeightResults.step S o op) := by
        cases op with
        | call h => exact congrArg Prod.fst (exchanged_call S o h)
        | changeLoad l d => rfl
        | clear => rfl
        | read => exact (exchanged_read S o).2
      have := ih (HeightResults.step S o op)
      rw [← hs] at this
      exact this
  have hr := hrun ops o
  rw [hn] at hr
  refine ⟨o, ho, ?_, ?_, ?_⟩
  · have := congrArg (fun o : HeightResults.Obj => o.cache) hr
    exact this
  · intro h
    have := exchanged_call S (HeightResults.run S o ops) h
    rw [← hr] at this
    have := congrArg (fun p : HeightResults.Obj × Except PyErr ℝ => p.2) this
    exact this
  · have := (exchanged_read S (HeightResults.run S o ops)).1
    rw [← hr] at this
    exact this

/-- Hypotheses of `C166_search`: the object of the model of the results, whose two matrices differ, after a call, a reading and a change of the load. -/
example : HeightResults.new (HeightResults.demo true) 7 = .ok HeightResults.demo0 ∧ (HeightResults.demo true).im1 0 1 ≠ (HeightResults.demo true).im2 0 1 :=
  ⟨HeightResults.demo_new true, by simp [HeightResults.demo]⟩

/-- After the call at height 3/2 with two nodes in contact there is a dictionary to exchange. -/
example : ∃ f : HeightResults.Full, (HeightResults.read { HeightResults.demo true with im1 := (HeightResults.demo true).im2, im2 := (HeightResults.demo true).im1 } (HeightResults.run
    { HeightResults.demo true with im1 := (HeightResults.demo true).im2, im2 := (HeightResults.demo true).im1 } HeightResults.demo0 [.call (3 / 2)])).1 = .ok (some f) ∧ f.loads 0 1 = 5 := by
  obtain ⟨o, ho, -, -, hr⟩ := C166_search (HeightResults.demo true) 7 HeightResults.demo0 (HeightResults.demo_new true) [.call (3 / 2)]
  have : o = HeightResults.demo0 := by
    have e : HeightResults.new { HeightResults.demo true with im1 := (HeightResults.demo true).im2, im2 := (HeightResults.demo true).im1 } 7 = HeightResults.new (HeightResults.demo true) 7 := rfl
    rw [e, HeightResults.demo_new true] at ho
    exact (Except.ok.inj ho).symm
  subst this
  have hh : (3 / 2 : ℝ) ∉ (HeightResults.run (HeightResults.demo true) HeightResults.demo0 []).cache.heights := by simp [HeightResults.run, HeightResults.demo0]
  have hc : ∃ i j, i < (HeightResults.demo true).rows ∧ j < (HeightResults.demo true).cols ∧ HeightResults.sought (HeightResults.demo true) [] (3 / 2) i j :=
    ⟨0, 1, by simp [HeightResults.demo], by simp [HeightResults.demo], by simp [HeightResults.sought, HeightResults.given, HeightResults.demo]; norm_num⟩
  obtain ⟨f, d, hd, hf, -, hq⟩ := HeightResults.C148_results_partial (HeightResults.demo true) false false HeightResults.demo_sound 7 HeightResults.demo0 (HeightResults.demo_new true) [] (3 / 2) hh hc
  have hl : (HeightResults.read (HeightResults.demo true) (HeightResults.run (HeightResults.demo true) HeightResults.demo0 [.call (3 / 2)])).1 = .ok (some f) := hq [] trivial
  rw [hl] at hr
  exact ⟨_, hr, hf.inside 0 1 (by simp [HeightResults.demo]) (by simp [HeightResults.demo]) (by simp [HeightResults.sought, HeightResults.given, HeightResults.demo]; norm_num)⟩

end Verif.Exchange
