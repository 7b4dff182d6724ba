import Verif.Definite.Props
import Verif.Materials.LoadProps
import Verif.Cg.Finite

/-!
# C153: loads from normal displacements of elastic bodies

The hypotheses on the matrices in `C95_reproduces_partial` and C61 hold for one or two elastic bodies on a square grid when normal displacements are prescribed and the span is twice the grid.
-/

namespace Verif.Definite

open Verif HeightResults Materials Finset Real

/-! ## Specification -/

/-- The field `a` has the shape `(n0, n1)` and each entry is not prescribed (`nan`) or the number `w`. -/
structure Normal (a : Arr) (n0 n1 : ℕ) (w : ℕ → ℕ → ℝ) : Prop where
  rows : a.n0 = n0
  cols : a.n1 = n1
  entries : ∀ i j, i < n0 → j < n1 → a.val i j = .nan ∨ a.val i j = .fin (w i j)

/-- Only normal displacements are given. -/
def normal (a : Arr) : Triple := fun d => if d = .z then some a else none

/-! ## Lemmas -/

/-- The matrices act as positive multiples of the influence coefficients. -/
def Square (n0 n1 : ℕ) (span : ℕ × ℕ) (k : ℕ → ℕ → ℝ) (c : ℝ) : Prop := ∀ (l : ℕ → ℕ → ℝ) (i j : ℕ), i < n0 → j < n1 → Conv.sameConvolve n0 n1 span.1 span.2 k l i j =
  c * ∑ a ∈ range n0, ∑ b ∈ range n1, l a b * (InfMat.termX ((j : ℤ) - b) ((i : ℤ) - a) + InfMat.termY ((j : ℤ) - b) ((i : ℤ) - a))

theorem settlement_terms (b : Body) {h : ℝ} (hh : 0 < h) (n0 n1 : ℕ) (l : ℕ → ℕ → ℝ) (i j : ℕ) : settlement b h n0 n1 l i j = (1 - b.v) / (2 * π * b.G) * h *
    ∑ a ∈ range n0, ∑ c ∈ range n1, l a c * (InfMat.termX ((j : ℤ) - c) ((i : ℤ) - a) + InfMat.termY ((j : ℤ) - c) ((i : ℤ) - a)) := by
  unfold settlement
  simp only [cell_terms b hh, mul_sum]
  exact sum_congr rfl fun a _ => sum_congr rfl fun c _ => by ring

theorem same_settlement (b : Body) {h : ℝ} (hh : 0 < h) {n0 n1 S0 S1 : ℕ} (h0 : 2 * n0 ≤ S0 + 1) (h1 : 2 * n1 ≤ S1 + 1) (l : ℕ → ℕ → ℝ) {i j : ℕ} (hi : i < n0) (hj : j < n1) :
    Conv.sameConvolve n0 n1 S0 S1 (zz b S0 S1 h) l i j = settlement b h n0 n1 l i j := by
  unfold zz settlement
  rw [same_full h0 h1 _ l hi hj]
  exact sum_congr rfl fun a _ => sum_congr rfl fun c _ => by rw [zz_coefficient b hh]

theorem square_zz (b : Body) {h : ℝ} (hh : 0 < h) {n0 n1 S0 S1 : ℕ} (h0 : 2 * n0 ≤ S0 + 1) (h1 : 2 * n1 ≤ S1 + 1) : Square n0 n1 (S0, S1) (zz b S0 S1 h) ((1 - b.v) / (2 * π * b.G) * h) := by
  intro l i j hi hj
  rw [same_settlement b hh h0 h1 l hi hj, settlement_terms b hh]

theorem square_add {n0 n1 : ℕ} {span : ℕ × ℕ} {k k' : ℕ → ℕ → ℝ} {c c' : ℝ} (h : Square n0 n1 span k c) (h' : Square n0 n1 span k' c') : Square n0 n1 span (fun i j => k i j + k' i j) (c + c') := by
  intro l i j hi hj
  rw [same_add_im, h l i j hi hj, h' l i j hi hj, add_mul]

theorem square_pos {n0 n1 : ℕ} {span : ℕ × ℕ} {k : ℕ → ℕ → ℝ} {c : ℝ} (h : Square n0 n1 span k c) (hc : 0 < c) {l : ℕ → ℕ → ℝ} (hl : ∃ i j, i < n0 ∧ j < n1 ∧ l i j ≠ 0) :
    0 < ∑ i ∈ range n0, ∑ j ∈ range n1, l i j * Conv.sameConvolve n0 n1 span.1 span.2 k l i j := by
  refine (mul_pos hc (grid_pos l hl)).trans_eq ?_
  rw [mul_sum]
  refine sum_congr rfl fun i hi => ?_
  rw [mul_sum]
  refine sum_congr rfl fun j hj => ?_
  rw [h l i j (mem_range.mp hi) (mem_range.mp hj)]
  ring

theorem square_symm {n0 n1 : ℕ} {span : ℕ × ℕ} {k : ℕ → ℕ → ℝ} {c : ℝ} (h : Square n0 n1 span k c) (l l' : ℕ → ℕ → ℝ) :
    ∑ i ∈ range n0, ∑ j ∈ range n1, l i j * Conv.sameConvolve n0 n1 span.1 span.2 k l' i j = ∑ i ∈ range n0, ∑ j ∈ range n1, l' i j * Conv.sameConvolve n0 n1 span.1 span.2 k l i j := by
  have e : ∀ m m' : ℕ → ℕ → ℝ, ∑ i ∈ range n0, ∑ j ∈ range n1, m i j * Conv.sameConvolve n0 n1 span.1 span.2 k m' i j = c * (2 * π * 1) * work ⟨1, 0⟩ 1 n0 n1 m m' := by
    intro m m'
    unfold work
    rw [mul_sum]
    refine sum_congr rfl fun i hi => ?_
    rw [mul_sum]
    refine sum_congr rfl fun j hj => ?_
    rw [h m' i j (mem_range.mp hi) (mem_range.mp hj), settlement_terms _ one_pos]
    have := Real.pi_pos
    field_simp
    simp
  rw [e, e, C153_reciprocal ⟨1, 0⟩ one_pos]

theorem normal_some {a : Arr} {d : Dir} {b : Arr} (h : normal a d = some b) : d = .z ∧ b = a := by
  unfold normal at h
  split_ifs at h with hd
  injection h with h
  exact ⟨hd, h.symm⟩

theorem normal_z (a : Arr) : normal a .z = some a := rfl

theorem normal_isSome (a : Arr) : (normal a .z).isSome = true := rfl

theorem Normal.prescribed {a : Arr} {n0 n1 : ℕ} {w : ℕ → ℕ → ℝ} (h : Normal a n0 n1 w) : Prescribed (normal a) n0 n1 fun _ => w := by
  intro d b hb
  obtain ⟨-, rfl⟩ := normal_some hb
  exact ⟨h.rows, h.cols, h.entries⟩

theorem directions_normal (a : Arr) : directions (normal a) = [.z] := by simp [directions, valid, normal]

theorem sum_dir (f : Dir → ℝ) (h : ∀ d, d ≠ .z → f d = 0) : ∑ d, f d = f .z := Finset.sum_eq_single .z (fun d _ hd => h d hd) (by simp)

theorem firm {a : Arr} {n0 n1 : ℕ} {span : ℕ × ℕ} {K : Dir → ℕ → ℕ → ℝ} {c : ℝ} (hc : 0 < c) (h : Square n0 n1 span (K .z) c) : Firm (normal a) n0 n1 span K := by
  intro v hv hne
  have hz : ∀ d i j, d ≠ .z → v d i j = 0 := fun d i j hd => by
    by_contra hn
    obtain ⟨-, -, b, hb, -⟩ := hv d i j hn
    exact hd (normal_some hb).1
  rw [sum_dir _ fun d hd => sum_eq_zero fun i _ => sum_eq_zero fun j _ => by rw [hz d i j hd, zero_mul]]
  apply square_pos h hc
  by_contra hn
  push Not at hn
  apply hne
  funext d i j
  by_contra hd
  obtain ⟨hi, hj, b, hb, -⟩ := hv d i j hd
  obtain ⟨rfl, -⟩ := normal_some hb
  exact hd (hn i j hi hj)

theorem restricted_sum (t : Triple) (n0 n1 : ℕ) (span : ℕ × ℕ) (K : Dir → ℕ → ℕ → ℝ) (u v : Cg.Dom (flat (ds := directions t) (n0 := n0) (n1 := n1) t) → ℝ) :
    ∑ k, u k * Cg.restricted (flat t) (linear (directions t) n0 n1 span K) v k =
      ∑ d, ∑ i ∈ range n0, ∑ j ∈ range n1, field (Cg.extend (flat t) u) d i j * Conv.sameConvolve n0 n1 span.1 span.2 (K d) (field (Cg.extend (flat t) v) d) i j := by
  classical
  set e := Cg.extend (flat (ds := directions t) (n0 := n0) (n1 := n1) t) u with he
  set e' := Cg.extend (flat (ds := directions t) (n0 := n0) (n1 := n1) t) v with he'
  have hk : ∀ k, u k * Cg.restricted (flat (ds := directions t) (n0 := n0) (n1 := n1) t) (linear (directions t) n0 n1 span K) v k = e k.1 * linear (directions t) n0 n1 span K e' k.1 := by
    intro k
    have : e k.1 = u k := by rw [he, Cg.extend]; simp [k.2]
    rw [this]
    rfl
  rw [Finset.sum_congr rfl fun k _ => hk k]
  have hs : ∑ k : Cg.Dom (flat (ds := directions t) (n0 := n0) (n1 := n1) t), e k.1 * linear (directions t) n0 n1 span K e' k.1 = ∑ k, e k * linear (directions t) n0 n1 span K e' k := by
    rw [← Finset.sum_filter_add_sum_filter_not univ (Cg.prescribed (flat (ds := directions t) (n0 := n0) (n1 := n1) t)) fun k => e k * linear (directions t) n0 n1 span K e' k]
    rw [Finset.sum_eq_zero (s := univ.filter fun k => ¬ _) (fun k hk => ?_), add_zero]
    · rw [Finset.sum_subtype (univ.filter (Cg.prescribed (flat (ds := directions t) (n0 := n0) (n1 := n1) t))) (p := Cg.prescribed (flat t)) (by simp)]
    · have : e k = 0 := by
        rw [he, Cg.extend]
        simp [(Finset.mem_filter.mp hk).2]
      rw [this, zero_mul]
  rw [hs, sum_idx (fun k => e k * linear (directions t) n0 n1 span K e' k) (fun d i j => field e d i j * Conv.sameConvolve n0 n1 span.1 span.2 (K d) (field e' d) i j)]
  · intro k
    have : field e k.1.1 k.2.1 k.2.2 = e k := by simp [field, k.1.2, k.2.1.2, k.2.2.2]
    rw [this]
    rfl
  · intro d hd i j
    rw [field, dif_neg (fun hh => hd hh.1), zero_mul]

theorem symmetric {a : Arr} {n0 n1 : ℕ} {span : ℕ × ℕ} {K : Dir → ℕ → ℕ → ℝ} {c : ℝ} (h : Square n0 n1 span (K .z) c) :
    Cg.Symmetric (flat (ds := directions (normal a)) (n0 := n0) (n1 := n1) (normal a)) (linear (directions (normal a)) n0 n1 span K) := by
  intro u v
  have hz : ∀ (w : Idx (directions (normal a)) n0 n1 → ℝ) d i j, d ≠ .z → field w d i j = 0 := fun w d i j hd => by
    rw [field, dif_neg]
    rw [directions_normal, List.mem_singleton]
    exact fun hh => hd hh.1
  rw [restricted_sum, restricted_sum, sum_dir _ fun d hd => sum_eq_zero fun i _ => sum_eq_zero fun j _ => by rw [hz _ d i j hd, zero_mul],
    sum_dir _ fun d hd => sum_eq_zero fun i _ => sum_eq_zero fun j _ => by rw [hz _ d i j hd, zero_mul], square_symm h]

theorem solve_quiet {a : Arr} {n0 n1 : ℕ} {w : ℕ → ℕ → ℝ} (hw : Normal a n0 n1 w) {span : ℕ × ℕ} {K : Dir → ℕ → ℕ → ℝ} {c : ℝ} (hc : 0 < c) (hK : Square n0 n1 span (K .z) c) {tol : ℝ} (htol : 0 < tol) {maxIt : ℤ}
    (hm : ((n0 * n1 : ℕ) : ℤ) ≤ maxIt) {r : Triple × (Dir → Arr) × Bool} (hr : solveIm (n0, n1) span (dict (diag (directions (normal a))) fun c => K c.1) (normal a) maxIt (.fin tol) = .ok r) : r.2.2 = false := by
  obtain ⟨g, hg, -, -, h3⟩ := solveIm_spec hr
  obtain ⟨u0, hu0⟩ := guess_numbers (n0 := n0) (n1 := n1) hg hw.prescribed
  rw [h3, hu0]
  refine (Cg.C61_converges_within_number_of_entries _ _ (actsAs (directions (normal a)) n0 n1 span K) (flat (normal a)) (definite (firm hc hK)) (symmetric hK) maxIt ?_ tol htol u0 (fun k => w k.2.1 k.2.2) fun k hk => ?_).1
  · refine le_trans ?_ hm
    have h1 : Fintype.card (Cg.Dom (flat (ds := directions (normal a)) (n0 := n0) (n1 := n1) (normal a))) ≤ Fintype.card (Idx (directions (normal a)) n0 n1) := Fintype.card_subtype_le _
    have h2 : Fintype.card (Idx (directions (normal a)) n0 n1) = n0 * n1 := by
      rw [Fintype.card_prod, Fintype.card_prod, Fintype.card_fin, Fintype.card_fin, directions_normal]
      simp
    rw [h2] at h1
    exact_mod_cast h1
  · obtain ⟨b, hb⟩ := Option.isSome_iff_exists.mp (mem_directions.mp k.1.2)
    have := (normal_some hb).2
    subst this
    simp only [flat, hb] at hk ⊢
    exact (hw.entries k.2.1 k.2.2 k.2.1.2 k.2.2.2).resolve_left hk

theorem diagonal_normal (simple : Bool) (a : Arr) : Diagonal simple (normal a) := Or.inr (by rw [directions_normal]; rfl)

theorem matrices_normal (b : Body) (h : ℝ) (S0 S1 : ℕ) (a : Arr) : Matrices (.general (elasticIm b.G b.v)) (S0, S1) h h (normal a) fun _ => zz b S0 S1 h := by
  intro d hd
  obtain ⟨x, hx⟩ := Option.isSome_iff_exists.mp hd
  obtain ⟨rfl, -⟩ := normal_some hx
  rfl

/-! ## Theorems -/

/-- C153: for normal displacements prescribed at any nodes of a square grid on an elastic body, with a span of at least twice the grid, `loads_from_surface_displacement` returns numbers; the displacements returned are those of the half space
under these loads; if as many steps are allowed as there are nodes no warning is issued; and without a warning every prescribed displacement is reached within the tolerance. -/
theorem C153_loads {b : Body} (hb : Soft b) {h : ℝ} (hh : 0 < h) {g : Spacing} (hg : Means g h h) {a : Arr} {n0 n1 : ℕ} {w : ℕ → ℕ → ℝ} (hw : Normal a n0 n1 w) {S0 S1 : ℕ} (h0 : 0 < S0) (h1 : 0 < S1)
    (hS0 : 2 * n0 ≤ S0 + 1) (hS1 : 2 * n1 ≤ S1 + 1) (simple : Bool) {tol : ℝ} (htol : 0 < tol) (maxIt : ℤ) :
    ∃ r p, loadsFrom (.general (elasticIm b.G b.v)) (.tuple (normal a)) g .none (some (S0, S1)) (.fin tol) simple maxIt = .ok r ∧ Numbers r.loads n0 n1 (fun _ => p) ∧
      (∀ i j, i < n0 → j < n1 → (r.full .z).val i j = .fin (settlement b h n0 n1 p i j)) ∧ (((n0 * n1 : ℕ) : ℤ) ≤ maxIt → r.warned = false) ∧
      (r.warned = false → ∀ i j, i < n0 → j < n1 → a.val i j ≠ .nan → |w i j - settlement b h n0 n1 p i j| < tol) := by
  have hsq := square_zz b hh hS0 hS1
  have hc := factor_pos hb hh
  obtain ⟨r, p, e, hp, hf, hx⟩ := C95_reproduces_partial (.general (elasticIm b.G b.v)) hw.prescribed ⟨.z, normal_isSome a⟩ hg (diagonal_normal simple a) (span := some (S0, S1)) h0 h1 (matrices_normal b h S0 S1 a)
    (firm hc hsq) htol maxIt
  refine ⟨r, p .z, e, fun d l hl => ?_, fun i j hi hj => ?_, fun hm => ?_, fun hq i j hi hj hn => ?_⟩
  · have hd : (normal a d).isSome = true := by
      rw [← (C95_free_nodes _ hw.prescribed.shaped _ _ _ _ _ _ e).1 d, hl]
      rfl
    obtain ⟨x, hx⟩ := Option.isSome_iff_exists.mp hd
    obtain ⟨rfl, -⟩ := normal_some hx
    exact hp _ _ hl
  · rw [hf .z (normal_isSome a)]
    exact congrArg _ (same_settlement b hh hS0 hS1 _ hi hj)
  · rw [loadsFrom_alone hw.prescribed.shaped ⟨.z, normal_isSome a⟩ hg (diagonal_normal simple a) (matrices_normal b h S0 S1 a)] at e
    cases hr : solveIm (n0, n1) (S0, S1) (dict (diag (directions (normal a))) fun c => (fun _ => zz b S0 S1 h) c.1) (normal a) maxIt (.fin tol) with
    | error x =>
      change Except.map _ (solveIm (n0, n1) (S0, S1) _ _ _ _) = _ at e
      rw [hr] at e
      cases e
    | ok s =>
      change Except.map _ (solveIm (n0, n1) (S0, S1) _ _ _ _) = _ at e
      rw [hr] at e
      injection e with e
      rw [← e]
      exact solve_quiet (K := fun _ => zz b S0 S1 h) hw hc hsq htol hm hr
  · obtain ⟨x, e1, e2⟩ := hx hq .z a i j (normal_z a) hi hj hn
    rw [hf .z (normal_isSome a)] at e1
    injection e1 with e1
    rw [← same_settlement b hh hS0 hS1 _ hi hj]
    rw [← e1] at e2
    exact e2

/-- Two nodes pressed in by a micron, one free, steel. -/
example (simple : Bool) := C153_loads steel (h := 1e-6) (by norm_num) (.number _) (a := ⟨1, 3, fun _ j => if j = 1 then .nan else .fin 1e-6⟩) (n0 := 1) (n1 := 3) (w := fun _ _ => 1e-6)
  ⟨rfl, rfl, fun _ j _ _ => by by_cases hj : j = 1 <;> simp [hj]⟩ (S0 := 2) (S1 := 6) (by norm_num) (by norm_num) (by norm_num) (by norm_num) simple (tol := 1e-9) (by norm_num) 100

/-- C153: the same for two elastic bodies: the displacement reached is the sum of those of the two half spaces, and the two displacements returned are those of the two half spaces. -/
theorem C153_pair {b1 b2 : Body} (hb1 : Soft b1) (hb2 : Soft b2) {h : ℝ} (hh : 0 < h) {g : Spacing} (hg : Means g h h) {a : Arr} {n0 n1 : ℕ} {w : ℕ → ℕ → ℝ} (hw : Normal a n0 n1 w) {S0 S1 : ℕ} (h0 : 0 < S0) (h1 : 0 < S1)
    (hS0 : 2 * n0 ≤ S0 + 1) (hS1 : 2 * n1 ≤ S1 + 1) (simple : Bool) {tol : ℝ} (htol : 0 < tol) (maxIt : ℤ) :
    ∃ r p u v x y, loadsFrom (.general (elasticIm b1.G b1.v)) (.tuple (normal a)) g (.im (.general (elasticIm b2.G b2.v))) (some (S0, S1)) (.fin tol) simple maxIt = .ok r ∧ Numbers r.loads n0 n1 (fun _ => p) ∧
      r.parts = some (u, v) ∧ u .z = .arr x ∧ v .z = .arr y ∧ (∀ i j, i < n0 → j < n1 → x.val i j = .fin (settlement b1 h n0 n1 p i j) ∧ y.val i j = .fin (settlement b2 h n0 n1 p i j)) ∧
      (((n0 * n1 : ℕ) : ℤ) ≤ maxIt → r.warned = false) ∧
      (r.warned = false → ∀ i j, i < n0 → j < n1 → a.val i j ≠ .nan → |w i j - (settlement b1 h n0 n1 p i j + settlement b2 h n0 n1 p i j)| < tol) := by
  have hsq := square_add (square_zz b1 hh hS0 hS1) (square_zz b2 hh hS0 hS1)
  have hc := add_pos (factor_pos hb1 hh) (factor_pos hb2 hh)
  obtain ⟨s, p, e, hp, hf, hx⟩ := C95_reproduces_partial (.general fun _ _ c => .ok fun i j => (fun _ => zz b1 S0 S1 h) c.1 i j + (fun _ => zz b2 S0 S1 h) c.1 i j) hw.prescribed ⟨.z, normal_isSome a⟩ hg (diagonal_normal simple a)
    (span := some (S0, S1)) h0 h1 (K := fun _ i j => zz b1 S0 S1 h i j + zz b2 S0 S1 h i j) (fun _ _ => rfl) (firm hc hsq) htol maxIt
  obtain ⟨r, u, v, er, hl, hfull, hwarn, hparts, hboth⟩ := C95_split (.general (elasticIm b1.G b1.v)) (.general (elasticIm b2.G b2.v)) hw.prescribed.shaped ⟨.z, normal_isSome a⟩ hg (diagonal_normal simple a) (span := some (S0, S1))
    (matrices_normal b1 h S0 S1 a) (matrices_normal b2 h S0 S1 a) (.fin tol) maxIt e hp
  obtain ⟨x, y, hux, hvy, -, -, hxy⟩ := hboth .z (normal_isSome a)
  refine ⟨r, p .z, u, v, x, y, er, fun d l hld => ?_, hparts, hux, hvy, fun i j hi hj => ?_, fun hm => ?_, fun hq i j hi hj hn => ?_⟩
  · have hd : (normal a d).isSome = true := by
      rw [← (C95_free_nodes _ hw.prescribed.shaped _ _ _ _ _ _ er).1 d, hld]
      rfl
    obtain ⟨x, hx⟩ := Option.isSome_iff_exists.mp hd
    obtain ⟨rfl, -⟩ := normal_some hx
    rw [hl] at hld
    exact hp _ _ hld
  · rw [(hxy i j).1, (hxy i j).2.1]
    exact ⟨congrArg _ (same_settlement b1 hh hS0 hS1 _ hi hj), congrArg _ (same_settlement b2 hh hS0 hS1 _ hi hj)⟩
  · rw [hwarn]
    rw [loadsFrom_alone hw.prescribed.shaped ⟨.z, normal_isSome a⟩ hg (diagonal_normal simple a) (K := fun _ i j => zz b1 S0 S1 h i j + zz b2 S0 S1 h i j) (fun _ _ => rfl)] at e
    cases hr : solveIm (n0, n1) (S0, S1) (dict (diag (directions (normal a))) fun c => (fun _ i j => zz b1 S0 S1 h i j + zz b2 S0 S1 h i j) c.1) (normal a) maxIt (.fin tol) with
    | error x =>
      change Except.map _ (solveIm (n0, n1) (S0, S1) _ _ _ _) = _ at e
      rw [hr] at e
      cases e
    | ok s =>
      change Except.map _ (solveIm (n0, n1) (S0, S1) _ _ _ _) = _ at e
      rw [hr] at e
      injection e with e
      rw [← e]
      exact solve_quiet (K := fun _ i j => zz b1 S0 S1 h i j + zz b2 S0 S1 h i j) hw hc hsq htol hm hr
  · rw [hwarn] at hq
    obtain ⟨x, e1, e2⟩ := hx hq .z a i j (normal_z a) hi hj hn
    rw [hf .z (normal_isSome a)] at e1
    injection e1 with e1
    rw [← same_settlement b1 hh hS0 hS1 _ hi hj, ← same_settlement b2 hh hS0 hS1 _ hi hj, ← same_add_im]
    rw [← e1] at e2
    exact e2

example (simple : Bool) := C153_pair steel (b2 := ⟨8e9, 0.4⟩) ⟨by norm_num, by norm_num⟩ (h := 1e-6) (by norm_num) (.number _) (a := ⟨1, 3, fun _ j => if j = 1 then .nan else .fin 1e-6⟩) (n0 := 1) (n1 := 3) (w := fun _ _ => 1e-6)
  ⟨rfl, rfl, fun _ j _ _ => by by_cases hj : j = 1 <;> simp [hj]⟩ (S0 := 2) (S1 := 6) (by norm_num) (by norm_num) (by norm_num) (by norm_num) simple (tol := 1e-9) (by norm_num) 100

end Verif.Definite
