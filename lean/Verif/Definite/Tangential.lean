import Verif.Definite.Shear
import Verif.Definite.Loads

/-!
# C154: tractions in any direction on elastic bodies do positive work

The coefficients `xx`, `yy` and `zz` of the influence matrix are those of symmetric positive definite matrices for any number of nodes and any two spacings, so that `loads_from_surface_displacement` solves for displacements in any directions.
-/

namespace Verif.Definite

open Verif HeightResults Materials Finset Real

/-! ## Specification -/

def letter : Dir → Char
  | .x => 'x'
  | .y => 'y'
  | .z => 'z'

/-- The displacement in direction `d` of a half space at the node `(i, j)` under the tractions `l` in the same direction on the cells of a grid of spacing `h`. -/
noncomputable def movement (b : Body) (h : ℝ) (d : Dir) (n0 n1 : ℕ) (l : ℕ → ℕ → ℝ) (i j : ℕ) : ℝ :=
  ∑ a ∈ range n0, ∑ c ∈ range n1, l a c * Bouss.cell (Bouss.pointLoad b.G b.v (letter d) (letter d)) h h ((j : ℤ) - c) ((i : ℤ) - a)

/-- The work of the tractions `l` on the displacements under the tractions `l'`. -/
noncomputable def shearWork (b : Body) (h : ℝ) (d : Dir) (n0 n1 : ℕ) (l l' : ℕ → ℕ → ℝ) : ℝ := ∑ i ∈ range n0, ∑ j ∈ range n1, l i j * movement b h d n0 n1 l' i j

/-- The coefficients that `elastic_influence_matrix` gives for direction `d` with one or two materials, summed over the tractions. -/
noncomputable def response (b : Body) (o : Option Body) (hx hy : ℝ) (d : Dir) (n0 n1 : ℕ) (l : ℕ → ℕ → ℝ) (i j : ℕ) : ℝ :=
  ∑ a ∈ range n0, ∑ c ∈ range n1, l a c * (InfMat.coefficient (name (d, d)) hx hy b.G b.v (o.map Body.G) (o.map Body.v) ((j : ℤ) - c) ((i : ℤ) - a)).getD 0

/-- How many directions are given. -/
def given (t : Triple) : ℕ := (univ.filter fun d => (t d).isSome = true).card

/-! ## Lemmas -/

/-- Positive multiples of the two brackets on a grid. -/
theorem grid_comb_pos {p q : ℝ} (hp : 0 < p) (hq : 0 < q) {n0 n1 : ℕ} (l : ℕ → ℕ → ℝ) (hl : ∃ i j, i < n0 ∧ j < n1 ∧ l i j ≠ 0) :
    0 < ∑ i ∈ range n0, ∑ j ∈ range n1, l i j * ∑ a ∈ range n0, ∑ c ∈ range n1, l a c * (p * InfMat.termX ((j : ℤ) - c) ((i : ℤ) - a) + q * InfMat.termY ((j : ℤ) - c) ((i : ℤ) - a)) := by
  obtain ⟨e, he⟩ : ∃ e : ℕ × ℕ ↪ ℤ × ℤ, ∀ q, e q = ((q.1 : ℤ), (q.2 : ℤ)) := ⟨⟨fun q => ((q.1 : ℤ), (q.2 : ℤ)), fun q q' h => by
    simp only [Prod.mk.injEq, Nat.cast_inj] at h
    exact Prod.ext h.1 h.2⟩, fun _ => rfl⟩
  obtain ⟨i, j, hi, hj, hne⟩ := hl
  have hpos := form_comb_pos hp hq (A := (range n1 ×ˢ range n0).map e) (w := fun p => l p.2.toNat p.1.toNat)
    ⟨e (j, i), mem_map_of_mem e (mem_product.mpr ⟨mem_range.mpr hj, mem_range.mpr hi⟩), by simpa [he] using hne⟩
  unfold form at hpos
  simp only [sum_map, sum_product_right, he, Int.toNat_natCast] at hpos
  refine hpos.trans_eq (sum_congr rfl fun i _ => sum_congr rfl fun j _ => ?_)
  simp only [mul_sum]
  exact sum_congr rfl fun a _ => sum_congr rfl fun c _ => by ring

theorem grid_symm {n0 n1 : ℕ} (k : ℤ → ℤ → ℝ) (hk : ∀ x y, k (-x) (-y) = k x y) (l l' : ℕ → ℕ → ℝ) :
    ∑ i ∈ range n0, ∑ j ∈ range n1, l i j * ∑ a ∈ range n0, ∑ c ∈ range n1, l' a c * k ((j : ℤ) - c) ((i : ℤ) - a) =
      ∑ i ∈ range n0, ∑ j ∈ range n1, l' i j * ∑ a ∈ range n0, ∑ c ∈ range n1, l a c * k ((j : ℤ) - c) ((i : ℤ) - a) := by
  simp only [mul_sum]
  have swap : ∀ f : ℕ → ℕ → ℕ → ℕ → ℝ, ∑ i ∈ range n0, ∑ j ∈ range n1, ∑ a ∈ range n0, ∑ c ∈ range n1, f i j a c = ∑ a ∈ range n0, ∑ c ∈ range n1, ∑ i ∈ range n0, ∑ j ∈ range n1, f i j a c := by
    intro f
    have e : ∀ g : ℕ → ℕ → ℝ, ∑ i ∈ range n0, ∑ j ∈ range n1, g i j = ∑ q ∈ range n0 ×ˢ range n1, g q.1 q.2 := fun g => (sum_product' _ _ _).symm
    simp only [e]
    exact sum_comm
  rw [swap]
  refine sum_congr rfl fun a _ => sum_congr rfl fun c _ => sum_congr rfl fun i _ => sum_congr rfl fun j _ => ?_
  rw [← hk, neg_sub, neg_sub]
  ring

/-- The factors of the two brackets in the coefficients of direction `d`. -/
theorem coefficient_comb (b : Body) (o : Option Body) (hb : Soft b) (ho : ∀ x, o = some x → Soft x) {hx hy : ℝ} (h1 : 0 < hx) (h2 : 0 < hy) (d : Dir) :
    ∃ p q, 0 < p ∧ 0 < q ∧ ∀ x y, (InfMat.coefficient (name (d, d)) hx hy b.G b.v (o.map Body.G) (o.map Body.v) x y).getD 0 = p * InfMat.termX x y + q * InfMat.termY x y := by
  have hG := hb.modulus
  have hv := sub_pos.mpr hb.poisson
  have hpi := Real.pi_pos
  cases o with
  | none =>
    cases d with
    | x => exact ⟨1 / (2 * π * b.G) * (hx * (1 - b.v)), 1 / (2 * π * b.G) * hy, by positivity, by positivity, fun x y => by simp [InfMat.coefficient, name]; ring⟩
    | y => exact ⟨1 / (2 * π * b.G) * hx, 1 / (2 * π * b.G) * (hy * (1 - b.v)), by positivity, by positivity, fun x y => by simp [InfMat.coefficient, name]; ring⟩
    | z => exact ⟨(1 - b.v) / (2 * π * b.G) * hx, (1 - b.v) / (2 * π * b.G) * hy, by positivity, by positivity, fun x y => by simp [InfMat.coefficient, name]; ring⟩
  | some c =>
    have hG2 := (ho c rfl).modulus
    have hv2 := sub_pos.mpr (ho c rfl).poisson
    cases d with
    | x => exact ⟨(1 / (2 * π * b.G) + 1 / (2 * π * c.G)) * (hx * (1 - b.v)), (1 / (2 * π * b.G) + 1 / (2 * π * c.G)) * hy, by positivity, by positivity, fun x y => by simp [InfMat.coefficient, name]; ring⟩
    | y => exact ⟨(1 / (2 * π * b.G) + 1 / (2 * π * c.G)) * hx, (1 / (2 * π * b.G) + 1 / (2 * π * c.G)) * (hy * (1 - b.v)), by positivity, by positivity, fun x y => by simp [InfMat.coefficient, name]; ring⟩
    | z => exact ⟨((1 - b.v) / (2 * π * b.G) + (1 - c.v) / (2 * π * c.G)) * hx, ((1 - b.v) / (2 * π * b.G) + (1 - c.v) / (2 * π * c.G)) * hy, by positivity, by positivity, fun x y => by simp [InfMat.coefficient, name]; ring⟩

theorem coefficient_even (b : Body) (o : Option Body) (hx hy : ℝ) (d : Dir) (x y : ℤ) :
    (InfMat.coefficient (name (d, d)) hx hy b.G b.v (o.map Body.G) (o.map Body.v) (-x) (-y)).getD 0 = (InfMat.coefficient (name (d, d)) hx hy b.G b.v (o.map Body.G) (o.map Body.v) x y).getD 0 := by
  cases d <;> simp [InfMat.coefficient, name, termX_even, termY_even]

/-! ## Theorems -/

/-- C154: the coefficients that the code gives for tractions and displacements in one direction, for one or two materials and any two spacings, are those of a positive definite matrix. -/
theorem C154_definite {b : Body} {o : Option Body} (hb : Soft b) (ho : ∀ x, o = some x → Soft x) {hx hy : ℝ} (h1 : 0 < hx) (h2 : 0 < hy) (d : Dir) {n0 n1 : ℕ} {l : ℕ → ℕ → ℝ} (hl : ∃ i j, i < n0 ∧ j < n1 ∧ l i j ≠ 0) :
    0 < ∑ i ∈ range n0, ∑ j ∈ range n1, l i j * response b o hx hy d n0 n1 l i j := by
  obtain ⟨p, q, hp, hq, e⟩ := coefficient_comb b o hb ho h1 h2 d
  unfold response
  simp only [e]
  exact grid_comb_pos hp hq l hl

/-- Shear in opposite directions on two nodes of a rectangular grid, steel on a polymer. -/
example := C154_definite steel (o := some ⟨8e9, 0.4⟩) (fun x hx => by injection hx with hx; subst hx; exact ⟨by norm_num, by norm_num⟩) (hx := 1e-6) (hy := 3e-6) (by norm_num) (by norm_num) .x (n0 := 1) (n1 := 2)
  (l := fun _ j => if j = 0 then 1 else -1) ⟨0, 0, by norm_num, by norm_num, by norm_num⟩

/-- C154: the matrix is symmetric. -/
theorem C154_symmetric (b : Body) (o : Option Body) (hx hy : ℝ) (d : Dir) (n0 n1 : ℕ) (l l' : ℕ → ℕ → ℝ) :
    ∑ i ∈ range n0, ∑ j ∈ range n1, l i j * response b o hx hy d n0 n1 l' i j = ∑ i ∈ range n0, ∑ j ∈ range n1, l' i j * response b o hx hy d n0 n1 l i j := by
  unfold response
  exact grid_symm (fun x y => (InfMat.coefficient (name (d, d)) hx hy b.G b.v (o.map Body.G) (o.map Body.v) x y).getD 0) (coefficient_even b o hx hy d) l l'

example (l l' : ℕ → ℕ → ℝ) := C154_symmetric ⟨80e9, 0.3⟩ none 1e-6 3e-6 .y 2 3 l l'

/-- C154: on square grids the sums of the coefficients are the displacements of the half space. -/
theorem C154_square (b : Body) {h : ℝ} (hh : 0 < h) (d : Dir) (n0 n1 : ℕ) (l : ℕ → ℕ → ℝ) (i j : ℕ) : response b none h h d n0 n1 l i j = movement b h d n0 n1 l i j := by
  unfold response movement
  refine sum_congr rfl fun a _ => sum_congr rfl fun c _ => ?_
  congr 1
  cases d with
  | x => exact congrArg (fun o : Option ℝ => o.getD 0) (Bouss.C86_components_partial hh _ _).1
  | y => exact congrArg (fun o : Option ℝ => o.getD 0) (Bouss.C86_components_partial hh _ _).2.1
  | z => exact zz_coefficient b hh _ _

example (l : ℕ → ℕ → ℝ) := C154_square ⟨80e9, 0.3⟩ (h := 1e-6) (by norm_num) .x 2 3 l 0 1

/-- C154: tractions in one direction on the cells of an elastic half space that are not all zero do positive work. -/
theorem C154_work {b : Body} (hb : Soft b) {h : ℝ} (hh : 0 < h) (d : Dir) {n0 n1 : ℕ} {l : ℕ → ℕ → ℝ} (hl : ∃ i j, i < n0 ∧ j < n1 ∧ l i j ≠ 0) : 0 < shearWork b h d n0 n1 l l := by
  have := C154_definite (o := none) hb (fun _ h => by cases h) hh hh d hl
  simp only [C154_square b hh] at this
  exact this

example := C154_work steel (h := 1e-6) (by norm_num) .y (n0 := 1) (n1 := 2) (l := fun _ j => if j = 0 then 1 else -1) ⟨0, 0, by norm_num, by norm_num, by norm_num⟩

/-- C154: reciprocity. -/
theorem C154_reciprocal (b : Body) {h : ℝ} (hh : 0 < h) (d : Dir) (n0 n1 : ℕ) (l l' : ℕ → ℕ → ℝ) : shearWork b h d n0 n1 l l' = shearWork b h d n0 n1 l' l := by
  have := C154_symmetric b none h h d n0 n1 l l'
  simp only [C154_square b hh] at this
  exact this

example (l l' : ℕ → ℕ → ℝ) := C154_reciprocal ⟨80e9, 0.3⟩ (h := 1e-6) (by norm_num) .x 2 3 l l'

/-! ## Loads from displacements -/

/-- The matrix acts as a multiple of the coefficients. -/
def Acts (n0 n1 : ℕ) (span : ℕ × ℕ) (k : ℕ → ℕ → ℝ) (f : (ℕ → ℕ → ℝ) → ℕ → ℕ → ℝ) : Prop :=
  ∀ (l : ℕ → ℕ → ℝ) (i j : ℕ), i < n0 → j < n1 → Conv.sameConvolve n0 n1 span.1 span.2 k l i j = f l i j

/-- The matrix of one body. -/
noncomputable def bodyIm (b : Body) (hx hy : ℝ) (S0 S1 : ℕ) (d : Dir) : ℕ → ℕ → ℝ := Conv.fillMatrix S0 S1 fun i j => (InfMat.coefficient (name (d, d)) hx hy b.G b.v none none i j).getD 0

theorem body_acts (b : Body) (hx hy : ℝ) {n0 n1 S0 S1 : ℕ} (h0 : 2 * n0 ≤ S0 + 1) (h1 : 2 * n1 ≤ S1 + 1) (d : Dir) : Acts n0 n1 (S0, S1) (bodyIm b hx hy S0 S1 d) (response b none hx hy d n0 n1) := by
  intro l i j hi hj
  unfold bodyIm
  rw [same_full h0 h1 _ l hi hj]
  rfl

theorem firm_all {t : Triple} {n0 n1 : ℕ} {span : ℕ × ℕ} {K : Dir → ℕ → ℕ → ℝ} {f : Dir → (ℕ → ℕ → ℝ) → ℕ → ℕ → ℝ} (hK : ∀ d, Acts n0 n1 span (K d) (f d))
    (hf : ∀ d (l : ℕ → ℕ → ℝ), (∃ i j, i < n0 ∧ j < n1 ∧ l i j ≠ 0) → 0 < ∑ i ∈ range n0, ∑ j ∈ range n1, l i j * f d l i j) : Firm t n0 n1 span K := by
  intro v hv hne
  have e : ∀ d, ∑ i ∈ range n0, ∑ j ∈ range n1, v d i j * Conv.sameConvolve n0 n1 span.1 span.2 (K d) (v d) i j = ∑ i ∈ range n0, ∑ j ∈ range n1, v d i j * f d (v d) i j := fun d =>
    sum_congr rfl fun i hi => sum_congr rfl fun j hj => by rw [hK d (v d) i j (mem_range.mp hi) (mem_range.mp hj)]
  simp only [e]
  have hz : ∀ d, 0 ≤ ∑ i ∈ range n0, ∑ j ∈ range n1, v d i j * f d (v d) i j := by
    intro d
    by_cases h : ∃ i j, i < n0 ∧ j < n1 ∧ v d i j ≠ 0
    · exact (hf d _ h).le
    · push Not at h
      exact le_of_eq (sum_eq_zero fun i hi => sum_eq_zero fun j hj => by rw [h i j (mem_range.mp hi) (mem_range.mp hj), zero_mul]).symm
  by_contra hcon
  apply hne
  funext d i j
  by_contra hd
  obtain ⟨hi, hj, -⟩ := hv d i j hd
  exact hcon (sum_pos' (fun d _ => hz d) ⟨d, mem_univ d, hf d _ ⟨i, j, hi, hj, hd⟩⟩)

theorem symmetric_all {t : Triple} {n0 n1 : ℕ} {span : ℕ × ℕ} {K : Dir → ℕ → ℕ → ℝ} {f : Dir → (ℕ → ℕ → ℝ) → ℕ → ℕ → ℝ} (hK : ∀ d, Acts n0 n1 span (K d) (f d))
    (hf : ∀ d (l l' : ℕ → ℕ → ℝ), ∑ i ∈ range n0, ∑ j ∈ range n1, l i j * f d l' i j = ∑ i ∈ range n0, ∑ j ∈ range n1, l' i j * f d l i j) :
    Cg.Symmetric (flat (ds := directions t) (n0 := n0) (n1 := n1) t) (linear (directions t) n0 n1 span K) := by
  intro u v
  rw [restricted_sum, restricted_sum]
  refine sum_congr rfl fun d _ => ?_
  have e : ∀ l l' : ℕ → ℕ → ℝ, ∑ i ∈ range n0, ∑ j ∈ range n1, l i j * Conv.sameConvolve n0 n1 span.1 span.2 (K d) l' i j = ∑ i ∈ range n0, ∑ j ∈ range n1, l i j * f d l' i j := fun l l' =>
    sum_congr rfl fun i hi => sum_congr rfl fun j hj => by rw [hK d l' i j (mem_range.mp hi) (mem_range.mp hj)]
  rw [e, e, hf]

theorem quiet_all {t : Triple} {n0 n1 : ℕ} {w : Dir → ℕ → ℕ → ℝ} (hw : Prescribed t n0 n1 w) {span : ℕ × ℕ} {K : Dir → ℕ → ℕ → ℝ} (hf : Firm t n0 n1 span K)
    (hs : Cg.Symmetric (flat (ds := directions t) (n0 := n0) (n1 := n1) t) (linear (directions t) n0 n1 span K)) {tol : ℝ} (htol : 0 < tol) {maxIt : ℤ} (hm : ((given t * (n0 * n1) : ℕ) : ℤ) ≤ maxIt)
    {r : Triple × (Dir → Arr) × Bool} (hr : solveIm (n0, n1) span (dict (diag (directions t)) fun c => K c.1) t maxIt (.fin tol) = .ok r) : r.2.2 = false := by
  obtain ⟨g, hg, -, -, h3⟩ := solveIm_spec hr
  obtain ⟨u0, hu0⟩ := guess_numbers (n0 := n0) (n1 := n1) hg hw
  rw [h3, hu0]
  refine (Cg.C61_converges_within_number_of_entries _ _ (actsAs (directions t) n0 n1 span K) (flat t) (definite hf) hs maxIt ?_ tol htol u0 (fun k => w k.1 k.2.1 k.2.2) fun k hk => ?_).1
  · refine le_trans ?_ hm
    have h1 : Fintype.card (Cg.Dom (flat (ds := directions t) (n0 := n0) (n1 := n1) t)) ≤ Fintype.card (Idx (directions t) n0 n1) := Fintype.card_subtype_le _
    have h2 : Fintype.card (Idx (directions t) n0 n1) = given t * (n0 * n1) := by
      rw [Fintype.card_prod, Fintype.card_prod, Fintype.card_fin, Fintype.card_fin, given]
      congr 1
      rw [Fintype.card_subtype]
      congr 1
      ext d
      simp only [mem_filter, mem_univ, true_and, mem_directions]
    rw [h2] at h1
    exact_mod_cast h1
  · obtain ⟨b, hb⟩ := Option.isSome_iff_exists.mp (mem_directions.mp k.1.2)
    simp only [flat, hb] at hk ⊢
    exact ((hw _ _ hb).2.2 k.2.1 k.2.2 k.2.1.2 k.2.2.2).resolve_left hk

theorem matrices_body (b : Body) (hx hy : ℝ) (S0 S1 : ℕ) (t : Triple) : Matrices (.general (elasticIm b.G b.v)) (S0, S1) hx hy t (bodyIm b hx hy S0 S1) := fun _ _ => rfl

/-- C154: for displacements prescribed in any of the three directions at any nodes of a grid, square or not, on an elastic body, with `simple` or in a single direction and with a span of at least twice the grid, `loads_from_surface_displacement`
returns numbers; the displacements returned are those of the coefficients under these loads; if as many steps are allowed as there are nodes and directions no warning is issued; and without a warning every prescribed displacement is
reached within the tolerance. -/
theorem C154_loads {b : Body} (hb : Soft b) {hx hy : ℝ} (hhx : 0 < hx) (hhy : 0 < hy) {g : Spacing} (hg : Means g hx hy) {t : Triple} {n0 n1 : ℕ} {w : Dir → ℕ → ℕ → ℝ} (hw : Prescribed t n0 n1 w)
    (hne : ∃ d, (t d).isSome = true) {simple : Bool} (hs : Diagonal simple t) {S0 S1 : ℕ} (h0 : 0 < S0) (h1 : 0 < S1) (hS0 : 2 * n0 ≤ S0 + 1) (hS1 : 2 * n1 ≤ S1 + 1) {tol : ℝ} (htol : 0 < tol) (maxIt : ℤ) :
    ∃ r p, loadsFrom (.general (elasticIm b.G b.v)) (.tuple t) g .none (some (S0, S1)) (.fin tol) simple maxIt = .ok r ∧ Numbers r.loads n0 n1 p ∧
      (∀ d i j, (t d).isSome = true → i < n0 → j < n1 → (r.full d).val i j = .fin (response b none hx hy d n0 n1 (p d) i j)) ∧ (((given t * (n0 * n1) : ℕ) : ℤ) ≤ maxIt → r.warned = false) ∧
      (r.warned = false → ∀ d a i j, t d = some a → i < n0 → j < n1 → a.val i j ≠ .nan → |w d i j - response b none hx hy d n0 n1 (p d) i j| < tol) := by
  have hK := body_acts b hx hy hS0 hS1
  have hf : Firm t n0 n1 (S0, S1) (bodyIm b hx hy S0 S1) := firm_all hK fun d l hl => C154_definite (o := none) hb (fun _ h => by cases h) hhx hhy d hl
  have hsym := symmetric_all (t := t) hK fun d l l' => C154_symmetric b none hx hy d n0 n1 l l'
  obtain ⟨r, p, e, hp, hfull, hreach⟩ := C95_reproduces_partial (.general (elasticIm b.G b.v)) hw hne hg hs (span := some (S0, S1)) h0 h1 (matrices_body b hx hy S0 S1 t) hf htol maxIt
  refine ⟨r, p, e, hp, fun d i j hd hi hj => ?_, fun hm => ?_, fun hq d a i j ha hi hj hn => ?_⟩
  · rw [hfull d hd]
    exact congrArg _ (hK d _ i j hi hj)
  · rw [loadsFrom_alone hw.shaped hne hg hs (matrices_body b hx hy S0 S1 t)] at e
    change Except.map _ (solveIm (n0, n1) (S0, S1) _ _ _ _) = _ at e
    cases hr : solveIm (n0, n1) (S0, S1) (dict (diag (directions t)) fun c => bodyIm b hx hy S0 S1 c.1) t maxIt (.fin tol) with
    | error x =>
      rw [hr] at e
      cases e
    | ok s =>
      rw [hr] at e
      injection e with e
      rw [← e]
      exact quiet_all hw hf hsym htol hm hr
  · have hd : (t d).isSome = true := by rw [ha]; rfl
    obtain ⟨x, e1, e2⟩ := hreach hq d a i j ha hi hj hn
    rw [hfull d hd] at e1
    injection e1 with e1
    rw [← hK d _ i j hi hj]
    rw [← e1] at e2
    exact e2

/-- Two nodes moved by a micron in the direction `x`, one free, and all three pressed in, on a rectangular grid, steel. -/
def moved : Triple := fun d => match d with
  | .x => some ⟨1, 3, fun _ j => if j = 1 then .nan else .fin 1e-6⟩
  | .y => none
  | .z => some ⟨1, 3, fun _ _ => .fin 1e-6⟩

theorem moved_prescribed : Prescribed moved 1 3 fun _ _ _ => 1e-6 := by
  intro d a ha
  cases d with
  | x => injection ha with ha; subst ha; exact ⟨rfl, rfl, fun _ j _ _ => by by_cases hj : j = 1 <;> simp [hj]⟩
  | y => cases ha
  | z => injection ha with ha; subst ha; exact ⟨rfl, rfl, fun _ j _ _ => Or.inr rfl⟩

example := C154_loads steel (hx := 1e-6) (hy := 2e-6) (by norm_num) (by norm_num) (.two _ _) moved_prescribed ⟨.x, rfl⟩ (simple := true) (Or.inl rfl) (S0 := 2) (S1 := 6) (by norm_num) (by norm_num) (by norm_num) (by norm_num)
  (tol := 1e-9) (by norm_num) 100

/-- C154: on a square grid the displacements returned and reached are those of the half space. -/
theorem C154_half_space {b : Body} (hb : Soft b) {h : ℝ} (hh : 0 < h) {g : Spacing} (hg : Means g h h) {t : Triple} {n0 n1 : ℕ} {w : Dir → ℕ → ℕ → ℝ} (hw : Prescribed t n0 n1 w) (hne : ∃ d, (t d).isSome = true)
    {simple : Bool} (hs : Diagonal simple t) {S0 S1 : ℕ} (h0 : 0 < S0) (h1 : 0 < S1) (hS0 : 2 * n0 ≤ S0 + 1) (hS1 : 2 * n1 ≤ S1 + 1) {tol : ℝ} (htol : 0 < tol) (maxIt : ℤ) :
    ∃ r p, loadsFrom (.general (elasticIm b.G b.v)) (.tuple t) g .none (some (S0, S1)) (.fin tol) simple maxIt = .ok r ∧ Numbers r.loads n0 n1 p ∧
      (∀ d i j, (t d).isSome = true → i < n0 → j < n1 → (r.full d).val i j = .fin (movement b h d n0 n1 (p d) i j)) ∧ (((given t * (n0 * n1) : ℕ) : ℤ) ≤ maxIt → r.warned = false) ∧
      (r.warned = false → ∀ d a i j, t d = some a → i < n0 → j < n1 → a.val i j ≠ .nan → |w d i j - movement b h d n0 n1 (p d) i j| < tol) := by
  have := C154_loads hb hh hh hg hw hne hs h0 h1 hS0 hS1 htol maxIt
  simp only [C154_square b hh] at this
  exact this

example := C154_half_space steel (h := 1e-6) (by norm_num) (.number _) moved_prescribed ⟨.x, rfl⟩ (simple := true) (Or.inl rfl) (S0 := 2) (S1 := 6) (by norm_num) (by norm_num) (by norm_num) (by norm_num)
  (tol := 1e-9) (by norm_num) 100

/-- C154: the same for two elastic bodies: the displacement reached is the sum of those of the two bodies, and the two displacements returned are those of each. -/
theorem C154_pair {b1 b2 : Body} (hb1 : Soft b1) (hb2 : Soft b2) {hx hy : ℝ} (hhx : 0 < hx) (hhy : 0 < hy) {g : Spacing} (hg : Means g hx hy) {t : Triple} {n0 n1 : ℕ} {w : Dir → ℕ → ℕ → ℝ} (hw : Prescribed t n0 n1 w)
    (hne : ∃ d, (t d).isSome = true) {simple : Bool} (hs : Diagonal simple t) {S0 S1 : ℕ} (h0 : 0 < S0) (h1 : 0 < S1) (hS0 : 2 * n0 ≤ S0 + 1) (hS1 : 2 * n1 ≤ S1 + 1) {tol : ℝ} (htol : 0 < tol) (maxIt : ℤ) :
    ∃ r p u v, loadsFrom (.general (elasticIm b1.G b1.v)) (.tuple t) g (.im (.general (elasticIm b2.G b2.v))) (some (S0, S1)) (.fin tol) simple maxIt = .ok r ∧ Numbers r.loads n0 n1 p ∧ r.parts = some (u, v) ∧
      (∀ d, (t d).isSome = true → ∃ x y, u d = .arr x ∧ v d = .arr y ∧
        ∀ i j, i < n0 → j < n1 → x.val i j = .fin (response b1 none hx hy d n0 n1 (p d) i j) ∧ y.val i j = .fin (response b2 none hx hy d n0 n1 (p d) i j)) ∧
      (((given t * (n0 * n1) : ℕ) : ℤ) ≤ maxIt → r.warned = false) ∧
      (r.warned = false → ∀ d a i j, t d = some a → i < n0 → j < n1 → a.val i j ≠ .nan →
        |w d i j - (response b1 none hx hy d n0 n1 (p d) i j + response b2 none hx hy d n0 n1 (p d) i j)| < tol) := by
  set K : Dir → ℕ → ℕ → ℝ := fun d i j => bodyIm b1 hx hy S0 S1 d i j + bodyIm b2 hx hy S0 S1 d i j with hKdef
  have hK1 := body_acts b1 hx hy hS0 hS1
  have hK2 := body_acts b2 hx hy hS0 hS1
  have hK : ∀ d, Acts n0 n1 (S0, S1) (K d) fun l i j => response b1 none hx hy d n0 n1 l i j + response b2 none hx hy d n0 n1 l i j := fun d l i j hi hj => by
    rw [hKdef, same_add_im, hK1 d l i j hi hj, hK2 d l i j hi hj]
  have hf : Firm t n0 n1 (S0, S1) K := firm_all hK fun d l hl => by
    have p1 := C154_definite (o := none) hb1 (fun _ h => by cases h) hhx hhy d hl
    have p2 := C154_definite (o := none) hb2 (fun _ h => by cases h) hhx hhy d hl
    simp only [mul_add, sum_add_distrib]
    exact add_pos p1 p2
  have hsym := symmetric_all (t := t) hK fun d l l' => by
    have s1 := C154_symmetric b1 none hx hy d n0 n1 l l'
    have s2 := C154_symmetric b2 none hx hy d n0 n1 l l'
    simp only [mul_add, sum_add_distrib]
    rw [s1, s2]
  obtain ⟨s, p, e, hp, hfull, hreach⟩ := C95_reproduces_partial (.general fun _ _ c => .ok fun i j => bodyIm b1 hx hy S0 S1 c.1 i j + bodyIm b2 hx hy S0 S1 c.1 i j) hw hne hg hs (span := some (S0, S1)) h0 h1 (K := K)
    (fun _ _ => rfl) hf htol maxIt
  obtain ⟨r, u, v, er, hl, -, hwarn, hparts, hboth⟩ := C95_split (.general (elasticIm b1.G b1.v)) (.general (elasticIm b2.G b2.v)) hw.shaped hne hg hs (span := some (S0, S1))
    (matrices_body b1 hx hy S0 S1 t) (matrices_body b2 hx hy S0 S1 t) (.fin tol) maxIt e hp
  refine ⟨r, p, u, v, er, fun d a ha => hp d a (by rw [← hl]; exact ha), hparts, fun d hd => ?_, fun hm => ?_, fun hq d a i j ha hi hj hn => ?_⟩
  · obtain ⟨x, y, hux, hvy, -, -, hxy⟩ := hboth d hd
    refine ⟨x, y, hux, hvy, fun i j hi hj => ?_⟩
    rw [(hxy i j).1, (hxy i j).2.1]
    exact ⟨congrArg _ (hK1 d _ i j hi hj), congrArg _ (hK2 d _ i j hi hj)⟩
  · rw [hwarn]
    rw [loadsFrom_alone hw.shaped hne hg hs (K := K) (fun _ _ => rfl)] at e
    change Except.map _ (solveIm (n0, n1) (S0, S1) _ _ _ _) = _ at e
    cases hr : solveIm (n0, n1) (S0, S1) (dict (diag (directions t)) fun c => K c.1) t maxIt (.fin tol) with
    | error x =>
      rw [hr] at e
      cases e
    | ok s =>
      rw [hr] at e
      injection e with e
      rw [← e]
      exact quiet_all hw hf hsym htol hm hr
  · rw [hwarn] at hq
    have hd : (t d).isSome = true := by rw [ha]; rfl
    obtain ⟨x, e1, e2⟩ := hreach hq d a i j ha hi hj hn
    rw [hfull d hd] at e1
    injection e1 with e1
    have := hK d (p d) i j hi hj
    beta_reduce at this
    rw [← this]
    rw [← e1] at e2
    exact e2

example := C154_pair steel (b2 := ⟨8e9, 0.4⟩) ⟨by norm_num, by norm_num⟩ (hx := 1e-6) (hy := 2e-6) (by norm_num) (by norm_num) (.two _ _) moved_prescribed ⟨.x, rfl⟩ (simple := true) (Or.inl rfl) (S0 := 2) (S1 := 6)
  (by norm_num) (by norm_num) (by norm_num) (by norm_num) (tol := 1e-9) (by norm_num) 100

end Verif.Definite
