import Verif.Definite.Recip
import Verif.HeightResults.Elastic
import Verif.HeightResults.Rising
import Verif.Contact.Props

/-!
# C153: normal pressures on elastic bodies do positive work

The coefficients of the influence matrix on a grid with the same spacing in both directions are those of a positive definite matrix, for any number of nodes.
-/

namespace Verif.Definite

open Verif HeightResults Finset Real

/-! ## Specification -/

/-- The work of the pressures `l` on the displacements under the pressures `l'`, on a grid of `n0` by `n1` nodes. -/
noncomputable def work (b : Body) (h : ℝ) (n0 n1 : ℕ) (l l' : ℕ → ℕ → ℝ) : ℝ := ∑ i ∈ range n0, ∑ j ∈ range n1, l i j * settlement b h n0 n1 l' i j

/-- A body that can be compressed. -/
structure Soft (b : Body) : Prop where
  modulus : 0 < b.G
  poisson : b.v < 1

/-- The displacements of two half spaces together under pressures on the grid. -/
noncomputable def halfSpaces (b1 b2 : Body) (h : ℝ) (n0 n1 : ℕ) : (Fin n0 × Fin n1 → ℝ) →ₗ[ℝ] (Fin n0 × Fin n1 → ℝ) where
  toFun u q := settlement b1 h n0 n1 (lift u) q.1 q.2 + settlement b2 h n0 n1 (lift u) q.1 q.2
  map_add' u v := by
    funext q
    simp only [settlement, Pi.add_apply, ← sum_add_distrib]
    refine sum_congr rfl fun a _ => sum_congr rfl fun b _ => ?_
    have : lift (u + v) a b = lift u a b + lift v a b := by
      unfold lift
      split <;> simp
    rw [this]; ring
  map_smul' r u := by
    funext q
    simp only [settlement, Pi.smul_apply, smul_eq_mul, RingHom.id_apply, mul_add, mul_sum, ← sum_add_distrib]
    refine sum_congr rfl fun a _ => sum_congr rfl fun b _ => ?_
    have : lift (r • u) a b = r * lift u a b := by
      unfold lift
      split <;> simp
    rw [this]; ring

/-! ## Lemmas -/

theorem grid_pos {n0 n1 : ℕ} (l : ℕ → ℕ → ℝ) (hl : ∃ i j, i < n0 ∧ j < n1 ∧ l i j ≠ 0) :
    0 < ∑ i ∈ range n0, ∑ j ∈ range n1, l i j * ∑ a ∈ range n0, ∑ c ∈ range n1, l a c * (InfMat.termX ((j : ℤ) - c) ((i : ℤ) - a) + InfMat.termY ((j : ℤ) - c) ((i : ℤ) - a)) := by
  obtain ⟨e, he⟩ : ∃ e : ℕ × ℕ ↪ ℤ × ℤ, ∀ q, e q = ((q.1 : ℤ), (q.2 : ℤ)) := ⟨⟨fun q => ((q.1 : ℤ), (q.2 : ℤ)), fun q q' h => by
    simp only [Prod.mk.injEq, Nat.cast_inj] at h
    exact Prod.ext h.1 h.2⟩, fun _ => rfl⟩
  obtain ⟨i, j, hi, hj, hne⟩ := hl
  have hp := form_terms_pos (A := (range n1 ×ˢ range n0).map e) (w := fun p => l p.2.toNat p.1.toNat)
    ⟨e (j, i), mem_map_of_mem e (mem_product.mpr ⟨mem_range.mpr hj, mem_range.mpr hi⟩), by simpa [he] using hne⟩
  unfold form at hp
  simp only [sum_map, sum_product_right, he, Int.toNat_natCast] at hp
  refine hp.trans_eq (sum_congr rfl fun i _ => sum_congr rfl fun j _ => ?_)
  simp only [mul_sum]
  exact sum_congr rfl fun a _ => sum_congr rfl fun c _ => by ring

theorem cell_terms (b : Body) {h : ℝ} (hh : 0 < h) (x y : ℤ) :
    Bouss.cell (Bouss.pointLoad b.G b.v 'z' 'z') h h x y = (1 - b.v) / (2 * π * b.G) * h * (InfMat.termX x y + InfMat.termY x y) := by
  have e : Bouss.cell (Bouss.pointLoad b.G b.v 'z' 'z') h h x y = (1 - b.v) / (2 * π * b.G) * Bouss.cell (fun s t => 1 / √(s ^ 2 + t ^ 2)) h h x y := Bouss.cell_const _ _ _ _ _ _
  rw [e, Bouss.cell_recip hh]
  ring

theorem factor_pos {b : Body} (hb : Soft b) {h : ℝ} (hh : 0 < h) : 0 < (1 - b.v) / (2 * π * b.G) * h := by
  have := hb.modulus
  have := sub_pos.mpr hb.poisson
  positivity

theorem terms_even (x y : ℤ) : InfMat.termX (-x) (-y) + InfMat.termY (-x) (-y) = InfMat.termX x y + InfMat.termY x y := by
  have e : ∀ (n : ℤ) (u : ℝ), bell (InfMat.lo (-n)) (InfMat.hi (-n)) u = bell (InfMat.lo n) (InfMat.hi n) u := by
    intro n u
    unfold bell
    have h := intervalIntegral.integral_comp_neg (a := InfMat.lo n) (b := InfMat.hi n) fun s => rexp (-u ^ 2 * s ^ 2)
    rw [show -InfMat.hi n = InfMat.lo (-n) by unfold InfMat.lo InfMat.hi; push_cast; ring, show -InfMat.lo n = InfMat.hi (-n) by unfold InfMat.lo InfMat.hi; push_cast; ring] at h
    rw [← h]
    simp
  rw [terms_eq, terms_eq]
  simp_rw [e]

theorem work_mul (b : Body) {h : ℝ} (hh : 0 < h) (n0 n1 : ℕ) (l l' : ℕ → ℕ → ℝ) : work b h n0 n1 l l' = (1 - b.v) / (2 * π * b.G) * h *
    ∑ i ∈ range n0, ∑ j ∈ range n1, l i j * ∑ a ∈ range n0, ∑ c ∈ range n1, l' a c * (InfMat.termX ((j : ℤ) - c) ((i : ℤ) - a) + InfMat.termY ((j : ℤ) - c) ((i : ℤ) - a)) := by
  unfold work settlement
  simp only [cell_terms b hh, mul_sum]
  exact sum_congr rfl fun i _ => sum_congr rfl fun j _ => sum_congr rfl fun a _ => sum_congr rfl fun c _ => by ring

/-! ## Theorems -/

/-- C153: normal pressures on the cells of an elastic half space that are not all zero, of either sign, do positive work. -/
theorem C153_work {b : Body} (hb : Soft b) {h : ℝ} (hh : 0 < h) {n0 n1 : ℕ} {l : ℕ → ℕ → ℝ} (hl : ∃ i j, i < n0 ∧ j < n1 ∧ l i j ≠ 0) : 0 < work b h n0 n1 l l := by
  rw [work_mul b hh]
  exact mul_pos (factor_pos hb hh) (grid_pos l hl)

/-- Steel. -/
theorem steel : Soft ⟨80e9, 0.3⟩ := ⟨by norm_num, by norm_num⟩

/-- A push on one node and an equal pull on the next. -/
example := C153_work steel (h := 1e-6) (by norm_num) (n0 := 1) (n1 := 2) (l := fun _ j => if j = 0 then 1 else -1) ⟨0, 0, by norm_num, by norm_num, by norm_num⟩

/-- C153: the work of one distribution on the displacements of another is that of the other on the displacements of the one. -/
theorem C153_reciprocal (b : Body) {h : ℝ} (hh : 0 < h) (n0 n1 : ℕ) (l l' : ℕ → ℕ → ℝ) : work b h n0 n1 l l' = work b h n0 n1 l' l := by
  rw [work_mul b hh, work_mul b hh]
  congr 1
  simp only [mul_sum]
  have swap : ∀ f : ℕ → ℕ → ℕ → ℕ → ℝ, ∑ i ∈ range n0, ∑ j ∈ range n1, ∑ a ∈ range n0, ∑ c ∈ range n1, f i j a c = ∑ a ∈ range n0, ∑ c ∈ range n1, ∑ i ∈ range n0, ∑ j ∈ range n1, f i j a c := by
    intro f
    have e : ∀ g : ℕ → ℕ → ℝ, ∑ i ∈ range n0, ∑ j ∈ range n1, g i j = ∑ q ∈ range n0 ×ˢ range n1, g q.1 q.2 := fun g => (sum_product' _ _ _).symm
    simp only [e]
    exact sum_comm
  rw [swap]
  refine sum_congr rfl fun a _ => sum_congr rfl fun c _ => sum_congr rfl fun i _ => sum_congr rfl fun j _ => ?_
  rw [← terms_even, neg_sub, neg_sub]
  ring

example (l l' : ℕ → ℕ → ℝ) := C153_reciprocal ⟨80e9, 0.3⟩ (h := 1e-6) (by norm_num) 2 3 l l'

theorem lift_apply {n0 n1 : ℕ} (u : Fin n0 × Fin n1 → ℝ) (q : Fin n0 × Fin n1) : lift u q.1 q.2 = u q := by
  unfold lift
  rw [dif_pos ⟨q.1.2, q.2.2⟩]

theorem sum_grid {n0 n1 : ℕ} (f : ℕ → ℕ → ℝ) : ∑ q : Fin n0 × Fin n1, f q.1 q.2 = ∑ i ∈ range n0, ∑ j ∈ range n1, f i j := by
  rw [Fintype.sum_prod_type, Finset.sum_range]
  refine sum_congr rfl fun i _ => ?_
  rw [Finset.sum_range]

theorem halfSpaces_work (b1 b2 : Body) (h : ℝ) {n0 n1 : ℕ} (w : Fin n0 × Fin n1 → ℝ) : ∑ q, w q * halfSpaces b1 b2 h n0 n1 w q = work b1 h n0 n1 (lift w) (lift w) + work b2 h n0 n1 (lift w) (lift w) := by
  have e : ∀ q, w q * halfSpaces b1 b2 h n0 n1 w q = (fun i j => lift w i j * (settlement b1 h n0 n1 (lift w) i j + settlement b2 h n0 n1 (lift w) i j)) q.1 q.2 := by
    intro q
    beta_reduce
    rw [lift_apply]
    rfl
  rw [sum_congr rfl fun q _ => e q, sum_grid fun i j => lift w i j * (settlement b1 h n0 n1 (lift w) i j + settlement b2 h n0 n1 (lift w) i j)]
  unfold work
  simp only [mul_add, sum_add_distrib]

/-- C153: two elastic bodies resist every distribution of pressure, so the contact problem on any set of nodes, with any overlap and any greatest pressure that is not negative, has exactly one solution. -/
theorem C153_one_contact {b1 b2 : Body} (h1 : Soft b1) (h2 : Soft b2) {h : ℝ} (hh : 0 < h) {n0 n1 : ℕ} (T : Fin n0 × Fin n1 → Prop) (overlap : Fin n0 × Fin n1 → ℝ) {M : Fin n0 × Fin n1 → Option ℝ}
    (hM : ∀ q m, M q = some m → 0 ≤ m) : Contact.Definite (halfSpaces b1 b2 h n0 n1) ∧ ∃! u, Contact.Solution T (halfSpaces b1 b2 h n0 n1) overlap M u := by
  have hd : Contact.Definite (halfSpaces b1 b2 h n0 n1) := by
    intro w hw
    obtain ⟨q, hq⟩ := Function.ne_iff.mp hw
    have hl : ∃ i j, i < n0 ∧ j < n1 ∧ lift w i j ≠ 0 := ⟨q.1, q.2, q.1.2, q.2.2, by rw [lift_apply]; exact hq⟩
    rw [halfSpaces_work]
    exact add_pos (C153_work h1 hh hl) (C153_work h2 hh hl)
  exact ⟨hd, Contact.C150_one_solution T hd overlap hM⟩

/-- Steel on a material ten times as soft, 64 by 64 nodes. -/
example := C153_one_contact steel (b2 := ⟨8e9, 0.4⟩) ⟨by norm_num, by norm_num⟩ (h := 1e-6) (by norm_num) (n0 := 64) (n1 := 64) (fun _ => True) (fun q => 1e-6 - ((q.1 : ℕ) : ℝ) * 1e-7) (M := fun _ => some 2e9)
  (fun _ m hm => by cases hm; norm_num)

theorem halfSpaces_settles {b1 b2 : Body} (h1 : Soft b1) (h2 : Soft b2) {h : ℝ} (hh : 0 < h) (n0 n1 : ℕ) : Contact.Settles (halfSpaces b1 b2 h n0 n1) := by
  intro w hw q
  have hl : ∀ a c, 0 ≤ lift w a c := by
    intro a c
    unfold lift
    split
    · exact hw _
    · exact le_rfl
  exact add_nonneg (sum_nonneg fun a _ => sum_nonneg fun c _ => mul_nonneg (hl a c) (cell_pos h1.modulus h1.poisson hh _ _).le)
    (sum_nonneg fun a _ => sum_nonneg fun c _ => mul_nonneg (hl a c) (cell_pos h2.modulus h2.poisson hh _ _).le)

theorem bodies_near {b1 b2 : Body} (S : Setup) (hh : 0 < S.spacing) {T : Fin S.rows × Fin S.cols → Prop} (hn : ∀ q q', T q → T q' → Near S.rows q.1 q'.1 ∧ Near S.cols q.2 q'.2) {u : Fin S.rows × Fin S.cols → ℝ}
    (hu : ∀ q, ¬T q → u q = 0) (q : Fin S.rows × Fin S.cols) (hq : T q) : bodies (S.elastic b1 b2) false false u q = halfSpaces b1 b2 S.spacing S.rows S.cols u q := by
  have hnear : ∀ a c, a < S.rows → c < S.cols → lift u a c ≠ 0 → Near S.rows q.1 a ∧ Near S.cols q.2 c := by
    intro a c ha hc hne
    have : lift u a c = u (⟨a, ha⟩, ⟨c, hc⟩) := lift_apply u (⟨a, ha⟩, ⟨c, hc⟩)
    rw [this] at hne
    exact hn q _ hq (not_not.mp fun hT => hne (hu _ hT))
  have hr : 0 < S.rows := Fin.pos q.1
  have hc : 0 < S.cols := Fin.pos q.2
  show Conv.superpose false false S.rows S.cols S.rows S.cols (zz b1 S.rows S.cols S.spacing) (lift u) q.1 q.2 + Conv.superpose false false S.rows S.cols S.rows S.cols (zz b2 S.rows S.cols S.spacing) (lift u) q.1 q.2 = _
  rw [superpose_near b1 hh hr hc _ _ _ hnear, superpose_near b2 hh hr hc _ _ _ hnear]
  rfl

theorem solution_congr {ι : Type} [Fintype ι] {T : ι → Prop} {L L' : (ι → ℝ) →ₗ[ℝ] (ι → ℝ)} {b : ι → ℝ} {M : ι → Option ℝ} {u : ι → ℝ} (hu : Contact.Solution T L b M u) (e : ∀ i, T i → L u i = L' u i) :
    Contact.Solution T L' b M u :=
  ⟨hu.outside, hu.nonneg, hu.limit, fun i hT h => hu.gap i hT (by rw [e i hT]; exact h), fun i hT h => hu.overlap i hT (by rw [e i hT]; exact h)⟩

/-- C153: the height search uses matrices that reach half the grid only (`C149_far_wrong`) and leaves out the nodes without overlap. If the nodes with overlap lie within half the grid of each other, this is exact: pressures solve its
contact problem if and only if they solve that of the half spaces on the whole grid, and there is exactly one such distribution. -/
theorem C153_search {b1 b2 : Body} (h1 : Soft b1) (h2 : Soft b2) (S : Setup) (hh : 0 < S.spacing) {M : Option ℝ} (hM : ∀ m, M = some m → 0 ≤ m) {height : ℝ}
    (hn : ∀ q q' : Fin S.rows × Fin S.cols, S.gap q.1 q.2 < height → S.gap q'.1 q'.2 < height → Near S.rows q.1 q'.1 ∧ Near S.cols q.2 q'.2) :
    (∀ u, Contact.Solution (fun q => S.gap q.1 q.2 < height) (bodies (S.elastic b1 b2) false false) (fun q => height - S.gap q.1 q.2) (fun _ => M) u ↔
      Contact.Solution (fun _ => True) (halfSpaces b1 b2 S.spacing S.rows S.cols) (fun q => height - S.gap q.1 q.2) (fun _ => M) u) ∧
    ∃! u, Contact.Solution (fun _ => True) (halfSpaces b1 b2 S.spacing S.rows S.cols) (fun q => height - S.gap q.1 q.2) (fun _ => M) u := by
  have hT : (fun q : Fin S.rows × Fin S.cols => S.gap q.1 q.2 < height) = fun q => 0 < height - S.gap q.1 q.2 := funext fun q => propext sub_pos.symm
  have whole := C153_one_contact h1 h2 hh (fun _ => True) (fun q : Fin S.rows × Fin S.cols => height - S.gap q.1 q.2) (M := fun _ => M) fun _ => hM
  have up : ∀ u, Contact.Solution (fun q => S.gap q.1 q.2 < height) (halfSpaces b1 b2 S.spacing S.rows S.cols) (fun q => height - S.gap q.1 q.2) (fun _ => M) u →
      Contact.Solution (fun _ => True) (halfSpaces b1 b2 S.spacing S.rows S.cols) (fun q => height - S.gap q.1 q.2) (fun _ => M) u := fun u hu =>
    Contact.extend_solution (halfSpaces_settles h1 h2 hh _ _) (fun _ => hM) (hT ▸ hu)
  refine ⟨fun u => ⟨fun hu => up u (solution_congr hu (bodies_near S hh hn hu.outside)), fun hu => ?_⟩, whole.2⟩
  obtain ⟨v, hv, -⟩ := (C153_one_contact h1 h2 hh (fun q : Fin S.rows × Fin S.cols => S.gap q.1 q.2 < height) (fun q => height - S.gap q.1 q.2) (M := fun _ => M) fun _ => hM).2
  rw [Contact.unique whole.1 (up v hv) hu]
  exact solution_congr hv fun q hq => (bodies_near S hh hn hv.outside q hq).symm

/-- C153: if moreover the solver solves its problem at a height that is not in the cache, whatever was done before, then the loads read afterwards are the pressures between the two half spaces at this height, the value of the call is their
total less the set load, and at every node in contact below the largest pressure the displacements of the half spaces make up the overlap. -/
theorem C153_results {b1 b2 : Body} (h1 : Soft b1) (h2 : Soft b2) (S : Setup) (hh : 0 < S.spacing) (hS : Sound S false false) {l : ℝ} {o : Obj} (h0 : new (S.elastic b1 b2) l = .ok o) (ops : List Op) (hg : given ops = none)
    {M : Option ℝ} (hM : ∀ m, M = some m → 0 ≤ m) {height : ℝ} (hnew : height ∉ (run (S.elastic b1 b2) o ops).cache.heights) (hc : ∃ q : Fin S.rows × Fin S.cols, S.gap q.1 q.2 < height)
    (hn : ∀ q q' : Fin S.rows × Fin S.cols, S.gap q.1 q.2 < height → S.gap q'.1 q'.2 < height → Near S.rows q.1 q'.1 ∧ Near S.cols q.2 q'.2)
    (hsol : ∀ L, (∀ i j, (i, j) ∈ L ↔ i < S.rows ∧ j < S.cols ∧ S.gap i j < height) → Contact.Solution (fun q => S.gap q.1 q.2 < height) (bodies (S.elastic b1 b2) false false) (fun q => height - S.gap q.1 q.2) (fun _ => M)
      fun q => open Classical in if S.gap q.1 q.2 < height then (S.bccg height L).1 (q.1, q.2) else 0) :
    ∃ f, (read (S.elastic b1 b2) (call (S.elastic b1 b2) (run (S.elastic b1 b2) o ops) height).1).1 = .ok (some f) ∧
      Contact.Solution (fun _ => True) (halfSpaces b1 b2 S.spacing S.rows S.cols) (fun q => height - S.gap q.1 q.2) (fun _ => M) (fun q => f.loads q.1 q.2) ∧
      (call (S.elastic b1 b2) (run (S.elastic b1 b2) o ops) height).2 = .ok (S.spacing ^ 2 * (∑ i ∈ range S.rows, ∑ j ∈ range S.cols, f.loads i j) - (run (S.elastic b1 b2) o ops).cache.setLoad) ∧
      ∀ i j, i < S.rows → j < S.cols → 0 < f.loads i j → M ≠ some (f.loads i j) →
        settlement b1 S.spacing S.rows S.cols f.loads i j + settlement b2 S.spacing S.rows S.cols f.loads i j = height - S.gap i j := by
  have hS' : Sound (S.elastic b1 b2) false false := ⟨hS.backend, hS.periodic, hS.rows, hS.cols, hS.matrices⟩
  have hsg : ∀ i j, sought (S.elastic b1 b2) ops height i j ↔ S.gap i j < height := by
    intro i j
    unfold sought
    rw [hg]
    rfl
  obtain ⟨q, hq⟩ := hc
  obtain ⟨f, d, hd, hf, hr, hread⟩ := C148_results_partial (S.elastic b1 b2) false false hS' l o h0 ops height hnew ⟨q.1, q.2, q.1.2, q.2.2, (hsg _ _).mpr hq⟩
  have hmem : ∀ i j, (i, j) ∈ Conv.nodes S.rows S.cols d ↔ i < S.rows ∧ j < S.cols ∧ S.gap i j < height := by
    intro i j
    rw [← hsg, ← hd]
    exact mem_nodes (S := S)
  have turn : ∀ u, Contact.Solution (fun _ => True) (halfSpaces b1 b2 S.spacing S.rows S.cols) (fun q => height - S.gap q.1 q.2) (fun _ => M) u → (∀ q, u q = f.loads q.1 q.2) →
      Contact.Solution (fun _ => True) (halfSpaces b1 b2 S.spacing S.rows S.cols) (fun q => height - S.gap q.1 q.2) (fun _ => M) (fun q => f.loads q.1 q.2) := fun u hu e => funext e ▸ hu
  have hu := turn _ (((C153_search h1 h2 S hh hM hn).1 _).mp (hsol _ hmem)) fun q => by
    beta_reduce
    by_cases hT : S.gap q.1 q.2 < height
    · rw [if_pos hT]
      exact (hf.inside q.1 q.2 q.1.2 q.2.2 ((hsg _ _).mpr hT)).symm
    · rw [if_neg hT]
      exact (hf.outside q.1 q.2 q.1.2 q.2.2 fun h => hT ((hsg _ _).mp h)).symm
  refine ⟨f, hread [] trivial, hu, by rw [hr, hf.load]; rfl, fun i j hi hj hp hne => ?_⟩
  have e : halfSpaces b1 b2 S.spacing S.rows S.cols (fun q => f.loads q.1 q.2) (⟨i, hi⟩, ⟨j, hj⟩) = settlement b1 S.spacing S.rows S.cols f.loads i j + settlement b2 S.spacing S.rows S.cols f.loads i j := by
    have es : ∀ b, settlement b S.spacing S.rows S.cols (lift fun q : Fin S.rows × Fin S.cols => f.loads q.1 q.2) i j = settlement b S.spacing S.rows S.cols f.loads i j := by
      intro b
      unfold settlement
      refine sum_congr rfl fun a ha => sum_congr rfl fun c hc => ?_
      unfold lift
      rw [dif_pos ⟨mem_range.mp ha, mem_range.mp hc⟩]
    show settlement b1 _ _ _ _ i j + settlement b2 _ _ _ _ i j = _
    rw [es, es]
  rw [← e]
  refine le_antisymm (not_lt.mp fun hlt => ?_) (not_lt.mp fun hlt => ?_)
  · exact hp.ne' (hu.gap (⟨i, hi⟩, ⟨j, hj⟩) trivial hlt)
  · exact hne (hu.overlap (⟨i, hi⟩, ⟨j, hj⟩) trivial hlt)

/-! ## Concrete cases -/

/-- The displacement of a loaded node of `demo` itself for unit pressure, of both bodies. -/
noncomputable def own : ℝ := Bouss.cell (Bouss.pointLoad 1 (1 / 4) 'z' 'z') (1 / 2) (1 / 2) 0 0 + Bouss.cell (Bouss.pointLoad 2 (1 / 3) 'z' 'z') (1 / 2) (1 / 2) 0 0

theorem own_pos : 0 < own := add_pos (cell_pos (b := ⟨1, 1 / 4⟩) (by norm_num) (by norm_num) (by norm_num) 0 0) (cell_pos (b := ⟨2, 1 / 3⟩) (by norm_num) (by norm_num) (by norm_num) 0 0)

/-- One row of three nodes with gaps 0, 1 and 2, with a solver that is exact for one node in contact. -/
noncomputable def solved : Setup := { demo true with bccg := fun h _ => (fun _ => h / own, false) }

theorem solved_gap (q : Fin solved.rows × Fin solved.cols) : solved.gap q.1 q.2 < 1 / 2 ↔ (q.2 : ℕ) = 0 := by
  show ((q.2 : ℕ) : ℝ) < 1 / 2 ↔ _
  constructor
  · intro h
    by_contra hn
    have : (1 : ℝ) ≤ (q.2 : ℕ) := by exact_mod_cast Nat.one_le_iff_ne_zero.2 hn
    linarith
  · intro h
    rw [h]
    norm_num

theorem solved_row (q : Fin solved.rows × Fin solved.cols) : (q.1 : ℕ) = 0 := Nat.lt_one_iff.mp q.1.2

theorem solved_near (q q' : Fin solved.rows × Fin solved.cols) (h : solved.gap q.1 q.2 < 1 / 2) (h' : solved.gap q'.1 q'.2 < 1 / 2) : Near solved.rows q.1 q'.1 ∧ Near solved.cols q.2 q'.2 := by
  rw [solved_row q, solved_row q', (solved_gap q).mp h, (solved_gap q').mp h']
  simp [Near]

example := C153_search (b1 := ⟨1, 1 / 4⟩) (b2 := ⟨2, 1 / 3⟩) ⟨by norm_num, by norm_num⟩ ⟨by norm_num, by norm_num⟩ solved (by norm_num [solved, demo]) (M := some 3) (fun m hm => by cases hm; norm_num) solved_near

theorem solved_solves (L : List (ℕ × ℕ)) : Contact.Solution (fun q => solved.gap q.1 q.2 < 1 / 2) (bodies (solved.elastic ⟨1, 1 / 4⟩ ⟨2, 1 / 3⟩) false false) (fun q => 1 / 2 - solved.gap q.1 q.2) (fun _ => none)
    fun q => open Classical in if solved.gap q.1 q.2 < 1 / 2 then (solved.bccg (1 / 2) L).1 (q.1, q.2) else 0 := by
  have hL : ∀ q : Fin solved.rows × Fin solved.cols, solved.gap q.1 q.2 < 1 / 2 → bodies (solved.elastic ⟨1, 1 / 4⟩ ⟨2, 1 / 3⟩) false false (fun q => open Classical in if solved.gap q.1 q.2 < 1 / 2 then (solved.bccg (1 / 2) L).1 (q.1, q.2) else 0) q = 1 / 2 - solved.gap q.1 q.2 := by
    intro q hq
    refine (bodies_near (T := fun q => solved.gap q.1 q.2 < 1 / 2) solved (by norm_num [solved, demo]) solved_near (fun q hq => if_neg hq) q hq).trans ?_
    have el : ∀ c, lift (n0 := 1) (n1 := 3) (fun q => open Classical in if solved.gap q.1 q.2 < 1 / 2 then (solved.bccg (1 / 2) L).1 (q.1, q.2) else 0) 0 c = if c = 0 then 1 / 2 / own else 0 := by
      intro c
      unfold lift
      by_cases hc : c < 3
      · rw [dif_pos ⟨by norm_num, hc⟩]
        by_cases h0 : c = 0
        · rw [if_pos h0]
          exact if_pos ((solved_gap (⟨0, by norm_num [solved, demo]⟩, ⟨c, hc⟩)).mpr h0)
        · rw [if_neg h0]
          exact if_neg (fun h => h0 ((solved_gap (⟨0, by norm_num [solved, demo]⟩, ⟨c, hc⟩)).mp h))
      · rw [dif_neg (fun h => hc h.2), if_neg (by omega)]
    have es : ∀ b : Body, settlement b (1 / 2) 1 3 (lift (n0 := 1) (n1 := 3) (fun q => open Classical in if solved.gap q.1 q.2 < 1 / 2 then (solved.bccg (1 / 2) L).1 (q.1, q.2) else 0)) 0 0 =
        1 / 2 / own * Bouss.cell (Bouss.pointLoad b.G b.v 'z' 'z') (1 / 2) (1 / 2) 0 0 := by
      intro b
      unfold settlement
      rw [sum_range_one]
      simp only [el]
      simp
    have e2 : halfSpaces ⟨1, 1 / 4⟩ ⟨2, 1 / 3⟩ solved.spacing solved.rows solved.cols (fun q => open Classical in if solved.gap q.1 q.2 < 1 / 2 then (solved.bccg (1 / 2) L).1 (q.1, q.2) else 0) q = 1 / 2 / own * own := by
      show settlement _ (1 / 2) 1 3 _ q.1 q.2 + settlement _ (1 / 2) 1 3 _ q.1 q.2 = _
      rw [solved_row q, (solved_gap q).mp hq]
      refine (congrArg₂ (· + ·) (es _) (es _)).trans ?_
      show _ = 1 / 2 / own * (_ + _)
      rw [mul_add]
    rw [e2, div_mul_cancel₀ _ own_pos.ne']
    show (1 : ℝ) / 2 = 1 / 2 - ((q.2 : ℕ) : ℝ)
    rw [(solved_gap q).mp hq]
    norm_num
  refine ⟨fun q hq => if_neg hq, fun q hq => ?_, fun q _ m hm => (by cases hm), fun q hq h => absurd (hL q hq) h.ne', fun q hq h => absurd (hL q hq) h.ne⟩
  rw [if_pos hq]
  exact div_nonneg (by norm_num) own_pos.le

example := C153_results (b1 := ⟨1, 1 / 4⟩) (b2 := ⟨2, 1 / 3⟩) ⟨by norm_num, by norm_num⟩ ⟨by norm_num, by norm_num⟩ solved (by norm_num [solved, demo]) ⟨demo_sound.backend, demo_sound.periodic, demo_sound.rows, demo_sound.cols, rfl⟩
  (l := 7) (o := demo0) (by unfold new HeightCache.init; simp [solved, demo, Setup.elastic, Setup.problem, demo0]) [] rfl (M := none) (fun m hm => by cases hm) (height := 1 / 2) (by simp [run, demo0])
  ⟨(⟨0, by norm_num [solved, demo]⟩, ⟨0, by norm_num [solved, demo]⟩), by norm_num [solved, demo]⟩ solved_near (fun L _ => solved_solves L)

end Verif.Definite
