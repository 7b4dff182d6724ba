import Verif.SlipMemo.Elastic
import Verif.Stiffness.Props
import Verif.Contact.Props

/-!
# C161: the contact stiffness is that of the elastic bodies

`ResultContactStiffness._solve` convolves with influence matrices whose span is the shape of the (cropped) grid (l.120-132), so that a load acts on the nodes within half the grid only.
-/

namespace Verif.Stiffness

open Verif Materials Definite Finset SlipMemo
open Verif.HeightResults (Body lift)

/-! ## Model -/

/-- `total_im`, l.120-128, for two elastic materials (Verif.SlipMemo.elastic): both matrices have the spacing of the first surface. -/
noncomputable def totalIm (b1 b2 : Body) (h : ℝ) (d : Dir) (n0 n1 : ℕ) : ℕ → ℕ → ℝ := fun i j =>
  Conv.fillMatrix n0 n1 (fun x y => (InfMat.coefficient (name (d, d)) h h b1.G b1.v none none x y).getD 0) i j +
    Conv.fillMatrix n0 n1 (fun x y => (InfMat.coefficient (name (d, d)) h h b2.G b2.v none none x y).getD 0) i j

/-! ## Specification -/

/-- What a number `K i j a c` for the effect of every node on every other gives for loads on the grid. -/
noncomputable def gridMap {n0 n1 : ℕ} (K : ℕ → ℕ → ℕ → ℕ → ℝ) : (Fin n0 × Fin n1 → ℝ) →ₗ[ℝ] (Fin n0 × Fin n1 → ℝ) where
  toFun u q := ∑ a ∈ range n0, ∑ c ∈ range n1, lift u a c * K q.1 q.2 a c
  map_add' u v := by
    funext q
    simp only [Pi.add_apply, ← sum_add_distrib]
    refine sum_congr rfl fun a _ => sum_congr rfl fun b _ => ?_
    have : lift (u + v) a b = lift u a b + lift v a b := by
      unfold lift
      split <;> simp
    rw [this]; ring
  map_smul' r u := by
    funext q
    simp only [Pi.smul_apply, smul_eq_mul, RingHom.id_apply, mul_sum]
    refine sum_congr rfl fun a _ => sum_congr rfl fun b _ => ?_
    have : lift (r • u) a b = r * lift u a b := by
      unfold lift
      split <;> simp
    rw [this]; ring

/-- The effect of a unit load on a cell of two elastic half spaces at another node, in the direction `d`. -/
noncomputable def spaces (b1 b2 : Body) (h : ℝ) (d : Dir) (n0 n1 : ℕ) : (Fin n0 × Fin n1 → ℝ) →ₗ[ℝ] (Fin n0 × Fin n1 → ℝ) := gridMap fun i j a c =>
  Bouss.cell (Bouss.pointLoad b1.G b1.v (letter d) (letter d)) h h ((j : ℤ) - c) ((i : ℤ) - a) + Bouss.cell (Bouss.pointLoad b2.G b2.v (letter d) (letter d)) h h ((j : ℤ) - c) ((i : ℤ) - a)

/-- What the planned convolution does with loads on the grid. -/
def Convolves (be : Conv.Backend) (periodic : Conv.Circular) {n0 n1 : ℕ} (im : ℕ → ℕ → ℝ) (L : (Fin n0 × Fin n1 → ℝ) →ₗ[ℝ] (Fin n0 × Fin n1 → ℝ)) : Prop :=
  ∃ f, Conv.plan be periodic n0 n1 n0 n1 im = .ok f ∧ ∀ u q, f (lift u) q.1 q.2 = L u q

/-- All contact nodes are less than half the grid apart. -/
def Compact {n0 n1 : ℕ} (contact : Fin n0 × Fin n1 → Bool) : Prop := ∀ p q, contact p = true → contact q = true → Near n0 p.1 q.1 ∧ Near n1 p.2 q.2

/-- The mean line stiffness of the loads `u` if `w` are the displacements: the loads over the mean gap that is left when the contact has moved by one. -/
noncomputable def meanLines {n0 n1 : ℕ} (contact : Fin n0 × Fin n1 → Bool) (u w : Fin n0 × Fin n1 → ℝ) : ℝ :=
  (∑ i, u i) / ∑ i, if contact i then 0 else 1 - min 1 (w i)

/-- Loads under the punch up to a relative error `e` of the displacements. -/
structure NearPunch {ι : Type} [Fintype ι] (L : (ι → ℝ) →ₗ[ℝ] (ι → ℝ)) (c : ι → Bool) (e : ℝ) (u : ι → ℝ) : Prop where
  outside : ∀ i, c i = false → u i = 0
  push : ∀ i, 0 ≤ u i
  reach : ∀ i, c i = true → 1 - e ≤ L u i
  touch : ∀ i, c i = true → u i ≠ 0 → L u i ≤ 1 + e

/-! ## Lemmas -/

theorem spaces_both (b1 b2 : Body) {h : ℝ} (hh : 0 < h) (d : Dir) {n0 n1 : ℕ} (u : Fin n0 × Fin n1 → ℝ) (q : Fin n0 × Fin n1) :
    spaces b1 b2 h d n0 n1 u q = ∑ a ∈ range n0, ∑ c ∈ range n1, lift u a c * both b1 b2 h d ((q.2 : ℤ) - c) ((q.1 : ℤ) - a) := by
  rw [← relative_both b1 b2 hh]
  change ∑ a ∈ range n0, ∑ c ∈ range n1, _ = _
  unfold relative movement
  simp only [mul_add, sum_add_distrib]

open Classical in
theorem convolves_eq {be : Conv.Backend} (hbe : be.Ok) {periodic : Conv.Circular} (hp : Conv.Means periodic false false) {b1 b2 : Body} {h : ℝ} {d : Dir} {n0 n1 : ℕ} (h0 : 0 < n0) (h1 : 0 < n1)
    {L : (Fin n0 × Fin n1 → ℝ) →ₗ[ℝ] (Fin n0 × Fin n1 → ℝ)} (hL : Convolves be periodic (totalIm b1 b2 h d n0 n1) L) (u : Fin n0 × Fin n1 → ℝ) (q : Fin n0 × Fin n1) :
    L u q = ∑ a ∈ range n0, ∑ c ∈ range n1, lift u a c * if Stored n0 q.1 a ∧ Stored n1 q.2 c then both b1 b2 h d ((q.2 : ℤ) - c) ((q.1 : ℤ) - a) else 0 := by
  obtain ⟨f, hf, e⟩ := hL
  obtain ⟨g, hg, e'⟩ := Conv.C118_superposition be hbe periodic false false hp n0 n1 n0 n1 h0 h1 (fun x => by cases x) (fun x => by cases x) (totalIm b1 b2 h d n0 n1)
  rw [hf] at hg
  injection hg with hg
  subst hg
  rw [← e, e' _ _ _ q.1.2 q.2.2]
  unfold Conv.superpose
  have ei : totalIm b1 b2 h d n0 n1 = Conv.fillMatrix n0 n1 (both b1 b2 h d) := rfl
  simp only [ei, read_entry h0 h1]

/-! ## What holds -/

/-- C161: the plan succeeds and is a linear map of the loads. -/
theorem C161_plan (be : Conv.Backend) (hbe : be.Ok) {periodic : Conv.Circular} (hp : Conv.Means periodic false false) (b1 b2 : Body) (h : ℝ) (d : Dir) {n0 n1 : ℕ} (h0 : 0 < n0) (h1 : 0 < n1) :
    ∃ L : (Fin n0 × Fin n1 → ℝ) →ₗ[ℝ] (Fin n0 × Fin n1 → ℝ), Convolves be periodic (totalIm b1 b2 h d n0 n1) L := by
  obtain ⟨f, hf, e⟩ := Conv.C118_superposition be hbe periodic false false hp n0 n1 n0 n1 h0 h1 (fun x => by cases x) (fun x => by cases x) (totalIm b1 b2 h d n0 n1)
  exact ⟨gridMap fun i j a c => Conv.readAt n0 n1 (totalIm b1 b2 h d n0 n1) (Conv.position false n0 i a) (Conv.position false n1 j c), f, hf, fun u q => e _ _ _ q.1.2 q.2.2⟩

example := C161_plan .cuda trivial (.pair false false) ⟨80e9, 0.3⟩ ⟨8e9, 0.4⟩ 1e-6 .z (n0 := 4) (n1 := 4) (by norm_num) (by norm_num)

theorem near_equal {be : Conv.Backend} (hbe : be.Ok) {periodic : Conv.Circular} (hp : Conv.Means periodic false false) {b1 b2 : Body} {h : ℝ} (hh : 0 < h) {d : Dir} {n0 n1 : ℕ}
    {L : (Fin n0 × Fin n1 → ℝ) →ₗ[ℝ] (Fin n0 × Fin n1 → ℝ)} (hL : Convolves be periodic (totalIm b1 b2 h d n0 n1) L) {u : Fin n0 × Fin n1 → ℝ} {q : Fin n0 × Fin n1}
    (hn : ∀ p, u p ≠ 0 → Near n0 q.1 p.1 ∧ Near n1 q.2 p.2) : L u q = spaces b1 b2 h d n0 n1 u q := by
  rw [convolves_eq hbe hp (Nat.pos_of_ne_zero fun x => by subst x; exact q.1.elim0) (Nat.pos_of_ne_zero fun x => by subst x; exact q.2.elim0) hL, spaces_both b1 b2 hh]
  refine sum_congr rfl fun a ha => sum_congr rfl fun c hc => ?_
  by_cases hz : lift u a c = 0
  · rw [hz, zero_mul, zero_mul]
  · have e : lift u a c = u (⟨a, mem_range.mp ha⟩, ⟨c, mem_range.mp hc⟩) := by
      unfold lift
      rw [dif_pos ⟨mem_range.mp ha, mem_range.mp hc⟩]
    obtain ⟨x, y⟩ := hn (⟨a, mem_range.mp ha⟩, ⟨c, mem_range.mp hc⟩) (by rw [← e]; exact hz)
    rw [if_pos ⟨stored_near x, stored_near y⟩]

theorem lift_nonneg {n0 n1 : ℕ} {u : Fin n0 × Fin n1 → ℝ} (hu : ∀ i, 0 ≤ u i) (a c : ℕ) : 0 ≤ lift u a c := by
  unfold lift
  split
  · exact hu _
  · exact le_refl 0

theorem convolves_le {be : Conv.Backend} (hbe : be.Ok) {periodic : Conv.Circular} (hp : Conv.Means periodic false false) {b1 b2 : Body} (hb1 : Soft b1) (hb2 : Soft b2) {h : ℝ} (hh : 0 < h) {d : Dir} {n0 n1 : ℕ}
    {L : (Fin n0 × Fin n1 → ℝ) →ₗ[ℝ] (Fin n0 × Fin n1 → ℝ)} (hL : Convolves be periodic (totalIm b1 b2 h d n0 n1) L) {u : Fin n0 × Fin n1 → ℝ} (hu0 : ∀ i, 0 ≤ u i) (q : Fin n0 × Fin n1) :
    L u q ≤ spaces b1 b2 h d n0 n1 u q := by
  classical
  rw [convolves_eq hbe hp (Nat.pos_of_ne_zero fun x => by subst x; exact q.1.elim0) (Nat.pos_of_ne_zero fun x => by subst x; exact q.2.elim0) hL, spaces_both b1 b2 hh]
  refine sum_le_sum fun a _ => sum_le_sum fun c _ => mul_le_mul_of_nonneg_left ?_ (lift_nonneg hu0 a c)
  split_ifs
  · exact le_refl _
  · exact (both_positive hb1 hb2 hh d _ _).le

theorem work_sum (b1 b2 : Body) {h : ℝ} (hh : 0 < h) (d : Dir) {n0 n1 : ℕ} (u v : Fin n0 × Fin n1 → ℝ) :
    ∑ i, u i * spaces b1 b2 h d n0 n1 v i = shearWork b1 h d n0 n1 (lift u) (lift v) + shearWork b2 h d n0 n1 (lift u) (lift v) := by
  unfold shearWork
  rw [← sum_add_distrib, Fintype.sum_prod_type, ← Fin.sum_univ_eq_sum_range (fun i => (∑ j ∈ range n1, lift u i j * movement b1 h d n0 n1 (lift v) i j) + ∑ j ∈ range n1, lift u i j * movement b2 h d n0 n1 (lift v) i j) n0]
  refine sum_congr rfl fun i _ => ?_
  rw [← sum_add_distrib, ← Fin.sum_univ_eq_sum_range (fun j => lift u i j * movement b1 h d n0 n1 (lift v) i j + lift u i j * movement b2 h d n0 n1 (lift v) i j) n1]
  refine sum_congr rfl fun j _ => ?_
  rw [spaces_both b1 b2 hh, ← relative_both b1 b2 hh, ← mul_add]
  have e : lift u i j = u (i, j) := by
    unfold lift
    rw [dif_pos ⟨i.2, j.2⟩]
  rw [e]
  rfl

/-- Loads on half spaces do positive work. -/
theorem spaces_work {b1 b2 : Body} (hb1 : Soft b1) (hb2 : Soft b2) {h : ℝ} (hh : 0 < h) (d : Dir) {n0 n1 : ℕ} {u : Fin n0 × Fin n1 → ℝ} (hu : u ≠ 0) : 0 < ∑ i, u i * spaces b1 b2 h d n0 n1 u i := by
  have hl : ∃ i j, i < n0 ∧ j < n1 ∧ lift u i j ≠ 0 := by
    obtain ⟨q, hq⟩ := Function.ne_iff.mp hu
    refine ⟨q.1, q.2, q.1.2, q.2.2, ?_⟩
    unfold lift
    rw [dif_pos ⟨q.1.2, q.2.2⟩]
    exact hq
  rw [work_sum b1 b2 hh]
  exact add_pos (C154_work hb1 hh d hl) (C154_work hb2 hh d hl)

/-- On a compact contact the convolution of loads in the contact is that of the half spaces. -/
theorem compact_equal {be : Conv.Backend} (hbe : be.Ok) {periodic : Conv.Circular} (hp : Conv.Means periodic false false) {b1 b2 : Body} {h : ℝ} (hh : 0 < h) {d : Dir} {n0 n1 : ℕ}
    {L : (Fin n0 × Fin n1 → ℝ) →ₗ[ℝ] (Fin n0 × Fin n1 → ℝ)} (hL : Convolves be periodic (totalIm b1 b2 h d n0 n1) L) {contact : Fin n0 × Fin n1 → Bool} (hc : Compact contact) {u : Fin n0 × Fin n1 → ℝ}
    (hu : ∀ i, ¬ contact i = true → u i = 0) {q : Fin n0 × Fin n1} (hq : contact q = true) : L u q = spaces b1 b2 h d n0 n1 u q :=
  near_equal hbe hp hh hL fun p hpu => hc q p hq (by
    by_contra hn
    exact hpu (hu p hn))

/-- **C160, stick and slip (partial).** For two elastic bodies, axes that are not periodic and a contact whose nodes are less than half the grid apart, and any prescribed displacements and limits of the tangential loads that are not negative: exactly
one distribution of loads of the contact nodes, within the limits, moves all nodes below their limit at least by the prescribed displacement and all loaded nodes at most by it, with the displacements that the code computes. It is the one with the
displacements of the two half spaces. Missing: contacts that reach over more than half of the grid (`C160_far_wrong`), and that the solver finds this solution. -/
theorem C160_stick_slip_partial {be : Conv.Backend} (hbe : be.Ok) {periodic : Conv.Circular} (hp : Conv.Means periodic false false) {b1 b2 : Body} (hb1 : Soft b1) (hb2 : Soft b2) {h : ℝ} (hh : 0 < h) {d : Dir} {n0 n1 : ℕ}
    {L : (Fin n0 × Fin n1 → ℝ) →ₗ[ℝ] (Fin n0 × Fin n1 → ℝ)} (hL : Convolves be periodic (totalIm b1 b2 h d n0 n1) L) {contact : Fin n0 × Fin n1 → Bool} (hc : Compact contact) (set : Fin n0 × Fin n1 → ℝ)
    {limit : Fin n0 × Fin n1 → Option ℝ} (hlim : ∀ i m, limit i = some m → 0 ≤ m) :
    (∀ u, Contact.Solution (fun i => contact i = true) L set limit u ↔ Contact.Solution (fun i => contact i = true) (spaces b1 b2 h d n0 n1) set limit u) ∧
      ∃! u, Contact.Solution (fun i => contact i = true) L set limit u := by
  have iff : ∀ u, Contact.Solution (fun i => contact i = true) L set limit u ↔ Contact.Solution (fun i => contact i = true) (spaces b1 b2 h d n0 n1) set limit u := fun u =>
    ⟨fun x => ⟨x.outside, x.nonneg, x.limit, fun i hi hg => x.gap i hi (by rw [compact_equal hbe hp hh hL hc x.outside hi]; exact hg),
      fun i hi hg => x.overlap i hi (by rw [compact_equal hbe hp hh hL hc x.outside hi]; exact hg)⟩,
      fun x => ⟨x.outside, x.nonneg, x.limit, fun i hi hg => x.gap i hi (by rw [← compact_equal hbe hp hh hL hc x.outside hi]; exact hg),
        fun i hi hg => x.overlap i hi (by rw [← compact_equal hbe hp hh hL hc x.outside hi]; exact hg)⟩⟩
  refine ⟨iff, ?_⟩
  obtain ⟨u, hu, hun⟩ := Contact.C150_one_solution (fun i => contact i = true) (L := spaces b1 b2 h d n0 n1) (fun w hw => spaces_work hb1 hb2 hh d hw) set hlim
  exact ⟨u, (iff u).mpr hu, fun u' hu' => hun u' ((iff u').mp hu')⟩

theorem punch_solution {n0 n1 : ℕ} (L : (Fin n0 × Fin n1 → ℝ) →ₗ[ℝ] (Fin n0 × Fin n1 → ℝ)) (contact : Fin n0 × Fin n1 → Bool) (u : Fin n0 × Fin n1 → ℝ) :
    Punch L contact u ↔ Contact.Solution (fun i => contact i = true) L (fun _ => 1) (fun _ => none) u := by
  constructor
  · intro x
    refine ⟨fun i hi => x.outside i (by simpa using hi), fun i _ => x.push i, (fun i _ m hm => by cases hm), fun i hi hg => ?_, fun i hi hg => absurd hg (not_lt.mpr (x.reach i hi))⟩
    by_contra hne
    exact absurd (x.touch i hi hne) hg.ne'
  · intro x
    have reach : ∀ i, contact i = true → 1 ≤ L u i := fun i hi => by
      by_contra hn
      cases x.overlap i hi (not_le.mp hn)
    refine ⟨fun i hi => x.outside i (by rw [hi]; decide), fun i => ?_, reach, fun i hi hne => ?_⟩
    · by_cases hi : contact i = true
      · exact x.nonneg i hi
      · rw [x.outside i hi]
    · by_contra hd
      exact hne (x.gap i hi (lt_of_le_of_ne (reach i hi) (Ne.symm hd)))

/-- **C161, far points (partial).** For two elastic bodies, axes that are not periodic and a contact whose nodes are less than half the grid apart, exactly one load solves the problem of the flat punch over the contact nodes with the displacements
that the code computes, and it is the load under the punch on the two half spaces. Missing: contacts that reach over more than half of the grid, see below, and solutions up to a tolerance. -/
theorem C161_far_points_partial {be : Conv.Backend} (hbe : be.Ok) {periodic : Conv.Circular} (hp : Conv.Means periodic false false) {b1 b2 : Body} (hb1 : Soft b1) (hb2 : Soft b2) {h : ℝ} (hh : 0 < h) {d : Dir} {n0 n1 : ℕ}
    {L : (Fin n0 × Fin n1 → ℝ) →ₗ[ℝ] (Fin n0 × Fin n1 → ℝ)} (hL : Convolves be periodic (totalIm b1 b2 h d n0 n1) L) {contact : Fin n0 × Fin n1 → Bool} (hc : Compact contact) :
    (∀ u, Punch L contact u ↔ Punch (spaces b1 b2 h d n0 n1) contact u) ∧ ∃! u, Punch L contact u := by
  simp only [punch_solution]
  exact C160_stick_slip_partial hbe hp hb1 hb2 hh hL hc (fun _ => 1) fun i m hm => by cases hm

theorem spaces_symm (b1 b2 : Body) {h : ℝ} (hh : 0 < h) (d : Dir) {n0 n1 : ℕ} (u v : Fin n0 × Fin n1 → ℝ) : ∑ i, u i * spaces b1 b2 h d n0 n1 v i = ∑ i, v i * spaces b1 b2 h d n0 n1 u i := by
  rw [work_sum b1 b2 hh, work_sum b1 b2 hh, C154_reciprocal b1 hh d n0 n1 (lift u) (lift v), C154_reciprocal b2 hh d n0 n1 (lift u) (lift v)]

/-- **C161, tolerance (partial).** If the loads only meet the conditions of the punch up to a relative error `e` of the displacements, the sum of the loads (and so the far point stiffness) differs from that of the punch on the half spaces by a
factor between `(1 - 2e) / (1 + e)` and `1 / (1 - e)`. Missing: contacts that reach over more than half of the grid; that the loads of the solver have such an error. -/
theorem C161_tolerance_partial {be : Conv.Backend} (hbe : be.Ok) {periodic : Conv.Circular} (hp : Conv.Means periodic false false) {b1 b2 : Body} (hb1 : Soft b1) (hb2 : Soft b2) {h : ℝ} (hh : 0 < h) {d : Dir} {n0 n1 : ℕ}
    {L : (Fin n0 × Fin n1 → ℝ) →ₗ[ℝ] (Fin n0 × Fin n1 → ℝ)} (hL : Convolves be periodic (totalIm b1 b2 h d n0 n1) L) {contact : Fin n0 × Fin n1 → Bool} (hc : Compact contact) {e : ℝ} {u p : Fin n0 × Fin n1 → ℝ}
    (hu : NearPunch L contact e u) (hpp : Punch (spaces b1 b2 h d n0 n1) contact p) : (1 - 2 * e) * ∑ i, p i ≤ (1 + e) * ∑ i, u i ∧ (1 - e) * ∑ i, u i ≤ ∑ i, p i := by
  set S := spaces b1 b2 h d n0 n1 with hS
  have key : ∀ i, contact i = true → L u i = S u i := fun i hi => compact_equal hbe hp hh hL hc (fun j hj => hu.outside j (by simpa using hj)) hi
  have energy : 0 ≤ ∑ i, (u - p) i * S (u - p) i := by
    by_cases hz : u - p = 0
    · rw [hz]
      simp
    · exact (spaces_work hb1 hb2 hh d hz).le
  have expand : ∑ i, (u - p) i * S (u - p) i = ∑ i, u i * S u i - ∑ i, u i * S p i - ∑ i, p i * S u i + ∑ i, p i * S p i := by
    rw [← sum_sub_distrib, ← sum_sub_distrib, ← sum_add_distrib]
    refine sum_congr rfl fun i _ => ?_
    rw [map_sub]
    simp only [Pi.sub_apply]
    ring
  have symm := spaces_symm b1 b2 hh d u p
  have total := punch_total hpp
  have own : ∑ i, u i * S u i ≤ (1 + e) * ∑ i, u i := by
    rw [mul_sum]
    refine sum_le_sum fun i _ => ?_
    by_cases hz : u i = 0
    · rw [hz, zero_mul, mul_zero]
    · have hi : contact i = true := by
        by_contra hn
        exact hz (hu.outside i (by simpa using hn))
      have := hu.touch i hi hz
      rw [key i hi] at this
      rw [mul_comm]
      exact mul_le_mul_of_nonneg_right this (hu.push i)
  have other : ∑ i, u i ≤ ∑ i, u i * S p i := sum_le_sum fun i _ => by
    by_cases hi : contact i = true
    · exact le_mul_of_one_le_right (hu.push i) (hpp.reach i hi)
    · rw [hu.outside i (by simpa using hi), zero_mul]
  have back : (1 - e) * ∑ i, p i ≤ ∑ i, p i * S u i := by
    rw [mul_sum]
    refine sum_le_sum fun i _ => ?_
    by_cases hi : contact i = true
    · have := hu.reach i hi
      rw [key i hi] at this
      rw [mul_comm]
      exact mul_le_mul_of_nonneg_left this (hpp.push i)
    · rw [hpp.outside i (by simpa using hi), mul_zero, zero_mul]
  rw [← hS] at symm
  constructor <;> linarith

/-- **C161, loading and unloading (partial).** For two elastic bodies and a contact whose nodes are less than half the grid apart, the load of the punch over fewer nodes (those that are still elastic, for the loading direction) is not greater than that over
all contact nodes. Missing: contacts that reach over more than half of the grid. -/
theorem C161_loading_partial {be : Conv.Backend} (hbe : be.Ok) {periodic : Conv.Circular} (hp : Conv.Means periodic false false) {b1 b2 : Body} (hb1 : Soft b1) (hb2 : Soft b2) {h : ℝ} (hh : 0 < h) {d : Dir} {n0 n1 : ℕ}
    {L : (Fin n0 × Fin n1 → ℝ) →ₗ[ℝ] (Fin n0 × Fin n1 → ℝ)} (hL : Convolves be periodic (totalIm b1 b2 h d n0 n1) L) {contact : Fin n0 × Fin n1 → Bool} (hc : Compact contact) (z : Fin n0 × Fin n1 → XR) (maxLoad : XR)
    {u₁ u₂ : Fin n0 × Fin n1 → ℝ} (h₁ : Punch L (loadingNodes contact z maxLoad) u₁) (h₂ : Punch L contact u₂) : ∑ i, u₁ i ≤ ∑ i, u₂ i := by
  have sub : ∀ i, loadingNodes contact z maxLoad i = true → contact i = true := fun i hi => by
    simp only [loadingNodes, Bool.and_eq_true] at hi
    exact hi.1
  have hc₁ : Compact (loadingNodes contact z maxLoad) := fun p q hp hq => hc p q (sub p hp) (sub q hq)
  have energy : Energy (spaces b1 b2 h d n0 n1) := ⟨fun u v => spaces_symm b1 b2 hh d u v, fun u => by
    by_cases hz : u = 0
    · rw [hz]
      simp
    · exact (spaces_work hb1 hb2 hh d hz).le⟩
  exact punch_mono energy sub (((C161_far_points_partial hbe hp hb1 hb2 hh hL hc₁).1 u₁).mp h₁) (((C161_far_points_partial hbe hp hb1 hb2 hh hL hc).1 u₂).mp h₂)

theorem compact_middle : Compact (n0 := 4) (n1 := 4) fun q => q.1 == 1 && (q.2 == 1 || q.2 == 2) := by
  unfold Compact SlipMemo.Near
  decide

/-- Steel on a polymer, two nodes in the middle of a grid of four by four. -/
example {L} (hL : Convolves .cuda (.seq [false, false]) (totalIm ⟨80e9, 0.3⟩ ⟨8e9, 0.4⟩ 1e-6 .z 4 4) L) := C161_far_points_partial (be := .cuda) trivial (.pair false false) steel (b2 := ⟨8e9, 0.4⟩) ⟨by norm_num, by norm_num⟩
  (h := 1e-6) (by norm_num) hL compact_middle

/-- The same contact, one of the two nodes at the largest load; `C161_far_points_partial` gives both loads. -/
example {L} (hL : Convolves .cuda (.seq [false, false]) (totalIm ⟨80e9, 0.3⟩ ⟨8e9, 0.4⟩ 1e-6 .z 4 4) L) {u₁ u₂} := C161_loading_partial (be := .cuda) trivial (.pair false false) steel (b2 := ⟨8e9, 0.4⟩) ⟨by norm_num, by norm_num⟩
  (h := 1e-6) (by norm_num) hL compact_middle (fun q => if q.2 = 1 then .fin 1e9 else .fin 5e8) (.fin 1e9) (u₁ := u₁) (u₂ := u₂)

/-- The same contact under loads that are a tenth too large. -/
example : ∃ (L : (Fin 4 × Fin 4 → ℝ) →ₗ[ℝ] (Fin 4 × Fin 4 → ℝ)) (u p : Fin 4 × Fin 4 → ℝ), NearPunch L (fun q => q.1 == 1 && (q.2 == 1 || q.2 == 2)) (1 / 10) u ∧
    Punch (spaces ⟨80e9, 0.3⟩ ⟨8e9, 0.4⟩ 1e-6 .z 4 4) (fun q => q.1 == 1 && (q.2 == 1 || q.2 == 2)) p ∧ (1 - 2 * (1 / 10)) * ∑ i, p i ≤ (1 + 1 / 10) * ∑ i, u i ∧ (1 - 1 / 10) * ∑ i, u i ≤ ∑ i, p i := by
  obtain ⟨L, hL⟩ := C161_plan .cuda trivial (.pair false false) ⟨80e9, 0.3⟩ ⟨8e9, 0.4⟩ 1e-6 .z (n0 := 4) (n1 := 4) (by norm_num) (by norm_num)
  have polymer : Soft ⟨8e9, 0.4⟩ := ⟨by norm_num, by norm_num⟩
  obtain ⟨iff, p, hpun, -⟩ := C161_far_points_partial (be := .cuda) trivial (.pair false false) steel polymer (h := 1e-6) (by norm_num) hL compact_middle
  have near : NearPunch L (fun q => q.1 == 1 && (q.2 == 1 || q.2 == 2)) (1 / 10) ((11 / 10 : ℝ) • p) := by
    refine ⟨fun i hi => ?_, fun i => ?_, fun i hi => ?_, fun i hi hne => ?_⟩
    · simp [hpun.outside i hi]
    · have := hpun.push i
      simp only [Pi.smul_apply, smul_eq_mul]
      positivity
    · have := hpun.reach i hi
      simp only [map_smul, Pi.smul_apply, smul_eq_mul]
      linarith
    · have := hpun.touch i hi fun x => hne (by simp [x])
      simp only [map_smul, Pi.smul_apply, smul_eq_mul]
      linarith
  exact ⟨L, _, p, near, (iff p).mp hpun, C161_tolerance_partial (be := .cuda) trivial (.pair false false) steel polymer (h := 1e-6) (by norm_num) hL compact_middle near ((iff p).mp hpun)⟩

/-- The same contact with a limit of friction on one node. -/
example {L} (hL : Convolves .cuda (.seq [false, false]) (totalIm ⟨80e9, 0.3⟩ ⟨8e9, 0.4⟩ 1e-6 .x 4 4) L) := C160_stick_slip_partial (be := .cuda) trivial (.pair false false) steel (b2 := ⟨8e9, 0.4⟩) ⟨by norm_num, by norm_num⟩
  (h := 1e-6) (by norm_num) hL compact_middle (fun _ => 1e-9) (limit := fun q => if q.2 = 1 then some 1e6 else none) (fun i m hm => by
    split_ifs at hm
    injection hm with hm
    rw [← hm]
    norm_num)

/-! ## What is false -/

/-- **C161 is false: mean lines.** For two elastic bodies, axes that are not periodic and loads that push, of which one is more than half the grid away from a free node that the code moves by less than one, the mean line stiffness that is reported
is smaller than that of the half spaces under the same loads: the code counts the part of the displacements that is far away as gap. -/
theorem C161_mean_lines_wrong {be : Conv.Backend} (hbe : be.Ok) {periodic : Conv.Circular} (hp : Conv.Means periodic false false) {b1 b2 : Body} (hb1 : Soft b1) (hb2 : Soft b2) {h : ℝ} (hh : 0 < h) {d : Dir} {n0 n1 : ℕ}
    {L : (Fin n0 × Fin n1 → ℝ) →ₗ[ℝ] (Fin n0 × Fin n1 → ℝ)} (hL : Convolves be periodic (totalIm b1 b2 h d n0 n1) L) {A : (Fin n0 × Fin n1 → XR) → Fin n0 × Fin n1 → XR} (hA : ActsOn A L)
    {contact : Fin n0 × Fin n1 → Bool} {u : Fin n0 × Fin n1 → ℝ} (hu : ∀ i, contact i = false → u i = 0) (hu0 : ∀ i, 0 ≤ u i) {p q : Fin n0 × Fin n1} (hpu : 0 < u p) (hq : contact q = false)
    (hfar : Far n0 q.1 p.1 ∨ Far n1 q.2 p.2) (hq1 : L u q < 1) (hgap : ∃ i, contact i = false ∧ spaces b1 b2 h d n0 n1 u i < 1) :
    ∃ k, stiffness A contact (fun i => .fin (u i.1)) .ml = .fin k ∧ k < meanLines contact u (spaces b1 b2 h d n0 n1 u) := by
  classical
  have hle := convolves_le hbe hp hb1 hb2 hh hL hu0
  have hlt : L u q < spaces b1 b2 h d n0 n1 u q := by
    rw [convolves_eq hbe hp (Nat.pos_of_ne_zero fun x => by subst x; exact q.1.elim0) (Nat.pos_of_ne_zero fun x => by subst x; exact q.2.elim0) hL, spaces_both b1 b2 hh]
    have hterm : ∀ a c : ℕ, lift u a c * (if Stored n0 q.1 a ∧ Stored n1 q.2 c then both b1 b2 h d ((q.2 : ℤ) - c) ((q.1 : ℤ) - a) else 0) ≤ lift u a c * both b1 b2 h d ((q.2 : ℤ) - c) ((q.1 : ℤ) - a) := by
      intro a c
      refine mul_le_mul_of_nonneg_left ?_ (lift_nonneg hu0 a c)
      split_ifs
      · exact le_refl _
      · exact (both_positive hb1 hb2 hh d _ _).le
    refine sum_lt_sum (fun a _ => sum_le_sum fun c _ => hterm a c) ⟨p.1, mem_range.mpr p.1.2, sum_lt_sum (fun c _ => hterm _ c) ⟨p.2, mem_range.mpr p.2.2, ?_⟩⟩
    rw [if_neg fun x => hfar.elim (fun y => stored_far y x.1) (fun y => stored_far y x.2), mul_zero]
    refine mul_pos ?_ (both_positive hb1 hb2 hh d _ _)
    unfold lift
    rw [dif_pos ⟨p.1.2, p.2.2⟩]
    exact hpu
  have hn : (0 : ℝ) < Fintype.card (Fin n0 × Fin n1) := by exact_mod_cast Fintype.card_pos_iff.mpr ⟨q⟩
  have hsum : ∀ w : Fin n0 × Fin n1 → ℝ, (∑ i, if contact i then (0 : ℝ) else 1 - min 1 (w i)) = Fintype.card (Fin n0 × Fin n1) - ∑ i, if contact i then (1 : ℝ) else min 1 (w i) := by
    intro w
    have : (Fintype.card (Fin n0 × Fin n1) : ℝ) = ∑ _i : Fin n0 × Fin n1, (1 : ℝ) := by simp
    rw [this, ← sum_sub_distrib]
    refine sum_congr rfl fun i _ => ?_
    split_ifs <;> ring
  have gapTrue : 0 < ∑ i, if contact i then (0 : ℝ) else 1 - min 1 (spaces b1 b2 h d n0 n1 u i) := by
    obtain ⟨i, hi, hi1⟩ := hgap
    refine sum_pos' (fun j _ => ?_) ⟨i, mem_univ _, ?_⟩
    · split_ifs
      · exact le_refl 0
      · exact sub_nonneg.mpr (min_le_left _ _)
    · rw [if_neg (by rw [hi]; decide)]
      exact sub_pos.mpr (min_lt_of_right_lt hi1)
  have gapLess : (∑ i, if contact i then (0 : ℝ) else 1 - min 1 (spaces b1 b2 h d n0 n1 u i)) < ∑ i, if contact i then (0 : ℝ) else 1 - min 1 (L u i) := by
    refine sum_lt_sum (fun i _ => ?_) ⟨q, mem_univ _, ?_⟩
    · split_ifs
      · exact le_refl 0
      · exact sub_le_sub_left (min_le_min_left 1 (hle i)) 1
    · have : ¬ contact q = true := by rw [hq]; decide
      rw [if_neg this, if_neg this]
      refine sub_lt_sub_left ?_ 1
      rw [min_eq_right hq1.le]
      exact lt_min hq1 hlt
  have total : 0 < ∑ i, u i := sum_pos' (fun i _ => hu0 i) ⟨p, mem_univ _, hpu⟩
  refine ⟨(∑ i, u i) / ∑ i, if contact i then (0 : ℝ) else 1 - min 1 (L u i), ?_, div_lt_div_of_pos_left total gapTrue gapLess⟩
  have hg1 : 1 - (∑ i, if contact i then (1 : ℝ) else min 1 (L u i)) / Fintype.card (Fin n0 × Fin n1) ≠ 0 := by
    have := gapTrue.trans gapLess
    rw [hsum] at this
    have e : 1 - (∑ i, if contact i then (1 : ℝ) else min 1 (L u i)) / Fintype.card (Fin n0 × Fin n1) =
        (Fintype.card (Fin n0 × Fin n1) - ∑ i, if contact i then (1 : ℝ) else min 1 (L u i)) / Fintype.card (Fin n0 × Fin n1) := by field_simp
    rw [e]
    exact (div_pos this hn).ne'
  simp only [stiffness]
  rw [flattened_fin A L hA contact hu, mean, XR.sum_fin, XR.sum_fin, sum_domain hu, XR.fin_div _ hn.ne', XR.fin_sub, XR.fin_div _ hg1, XR.fin_div _ hn.ne', hsum]
  congr 1
  have := (gapTrue.trans gapLess).ne'
  rw [hsum] at this
  field_simp

/-- One node of the first row in contact on a grid of four by one, steel on a polymer, under a load that moves the last node by less than one: the case exists. -/
example : ∃ (L : (Fin 4 × Fin 1 → ℝ) →ₗ[ℝ] (Fin 4 × Fin 1 → ℝ)) (A : (Fin 4 × Fin 1 → XR) → Fin 4 × Fin 1 → XR) (u : Fin 4 × Fin 1 → ℝ) (k : ℝ), 0 < u (0, 0) ∧
    Convolves .cuda (.seq [false, false]) (totalIm ⟨80e9, 0.3⟩ ⟨8e9, 0.4⟩ 1e-6 .z 4 1) L ∧ ActsOn A L ∧
    stiffness A (fun q => q.1 == 0) (fun i => .fin (u i.1)) .ml = .fin k ∧ k < meanLines (fun q => q.1 == 0) u (spaces ⟨80e9, 0.3⟩ ⟨8e9, 0.4⟩ 1e-6 .z 4 1 u) := by
  obtain ⟨L, hL⟩ := C161_plan .cuda trivial (.pair false false) ⟨80e9, 0.3⟩ ⟨8e9, 0.4⟩ 1e-6 .z (n0 := 4) (n1 := 1) (by norm_num) (by norm_num)
  set S := spaces ⟨80e9, 0.3⟩ ⟨8e9, 0.4⟩ 1e-6 .z 4 1 with hS
  set e : Fin 4 × Fin 1 → ℝ := fun q => if q.1 = 0 then 1 else 0 with he
  set t : ℝ := 1 / (1 + |S e (3, 0)|) with ht
  have ht0 : 0 < t := by positivity
  have small : S (t • e) (3, 0) < 1 := by
    rw [map_smul]
    have h1 := le_abs_self (S e (3, 0))
    have h2 := abs_nonneg (S e (3, 0))
    simp only [Pi.smul_apply, smul_eq_mul, ht]
    rw [div_mul_eq_mul_div, one_mul, div_lt_one (by linarith)]
    linarith
  have polymer : Soft ⟨8e9, 0.4⟩ := ⟨by norm_num, by norm_num⟩
  have push : ∀ i, 0 ≤ (t • e) i := fun i => by
    simp only [Pi.smul_apply, smul_eq_mul, he]
    split_ifs <;> simp [ht0.le]
  have hp0 : 0 < (t • e) (0, 0) := by simpa [he] using ht0
  refine ⟨L, fun x q => .fin (L (fun p => match x p with | .fin r => r | _ => 0) q), t • e, ?_⟩
  obtain ⟨k, h1, h2⟩ := C161_mean_lines_wrong (be := .cuda) trivial (.pair false false) steel polymer (h := 1e-6) (by norm_num) hL (A := fun x q => .fin (L (fun p => match x p with | .fin r => r | _ => 0) q)) (fun u => rfl)
    (contact := fun q => q.1 == 0) (u := t • e) (p := (0, 0)) (q := (3, 0)) (fun i hi => by
      have : i.1 ≠ 0 := by simpa using hi
      simp [he, this]) push hp0 (by decide) (Or.inl (by unfold Far; decide)) ((convolves_le (be := .cuda) trivial (.pair false false) steel polymer (by norm_num) hL push _).trans_lt small) ⟨(3, 0), by decide, small⟩
  exact ⟨k, hp0, hL, fun u => rfl, h1, h2⟩

end Verif.Stiffness
