import Mathlib.Algebra.BigOperators.Fin
import Mathlib.Algebra.Module.LinearMap.Defs
import Verif.Materials.Props

/-!
# C95: loads from displacements
-/

namespace Verif.Materials

open Verif Finset

/-- The names of the diagonal components. -/
def diag (ds : List Dir) : List (Dir × Dir) := ds.map fun d => (d, d)

theorem mem_diag {ds : List Dir} {a b : Dir} : (a, b) ∈ diag ds ↔ a = b ∧ a ∈ ds := by
  simp only [diag, List.mem_map, Prod.mk.injEq]
  constructor
  · rintro ⟨d, h, rfl, rfl⟩
    exact ⟨rfl, h⟩
  · rintro ⟨rfl, h⟩
    exact ⟨a, h, rfl, rfl⟩

theorem sum_diag {ds : List Dir} {a : Dir} (ha : a ∈ ds) (f : Dir → ℝ) : (∑ b, if (a, b) ∈ diag ds then f b else 0) = f a := by
  rw [Finset.sum_eq_single a (fun b _ hb => if_neg fun h => hb (mem_diag.mp h).1.symm) (by simp), if_pos (mem_diag.mpr ⟨rfl, ha⟩)]

theorem sum_diag_not {ds : List Dir} {a : Dir} (ha : a ∉ ds) (f : Dir → ℝ) : (∑ b, if (a, b) ∈ diag ds then f b else 0) = 0 :=
  Finset.sum_eq_zero fun b _ => if_neg fun h => ha (mem_diag.mp h).2

/-! ## The first guess -/

theorem maxIm_ok {span : ℕ × ℕ} (h0 : 0 < span.1) (h1 : 0 < span.2) (k : ℕ → ℕ → ℝ) : ∃ m, maxIm span k = .ok m := by
  unfold maxIm
  split
  · rename_i h
    exfalso
    have : (0, 0) ∈ (List.range span.1).product (List.range span.2) := List.mem_product.mpr ⟨List.mem_range.mpr h0, List.mem_range.mpr h1⟩
    rw [List.map_eq_nil_iff] at h
    rw [h] at this
    cases this
  · exact ⟨_, rfl⟩

theorem guess_spec {span : ℕ × ℕ} {comps : Comps} {t : Triple} {ds : List Dir} {g : Triple} (h : guess span comps t ds = .ok g) :
    (∀ d, t d = none → g d = none) ∧ ∀ d ∈ ds, ∀ a, t d = some a → ∃ k m, comp comps (d, d) = .ok k ∧ maxIm span k = .ok m ∧
      g d = some ⟨a.n0, a.n1, fun i j => nanToNum (a.val i j * .fin m)⟩ := by
  induction ds generalizing g with
  | nil =>
    injection h with h
    subst h
    exact ⟨fun _ _ => rfl, by simp⟩
  | cons d ds ih =>
    rw [guess] at h
    split at h
    · rename_i hd
      obtain ⟨i1, i2⟩ := ih h
      refine ⟨i1, fun e he a ha => ?_⟩
      rcases List.mem_cons.mp he with rfl | he
      · rw [hd] at ha; cases ha
      · exact i2 e he a ha
    · rename_i a hd
      cases hk : comp comps (d, d) with
      | error e => simp [guessIn, hk, bind, Except.bind] at h
      | ok k =>
        cases hm : maxIm span k with
        | error e => simp [guessIn, hk, hm, bind, Except.bind] at h
        | ok m =>
          cases hr : guess span comps t ds with
          | error e => simp [guessIn, hk, hm, hr, bind, Except.bind] at h
          | ok g' =>
            simp only [guessIn, hk, hm, hr, bind, Except.bind, Except.ok.injEq] at h
            subst h
            obtain ⟨i1, i2⟩ := ih hr
            refine ⟨fun e he => ?_, fun e he b hb => ?_⟩
            · have : e ≠ d := fun hh => by rw [hh, hd] at he; cases he
              simp [this, i1 e he]
            · by_cases hed : e = d
              · subst hed
                rw [hd] at hb
                injection hb with hb
                subst hb
                exact ⟨k, m, hk, hm, by simp⟩
              · obtain ⟨k', m', e1, e2, e3⟩ := i2 e (by simpa [hed] using he) b hb
                exact ⟨k', m', e1, e2, by simp [hed, e3]⟩

theorem guess_ok {span : ℕ × ℕ} (h0 : 0 < span.1) (h1 : 0 < span.2) {t : Triple} {names : List (Dir × Dir)} {K : Dir × Dir → ℕ → ℕ → ℝ}
    (hn : ∀ d, (t d).isSome = true → (d, d) ∈ names) (ds : List Dir) : ∃ g, guess span (dict names K) t ds = .ok g := by
  induction ds with
  | nil => exact ⟨_, rfl⟩
  | cons d ds ih =>
    obtain ⟨g, hg⟩ := ih
    rw [guess]
    split
    · exact ⟨g, hg⟩
    · rename_i a hd
      obtain ⟨m, hm⟩ := maxIm_ok h0 h1 (K (d, d))
      exact ⟨fun e => if e = d then some ⟨a.n0, a.n1, fun i j => nanToNum (a.val i j * .fin m)⟩ else g e,
        by simp only [guessIn, comp_dict (hn d (by simp [hd])), hm, hg, bind, Except.bind]⟩

/-! ## The operator -/

/-- A field of the vector, zero outside of the grid. -/
def field {ds : List Dir} {n0 n1 : ℕ} (u : Idx ds n0 n1 → ℝ) (d : Dir) (i j : ℕ) : ℝ :=
  if h : d ∈ ds ∧ i < n0 ∧ j < n1 then u (⟨d, h.1⟩, ⟨i, h.2.1⟩, ⟨j, h.2.2⟩) else 0

theorem unflat_numbers {ds : List Dir} {n0 n1 : ℕ} (u : Idx ds n0 n1 → ℝ) : Numbers (unflat fun k => .fin (u k)) n0 n1 (field u) := by
  intro d a h
  unfold unflat at h
  split_ifs at h with hd
  injection h with h
  subst h
  refine ⟨rfl, rfl, fun i j hi hj => ?_⟩
  simp only [field, hi, hj, hd, and_self, dif_pos]

theorem unflat_isSome {ds : List Dir} {n0 n1 : ℕ} (v : Idx ds n0 n1 → XR) (d : Dir) : (unflat v d).isSome = true ↔ d ∈ ds := by
  unfold unflat
  split_ifs with h <;> simp [h]

/-- Displacements of loads by the matrices `K`, as a linear map. -/
noncomputable def linear (ds : List Dir) (n0 n1 : ℕ) (span : ℕ × ℕ) (K : Dir → ℕ → ℕ → ℝ) : (Idx ds n0 n1 → ℝ) →ₗ[ℝ] (Idx ds n0 n1 → ℝ) where
  toFun u k := Conv.sameConvolve n0 n1 span.1 span.2 (K k.1.1) (field u k.1.1) k.2.1 k.2.2
  map_add' u w := by
    funext k
    have := same_linear n0 n1 span.1 span.2 (K k.1.1) (field u k.1.1) (field w k.1.1) 1 1 k.2.1 k.2.2
    rw [Pi.add_apply, ← one_mul (Conv.sameConvolve n0 n1 span.1 span.2 (K k.1.1) (field u k.1.1) k.2.1 k.2.2),
      ← one_mul (Conv.sameConvolve n0 n1 span.1 span.2 (K k.1.1) (field w k.1.1) k.2.1 k.2.2), ← this]
    refine same_congr (fun a b _ _ => ?_) _ _
    unfold field
    split_ifs <;> simp
  map_smul' c u := by
    funext k
    have := same_linear n0 n1 span.1 span.2 (K k.1.1) (field u k.1.1) (field u k.1.1) c 0 k.2.1 k.2.2
    rw [Pi.smul_apply, RingHom.id_apply, smul_eq_mul, ← add_zero (c * _), ← zero_mul (Conv.sameConvolve n0 n1 span.1 span.2 (K k.1.1) (field u k.1.1) k.2.1 k.2.2), ← this]
    refine same_congr (fun a b _ _ => ?_) _ _
    unfold field
    split_ifs <;> simp

theorem actsAs (ds : List Dir) (n0 n1 : ℕ) (span : ℕ × ℕ) (K : Dir → ℕ → ℕ → ℝ) :
    Cg.ActsAs (operator ds n0 n1 span (dict (diag ds) fun c => K c.1)) (linear ds n0 n1 span K) := by
  intro u
  funext k
  unfold operator
  rw [imLoading_numbers (unflat_numbers u) span (diag ds) _ (fun c hc => (unflat_isSome _ _).mpr ?_)]
  · rw [sum_diag k.1.2]
    rfl
  · have := mem_diag.mp (show (c.1, c.2) ∈ diag ds from hc)
    rw [← this.1]
    exact this.2

/-! ## Specification -/

/-- The matrices are positive definite on the nodes of the displacements that are prescribed: loads on these nodes do positive work. -/
def Firm (t : Triple) (n0 n1 : ℕ) (span : ℕ × ℕ) (K : Dir → ℕ → ℕ → ℝ) : Prop :=
  ∀ v : Dir → ℕ → ℕ → ℝ, (∀ d i j, v d i j ≠ 0 → i < n0 ∧ j < n1 ∧ ∃ a, t d = some a ∧ a.val i j ≠ .nan) → v ≠ 0 →
    0 < ∑ d, ∑ i ∈ range n0, ∑ j ∈ range n1, v d i j * Conv.sameConvolve n0 n1 span.1 span.2 (K d) (v d) i j

/-- Each entry of the fields is not prescribed (`nan`) or the number `w`. -/
def Prescribed (t : Triple) (n0 n1 : ℕ) (w : Dir → ℕ → ℕ → ℝ) : Prop :=
  ∀ d a, t d = some a → a.n0 = n0 ∧ a.n1 = n1 ∧ ∀ i j, i < n0 → j < n1 → a.val i j = .nan ∨ a.val i j = .fin (w d i j)

theorem Prescribed.shaped {t : Triple} {n0 n1 : ℕ} {w : Dir → ℕ → ℕ → ℝ} (h : Prescribed t n0 n1 w) : Shaped t n0 n1 := fun d a ha => ⟨(h d a ha).1, (h d a ha).2.1⟩

/-- The displacements of only some directions are to be reached: `simple`, or a single direction. -/
def Diagonal (simple : Bool) (t : Triple) : Prop := simple = true ∨ (directions t).length = 1

theorem dispNames_diag {simple : Bool} {t : Triple} (h : Diagonal simple t) : dispNames simple (directions t) = .ok (diag (directions t)) := by
  unfold dispNames
  exact if_pos h

theorem sum_idx {ds : List Dir} {n0 n1 : ℕ} (f : Idx ds n0 n1 → ℝ) (F : Dir → ℕ → ℕ → ℝ) (h : ∀ k : Idx ds n0 n1, f k = F k.1.1 k.2.1 k.2.2) (hz : ∀ d, d ∉ ds → ∀ i j, F d i j = 0) :
    ∑ k, f k = ∑ d, ∑ i ∈ range n0, ∑ j ∈ range n1, F d i j := by
  rw [Fintype.sum_prod_type]
  have e1 : ∀ d : { d // d ∈ ds }, (∑ q : Fin n0 × Fin n1, f (d, q)) = ∑ i ∈ range n0, ∑ j ∈ range n1, F d.1 i j := by
    intro d
    rw [Fintype.sum_prod_type, Finset.sum_range]
    refine Finset.sum_congr rfl fun i _ => ?_
    rw [Finset.sum_range]
    exact Finset.sum_congr rfl fun j _ => h _
  rw [Finset.sum_congr rfl fun d _ => e1 d]
  have e2 : (∑ d, ∑ i ∈ range n0, ∑ j ∈ range n1, F d i j) = ∑ d ∈ univ.filter (· ∈ ds), ∑ i ∈ range n0, ∑ j ∈ range n1, F d i j := by
    symm
    refine Finset.sum_subset (Finset.filter_subset _ _) fun d _ hd => ?_
    have hd' : d ∉ ds := by simpa using hd
    exact Finset.sum_eq_zero fun i _ => Finset.sum_eq_zero fun j _ => hz d hd' i j
  rw [e2]
  exact (Finset.sum_subtype (univ.filter (· ∈ ds)) (p := fun d => d ∈ ds) (by simp) (fun d => ∑ i ∈ range n0, ∑ j ∈ range n1, F d i j)).symm

theorem definite {t : Triple} {n0 n1 : ℕ} {span : ℕ × ℕ} {K : Dir → ℕ → ℕ → ℝ} (h : Firm t n0 n1 span K) :
    Cg.Definite (flat (ds := directions t) (n0 := n0) (n1 := n1) t) (linear (directions t) n0 n1 span K) := by
  classical
  intro v hv
  set e := Cg.extend (flat (ds := directions t) (n0 := n0) (n1 := n1) t) v with he
  have hpos := h (field e) (fun d i j hne => ?_) (fun h0 => hv ?_)
  · have hs : (∑ i, v i * Cg.restricted (flat (ds := directions t) (n0 := n0) (n1 := n1) t) (linear (directions t) n0 n1 span K) v i) =
        ∑ k, e k * linear (directions t) n0 n1 span K e k := by
      have hk : ∀ k, v k * Cg.restricted (flat (ds := directions t) (n0 := n0) (n1 := n1) t) (linear (directions t) n0 n1 span K) v k = e k.1 * linear (directions t) n0 n1 span K e k.1 := by
        intro k
        have : e k.1 = v k := by rw [he, Cg.extend]; simp [k.2]
        rw [this]
        rfl
      rw [Finset.sum_congr rfl fun k _ => hk k]
      rw [← Finset.sum_filter_add_sum_filter_not univ (Cg.prescribed (flat (ds := directions t) (n0 := n0) (n1 := n1) t)) fun k => e k * linear (directions t) n0 n1 span K e k]
      rw [Finset.sum_eq_zero (s := univ.filter fun k => ¬ _) (fun k hk => ?_), add_zero]
      · rw [Finset.sum_subtype (univ.filter (Cg.prescribed (flat (ds := directions t) (n0 := n0) (n1 := n1) t))) (p := Cg.prescribed (flat t)) (by simp)]
      · have : e k = 0 := by
          rw [he, Cg.extend]
          simp [(Finset.mem_filter.mp hk).2]
        rw [this, zero_mul]
    rw [hs, sum_idx (fun k => e k * linear (directions t) n0 n1 span K e k)
      (fun d i j => field e d i j * Conv.sameConvolve n0 n1 span.1 span.2 (K d) (field e d) i j)]
    · exact hpos
    · intro k
      have : field e k.1.1 k.2.1 k.2.2 = e k := by
        simp [field, k.1.2, k.2.1.2, k.2.2.2]
      rw [this]
      rfl
    · intro d hd i j
      rw [field, dif_neg (fun hh => hd hh.1), zero_mul]
  · unfold field at hne
    split_ifs at hne with hh
    · obtain ⟨a, ha⟩ := Option.isSome_iff_exists.mp (mem_directions.mp hh.1)
      refine ⟨hh.2.1, hh.2.2, a, ha, fun hn => hne ?_⟩
      rw [he, Cg.extend, dif_neg]
      simp [Cg.prescribed, flat, ha, hn]
    · exact absurd rfl hne
  · funext k
    have := congrFun (congrFun (congrFun h0 k.1.1.1) k.1.2.1) k.1.2.2
    simp only [field, k.1.1.2, k.1.2.1.2, k.1.2.2.2, and_self, dif_pos, Pi.zero_apply] at this
    rw [he, Cg.extend, dif_pos k.2] at this
    exact this

/-! ## The solution -/

theorem solveIm_spec {shape span : ℕ × ℕ} {comps : Comps} {t : Triple} {maxIt : ℤ} {tol : XR} {r : Triple × (Dir → Arr) × Bool} (h : solveIm shape span comps t maxIt tol = .ok r) :
    ∃ g, guess span comps t valid = .ok g ∧
      r.1 = unflat (Cg.solve (operator (directions t) shape.1 shape.2 span comps) (flat t) maxIt tol (flat g)).loads ∧
      r.2.1 = imLoading shape.1 shape.2 span r.1 comps ∧ r.2.2 = (Cg.solve (operator (directions t) shape.1 shape.2 span comps) (flat t) maxIt tol (flat g)).warned := by
  unfold solveIm at h
  cases hg : guess span comps t valid with
  | error e => rw [hg] at h; cases h
  | ok g =>
    rw [hg] at h
    injection h with h
    subst h
    exact ⟨g, rfl, rfl, rfl, rfl⟩

/-- The arrays of the loads are those of the directions with displacements, and zero on the nodes that are not prescribed. -/
theorem solveIm_free {n0 n1 : ℕ} {span : ℕ × ℕ} {comps : Comps} {t : Triple} {maxIt : ℤ} {tol : XR} {r : Triple × (Dir → Arr) × Bool} (h : solveIm (n0, n1) span comps t maxIt tol = .ok r) :
    (∀ d, (r.1 d).isSome = (t d).isSome) ∧ (∀ d l, r.1 d = some l → l.shape = (n0, n1)) ∧
      ∀ d a l i j, t d = some a → r.1 d = some l → i < n0 → j < n1 → a.val i j = .nan → l.val i j = .fin 0 := by
  obtain ⟨g, hg, h1, -, -⟩ := solveIm_spec h
  refine ⟨fun d => ?_, fun d l hl => ?_, fun d a l i j ha hl hi hj hn => ?_⟩
  · rw [h1, Bool.eq_iff_iff, unflat_isSome, mem_directions]
  · rw [h1] at hl
    unfold unflat at hl
    split_ifs at hl
    injection hl with hl
    subst hl
    rfl
  · have hd : d ∈ directions t := mem_directions.mpr (by simp [ha])
    rw [h1] at hl
    unfold unflat at hl
    rw [dif_pos hd] at hl
    injection hl with hl
    subst hl
    simp only [hi, hj, and_self, dif_pos]
    rw [Cg.C12_free_entries_untouched _ _ _ _ _ _ (by simp [flat, ha, hn])]
    obtain ⟨k, m, -, -, e⟩ := (guess_spec hg).2 d (mem_valid d) a ha
    simp only [flat, e, hn, XR.nan_mul, nanToNum]

theorem solveIm_ok {n0 n1 : ℕ} {span : ℕ × ℕ} (h0 : 0 < span.1) (h1 : 0 < span.2) {t : Triple} (K : Dir → ℕ → ℕ → ℝ) (maxIt : ℤ) (tol : XR) :
    ∃ r, solveIm (n0, n1) span (dict (diag (directions t)) fun c => K c.1) t maxIt tol = .ok r := by
  obtain ⟨g, hg⟩ := guess_ok (K := fun c => K c.1) h0 h1 (fun d hd => mem_diag.mpr ⟨rfl, mem_directions.mpr hd⟩) valid
  unfold solveIm
  rw [hg]
  exact ⟨_, rfl⟩

theorem solveIm_full {n0 n1 : ℕ} {span : ℕ × ℕ} {t : Triple} {K : Dir → ℕ → ℕ → ℝ} {maxIt : ℤ} {tol : XR} {r : Triple × (Dir → Arr) × Bool}
    (h : solveIm (n0, n1) span (dict (diag (directions t)) fun c => K c.1) t maxIt tol = .ok r) {p : Dir → ℕ → ℕ → ℝ} (hp : Numbers r.1 n0 n1 p) (d : Dir) :
    (r.2.1 d).shape = (n0, n1) ∧ ∀ i j, (r.2.1 d).val i j = .fin (if (t d).isSome = true then Conv.sameConvolve n0 n1 span.1 span.2 (K d) (p d) i j else 0) := by
  obtain ⟨g, -, -, h2, -⟩ := solveIm_spec h
  rw [h2]
  refine ⟨rfl, fun i j => ?_⟩
  rw [imLoading_numbers hp span (diag (directions t)) _ fun c hc => ?_]
  · congr 1
    split_ifs with hd
    · rw [sum_diag (mem_directions.mpr hd)]
    · rw [sum_diag_not (fun hh => hd (mem_directions.mp hh))]
  · have := mem_diag.mp (show (c.1, c.2) ∈ diag (directions t) from hc)
    rw [(solveIm_free h).1, ← this.1]
    exact mem_directions.mp this.2

theorem guess_numbers {n0 n1 : ℕ} {span : ℕ × ℕ} {comps : Comps} {t g : Triple} (hg : guess span comps t valid = .ok g) {w : Dir → ℕ → ℕ → ℝ} (hw : Prescribed t n0 n1 w) :
    ∃ u : Idx (directions t) n0 n1 → ℝ, flat g = fun k => .fin (u k) := by
  apply (Cg.allFin_iff _).mp
  intro k
  obtain ⟨a, ha⟩ := Option.isSome_iff_exists.mp (mem_directions.mp k.1.2)
  obtain ⟨m, c, -, -, e⟩ := (guess_spec hg).2 k.1.1 (mem_valid _) a ha
  simp only [flat, e]
  rcases (hw _ _ ha).2.2 k.2.1 k.2.2 k.2.1.2 k.2.2.2 with h | h
  · exact ⟨0, by rw [h, XR.nan_mul]; rfl⟩
  · exact ⟨w k.1.1 k.2.1 k.2.2 * c, by rw [h, XR.fin_mul]; rfl⟩

theorem solveIm_definite {n0 n1 : ℕ} {span : ℕ × ℕ} {t : Triple} {K : Dir → ℕ → ℕ → ℝ} {maxIt : ℤ} {tol : ℝ} (htol : 0 < tol) {r : Triple × (Dir → Arr) × Bool}
    (h : solveIm (n0, n1) span (dict (diag (directions t)) fun c => K c.1) t maxIt (.fin tol) = .ok r) {w : Dir → ℕ → ℕ → ℝ} (hw : Prescribed t n0 n1 w) (hf : Firm t n0 n1 span K) :
    ∃ p, Numbers r.1 n0 n1 p ∧ (r.2.2 = false → ∀ d a i j, t d = some a → i < n0 → j < n1 → a.val i j ≠ .nan →
      |w d i j - Conv.sameConvolve n0 n1 span.1 span.2 (K d) (p d) i j| < tol) := by
  obtain ⟨g, hg, h1, -, h3⟩ := solveIm_spec h
  obtain ⟨u0, hu0⟩ := guess_numbers (n0 := n0) (n1 := n1) hg hw
  obtain ⟨u, e1, e2⟩ := Cg.C12_definite_operator_partial _ _ (actsAs (directions t) n0 n1 span K) (flat t) (definite hf) maxIt tol htol u0
    (fun k => w k.1.1 k.2.1 k.2.2) (fun k hk => by
      obtain ⟨a, ha⟩ := Option.isSome_iff_exists.mp (mem_directions.mp k.1.2)
      simp only [flat, ha] at hk ⊢
      exact ((hw _ _ ha).2.2 k.2.1 k.2.2 k.2.1.2 k.2.2.2).resolve_left hk)
  refine ⟨field u, ?_, fun hwarn d a i j ha hi hj hn => ?_⟩
  · rw [h1, hu0, e1]
    exact unflat_numbers u
  · rw [h3, hu0] at hwarn
    exact e2 hwarn (⟨d, mem_directions.mpr (by simp [ha])⟩, ⟨i, hi⟩, ⟨j, hj⟩) (by simpa [flat, ha] using hn)

end Verif.Materials
