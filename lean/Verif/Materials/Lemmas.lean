import Mathlib.Data.Fintype.Prod
import Mathlib.Algebra.BigOperators.Ring.Finset
import Mathlib.Algebra.BigOperators.Group.Finset.Piecewise
import Mathlib.Algebra.BigOperators.Group.Finset.Sigma
import Verif.Materials.Model
import Verif.Cg.Props

/-!
# Lemmas on the model of the materials
-/

namespace Verif.Materials

open Verif Finset

instance : Fintype Dir := ⟨{.x, .y, .z}, fun d => by cases d <;> simp⟩

theorem mem_valid (d : Dir) : d ∈ valid := by cases d <;> simp [valid]

theorem mem_directions {t : Triple} {d : Dir} : d ∈ directions t ↔ (t d).isSome = true := by simp [directions, mem_valid]

theorem directions_congr {t t' : Triple} (h : ∀ d, (t d).isSome = (t' d).isSome) : directions t = directions t' := by simp [directions, h]

/-- All fields that are given have the shape `(n0, n1)`. -/
def Shaped (t : Triple) (n0 n1 : ℕ) : Prop := ∀ d a, t d = some a → a.n0 = n0 ∧ a.n1 = n1

theorem dedup_const {α : Type} [DecidableEq α] {l : List α} {s : α} (hne : l ≠ []) (h : ∀ x ∈ l, x = s) : l.dedup = [s] := by
  rw [List.eq_replicate_of_mem h, List.replicate_dedup]
  simpa using hne

theorem mem_shapes {t : Triple} {s : ℕ × ℕ} : s ∈ shapes t ↔ ∃ d a, t d = some a ∧ a.shape = s := by
  simp only [shapes, List.mem_filterMap, mem_directions, Option.map_eq_some_iff]
  constructor
  · rintro ⟨d, -, a, h1, h2⟩
    exact ⟨d, a, h1, h2⟩
  · rintro ⟨d, a, h1, h2⟩
    exact ⟨d, by simp [h1], a, h1, h2⟩

theorem oneShape_ok {t : Triple} {n0 n1 : ℕ} (h : Shaped t n0 n1) (hne : ∃ d, (t d).isSome = true) : oneShape t = .ok (n0, n1) := by
  have : (shapes t).dedup = [(n0, n1)] := by
    apply dedup_const
    · obtain ⟨d, hd⟩ := hne
      obtain ⟨a, ha⟩ := Option.isSome_iff_exists.mp hd
      exact List.ne_nil_of_mem (mem_shapes.mpr ⟨d, a, ha, rfl⟩)
    · intro s hs
      obtain ⟨d, a, h1, h2⟩ := mem_shapes.mp hs
      obtain ⟨e1, e2⟩ := h d a h1
      rw [← h2, Arr.shape, e1, e2]
  unfold oneShape
  rw [this]

theorem oneShape_none {t : Triple} (h : ∀ d, t d = none) : oneShape t = .error .valueError := by
  have : shapes t = [] := by
    apply List.eq_nil_iff_forall_not_mem.mpr
    intro s hs
    obtain ⟨d, a, h1, -⟩ := mem_shapes.mp hs
    rw [h] at h1; cases h1
  unfold oneShape
  rw [this]; rfl

theorem oneShape_two {t : Triple} {d e : Dir} {a b : Arr} (h1 : t d = some a) (h2 : t e = some b) (hne : a.shape ≠ b.shape) : oneShape t = .error .valueError := by
  have m1 : a.shape ∈ (shapes t).dedup := List.mem_dedup.mpr (mem_shapes.mpr ⟨d, a, h1, rfl⟩)
  have m2 : b.shape ∈ (shapes t).dedup := List.mem_dedup.mpr (mem_shapes.mpr ⟨e, b, h2, rfl⟩)
  unfold oneShape
  split
  · rename_i s hs
    rw [hs, List.mem_singleton] at m1 m2
    exact absurd (m1.trans m2.symm) hne
  · rfl

theorem oneShape_inv {t : Triple} {s : ℕ × ℕ} (h : oneShape t = .ok s) : Shaped t s.1 s.2 ∧ ∃ d, (t d).isSome = true := by
  unfold oneShape at h
  split at h
  · rename_i s' hs
    injection h with h
    subst h
    refine ⟨fun d a ha => ?_, ?_⟩
    · have : a.shape ∈ (shapes t).dedup := List.mem_dedup.mpr (mem_shapes.mpr ⟨d, a, ha, rfl⟩)
      rw [hs, List.mem_singleton] at this
      rw [← this]; exact ⟨rfl, rfl⟩
    · have : s' ∈ (shapes t).dedup := by rw [hs]; simp
      obtain ⟨d, a, ha, -⟩ := mem_shapes.mp (List.mem_dedup.mp this)
      exact ⟨d, by simp [ha]⟩
  · cases h

/-! ## Dictionaries of components -/

theorem mapM_ok {α β : Type} (f : α → Except PyErr β) (g : α → β) (l : List α) (h : ∀ c ∈ l, f c = .ok (g c)) : l.mapM f = .ok (l.map g) := by
  induction l with
  | nil => rfl
  | cons a l ih =>
    rw [List.mapM_cons, h a (by simp), ih fun c hc => h c (by simp [hc])]
    rfl

theorem mapM_inv {α β : Type} (f : α → Except PyErr β) (l : List α) {r : List β} (h : l.mapM f = .ok r) : ∀ c ∈ l, ∃ y, f c = .ok y := by
  induction l generalizing r with
  | nil => simp
  | cons a l ih =>
    rw [List.mapM_cons] at h
    cases ha : f a with
    | error e => rw [ha] at h; cases h
    | ok y =>
      rw [ha] at h
      cases hl : l.mapM f with
      | error e => rw [hl] at h; cases h
      | ok r' =>
        intro c hc
        rcases List.mem_cons.mp hc with rfl | hc
        · exact ⟨y, ha⟩
        · exact ih hl c hc

/-- The dictionary of the components `names` with matrices `K`. -/
def dict (names : List (Dir × Dir)) (K : Dir × Dir → ℕ → ℕ → ℝ) : Comps := names.dedup.map fun c => (c, K c)

theorem influence_ok {im : Im} {span : ℕ × ℕ} {gs : List ℝ} {names : List (Dir × Dir)} {K : Dir × Dir → ℕ → ℕ → ℝ} (h : ∀ c ∈ names, im span gs c = .ok (K c)) :
    influence im span gs names = .ok (dict names K) := by
  unfold influence dict
  exact mapM_ok _ _ _ fun c hc => by rw [h c (List.mem_dedup.mp hc)]; rfl

theorem influence_inv {im : Im} {span : ℕ × ℕ} {gs : List ℝ} {names : List (Dir × Dir)} {comps : Comps} (h : influence im span gs names = .ok comps) :
    ∃ K, (∀ c ∈ names, im span gs c = .ok (K c)) ∧ comps = dict names K := by
  have hall : ∀ c ∈ names, ∃ k, im span gs c = .ok k := by
    intro c hc
    obtain ⟨y, hy⟩ := mapM_inv _ _ h c (List.mem_dedup.mpr hc)
    cases hi : im span gs c with
    | error e => rw [hi] at hy; cases hy
    | ok k => exact ⟨k, rfl⟩
  let K : Dir × Dir → ℕ → ℕ → ℝ := fun c => match im span gs c with | .ok k => k | .error _ => fun _ _ => 0
  have hK : ∀ c ∈ names, im span gs c = .ok (K c) := by
    intro c hc
    obtain ⟨k, hk⟩ := hall c hc
    simp only [K, hk]
  refine ⟨K, hK, ?_⟩
  have := influence_ok hK
  rw [h] at this
  injection this

theorem comp_dict {names : List (Dir × Dir)} {K : Dir × Dir → ℕ → ℕ → ℝ} {c : Dir × Dir} (hc : c ∈ names) : comp (dict names K) c = .ok (K c) := by
  have h : (dict names K).find? (fun e => e.1 = c) = some (c, K c) := by
    have key : ∀ l : List (Dir × Dir), c ∈ l → (l.map fun c => (c, K c)).find? (fun e => e.1 = c) = some (c, K c) := by
      intro l
      induction l with
      | nil => simp
      | cons a l ih =>
        intro hm
        by_cases ha : a = c
        · simp [ha]
        · rw [List.map_cons, List.find?_cons_of_neg (by simpa using ha)]
          exact ih (by simpa [Ne.symm ha] using hm)
    exact key _ (List.mem_dedup.mpr hc)
  unfold comp
  rw [h]

theorem addComps_dict {names : List (Dir × Dir)} {K1 K2 : Dir × Dir → ℕ → ℕ → ℝ} :
    addComps (dict names K1) (dict names K2) names = .ok (dict names fun c i j => K1 c i j + K2 c i j) := by
  unfold addComps
  exact mapM_ok _ (fun c => (c, fun i j => K1 c i j + K2 c i j)) _ fun c hc => by
    rw [comp_dict (List.mem_dedup.mp hc), comp_dict (List.mem_dedup.mp hc)]; rfl

/-! ## Sums -/

theorem sum_names {M : Type} [AddCommMonoid M] (names : List (Dir × Dir)) (a : Dir) (g : Dir → M) :
    (names.dedup.map fun c => if c.1 = a then g c.2 else 0).sum = ∑ b, if (a, b) ∈ names then g b else 0 := by
  rw [← List.sum_toFinset _ (List.nodup_dedup names)]
  have h1 : ∀ b, (if (a, b) ∈ names then g b else 0) = ∑ c ∈ names.dedup.toFinset, if c = (a, b) then g b else 0 := by
    intro b
    rw [Finset.sum_ite_eq']
    simp
  simp only [h1]
  rw [Finset.sum_comm]
  refine Finset.sum_congr rfl fun c _ => ?_
  rcases c with ⟨c1, c2⟩
  by_cases h : c1 = a
  · subst h
    simp
  · simp [h]

theorem convX_congr {L0 L1 S0 S1 : ℕ} {im : ℕ → ℕ → ℝ} {l l' : ℕ → ℕ → XR} (h : ∀ a b, a < L0 → b < L1 → l a b = l' a b) (i j : ℕ) :
    convX L0 L1 S0 S1 im l i j = convX L0 L1 S0 S1 im l' i j := by
  unfold convX
  refine Finset.sum_congr rfl fun a ha => Finset.sum_congr rfl fun b hb => ?_
  rw [h a b (Finset.mem_range.mp ha) (Finset.mem_range.mp hb)]

theorem convX_fin (L0 L1 S0 S1 : ℕ) (im : ℕ → ℕ → ℝ) (l : ℕ → ℕ → ℝ) (i j : ℕ) :
    convX L0 L1 S0 S1 im (fun a b => .fin (l a b)) i j = .fin (Conv.sameConvolve L0 L1 S0 S1 im l i j) := by
  unfold convX Conv.sameConvolve
  simp only [XR.fin_mul, XR.sum_fin]

theorem same_congr {L0 L1 S0 S1 : ℕ} {im : ℕ → ℕ → ℝ} {l l' : ℕ → ℕ → ℝ} (h : ∀ a b, a < L0 → b < L1 → l a b = l' a b) (i j : ℕ) :
    Conv.sameConvolve L0 L1 S0 S1 im l i j = Conv.sameConvolve L0 L1 S0 S1 im l' i j := by
  unfold Conv.sameConvolve
  refine Finset.sum_congr rfl fun a ha => Finset.sum_congr rfl fun b hb => ?_
  rw [h a b (Finset.mem_range.mp ha) (Finset.mem_range.mp hb)]

theorem same_add_im (L0 L1 S0 S1 : ℕ) (k k' l : ℕ → ℕ → ℝ) (i j : ℕ) :
    Conv.sameConvolve L0 L1 S0 S1 (fun a b => k a b + k' a b) l i j = Conv.sameConvolve L0 L1 S0 S1 k l i j + Conv.sameConvolve L0 L1 S0 S1 k' l i j := by
  unfold Conv.sameConvolve
  rw [← Finset.sum_add_distrib]
  refine Finset.sum_congr rfl fun a _ => ?_
  rw [← Finset.sum_add_distrib]
  refine Finset.sum_congr rfl fun b _ => ?_
  split_ifs <;> ring

theorem same_linear (L0 L1 S0 S1 : ℕ) (k l l' : ℕ → ℕ → ℝ) (r r' : ℝ) (i j : ℕ) :
    Conv.sameConvolve L0 L1 S0 S1 k (fun a b => r * l a b + r' * l' a b) i j =
      r * Conv.sameConvolve L0 L1 S0 S1 k l i j + r' * Conv.sameConvolve L0 L1 S0 S1 k l' i j := by
  unfold Conv.sameConvolve
  rw [Finset.mul_sum, Finset.mul_sum, ← Finset.sum_add_distrib]
  refine Finset.sum_congr rfl fun a _ => ?_
  rw [Finset.mul_sum, Finset.mul_sum, ← Finset.sum_add_distrib]
  exact Finset.sum_congr rfl fun b _ => by ring

theorem same_zero (L0 L1 S0 S1 : ℕ) (k : ℕ → ℕ → ℝ) (i j : ℕ) : Conv.sameConvolve L0 L1 S0 S1 k (fun _ _ => 0) i j = 0 := by simp [Conv.sameConvolve]

theorem same_zero_im (L0 L1 S0 S1 : ℕ) (l : ℕ → ℕ → ℝ) (i j : ℕ) : Conv.sameConvolve L0 L1 S0 S1 (fun _ _ => 0) l i j = 0 := by simp [Conv.sameConvolve]

/-- The fields that are given are the numbers `p`, on the shape `(n0, n1)`. -/
def Numbers (t : Triple) (n0 n1 : ℕ) (p : Dir → ℕ → ℕ → ℝ) : Prop :=
  ∀ d a, t d = some a → a.n0 = n0 ∧ a.n1 = n1 ∧ ∀ i j, i < n0 → j < n1 → a.val i j = .fin (p d i j)

theorem Numbers.shaped {t : Triple} {n0 n1 : ℕ} {p : Dir → ℕ → ℕ → ℝ} (h : Numbers t n0 n1 p) : Shaped t n0 n1 := fun d a ha => ⟨(h d a ha).1, (h d a ha).2.1⟩

theorem imLoading_numbers {t : Triple} {n0 n1 : ℕ} {p : Dir → ℕ → ℕ → ℝ} (ht : Numbers t n0 n1 p) (span : ℕ × ℕ) (names : List (Dir × Dir)) (K : Dir × Dir → ℕ → ℕ → ℝ)
    (hnames : ∀ c ∈ names, (t c.2).isSome = true) (a : Dir) (i j : ℕ) :
    (imLoading n0 n1 span t (dict names K) a).val i j = .fin (∑ b, if (a, b) ∈ names then Conv.sameConvolve n0 n1 span.1 span.2 (K (a, b)) (p b) i j else 0) := by
  have e : (imLoading n0 n1 span t (dict names K) a).val i j =
      (names.dedup.map fun c => if c.1 = a then XR.fin (Conv.sameConvolve n0 n1 span.1 span.2 (K (a, c.2)) (p c.2) i j) else 0).sum := by
    unfold imLoading dict
    simp only [List.map_map, Function.comp_def]
    congr 1
    apply List.map_congr_left
    intro c hc
    by_cases h : c.1 = a
    · obtain ⟨l, hl⟩ := Option.isSome_iff_exists.mp (hnames c (List.mem_dedup.mp hc))
      rw [if_pos h, if_pos h, hl]
      dsimp only
      rw [convX_congr (ht _ _ hl).2.2, convX_fin, ← h]
    · rw [if_neg h, if_neg h]
  rw [e, sum_names names a fun b => XR.fin (Conv.sameConvolve n0 n1 span.1 span.2 (K (a, b)) (p b) i j), ← XR.sum_fin]
  refine Finset.sum_congr rfl fun b _ => ?_
  split_ifs <;> rfl

/-! ## The greatest entry -/

/-- The greatest entry of a matrix. -/
def Greatest (span : ℕ × ℕ) (k : ℕ → ℕ → ℝ) (m : ℝ) : Prop := (∃ u v, u < span.1 ∧ v < span.2 ∧ k u v = m) ∧ ∀ u v, u < span.1 → v < span.2 → k u v ≤ m

theorem foldl_max (vs : List ℝ) (v : ℝ) : vs.foldl max v ∈ v :: vs ∧ ∀ x ∈ v :: vs, x ≤ vs.foldl max v := by
  induction vs generalizing v with
  | nil => simp
  | cons a vs ih =>
    obtain ⟨h1, h2⟩ := ih (max v a)
    rw [List.foldl_cons]
    constructor
    · rcases List.mem_cons.1 h1 with h | h
      · rw [h]
        rcases max_choice v a with h | h <;> simp [h]
      · exact List.mem_cons_of_mem _ (List.mem_cons_of_mem _ h)
    · intro x hx
      have hm := h2 _ List.mem_cons_self
      rcases List.mem_cons.1 hx with rfl | hx
      · exact (le_max_left _ _).trans hm
      · rcases List.mem_cons.1 hx with rfl | hx
        · exact (le_max_right _ _).trans hm
        · exact h2 x (List.mem_cons_of_mem _ hx)

theorem maxIm_greatest {span : ℕ × ℕ} (h0 : 0 < span.1) (h1 : 0 < span.2) (k : ℕ → ℕ → ℝ) : ∃ m, maxIm span k = .ok m ∧ Greatest span k m := by
  have hmem : ∀ x, x ∈ ((List.range span.1).product (List.range span.2)).map (fun q => k q.1 q.2) ↔ ∃ u v, u < span.1 ∧ v < span.2 ∧ k u v = x := by
    intro x
    simp only [List.mem_map, Prod.exists, List.pair_mem_product, List.mem_range]
    constructor
    · rintro ⟨u, v, ⟨hu, hv⟩, h⟩; exact ⟨u, v, hu, hv, h⟩
    · rintro ⟨u, v, hu, hv, h⟩; exact ⟨u, v, ⟨hu, hv⟩, h⟩
  unfold maxIm
  cases hl : ((List.range span.1).product (List.range span.2)).map (fun q => k q.1 q.2) with
  | nil =>
    have := (hmem (k 0 0)).2 ⟨0, 0, h0, h1, rfl⟩
    rw [hl] at this
    exact absurd this List.not_mem_nil
  | cons v vs =>
    obtain ⟨g1, g2⟩ := foldl_max vs v
    rw [hl] at hmem
    exact ⟨_, rfl, (hmem _).1 g1, fun u w hu hw => g2 _ ((hmem _).2 ⟨u, w, hu, hw, rfl⟩)⟩

end Verif.Materials
