import Verif.Materials.Lemmas
import Verif.Bouss.Props

/-!
# C94, C95 and C96: loads and displacements of a material
-/

namespace Verif.Materials

open Verif Finset

/-! ## Specification -/

/-- A grid spacing that stands for the lengths `hx`, `hy`. -/
inductive Means : Spacing → ℝ → ℝ → Prop
  | number (g : ℝ) : Means (.number g) g g
  | one (g : ℝ) : Means (.seq [g]) g g
  | two (hx hy : ℝ) : Means (.seq [hx, hy]) hx hy

theorem Means.ok {g : Spacing} {hx hy : ℝ} (h : Means g hx hy) : spacing g = .ok [hx, hy] := by cases h <;> simp [spacing]

/-- The displacement in direction `a` due to the load in direction `b` is part of the result: with `simple` only that in the direction of the load. -/
def Requested (simple : Bool) (deflections : List Dir) (t : Triple) (a b : Dir) : Prop := (t b).isSome = true ∧ if simple then a = b else a ∈ deflections

instance (simple : Bool) (deflections : List Dir) (t : Triple) (a b : Dir) : Decidable (Requested simple deflections t a b) := by unfold Requested; infer_instance

theorem mem_loadNames {simple : Bool} {deflections : List Dir} {t : Triple} {a b : Dir} :
    (a, b) ∈ loadNames simple deflections (directions t) ↔ Requested simple deflections t a b := by
  cases simple
  · simp only [loadNames, Requested, List.product, List.mem_flatMap, List.mem_map, Prod.mk.injEq, mem_directions, Bool.false_eq_true, if_false]
    constructor
    · rintro ⟨a', h1, b', h2, rfl, rfl⟩
      exact ⟨h2, h1⟩
    · rintro ⟨h1, h2⟩
      exact ⟨a, h2, b, h1, rfl, rfl⟩
  · simp only [loadNames, Requested, List.mem_map, Prod.mk.injEq, mem_directions, if_true]
    constructor
    · rintro ⟨d, h1, rfl, rfl⟩
      exact ⟨h1, rfl⟩
    · rintro ⟨h1, rfl⟩
      exact ⟨a, h1, rfl, rfl⟩

/-! ## C94: displacements from loads -/

/-- C94. For loads that are numbers, the displacement in each direction is the sum over the loaded directions of the convolutions of the loads with the influence matrices of the span, a missing
load counts as zero, the default span is the shape of the loads, and the result always has three arrays of that shape, zero in the directions that were not asked for. -/
theorem C94_superposition (im : Im) {t : Triple} {n0 n1 : ℕ} {p : Dir → ℕ → ℕ → ℝ} (ht : Numbers t n0 n1 p) (hne : ∃ d, (t d).isSome = true) {g : Spacing} {hx hy : ℝ} (hg : Means g hx hy)
    (deflections : List Dir) (span : Option (ℕ × ℕ)) (simple : Bool) (K : Dir × Dir → ℕ → ℕ → ℝ)
    (hK : ∀ a b, Requested simple deflections t a b → im (span.getD (n0, n1)) [hx, hy] (a, b) = .ok (K (a, b))) :
    ∃ u, displacement im (.tuple t) g deflections span simple = .ok u ∧ ∀ a, (u a).shape = (n0, n1) ∧ ∀ i j, (u a).val i j =
      .fin (∑ b, if Requested simple deflections t a b then Conv.sameConvolve n0 n1 (span.getD (n0, n1)).1 (span.getD (n0, n1)).2 (K (a, b)) (p b) i j else 0) := by
  refine ⟨imLoading n0 n1 (span.getD (n0, n1)) t (dict (loadNames simple deflections (directions t)) K), ?_, fun a => ⟨rfl, fun i j => ?_⟩⟩
  · unfold displacement
    simp only [loadsOf, oneShape_ok ht.shaped hne, hg.ok, bind, Except.bind]
    rw [influence_ok (K := K) fun c hc => hK c.1 c.2 (mem_loadNames.mp hc)]
  · rw [imLoading_numbers ht _ _ _ fun c hc => (mem_loadNames.mp (show (c.1, c.2) ∈ _ from hc)).1]
    simp only [mem_loadNames]

/-- Two nodes loaded normally, matrices that are one everywhere; the loads are those of `C94_elastic` too. -/
example : Numbers (fun d => if d = .z then some ⟨2, 1, fun _ _ => .fin 3⟩ else none) 2 1 (fun _ _ _ => 3) ∧
    (∀ a b, Requested false [.x, .z] (fun d => if d = .z then some ⟨2, 1, fun _ _ => .fin 3⟩ else none) a b →
      (fun _ _ _ => .ok fun _ _ => 1 : Im) ((none : Option (ℕ × ℕ)).getD (2, 1)) [1, 1] (a, b) = .ok fun _ _ => 1) ∧ Requested false [.x, .z]
      (fun d => if d = .z then some ⟨2, 1, fun _ _ => .fin 3⟩ else none) .x .z := by
  refine ⟨fun d a h => ?_, fun _ _ _ => rfl, by decide⟩
  dsimp only at h
  split_ifs at h
  injection h with h
  subst h
  exact ⟨rfl, rfl, fun _ _ _ _ => rfl⟩

/-- If a matrix that is needed cannot be had, that error is raised. -/
theorem C94_error (im : Im) {t : Triple} {n0 n1 : ℕ} (ht : Shaped t n0 n1) (hne : ∃ d, (t d).isSome = true) {g : Spacing} {hx hy : ℝ} (hg : Means g hx hy) (deflections : List Dir)
    (span : Option (ℕ × ℕ)) (simple : Bool) {a b : Dir} (hr : Requested simple deflections t a b) {e : PyErr} (he : im (span.getD (n0, n1)) [hx, hy] (a, b) = .error e) :
    ∃ e', displacement im (.tuple t) g deflections span simple = .error e' := by
  unfold displacement
  simp only [loadsOf, oneShape_ok ht hne, hg.ok, bind, Except.bind]
  cases h : influence im (span.getD (n0, n1)) [hx, hy] (loadNames simple deflections (directions t)) with
  | error e' => exact ⟨e', rfl⟩
  | ok comps =>
    obtain ⟨K, hK, -⟩ := influence_inv h
    rw [hK _ (mem_loadNames.mpr hr)] at he
    cases he

example : Requested true [.y] (fun d => if d = .z then some ⟨2, 1, fun _ _ => .fin 3⟩ else none) .z .z := by decide

/-- C94. The displacements depend linearly on the loads. -/
theorem C94_linear (im : Im) {t t' s : Triple} {n0 n1 : ℕ} {p p' : Dir → ℕ → ℕ → ℝ} (r r' : ℝ) (ht : Numbers t n0 n1 p) (ht' : Numbers t' n0 n1 p')
    (hs : Numbers s n0 n1 fun d i j => r * p d i j + r' * p' d i j) (h1 : ∀ d, (s d).isSome = (t d).isSome) (h2 : ∀ d, (s d).isSome = (t' d).isSome)
    (hne : ∃ d, (t d).isSome = true) {g : Spacing} {hx hy : ℝ} (hg : Means g hx hy) (deflections : List Dir) (span : Option (ℕ × ℕ)) (simple : Bool) (K : Dir × Dir → ℕ → ℕ → ℝ)
    (hK : ∀ a b, Requested simple deflections t a b → im (span.getD (n0, n1)) [hx, hy] (a, b) = .ok (K (a, b))) :
    ∃ u u' w, displacement im (.tuple t) g deflections span simple = .ok u ∧ displacement im (.tuple t') g deflections span simple = .ok u' ∧
      displacement im (.tuple s) g deflections span simple = .ok w ∧ ∀ a i j, (w a).val i j = .fin r * (u a).val i j + .fin r' * (u' a).val i j := by
  have e1 : ∀ a b, Requested simple deflections s a b ↔ Requested simple deflections t a b := fun a b => by simp only [Requested, h1]
  have e2 : ∀ a b, Requested simple deflections t' a b ↔ Requested simple deflections t a b := fun a b => by simp only [Requested, ← h1, ← h2]
  obtain ⟨u, hu, vu⟩ := C94_superposition im ht hne hg deflections span simple K hK
  obtain ⟨u', hu', vu'⟩ := C94_superposition im ht' (by simpa only [← h2, h1] using hne) hg deflections span simple K fun a b h => hK a b ((e2 a b).mp h)
  obtain ⟨w, hw, vw⟩ := C94_superposition im hs (by simpa only [h1] using hne) hg deflections span simple K fun a b h => hK a b ((e1 a b).mp h)
  refine ⟨u, u', w, hu, hu', hw, fun a i j => ?_⟩
  rw [(vu a).2, (vu' a).2, (vw a).2, XR.fin_mul, XR.fin_mul, XR.fin_add, Finset.mul_sum, Finset.mul_sum, ← Finset.sum_add_distrib]
  congr 1
  refine Finset.sum_congr rfl fun b _ => ?_
  simp only [e1, e2]
  split_ifs
  · exact same_linear ..
  · ring

example : Numbers (fun d => if d = .y then some ⟨1, 2, fun _ j => .fin j⟩ else none) 1 2 (fun _ _ j => j) ∧
    Numbers (fun d => if d = .y then some ⟨1, 2, fun _ j => .fin (2 * j + 3 * 1)⟩ else none) 1 2 (fun _ _ j => 2 * j + 3 * 1) := by
  constructor <;>
  · intro d a h
    dsimp only at h
    split_ifs at h
    injection h with h
    subst h
    exact ⟨rfl, rfl, fun _ _ _ _ => rfl⟩

/-- C94 is false: loads given as a dictionary, as documented, always raise `ValueError`. -/
theorem C94_dict_wrong (im : Im) (l : List (Dir × Option Arr)) (gs : Spacing) (deflections : List Dir) (span : Option (ℕ × ℕ)) (simple : Bool) :
    displacement im (.dict l) gs deflections span simple = .error .valueError := by
  cases l with
  | nil =>
    unfold displacement
    simp only [loadsOf, bind, Except.bind]
    rw [oneShape_none fun _ => rfl]
  | cons a l => rfl

/-- A sequence of three arrays or `None` in order x, y, z is the tuple. -/
theorem C94_sequence (im : Im) (t : Triple) (gs : Spacing) (deflections : List Dir) (span : Option (ℕ × ℕ)) (simple : Bool) :
    displacement im (.seq [t .x, t .y, t .z]) gs deflections span simple = displacement im (.tuple t) gs deflections span simple := by
  unfold displacement
  have : (ofList [t .x, t .y, t .z]) = .ok t := by
    refine congrArg Except.ok (funext fun d => ?_)
    cases d <;> rfl
  simp only [loadsOf, this]

/-- C94 is false: "must be length 3" is only checked for longer sequences, one or two arrays are taken for the first directions. -/
theorem C94_short_wrong (im : Im) (gs : Spacing) (deflections : List Dir) (span : Option (ℕ × ℕ)) (simple : Bool) :
    (∀ a, displacement im (.seq [a]) gs deflections span simple = displacement im (.seq [a, none, none]) gs deflections span simple) ∧
    (∀ a b, displacement im (.seq [a, b]) gs deflections span simple = displacement im (.seq [a, b, none]) gs deflections span simple) ∧
    ∀ l, 3 < l.length → displacement im (.seq l) gs deflections span simple = .error .valueError := by
  refine ⟨fun a => rfl, fun a b => rfl, fun l hl => ?_⟩
  match l, hl with
  | _ :: _ :: _ :: _ :: _, _ => rfl

/-- Loads of different shapes, and no loads at all, raise `ValueError`. -/
theorem C94_shapes (im : Im) (t : Triple) (gs : Spacing) (deflections : List Dir) (span : Option (ℕ × ℕ)) (simple : Bool)
    (h : (∀ d, t d = none) ∨ ∃ d e a b, t d = some a ∧ t e = some b ∧ a.shape ≠ b.shape) : displacement im (.tuple t) gs deflections span simple = .error .valueError := by
  have : oneShape t = .error .valueError := by
    rcases h with h | ⟨d, e, a, b, h1, h2, h3⟩
    · exact oneShape_none h
    · exact oneShape_two h1 h2 h3
  unfold displacement
  simp only [loadsOf, this, bind, Except.bind]

example : (⟨1, 2, fun _ _ => .fin 0⟩ : Arr).shape ≠ (⟨2, 1, fun _ _ => .fin 0⟩ : Arr).shape := by decide

/-- More than two grid spacings raise `ValueError`. -/
theorem C94_spacing (im : Im) {t : Triple} {n0 n1 : ℕ} (ht : Shaped t n0 n1) (hne : ∃ d, (t d).isSome = true) (l : List ℝ) (hl : 2 < l.length) (deflections : List Dir) (span : Option (ℕ × ℕ))
    (simple : Bool) : displacement im (.tuple t) (.seq l) deflections span simple = .error .valueError := by
  unfold displacement
  have : spacing (.seq l) = .error .valueError := by
    match l, hl with
    | a :: b :: c :: l, _ => simp [spacing]
  simp only [loadsOf, oneShape_ok ht hne, this, bind, Except.bind]

example : 2 < [(1 : ℝ), 2, 3].length := by simp

/-! ### Elastic materials -/

theorem offset_add (S i a : ℕ) (hS : 0 < S) (h : a ≤ i + (S - 1) / 2) : Conv.offset S (i + (S - 1) / 2 - a) = (i : ℤ) - a := by
  unfold Conv.offset
  omega

theorem same_full {n0 n1 S0 S1 : ℕ} (h0 : 2 * n0 ≤ S0 + 1) (h1 : 2 * n1 ≤ S1 + 1) (coef : ℤ → ℤ → ℝ) (l : ℕ → ℕ → ℝ) {i j : ℕ} (hi : i < n0) (hj : j < n1) :
    Conv.sameConvolve n0 n1 S0 S1 (Conv.fillMatrix S0 S1 coef) l i j = ∑ a ∈ range n0, ∑ b ∈ range n1, l a b * coef ((j : ℤ) - b) ((i : ℤ) - a) := by
  unfold Conv.sameConvolve
  refine Finset.sum_congr rfl fun a ha => Finset.sum_congr rfl fun b hb => ?_
  rw [Finset.mem_range] at ha hb
  have c : a ≤ i + (S0 - 1) / 2 ∧ i + (S0 - 1) / 2 - a < S0 ∧ b ≤ j + (S1 - 1) / 2 ∧ j + (S1 - 1) / 2 - b < S1 := by omega
  rw [if_pos c, Conv.fillMatrix, offset_add S0 i a (by omega) c.1, offset_add S1 j b (by omega) c.2.2.1]

/-- The letter of a direction. -/
def letter : Dir → String
  | .x => "x"
  | .y => "y"
  | .z => "z"

theorem name_letters (a b : Dir) : name (a, b) = letter a ++ letter b := by cases a <;> cases b <;> rfl

/-- C94. For an elastic material and a span of at least twice the shape (less one), the displacement of a node is the sum over all nodes and loaded directions of the load times the influence
coefficient of the offset between the two nodes. -/
theorem C94_elastic {G v : ℝ} {t : Triple} {n0 n1 : ℕ} {p : Dir → ℕ → ℕ → ℝ} (ht : Numbers t n0 n1 p) (hne : ∃ d, (t d).isSome = true) {g : Spacing} {hx hy : ℝ} (hg : Means g hx hy)
    (deflections : List Dir) {S0 S1 : ℕ} (h0 : 2 * n0 ≤ S0 + 1) (h1 : 2 * n1 ≤ S1 + 1) :
    ∃ u, displacement (elasticIm G v) (.tuple t) g deflections (some (S0, S1)) false = .ok u ∧ ∀ a ∈ deflections, ∀ i j, i < n0 → j < n1 → (u a).val i j =
      .fin (∑ b, if (t b).isSome = true then ∑ i' ∈ range n0, ∑ j' ∈ range n1,
        p b i' j' * (InfMat.coefficient (letter a ++ letter b) hx hy G v none none ((j : ℤ) - j') ((i : ℤ) - i')).getD 0 else 0) := by
  obtain ⟨u, hu, vu⟩ := C94_superposition (elasticIm G v) ht hne hg deflections (some (S0, S1)) false
    (fun c => Conv.fillMatrix S0 S1 fun i j => (InfMat.coefficient (name c) hx hy G v none none i j).getD 0) fun a b _ => rfl
  refine ⟨u, hu, fun a ha i j hi hj => ?_⟩
  rw [(vu a).2]
  congr 1
  refine Finset.sum_congr rfl fun b _ => ?_
  have : Requested false deflections t a b ↔ (t b).isSome = true := by simp [Requested, ha]
  simp only [this]
  rw [← name_letters]
  split_ifs
  · exact same_full h0 h1 (fun i j => (InfMat.coefficient (name (a, b)) hx hy G v none none i j).getD 0) (p b) hi hj
  · rfl

/-- All names of components are known, so the coefficients above are never the default. -/
theorem coefficient_known (c : Dir × Dir) (hx hy G v : ℝ) (i j : ℤ) : (InfMat.coefficient (name c) hx hy G v none none i j).isSome = true := by
  rcases c with ⟨a, b⟩
  cases a <;> cases b <;> simp [name, InfMat.coefficient]

/-- C94. A sequence of grid spacings without numbers is not refused, but raises `IndexError` as soon as a component is needed. -/
theorem C94_no_spacing (G v : ℝ) {t : Triple} {n0 n1 : ℕ} (ht : Shaped t n0 n1) (deflections : List Dir) (span : Option (ℕ × ℕ)) (simple : Bool) {a b : Dir} (hr : Requested simple deflections t a b) :
    displacement (elasticIm G v) (.tuple t) (.seq []) deflections span simple = .error .indexError := by
  have hm := mem_loadNames.mpr hr
  unfold displacement
  simp only [loadsOf, oneShape_ok ht ⟨b, hr.1⟩, spacing, List.length_nil, bind, Except.bind]
  rw [if_neg (by omega)]
  simp only
  unfold influence
  have hne : (loadNames simple deflections (directions t)).dedup ≠ [] := List.ne_nil_of_mem (List.mem_dedup.2 hm)
  cases h : (loadNames simple deflections (directions t)).dedup with
  | nil => exact absurd h hne
  | cons c cs => rfl

example : Requested true [] (fun d => if d = .z then some ⟨2, 2, fun _ _ => .fin 1⟩ else none) .z .z ∧ Shaped (fun d => if d = .z then some ⟨2, 2, fun _ _ => .fin 1⟩ else none) 2 2 := by
  refine ⟨by decide, fun d a h => ?_⟩
  dsimp only at h
  split_ifs at h
  injection h with h
  subst h
  exact ⟨rfl, rfl⟩

/-- A unit load on the node `(0, 0)` of a grid, in the normal direction. -/
def corner (n0 n1 : ℕ) : Triple := fun d => if d = .z then some ⟨n0, n1, fun i j => if i = 0 ∧ j = 0 then .fin 1 else .fin 0⟩ else none

theorem corner_numbers (n0 n1 : ℕ) : Numbers (corner n0 n1) n0 n1 fun _ i j => if i = 0 ∧ j = 0 then 1 else 0 := by
  intro d a h
  unfold corner at h
  split_ifs at h
  injection h with h
  subst h
  refine ⟨rfl, rfl, fun i j _ _ => ?_⟩
  dsimp only
  split_ifs <;> rfl

/-- C94 is false for the default span: the shape of the loads. On an elastic material a load on the corner node then does not move nodes that are more than half the grid away, though it does with
a span of twice the shape. -/
theorem C94_default_span_wrong {G v h : ℝ} (hG : 0 < G) (hv : v < 1) (hh : 0 < h) {n0 n1 i j : ℕ} (hi : n0 / 2 < i) (hi' : i < n0) (hj : j < n1) :
    (∃ u, displacement (elasticIm G v) (.tuple (corner n0 n1)) (.number h) [.z] none false = .ok u ∧ (u .z).val i j = .fin 0) ∧
    ∃ u c, displacement (elasticIm G v) (.tuple (corner n0 n1)) (.number h) [.z] (some (2 * n0, 2 * n1)) false = .ok u ∧ (u .z).val i j = .fin c ∧ 0 < c := by
  have hne : ∃ d, (corner n0 n1 d).isSome = true := ⟨.z, rfl⟩
  constructor
  · obtain ⟨u, hu, vu⟩ := C94_superposition (elasticIm G v) (corner_numbers n0 n1) hne (.number h) [.z] none false
      (fun c => Conv.fillMatrix n0 n1 fun i j => (InfMat.coefficient (name c) h h G v none none i j).getD 0) fun a b _ => rfl
    refine ⟨u, hu, ?_⟩
    rw [(vu .z).2]
    congr 1
    refine Finset.sum_eq_zero fun b _ => ?_
    split_ifs
    · unfold Conv.sameConvolve
      refine Finset.sum_eq_zero fun a ha => Finset.sum_eq_zero fun b hb => ?_
      by_cases h0 : a = 0 ∧ b = 0
      · rw [if_neg (fun c => ?_), mul_zero]
        simp only [Option.getD_none] at c
        omega
      · dsimp only
        rw [if_neg h0, zero_mul]
    · rfl
  · obtain ⟨u, hu, vu⟩ := C94_elastic (G := G) (v := v) (corner_numbers n0 n1) hne (.number h) [.z] (S0 := 2 * n0) (S1 := 2 * n1) (by omega) (by omega)
    obtain ⟨c, hc, hpos⟩ := Bouss.C87_positive hh hh hG hv (j : ℤ) (i : ℤ)
    refine ⟨u, c, hu, ?_, hpos⟩
    rw [vu .z (by simp) i j hi' hj]
    congr 1
    rw [Finset.sum_eq_single .z (fun b _ hb => if_neg (by simp [corner, hb])) (by simp), if_pos (by simp [corner])]
    rw [Finset.sum_eq_single 0 (fun a _ ha => Finset.sum_eq_zero fun b _ => by simp [ha]) (fun hn => absurd (Finset.mem_range.mpr (by omega)) hn)]
    rw [Finset.sum_eq_single 0 (fun b _ hb => by simp [hb]) (fun hn => absurd (Finset.mem_range.mpr (by omega)) hn)]
    rw [← name_letters]
    simp [name, hc]

example : 4 / 2 < 3 ∧ 3 < 4 ∧ 1 < 2 := by decide

end Verif.Materials
