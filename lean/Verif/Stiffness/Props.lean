import Verif.Stiffness.Model
import Verif.Bccg.OneNode
import Mathlib.Algebra.Order.BigOperators.Group.Finset
import Mathlib.Algebra.BigOperators.Ring.Finset
import Mathlib.Algebra.BigOperators.Fin
import Mathlib.Tactic.FieldSimp
import Mathlib.Tactic.Linarith
import Mathlib.Tactic.Positivity
import Mathlib.Tactic.LinearCombination
import Mathlib.Tactic.FinCases

/-!
# C91, C92: contact stiffness
-/

namespace Verif.Stiffness

open Verif Bccg

/-! ## C91: arguments and names -/

/-- **C91**: the constructor accepts exactly the three definitions (in any case), the three axes, and at least one direction of loading; anything else is a
`ValueError`. -/
theorem C91_accepts (d : DefArg) (dir : String) (l u : Bool) (b : Nat) (tol : ℝ) (maxIt : Option ℤ) :
    ((∃ c, construct d dir l u b tol maxIt = .ok c) ↔ (∃ s, d = .str s ∧ s.toLower ∈ ["mean lines", "far points", "both"]) ∧ dir ∈ ["x", "y", "z"] ∧ (l = true ∨ u = true)) ∧
    ((¬ ∃ c, construct d dir l u b tol maxIt = .ok c) → construct d dir l u b tol maxIt = .error .valueError) := by
  cases d with
  | other => simp [construct]
  | str s =>
    simp only [construct, bind, Except.bind, DefArg.str.injEq, exists_eq_left', List.mem_cons, List.not_mem_nil, or_false]
    by_cases h1 : s.toLower = "both" <;> by_cases h2 : s.toLower = "mean lines" <;> by_cases h3 : s.toLower = "far points" <;>
      by_cases h4 : dir = "x" ∨ dir = "y" ∨ dir = "z" <;> cases l <;> cases u <;> simp [h1, h2, h3, h4]

/-- The hypothesis of `C91_definitions`, `C91_names` and `C91_documented_name_wrong`; the definitions of `C92_entries` and `C92_call`. -/
example : construct (.str "Both") "z" true false 2 (1 / 10 ^ 6) none =
    .ok ⟨[.ml, .fp], "z", true, false, 2, 1 / 10 ^ 6, none, ["s_contact_stiffness_loading_ml_z_2", "s_contact_stiffness_loading_fp_z_2"]⟩ := by
  have : ("Both" : String).toLower = "both" := by decide +kernel
  have h2 : ∀ a : String, a ++ toString 2 = a ++ "2" := fun a => rfl
  simp only [construct, this, bind, Except.bind, provided, Kind.text, h2]
  rfl

/-- **C91**: which definitions are used: mean lines unless far points only were asked for, and the other way round. -/
theorem C91_definitions {s dir : String} {l u : Bool} {b : Nat} {tol : ℝ} {maxIt : Option ℤ} {c : Config} (h : construct (.str s) dir l u b tol maxIt = .ok c) :
    (Kind.ml ∈ c.kinds ↔ s.toLower ≠ "far points") ∧ (Kind.fp ∈ c.kinds ↔ s.toLower ≠ "mean lines") ∧
      c.direction = dir ∧ c.loading = l ∧ c.unloading = u ∧ c.boarder = b ∧ c.tol = tol ∧ c.maxIt = maxIt := by
  simp only [construct, bind, Except.bind] at h
  by_cases h1 : s.toLower = "both"
  · simp only [h1] at h ⊢
    split_ifs at h <;> simp_all <;> subst h <;> simp
  · by_cases h2 : s.toLower = "mean lines"
    · simp only [h2] at h ⊢
      split_ifs at h <;> simp_all <;> subst h <;> simp
    · by_cases h3 : s.toLower = "far points"
      · simp only [h3] at h ⊢
        split_ifs at h <;> simp_all <;> subst h <;> simp
      · simp [h1, h2, h3] at h

variable {ι : Type} [Fintype ι]

/-- **C91**: a call returns exactly the names that the constructor lists in `provides`. -/
theorem C91_names {d : DefArg} {dir : String} {l u : Bool} {b : Nat} {tol : ℝ} {maxIt : Option ℤ} {c : Config} (h : construct d dir l u b tol maxIt = .ok c)
    (A : (ι → XR) → ι → XR) (imSum : ℝ) (elastic contact : ι → Bool) (mem : Memory ι) (s : String) :
    s ∈ (solve c A imSum elastic contact mem).1.map Prod.fst ↔ s ∈ c.provides := by
  have hc : c.loading = l ∧ c.unloading = u ∧ c.direction = dir ∧ c.boarder = b ∧ c.provides = provided c.kinds dir l u b ∧
      (c.kinds = [.ml, .fp] ∨ c.kinds = [.ml] ∨ c.kinds = [.fp]) := by
    cases d with
    | other => simp [construct] at h
    | str s =>
      simp only [construct, bind, Except.bind] at h
      split_ifs at h <;> simp_all <;> subst h <;> simp
  obtain ⟨h1, h2, h3, h4, h5, h6⟩ := hc
  rw [h5]
  cases l <;> cases u <;> rcases h6 with h6 | h6 | h6 <;>
    simp [solve, solveOne, suffix, provided, h1, h2, h3, h4, h6, loadText, Kind.text, String.append_assoc] <;> tauto

/-- **C91**: a name occurs at most once. -/
theorem C91_names_once (c : Config) (A : (ι → XR) → ι → XR) (imSum : ℝ) (elastic contact : ι → Bool) (mem : Memory ι) :
    ((solve c A imSum elastic contact mem).1.map Prod.fst).Nodup := by
  have e : ∀ a b t : String, a ++ t = b ++ t → a = b := fun a b t h => by simpa using h
  have d1 : ∀ t : String, "s_contact_stiffness_loading_fp_" ++ t ≠ "s_contact_stiffness_loading_ml_" ++ t := fun t h => absurd (e _ _ _ h) (by decide)
  have d2 : ∀ t : String, "s_contact_stiffness_loading_fp_" ++ t ≠ "s_contact_stiffness_unloading_ml_" ++ t := fun t h => absurd (e _ _ _ h) (by decide)
  have d3 : ∀ t : String, "s_contact_stiffness_loading_fp_" ++ t ≠ "s_contact_stiffness_unloading_fp_" ++ t := fun t h => absurd (e _ _ _ h) (by decide)
  have d4 : ∀ t : String, "s_contact_stiffness_loading_ml_" ++ t ≠ "s_contact_stiffness_unloading_ml_" ++ t := fun t h => absurd (e _ _ _ h) (by decide)
  have d5 : ∀ t : String, "s_contact_stiffness_loading_ml_" ++ t ≠ "s_contact_stiffness_unloading_fp_" ++ t := fun t h => absurd (e _ _ _ h) (by decide)
  have d6 : ∀ t : String, "s_contact_stiffness_unloading_fp_" ++ t ≠ "s_contact_stiffness_unloading_ml_" ++ t := fun t h => absurd (e _ _ _ h) (by decide)
  by_cases hm : Kind.ml ∈ c.kinds <;> by_cases hf : Kind.fp ∈ c.kinds <;> cases hl : c.loading <;> cases hu : c.unloading <;>
    simp [solve, solveOne, suffix, hm, hf, hl, hu, loadText, Kind.text, String.append_assoc]

/-- **C91 (negation)**: the documented names have no number of the border at the end: `'s_contact_stiffness_loading_ml_z'` is never provided. -/
theorem C91_documented_name_wrong {d : DefArg} {dir : String} {l u : Bool} {b : Nat} {tol : ℝ} {maxIt : Option ℤ} {c : Config}
    (h : construct d dir l u b tol maxIt = .ok c) : "s_contact_stiffness_loading_ml_z" ∉ c.provides := by
  cases d with
  | other => simp [construct] at h
  | str s =>
    have hdir : dir = "x" ∨ dir = "y" ∨ dir = "z" := by
      by_contra hn
      simp only [construct, bind, Except.bind] at h
      split_ifs at h <;> simp_all
    have hc : c.provides = provided c.kinds dir l u b := by
      simp only [construct, bind, Except.bind] at h
      split_ifs at h <;> simp_all <;> subst h <;> rfl
    rw [hc]
    intro hmem
    simp only [provided, List.mem_flatMap, List.mem_append] at hmem
    obtain ⟨k, -, hk⟩ := hmem
    have hlen : ∀ t : String, "s_contact_stiffness_loading_ml_z".length < t.length → "s_contact_stiffness_loading_ml_z" ≠ t := fun t ht he => by
      rw [← he] at ht
      exact lt_irrefl _ ht
    have hdl : dir.length = 1 := by rcases hdir with rfl | rfl | rfl <;> rfl
    have hkl : k.text.length = 2 := by cases k <;> rfl
    have l1 : "s_contact_stiffness_loading_ml_z".length = 32 := by decide
    have l2 : "s_contact_stiffness_loading_".length = 28 := by decide
    have l3 : "s_contact_stiffness_unloading_".length = 30 := by decide
    have l4 : "_".length = 1 := by decide
    rcases hk with hk | hk
    · split_ifs at hk with hb
      · simp only [List.mem_singleton] at hk
        refine hlen _ ?_ hk
        simp only [String.length_append, hdl, hkl, l1, l2, l4]
        omega
      · simp at hk
    · split_ifs at hk with hb
      · simp only [List.mem_singleton] at hk
        refine hlen _ ?_ hk
        simp only [String.length_append, hdl, hkl, l1, l3, l4]
        omega
      · simp at hk

/-- **C91 (negation)**: the mean line definition is accepted for tangential directions, where it is documented not to be available. -/
theorem C91_tangential_mean_lines_wrong (b : Nat) (tol : ℝ) (maxIt : Option ℤ) : ∃ c, construct (.str "mean lines") "x" true true b tol maxIt = .ok c :=
  ((C91_accepts _ _ _ _ _ _ _).1).mpr ⟨⟨_, rfl, by decide +kernel⟩, by decide, Or.inl rfl⟩

/-! ## C92: values -/

/-- The convolution with the influence matrix on real arrays. -/
def ActsOn (A : (ι → XR) → ι → XR) (L : (ι → ℝ) →ₗ[ℝ] (ι → ℝ)) : Prop := ∀ u : ι → ℝ, A (fun i => .fin (u i)) = fun i => .fin (L u i)

/-- The loads under a rigid flat punch that covers the nodes `c` and is pressed down by one: they vanish outside, push, displace every node at least to the punch,
and only act where the node is at the punch. -/
structure Punch (L : (ι → ℝ) →ₗ[ℝ] (ι → ℝ)) (c : ι → Bool) (u : ι → ℝ) : Prop where
  outside : ∀ i, c i = false → u i = 0
  push : ∀ i, 0 ≤ u i
  reach : ∀ i, c i = true → 1 ≤ L u i
  touch : ∀ i, c i = true → u i ≠ 0 → L u i = 1

/-- Reciprocity (Betti) and positive energy. -/
structure Energy (L : (ι → ℝ) →ₗ[ℝ] (ι → ℝ)) : Prop where
  symm : ∀ u v : ι → ℝ, ∑ i, u i * L v i = ∑ i, v i * L u i
  pos : ∀ u : ι → ℝ, 0 ≤ ∑ i, u i * L u i

theorem punch_total {L : (ι → ℝ) →ₗ[ℝ] (ι → ℝ)} {c : ι → Bool} {u : ι → ℝ} (h : Punch L c u) : ∑ i, u i * L u i = ∑ i, u i :=
  Finset.sum_congr rfl fun i _ => by
    by_cases hu : u i = 0
    · rw [hu, zero_mul]
    · have hc : c i = true := by
        by_contra hn
        exact hu (h.outside i (by simpa using hn))
      rw [h.touch i hc hu, mul_one]

theorem punch_mono {L : (ι → ℝ) →ₗ[ℝ] (ι → ℝ)} (hL : Energy L) {c₁ c₂ : ι → Bool} (hc : ∀ i, c₁ i = true → c₂ i = true) {u₁ u₂ : ι → ℝ} (h₁ : Punch L c₁ u₁)
    (h₂ : Punch L c₂ u₂) : ∑ i, u₁ i ≤ ∑ i, u₂ i := by
  have e1 := punch_total h₁
  have e2 := punch_total h₂
  have e3 : ∑ i, u₁ i ≤ ∑ i, u₁ i * L u₂ i := Finset.sum_le_sum fun i _ => by
    by_cases hc1 : c₁ i = true
    · exact le_mul_of_one_le_right (h₁.push i) (h₂.reach i (hc i hc1))
    · rw [h₁.outside i (by simpa using hc1)]; simp
  have e4 := hL.pos (u₂ - u₁)
  have e5 : ∑ i, (u₂ - u₁) i * L (u₂ - u₁) i = ∑ i, u₂ i * L u₂ i - ∑ i, u₂ i * L u₁ i - ∑ i, u₁ i * L u₂ i + ∑ i, u₁ i * L u₁ i := by
    rw [← Finset.sum_sub_distrib, ← Finset.sum_sub_distrib, ← Finset.sum_add_distrib]
    refine Finset.sum_congr rfl fun i _ => ?_
    rw [map_sub]
    simp only [Pi.sub_apply]
    ring
  have e6 := hL.symm u₁ u₂
  linarith

theorem sum_domain {c : ι → Bool} {u : ι → ℝ} (h : ∀ i, c i = false → u i = 0) : ∑ i : Domain c, u i.1 = ∑ i, u i := by
  rw [← Finset.sum_subtype (Finset.univ.filter fun i => c i = true) (by simp) u, Finset.sum_filter]
  refine Finset.sum_congr rfl fun i _ => ?_
  split_ifs with hi
  · rfl
  · exact (h i (by simpa using hi)).symm

theorem extend_fin {c : ι → Bool} {u : ι → ℝ} (h : ∀ i, c i = false → u i = 0) : extend (fun i : Domain c => XR.fin (u i.1)) = fun i => .fin (u i) := by
  funext i
  unfold extend
  split_ifs with hi
  · rfl
  · rw [h i (by simpa using hi)]

/-- The solver finds the exact solution `u` for the nodes `c`. -/
def Finds (A : (ι → XR) → ι → XR) (imSum tol : ℝ) (maxIt : Option ℤ) (c : ι → Bool) (last : Option (ι → XR)) (u : ι → ℝ) : Prop :=
  (bccg exact (problem A imSum tol maxIt c last)).x = fun i => .fin (u i.1)

/-- The value reported under a name (the suffix is added by `solve`). -/
noncomputable def value (cfg : Config) (A : (ι → XR) → ι → XR) (imSum : ℝ) (c : ι → Bool) (last : Option (ι → XR)) (k : Kind) : XR :=
  stiffness A c (bccg exact (problem A imSum cfg.tol cfg.maxIt c last)).x k

/-- **C92**: the entries of the result are the stiffnesses for the loads that the solver returned, for the nodes of the direction. -/
theorem C92_entries (cfg : Config) (A : (ι → XR) → ι → XR) (imSum : ℝ) (elastic contact : ι → Bool) (mem : Memory ι) (k : Kind) (hk : k ∈ cfg.kinds) :
    (cfg.loading = true → ("s_contact_stiffness_loading_" ++ k.text ++ "_" ++ cfg.direction ++ "_" ++ toString cfg.boarder, value cfg A imSum elastic mem.loading k) ∈
      (solve cfg A imSum elastic contact mem).1) ∧
    (cfg.unloading = true → ("s_contact_stiffness_unloading_" ++ k.text ++ "_" ++ cfg.direction ++ "_" ++ toString cfg.boarder, value cfg A imSum contact mem.unloading k) ∈
      (solve cfg A imSum elastic contact mem).1) := by
  constructor <;> intro h <;> cases k <;> simp [solve, solveOne, suffix, h, hk, value, loadText, Kind.text, String.append_assoc]

/-- **C92**: on the whole grid: the loading direction uses the nodes in contact below the maximum load, the unloading direction all nodes in contact, both
without the border. -/
theorem C92_call {n m : Nat} (cfg : Config) (A : (Fin (n - 2 * cfg.boarder) × Fin (m - 2 * cfg.boarder) → XR) → Fin (n - 2 * cfg.boarder) × Fin (m - 2 * cfg.boarder) → XR)
    (imSum : ℝ) (maxLoad : XR) (contact : Fin n × Fin m → Bool) (z : Fin n × Fin m → XR) (mem : Memory (Fin (n - 2 * cfg.boarder) × Fin (m - 2 * cfg.boarder))) (k : Kind) (hk : k ∈ cfg.kinds) :
    (cfg.loading = true → ("s_contact_stiffness_loading_" ++ k.text ++ "_" ++ cfg.direction ++ "_" ++ toString cfg.boarder,
      value cfg A imSum (fun p => crop cfg.boarder contact p && XR.lt (crop cfg.boarder z p) (maxLoad * .fin (99999 / 100000))) mem.loading k) ∈ (call cfg A imSum maxLoad contact z mem).1) ∧
    (cfg.unloading = true → ("s_contact_stiffness_unloading_" ++ k.text ++ "_" ++ cfg.direction ++ "_" ++ toString cfg.boarder,
      value cfg A imSum (crop cfg.boarder contact) mem.unloading k) ∈ (call cfg A imSum maxLoad contact z mem).1) :=
  C92_entries cfg A imSum _ _ mem k hk

theorem fp_value (cfg : Config) [Nonempty ι] (A : (ι → XR) → ι → XR) (imSum : ℝ) (c : ι → Bool) (last : Option (ι → XR)) {u : ι → ℝ} (hu : ∀ i, c i = false → u i = 0)
    (h : Finds A imSum cfg.tol cfg.maxIt c last u) : value cfg A imSum c last .fp = .fin ((∑ i, u i) / Fintype.card ι) := by
  have hn : (Fintype.card ι : ℝ) ≠ 0 := by exact_mod_cast Fintype.card_ne_zero
  unfold value
  unfold Finds at h
  rw [h]
  simp only [stiffness]
  rw [XR.sum_fin, sum_domain hu, XR.fin_div _ hn]

/-- **C92 (partial)**: the far point stiffness in the loading direction is not greater than that in the unloading direction, if the solver finds the exact solutions.
Missing: solutions up to a tolerance. -/
theorem C92_loading_below_unloading_partial (cfg : Config) [Nonempty ι] (A : (ι → XR) → ι → XR) (L : (ι → ℝ) →ₗ[ℝ] (ι → ℝ)) (hL : Energy L) (imSum : ℝ)
    (contact : ι → Bool) (z : ι → XR) (maxLoad : XR) (mem : Memory ι) {u₁ u₂ : ι → ℝ}
    (h₁ : Finds A imSum cfg.tol cfg.maxIt (loadingNodes contact z maxLoad) mem.loading u₁) (p₁ : Punch L (loadingNodes contact z maxLoad) u₁)
    (h₂ : Finds A imSum cfg.tol cfg.maxIt contact mem.unloading u₂) (p₂ : Punch L contact u₂) :
    ∃ k₁ k₂ : ℝ, value cfg A imSum (loadingNodes contact z maxLoad) mem.loading .fp = .fin k₁ ∧ value cfg A imSum contact mem.unloading .fp = .fin k₂ ∧
      0 ≤ k₁ ∧ k₁ ≤ k₂ := by
  refine ⟨_, _, fp_value cfg A imSum _ _ p₁.outside h₁, fp_value cfg A imSum _ _ p₂.outside h₂, ?_, ?_⟩
  · exact div_nonneg (Finset.sum_nonneg fun i _ => p₁.push i) (Nat.cast_nonneg _)
  · refine div_le_div_of_nonneg_right (punch_mono hL (fun i hi => ?_) p₁ p₂) (Nat.cast_nonneg _)
    simp only [loadingNodes, Bool.and_eq_true] at hi
    exact hi.1

/-- **C92**: without plasticity (infinite maximum load, loads that are numbers) both directions use the same nodes. -/
theorem C92_elastic_same (contact : ι → Bool) (z : ι → ℝ) : loadingNodes contact (fun i => .fin (z i)) .pinf = contact := by
  funext i
  have : (0 : ℝ) < 99999 / 100000 := by norm_num
  simp [loadingNodes, XR.mul_def, XR.mul, XR.signInf, this, XR.lt]

/-- **C92**: the nodes of the loading direction are those in contact with a load of less than 99.999 % of the maximum. -/
theorem C92_loading_nodes (contact : ι → Bool) (z : ι → ℝ) (m : ℝ) (i : ι) :
    loadingNodes contact (fun i => .fin (z i)) (.fin m) i = true ↔ contact i = true ∧ z i < m * (99999 / 100000) := by
  simp [loadingNodes]

theorem flattened_fin (A : (ι → XR) → ι → XR) (L : (ι → ℝ) →ₗ[ℝ] (ι → ℝ)) (hA : ActsOn A L) (c : ι → Bool) {u : ι → ℝ} (hu : ∀ i, c i = false → u i = 0) :
    flattened c (A (extend fun i : Domain c => XR.fin (u i.1))) = fun i => .fin (if c i then 1 else min 1 (L u i)) := by
  rw [extend_fin hu, hA]
  funext i
  unfold flattened
  cases c i
  · by_cases h : 1 < L u i
    · simp [h, XR.lt, min_eq_left h.le]
    · simp [h, XR.lt, min_eq_right (not_lt.mp h)]
  · simp

/-- **C92 (partial)**: the mean line stiffness is not below the far point stiffness, if the loads found push, the material answers with displacements in the same
direction, and some point is displaced by less than one; it is their sum over the mean gap closed. -/
theorem C92_mean_lines_partial (cfg : Config) [Nonempty ι] (A : (ι → XR) → ι → XR) (L : (ι → ℝ) →ₗ[ℝ] (ι → ℝ)) (hA : ActsOn A L) (hpos : ∀ u : ι → ℝ, (∀ i, 0 ≤ u i) → ∀ i, 0 ≤ L u i)
    (imSum : ℝ) (c : ι → Bool) (last : Option (ι → XR)) {u : ι → ℝ} (hu : ∀ i, c i = false → u i = 0) (hu0 : ∀ i, 0 ≤ u i) (h : Finds A imSum cfg.tol cfg.maxIt c last u)
    (j : ι) (hj : c j = false) (hj1 : L u j < 1) :
    ∃ k₁ k₂ gap : ℝ, value cfg A imSum c last .fp = .fin k₁ ∧ value cfg A imSum c last .ml = .fin k₂ ∧ 0 ≤ k₁ ∧ k₁ ≤ k₂ ∧
      0 < gap ∧ gap * Fintype.card ι = (∑ i, if c i then 0 else max 0 (1 - L u i)) ∧ k₁ = k₂ * gap := by
  have hn : (0 : ℝ) < Fintype.card ι := by exact_mod_cast Fintype.card_pos
  set S := ∑ i, (if c i then (1 : ℝ) else min 1 (L u i)) with hS
  have hS0 : 0 ≤ S := Finset.sum_nonneg fun i _ => by
    split_ifs
    · norm_num
    · exact le_min (by norm_num) (hpos u hu0 i)
  have hgap : (∑ i, if c i then 0 else max 0 (1 - L u i)) = Fintype.card ι - S := by
    have : (Fintype.card ι : ℝ) = ∑ _i : ι, (1 : ℝ) := by simp
    rw [this, hS, ← Finset.sum_sub_distrib]
    refine Finset.sum_congr rfl fun i _ => ?_
    split_ifs
    · ring
    · rcases le_total 1 (L u i) with h | h
      · rw [min_eq_left h, max_eq_left (by linarith)]; ring
      · rw [min_eq_right h, max_eq_right (by linarith)]
  have hgpos : 0 < (Fintype.card ι : ℝ) - S := by
    rw [← hgap]
    refine Finset.sum_pos' (fun i _ => ?_) ⟨j, Finset.mem_univ _, ?_⟩
    · split_ifs
      · exact le_rfl
      · exact le_max_left _ _
    · rw [hj]
      simpa using hj1
  have hk : 0 ≤ ∑ i, u i := Finset.sum_nonneg fun i _ => hu0 i
  have hg1 : 0 < 1 - S / Fintype.card ι := by
    have : 1 - S / Fintype.card ι = (Fintype.card ι - S) / Fintype.card ι := by field_simp
    rw [this]
    positivity
  refine ⟨_, (∑ i, u i) / (1 - S / Fintype.card ι) / Fintype.card ι, 1 - S / Fintype.card ι, fp_value cfg A imSum c last hu h, ?_, by positivity, ?_, hg1, ?_, ?_⟩
  · unfold value
    unfold Finds at h
    rw [h]
    simp only [stiffness]
    rw [flattened_fin A L hA c hu, mean, XR.sum_fin, XR.sum_fin, sum_domain hu, XR.fin_div _ hn.ne', XR.fin_sub, XR.fin_div _ hg1.ne', XR.fin_div _ hn.ne']
  · refine div_le_div_of_nonneg_right ?_ hn.le
    rw [le_div_iff₀ hg1]
    have : 0 ≤ S / Fintype.card ι := by positivity
    nlinarith
  · rw [hgap]
    field_simp
  · field_simp

/-- **C92**: with all nodes in contact the mean line stiffness is infinite, if the loads found push. -/
theorem C92_full_contact (cfg : Config) [Nonempty ι] (A : (ι → XR) → ι → XR) (imSum : ℝ) (c : ι → Bool) (hc : ∀ i, c i = true)
    (last : Option (ι → XR)) {u : ι → ℝ} (hk : 0 < ∑ i, u i) (h : Finds A imSum cfg.tol cfg.maxIt c last u) :
    value cfg A imSum c last .ml = .pinf := by
  have hn : (0 : ℝ) < Fintype.card ι := by exact_mod_cast Fintype.card_pos
  have hu : ∀ i, c i = false → u i = 0 := fun i hi => by rw [hc i] at hi; cases hi
  have hf : ∀ d : ι → XR, flattened c d = fun _ => .fin 1 := fun d => by funext i; simp [flattened, hc i]
  unfold value
  unfold Finds at h
  rw [h]
  simp only [stiffness]
  rw [hf, mean, XR.sum_fin, XR.sum_fin, sum_domain hu, XR.fin_div _ hn.ne', XR.fin_sub]
  have : (1 : ℝ) - (∑ _i : ι, (1 : ℝ)) / Fintype.card ι = 0 := by
    simp
  rw [this]
  simp [XR.div_def, XR.div, XR.signInf, hk, not_lt.mpr hn.le]

/-- **C92 (negation)**: if the last result of the direction was the exact solution and the contact has not changed, the next call fails with `nan` stiffness. -/
theorem C92_repeat_wrong (cfg : Config) (A : (ι → XR) → ι → XR) (L : (ι → ℝ) →ₗ[ℝ] (ι → ℝ)) (hA : ActsOn A L) (imSum : ℝ) (c : ι → Bool) (hne : ∃ i, c i = true)
    {u : ι → ℝ} (hu : Punch L c u) (loading : Bool) :
    (∀ k, value cfg A imSum c (some fun i => .fin (u i)) k = .nan) ∧ (solveOne cfg A imSum loading c (some fun i => .fin (u i))).2 = (true, some fun i => .fin (u i)) := by
  obtain ⟨i₀, hi₀⟩ := hne
  haveI : Nonempty (Domain c) := ⟨⟨i₀, hi₀⟩⟩
  have hf := C15_start_at_solution_fails (problem A imSum cfg.tol cfg.maxIt c (some fun i => .fin (u i))) (fun i => u i.1) (fun _ => 1) rfl rfl rfl (fun i => by
    refine ⟨⟨hu.push _, rfl⟩, L u i.1, ?_, ?_⟩
    · show A (extend fun i : Domain c => XR.fin (u i.1)) i.1 = _
      rw [extend_fin hu.outside, hA]
    · by_cases h0 : u i.1 = 0
      · exact Or.inr (Or.inl ⟨h0, by have := hu.reach i.1 i.2; linarith⟩)
      · exact Or.inl (by rw [hu.touch i.1 i.2 h0, sub_self]))
  have hs : (∑ i, (bccg exact (problem A imSum cfg.tol cfg.maxIt c (some fun i => .fin (u i)))).x i) = .nan :=
    XR.sum_eq_nan _ _ (Finset.mem_univ ⟨i₀, hi₀⟩) (hf.2 _)
  constructor
  · intro k
    cases k <;> simp [value, stiffness, hs]
  · simp [solveOne, hf.1]

/-- **C92 (negation)**: with a single node in contact the stiffness is `nan` on the first call already, unless the initial guess is within the tolerance of the
solution: the solver meets the solution in its first step and divides zero by zero in the second. -/
theorem C92_single_node_wrong (cfg : Config) (A : (ι → XR) → ι → XR) (L : (ι → ℝ) →ₗ[ℝ] (ι → ℝ)) (hA : ActsOn A L) {imSum : ℝ} (c : ι → Bool) (j : ι) (hj : ∀ i, c i = true ↔ i = j)
    {K : ℝ} (hK : 0 < K) (hL : ∀ u : ι → ℝ, (∀ i, i ≠ j → u i = 0) → L u j = K * u j) (hi : K < imSum) (htol : cfg.tol ≤ 1 - K / imSum) (hmax : ∀ m, cfg.maxIt = some m → 1 ≤ m) :
    ∀ k, value cfg A imSum c none k = .nan := by
  have hcj : c j = true := (hj j).mpr rfl
  haveI : Unique (Domain c) := ⟨⟨⟨j, hcj⟩⟩, fun i => Subtype.ext ((hj i.1).mp i.2)⟩
  have hip : 0 < imSum := by linarith
  have hkx : K * (1 / imSum) < 1 := by rw [mul_one_div]; exact (div_lt_one hip).mpr hi
  have hmax' : 1 ≤ (problem A imSum cfg.tol cfg.maxIt c none).maxIt := by
    simp only [problem]
    cases hm : cfg.maxIt with
    | none => simp
    | some m => exact hmax m hm
  have hs : OneSpring (problem A imSum cfg.tol cfg.maxIt c none) K 1 (1 / imSum) := by
    refine .ofZero (by positivity) (fun v => ?_) rfl rfl rfl ?_ rfl
    · funext i
      have hi' : i.1 = j := (hj i.1).mp i.2
      classical
      have e : extend (fun _ : Domain c => XR.fin v) = fun i => .fin (if i = j then v else 0) := by
        funext i
        unfold extend
        by_cases hij : i = j
        · subst hij; simp [hcj]
        · have : ¬ c i = true := fun h => hij ((hj i).mp h)
          simp [hij, this]
      show A (extend fun _ : Domain c => XR.fin v) i.1 = _
      rw [e, hA, hi']
      have := hL (fun i => if i = j then v else 0) (fun i hij => by simp [hij])
      simp only [if_true] at this
      simp only [this]
    · funext i
      show guess imSum none i.1 = _
      simp [guess, XR.fin_div _ hip.ne']
  obtain ⟨-, hx⟩ := C15_one_node_fails (problem A imSum cfg.tol cfg.maxIt c none) hs hK one_pos (by positivity) hkx.ne (by
    simp only [problem, XR.lt, decide_eq_false_iff_not, not_lt, div_one]
    rw [abs_of_pos (by linarith)]
    rw [mul_one_div]
    exact htol) hmax'
  have hsum : (∑ i, (bccg exact (problem A imSum cfg.tol cfg.maxIt c none)).x i) = .nan := XR.sum_eq_nan _ _ (Finset.mem_univ ⟨j, hcj⟩) (hx _)
  intro k
  cases k <;> simp only [value, stiffness, hsum, XR.nan_div]

/-- **C92**: with no node in contact the stiffness is zero. -/
theorem C92_no_contact (cfg : Config) [Nonempty ι] (A : (ι → XR) → ι → XR) (L : (ι → ℝ) →ₗ[ℝ] (ι → ℝ)) (hA : ActsOn A L) (imSum : ℝ) (c : ι → Bool) (hc : ∀ i, c i = false) (last : Option (ι → XR)) :
    ∀ k, value cfg A imSum c last k = .fin 0 := by
  have hn : (Fintype.card ι : ℝ) ≠ 0 := by exact_mod_cast Fintype.card_ne_zero
  haveI : IsEmpty (Domain c) := ⟨fun i => by have := i.2; rw [hc] at this; cases this⟩
  have hx : (bccg exact (problem A imSum cfg.tol cfg.maxIt c last)).x = fun i => .fin ((0 : ι → ℝ) i.1) := funext fun i => isEmptyElim i
  intro k
  have hf : Finds A imSum cfg.tol cfg.maxIt c last 0 := hx
  cases k with
  | fp => rw [fp_value cfg A imSum c last (fun _ _ => rfl) hf]; simp
  | ml =>
    unfold value
    rw [hx]
    simp only [stiffness]
    rw [flattened_fin A L hA c (u := 0) (fun _ _ => rfl), mean, XR.sum_fin, XR.sum_fin, sum_domain (u := 0) (fun _ _ => rfl), XR.fin_div _ hn, XR.fin_sub]
    simp [hc, XR.div_def, XR.div, hn]

/-- **C92**: the stored result of a direction is replaced by the new loads, continued by zeros, if and only if the solver reports success; that of the other
direction is not touched by it. -/
theorem C92_memory (cfg : Config) (A : (ι → XR) → ι → XR) (imSum : ℝ) (elastic contact : ι → Bool) (mem : Memory ι) :
    (solve cfg A imSum elastic contact mem).2.loading = (if cfg.loading = true ∧ (bccg exact (problem A imSum cfg.tol cfg.maxIt elastic mem.loading)).failed = false then
      some (extend (bccg exact (problem A imSum cfg.tol cfg.maxIt elastic mem.loading)).x) else mem.loading) ∧
    (solve cfg A imSum elastic contact mem).2.unloading = (if cfg.unloading = true ∧ (bccg exact (problem A imSum cfg.tol cfg.maxIt contact mem.unloading)).failed = false then
      some (extend (bccg exact (problem A imSum cfg.tol cfg.maxIt contact mem.unloading)).x) else mem.unloading) := by
  constructor
  · cases hl : cfg.loading <;> cases hf : (bccg exact (problem A imSum cfg.tol cfg.maxIt elastic mem.loading)).failed <;> simp [solve, solveOne, hl, hf]
  · cases hl : cfg.unloading <;> cases hf : (bccg exact (problem A imSum cfg.tol cfg.maxIt contact mem.unloading)).failed <;> simp [solve, solveOne, hl, hf]

/-- **C92**: the border: `b` nodes are left out on each side. -/
theorem C92_border {X : Type} {n m : Nat} (b : Nat) (a : Fin n × Fin m → X) (i : Fin n) (j : Fin m) (hi : b ≤ i ∧ i + b < n) (hj : b ≤ j ∧ j + b < m) :
    ∃ p : Fin (n - 2 * b) × Fin (m - 2 * b), p.1 + b = (i : Nat) ∧ p.2 + b = (j : Nat) ∧ crop b a p = a (i, j) := by
  refine ⟨(⟨i - b, by omega⟩, ⟨j - b, by omega⟩), Nat.sub_add_cancel hi.1, Nat.sub_add_cancel hj.1, ?_⟩
  simp only [crop]
  congr 2 <;> exact Fin.ext (Nat.sub_add_cancel (by omega))

example : 2 ≤ ((3 : Fin 7) : Nat) ∧ ((3 : Fin 7) : Nat) + 2 < 7 := by decide

/-! ### Two springs of compliance 2, one of them in contact -/

/-- Both definitions; the solver is stopped after its first step. -/
noncomputable def springs : Config := ⟨[.ml, .fp], "z", true, true, 0, 1 / 10 ^ 6, some 0, []⟩

/-- The compliance. -/
noncomputable def springMap : (Bool → ℝ) →ₗ[ℝ] (Bool → ℝ) := (2 : ℝ) • LinearMap.id

/-- The compliance on extended numbers. -/
noncomputable def springConv (u : Bool → XR) : Bool → XR := fun i => .fin 2 * u i

theorem springs_act : ActsOn springConv springMap := fun u => by
  funext i
  simp [springConv, springMap]

theorem springs_energy : Energy springMap := by
  constructor
  · intro u v
    refine Finset.sum_congr rfl fun i _ => ?_
    simp [springMap]
    ring
  · intro u
    refine Finset.sum_nonneg fun i _ => ?_
    simp [springMap]
    nlinarith [mul_self_nonneg (u i)]

theorem springs_punch : Punch springMap (fun i => i) (fun i => if i then 1 / 2 else 0) := by
  constructor <;> intro i <;> cases i <;> simp [springMap]

theorem springs_found : Finds springConv 4 springs.tol springs.maxIt (fun i => i) none (fun i => if i then 1 / 2 else 0) := by
  haveI : Unique (Domain fun i : Bool => i) := ⟨⟨⟨true, rfl⟩⟩, fun i => Subtype.ext i.2⟩
  have hs : OneSpring (problem springConv 4 springs.tol springs.maxIt (fun i => i) none) 2 1 (1 / 4) := by
    refine .ofZero (by positivity) (fun v => ?_) rfl rfl rfl ?_ rfl
    · funext i
      have hi : i.1 = true := i.2
      simp [problem, springConv, extend, hi]
    · funext i
      simp [problem, guess, XR.fin_div _ (four_ne_zero (α := ℝ))]
  have h := one_first _ hs (by norm_num) one_pos (by norm_num) (by norm_num) (by simp [problem, springs])
  unfold Finds
  refine Eq.trans ?_ (h.trans ?_)
  · congr!
  · funext i
    have hi : i.1 = true := i.2
    simp [hi]

/-- Loading (the contact is at the maximum load 5) and unloading (`C92_loading_below_unloading_partial`); without contact (`C92_no_contact`). -/
example : loadingNodes (fun i => i) (fun _ => .fin 5) (.fin 5) = (fun _ : Bool => false) ∧ Finds springConv 4 springs.tol springs.maxIt (fun _ => false) none 0 ∧
    Punch springMap (fun _ => false) 0 := by
  refine ⟨?_, ?_, ⟨fun _ _ => rfl, fun _ => le_rfl, (fun _ h => by cases h), (fun _ h => by cases h)⟩⟩
  · funext i
    simp [loadingNodes, XR.lt]
    norm_num
  · unfold Finds
    funext i
    exact absurd i.2 (by simp)

/-- Mean lines (`C92_mean_lines_partial`), the repeated call (`C92_repeat_wrong`), a single node (`C92_single_node_wrong`). -/
example : (∀ u : Bool → ℝ, (∀ i, 0 ≤ u i) → ∀ i, 0 ≤ springMap u i) ∧ springMap (fun i => if i then 1 / 2 else 0) false < 1 ∧ (∀ i : Bool, i = true ↔ i = true) ∧
    (∀ u : Bool → ℝ, (∀ i, i ≠ true → u i = 0) → springMap u true = 2 * u true) ∧ (2 : ℝ) < 4 ∧ springs.tol ≤ 1 - 2 / 4 := by
  refine ⟨fun u h i => ?_, ?_, fun _ => Iff.rfl, fun u _ => ?_, by norm_num, ?_⟩
  · simp [springMap, h i]
  · simp [springMap]
  · simp [springMap]
  · simp [springs]
    norm_num

/-- Full contact (`C92_full_contact`): one node. -/
example : ∃ u : Unit → ℝ, 0 < ∑ i, u i ∧ Finds (fun u i => .fin 2 * u i) 4 springs.tol springs.maxIt (fun _ : Unit => true) none u := by
  haveI : Unique (Domain fun _ : Unit => true) := ⟨⟨⟨(), rfl⟩⟩, fun i => Subtype.ext rfl⟩
  have hs : OneSpring (problem (fun u i => .fin 2 * u i) 4 springs.tol springs.maxIt (fun _ : Unit => true) none) 2 1 (1 / 4) := by
    refine .ofZero (by positivity) (fun v => ?_) rfl rfl rfl ?_ rfl
    · funext i
      simp [problem, extend]
    · funext i
      simp [problem, guess, XR.fin_div _ (four_ne_zero (α := ℝ))]
  exact ⟨fun _ => 1 / 2, by simp, one_first _ hs (by norm_num) one_pos (by norm_num) (by norm_num) (by simp [problem, springs])⟩

end Verif.Stiffness
