import Verif.Elastic.Lemmas

/-!
# Properties C01-C02: elastic constants from any pair
-/

namespace Verif.Elastic

/-- C01 (partial: the pair {Lam, v}, and {E, M} with negative Poisson ratio, are excluded – see the two theorems below).
Giving any two distinct constants of an isotropic material returns all six constants of that material. -/
theorem C01_pair_determines_material_partial (p : Six) (h : Isotropic p) (s t : String) (hs : IsName s) (ht : IsName t)
    (hne : s ≠ t) (hLV : ¬ IsLamV s t) (hEM : IsEM s t → 0 ≤ p.v) :
    getProperties [(s, p.value s), (t, p.value t)] = .ok p := by
  have key : ∀ a b : Key, a.name = s → b.name = t → getProperties [(s, p.value s), (t, p.value t)] = .ok p := by
    intro a b ha hb
    have hva : p.value s = some (p.get a) := by subst ha; cases a <;> simp [Six.value, Key.name, Six.get]
    have hvb : p.value t = some (p.get b) := by subst hb; cases b <;> simp [Six.value, Key.name, Six.get]
    have hna : Key.ofName? s = some a := by subst ha; cases a <;> simp [Key.ofName?, Key.name]
    have hnb : Key.ofName? t = some b := by subst hb; cases b <;> simp [Key.ofName?, Key.name]
    have hrk : a.rank ≠ b.rank := by
      intro hr; apply hne; rw [← ha, ← hb]
      cases a <;> cases b <;> simp_all [Key.rank]
    simp only [getProperties, hna, hnb, hva, hvb]
    split
    · apply branch_ok p h a b (by omega)
      · rintro ⟨rfl, rfl⟩; exact hLV (Or.inl ⟨ha.symm, hb.symm⟩)
      · rintro ⟨rfl, rfl⟩; exact hEM (Or.inl ⟨ha.symm, hb.symm⟩)
    · apply branch_ok p h b a (by omega)
      · rintro ⟨rfl, rfl⟩; exact hLV (Or.inr ⟨ha.symm, hb.symm⟩)
      · rintro ⟨rfl, rfl⟩; exact hEM (Or.inr ⟨ha.symm, hb.symm⟩)
  have name_of : ∀ s, IsName s → ∃ a : Key, a.name = s := by
    rintro s (h | h | h | h | h | h) <;> subst h
    exacts [⟨.E, rfl⟩, ⟨.v, rfl⟩, ⟨.G, rfl⟩, ⟨.K, rfl⟩, ⟨.Lam, rfl⟩, ⟨.M, rfl⟩]
  obtain ⟨a, ha⟩ := name_of s hs
  obtain ⟨b, hb⟩ := name_of t ht
  exact key a b ha hb

/-- A concrete steel-like material with `v = 1/4` meets the hypotheses, for the pair ("M", "E"). -/
example : ∃ p : Six, Isotropic p ∧ p.v = 1 / 4 ∧ IsName "M" ∧ IsName "E" ∧ "M" ≠ "E" ∧ ¬ IsLamV "M" "E" ∧
    (IsEM "M" "E" → 0 ≤ p.v) :=
  ⟨{ K := 5, G := 3, E := 15 / 2, v := 1 / 4, Lam := 3, M := 9 },
    ⟨by norm_num, by norm_num, by norm_num, by norm_num, by norm_num, by norm_num⟩, rfl,
    by simp [IsName], by simp [IsName], by decide, by simp [IsLamV], by norm_num⟩

/-- C01, negation for {Lam, v}: whatever the values, in either order, the call raises `TypeError`. -/
theorem C01_lam_v_always_raises (s t : String) (h : IsLamV s t) (x y : ℝ) :
    Raises (getProperties [(s, some x), (t, some y)]) .typeError := by
  rcases h with ⟨rfl, rfl⟩ | ⟨rfl, rfl⟩ <;> simp [Raises, getProperties, Key.ofName?, branch, Key.rank]

example : Raises (getProperties [("v", some 0.3), ("Lam", some 100)]) .typeError := C01_lam_v_always_raises "v" "Lam" (by simp [IsLamV]) _ _

/-- C01, negation for {E, M}: for every material with negative Poisson ratio the call returns numbers, but those of
another material (with non-negative Poisson ratio). -/
theorem C01_E_M_wrong_for_negative_v (p : Six) (h : Isotropic p) (hv : p.v < 0) :
    ∃ q, Returns (getProperties [("E", some p.E), ("M", some p.M)]) q ∧ 0 ≤ q.v ∧ q ≠ p := by
  obtain ⟨hK, hG, hE, hve, hL, hM⟩ := h
  refine ⟨_, rfl, ?_, ?_⟩
  · have hME : p.E ≤ p.M := by
      have h3 : 0 < 3 * p.K + p.G := by positivity
      rw [hE, hM, div_le_iff₀ h3]
      nlinarith [sq_nonneg (3 * p.K - 2 * p.G)]
    have hMpos : 0 < p.M := by rw [hM]; positivity
    have hS : p.M - p.E ≤ Real.sqrt (p.E ^ 2 + 9 * p.M ^ 2 - 10 * p.E * p.M) := by
      apply Real.le_sqrt_of_sq_le
      nlinarith
    apply div_nonneg
    · linarith
    · positivity
  · intro heq
    have : (0 : ℝ) ≤ p.v := by
      rw [← heq]
      have hME : p.E ≤ p.M := by
        have h3 : 0 < 3 * p.K + p.G := by positivity
        rw [hE, hM, div_le_iff₀ h3]
        nlinarith [sq_nonneg (3 * p.K - 2 * p.G)]
      have hMpos : 0 < p.M := by rw [hM]; positivity
      have hS : p.M - p.E ≤ Real.sqrt (p.E ^ 2 + 9 * p.M ^ 2 - 10 * p.E * p.M) := by
        apply Real.le_sqrt_of_sq_le
        nlinarith
      apply div_nonneg
      · linarith
      · positivity
    linarith

/-- An isotropic material with negative Poisson ratio (`v = -1/4`) exists. -/
example : ∃ p : Six, Isotropic p ∧ p.v < 0 :=
  ⟨{ K := 1 / 3, G := 1, E := 3 / 2, v := -1 / 4, Lam := -1 / 3, M := 5 / 3 },
    ⟨by norm_num, by norm_num, by norm_num, by norm_num, by norm_num, by norm_num⟩, by norm_num⟩

/-- C01, the full statement is false of the code. -/
theorem C01_full_statement_false :
    ¬ ∀ (p : Six), Isotropic p → ∀ s t : String, IsName s → IsName t → s ≠ t →
        getProperties [(s, p.value s), (t, p.value t)] = .ok p := by
  intro hall
  have := hall { K := 5, G := 3, E := 15 / 2, v := 1 / 4, Lam := 3, M := 9 }
    ⟨by norm_num, by norm_num, by norm_num, by norm_num, by norm_num, by norm_num⟩ "Lam" "v"
    (by simp [IsName]) (by simp [IsName]) (by decide)
  simp [getProperties, Key.ofName?, branch, Key.rank, Six.value] at this

/-- C02: any number of items other than two raises `ValueError`. -/
theorem C02_wrong_number_rejected (d : List (String × Option ℝ)) (h : d.length ≠ 2) :
    Raises (getProperties d) .valueError := by
  match d, h with
  | [], _ => rfl
  | [_], _ => rfl
  | [_, _], h => exact absurd rfl h
  | _ :: _ :: _ :: _, _ => rfl

example : ([("E", some (1 : ℝ)), ("v", some 0), ("G", some 2)]).length ≠ 2 := by simp

/-- C02: any unknown name among the keys raises `ValueError`. -/
theorem C02_unknown_name_rejected (d : List (String × Option ℝ)) (s : String) (x : Option ℝ) (hmem : (s, x) ∈ d)
    (h : ¬ IsName s) : Raises (getProperties d) .valueError := by
  by_cases hl : d.length = 2
  · obtain ⟨⟨a, u⟩, ⟨b, w⟩, rfl⟩ := List.length_eq_two.mp hl
    have hnone : ∀ r, ¬ IsName r → Key.ofName? r = none := by
      intro r hr
      simp only [IsName, not_or] at hr
      simp [Key.ofName?, hr]
    simp only [List.mem_cons, Prod.mk.injEq, List.not_mem_nil, or_false] at hmem
    rcases hmem with ⟨rfl, -⟩ | ⟨rfl, -⟩
    · simp [Raises, getProperties, hnone _ h]
    · simp only [Raises, getProperties, hnone _ h]
      cases Key.ofName? a <;> rfl
  · exact C02_wrong_number_rejected d hl

example : ("nu", some (1 : ℝ)) ∈ [("E", some (2 : ℝ)), ("nu", some 1)] ∧ ¬ IsName "nu" := by
  simp [IsName]

/-- C02: conversely two known names with numbers never raise `ValueError`. -/
theorem C02_known_names_accepted (s t : String) (hs : IsName s) (ht : IsName t) (hne : s ≠ t) (hLV : ¬ IsLamV s t)
    (x y : ℝ) : ∃ q, Returns (getProperties [(s, some x), (t, some y)]) q := by
  rcases hs with rfl | rfl | rfl | rfl | rfl | rfl <;> rcases ht with rfl | rfl | rfl | rfl | rfl | rfl <;>
    first
    | exact absurd rfl hne
    | exact absurd (Or.inl ⟨rfl, rfl⟩) hLV
    | exact absurd (Or.inr ⟨rfl, rfl⟩) hLV
    | exact ⟨_, rfl⟩

example := C02_known_names_accepted "M" "E" (by simp [IsName]) (by simp [IsName]) (by decide) (by simp [IsLamV]) 9 7

/-- C02: the order in which the two properties are written does not matter. -/
theorem C02_order_irrelevant (s t : String) (hne : s ≠ t) (x y : Option ℝ) :
    getProperties [(s, x), (t, y)] = getProperties [(t, y), (s, x)] := by
  have inj : ∀ r a, Key.ofName? r = some a → r = a.name := by
    intro r a h
    unfold Key.ofName? at h
    repeat' split at h
    all_goals simp_all [Key.name]
    all_goals (subst h; rfl)
  simp only [getProperties]
  rcases ha : Key.ofName? s with _ | a <;> rcases hb : Key.ofName? t with _ | b <;> simp only
  rcases x with _ | x <;> rcases y with _ | y <;> simp only
  have hab : a.rank ≠ b.rank := by
    intro hr
    apply hne
    rw [inj s a ha, inj t b hb]
    cases a <;> cases b <;> simp_all [Key.rank]
  by_cases hle : a.rank ≤ b.rank
  · rw [if_pos hle, if_neg (by omega)]
  · rw [if_neg hle, if_pos (by omega)]

example : "Lam" ≠ "K" := by decide

/-- The order used for sorting the two names is Python's (code point) order of the names. -/
theorem C02_rank_is_name_order (a b : Key) : a.rank < b.rank ↔ a.name < b.name := by
  cases a <;> cases b <;> decide

end Verif.Elastic
