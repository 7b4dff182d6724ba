import Verif.Steps.SaveLemmas

/-!
# C22: each increment is saved once, with everything requested

When the step has output requests, one record is written per increment, and every quantity that is asked for and that the state provides
is in it with its value. But a record (with only the time) is also written if no request is active, and names that the state does
not provide are not left out but saved as the string `'surface_2_points'`, because `exec` cannot assign the local variable of a function.
-/

namespace Verif.Steps

variable {V : Type}

/-- The order in which Python iterates over a set: every element once. -/
def IterOrder (ord : List String → List String) : Prop := ∀ l, (ord l).Nodup ∧ ∀ n, n ∈ ord l ↔ n ∈ l

theorem table : Table (tripleNames V ++ pairNames V) where
  names := by
    simp only [tripleNames, pairNames, List.cons_append, List.nil_append, List.map_cons, List.map_nil]
    decide
  parts := by
    intro p hp
    simp only [tripleNames, pairNames, List.cons_append, List.nil_append, List.mem_cons, List.not_mem_nil, or_false] at hp
    rcases hp with rfl | rfl | rfl | rfl | rfl | rfl <;> dsimp only <;> decide
  apart := by
    intro p hp q hq
    simp only [tripleNames, pairNames, List.cons_append, List.nil_append, List.mem_cons, List.not_mem_nil, or_false] at hp hq
    rcases hp with rfl | rfl | rfl | rfl | rfl | rfl <;> rcases hq with rfl | rfl | rfl | rfl | rfl | rfl <;>
      dsimp only <;> decide
  disjoint := by
    intro p hp q hq
    simp only [tripleNames, pairNames, List.cons_append, List.nil_append, List.mem_cons, List.not_mem_nil, or_false] at hp hq
    rcases hp with rfl | rfl | rfl | rfl | rfl | rfl <;> rcases hq with rfl | rfl | rfl | rfl | rfl | rfl <;>
      dsimp only <;> decide

theorem names_eq : (tripleNames V ++ pairNames V).map Parts.name = components ++ coordinates := rfl

/-- The table of three components. -/
theorem mem_tripleNames (p : Parts V) : p ∈ tripleNames V ↔ ∃ c ∈ components, p = ⟨c, [c ++ "_x", c ++ "_y", c ++ "_z"], FVal.xyz⟩ := by
  simp only [tripleNames, components, List.mem_cons, List.not_mem_nil, or_false, exists_eq_or_imp, exists_eq_left]
  rfl

/-- The table of two coordinates. -/
theorem mem_pairNames (p : Parts V) : p ∈ pairNames V ↔ ∃ c ∈ coordinates, p = ⟨c, [c ++ "_y", c ++ "_x"], FVal.items⟩ := by
  simp only [pairNames, coordinates, List.mem_cons, List.not_mem_nil, or_false, exists_eq_or_imp, exists_eq_left]
  rfl

theorem get?_iff {d : Dict V} (h : (d.map Prod.fst).Nodup) (n : String) (v : V) : d.get? n = some v ↔ (n, v) ∈ d :=
  ⟨Dict.mem_of_get?, Dict.get?_eq_some_of_mem h⟩

theorem get?_ne_none_iff {d : Dict V} (h : (d.map Prod.fst).Nodup) (n : String) : d.get? n ≠ none ↔ ∃ v, (n, v) ∈ d := by
  constructor
  · intro hn
    cases hg : d.get? n with
    | none => exact absurd hg hn
    | some v => exact ⟨v, Dict.mem_of_get? hg⟩
  · rintro ⟨v, hv⟩
    rw [Dict.get?_eq_some_of_mem h hv]
    simp

theorem derived_iff {state : Dict (FVal V)} (w : WellFormed state) (n : String) :
    Derived state n ↔ ∃ p ∈ tripleNames V ++ pairNames V, Dict.get? state p.name ≠ none ∧ n ∈ p.new := by
  unfold Derived
  constructor
  · rintro (⟨c, hc, hf, hn⟩ | ⟨c, hc, hf, hn⟩)
    · exact ⟨_, List.mem_append_left _ ((mem_tripleNames _).2 ⟨c, hc, rfl⟩), (get?_ne_none_iff w.distinct _).2 hf, by simpa using hn⟩
    · refine ⟨_, List.mem_append_right _ ((mem_pairNames _).2 ⟨c, hc, rfl⟩), (get?_ne_none_iff w.distinct _).2 hf, ?_⟩
      simpa [or_comm] using hn
  · rintro ⟨p, hp, hf, hn⟩
    rcases List.mem_append.1 hp with hp | hp
    · obtain ⟨c, hc, rfl⟩ := (mem_tripleNames _).1 hp
      exact Or.inl ⟨c, hc, (get?_ne_none_iff w.distinct _).1 hf, by simpa using hn⟩
    · obtain ⟨c, hc, rfl⟩ := (mem_pairNames _).1 hp
      exact Or.inr ⟨c, hc, (get?_ne_none_iff w.distinct _).1 hf, by simpa [or_comm] using hn⟩

/-- The expanded state is exactly what the state provides. -/
theorem expanded_iff {state : Dict (FVal V)} (w : WellFormed state) {req : List String} {st' : Dict (FVal V) × List String}
    (h : expandParts (tripleNames V ++ pairNames V) (state, req) = .ok st') (n : String) (v : FVal V) :
    Dict.get? st'.1 n = some v ↔ Provides state n v := by
  obtain ⟨-, b2, b3, b4⟩ := expandParts_spec _ table _ _ h
  simp only at b3 b4
  rw [names_eq] at b3
  constructor
  · intro hg
    by_cases hd : Derived state n
    · rw [derived_iff w] at hd
      obtain ⟨p, hp, hf, hn⟩ := hd
      obtain ⟨f, hf⟩ := (get?_ne_none_iff w.distinct _).1 hf
      have hf' := Dict.get?_eq_some_of_mem w.distinct hf
      obtain ⟨vs, hvs, hall⟩ := b4 p hp f hf'
      rcases List.mem_append.1 hp with hp | hp
      · obtain ⟨c, hc, rfl⟩ := (mem_tripleNames _).1 hp
        obtain ⟨x, y, z, rfl⟩ := w.triples c hc f hf
        simp only [FVal.xyz, Except.ok.injEq] at hvs
        subst hvs
        simp only [List.zip_cons_cons, List.zip_nil_right, List.mem_cons, List.not_mem_nil, or_false, Prod.mk.injEq] at hall hn
        rcases hn with rfl | rfl | rfl
        · rw [hall _ x (Or.inl ⟨rfl, rfl⟩)] at hg
          cases hg
          exact .x c x y z hc hf
        · rw [hall _ y (Or.inr (Or.inl ⟨rfl, rfl⟩))] at hg
          cases hg
          exact .y c x y z hc hf
        · rw [hall _ z (Or.inr (Or.inr ⟨rfl, rfl⟩))] at hg
          cases hg
          exact .z c x y z hc hf
      · obtain ⟨c, hc, rfl⟩ := (mem_pairNames _).1 hp
        obtain ⟨x, y, rfl⟩ := w.pairs c hc f hf
        simp only [FVal.items, Except.ok.injEq] at hvs
        subst hvs
        simp only [List.zip_cons_cons, List.zip_nil_right, List.mem_cons, List.not_mem_nil, or_false, Prod.mk.injEq] at hall hn
        rcases hn with rfl | rfl
        · rw [hall _ x (Or.inl ⟨rfl, rfl⟩)] at hg
          cases hg
          exact .py c x y hc hf
        · rw [hall _ y (Or.inr ⟨rfl, rfl⟩)] at hg
          cases hg
          exact .px c x y hc hf
    · by_cases hn : n ∈ components ++ coordinates
      · rw [← names_eq (V := V)] at hn
        obtain ⟨p, hp, rfl⟩ := List.mem_map.1 hn
        rw [b2 p hp] at hg
        cases hg
      · have hd' := hd
        rw [derived_iff w] at hd'
        rw [b3 n hn (fun p hp hf hm => hd' ⟨p, hp, hf, hm⟩)] at hg
        rw [List.mem_append, not_or] at hn
        exact .plain n v (Dict.mem_of_get? hg) hn.1 hn.2 hd
  · intro hpv
    cases hpv with
    | x c x y z hc hm =>
      obtain ⟨vs, hvs, hall⟩ := b4 _ (List.mem_append_left _ ((mem_tripleNames _).2 ⟨c, hc, rfl⟩)) _
        (Dict.get?_eq_some_of_mem w.distinct hm)
      simp only [FVal.xyz, Except.ok.injEq] at hvs
      subst hvs
      exact hall _ _ (by simp)
    | y c x y z hc hm =>
      obtain ⟨vs, hvs, hall⟩ := b4 _ (List.mem_append_left _ ((mem_tripleNames _).2 ⟨c, hc, rfl⟩)) _
        (Dict.get?_eq_some_of_mem w.distinct hm)
      simp only [FVal.xyz, Except.ok.injEq] at hvs
      subst hvs
      exact hall _ _ (by simp)
    | z c x y z hc hm =>
      obtain ⟨vs, hvs, hall⟩ := b4 _ (List.mem_append_left _ ((mem_tripleNames _).2 ⟨c, hc, rfl⟩)) _
        (Dict.get?_eq_some_of_mem w.distinct hm)
      simp only [FVal.xyz, Except.ok.injEq] at hvs
      subst hvs
      exact hall _ _ (by simp)
    | px c a b hc hm =>
      obtain ⟨vs, hvs, hall⟩ := b4 _ (List.mem_append_right _ ((mem_pairNames _).2 ⟨c, hc, rfl⟩)) _
        (Dict.get?_eq_some_of_mem w.distinct hm)
      simp only [FVal.items, Except.ok.injEq] at hvs
      subst hvs
      exact hall _ _ (by simp)
    | py c a b hc hm =>
      obtain ⟨vs, hvs, hall⟩ := b4 _ (List.mem_append_right _ ((mem_pairNames _).2 ⟨c, hc, rfl⟩)) _
        (Dict.get?_eq_some_of_mem w.distinct hm)
      simp only [FVal.items, Except.ok.injEq] at hvs
      subst hvs
      exact hall _ _ (by simp)
    | plain n v hm h1 h2 h3 =>
      rw [derived_iff w] at h3
      rw [b3 n (by rw [List.mem_append, not_or]; exact ⟨h1, h2⟩) (fun p hp hf hm => h3 ⟨p, hp, hf, hm⟩)]
      exact Dict.get?_eq_some_of_mem w.distinct hm

/-- The names after splitting. -/
theorem params_iff {state : Dict (FVal V)} (w : WellFormed state) (outputs : List Output) {st' : Dict (FVal V) × List String}
    (h : expandParts (tripleNames V ++ pairNames V) (state, requestedNames outputs) = .ok st') (n : String) :
    n ∈ expandAll st' ↔ Named outputs n ∨ (Requested outputs "all" ∧ ∃ v, Provides state n v) := by
  obtain ⟨b1, -, -, -⟩ := expandParts_spec _ table _ _ h
  have hpar : ∀ n, n ∈ st'.2 ↔ Named outputs n ∨ (n = "all" ∧ Requested outputs "all") := by
    intro n
    rw [b1 n, names_eq]
    unfold Named
    simp only [mem_requestedNames, List.mem_append, not_or]
    constructor
    · rintro (⟨h1, h2, h3⟩ | ⟨p, hp | hp, h1, h2⟩)
      · by_cases ha : n = "all"
        · exact Or.inr ⟨ha, ha ▸ h1⟩
        · exact Or.inl (Or.inl ⟨h1, h2, h3, ha⟩)
      · obtain ⟨c, hc, rfl⟩ := (mem_tripleNames _).1 hp
        exact Or.inl (Or.inr (Or.inl ⟨c, hc, h1, by simpa using h2⟩))
      · obtain ⟨c, hc, rfl⟩ := (mem_pairNames _).1 hp
        exact Or.inl (Or.inr (Or.inr ⟨c, hc, h1, by simpa [or_comm] using h2⟩))
    · rintro ((⟨h1, h2, h3, h4⟩ | ⟨c, hc, h1, h2⟩ | ⟨c, hc, h1, h2⟩) | ⟨rfl, h1⟩)
      · exact Or.inl ⟨h1, h2, h3⟩
      · exact Or.inr ⟨_, Or.inl ((mem_tripleNames _).2 ⟨c, hc, rfl⟩), h1, by simpa using h2⟩
      · exact Or.inr ⟨_, Or.inr ((mem_pairNames _).2 ⟨c, hc, rfl⟩), h1, by simpa [or_comm] using h2⟩
      · exact Or.inl ⟨h1, by decide, by decide⟩
  have hnall : ¬ Named outputs "all" := by
    unfold Named
    rintro (h | ⟨c, hc, -, h⟩ | ⟨c, hc, -, h⟩)
    · exact h.2.2.2 rfl
    · simp only [components, List.mem_cons, List.not_mem_nil, or_false] at hc
      rcases hc with rfl | rfl | rfl | rfl <;> revert h <;> decide
    · simp only [coordinates, List.mem_cons, List.not_mem_nil, or_false] at hc
      rcases hc with rfl | rfl <;> revert h <;> decide
  have hpall : ∀ v, ¬ Provides state "all" v := by
    intro v hv
    generalize hn : "all" = m at hv
    cases hv with
    | plain n v hm => exact w.noAll _ (hn ▸ hm)
    | x c x y z hc => simp only [components, List.mem_cons, List.not_mem_nil, or_false] at hc; rcases hc with rfl | rfl | rfl | rfl <;> revert hn <;> decide
    | y c x y z hc => simp only [components, List.mem_cons, List.not_mem_nil, or_false] at hc; rcases hc with rfl | rfl | rfl | rfl <;> revert hn <;> decide
    | z c x y z hc => simp only [components, List.mem_cons, List.not_mem_nil, or_false] at hc; rcases hc with rfl | rfl | rfl | rfl <;> revert hn <;> decide
    | px c a b hc => simp only [coordinates, List.mem_cons, List.not_mem_nil, or_false] at hc; rcases hc with rfl | rfl <;> revert hn <;> decide
    | py c a b hc => simp only [coordinates, List.mem_cons, List.not_mem_nil, or_false] at hc; rcases hc with rfl | rfl <;> revert hn <;> decide
  unfold expandAll
  by_cases hall : Requested outputs "all"
  · have : "all" ∈ st'.2 := (hpar "all").2 (Or.inr ⟨rfl, hall⟩)
    rw [if_pos (by simpa using this)]
    simp only [List.mem_filter, mem_unionSet, hpar, bne_iff_ne, Dict.mem_keys_iff, expanded_iff w h]
    constructor
    · rintro ⟨(h1 | h1) | h1, h2⟩
      · exact Or.inl h1
      · exact absurd h1.1 h2
      · exact Or.inr ⟨hall, h1⟩
    · rintro (h1 | h1)
      · exact ⟨Or.inl (Or.inl h1), by rintro rfl; exact hnall h1⟩
      · exact ⟨Or.inr h1.2, by rintro rfl; exact hpall _ h1.2.choose_spec⟩
  · have : "all" ∉ st'.2 := by
      rw [hpar]
      rintro (h | h)
      · exact hnall h
      · exact hall h.2
    rw [if_neg (by simpa using this), hpar]
    simp [hall]

/-- **C22, partial**: if the step has output requests, one record is written. Every quantity that the state provides is in it, with its
value, exactly if it is asked for (by name, as part of a split field, or with `all`); in particular the time is.
Everything else in the record is a quantity that is asked for by name but not provided; its value is the string
`surface_2_points`.
Missing: a record is written even if no request is active (`C22_inactive_still_written`), and quantities that are not provided are
written (`C22_missing_saved_as_string`), both against the property. -/
theorem C22_one_record_with_everything_requested_partial (ord : List String → List String) (hord : IterOrder ord)
    (execOk : String → Bool) (outputs : List Output) (hne : outputs ≠ []) (state : Dict (FVal V)) (w : WellFormed state) :
    ∃ r, saveOutputs ord execOk outputs state = .ok [r] ∧
      (∀ n v, Provides state n v → ((n, v) ∈ r ↔ Named outputs n ∨ Requested outputs "all")) ∧
      (∀ n v, (n, v) ∈ r → Provides state n v ∨
        (Named outputs n ∧ (¬ ∃ v', Provides state n v') ∧ v = .str "surface_2_points")) := by
  obtain ⟨t, ht⟩ := w.time
  obtain ⟨st, hst⟩ := expandParts_ok (tripleNames V ++ pairNames V) table (state, requestedNames outputs) (by
    intro p hp f hf
    have hf' := Dict.mem_of_get? hf
    rcases List.mem_append.1 hp with hp | hp
    · obtain ⟨c, hc, rfl⟩ := (mem_tripleNames _).1 hp
      obtain ⟨x, y, z, rfl⟩ := w.triples c hc f hf'
      exact ⟨_, rfl⟩
    · obtain ⟨c, hc, rfl⟩ := (mem_pairNames _).1 hp
      obtain ⟨x, y, rfl⟩ := w.pairs c hc f hf'
      exact ⟨_, rfl⟩)
  have hexp := expanded_iff w hst
  have hpar := params_iff w outputs hst
  have hkeys : ∀ n, n ∈ Dict.keys st.1 ↔ ∃ v, Provides state n v := by
    intro n
    rw [Dict.mem_keys_iff]
    simp only [hexp]
  -- the missing names
  have hmiss : ∀ n, n ∈ (expandAll st).filter (fun n => !(Dict.keys st.1).contains n) ↔
      Named outputs n ∧ ¬ ∃ v, Provides state n v := by
    intro n
    simp only [List.mem_filter, hpar, Bool.not_eq_true', List.contains_eq_mem, decide_eq_false_iff_not, hkeys]
    constructor
    · rintro ⟨h1 | h1, h2⟩
      · exact ⟨h1, h2⟩
      · exact absurd h1.2 h2
    · rintro ⟨h1, h2⟩
      exact ⟨Or.inl h1, h2⟩
  generalize hM : (expandAll st).filter (fun n => !(Dict.keys st.1).contains n) = M at hmiss
  obtain ⟨c1, c2, c3⟩ := fillMissing_spec execOk (some "surface_2_points") (ord M) st.1 M (Or.inr rfl)
    (fun n hn => ((hord M).2 n).1 hn) (by
      intro n hn
      cases hg : Dict.get? st.1 n with
      | none => rfl
      | some v => exact absurd ⟨v, (hexp n v).1 hg⟩ ((hmiss n).1 hn).2) (hord M).1
  generalize hR : fillMissing execOk (some "surface_2_points") (ord M) st.1 M = R at c1 c2 c3
  obtain ⟨r, hr⟩ := collect_ok R.1 ((expandAll st).filter (fun n => !R.2.contains n)) (by
    intro n hn
    simp only [List.mem_filter, Bool.not_eq_true', List.contains_eq_mem, decide_eq_false_iff_not] at hn
    by_cases hm : n ∈ M
    · rw [c3 n hm hn.2]; simp
    · rw [c1 n hm]
      rcases (hpar n).1 hn.1 with h | ⟨-, v, hv⟩
      · have : ∃ v, Provides state n v := by
          refine Classical.byContradiction fun hno => hm ?_
          exact (hmiss n).2 ⟨h, hno⟩
        obtain ⟨v, hv⟩ := this
        rw [(hexp n v).2 hv]; simp
      · rw [(hexp n v).2 hv]; simp)
  have hmem := collect_spec _ _ _ hr
  refine ⟨r, ?_, ?_, ?_⟩
  · unfold saveOutputs
    have h1 : outputs.isEmpty = false := by
      cases outputs with
      | nil => exact absurd rfl hne
      | cons => rfl
    rw [h1, Dict.get?_eq_some_of_mem w.distinct ht]
    simp only [Bool.false_eq_true, if_false, record, hst, hM, hR, hr]
  · intro n v hv
    have hnm : n ∉ M := fun h => ((hmiss n).1 h).2 ⟨v, hv⟩
    rw [hmem, List.mem_filter, c1 n hnm, hexp, hpar]
    simp only [Bool.not_eq_true', List.contains_eq_mem, decide_eq_false_iff_not]
    constructor
    · rintro ⟨⟨h | h, -⟩, -⟩
      · exact Or.inl h
      · exact Or.inr h.1
    · rintro (h | h)
      · exact ⟨⟨Or.inl h, fun h => hnm (c2 n h)⟩, hv⟩
      · exact ⟨⟨Or.inr ⟨h, v, hv⟩, fun h => hnm (c2 n h)⟩, hv⟩
  · intro n v hv
    rw [hmem, List.mem_filter] at hv
    simp only [Bool.not_eq_true', List.contains_eq_mem, decide_eq_false_iff_not] at hv
    by_cases hm : n ∈ M
    · right
      obtain ⟨h1, h2⟩ := (hmiss n).1 hm
      refine ⟨h1, h2, ?_⟩
      have := c3 n hm hv.1.2
      rw [hv.2] at this
      simpa using this
    · left
      rw [c1 n hm] at hv
      exact (hexp n v).1 hv.2

/-- A state with loads, points, a plain field and the time. -/
def exampleState : Dict (FVal Nat) :=
  [("time", .val 1), ("loads", .triple 10 11 12), ("surface_1_points", .pair 20 21), ("gap", .val 5)]

theorem exampleState_wellFormed : WellFormed exampleState where
  distinct := by decide
  triples := by
    intro c hc f hf
    simp only [components, List.mem_cons, List.not_mem_nil, or_false] at hc
    simp only [exampleState, List.mem_cons, Prod.mk.injEq, List.not_mem_nil, or_false] at hf
    rcases hc with rfl | rfl | rfl | rfl <;> revert hf <;> simp +decide
    rintro rfl; exact ⟨_, _, _, rfl⟩
  pairs := by
    intro c hc f hf
    simp only [coordinates, List.mem_cons, List.not_mem_nil, or_false] at hc
    simp only [exampleState, List.mem_cons, Prod.mk.injEq, List.not_mem_nil, or_false] at hf
    rcases hc with rfl | rfl <;> revert hf <;> simp +decide
    rintro rfl; exact ⟨_, _, rfl⟩
  noAll := by intro f; simp [exampleState]
  time := ⟨.val 1, by simp [exampleState]⟩

/-- An order: duplicates dropped from the front. -/
def exampleOrd (l : List String) : List String := l.foldr (fun a r => if r.contains a then r else a :: r) []

theorem exampleOrder : IterOrder exampleOrd := by
  intro l
  induction l with
  | nil => simp [exampleOrd]
  | cons a l ih =>
    simp only [exampleOrd, List.foldr_cons] at ih ⊢
    split
    · rename_i h
      refine ⟨ih.1, fun n => ?_⟩
      rw [ih.2, List.mem_cons]
      constructor
      · exact Or.inr
      · rintro (rfl | h')
        · exact (ih.2 n).1 (by simpa using h)
        · exact h'
    · rename_i h
      refine ⟨?_, fun n => by rw [List.mem_cons, List.mem_cons, ih.2]⟩
      rw [List.nodup_cons]
      exact ⟨by simpa using h, ih.1⟩

example : IterOrder exampleOrd ∧ WellFormed exampleState ∧
    (saveOutputs exampleOrd (fun _ => true) [⟨["loads", "gap"], true⟩, ⟨["surface_1_points"], false⟩] exampleState
      = .ok [[("time", .val 1), ("gap", .val 5), ("loads_x", .val 10), ("loads_y", .val 11), ("loads_z", .val 12)]]) :=
  ⟨exampleOrder, exampleState_wellFormed, by rfl⟩

/-- **C22**: the time is always in the record. -/
theorem C22_time_in_record (ord : List String → List String) (hord : IterOrder ord) (execOk : String → Bool)
    (outputs : List Output) (state : Dict (FVal V)) (w : WellFormed state) (r : Dict (FVal V))
    (h : saveOutputs ord execOk outputs state = .ok [r]) (t : FVal V) (ht : ("time", t) ∈ state) : ("time", t) ∈ r := by
  have hne : outputs ≠ [] := by
    rintro rfl
    simp [saveOutputs] at h
  obtain ⟨r', h1, h2, -⟩ := C22_one_record_with_everything_requested_partial ord hord execOk outputs hne state w
  rw [h1] at h
  simp only [Except.ok.injEq, List.cons.injEq, and_true] at h
  subst h
  refine (h2 "time" t ?_).2 (Or.inl (Or.inl ⟨Or.inl rfl, by decide, by decide, by decide⟩))
  refine .plain _ _ ht (by decide) (by decide) ?_
  unfold Derived
  rintro (⟨c, hc, -, hn⟩ | ⟨c, hc, -, hn⟩)
  · simp only [components, List.mem_cons, List.not_mem_nil, or_false] at hc
    rcases hc with rfl | rfl | rfl | rfl <;> revert hn <;> decide
  · simp only [coordinates, List.mem_cons, List.not_mem_nil, or_false] at hc
    rcases hc with rfl | rfl <;> revert hn <;> decide

example : ("time", FVal.val 1) ∈ exampleState := by decide

/-- **C22**: a step without output requests writes nothing. -/
theorem C22_no_requests_nothing_written (ord : List String → List String) (execOk : String → Bool) (state : Dict (FVal V)) :
    saveOutputs ord execOk [] state = .ok [] := rfl

/-- **C22, negation**: in every increment in which the step has requests but none is active, a record with the time alone is
written. -/
theorem C22_inactive_still_written (ord : List String → List String) (hord : IterOrder ord) (execOk : String → Bool)
    (outputs : List Output) (hne : outputs ≠ []) (hina : ∀ o ∈ outputs, o.active = false) (state : Dict (FVal V))
    (w : WellFormed state) : ∃ r, saveOutputs ord execOk outputs state = .ok [r] ∧ ∀ n v, (n, v) ∈ r → n = "time" := by
  obtain ⟨r, h1, h2, h3⟩ := C22_one_record_with_everything_requested_partial ord hord execOk outputs hne state w
  have hreq : ∀ n, Requested outputs n → n = "time" := by
    rintro n (h | ⟨o, ho, ha, -⟩)
    · exact h
    · rw [hina o ho] at ha; cases ha
  have hnamed : ∀ n, Named outputs n → n = "time" := by
    rintro n (h | ⟨c, hc, h, -⟩ | ⟨c, hc, h, -⟩)
    · exact hreq n h.1
    · rw [hreq c h] at hc; exact absurd hc (by decide)
    · rw [hreq c h] at hc; exact absurd hc (by decide)
  refine ⟨r, h1, ?_⟩
  intro n v hv
  rcases h3 n v hv with h | h
  · rcases (h2 n v h).1 hv with h' | h'
    · exact hnamed n h'
    · exact absurd (hreq _ h') (by decide)
  · exact hnamed n h.1

example : (saveOutputs exampleOrd (fun _ => true) [⟨["loads"], false⟩] exampleState
    = .ok [[("time", .val 1)]]) := by rfl

/-- **C22, negation**: when all surface attributes that are asked for can be found on the model (so nothing is "missing"), every
quantity that is asked for by name and that the state does not provide is saved as the string `surface_2_points`: surface
attributes never get their value, and misspelt names are saved instead of being reported. -/
theorem C22_missing_saved_as_string (ord : List String → List String) (hord : IterOrder ord) (execOk : String → Bool)
    (outputs : List Output) (hne : outputs ≠ []) (state : Dict (FVal V)) (w : WellFormed state)
    (hexec : ∀ n, Named outputs n → isSurfaceAttr n = true → execOk n = true)
    (n : String) (hn : Named outputs n) (hno : ¬ ∃ v, Provides state n v) :
    ∃ r, saveOutputs ord execOk outputs state = .ok [r] ∧ (n, .str "surface_2_points") ∈ r := by
  obtain ⟨r, h1, h2, h3⟩ := C22_one_record_with_everything_requested_partial ord hord execOk outputs hne state w
  refine ⟨r, h1, ?_⟩
  -- unfold the record again: the name is in the set of names and is not removed
  unfold saveOutputs at h1
  have hemp : outputs.isEmpty = false := by
    cases outputs with
    | nil => exact absurd rfl hne
    | cons => rfl
  obtain ⟨t, ht⟩ := w.time
  rw [hemp, Dict.get?_eq_some_of_mem w.distinct ht] at h1
  simp only [Bool.false_eq_true, if_false] at h1
  cases hst : expandParts (tripleNames V ++ pairNames V) (state, requestedNames outputs) with
  | error e => simp only [record, hst] at h1; cases h1
  | ok st =>
    have hexp := expanded_iff w hst
    have hpar := params_iff w outputs hst
    simp only [record, hst] at h1
    have hkeys : ∀ n, n ∈ Dict.keys st.1 ↔ ∃ v, Provides state n v := by
      intro n
      rw [Dict.mem_keys_iff]
      simp only [hexp]
    have hmiss : ∀ n, n ∈ (expandAll st).filter (fun n => !(Dict.keys st.1).contains n) ↔
        Named outputs n ∧ ¬ ∃ v, Provides state n v := by
      intro n
      simp only [List.mem_filter, hpar, Bool.not_eq_true', List.contains_eq_mem, decide_eq_false_iff_not, hkeys]
      constructor
      · rintro ⟨h1 | h1, h2⟩
        · exact ⟨h1, h2⟩
        · exact absurd h1.2 h2
      · rintro ⟨h1, h2⟩
        exact ⟨Or.inl h1, h2⟩
    generalize hM : (expandAll st).filter (fun n => !(Dict.keys st.1).contains n) = M at hmiss h1
    have hM' : n ∈ M := (hmiss n).2 ⟨hn, hno⟩
    have hgone := fillMissing_all execOk (ord M) st.1 M "surface_2_points"
      (fun k hk => hexec k ((hmiss k).1 (((hord M).2 k).1 hk)).1) n (((hord M).2 n).2 hM')
    obtain ⟨c1, c2, c3⟩ := fillMissing_spec execOk (some "surface_2_points") (ord M) st.1 M (Or.inr rfl)
      (fun n hn => ((hord M).2 n).1 hn) (by
        intro n hn
        cases hg : Dict.get? st.1 n with
        | none => rfl
        | some v => exact absurd ⟨v, (hexp n v).1 hg⟩ ((hmiss n).1 hn).2) (hord M).1
    generalize fillMissing execOk (some "surface_2_points") (ord M) st.1 M = R at c1 c2 c3 hgone h1
    cases hc : collect R.1 ((expandAll st).filter (fun n => !R.2.contains n)) with
    | error e => rw [hc] at h1; cases h1
    | ok r' =>
      rw [hc] at h1
      simp only [Except.ok.injEq, List.cons.injEq, and_true] at h1
      subst h1
      refine (collect_spec _ _ _ hc n _).2 ⟨?_, c3 n hM' hgone⟩
      simp only [List.mem_filter, Bool.not_eq_true', List.contains_eq_mem, decide_eq_false_iff_not]
      exact ⟨(hpar n).2 (Or.inl hn), hgone⟩

/-- Both a surface attribute and a misspelt name. -/
example : (saveOutputs exampleOrd (fun _ => true) [⟨["surface_1.profile", "presure"], true⟩] exampleState
    = .ok [[("time", .val 1), ("surface_1.profile", .str "surface_2_points"), ("presure", .str "surface_2_points")]]) := by rfl

/-- If the attribute cannot be found the name is left out (and a warning printed). -/
example : (saveOutputs exampleOrd (fun _ => false) [⟨["surface_1.profle"], true⟩] exampleState
    = .ok [[("time", .val 1)]]) := by rfl

end Verif.Steps
