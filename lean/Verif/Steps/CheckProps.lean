import Verif.Steps.Model

/-!
# C21: the step-level data check is sound for sub models
-/

namespace Verif.Steps

variable {V : Type}

theorem mem_unionSet (s t : List String) (n : String) : n ∈ unionSet s t ↔ n ∈ s ∨ n ∈ t := by
  unfold unionSet
  simp only [List.mem_append, List.mem_filter, Bool.not_eq_true', List.contains_eq_mem, decide_eq_false_iff_not]
  constructor
  · rintro (h | h)
    · exact Or.inl h
    · exact Or.inr h.1
  · rintro (h | h)
    · exact Or.inl h
    · by_cases hs : n ∈ s
      · exact Or.inl hs
      · exact Or.inr ⟨h, hs⟩

theorem lacks_iff (req state : List String) :
    req.any (fun n => !state.contains n) = false ↔ ∀ n ∈ req, n ∈ state := by
  simp [List.any_eq_false]

theorem mem_keys_update (d e : Dict V) (n : String) : n ∈ (Dict.update d e).keys ↔ n ∈ d.keys ∨ n ∈ e.keys := by
  unfold Dict.update
  induction e generalizing d with
  | nil => simp [Dict.keys]
  | cons a e ih =>
    rw [List.foldl_cons, ih, Dict.mem_keys_set, Dict.keys_cons, List.mem_cons]
    constructor
    · rintro ((h | h) | h)
      · exact Or.inr (Or.inl h)
      · exact Or.inl h
      · exact Or.inr (Or.inr h)
    · rintro (h | h | h)
      · exact Or.inl (Or.inr h)
      · exact Or.inl (Or.inl h)
      · exact Or.inr h

/-- The set after a check that does not raise. -/
theorem check_state (em : Bool) (subs : List (SubModel V)) (i : Nat) (state : List String)
    (h : (checkSubModels em subs i state).raised = false) (n : String) :
    n ∈ (checkSubModels em subs i state).state ↔ n ∈ state ∨ ∃ m ∈ subs, n ∈ m.provides := by
  induction subs generalizing i state with
  | nil => simp [checkSubModels]
  | cons m subs ih =>
    have key : (checkSubModels em subs (i + 1) (unionSet state m.provides)).raised = false →
        (n ∈ (checkSubModels em subs (i + 1) (unionSet state m.provides)).state ↔
          n ∈ state ∨ ∃ m' ∈ m :: subs, n ∈ m'.provides) := by
      intro h
      rw [ih _ _ h, mem_unionSet]
      simp [or_assoc]
    unfold checkSubModels at h ⊢
    split at h
    · rename_i hl
      cases em with
      | true => simp at h
      | false =>
        rw [if_pos hl]
        simp only [Bool.false_eq_true, if_false] at h ⊢
        exact key h
    · rename_i hl
      rw [if_neg hl]
      exact key h

/-- Main lemma of soundness. -/
theorem solve_of_no_problem (em es : Bool) (subs : List (SubModel V)) (i : Nat) (names : List String) (state : Dict V)
    (hc : (checkSubModels em subs i names).problems = [])
    (hs : ∀ n ∈ names, n ∈ state.keys)
    (hsub : ∀ m ∈ subs, ∀ d : Dict V, (∀ n ∈ m.requires, n ∈ d.keys) →
      ∃ r, m.solve d = .ok r ∧ ∀ n, n ∈ r.keys ↔ n ∈ m.provides) :
    ∃ s', solveLoop es subs state = .ok s' ∧ ∀ n, n ∈ s'.keys ↔ n ∈ state.keys ∨ ∃ m ∈ subs, n ∈ m.provides := by
  induction subs generalizing i names state with
  | nil => exact ⟨state, rfl, by simp⟩
  | cons m subs ih =>
    unfold checkSubModels at hc
    split at hc
    · cases em <;> simp at hc
    · rename_i hl
      have hreq := (lacks_iff m.requires names).1 (by simpa using hl)
      obtain ⟨r, hr, hrk⟩ := hsub m (by simp) state (fun n hn => hs n (hreq n hn))
      have hsame : sameSet m.provides r.keys = true := by
        simp only [sameSet, Bool.and_eq_true, List.all_eq_true, List.contains_eq_mem, decide_eq_true_eq]
        exact ⟨fun n hn => (hrk n).2 hn, fun n hn => (hrk n).1 hn⟩
      obtain ⟨s', h1, h2⟩ := ih (i + 1) (unionSet names m.provides) (state.update r) hc
        (by
          intro n hn
          rw [mem_keys_update]
          rcases (mem_unionSet _ _ _).1 hn with h | h
          · exact Or.inl (hs n h)
          · exact Or.inr ((hrk n).2 h))
        (fun m' hm' => hsub m' (List.mem_cons_of_mem _ hm'))
      refine ⟨s', ?_, ?_⟩
      · simp only [solveLoop, hr, hsame, Bool.not_true, Bool.false_and, Bool.false_eq_true, if_false]
        exact h1
      · intro n
        rw [h2, mem_keys_update, hrk]
        simp [or_assoc]

/-- **C21, soundness**: suppose the data check of a step reports no problem. Let each sub model work when it finds the quantities
it requires, and return what it declares. Then with any state that has at least the quantities the step provides, solving the
sub models succeeds under the default setting (`ERROR_IF_MISSING_MODEL = True`), whatever the setting for sub models; and the
quantities available afterwards are exactly those in the given state and those of the sub models. -/
theorem C21_checked_step_solves (em aliased es : Bool) (subs : List (SubModel V)) (provides : List String) (state : Dict V)
    (hc : (dataCheck em aliased subs provides).1.problems = [])
    (hs : ∀ n ∈ provides, ∃ v, (n, v) ∈ state)
    (hsub : ∀ m ∈ subs, ∀ d : Dict V, (∀ n ∈ m.requires, ∃ v, (n, v) ∈ d) →
      ∃ r, m.solve d = .ok r ∧ ∀ n, (∃ v, (n, v) ∈ r) ↔ n ∈ m.provides) :
    ∃ s', solveSubModels true es (dataCheck em aliased subs provides).2 subs state = .ok s' ∧
      ∀ n, (∃ v, (n, v) ∈ s') ↔ (∃ v, (n, v) ∈ state) ∨ ∃ m ∈ subs, n ∈ m.provides := by
  have hk : ∀ (d : Dict V) n, n ∈ d.keys ↔ ∃ v, (n, v) ∈ d := by
    intro d n; simp [Dict.keys, List.mem_map]
  obtain ⟨s', h1, h2⟩ := solve_of_no_problem em es subs 0 provides state hc (fun n hn => (hk _ _).2 (hs n hn))
    (by
      intro m hm d hd
      obtain ⟨r, h1, h2⟩ := hsub m hm d (fun n hn => (hk _ _).1 (hd n hn))
      exact ⟨r, h1, fun n => by rw [hk, h2]⟩)
  refine ⟨s', ?_, fun n => ?_⟩
  · simp [solveSubModels, h1]
  · rw [← hk, h2, hk]

/-- Two sub models, the second using the result of the first. -/
def exampleSubs : List (SubModel Nat) :=
  [⟨["loads"], ["force"], fun d => match d.get? "loads" with | some l => .ok [("force", l + 1)] | none => .error .keyError⟩,
   ⟨["force", "time"], ["slip", "stick"], fun d => match d.get? "force" with
      | some f => .ok [("slip", f), ("stick", 0)] | none => .error .keyError⟩]

example : (dataCheck true true exampleSubs ["loads", "time"]).1.problems = [] ∧
    (∀ m ∈ exampleSubs, ∀ d : Dict Nat, (∀ n ∈ m.requires, ∃ v, (n, v) ∈ d) →
      ∃ r, m.solve d = .ok r ∧ ∀ n, (∃ v, (n, v) ∈ r) ↔ n ∈ m.provides) := by
  refine ⟨by decide, ?_⟩
  intro m hm d hd
  simp only [exampleSubs, List.mem_cons, List.not_mem_nil, or_false] at hm
  have hk : ∀ n, (∃ v, (n, v) ∈ d) → ∃ v, Dict.get? d n = some v := by
    intro n hn
    exact (Dict.mem_keys_iff d n).1 (by simpa [Dict.keys, List.mem_map] using hn)
  rcases hm with rfl | rfl
  · obtain ⟨v, hv⟩ := hk "loads" (hd "loads" (by simp))
    refine ⟨[("force", v + 1)], by simp [hv], by simp⟩
  · obtain ⟨v, hv⟩ := hk "force" (hd "force" (by simp))
    refine ⟨[("slip", v), ("stick", 0)], by simp [hv], ?_⟩
    intro n
    simp only [List.mem_cons, Prod.mk.injEq, List.not_mem_nil, or_false]
    constructor
    · rintro ⟨_, h | h⟩
      · exact Or.inl h.1
      · exact Or.inr h.1
    · rintro (h | h)
      · exact ⟨v, Or.inl ⟨h, rfl⟩⟩
      · exact ⟨0, Or.inr ⟨h, rfl⟩⟩

/-- **C21, the reported quantities**: after a check that does not raise, the names reported as available are exactly those provided
by the step and its sub models. -/
theorem C21_reported_quantities (em aliased : Bool) (subs : List (SubModel V)) (provides : List String)
    (h : (dataCheck em aliased subs provides).1.raised = false) (n : String) :
    n ∈ (dataCheck em aliased subs provides).1.state ↔ n ∈ provides ∨ ∃ m ∈ subs, n ∈ m.provides :=
  check_state em subs 0 provides h n

example : (dataCheck true true exampleSubs ["loads", "time"]).1.raised = false ∧
    (dataCheck true true exampleSubs ["loads", "time"]).1.state = ["loads", "time", "force", "slip", "stick"] := by decide

/-- **C21, the problems are real**: the check reports a sub model exactly if some quantity it requires is provided neither by the
step nor by a sub model before it. (In error mode only the first such sub model is reported, so this is stated for warnings.) -/
theorem C21_problem_iff (aliased : Bool) (subs : List (SubModel V)) (provides : List String) (k : Nat) :
    k ∈ (dataCheck false aliased subs provides).1.problems ↔
      ∃ m, subs[k]? = some m ∧ ∃ q ∈ m.requires, q ∉ provides ∧ ∀ j m', j < k → subs[j]? = some m' → q ∉ m'.provides := by
  have gen : ∀ (subs : List (SubModel V)) (i : Nat) (names : List String),
      k ∈ (checkSubModels false subs i names).problems ↔
      ∃ l m, k = i + l ∧ subs[l]? = some m ∧ ∃ q ∈ m.requires, q ∉ names ∧
        ∀ j m', j < l → subs[j]? = some m' → q ∉ m'.provides := by
    intro subs
    induction subs with
    | nil => intro i names; simp [checkSubModels]
    | cons m subs ih =>
      intro i names
      have tail : k ∈ (checkSubModels false subs (i + 1) (unionSet names m.provides)).problems ↔
          ∃ l m', k = i + (l + 1) ∧ (m :: subs)[l + 1]? = some m' ∧ ∃ q ∈ m'.requires, q ∉ names ∧
            ∀ j m'', j < l + 1 → (m :: subs)[j]? = some m'' → q ∉ m''.provides := by
        rw [ih]
        constructor
        · rintro ⟨l, m', h1, h2, q, h3, h4, h5⟩
          rw [mem_unionSet, not_or] at h4
          refine ⟨l, m', by omega, by simpa using h2, q, h3, h4.1, ?_⟩
          intro j m'' hj hm
          cases j with
          | zero => simp at hm; subst hm; exact h4.2
          | succ j => exact h5 j m'' (by omega) (by simpa using hm)
        · rintro ⟨l, m', h1, h2, q, h3, h4, h5⟩
          refine ⟨l, m', by omega, by simpa using h2, q, h3, ?_, ?_⟩
          · rw [mem_unionSet, not_or]
            exact ⟨h4, h5 0 m (by omega) (by simp)⟩
          · intro j m'' hj hm
            exact h5 (j + 1) m'' (by omega) (by simpa using hm)
      have split : (∃ l m', k = i + l ∧ (m :: subs)[l]? = some m' ∧ ∃ q ∈ m'.requires, q ∉ names ∧
            ∀ j m'', j < l → (m :: subs)[j]? = some m'' → q ∉ m''.provides) ↔
          (k = i ∧ ∃ q ∈ m.requires, q ∉ names) ∨
          ∃ l m', k = i + (l + 1) ∧ (m :: subs)[l + 1]? = some m' ∧ ∃ q ∈ m'.requires, q ∉ names ∧
            ∀ j m'', j < l + 1 → (m :: subs)[j]? = some m'' → q ∉ m''.provides := by
        constructor
        · rintro ⟨l, m', h1, h2, q, h3, h4, h5⟩
          cases l with
          | zero =>
            simp at h2; subst h2
            exact Or.inl ⟨by omega, q, h3, h4⟩
          | succ l => exact Or.inr ⟨l, m', h1, h2, q, h3, h4, h5⟩
        · rintro (⟨h1, q, h3, h4⟩ | ⟨l, m', h⟩)
          · exact ⟨0, m, by omega, by simp, q, h3, h4, by omega⟩
          · exact ⟨l + 1, m', h⟩
      rw [split, ← tail]
      rw [checkSubModels]
      by_cases hl : m.requires.any (fun n => !names.contains n) = true
      · rw [if_pos hl]
        have : ∃ q ∈ m.requires, q ∉ names := by simpa using hl
        simp [this]
      · rw [if_neg hl]
        have : ¬ ∃ q ∈ m.requires, q ∉ names := by simpa using hl
        simp [this]
  rw [show (dataCheck false aliased subs provides).1 = checkSubModels false subs 0 provides from rfl, gen]
  constructor
  · rintro ⟨l, m, h1, h2, h3⟩
    have : k = l := by omega
    subst this
    exact ⟨m, h2, h3⟩
  · rintro ⟨m, h2, h3⟩
    exact ⟨k, m, by omega, h2, h3⟩

example : (dataCheck false true exampleSubs.reverse ["loads", "time"]).1.problems = [0] := by decide

/-- Checking again with the names found so far. -/
theorem check_again (subs : List (SubModel V)) (i : Nat) (s s' : List String) (h1 : ∀ n ∈ s, n ∈ s')
    (h2 : ∀ n ∈ s', n ∈ (checkSubModels true subs i s).state) :
    (checkSubModels true subs i s').problems = (checkSubModels true subs i s).problems ∧
    (checkSubModels true subs i s').raised = (checkSubModels true subs i s).raised ∧
    ∀ n, n ∈ (checkSubModels true subs i s').state ↔ n ∈ (checkSubModels true subs i s).state := by
  induction subs generalizing i s s' with
  | nil =>
    simp only [checkSubModels] at h2 ⊢
    exact ⟨trivial, trivial, fun n => ⟨h2 n, h1 n⟩⟩
  | cons m subs ih =>
    unfold checkSubModels at h2 ⊢
    by_cases hl : m.requires.any (fun n => !s.contains n) = true
    · simp only [if_pos hl, if_true] at h2 ⊢
      have hl' : m.requires.any (fun n => !s'.contains n) = true := by
        rw [List.any_eq_true] at hl ⊢
        obtain ⟨q, hq, hq'⟩ := hl
        refine ⟨q, hq, ?_⟩
        simp only [List.contains_eq_mem, Bool.not_eq_true', decide_eq_false_iff_not] at hq' ⊢
        exact fun h => hq' (h2 q h)
      simp only [if_pos hl']
      exact ⟨trivial, trivial, fun n => ⟨h2 n, h1 n⟩⟩
    · simp only [if_neg hl] at h2 ⊢
      have hreq := (lacks_iff m.requires s).1 (by simpa using hl)
      have hl' : ¬ m.requires.any (fun n => !s'.contains n) = true := by
        rw [Bool.not_eq_true, lacks_iff]
        exact fun n hn => h1 n (hreq n hn)
      simp only [if_neg hl']
      apply ih
      · intro n hn
        rw [mem_unionSet] at hn ⊢
        exact hn.imp_left (h1 n)
      · intro n hn
        rw [mem_unionSet] at hn
        rcases hn with h | h
        · exact h2 n h
        · have hle : ∀ (subs : List (SubModel V)) (i : Nat) (s : List String), ∀ n ∈ s, n ∈ (checkSubModels true subs i s).state := by
            intro subs
            induction subs with
            | nil => intro i s n hn; exact hn
            | cons m subs ih =>
              intro i s n hn
              unfold checkSubModels
              split
              · exact hn
              · exact ih _ _ n ((mem_unionSet _ _ _).2 (Or.inl hn))
          exact hle _ _ _ n ((mem_unionSet _ _ _).2 (Or.inr h))

/-- **C21, repeated checks, partial**: in error mode (the default) any number of checks of the same step give the same verdict and,
up to order, the same available names, although the first check changes the step's `provides`.
Missing: warnings instead of errors, where it is false (`C21_second_check_differs`). -/
theorem C21_repeated_checks_partial (aliased : Bool) (subs : List (SubModel V)) (provides : List String) (n : Nat) :
    (dataChecks true aliased subs n provides).length = n ∧
    ∀ r ∈ dataChecks true aliased subs n provides,
      r.problems = (dataCheck true aliased subs provides).1.problems ∧
      r.raised = (dataCheck true aliased subs provides).1.raised ∧
      ∀ q, q ∈ r.state ↔ q ∈ (dataCheck true aliased subs provides).1.state := by
  have gen : ∀ (n : Nat) (s : List String), (∀ q ∈ provides, q ∈ s) →
      (∀ q ∈ s, q ∈ (dataCheck true aliased subs provides).1.state) →
      (dataChecks true aliased subs n s).length = n ∧
      ∀ r ∈ dataChecks true aliased subs n s,
        r.problems = (dataCheck true aliased subs provides).1.problems ∧
        r.raised = (dataCheck true aliased subs provides).1.raised ∧
        ∀ q, q ∈ r.state ↔ q ∈ (dataCheck true aliased subs provides).1.state := by
    intro n
    induction n with
    | zero => intro s _ _; simp [dataChecks]
    | succ n ih =>
      intro s h1 h2
      have h := check_again subs 0 provides s h1 h2
      have hle := ih (dataCheck true aliased subs s).2 (by
          intro q hq
          cases aliased with
          | false => exact h1 q hq
          | true =>
            refine (h.2.2 q).2 ?_
            have := check_again subs 0 provides provides (fun _ h => h)
            exact h2 q (h1 q hq)) (by
          intro q hq
          cases aliased with
          | false => exact h2 q hq
          | true => exact (h.2.2 q).1 hq)
      refine ⟨by simp [dataChecks, hle.1], ?_⟩
      intro r hr
      simp only [dataChecks, List.mem_cons] at hr
      rcases hr with rfl | hr
      · exact h
      · exact hle.2 r hr
  have hle : ∀ (subs : List (SubModel V)) (i : Nat) (s : List String), ∀ n ∈ s, n ∈ (checkSubModels true subs i s).state := by
    intro subs
    induction subs with
    | nil => intro i s n hn; exact hn
    | cons m subs ih =>
      intro i s n hn
      unfold checkSubModels
      split
      · exact hn
      · exact ih _ _ n ((mem_unionSet _ _ _).2 (Or.inl hn))
  exact gen n provides (fun _ h => h) (hle subs 0 provides)

example : (dataChecks true true exampleSubs.reverse 3 ["loads", "time"]).map Checked.problems = [[0], [0], [0]] := by decide

/-- **C21, negation**: with warnings instead of errors the second check of the same step can miss a problem that the first one
reported, because the first check has added the results of later sub models to the step's `provides`. -/
theorem C21_second_check_differs :
    (dataChecks false true exampleSubs.reverse 2 ["loads", "time"]).map Checked.problems = [[0], []] := by decide

/-- … and the problem is real: the step cannot be solved. -/
theorem C21_second_check_unsound : ∃ (subs : List (SubModel Nat)) (provides : List String) (state : Dict Nat) (second : Checked),
    (dataChecks false true subs 2 provides)[1]? = some second ∧ second.problems = [] ∧ state.keys = provides ∧
    solveSubModels true true provides subs state = .error .keyError :=
  ⟨exampleSubs.reverse, ["loads", "time"], [("loads", 1), ("time", 2)], _, rfl, by decide, by decide, by rfl⟩

/-- The settings `ERROR_IF_MISSING_MODEL` and `ERROR_IF_MISSING_SUB_MODEL` work the wrong way round: with their default `True` a
step whose state lacks declared quantities, or a sub model that does not return what it declares, is never reported, … -/
theorem C21_default_settings_never_report (provides : List String) (subs : List (SubModel V)) (state : Dict V)
    (hsub : ∀ m ∈ subs, ∀ d, ∃ r, m.solve d = .ok r) : ∃ s', solveSubModels true true provides subs state = .ok s' := by
  have : ∀ (subs : List (SubModel V)) (state : Dict V), (∀ m ∈ subs, ∀ d, ∃ r, m.solve d = .ok r) →
      ∃ s', solveLoop true subs state = .ok s' := by
    intro subs
    induction subs with
    | nil => intro state _; exact ⟨state, rfl⟩
    | cons m subs ih =>
      intro state h
      obtain ⟨r, hr⟩ := h m (by simp) state
      simp only [solveLoop, hr, Bool.not_true, Bool.and_false, Bool.false_eq_true, if_false]
      exact ih _ (fun m' hm' => h m' (List.mem_cons_of_mem _ hm'))
  simp only [solveSubModels, Bool.not_true, Bool.and_false, Bool.false_eq_true, if_false]
  exact this subs state hsub

example : ∀ m ∈ [(⟨["x"], ["y"], fun _ => .ok []⟩ : SubModel Nat)], ∀ d, ∃ r, m.solve d = .ok r := by simp

/-- … and with `False`, which according to the message suppresses the error, a step that does provide exactly what it declares
raises once its data check has been run, as soon as a sub model adds a new quantity. -/
theorem C21_suppressed_settings_report (es : Bool) (subs : List (SubModel V)) (provides : List String) (state : Dict V)
    (hc : (dataCheck true true subs provides).1.raised = false) (hk : ∀ n, n ∈ state.keys ↔ n ∈ provides)
    (q : String) (hq : q ∉ provides) (m : SubModel V) (hm : m ∈ subs) (hqm : q ∈ m.provides) :
    solveSubModels false es (dataCheck true true subs provides).2 subs state = .error .valueError := by
  have hmem : q ∈ (dataCheck true true subs provides).2 :=
    (check_state true subs 0 provides hc q).2 (Or.inr ⟨m, hm, hqm⟩)
  have : sameSet (dataCheck true true subs provides).2 state.keys = false := by
    rw [Bool.eq_false_iff]
    intro h
    simp only [sameSet, Bool.and_eq_true, List.all_eq_true, List.contains_eq_mem, decide_eq_true_eq] at h
    exact hq ((hk q).1 (h.1 q hmem))
  simp [solveSubModels, this]

example : (dataCheck true true exampleSubs ["loads", "time"]).1.raised = false ∧ "force" ∉ ["loads", "time"] := by decide

end Verif.Steps
