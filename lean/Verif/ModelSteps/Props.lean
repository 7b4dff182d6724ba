import Verif.ModelSteps.Model

/-!
# C23: model steps run in the order given, in a single pass
-/

namespace Verif.ModelSteps

variable {S : Type}

/-- The result of a call that did not raise. -/
def Added (m : Model S) (s : Step S) (pos : Pos) (m' : Model S) : Prop := addStep m s pos = (m', none)

theorem foldl_set_of_nodup {V : Type} (items : List (String × V)) (d : Dict V)
    (h : (d.map Prod.fst ++ items.map Prod.fst).Nodup) : items.foldl (fun d kv => Dict.set d kv.1 kv.2) d = d ++ items := by
  induction items generalizing d with
  | nil => simp
  | cons a items ih =>
    have hset : ∀ (d : Dict V), a.1 ∉ d.map Prod.fst → Dict.set d a.1 a.2 = d ++ [a] := by
      intro d
      induction d with
      | nil => intro _; rfl
      | cons b d ih =>
        intro hb
        simp only [List.map_cons, List.mem_cons, not_or] at hb
        rw [Dict.set, if_neg (fun e => hb.1 e.symm), ih hb.2]
        rfl
    have ha : a.1 ∉ d.map Prod.fst := by
      intro hm
      rw [List.map_cons, List.nodup_append] at h
      exact h.2.2 _ hm _ (by simp) rfl
    rw [List.foldl_cons, hset d ha, ih]
    · simp
    · simpa using h

theorem ofItems_of_nodup {V : Type} (items : List (String × V)) (h : (items.map Prod.fst).Nodup) : ofItems items = items := by
  unfold ofItems
  rw [foldl_set_of_nodup items [] (by simpa using h)]
  simp

theorem zip_pyInsert {V : Type} (d : Dict V) (i : Int) (k : String) (v : V) :
    (pyInsert (Dict.keys d) i k).zip (pyInsert (d.map Prod.snd) i v) = pyInsert d i (k, v) := by
  have hz : ∀ d : Dict V, (Dict.keys d).zip (d.map Prod.snd) = d := by
    intro d
    induction d with
    | nil => rfl
    | cons a d ih => simp only [Dict.keys, List.map_cons, List.zip_cons_cons] at ih ⊢; rw [ih]
  have hl1 : (Dict.keys d).length = d.length := by simp [Dict.keys]
  have hl2 : (d.map Prod.snd).length = d.length := by simp
  unfold pyInsert
  rw [hl1, hl2]
  simp only
  generalize (if (if i < 0 then i + (d.length : Int) else i) < 0 then 0 else
    if d.length < (if i < 0 then i + (d.length : Int) else i).toNat then d.length else (if i < 0 then i + (d.length : Int) else i).toNat) = k'
  rw [List.zip_append (by simp [Dict.keys]), List.zip_cons_cons]
  have h1 := hz (d.take k')
  have h2 := hz (d.drop k')
  simp only [Dict.keys, List.map_take, List.map_drop] at h1 h2 ⊢
  rw [h1, h2]

theorem nodup_insert {α : Type} (l : List α) (k : Nat) (x : α) (h : l.Nodup) (hx : x ∉ l) : (l.take k ++ x :: l.drop k).Nodup := by
  have h' : (l.take k ++ l.drop k).Nodup := by rw [List.take_append_drop]; exact h
  rw [List.nodup_append] at h' ⊢
  refine ⟨h'.1, ?_, ?_⟩
  · rw [List.nodup_cons]
    exact ⟨fun hm => hx (List.mem_of_mem_drop hm), h'.2.1⟩
  · intro a ha b hb
    rcases List.mem_cons.1 hb with rfl | hb
    · rintro rfl; exact hx (List.mem_of_mem_take ha)
    · exact h'.2.2 a ha b hb

/-- Inserting a new name by position. -/
theorem insert_new {V : Type} (d : Dict V) (hd : (d.map Prod.fst).Nodup) (i : Int) (k : String) (v : V) (hk : k ∉ d.map Prod.fst) :
    ofItems ((pyInsert (Dict.keys d) i k).zip (pyInsert (d.map Prod.snd) i v)) = pyInsert d i (k, v) := by
  rw [zip_pyInsert]
  apply ofItems_of_nodup
  unfold pyInsert
  simp only [List.map_append, List.map_cons, List.map_take, List.map_drop]
  exact nodup_insert _ _ _ hd hk

/-- Where a new step should go among the present ones: `Placed pos before after` splits them at the place. -/
def Placed : Pos → List (String × Step S) → List (String × Step S) → Prop
  | .none, _, after => after = []
  | .int i, before, after => if 0 ≤ i then before.length = min i.toNat (before.length + after.length)
      else (before.length : Int) = max 0 (before.length + after.length + i)
  | .str p, _, after => ∃ t rest, after = (p, t) :: rest

/-- **C23, order**: a step with a new name goes to the end if no position is given; to index `i` if `0 ≤ i` is given (to the end
if there are fewer steps), to index `i` from the end for negative `i` (to the front if there are fewer steps); and immediately before
the named step if a name is given. The other steps are neither changed nor reordered.
Missing: names that are already used, for which the property is false (`C23_collision_drops_new_step`). -/
theorem C23_new_step_placed_partial (m m' : Model S) (hd : (m.steps.map Prod.fst).Nodup) (s : Step S) (pos : Pos)
    (hnew : ∀ t, (s.name, t) ∉ m.steps) (h : Added m s pos m') :
    ∃ before after, m.steps = before ++ after ∧ m'.steps = before ++ (s.name, s) :: after ∧ Placed pos before after := by
  have hk : s.name ∉ m.steps.map Prod.fst := by
    intro hm
    obtain ⟨⟨k, t⟩, ht, he⟩ := List.mem_map.1 hm
    simp only at he
    subst he
    exact hnew t ht
  unfold Added addStep at h
  by_cases ho : m.owned.contains s.ident = true
  · rw [if_pos ho] at h; simp at h
  rw [if_neg ho] at h
  cases pos with
  | none =>
    simp only [Prod.mk.injEq, and_true] at h
    subst h
    refine ⟨m.steps, [], by simp, ?_, rfl⟩
    have := foldl_set_of_nodup [(s.name, s)] m.steps (by
      simp only [List.map_cons, List.map_nil]
      rw [List.nodup_append]
      refine ⟨hd, by simp, ?_⟩
      intro a ha b hb
      simp only [List.mem_singleton] at hb
      subst hb
      rintro rfl; exact hk ha)
    simpa using this
  | int i =>
    simp only [Prod.mk.injEq, and_true] at h
    subst h
    rw [insert_new _ hd _ _ _ hk]
    unfold pyInsert
    simp only
    generalize hkk : (if (if i < 0 then i + (m.steps.length : Int) else i) < 0 then 0 else
      if m.steps.length < (if i < 0 then i + (m.steps.length : Int) else i).toNat then m.steps.length
      else (if i < 0 then i + (m.steps.length : Int) else i).toNat) = k
    refine ⟨m.steps.take k, m.steps.drop k, by simp, rfl, ?_⟩
    simp only [Placed, List.length_take, List.length_drop]
    split <;> (repeat' split at hkk) <;> omega
  | str p =>
    simp only at h
    unfold indexOf at h
    cases hf : (Dict.keys m.steps).findIdx? (fun k => k == p) with
    | none => simp [hf] at h
    | some i =>
      simp only [hf, Prod.mk.injEq, and_true] at h
      subst h
      rw [insert_new _ hd _ _ _ hk]
      obtain ⟨hi, hip, -⟩ := List.findIdx?_eq_some_iff_getElem.1 hf
      have hi' : i < m.steps.length := by simpa [Dict.keys] using hi
      have hkk : pyInsert m.steps (i : Int) (s.name, s) = m.steps.take i ++ (s.name, s) :: m.steps.drop i := by
        unfold pyInsert
        have h1 : ¬ ((i : Int) < 0) := by omega
        have h2 : ¬ (m.steps.length < i) := by omega
        simp [h1, h2]
      rw [hkk]
      refine ⟨m.steps.take i, m.steps.drop i, by simp, rfl, ?_⟩
      refine ⟨m.steps[i].2, m.steps.drop (i + 1), ?_⟩
      rw [List.drop_eq_getElem_cons hi']
      have : m.steps[i].1 = p := by
        have : (Dict.keys m.steps)[i] = m.steps[i].1 := by simp [Dict.keys]
        rw [← this]
        simpa using hip
      rw [← this]

/-- A model with the initial step and two more. -/
def exampleModel : Model Nat :=
  { steps := [("Initial", ⟨0, "initial", .initial, false⟩), ("load", ⟨1, "load", .step (fun s => .ok (s.getD 0 + 1)), true⟩),
      ("slide", ⟨2, "slide", .step (fun s => .ok (s.getD 0 * 10)), false⟩)], owned := [1, 2] }

def exampleStep : Step Nat := ⟨3, "hold", .step (fun s => .ok (s.getD 0 + 5)), false⟩

example : (exampleModel.steps.map Prod.fst).Nodup ∧ (∀ t, (exampleStep.name, t) ∉ exampleModel.steps) ∧
    (∃ m', Added exampleModel exampleStep (.str "slide") m' ∧ m'.steps.map Prod.fst = ["Initial", "load", "hold", "slide"]) ∧
    (∃ m', Added exampleModel exampleStep (.int (-2)) m' ∧ m'.steps.map Prod.fst = ["Initial", "hold", "load", "slide"]) ∧
    (∃ m', Added exampleModel exampleStep .none m' ∧ m'.steps.map Prod.fst = ["Initial", "load", "slide", "hold"]) := by
  refine ⟨by decide, ?_, ⟨_, rfl, by rfl⟩, ⟨_, rfl, by rfl⟩, ⟨_, rfl, by rfl⟩⟩
  intro t; simp [exampleStep, exampleModel]

theorem nodup_foldl_set {V : Type} (items : List (String × V)) (d : Dict V) (h : (d.map Prod.fst).Nodup) :
    ((items.foldl (fun d kv => Dict.set d kv.1 kv.2) d).map Prod.fst).Nodup := by
  induction items generalizing d with
  | nil => exact h
  | cons a items ih => exact ih _ (Dict.nodup_set d a.1 a.2 h)

/-- One call keeps the names distinct. -/
theorem nodup_addStep (m : Model S) (s : Step S) (pos : Pos) (h : (m.steps.map Prod.fst).Nodup) :
    ((addStep m s pos).1.steps.map Prod.fst).Nodup := by
  unfold addStep
  split
  · exact h
  · cases pos with
    | none => exact Dict.nodup_set _ _ _ h
    | int i => exact nodup_foldl_set _ [] (by simp)
    | str p =>
      simp only
      split
      · exact h
      · exact nodup_foldl_set _ [] (by simp)

/-- A sequence of `add_step` calls, whether they raise or not. -/
def addSteps (m : Model S) (calls : List (Step S × Pos)) : Model S := calls.foldl (fun m c => (addStep m c.1 c.2).1) m

/-- **C23, unique names**: after any sequence of `add_step` calls the names of the steps are distinct. -/
theorem C23_names_unique (ident : Nat) (calls : List (Step S × Pos)) :
    ((addSteps (Model.init ident) calls).steps.map Prod.fst).Nodup := by
  unfold addSteps
  have : ∀ (calls : List (Step S × Pos)) (m : Model S), (m.steps.map Prod.fst).Nodup →
      ((calls.foldl (fun m c => (addStep m c.1 c.2).1) m).steps.map Prod.fst).Nodup := by
    intro calls
    induction calls with
    | nil => intro m h; exact h
    | cons c calls ih => intro m h; exact ih _ (nodup_addStep m c.1 c.2 h)
  exact this calls _ (by simp [Model.init])

/-- **C23**: adding steps at the end only, as in all examples of the package, gives the initial step followed by the steps in the
order of the calls. -/
theorem C23_appended_in_call_order (ident : Nat) (l : List (Step S)) (hn : (l.map Step.name).Nodup) (hi : ∀ s ∈ l, s.name ≠ "Initial")
    (hid : (l.map Step.ident).Nodup) :
    (addSteps (Model.init ident) (l.map (fun s => (s, Pos.none)))).steps.map (fun kv => (kv.1, kv.2.ident)) =
      ("Initial", ident) :: l.map (fun s => (s.name, s.ident)) := by
  have gen : ∀ (l : List (Step S)) (m : Model S), (m.steps.map Prod.fst ++ l.map Step.name).Nodup →
      (l.map Step.ident).Nodup → (∀ s ∈ l, s.ident ∉ m.owned) →
      (addSteps m (l.map (fun s => (s, Pos.none)))).steps = m.steps ++ l.map (fun s => (s.name, s)) := by
    intro l
    induction l with
    | nil => intro m _ _ _; simp [addSteps]
    | cons s l ih =>
      intro m hn hid ho
      have hno : m.owned.contains s.ident = false := by simpa using ho s (by simp)
      have hset : Dict.set m.steps s.name s = m.steps ++ [(s.name, s)] := by
        have := foldl_set_of_nodup [(s.name, s)] m.steps (by
          simp only [List.map_cons, List.map_nil]
          refine List.Nodup.sublist ?_ hn
          simp)
        simpa using this
      have hstep : (addStep m s Pos.none).1 = { steps := m.steps ++ [(s.name, s)], owned := s.ident :: m.owned } := by
        unfold addStep
        simp only [hno, Bool.false_eq_true, if_false]
        rw [hset]
      simp only [List.map_cons, List.nodup_cons] at hid
      show (addSteps (addStep m s Pos.none).1 _).steps = _
      rw [hstep, ih]
      · simp
      · simpa using hn
      · exact hid.2
      · intro t ht
        simp only [List.mem_cons, not_or]
        refine ⟨?_, ho t (List.mem_cons_of_mem _ ht)⟩
        intro e
        exact hid.1 (e ▸ List.mem_map.2 ⟨t, ht, rfl⟩)
  rw [gen l (Model.init ident) ?_ hid (by simp [Model.init])]
  · simp [Model.init, Function.comp_def]
  · simp only [Model.init, List.map_cons, List.map_nil, List.cons_append, List.nil_append, List.nodup_cons]
    refine ⟨?_, hn⟩
    intro hm
    obtain ⟨t, ht, he⟩ := List.mem_map.1 hm
    exact hi t ht he

example : ([exampleStep, ⟨4, "b", .initial, true⟩].map Step.name).Nodup ∧ ([exampleStep, ⟨4, "b", .initial, true⟩].map Step.ident).Nodup ∧
    ∀ s ∈ [exampleStep, ⟨4, "b", .initial, true⟩], s.name ≠ "Initial" := by
  refine ⟨by decide, by decide, ?_⟩
  intro s hs
  simp only [List.mem_cons, List.not_mem_nil, or_false] at hs
  rcases hs with rfl | rfl <;> decide

/-- What a single pass means: `Pass s0 steps before results after`: the steps are solved in the order of the list, each once, each with
the result of the one before; `results` are the results in that order. -/
inductive Pass (s0 : S) : List (String × Step S) → Option S → List (String × S) → Option S → Prop
  | done (st : Option S) : Pass s0 [] st [] st
  | initial (k : String) (s : Step S) (rest results last) : s.kind = .initial → Pass s0 rest (some s0) results last →
      Pass s0 ((k, s) :: rest) none ((k, s0) :: results) last
  | step (k : String) (s : Step S) (f st st' rest results last) : s.kind = .step f → f st = .ok st' →
      Pass s0 rest (some st') results last → Pass s0 ((k, s) :: rest) st ((k, st') :: results) last

/-- **C23, single pass**: when a model is solved without exception, the steps are solved in the order of the dictionary, each exactly
once, the first without a state and each later one with the state returned by the one before; the last state is returned. -/
theorem C23_single_pass (s0 : S) (m : Model S) (last : Option S) (log : List (String × S)) (h : solve s0 m = .ok (last, log)) :
    Pass s0 m.steps none log last ∧ log.map Prod.fst = m.steps.map Prod.fst ∧ last = (log.map Prod.snd).getLast? := by
  have gen : ∀ (steps : List (String × Step S)) (st : Option S) (acc : List (String × S)) (last : Option S) (log : List (String × S)),
      solveLoop s0 steps st acc = .ok (last, log) → ∃ results, log = results.reverse ++ acc ∧ Pass s0 steps st results last ∧
        results.map Prod.fst = steps.map Prod.fst ∧ last = ((results.map Prod.snd).getLast?.or st) := by
    intro steps
    induction steps with
    | nil =>
      intro st acc last log h
      simp only [solveLoop, Except.ok.injEq, Prod.mk.injEq] at h
      obtain ⟨rfl, rfl⟩ := h
      exact ⟨[], by simp, .done _, rfl, by simp⟩
    | cons a steps ih =>
      obtain ⟨k, s⟩ := a
      intro st acc last log h
      simp only [solveLoop] at h
      split at h
      · cases h
      · cases hs : s.solve s0 st with
        | error e => rw [hs] at h; cases h
        | ok st' =>
          rw [hs] at h
          obtain ⟨results, h1, h2, h3, h4⟩ := ih _ _ _ _ h
          refine ⟨(k, st') :: results, by simp [h1], ?_, by simp [h3], ?_⟩
          · unfold Step.solve at hs
            cases hk : s.kind with
            | initial =>
              rw [hk] at hs
              cases st with
              | some x => cases hs
              | none =>
                simp only [Except.ok.injEq] at hs
                subst hs
                exact .initial k s _ _ _ hk h2
            | step f =>
              rw [hk] at hs
              exact .step k s f st st' _ _ _ hk hs h2
          · rw [h4, List.map_cons]
            cases hr : results.map Prod.snd with
            | nil => simp
            | cons x xs => rw [List.getLast?_cons_cons, List.getLast?_eq_some_getLast (l := x :: xs) (by simp)]; simp
  unfold solve at h
  cases hl : solveLoop s0 m.steps none [] with
  | error e => rw [hl] at h; cases h
  | ok r =>
    obtain ⟨st, l⟩ := r
    rw [hl] at h
    simp only [Except.ok.injEq, Prod.mk.injEq] at h
    obtain ⟨results, h1, h2, h3, h4⟩ := gen _ _ _ _ _ hl
    obtain ⟨rfl, rfl⟩ := h
    rw [h1]
    simp only [List.append_nil, List.reverse_reverse]
    exact ⟨h2, h3, by simpa using h4⟩

example : solve 3 exampleModel = .ok (some 40, [("Initial", 3), ("load", 4), ("slide", 40)]) := rfl

/-- **C23, negation**: a step added with a position under a name that is already used by a later step is lost without a message: the
old step is moved to the new position instead. -/
theorem C23_collision_drops_new_step : ∃ (m m' : Model Nat) (s : Step Nat), Added m s (.int 1) m' ∧
    m.steps.map (fun kv => (kv.1, kv.2.ident)) = [("Initial", 0), ("a", 1), ("b", 2)] ∧ s.name = "b" ∧ s.ident = 3 ∧
    m'.steps.map (fun kv => (kv.1, kv.2.ident)) = [("Initial", 0), ("b", 2), ("a", 1)] :=
  ⟨{ steps := [("Initial", ⟨0, "initial", .initial, false⟩), ("a", ⟨1, "a", .initial, false⟩), ("b", ⟨2, "b", .initial, false⟩)], owned := [1, 2] },
    _, ⟨3, "b", .initial, false⟩, rfl, rfl, rfl, rfl, rfl⟩

/-- Without a position a step with a used name takes the place of the old one. -/
theorem C23_same_name_replaces (m m' : Model S) (hd : (m.steps.map Prod.fst).Nodup) (s t : Step S) (before after : List (String × Step S))
    (hm : m.steps = before ++ (s.name, t) :: after) (h : Added m s .none m') : m'.steps = before ++ (s.name, s) :: after := by
  unfold Added addStep at h
  by_cases ho : m.owned.contains s.ident = true
  · rw [if_pos ho] at h; simp at h
  rw [if_neg ho] at h
  simp only [Prod.mk.injEq, and_true] at h
  subst h
  simp only
  rw [hm] at hd ⊢
  clear hm ho
  induction before with
  | nil => simp [Dict.set]
  | cons a before ih =>
    simp only [List.cons_append, List.map_cons, List.nodup_cons] at hd
    have h1 : ¬ a.1 = s.name := by
      intro e
      exact hd.1 (by simp [e])
    rw [List.cons_append, Dict.set, if_neg h1, ih hd.2]
    rfl

example : ∃ (t : Step Nat) (m' : Model Nat), exampleModel.steps = [("Initial", ⟨0, "initial", .initial, false⟩)] ++ ("load", t) :: exampleModel.steps.drop 2 ∧
    Added exampleModel ⟨7, "load", .initial, false⟩ .none m' := ⟨_, _, rfl, rfl⟩

/-- **C23, negation**: a call of `add_step` that fails because the named step does not exist makes the step unusable: it cannot be added
afterwards at any position, because it already belongs to the model. -/
theorem C23_failed_add_locks_step (m : Model S) (s : Step S) (p : String) (hs : s.ident ∉ m.owned) (hp : p ∉ m.steps.map Prod.fst) :
    (addStep m s (.str p)).2 = some .valueError ∧ (addStep m s (.str p)).1.steps = m.steps ∧
    ∀ pos, addStep (addStep m s (.str p)).1 s pos = ((addStep m s (.str p)).1, some .valueError) := by
  have hf : (Dict.keys m.steps).findIdx? (fun k => k == p) = none := by
    rw [List.findIdx?_eq_none_iff]
    intro x hx
    have : x ≠ p := by rintro rfl; exact hp hx
    simpa using this
  have : addStep m s (.str p) = ({ m with owned := s.ident :: m.owned }, some .valueError) := by
    have hi : indexOf (Dict.keys m.steps) p = .error .valueError := by unfold indexOf; rw [hf]
    unfold addStep
    simp [hs, hi]
  rw [this]
  refine ⟨rfl, rfl, fun pos => ?_⟩
  unfold addStep
  simp

example : exampleStep.ident ∉ exampleModel.owned ∧ "holdd" ∉ exampleModel.steps.map Prod.fst := by decide

/-- **C23, negation**: with position 0 (or before `Initial`) a step can be put before the initial step; the data check of the order does
not notice it, because the check of a step returns nothing, and solving always fails. -/
theorem C23_before_initial_fails (s0 : S) (m m' : Model S) (hd : (m.steps.map Prod.fst).Nodup) (t s : Step S) (rest : List (String × Step S))
    (hm : m.steps = ("Initial", t) :: rest) (hk : t.kind = .initial) (f : Option S → Except PyErr S) (hf : s.kind = .step f)
    (hrest : ∀ kv ∈ rest, ∃ f, kv.2.kind = .step f)
    (hnew : ∀ t, (s.name, t) ∉ m.steps) (h : Added m s (.int 0) m') :
    checkOrder m'.steps none = false ∧ ¬ ∃ r, solve s0 m' = .ok r := by
  obtain ⟨before, after, h1, h2, h3⟩ := C23_new_step_placed_partial m m' hd s (.int 0) hnew h
  simp only [Placed, Int.le_refl, if_true, Int.toNat_zero, Nat.zero_min, List.length_eq_zero_iff] at h3
  subst h3
  simp only [List.nil_append] at h1 h2
  rw [← h1, hm] at h2
  rw [h2]
  constructor
  · have hr : ∀ (rest : List (String × Step S)) (o : Option (List String)), (∀ kv ∈ rest, ∃ f, kv.2.kind = .step f) → checkOrder rest o = false := by
      intro rest
      induction rest with
      | nil => intro o _; rfl
      | cons a rest ih =>
        intro o hr
        obtain ⟨f, hf⟩ := hr a (by simp)
        simp only [checkOrder, hf]
        exact ih _ (fun kv hkv => hr kv (List.mem_cons_of_mem _ hkv))
    simp only [checkOrder, hf, hk, Option.isSome_none, Bool.false_or]
    exact hr rest _ hrest
  · rintro ⟨r, hr⟩
    unfold solve at hr
    rw [h2] at hr
    cases hfs : f none with
    | error e =>
      cases ho : s.outputs <;> simp [solveLoop, Step.solve, hf, hfs, ho] at hr
    | ok st =>
      cases ho : s.outputs <;> cases ho' : t.outputs <;> simp [solveLoop, Step.solve, hf, hfs, hk, ho, ho'] at hr

example : ∃ m', Added exampleModel exampleStep (.int 0) m' := ⟨_, rfl⟩

end Verif.ModelSteps
