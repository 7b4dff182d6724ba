import Verif.Lubricant.Model

/-!
# C20: a lubricant that passes its data check can always be evaluated

`getfullargspec(f).args` lists neither keyword-only parameters nor does it tell positional-only parameters apart, and the check skips
every parameter called `self`. So the property fails for sub models with such parameters (`C20_…_escape`), and holds for sub models
with ordinary parameters (`C20_checked_lubricant_evaluates_partial`).
-/

namespace Verif.Lubricant

variable {V : Type}

/-- A signature with ordinary parameters: nothing positional-only, keyword-only parameters have defaults, there is `**kwargs`;
the bound parameter of a method is called `self` and no other parameter is. -/
def Ordinary (s : Sig) : Prop :=
  s.posOnly = [] ∧ (∀ p ∈ s.kwOnly, p.hasDefault = true) ∧ s.varkw = true ∧
  match s.bound, s.posOrKw with
  | true, p :: ps => p.name = "self" ∧ ∀ q ∈ ps, q.name ≠ "self"
  | true, [] => False
  | false, ps => ∀ q ∈ ps, q.name ≠ "self"

/-- An ordinary signature binds whenever all its parameters other than `self` are among the keywords and `self` is not. -/
theorem binds_of_ordinary {s : Sig} (ho : Ordinary s) {keys : List String} (hs : "self" ∉ keys)
    (h : ∀ a ∈ s.args, a ≠ "self" → a ∈ keys) : s.binds keys = true := by
  obtain ⟨h1, h2, h3, h4⟩ := ho
  obtain ⟨po, pk, ko, vk, bd⟩ := s
  simp only at h1 h2 h3 h4
  subst h1; subst h3
  have hk : (ko.any (fun p => !p.hasDefault && !keys.contains p.name)) = false := by
    rw [List.any_eq_false]
    intro p hp
    simp [h2 p hp]
  cases bd with
  | false =>
    have hm : (pk.any (fun p => !p.hasDefault && !keys.contains p.name)) = false := by
      rw [List.any_eq_false]
      intro p hp
      have : p.name ∈ keys := h p.name (by simpa [Sig.args] using ⟨p, hp, rfl⟩) (h4 p hp)
      simp [this]
    simp only [Sig.binds, Bool.false_eq_true, if_false, List.any_nil, Bool.and_false, Bool.false_and, Bool.not_true,
      Bool.not_false, Bool.and_true, hm, hk, Bool.or_false]
  | true =>
    cases pk with
    | nil => exact absurd h4 (by simp)
    | cons p ps =>
      simp only at h4
      have hm : (ps.any (fun p => !p.hasDefault && !keys.contains p.name)) = false := by
        rw [List.any_eq_false]
        intro q hq
        have : q.name ∈ keys := h q.name (by simp only [Sig.args, List.nil_append, List.map_cons, List.mem_cons]; exact Or.inr (List.mem_map.2 ⟨q, hq, rfl⟩)) (h4.2 q hq)
        simp [this]
      have hp : keys.contains p.name = false := by
        rw [h4.1]; simpa using hs
      simp only [Sig.binds, if_true, List.isEmpty_nil, List.nil_append, List.take_succ_cons, List.take_zero, List.any_cons,
        List.any_nil, hp, Bool.or_false, Bool.and_false, List.isEmpty_cons, Bool.not_true, Bool.false_and, Bool.not_false,
        List.drop_succ_cons, List.drop_zero, List.drop_nil, hm, hk, Bool.and_true]

/-- Main lemma: check and evaluation in step. -/
theorem solve_of_check (subs : SubModels V) :
    ∀ (names out : List String) (state : Dict V),
    (∀ kf ∈ subs, Ordinary kf.2.sig) → "self" ∉ subs.map Prod.fst → "self" ∉ state.keys →
    dataCheck subs names = .ok out → (∀ n ∈ names, n ∈ state.keys) →
    (∀ n, n ∈ out ↔ n ∈ names ∨ n ∈ subs.map Prod.fst) ∧
    solveSubModels subs state ≠ .error .binding ∧
    (∀ s', solveSubModels subs state = .ok s' → ∀ n, n ∈ s'.keys ↔ n ∈ state.keys ∨ n ∈ subs.map Prod.fst) ∧
    (∀ s', solveSubModels subs state = .ok s' → ∀ n, n ∉ subs.map Prod.fst → s'.get? n = state.get? n) ∧
    ((∀ kf ∈ subs, ∀ d, ∃ v, kf.2.body d = .ok v) → ∃ s', solveSubModels subs state = .ok s') := by
  induction subs with
  | nil =>
    intro names out state _ _ _ hc _
    simp only [dataCheck, Except.ok.injEq] at hc
    subst hc
    simp [solveSubModels]
  | cons kf subs ih =>
    obtain ⟨key, f⟩ := kf
    intro names out state ho hk hs hc hn
    simp only [dataCheck] at hc
    split at hc
    · cases hc
    · rename_i hany
      have hb : f.sig.binds state.keys = true := by
        apply binds_of_ordinary (ho (key, f) (by simp)) hs
        intro a ha hne
        apply hn
        have := (List.any_eq_false.1 (Bool.not_eq_true _ ▸ hany)) a ha
        simpa [hne] using this
      simp only [List.map_cons, List.mem_cons, not_or] at hk
      have hs' : ∀ v, "self" ∉ (state.set key v).keys := by
        intro v hh
        rcases (Dict.mem_keys_set _ _ _ _).1 hh with h | h
        · exact hk.1 h
        · exact hs h
      have hn' : ∀ v, ∀ n ∈ (if names.contains key then names else names ++ [key]), n ∈ (state.set key v).keys := by
        intro v n hmem
        rw [Dict.mem_keys_set]
        split at hmem
        · exact Or.inr (hn n hmem)
        · rcases List.mem_append.1 hmem with h | h
          · exact Or.inr (hn n h)
          · exact Or.inl (by simpa using h)
      have hih := fun v => ih _ out (state.set key v) (fun kf hkf => ho kf (List.mem_cons_of_mem _ hkf)) hk.2 (hs' v) hc (hn' v)
      simp only [solveSubModels, Func.call, hb, if_true]
      -- the names first
      have hnames : ∀ n, (n ∈ out ↔ n ∈ (if names.contains key then names else names ++ [key]) ∨ n ∈ subs.map Prod.fst) →
          (n ∈ out ↔ n ∈ names ∨ n ∈ (key :: subs.map Prod.fst)) := by
        intro n h
        rw [h]
        by_cases hc : names.contains key = true
        · simp only [hc, if_true, List.mem_cons]
          have : key ∈ names := by simpa using hc
          constructor
          · rintro (h | h)
            · exact Or.inl h
            · exact Or.inr (Or.inr h)
          · rintro (h | rfl | h)
            · exact Or.inl h
            · exact Or.inl this
            · exact Or.inr h
        · simp only [hc, if_false, List.mem_append, List.mem_cons, List.not_mem_nil, or_false, or_assoc, Bool.false_eq_true]
      cases hbody : f.body state with
      | error e =>
        refine ⟨?_, by simp, by simp, by simp, ?_⟩
        · -- the names do not depend on the values: use the induction hypothesis with any state of the right keys
          clear hih hn' hs' hb hn
          clear ih
          intro n
          have key2 : ∀ (subs : SubModels V) (names out : List String), dataCheck subs names = .ok out →
              (n ∈ out ↔ n ∈ names ∨ n ∈ subs.map Prod.fst) := by
            intro subs
            induction subs with
            | nil => intro names out h; simp only [dataCheck, Except.ok.injEq] at h; subst h; simp
            | cons kf subs ih =>
              intro names out h
              simp only [dataCheck] at h
              split at h
              · cases h
              · rw [ih _ _ h, List.map_cons, List.mem_cons]
                split
                · rename_i hc
                  have : kf.1 ∈ names := by simpa using hc
                  constructor
                  · rintro (h | h)
                    · exact Or.inl h
                    · exact Or.inr (Or.inr h)
                  · rintro (h | rfl | h)
                    · exact Or.inl h
                    · exact Or.inl this
                    · exact Or.inr h
                · simp only [List.mem_append, List.mem_cons, List.not_mem_nil, or_false, or_assoc]
          exact hnames n (key2 _ _ _ hc)
        · intro hb
          obtain ⟨v, hv⟩ := hb (key, f) (by simp) state
          simp only at hv
          rw [hbody] at hv
          cases hv
      | ok v =>
        obtain ⟨a, b, c, d, e⟩ := hih v
        refine ⟨fun n => hnames n (a n), b, ?_, ?_, ?_⟩
        · intro s' h n
          rw [c s' h n, Dict.mem_keys_set, List.map_cons, List.mem_cons]
          constructor
          · rintro ((h | h) | h)
            · exact Or.inr (Or.inl h)
            · exact Or.inl h
            · exact Or.inr (Or.inr h)
          · rintro (h | h | h)
            · exact Or.inl (Or.inr h)
            · exact Or.inl (Or.inl h)
            · exact Or.inr h
        · intro s' h n hn
          simp only [List.map_cons, List.mem_cons, not_or] at hn
          rw [d s' h n hn.2, Dict.get?_set, if_neg hn.1]
        · intro hb
          exact e (fun kf hkf => hb kf (List.mem_cons_of_mem _ hkf))

/-- **C20, partial**: for sub models with ordinary parameters (no positional-only parameters, keyword-only parameters with
defaults, no parameter `self` except the bound one; and no quantity called `self`): if the data check accepts the quantities
`names`, then evaluation with any state that has these quantities never fails to bind the arguments of a sub model; if it returns,
the state has exactly the given quantities and one for every sub model, and quantities that are not sub model parameters keep
their value; it does return unless the body of a sub model raises. The check reports exactly these quantities.
Missing: sub models with required keyword-only or positional-only parameters, for which the property is false (below). -/
theorem C20_checked_lubricant_evaluates_partial (subs : SubModels V) (names out : List String) (state : Dict V)
    (ho : ∀ kf ∈ subs, Ordinary kf.2.sig) (hk : "self" ∉ subs.map Prod.fst) (hs : "self" ∉ state.keys)
    (hc : dataCheck subs names = .ok out) (hn : ∀ n ∈ names, ∃ v, (n, v) ∈ state) :
    (∀ n, n ∈ out ↔ n ∈ names ∨ ∃ f, (n, f) ∈ subs) ∧
    solveSubModels subs state ≠ .error .binding ∧
    (∀ s', solveSubModels subs state = .ok s' →
      (∀ n, (∃ v, (n, v) ∈ s') ↔ (∃ v, (n, v) ∈ state) ∨ ∃ f, (n, f) ∈ subs) ∧
      ∀ n, (¬ ∃ f, (n, f) ∈ subs) → s'.get? n = state.get? n) ∧
    ((∀ kf ∈ subs, ∀ d, ∃ v, kf.2.body d = .ok v) → ∃ s', solveSubModels subs state = .ok s') := by
  have hmem : ∀ {W : Type} (d : Dict W) n, n ∈ d.map Prod.fst ↔ ∃ f, (n, f) ∈ d := by
    intro W d n
    simp [List.mem_map]
  obtain ⟨a, b, c, d, e⟩ := solve_of_check subs names out state ho hk hs hc
    (fun n h => (hmem state n).2 (hn n h))
  refine ⟨fun n => by rw [a n, hmem], b, fun s' h => ⟨fun n => ?_, fun n hn => d s' h n (fun h' => hn ((hmem subs n).1 h'))⟩, e⟩
  have := c s' h n
  simp only [Dict.keys] at this
  rw [← hmem, ← hmem, ← hmem, this]

/-- A lubricant whose density depends on the gap and on the viscosity found before. -/
def exampleSubs : SubModels Nat :=
  [("viscosity", ⟨{ posOrKw := [⟨"nd_pressure", false⟩] }, fun d => .ok ((d.get? "nd_pressure").getD 0 + 1)⟩),
   ("density", ⟨{ posOrKw := [⟨"self", false⟩, ⟨"viscosity", false⟩], kwOnly := [⟨"c", true⟩], bound := true },
      fun d => .ok ((d.get? "viscosity").getD 0 * 2)⟩)]

example : ∃ out, (∀ kf ∈ exampleSubs, Ordinary kf.2.sig) ∧ "self" ∉ exampleSubs.map Prod.fst ∧
    dataCheck exampleSubs ["nd_pressure"] = .ok out ∧
    solveSubModels exampleSubs [("nd_pressure", 3)] = .ok [("nd_pressure", 3), ("viscosity", 4), ("density", 8)] := by
  refine ⟨["nd_pressure", "viscosity", "density"], ?_, by decide, by rfl, by rfl⟩
  intro kf hkf
  simp only [exampleSubs, List.mem_cons, List.not_mem_nil, or_false] at hkf
  rcases hkf with rfl | rfl <;> simp [Ordinary]

/-- Each sub model sees the given state together with the results of the sub models before it, and its result is in the final
state (sub models have distinct names, as the keys of a dictionary). -/
theorem C20_each_sub_model_in_order (pre post : SubModels V) (key : String) (f : Func V) (state s' : Dict V)
    (hnd : ((pre ++ (key, f) :: post).map Prod.fst).Nodup)
    (h : solveSubModels (pre ++ (key, f) :: post) state = .ok s') :
    ∃ mid v, solveSubModels pre state = .ok mid ∧ f.body mid = .ok v ∧ s'.get? key = some v := by
  have hkeep : ∀ (subs : SubModels V) (state s' : Dict V), solveSubModels subs state = .ok s' →
      ∀ n, n ∉ subs.map Prod.fst → s'.get? n = state.get? n := by
    intro subs
    induction subs with
    | nil => intro state s' h n _; simp only [solveSubModels, Except.ok.injEq] at h; rw [h]
    | cons kf subs ih =>
      intro state s' h n hn
      simp only [List.map_cons, List.mem_cons, not_or] at hn
      simp only [solveSubModels] at h
      cases hc : kf.2.call state with
      | error e => rw [hc] at h; cases h
      | ok v =>
        rw [hc] at h
        rw [ih _ _ h n hn.2, Dict.get?_set, if_neg hn.1]
  induction pre generalizing state with
  | nil =>
    simp only [List.nil_append, solveSubModels] at h ⊢
    simp only [List.nil_append, List.map_cons, List.nodup_cons] at hnd
    cases hc : f.call state with
    | error e => rw [hc] at h; cases h
    | ok v =>
      rw [hc] at h
      refine ⟨state, v, rfl, ?_, ?_⟩
      · unfold Func.call at hc
        split at hc
        · cases hb : f.body state with
          | error e => rw [hb] at hc; cases hc
          | ok w => rw [hb] at hc; simpa using hc
        · cases hc
      · rw [hkeep _ _ _ h key hnd.1, Dict.get?_set, if_pos rfl]
  | cons kf pre ih =>
    simp only [List.cons_append, solveSubModels] at h ⊢
    simp only [List.cons_append, List.map_cons, List.nodup_cons] at hnd
    cases hc : kf.2.call state with
    | error e => rw [hc] at h; cases h
    | ok v =>
      rw [hc] at h
      exact ih _ hnd.2 h

example : ((exampleSubs.map Prod.fst).Nodup) ∧
    solveSubModels exampleSubs [("nd_pressure", 3)] = .ok [("nd_pressure", 3), ("viscosity", 4), ("density", 8)] := by
  exact ⟨by decide, rfl⟩

/-- The sub models of a lubricant made by any sequence of successful `add_sub_model` calls have distinct names that are
identifiers, and accept arbitrary further keywords; so the condition `varkw` of `Ordinary` and the distinctness above always hold. -/
theorem C20_add_sub_model_invariant (l : List (String × Func V)) (subs : SubModels V)
    (h : l.foldlM (fun subs kf => addSubModel subs kf.1 kf.2) [] = .ok subs) :
    (subs.map Prod.fst).Nodup ∧ ∀ kf ∈ subs, isIdentifier kf.1 = true ∧ kf.2.sig.varkw = true ∧ kf ∈ l := by
  have gen : ∀ (l : List (String × Func V)) (s0 subs : SubModels V) (all : List (String × Func V)), (∀ kf ∈ l, kf ∈ all) →
      (s0.map Prod.fst).Nodup → (∀ kf ∈ s0, isIdentifier kf.1 = true ∧ kf.2.sig.varkw = true ∧ kf ∈ all) →
      l.foldlM (fun subs kf => addSubModel subs kf.1 kf.2) s0 = Except.ok subs →
      (subs.map Prod.fst).Nodup ∧ ∀ kf ∈ subs, isIdentifier kf.1 = true ∧ kf.2.sig.varkw = true ∧ kf ∈ all := by
    intro l
    induction l with
    | nil =>
      intro s0 subs all _ hn hi h
      simp only [List.foldlM_nil, pure, Except.pure, Except.ok.injEq] at h
      subst h; exact ⟨hn, hi⟩
    | cons kf l ih =>
      intro s0 subs all hall hn hi h
      simp only [List.foldlM_cons, bind, Except.bind] at h
      unfold addSubModel at h
      split at h
      · cases h
      · rename_i s1 hs1
        split at hs1
        · cases hs1
        · rename_i h1
          split at hs1
          · cases hs1
          · rename_i h2
            simp only [Except.ok.injEq] at hs1
            subst hs1
            refine ih _ _ all (fun x hx => hall x (List.mem_cons_of_mem _ hx)) (Dict.nodup_set _ _ _ hn) ?_ h
            intro x hx
            have hx' : x = (kf.1, kf.2) ∨ x ∈ s0 := by
              obtain ⟨xk, xv⟩ := x
              have := Dict.get?_eq_some_of_mem (Dict.nodup_set s0 kf.1 kf.2 hn) hx
              rw [Dict.get?_set] at this
              split at this
              · rename_i e
                left
                simp only [Option.some.injEq] at this
                rw [e, this]
              · right; exact Dict.mem_of_get? this
            rcases hx' with rfl | hx'
            · exact ⟨by simpa using h1, by simpa using h2, hall _ (by simp)⟩
            · exact hi x hx'
  exact gen l [] subs l (fun _ h => h) (by simp) (by simp) h

example : (exampleSubs.foldlM (fun subs kf => addSubModel subs kf.1 kf.2) [] : Except PyErr (SubModels Nat)) = .ok exampleSubs := rfl

/-- A new sub model is evaluated after all others; one that replaces a sub model of the same name takes its place in the order. -/
theorem C20_add_sub_model_order (subs subs' : SubModels V) (name : String) (f : Func V)
    (hnd : (subs.map Prod.fst).Nodup) (h : addSubModel subs name f = .ok subs') :
    ((¬ ∃ g, (name, g) ∈ subs) → subs' = subs ++ [(name, f)]) ∧
    (∀ pre post g, subs = pre ++ (name, g) :: post → subs' = pre ++ (name, f) :: post) := by
  have h' : subs' = subs.set name f := by
    unfold addSubModel at h
    split at h
    · cases h
    · split at h
      · cases h
      · simpa using h.symm
  subst h'
  constructor
  · intro hn
    clear hnd h
    induction subs with
    | nil => rfl
    | cons a subs ih =>
      have h1 : ¬ a.1 = name := by
        rintro rfl
        exact hn ⟨a.2, by simp⟩
      rw [Dict.set, if_neg h1, ih (fun ⟨g, hg⟩ => hn ⟨g, List.mem_cons_of_mem _ hg⟩)]
      rfl
  · intro pre post g e
    subst e
    clear h
    induction pre with
    | nil => simp [Dict.set]
    | cons a pre ih =>
      simp only [List.cons_append, List.map_cons, List.nodup_cons] at hnd
      have h1 : ¬ a.1 = name := by
        intro e
        exact hnd.1 (by simp [e])
      rw [List.cons_append, Dict.set, if_neg h1, ih hnd.2]
      rfl

/-- A third sub model, after the two of the example above. -/
example := C20_add_sub_model_order exampleSubs _ "third" (exampleSubs.head (by decide)).2 (by decide) rfl

/-- The names that can be given to a sub model with `**kwargs`: a letter or underscore followed by letters, digits and underscores. Every other ASCII name is refused by an assertion, and so is a sub model without `**kwargs`. -/
theorem C20_names (subs : SubModels V) (name : String) (f : Func V) :
    ((∃ c cs, name.toList = c :: cs ∧ (c.isAlpha = true ∨ c = '_') ∧ ∀ d ∈ cs, d.isAlphanum = true ∨ d = '_') ∧ f.sig.varkw = true → ∃ s, addSubModel subs name f = .ok s) ∧
    (¬ ((∃ c cs, name.toList = c :: cs ∧ (c.isAlpha = true ∨ c = '_') ∧ ∀ d ∈ cs, d.isAlphanum = true ∨ d = '_') ∧ f.sig.varkw = true) → addSubModel subs name f = .error .assertionError) := by
  have key : isIdentifier name = true ↔ ∃ c cs, name.toList = c :: cs ∧ (c.isAlpha = true ∨ c = '_') ∧ ∀ d ∈ cs, d.isAlphanum = true ∨ d = '_' := by
    unfold isIdentifier
    cases h : name.toList with
    | nil => simp
    | cons c cs =>
      simp only [Bool.and_eq_true, Bool.or_eq_true, beq_iff_eq, List.all_eq_true]
      exact ⟨fun h => ⟨c, cs, rfl, h⟩, fun ⟨a, as, e, h⟩ => by cases e; exact h⟩
  rw [← key]
  unfold addSubModel
  cases isIdentifier name <;> cases f.sig.varkw <;> simp

example : (addSubModel [] "1st" (⟨{ }, fun _ => .ok 1⟩ : Func Nat)) = .error .assertionError ∧ ∃ s, (addSubModel [] "_1st" (⟨{ }, fun _ => .ok 1⟩ : Func Nat)) = .ok s := ⟨rfl, _, rfl⟩

example : (exampleSubs.map Prod.fst).Nodup ∧ ∃ subs', addSubModel exampleSubs "viscosity" ⟨{}, fun _ => .ok 7⟩ = .ok subs' :=
  ⟨by decide, _, rfl⟩

/-- A lubricant made from a constant viscosity and a constant density passes the check exactly when the step provides
`just_touching_gap`, and then gives these constants, and one for the non-dimensional quantities, in the shape of the gap. -/
theorem C20_constant_lubricant (visc dens one : V → V) :
    ∃ subs, init (some visc) (some dens) one [] = .ok subs ∧
      (∀ names, (∃ out, dataCheck subs names = .ok out) ↔ "just_touching_gap" ∈ names) ∧
      ∀ (state : Dict V) (g : V), state.get? "just_touching_gap" = some g → ∃ s', solveSubModels subs state = .ok s' ∧
        s'.get? "viscosity" = some (visc g) ∧ s'.get? "nd_viscosity" = some (one g) ∧
        s'.get? "density" = some (dens g) ∧ s'.get? "nd_density" = some (one g) ∧
        ∀ n, n ∉ ["viscosity", "nd_viscosity", "density", "nd_density"] → s'.get? n = state.get? n := by
  refine ⟨[("viscosity", constantArrayProperty visc), ("nd_viscosity", constantArrayProperty one),
    ("density", constantArrayProperty dens), ("nd_density", constantArrayProperty one)], ?_, ?_, ?_⟩
  · have hadd : ∀ (subs : SubModels V) n c, isIdentifier n = true →
        addSubModel subs n (constantArrayProperty c) = .ok (subs.set n (constantArrayProperty c)) := by
      intro subs n c hn
      simp [addSubModel, hn, constantArrayProperty]
    simp only [init, List.append_nil, List.cons_append, List.nil_append, List.foldlM_cons, List.foldlM_nil, bind, Except.bind, pure,
      Except.pure, hadd _ "viscosity" _ (by decide), hadd _ "nd_viscosity" _ (by decide), hadd _ "density" _ (by decide),
      hadd _ "nd_density" _ (by decide)]
    rfl
  · intro names
    by_cases h : "just_touching_gap" ∈ names
    · simp only [h, iff_true]
      have : ∀ k, "just_touching_gap" ∈ (if names.contains k then names else names ++ [k]) := by
        intro k; split <;> simp [h]
      simp only [dataCheck, constantArrayProperty, Sig.args, List.nil_append, List.map_cons, List.map_nil, List.any_cons, List.any_nil]
      repeat' split
      all_goals simp_all
    · simp only [h, iff_false, not_exists]
      intro out
      simp [dataCheck, constantArrayProperty, Sig.args, h]
  · intro state g hg
    have hb : ∀ (d : Dict V) (c : V → V), d.get? "just_touching_gap" = some g → (constantArrayProperty c).call d = .ok (c g) := by
      intro d c hd
      have hk : "just_touching_gap" ∈ d.keys := (Dict.mem_keys_iff _ _).2 ⟨g, hd⟩
      simp [Func.call, constantArrayProperty, Sig.binds, hk, hd]
    have hj : ∀ (d : Dict V) k v, k ≠ "just_touching_gap" → d.get? "just_touching_gap" = some g →
        (d.set k v).get? "just_touching_gap" = some g := by
      intro d k v hk hd
      rw [Dict.get?_set, if_neg (Ne.symm hk), hd]
    have h1 := hj state "viscosity" (visc g) (by decide) hg
    have h2 := hj _ "nd_viscosity" (one g) (by decide) h1
    have h3 := hj _ "density" (dens g) (by decide) h2
    refine ⟨((((state.set "viscosity" (visc g)).set "nd_viscosity" (one g)).set "density" (dens g)).set "nd_density" (one g)), ?_, ?_⟩
    · simp only [solveSubModels, hb _ _ hg, hb _ _ h1, hb _ _ h2, hb _ _ h3]
    · simp only [Dict.get?_set]
      simp +decide
      intro n a b c d
      simp [a, b, c, d]

example : Dict.get? [("just_touching_gap", 3)] "just_touching_gap" = some 3 := rfl

/-- **C20, negation**: a sub model with a required keyword-only parameter passes the check and cannot be called. -/
theorem C20_keyword_only_escapes : ∃ (f : Func Nat) (subs : SubModels Nat) (state : Dict Nat),
    addSubModel [] "density" f = .ok subs ∧ f.sig.bound = false ∧ f.sig.posOnly = [] ∧
    (∃ out, dataCheck subs state.keys = .ok out) ∧ solveSubModels subs state = .error .binding := by
  exact ⟨⟨{ kwOnly := [⟨"temperature", false⟩] }, fun _ => .ok 1⟩, _, [("nd_pressure", 1)], rfl, rfl, rfl, ⟨_, rfl⟩, rfl⟩

/-- **C20, negation**: a plain function with a parameter called `self` passes the check and cannot be called. -/
theorem C20_self_parameter_escapes : ∃ (subs : SubModels Nat) (state : Dict Nat),
    (∀ kf ∈ subs, kf.2.sig.bound = false ∧ kf.2.sig.varkw = true) ∧
    (∃ out, dataCheck subs state.keys = .ok out) ∧ solveSubModels subs state = .error .binding := by
  refine ⟨[("density", ⟨{ posOrKw := [⟨"self", false⟩] }, fun _ => .ok 1⟩)], [("nd_pressure", 1)], by simp, ⟨_, rfl⟩, rfl⟩

/-- **C20, negation**: a positional-only parameter is looked for by name in the check, but cannot be given by name. -/
theorem C20_positional_only_escapes : ∃ (subs : SubModels Nat) (state : Dict Nat),
    (∀ kf ∈ subs, kf.2.sig.bound = false ∧ kf.2.sig.varkw = true) ∧
    (∃ out, dataCheck subs state.keys = .ok out) ∧ solveSubModels subs state = .error .binding := by
  refine ⟨[("density", ⟨{ posOnly := [⟨"nd_pressure", false⟩] }, fun _ => .ok 1⟩)], [("nd_pressure", 1)], by simp, ⟨_, rfl⟩, rfl⟩

/-- The check is not complete: a parameter with a default value is still demanded, although the evaluation would succeed. -/
theorem C20_default_parameter_rejected : ∃ (subs : SubModels Nat) (state s' : Dict Nat),
    dataCheck subs state.keys = .error .valueError ∧ solveSubModels subs state = .ok s' := by
  refine ⟨[("density", ⟨{ posOrKw := [⟨"temperature", true⟩] }, fun _ => .ok 1⟩)], [("nd_pressure", 1)], _, rfl, rfl⟩

end Verif.Lubricant
