import Verif.Quasi.Lemmas
import Mathlib.Tactic.FieldSimp
import Mathlib.Tactic.Ring

/-!
# C100, C101: time, increments and displacement control of the quasi static step
-/

namespace Verif.Quasi

open Verif HeightCache

variable {N : Type}

/-! ## C100: time -/

theorem times (a : Args) (st : Interp.Step ℝ) (prev : Previous N) (world : Nat → Option (ℝ × ℝ) → Problem N × ℝ) (choice : Nat → Choice) :
    ∀ (todo i : Nat) (s l : Loop N) (cs : List Current), increments a st prev world choice todo i s = .ok (l, cs) → cs.length = todo ∧
      ∀ (k : ℕ) c, cs[k]? = some c → c.newStep = decide (i + k = 0) ∧ c.timeStep = a.period / a.quantities.steps ∧ c.time = s.time + (k + 1) * (a.period / a.quantities.steps) := by
  intro todo
  induction todo with
  | zero =>
    intro i s l cs h
    rw [increments] at h
    cases h
    exact ⟨rfl, fun k c h => by simp at h⟩
  | succ n ih =>
    intro i s l cs h
    rw [increments] at h
    obtain ⟨r, hr, h⟩ := Interp.bind_ok h
    obtain ⟨v, hv, h⟩ := Interp.bind_ok h
    obtain ⟨l', cs'⟩ := v
    injection h with h
    injection h with _ h
    subst h
    have hcur : r.1.time = s.time + a.period / a.quantities.steps ∧ r.2.newStep = decide (i = 0) ∧ r.2.timeStep = a.period / a.quantities.steps ∧ r.2.time = s.time + a.period / a.quantities.steps := by
      unfold increment at hr
      obtain ⟨q, -, hr⟩ := Interp.bind_ok hr
      obtain ⟨f, -, hr⟩ := Interp.bind_ok hr
      injection hr with hr
      subst hr
      exact ⟨rfl, rfl, rfl, rfl⟩
    obtain ⟨h1, h2⟩ := ih (i + 1) r.1 l' cs' hv
    refine ⟨by simp [h1], ?_⟩
    intro k c hk
    cases k with
    | zero =>
      simp only [List.getElem?_cons_zero, Option.some.injEq] at hk
      subst hk
      refine ⟨by rw [hcur.2.1, Nat.add_zero], hcur.2.2.1, by rw [hcur.2.2.2]; push_cast; ring⟩
    | succ k =>
      rw [List.getElem?_cons_succ] at hk
      obtain ⟨g1, g2, g3⟩ := h2 k c hk
      refine ⟨?_, g2, ?_⟩
      · rw [g1]
        congr 1
        simp only [eq_iff_iff]
        omega
      · rw [g3, hcur.1]
        push_cast
        ring

/-- **C100**: a step of `n` increments gives `n` states, `1/n` of the period apart; the last one is one period after the state before the step; only the first one is marked as the
beginning of a step. -/
theorem C100_times (a : Args) (prev : Previous N) (world : Nat → Option (ℝ × ℝ) → Problem N × ℝ) (choice : Nat → Choice) {l : Loop N} {cs : List Current}
    (h : run a prev world choice = .ok (l, cs)) :
    0 < a.quantities.steps ∧ cs.length = a.quantities.steps ∧
      (∀ (k : ℕ) c, cs[k]? = some c → (c.newStep = true ↔ k = 0) ∧ c.timeStep * a.quantities.steps = a.period ∧ (c.time - prev.time) * a.quantities.steps = (k + 1) * a.period) ∧
      ∃ c, cs.getLast? = some c ∧ c.time = prev.time + a.period := by
  unfold run at h
  obtain ⟨st, hst, h⟩ := Interp.bind_ok h
  have hini : Interp.init .real a.quantities = .ok st := by
    unfold construct at hst
    split at hst
    · cases hst
    · exact hst
  obtain ⟨h0, h1, -⟩ := Interp.init_ok .real hini
  unfold solve at h
  split at h
  · cases h
  obtain ⟨h2, h3⟩ := times a st prev world choice _ _ _ _ _ h
  have hn : (a.quantities.steps : ℝ) ≠ 0 := by exact_mod_cast h0
  have hlast : ∃ c, cs.getLast? = some c ∧ c.time = prev.time + a.period := by
    rw [h1] at h2
    obtain ⟨c, hc⟩ : ∃ c, cs[a.quantities.steps - 1]? = some c := ⟨_, List.getElem?_eq_getElem (by omega)⟩
    refine ⟨c, by rw [List.getLast?_eq_getElem?, h2]; exact hc, ?_⟩
    rw [(h3 _ c hc).2.2]
    have e : ((a.quantities.steps - 1 : ℕ) : ℝ) + 1 = a.quantities.steps := by
      have : a.quantities.steps - 1 + 1 = a.quantities.steps := by omega
      exact_mod_cast this
    rw [e]
    field_simp
  refine ⟨Nat.pos_of_ne_zero h0, h2.trans h1, ?_, hlast⟩
  intro k c hk
  obtain ⟨g1, g2, g3⟩ := h3 k c hk
  refine ⟨by simp [g1], by rw [g2]; field_simp, ?_⟩
  rw [g3]
  field_simp
  ring

/-- **C100**: a step without increments, or with two controls, or without any, is refused. -/
theorem C100_refused (a : Args) (prev : Previous N) (world : Nat → Option (ℝ × ℝ) → Problem N × ℝ) (choice : Nat → Choice)
    (h : a.quantities.steps = 0 ∨ (a.quantities.load ≠ .none ∧ a.quantities.interference ≠ .none) ∨
      (a.quantities.load = .none ∧ a.quantities.interference = .none ∧ a.quantities.relative = false)) : ∃ e, run a prev world choice = .error e := by
  cases hr : run a prev world choice with
  | error e => exact ⟨e, rfl⟩
  | ok v =>
    exfalso
    unfold run at hr
    obtain ⟨st, hst, hr⟩ := Interp.bind_ok hr
    have hini : Interp.init .real a.quantities = .ok st := by
      unfold construct at hst
      split at hst
      · cases hst
      · exact hst
    obtain ⟨h0, h1, -, -, ⟨i, hi, -⟩, -⟩ := Interp.init_ok .real hini
    rcases h with h | ⟨h, h'⟩ | ⟨h, h', h''⟩
    · exact h0 h
    · unfold Interp.initInterference at hi
      cases h3 : a.quantities.load <;> cases h4 : a.quantities.interference <;> simp_all
    · unfold Interp.initInterference at hi
      simp_all

/-- No increments. -/
example (prev : Previous N) (world : Nat → Option (ℝ × ℝ) → Problem N × ℝ) (choice : Nat → Choice) (a : Args) :=
  C100_refused { a with quantities := { a.quantities with steps := 0 } } prev world choice (Or.inl rfl)

/-- **C100 (negation)**: `fast_ld=True` is not implemented: no such step can be solved. -/
theorem C100_fast_wrong (a : Args) (prev : Previous N) (world : Nat → Option (ℝ × ℝ) → Problem N × ℝ) (choice : Nat → Choice) (h : a.fastLd = true) :
    ∃ e, run a prev world choice = .error e := by
  unfold run construct
  rw [h]
  by_cases hn : a.quantities.noTime = false
  · exact ⟨.valueError, by simp [hn]; rfl⟩
  · rw [if_neg (by simp [hn])]
    cases Interp.init .real a.quantities with
    | error e => exact ⟨e, rfl⟩
    | ok st => exact ⟨.notImplementedError, by simp [bind, Except.bind, solve, h]⟩

example (prev : Previous N) (world : Nat → Option (ℝ × ℝ) → Problem N × ℝ) (choice : Nat → Choice) (a : Args) :=
  C100_fast_wrong { a with fastLd := true } prev world choice rfl

/-! ## C100: unloading -/

theorem init_nodes (P : Problem N) (n : N) (m : ℝ) : HeightCache.init P (some n) m = .error .attributeError := rfl

/-- **C100 (negation)**: `unloading=True` after a state with contact nodes ends with `AttributeError`. -/
theorem C100_unloading_wrong (a : Args) (prev : Previous N) (world : Nat → Option (ℝ × ℝ) → Problem N × ℝ) (choice : Nat → Choice) {qs : List (Interp.Quantities ℝ)}
    (hqs : Interp.run .real a.quantities prev.quantities = .ok qs) (hf : a.fastLd = false) (hu : a.unloading = true) {n : N} (hn : prev.contactNodes = some n) :
    run a prev world choice = .error .attributeError := by
  obtain ⟨st, -, hinc, h1, h2, -, hrun⟩ := run_eq hqs hf world choice
  have hctl := controlled hqs
  rw [hrun]
  obtain ⟨m, hm⟩ : ∃ m, st.steps = m + 1 := ⟨st.steps - 1, by omega⟩
  rw [hm] at hinc ⊢
  obtain ⟨q, rest, rfl, hq, -⟩ := interp_cons hinc
  rw [increments, increment_of a st prev world choice 0 _ hq]
  have hi : initialNodes a prev = some n := by unfold initialNodes; rw [hu, hn]; rfl
  rw [hi]
  have : ∀ P upper c, solveBy a q none P (some n) upper c = .error .attributeError := by
    intro P upper c
    obtain ⟨hA, hB⟩ := hctl q (by simp)
    unfold solveBy
    cases hl : a.quantities.load with
    | none =>
      obtain ⟨x, hx⟩ := hA hl
      rw [hx]
      simp only [solveDisp, optimiser]
      cases a.quantities.noTime <;> rfl
    | number y =>
      obtain ⟨x, hx⟩ := hB (by rw [hl]; simp)
      rw [hx]
      simp only [solveLoad, optimiser]
      cases a.quantities.noTime <;> rfl
    | seq y =>
      obtain ⟨x, hx⟩ := hB (by rw [hl]; simp)
      rw [hx]
      simp only [solveLoad, optimiser]
      cases a.quantities.noTime <;> rfl
  rw [this]
  rfl

/-- **C100 (negation)**: without contact nodes in the state before the step, `unloading=True` changes nothing: the nodes of an increment are not constrained to those of the increment before. -/
theorem C100_unloading_ignored_wrong (a : Args) (prev : Previous N) (world : Nat → Option (ℝ × ℝ) → Problem N × ℝ) (choice : Nat → Choice) (hn : prev.contactNodes = none) :
    run { a with unloading := true } prev world choice = run { a with unloading := false } prev world choice := by
  have hinc : ∀ st i s, increment { a with unloading := true } st prev world choice i s = increment { a with unloading := false } st prev world choice i s := by
    intro st i s
    unfold increment
    simp only [hn, if_true, Bool.false_eq_true, if_false]
    rfl
  have hincs : ∀ st todo i s, increments { a with unloading := true } st prev world choice todo i s = increments { a with unloading := false } st prev world choice todo i s := by
    intro st todo
    induction todo with
    | zero => intro i s; rfl
    | succ n ih =>
      intro i s
      rw [increments, increments, hinc]
      simp only [ih]
  have hsol : ∀ st, solve { a with unloading := true } st st.q none prev world choice = solve { a with unloading := false } st st.q none prev world choice := by
    intro st
    unfold solve
    simp only [hincs]
  unfold run
  simp only [hsol]
  rfl

example (world : Nat → Option (ℝ × ℝ) → Problem N × ℝ) (choice : Nat → Choice) (a : Args) :=
  C100_unloading_ignored_wrong a ⟨0, ⟨none, none, none⟩, none⟩ world choice rfl

/-! ## C101: displacement control -/

/-- The state of a height optimiser that has been used for the heights `used` (only heights with contact). -/
structure Used (P : Problem N) (used : ℝ → Prop) (s : HeightCache.State N) : Prop where
  heights : ∀ h ∈ s.heights, ¬ Static.Fresh P h ∨ used h

theorem used_init (P : Problem N) (m : ℝ) : ∃ s, HeightCache.init P none m = .ok s ∧ Used P (fun _ => False) s := by
  obtain ⟨s, h1, -, -, -, -, h2⟩ := Static.init_none P m m
  refine ⟨s, h1, ⟨fun h hh => Or.inl ?_⟩⟩
  rintro ⟨h3, h4⟩
  rcases h2 with ⟨h2, -⟩ | ⟨x, y, hxy, h2, -⟩
  · have : s.heights = [0] := h2
    rw [this] at hh
    simp only [List.mem_singleton] at hh
    exact h3 hh
  · have : s.heights = [0, x] := h2
    rw [this] at hh
    simp only [List.mem_cons, List.not_mem_nil, or_false] at hh
    rcases hh with hh | hh
    · exact h3 hh
    · exact h4 y (by rw [hh]; exact hxy)

theorem add_heights (P : Problem N) (s : HeightCache.State N) (x t : ℝ) (f : Bool) : ∀ h ∈ (addToCache P s x t f).heights, h ∈ s.heights ∨ h = x := by
  intro h hh
  unfold addToCache at hh
  by_cases hc : P.useCache = true ∧ x ∉ s.heights ∧ f = false
  · rw [if_pos hc] at hh
    dsimp only at hh
    rcases List.eq_or_mem_of_mem_insertIdx hh with e | e
    · exact Or.inr e
    · exact Or.inl e
  · rw [if_neg hc] at hh
    exact Or.inl hh

theorem solve_heights (P : Problem N) (s : HeightCache.State N) (x : ℝ) : ∀ h ∈ (solveHeight P s x).1.heights, h ∈ s.heights ∨ h = x := by
  unfold solveHeight
  dsimp only
  split_ifs
  · exact add_heights P _ _ _ _
  · exact add_heights P _ _ _ _

/-- Displacement control at a height that is not in the cache. -/
theorem disp_new (P : Problem N) (him : P.imMats = true) (s : HeightCache.State N) (x : ℝ) (hx : x ∉ s.heights) (ht : P.noNodes (P.touching x) = false) :
    call P (changeLoad s 1 none) x = ((solveHeight P (changeLoad s 1 none) x).1, .ok (solveHeight P (changeLoad s 1 none) x).2) ∧
      Static.results P (solveHeight P (changeLoad s 1 none) x).1 = .ok (x, (P.bccg x (P.touching x)).1) ∧
      (solveHeight P (changeLoad s 1 none) x).1.lastFailed = (P.bccg x (P.touching x)).2 := by
  obtain ⟨e1, e2, e3, e4, e5⟩ := Static.solve_fields P (s := changeLoad s 1 none) rfl x ht
  refine ⟨?_, ?_, e4⟩
  · unfold call
    have : x ∉ (changeLoad s 1 none).heights := hx
    rw [if_neg this, him]
    rfl
  · unfold Static.results
    rw [e3]
    dsimp only
    rw [Static.nodesFor_free P e1]

/-- Displacement control at a height that is in the cache. -/
theorem disp_old (P : Problem N) (s : HeightCache.State N) (x : ℝ) (hx : x ∈ s.heights) :
    ∀ s' v, call P (changeLoad s 1 none) x = (s', .ok v) → Static.results P s' = .error .typeError := by
  intro s' v h
  unfold call at h
  have hx' : x ∈ (changeLoad s 1 none).heights := hx
  rw [if_pos hx'] at h
  split at h
  · injection h with h _
    subst h
    rfl
  · injection h with _ h
    cases h

theorem solveDisp_new (noTime : Bool) (opt : Option (Problem N × HeightCache.State N)) (P : Problem N) {o : Problem N × HeightCache.State N} (ho : optimiser noTime opt P none 1 = .ok o)
    (him : o.1.imMats = true) (x : ℝ) (hx : x ∉ o.2.heights) (ht : o.1.noNodes (o.1.touching x) = false) :
    solveDisp noTime opt P none x = .ok ((o.1, (solveHeight o.1 (changeLoad o.2 1 none) x).1), ⟨x, x, (o.1.bccg x (o.1.touching x)).1, !(o.1.bccg x (o.1.touching x)).2⟩) := by
  obtain ⟨h1, h2, h3⟩ := disp_new o.1 him o.2 x hx ht
  unfold solveDisp
  rw [ho]
  simp only [bind, Except.bind, h1, h2, h3]

/-- The interference that is solved for in displacement control. -/
theorem solveBy_disp {a : Args} (hl : a.quantities.load = .none) {q : Interp.Quantities ℝ} {x : ℝ} (hx : q.interference = some x) (o : Option (Problem N × HeightCache.State N)) (P : Problem N)
    (ini : Option N) (upper : ℝ) (c : Choice) : solveBy a q o P ini upper c = solveDisp a.quantities.noTime o P ini x := by
  unfold solveBy
  rw [hl, hx]

/-- **C101 (partial)**: a step with time dependence and a set interference: in each increment the state is the contact solution for the interference of this increment with the surfaces of
this increment, and is reported as converged exactly if the contact solver succeeded. Missing: interferences without contact, see `C101_no_contact_wrong`. -/
theorem C101_time_partial (a : Args) (prev : Previous N) (world : Nat → Option (ℝ × ℝ) → Problem N × ℝ) (choice : Nat → Choice) {qs : List (Interp.Quantities ℝ)}
    (hqs : Interp.run .real a.quantities prev.quantities = .ok qs) (hf : a.fastLd = false) (hu : a.unloading = false ∨ prev.contactNodes = none) (hl : a.quantities.load = .none)
    (ht : a.quantities.noTime = false)
    (hgood : ∀ (k : ℕ) q x, qs[k]? = some q → q.interference = some x →
      (world k q.offSet).1.imMats = true ∧ Static.Fresh (world k q.offSet).1 x ∧ (world k q.offSet).1.noNodes ((world k q.offSet).1.touching x) = false) :
    ∃ l cs, run a prev world choice = .ok (l, cs) ∧ cs.length = qs.length ∧ ∀ (k : ℕ) c, cs[k]? = some c → ∃ q x, qs[k]? = some q ∧ q.interference = some x ∧ c.interference = x ∧ c.solvedAt = x ∧
      c.totalLoad = ((world k q.offSet).1.bccg x ((world k q.offSet).1.touching x)).1 ∧ (c.converged = true ↔ ((world k q.offSet).1.bccg x ((world k q.offSet).1.touching x)).2 = false) := by
  obtain ⟨st, -, hinc, h1, h2, -, hrun⟩ := run_eq hqs hf world choice
  have hctl := controlled hqs
  have hini : initialNodes a prev = none := by unfold initialNodes; rcases hu with h | h <;> simp [h]
  have hlen := (Interp.increments_get .real st _ _ _ _ _ hinc).1
  obtain ⟨l, cs, e1, e2, e3⟩ := forward a st prev world choice (fun _ _ _ => True)
    (fun k f => ∃ q x, qs[k]? = some q ∧ q.interference = some x ∧ f = ⟨x, x, ((world k q.offSet).1.bccg x ((world k q.offSet).1.touching x)).1, !((world k q.offSet).1.bccg x ((world k q.offSet).1.touching x)).2⟩)
    st.steps 0 ⟨st.q, none, none, prev.time⟩ qs hinc trivial (by
      intro k q o g hk _
      rw [Nat.zero_add]
      obtain ⟨x, hx⟩ := (hctl q (List.mem_of_getElem? hk)).1 hl
      obtain ⟨g1, g2, g3⟩ := hgood k q x hk hx
      have hgap : gapFor st a.quantities.noTime world k q.offSet g = world k q.offSet := by
        unfold gapFor
        cases g with
        | none => rfl
        | some g => simp [ht]
      rw [hgap, hini, solveBy_disp hl hx, ht]
      obtain ⟨s, hs, hused⟩ := used_init (world k q.offSet).1 1
      have ho : optimiser false o (world k q.offSet).1 none 1 = .ok ((world k q.offSet).1, s) := by
        unfold optimiser
        rw [hs]
        rfl
      exact ⟨_, solveDisp_new false o _ ho g1 x (fun hmem => (hused.heights x hmem).elim (fun h => h g2) (fun h => h)) g3, trivial, q, x, hk, hx, rfl⟩)
  refine ⟨l, cs, by rw [hrun, e1], by rw [e2, hlen], ?_⟩
  intro k c hk
  obtain ⟨f, ⟨q, x, hq, hx, rfl⟩, s1, s2, s3, s4⟩ := e3 k c hk
  rw [Nat.zero_add] at hq s3 s4
  exact ⟨q, x, hq, hx, s1, s2, s3, by rw [s4]; simp⟩

/-- **C101 (partial)**: a step without time dependence and a set interference that is different in each increment: the same, with the surfaces at the start of the step.
Missing: interferences without contact, and interferences that are repeated, see `C101_repeat_wrong`. -/
theorem C101_no_time_partial (a : Args) (prev : Previous N) (world : Nat → Option (ℝ × ℝ) → Problem N × ℝ) (choice : Nat → Choice) {qs : List (Interp.Quantities ℝ)}
    (hqs : Interp.run .real a.quantities prev.quantities = .ok qs) (hf : a.fastLd = false) (hu : a.unloading = false ∨ prev.contactNodes = none) (hl : a.quantities.load = .none)
    (ht : a.quantities.noTime = true) {P : Problem N} (hP : ∀ q, qs[0]? = some q → (world 0 q.offSet).1 = P) (him : P.imMats = true)
    (hgood : ∀ (k : ℕ) q x, qs[k]? = some q → q.interference = some x → Static.Fresh P x ∧ P.noNodes (P.touching x) = false)
    (hdist : ∀ (j k : ℕ) q q', qs[j]? = some q → qs[k]? = some q' → q.interference = q'.interference → j = k) :
    ∃ l cs, run a prev world choice = .ok (l, cs) ∧ cs.length = qs.length ∧ ∀ (k : ℕ) c, cs[k]? = some c → ∃ q x, qs[k]? = some q ∧ q.interference = some x ∧ c.interference = x ∧ c.solvedAt = x ∧
      c.totalLoad = (P.bccg x (P.touching x)).1 ∧ (c.converged = true ↔ (P.bccg x (P.touching x)).2 = false) := by
  obtain ⟨st, -, hinc, h1, h2, -, hrun⟩ := run_eq hqs hf world choice
  have hctl := controlled hqs
  have hini : initialNodes a prev = none := by unfold initialNodes; rcases hu with h | h <;> simp [h]
  have hlen := (Interp.increments_get .real st _ _ _ _ _ hinc).1
  obtain ⟨l, cs, e1, e2, e3⟩ := forward a st prev world choice
    (fun k o g => (k = 0 ∧ o = none ∧ g = none) ∨ ∃ s, o = some (P, s) ∧ Used P (fun h => ∃ j q, j < k ∧ qs[j]? = some q ∧ q.interference = some h) s)
    (fun k f => ∃ q x, qs[k]? = some q ∧ q.interference = some x ∧ f = ⟨x, x, (P.bccg x (P.touching x)).1, !(P.bccg x (P.touching x)).2⟩)
    st.steps 0 ⟨st.q, none, none, prev.time⟩ qs hinc (Or.inl ⟨rfl, rfl, rfl⟩) (by
      intro k q o g hk hI
      rw [Nat.zero_add] at hI ⊢
      obtain ⟨x, hx⟩ := (hctl q (List.mem_of_getElem? hk)).1 hl
      obtain ⟨g2, g3⟩ := hgood k q x hk hx
      have ho : ∃ s, optimiser true o (gapFor st a.quantities.noTime world k q.offSet g).1 none 1 = .ok (P, s) ∧ Used P (fun h => ∃ j q, j < k ∧ qs[j]? = some q ∧ q.interference = some h) s := by
        rcases hI with ⟨hk0, rfl, rfl⟩ | ⟨s, rfl, hs⟩
        · subst hk0
          obtain ⟨s, hs, hused⟩ := used_init P 1
          refine ⟨s, ?_, ⟨fun h hh => (hused.heights h hh).imp (fun h => h) (fun h => h.elim)⟩⟩
          unfold optimiser gapFor
          dsimp only
          rw [hP q hk, hs]
          rfl
        · exact ⟨s, rfl, hs⟩
      obtain ⟨s, ho, hused⟩ := ho
      rw [hini, solveBy_disp hl hx, ht] at *
      have hnew : x ∉ s.heights := by
        intro hmem
        rcases hused.heights x hmem with h | ⟨j, q', hj, hq', hx'⟩
        · exact h g2
        · have := hdist j k q' q hq' hk (by rw [hx', hx])
          omega
      refine ⟨_, solveDisp_new true o _ ho him x hnew g3, Or.inr ⟨_, rfl, ⟨?_⟩⟩, q, x, hk, hx, rfl⟩
      intro h hh
      rcases solve_heights P _ x h hh with hh | rfl
      · exact (hused.heights h hh).imp (fun h => h) (fun ⟨j, q, hj, hq⟩ => ⟨j, q, by omega, hq⟩)
      · exact Or.inr ⟨k, q, by omega, hk, hx⟩)
  refine ⟨l, cs, by rw [hrun, e1], by rw [e2, hlen], ?_⟩
  intro k c hk
  obtain ⟨f, ⟨q, x, hq, hx, rfl⟩, s1, s2, s3, s4⟩ := e3 k c hk
  rw [Nat.zero_add] at hq
  exact ⟨q, x, hq, hx, s1, s2, s3, by rw [s4]; simp⟩

/-! ## Cases that fail -/

theorem add_mono (P : Problem N) (s : HeightCache.State N) (x t : ℝ) (f : Bool) : ∀ h ∈ s.heights, h ∈ (addToCache P s x t f).heights := by
  intro h hh
  unfold addToCache
  by_cases hc : P.useCache = true ∧ x ∉ s.heights ∧ f = false
  · rw [if_pos hc]
    dsimp only
    exact (List.mem_insertIdx (bisectLeft_spec s.heights x).1).mpr (Or.inr hh)
  · rw [if_neg hc]
    exact hh

theorem add_self (P : Problem N) (hc : P.useCache = true) (s : HeightCache.State N) (x t : ℝ) : x ∈ (addToCache P s x t false).heights := by
  unfold addToCache
  by_cases h : x ∈ s.heights
  · rw [if_neg (by simp [h])]
    exact h
  · rw [if_pos ⟨hc, h, rfl⟩]
    dsimp only
    exact (List.mem_insertIdx (bisectLeft_spec s.heights x).1).mpr (Or.inl rfl)

theorem call_mono (P : Problem N) (s : HeightCache.State N) (x : ℝ) : ∀ h ∈ s.heights, h ∈ (call P s x).1.heights := by
  intro h hh
  unfold call
  split_ifs
  · cases lookup s x <;> exact hh
  · unfold solveHeight
    dsimp only
    split_ifs
    · exact add_mono P _ _ _ _ h hh
    · exact add_mono P _ _ _ _ h hh
  · exact hh

/-- Displacement control never succeeds at a height in the cache or without contact. -/
theorem solveDisp_fails (noTime : Bool) (opt : Option (Problem N × HeightCache.State N)) (P : Problem N) (x : ℝ) {o : Problem N × HeightCache.State N} (ho : optimiser noTime opt P none 1 = .ok o)
    (h : x ∈ o.2.heights ∨ o.1.noNodes (o.1.touching x) = true) : ∃ e, solveDisp noTime opt P none x = .error e := by
  unfold solveDisp
  rw [ho]
  simp only [bind, Except.bind]
  rcases hcall : call o.1 (changeLoad o.2 1 none) x with ⟨s, _ | v⟩
  · exact ⟨_, rfl⟩
  · have : Static.results o.1 s = .error .typeError := by
      by_cases hx : x ∈ o.2.heights
      · exact disp_old o.1 o.2 x hx s v hcall
      · have hn := h.resolve_left hx
        unfold call at hcall
        have hx' : x ∉ (changeLoad o.2 1 none).heights := hx
        rw [if_neg hx'] at hcall
        split_ifs at hcall
        · injection hcall with hcall _
          subst hcall
          have e : (solveHeight o.1 (changeLoad o.2 1 none) x).1.results = none := by
            unfold solveHeight
            have hno : nodesFor o.1 (changeLoad o.2 1 none) x = o.1.touching x := Static.nodesFor_free o.1 rfl x
            simp only [hno, hn, if_true]
            rw [(Static.add_fields o.1 _ _ _ _).2.2]
            rfl
          unfold Static.results
          rw [e]
        · injection hcall with _ hcall
          cases hcall
    exact ⟨.typeError, by simp only [this]⟩

/-- What displacement control leaves behind. -/
theorem solveDisp_ok (noTime : Bool) (opt : Option (Problem N × HeightCache.State N)) (P : Problem N) (x : ℝ) {r} (h : solveDisp noTime opt P none x = .ok r) :
    ∃ o, optimiser noTime opt P none 1 = .ok o ∧ r.1 = (o.1, (call o.1 (changeLoad o.2 1 none) x).1) ∧ (o.1.useCache = true → (o.1.bccg x (o.1.touching x)).2 = false → x ∈ r.1.2.heights) := by
  unfold solveDisp at h
  obtain ⟨o, ho, h⟩ := Interp.bind_ok h
  refine ⟨o, ho, ?_⟩
  rcases hcall : call o.1 (changeLoad o.2 1 none) x with ⟨s, _ | v⟩
  · rw [hcall] at h; cases h
  · rw [hcall] at h
    obtain ⟨w, -, h⟩ := Interp.bind_ok h
    injection h with h
    subst h
    refine ⟨rfl, fun hc hb => ?_⟩
    dsimp only
    unfold call at hcall
    split_ifs at hcall with h1 h2
    · cases hl : lookup (changeLoad o.2 1 none) x with
      | none => rw [hl] at hcall; injection hcall with _ hcall; cases hcall
      | some t =>
        rw [hl] at hcall
        injection hcall with hcall _
        subst hcall
        exact h1
    · injection hcall with hcall _
      subst hcall
      unfold solveHeight
      have hno : nodesFor o.1 (changeLoad o.2 1 none) x = o.1.touching x := Static.nodesFor_free o.1 rfl x
      simp only [hno, hb]
      split_ifs
      · exact add_self o.1 hc _ _ _
      · exact add_self o.1 hc _ _ _
    · injection hcall with _ hcall
      cases hcall

theorem init_zero (P : Problem N) (m : ℝ) {s : HeightCache.State N} (h : HeightCache.init P none m = .ok s) : (0 : ℝ) ∈ s.heights := by
  obtain ⟨s', h1, -, -, -, -, h2⟩ := Static.init_none P m m
  rw [h] at h1
  injection h1 with h1
  subst h1
  rcases h2 with ⟨h2, -⟩ | ⟨x, y, -, h2, -⟩
  · have : s.heights = [0] := h2
    simp [this]
  · have : s.heights = [0, x] := h2
    simp [this]

/-- **C101 (negation)**: a step that asks for no interference in one of its increments, or for one without contact, can't be solved. -/
theorem C101_no_contact_wrong (a : Args) (prev : Previous N) (world : Nat → Option (ℝ × ℝ) → Problem N × ℝ) (choice : Nat → Choice) {qs : List (Interp.Quantities ℝ)}
    (hqs : Interp.run .real a.quantities prev.quantities = .ok qs) (hf : a.fastLd = false) (hu : a.unloading = false ∨ prev.contactNodes = none) (hl : a.quantities.load = .none)
    {k : ℕ} {q : Interp.Quantities ℝ} (hk : qs[k]? = some q) {x : ℝ} (hx : q.interference = some x)
    (hno : x = 0 ∨ ∀ j off, (world j off).1.noNodes ((world j off).1.touching x) = true) : ∃ e, run a prev world choice = .error e := by
  obtain ⟨st, -, hinc, h1, h2, -, hrun⟩ := run_eq hqs hf world choice
  have hctl := controlled hqs
  have hini : initialNodes a prev = none := by unfold initialNodes; rcases hu with h | h <;> simp [h]
  have hlen := (Interp.increments_get .real st _ _ _ _ _ hinc).1
  cases hres : run a prev world choice with
  | error e => exact ⟨e, rfl⟩
  | ok v =>
    exfalso
    obtain ⟨l, cs⟩ := v
    rw [hrun] at hres
    obtain ⟨e2, e3⟩ := backward a st prev world choice
      (fun _ o g => (∀ P s, o = some (P, s) → (0 : ℝ) ∈ s.heights ∧ ∃ j off, P = (world j off).1) ∧ ∀ G, g = some G → ∃ j off, G = world j off)
      (fun j _ => j ≠ k) st.steps 0 ⟨st.q, none, none, prev.time⟩ qs hinc ⟨fun P s h => by simp at h, fun G h => by simp at h⟩ (by
        intro j q' o g r hj hI hr
        rw [Nat.zero_add] at hr ⊢
        obtain ⟨y, hy⟩ := (hctl q' (List.mem_of_getElem? hj)).1 hl
        rw [hini, solveBy_disp hl hy] at hr
        have hG : ∃ i off, gapFor st a.quantities.noTime world j q'.offSet g = world i off := by
          unfold gapFor
          cases g with
          | none => exact ⟨_, _, rfl⟩
          | some G =>
            dsimp only
            split_ifs
            · exact ⟨_, _, rfl⟩
            · exact hI.2 G rfl
        obtain ⟨p, hp, hr1, -⟩ := solveDisp_ok _ _ _ _ hr
        have hp' : (0 : ℝ) ∈ p.2.heights ∧ ∃ j off, p.1 = (world j off).1 := by
          have hnew : (HeightCache.init (gapFor st a.quantities.noTime world j q'.offSet g).1 none 1).map (fun s => ((gapFor st a.quantities.noTime world j q'.offSet g).1, s)) = .ok p →
              (0 : ℝ) ∈ p.2.heights ∧ ∃ j off, p.1 = (world j off).1 := by
            intro h
            cases hs : HeightCache.init (gapFor st a.quantities.noTime world j q'.offSet g).1 none 1 with
            | error e => rw [hs] at h; cases h
            | ok s =>
              rw [hs] at h
              injection h with h
              subst h
              obtain ⟨i, off, hi⟩ := hG
              exact ⟨init_zero _ _ hs, i, off, by rw [← hi]⟩
          unfold optimiser at hp
          split at hp
          · rename_i o'
            injection hp with hp
            subst hp
            exact hI.1 _ _ rfl
          · exact hnew hp
        refine ⟨⟨?_, ?_⟩, ?_⟩
        · intro P s h
          injection h with h
          rw [hr1] at h
          injection h with h h'
          subst h'
          exact ⟨call_mono _ _ _ _ hp'.1, by rw [← h]; exact hp'.2⟩
        · intro G h
          injection h with h
          obtain ⟨i, off, hi⟩ := hG
          exact ⟨i, off, by rw [← h, hi]⟩
        · rintro rfl
          rw [hk] at hj
          injection hj with hj
          subst hj
          rw [hx] at hy
          injection hy with hy
          subst hy
          obtain ⟨e, he⟩ := solveDisp_fails _ _ _ x hp (by
            rcases hno with rfl | hno
            · exact Or.inl hp'.1
            · obtain ⟨i, off, hi⟩ := hp'.2
              rw [hi]
              exact Or.inr (hno i off))
          rw [he] at hr
          cases hr) l cs hres
    obtain ⟨hkl, -⟩ := List.getElem?_eq_some_iff.mp hk
    obtain ⟨c, hc⟩ : ∃ c, cs[k]? = some c := ⟨_, List.getElem?_eq_getElem (by omega)⟩
    obtain ⟨f, hne, -⟩ := e3 k c hc
    exact hne (Nat.zero_add k)

/-- **C101 (negation)**: without time dependence an interference that was solved in an earlier increment (for example a constant one) can't be solved again: the load is found in the cache and there
are no results. -/
theorem C101_repeat_wrong (a : Args) (prev : Previous N) (world : Nat → Option (ℝ × ℝ) → Problem N × ℝ) (choice : Nat → Choice) {qs : List (Interp.Quantities ℝ)}
    (hqs : Interp.run .real a.quantities prev.quantities = .ok qs) (hf : a.fastLd = false) (hu : a.unloading = false ∨ prev.contactNodes = none) (hl : a.quantities.load = .none)
    (ht : a.quantities.noTime = true) {P : Problem N} (hP : ∀ q, qs[0]? = some q → (world 0 q.offSet).1 = P) (hcache : P.useCache = true)
    {i j : ℕ} (hij : i < j) {q q' : Interp.Quantities ℝ} (hi : qs[i]? = some q) (hj : qs[j]? = some q') {x : ℝ} (hx : q.interference = some x) (hx' : q'.interference = some x)
    (hsolved : (P.bccg x (P.touching x)).2 = false) : ∃ e, run a prev world choice = .error e := by
  obtain ⟨st, -, hinc, h1, h2, -, hrun⟩ := run_eq hqs hf world choice
  have hctl := controlled hqs
  have hini : initialNodes a prev = none := by unfold initialNodes; rcases hu with h | h <;> simp [h]
  have hlen := (Interp.increments_get .real st _ _ _ _ _ hinc).1
  cases hres : run a prev world choice with
  | error e => exact ⟨e, rfl⟩
  | ok v =>
    exfalso
    obtain ⟨l, cs⟩ := v
    rw [hrun] at hres
    obtain ⟨e2, e3⟩ := backward a st prev world choice
      (fun k o g => (k = 0 ∧ o = none ∧ g = none) ∨ ∃ s, o = some (P, s) ∧ (i < k → x ∈ s.heights))
      (fun k _ => k ≠ j) st.steps 0 ⟨st.q, none, none, prev.time⟩ qs hinc (Or.inl ⟨rfl, rfl, rfl⟩) (by
        intro k p o g r hk hI hr
        rw [Nat.zero_add] at hI hr ⊢
        obtain ⟨y, hy⟩ := (hctl p (List.mem_of_getElem? hk)).1 hl
        rw [hini, solveBy_disp hl hy] at hr
        obtain ⟨w, hw, hr1, hr2⟩ := solveDisp_ok _ _ _ _ hr
        have hwP : w.1 = P ∧ (i < k → x ∈ w.2.heights) := by
          rw [ht] at hw
          rcases hI with ⟨hk0, rfl, rfl⟩ | ⟨s, rfl, hs⟩
          · subst hk0
            unfold optimiser gapFor at hw
            dsimp only at hw
            rw [hP p hk] at hw
            cases hs : HeightCache.init P none 1 with
            | error e => rw [hs] at hw; cases hw
            | ok s =>
              rw [hs] at hw
              injection hw with hw
              subst hw
              exact ⟨rfl, fun h => absurd h (Nat.not_lt_zero i)⟩
          · injection hw with hw
            subst hw
            exact ⟨rfl, hs⟩
        refine ⟨Or.inr ⟨_, by rw [hr1, hwP.1], ?_⟩, ?_⟩
        · intro hik
          rcases Nat.lt_succ_iff_lt_or_eq.mp hik with h | rfl
          · have := call_mono w.1 (changeLoad w.2 1 none) y x (hwP.2 h)
            rw [← hwP.1]
            exact this
          · rw [hi] at hk
            injection hk with hk
            subst hk
            rw [hx] at hy
            injection hy with hy
            subst hy
            have := hr2 (by rw [hwP.1]; exact hcache) (by rw [hwP.1]; exact hsolved)
            rw [hr1] at this
            rw [← hwP.1]
            exact this
        · rintro rfl
          rw [hj] at hk
          injection hk with hk
          subst hk
          rw [hx'] at hy
          injection hy with hy
          subst hy
          obtain ⟨e, he⟩ := solveDisp_fails _ _ _ x hw (Or.inl (hwP.2 hij))
          rw [he] at hr
          cases hr) l cs hres
    obtain ⟨hkl, -⟩ := List.getElem?_eq_some_iff.mp hj
    obtain ⟨c, hc⟩ : ∃ c, cs[j]? = some c := ⟨_, List.getElem?_eq_getElem (by omega)⟩
    obtain ⟨f, hne, -⟩ := e3 j c hc
    exact hne (Nat.zero_add j)

/-- **C101 (negation)**: without time dependence the height optimiser of the first call of `solve` is kept: in a second call of the same step the surfaces, which may have been changed by other steps since,
make no difference to the loads. -/
theorem C101_second_wrong (a : Args) (st : Interp.Step ℝ) (q : Interp.Quantities ℝ) (o : Problem N × HeightCache.State N) (prev : Previous N) (world world' : Nat → Option (ℝ × ℝ) → Problem N × ℝ)
    (choice : Nat → Choice) (hl : a.quantities.load = .none) (ht : a.quantities.noTime = true) :
    (solve a st q (some o) prev world choice).map Prod.snd = (solve a st q (some o) prev world' choice).map Prod.snd := by
  have key : ∀ todo i (s s' : Loop N), s.q = s'.q → s.opt = s'.opt → s.opt.isSome = true → s.time = s'.time →
      (increments a st prev world choice todo i s).map Prod.snd = (increments a st prev world' choice todo i s').map Prod.snd := by
    intro todo
    induction todo with
    | zero => intro i s s' _ _ _ _; rfl
    | succ n ih =>
      intro i s s' h1 h2 h3 h4
      rw [increments, increments]
      cases hq : Interp.updateMovement .real st prev.quantities s.q (Interp.relativeTime .real st.steps i) with
      | error e =>
        have hq' := hq
        rw [h1] at hq'
        simp [increment, hq, hq', bind, Except.bind, Except.map]
      | ok p =>
        have hq' := hq
        rw [h1] at hq'
        rw [increment_of a st prev world choice i s hq, increment_of a st prev world' choice i s' hq']
        have hs : ∀ P P' upper upper', solveBy a p s.opt P (initialNodes a prev) upper (choice i) = solveBy a p s'.opt P' (initialNodes a prev) upper' (choice i) := by
          intro P P' upper upper'
          rw [← h2]
          obtain ⟨w, hw⟩ := Option.isSome_iff_exists.mp h3
          unfold solveBy
          rw [hl, hw]
          cases p.interference with
          | none => rfl
          | some x =>
            dsimp only
            unfold solveDisp
            rw [ht]
            rfl
        rw [hs _ (gapFor st a.quantities.noTime world' i p.offSet s'.gap).1 _ ((gapFor st a.quantities.noTime world' i p.offSet s'.gap).2 * a.upperFactor)]
        cases solveBy a p s'.opt (gapFor st a.quantities.noTime world' i p.offSet s'.gap).1 (initialNodes a prev) ((gapFor st a.quantities.noTime world' i p.offSet s'.gap).2 * a.upperFactor) (choice i) with
        | error e => rfl
        | ok r =>
          have := ih (i + 1) ⟨p, some r.1, some (gapFor st a.quantities.noTime world i p.offSet s.gap), s.time + a.period / a.quantities.steps⟩
            ⟨p, some r.1, some (gapFor st a.quantities.noTime world' i p.offSet s'.gap), s'.time + a.period / a.quantities.steps⟩ rfl rfl rfl (by rw [h4])
          simp only [Except.map, bind, Except.bind] at this ⊢
          rw [h4] at this ⊢
          revert this
          generalize increments a st prev world choice n (i + 1) _ = r1
          generalize increments a st prev world' choice n (i + 1) _ = r2
          cases r1 <;> cases r2 <;> simp
  unfold solve
  split_ifs
  · rfl
  · exact key _ _ _ _ rfl rfl rfl rfl

example (st : Interp.Step ℝ) (q : Interp.Quantities ℝ) (o : Problem N × HeightCache.State N) (prev : Previous N) (world world' : Nat → Option (ℝ × ℝ) → Problem N × ℝ) (choice : Nat → Choice) (a : Args) :=
  C101_second_wrong { a with quantities := { a.quantities with load := .none, noTime := true } } st q o prev world world' choice rfl rfl

end Verif.Quasi
