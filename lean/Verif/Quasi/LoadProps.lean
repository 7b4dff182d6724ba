import Verif.Quasi.Props
import Mathlib.Tactic.Linarith
import Mathlib.Tactic.NormNum

/-!
# C102: load control of the quasi static step
-/

namespace Verif.Quasi

open Verif HeightCache

variable {N : Type}

/-- The load that is solved for in load control. -/
theorem solveBy_load {a : Args} (hl : a.quantities.load ≠ .none) {q : Interp.Quantities ℝ} {load : ℝ} (hx : q.load = some load) (o : Option (Problem N × HeightCache.State N)) (P : Problem N)
    (ini : Option N) (upper : ℝ) (c : Choice) : solveBy a q o P ini upper c = solveLoad a.quantities.noTime o P ini load upper c := by
  unfold solveBy
  rw [hx]
  cases h : a.quantities.load with
  | none => exact absurd h hl
  | number y => rfl
  | seq v => rfl

/-- What holds for each solution of an increment holds for the states of the step, with time dependence. -/
theorem backward_time {a : Args} {prev : Previous N} {world : Nat → Option (ℝ × ℝ) → Problem N × ℝ} {choice : Nat → Choice} {qs : List (Interp.Quantities ℝ)}
    (hqs : Interp.run .real a.quantities prev.quantities = .ok qs) (hu : a.unloading = false ∨ prev.contactNodes = none) (hl : a.quantities.load ≠ .none)
    (ht : a.quantities.noTime = false) {l : Loop N} {cs : List Current} (hrun : run a prev world choice = .ok (l, cs)) {k : ℕ} {c : Current} (hk : cs[k]? = some c) :
    ∃ q load o r, qs[k]? = some q ∧ q.load = some load ∧ solveLoad false o (world k q.offSet).1 none load ((world k q.offSet).2 * a.upperFactor) (choice k) = .ok r ∧ Shows c r.2 := by
  have hf : a.fastLd = false := by
    by_contra h
    obtain ⟨e, he⟩ := C100_fast_wrong a prev world choice (by simpa using h)
    rw [he] at hrun
    cases hrun
  obtain ⟨st, -, hinc, h1, h2, -, hr⟩ := run_eq hqs hf world choice
  have hctl := controlled hqs
  have hini : initialNodes a prev = none := by unfold initialNodes; rcases hu with h | h <;> simp [h]
  rw [hr] at hrun
  obtain ⟨-, e3⟩ := backward a st prev world choice (fun _ _ _ => True)
    (fun k f => ∃ q load o r, qs[k]? = some q ∧ q.load = some load ∧ solveLoad false o (world k q.offSet).1 none load ((world k q.offSet).2 * a.upperFactor) (choice k) = .ok r ∧ f = r.2)
    st.steps 0 ⟨st.q, none, none, prev.time⟩ qs hinc trivial (by
      intro k q o g r hk _ hr
      rw [Nat.zero_add] at hr ⊢
      obtain ⟨load, hload⟩ := (hctl q (List.mem_of_getElem? hk)).2 hl
      have hgap : gapFor st a.quantities.noTime world k q.offSet g = world k q.offSet := by
        unfold gapFor
        cases g with
        | none => rfl
        | some g => simp [ht]
      rw [hgap, hini, solveBy_load hl hload, ht] at hr
      exact ⟨trivial, q, load, o, r, hk, hload, hr, rfl⟩) l cs hrun
  obtain ⟨f, ⟨q, load, o, r, g1, g2, g3, rfl⟩, hs⟩ := e3 k c hk
  rw [Nat.zero_add] at g1 g3
  exact ⟨q, load, o, r, g1, g2, g3, hs⟩

/-- A search with a new height optimiser, taken apart. -/
theorem solveLoad_new {o : Option (Problem N × HeightCache.State N)} {P : Problem N} {load upper : ℝ} {ch : Choice} {r} (h : solveLoad false o P none load upper ch = .ok r) :
    ∃ s s1 s2 root, HeightCache.init P none load = .ok s ∧ rootScalar P (changeLoad s load none) 0 upper ch = (s1, .ok root) ∧ ensure P s1 0 upper = (s2, .ok ()) ∧
      ∃ t, Static.results P s2 = .ok t ∧ r.2 = ⟨root, t.1, t.2, Static.close t.2 load && !s2.lastFailed⟩ := by
  unfold solveLoad at h
  obtain ⟨w, hw, h⟩ := Interp.bind_ok h
  unfold optimiser at hw
  dsimp only at hw
  cases hs : HeightCache.init P none load with
  | error e => rw [hs] at hw; cases hw
  | ok s =>
    rw [hs] at hw
    injection hw with hw
    subst hw
    obtain ⟨b, hb, h⟩ := Interp.bind_ok h
    unfold brackets at hb
    simp only [Bool.false_eq_true, if_false, Except.ok.injEq] at hb
    subst hb
    dsimp only at h
    rcases hroot : rootScalar P (changeLoad s load none) 0 upper ch with ⟨s1, _ | root⟩
    · rw [hroot] at h; cases h
    · rw [hroot] at h
      dsimp only at h
      rcases hens : ensure P s1 0 upper with ⟨s2, _ | ⟨⟩⟩
      · rw [hens] at h; cases h
      · rw [hens] at h
        obtain ⟨t, ht, h⟩ := Interp.bind_ok h
        injection h with h
        subst h
        exact ⟨s, s1, s2, root, rfl, hroot, hens, t, ht, rfl⟩

theorem root_inv (P : Problem N) {load upper : ℝ} {s : HeightCache.State N} (hs : HeightCache.init P none load = .ok s) (ch : Choice) {tried : List ℝ} (hup : upper ∈ tried)
    (hmore : ∀ x ∈ ch.more, x ∈ tried) (htouch : ∀ x ∈ tried, P.noNodes (P.touching x) = false) {s1 : HeightCache.State N} {root : ℝ}
    (h : rootScalar P (changeLoad s load none) 0 upper ch = (s1, .ok root)) : Static.Inv P load tried s1 ∧ (root ∈ 0 :: upper :: ch.more) := by
  obtain ⟨s', h1, h2, h3, h4, h5, h6⟩ := Static.init_none P load load
  rw [hs] at h1
  injection h1 with h1
  subst h1
  have hinv : Static.Inv P load tried (changeLoad s load none) := ⟨h4, h5, fun _ => h3, fun h hh => by rw [h2] at hh; cases hh⟩
  unfold rootScalar at h
  rw [Static.call_zero P h6] at h
  dsimp only at h
  have hcu := Static.call_inv P hinv hup (htouch upper hup)
  rcases hcall : call P (changeLoad s load none) upper with ⟨s', r⟩
  rw [hcall] at hcu h
  cases r with
  | error e => cases h
  | ok v =>
    dsimp only at h hcu
    split_ifs at h
    · injection h with h h'
      injection h' with h'
      subst h; subst h'
      exact ⟨hcu, by simp⟩
    · injection h with h h'
      injection h' with h'
      subst h; subst h'
      exact ⟨hcu, by simp⟩
    · injection h with h h'
      cases h'
    · have htry := Static.try_inv P ch.more hmore (fun x hx => htouch x (hmore x hx)) s' hcu
      rcases hall : Static.tryHeights P s' ch.more with ⟨s'', _ | ⟨⟩⟩
      · rw [hall] at h
        injection h with h h'
        cases h'
      · rw [hall] at h htry
        injection h with h h'
        injection h' with h'
        subst h; subst h'
        refine ⟨htry, ?_⟩
        by_cases hp : ch.pick < (0 :: upper :: ch.more).length
        · rw [List.getD_eq_getElem _ _ hp]
          exact List.getElem_mem hp
        · rw [List.getD_eq_default _ _ (by omega)]
          simp

/-- **C102**: with time dependence and a set load, in each increment: the loads are those of one of the heights tried (the upper bound, half of it or one chosen by the root finder), the
interference is one of the heights tried, and the state is reported as converged exactly if the load is within 5 % of the load of this increment and the contact solver succeeded. -/
theorem C102_load (a : Args) (prev : Previous N) (world : Nat → Option (ℝ × ℝ) → Problem N × ℝ) (choice : Nat → Choice) {qs : List (Interp.Quantities ℝ)}
    (hqs : Interp.run .real a.quantities prev.quantities = .ok qs) (hu : a.unloading = false ∨ prev.contactNodes = none) (hl : a.quantities.load ≠ .none)
    (ht : a.quantities.noTime = false) {l : Loop N} {cs : List Current} (hrun : run a prev world choice = .ok (l, cs)) {k : ℕ} {c : Current} (hk : cs[k]? = some c)
    {q : Interp.Quantities ℝ} (hq : qs[k]? = some q) {load : ℝ} (hload : q.load = some load) {P : Problem N} (hP : P = (world k q.offSet).1) {upper : ℝ} (hup : upper = (world k q.offSet).2 * a.upperFactor)
    (htouch : ∀ x ∈ upper :: upper / 2 :: (choice k).more, P.noNodes (P.touching x) = false) :
    c.interference ∈ 0 :: upper :: (choice k).more ∧ c.solvedAt ∈ upper :: upper / 2 :: (choice k).more ∧ c.totalLoad = (P.bccg c.solvedAt (P.touching c.solvedAt)).1 ∧
      (c.converged = true ↔ load ≠ 0 ∧ |c.totalLoad - load| / load < 5 / 100 ∧ (P.bccg c.solvedAt (P.touching c.solvedAt)).2 = false) := by
  obtain ⟨q', load', o, r, g1, g2, g3, hs⟩ := backward_time hqs hu hl ht hrun hk
  rw [hq] at g1
  injection g1 with g1
  subst g1
  rw [hload] at g2
  injection g2 with g2
  subst g2
  rw [← hP, ← hup] at g3
  obtain ⟨s, s1, s2, root, e1, e2, e3, t, e4, e5⟩ := solveLoad_new g3
  obtain ⟨hinv, hroot⟩ := root_inv P e1 (choice k) (tried := upper :: upper / 2 :: (choice k).more) (by simp) (fun x hx => by simp [hx]) htouch e2
  have hinv2 : Static.Inv P load (upper :: upper / 2 :: (choice k).more) s2 := by
    unfold ensure at e3
    cases hres : s1.results with
    | some h =>
      rw [hres] at e3
      injection e3 with e3 _
      subst e3
      exact hinv
    | none =>
      rw [hres, zero_add] at e3
      dsimp only at e3
      have := Static.call_inv P hinv (x := upper / 2) (by simp) (htouch (upper / 2) (by simp))
      rcases hcall : call P s1 (upper / 2) with ⟨s', _ | v⟩
      · rw [hcall] at e3
        injection e3 with _ e3
        cases e3
      · rw [hcall] at e3 this
        injection e3 with e3 _
        subst e3
        exact this
  unfold Static.results at e4
  cases hres : s2.results with
  | none => rw [hres] at e4; cases e4
  | some h =>
    rw [hres] at e4
    dsimp only at e4
    rw [Static.nodesFor_free P hinv2.free] at e4
    injection e4 with e4
    subst e4
    obtain ⟨m1, m2⟩ := hinv2.some h hres
    obtain ⟨s1', s2', s3', s4'⟩ := hs
    rw [e5] at s1' s2' s3' s4'
    dsimp only at s1' s2' s3' s4'
    rw [s1', s2', s3', s4']
    refine ⟨hroot, m1, rfl, ?_⟩
    simp [Static.close, m2, and_assoc]

/-- **C102 (partial)**: converged in load control means that the load is within 5 % of the load that was asked for. Missing: loads that are not positive; steps without time dependence, see
`C102_no_time_partial`. -/
theorem C102_converged_partial (a : Args) (prev : Previous N) (world : Nat → Option (ℝ × ℝ) → Problem N × ℝ) (choice : Nat → Choice) {qs : List (Interp.Quantities ℝ)}
    (hqs : Interp.run .real a.quantities prev.quantities = .ok qs) (hu : a.unloading = false ∨ prev.contactNodes = none) (hl : a.quantities.load ≠ .none)
    (ht : a.quantities.noTime = false) {l : Loop N} {cs : List Current} (hrun : run a prev world choice = .ok (l, cs)) {k : ℕ} {c : Current} (hk : cs[k]? = some c)
    {q : Interp.Quantities ℝ} (hq : qs[k]? = some q) {load : ℝ} (hload : q.load = some load) (hpos : 0 < load)
    (htouch : ∀ x ∈ (world k q.offSet).2 * a.upperFactor :: (world k q.offSet).2 * a.upperFactor / 2 :: (choice k).more, (world k q.offSet).1.noNodes ((world k q.offSet).1.touching x) = false)
    (hconv : c.converged = true) : |c.totalLoad - load| < 5 / 100 * load := by
  obtain ⟨-, -, -, h⟩ := C102_load a prev world choice hqs hu hl ht hrun hk hq hload rfl rfl htouch
  obtain ⟨-, h, -⟩ := h.mp hconv
  rwa [div_lt_iff₀ hpos] at h

/-! ## The height that is reported -/

theorem call_heights (P : Problem N) (s : HeightCache.State N) (x : ℝ) : ∀ h ∈ (call P s x).1.heights, h ∈ s.heights ∨ h = x := by
  intro h hh
  unfold call at hh
  split_ifs at hh
  · revert hh
    cases lookup s x <;> exact fun hh => Or.inl hh
  · exact solve_heights P s x h hh
  · exact Or.inl hh

theorem tryHeights_append (P : Problem N) (xs : List ℝ) (h : ℝ) : ∀ s s1, Static.tryHeights P s (xs ++ [h]) = (s1, .ok ()) →
    ∃ s0 v, (∀ y ∈ s0.heights, y ∈ s.heights ∨ y ∈ xs) ∧ s0.setContactNodes = s.setContactNodes ∧ call P s0 h = (s1, .ok v) := by
  induction xs with
  | nil =>
    intro s s1 hs
    rw [List.nil_append, Static.tryHeights] at hs
    rcases hc : call P s h with ⟨s', _ | v⟩
    · rw [hc] at hs
      injection hs with _ hs
      cases hs
    · rw [hc] at hs
      simp only [Static.tryHeights] at hs
      injection hs with hs _
      subst hs
      exact ⟨s, v, fun y hy => Or.inl hy, rfl, hc⟩
  | cons x xs ih =>
    intro s s1 hs
    rw [List.cons_append, Static.tryHeights] at hs
    have hm := call_heights P s x
    have hfree : (call P s x).1.setContactNodes = s.setContactNodes := by
      unfold call
      split_ifs
      · cases lookup s x <;> rfl
      · unfold solveHeight
        dsimp only
        split_ifs <;> exact (Static.add_fields P _ _ _ _).1
      · rfl
    rcases hc : call P s x with ⟨s', _ | v⟩
    · rw [hc] at hs
      injection hs with _ hs
      cases hs
    · rw [hc] at hs hm hfree
      obtain ⟨s0, w, h1, h2, h3⟩ := ih s' s1 hs
      refine ⟨s0, w, fun y hy => ?_, h2.trans hfree, h3⟩
      rcases h1 y hy with h | h
      · rcases hm y h with h | h
        · exact Or.inl h
        · exact Or.inr (by simp [h])
      · exact Or.inr (by simp [h])

/-- The loads are those of the last height that the root finder tried, the interference is the one it returns. -/
theorem last_height {P : Problem N} (him : P.imMats = true) {o : Option (Problem N × HeightCache.State N)} {load upper : ℝ} {ch : Choice} {r}
    (hr : solveLoad false o P none load upper ch = .ok r) (hfu : Static.Fresh P upper) (htu : P.noNodes (P.touching upper) = false) (hload : load ≠ 0) (hne : (P.bccg upper (P.touching upper)).1 ≠ load)
    {xs : List ℝ} {h : ℝ} (hmore : ch.more = xs ++ [h]) (hfh : Static.Fresh P h) (hnew : h ∉ upper :: xs) (hth : P.noNodes (P.touching h) = false) :
    r.2.solvedAt = h ∧ r.2.interference = (0 :: upper :: ch.more).getD ch.pick upper := by
  obtain ⟨s, s1, s2, root, e1, e2, e3, t, e4, e5⟩ := solveLoad_new hr
  obtain ⟨s', h1, h2, h3, h4, h5, h6⟩ := Static.init_none P load load
  rw [e1] at h1
  injection h1 with h1
  subst h1
  unfold rootScalar at e2
  rw [Static.call_zero P h6] at e2
  dsimp only at e2
  rw [Static.call_fresh P him h6 hfu, (Static.solve_fields P h4 upper htu).2.2.2.2, h5] at e2
  dsimp only at e2
  rw [if_neg (by simpa using hload), if_neg (by simpa [sub_eq_zero] using hne)] at e2
  split_ifs at e2
  · injection e2 with _ e2
    cases e2
  · rcases hall : Static.tryHeights P (solveHeight P (changeLoad s load none) upper).1 ch.more with ⟨s'', _ | ⟨⟩⟩
    · rw [hall] at e2
      injection e2 with _ e2
      cases e2
    · rw [hall] at e2
      injection e2 with e2 e2'
      injection e2' with e2'
      subst e2
      rw [hmore] at hall
      obtain ⟨s0, v, k1, k2, k3⟩ := tryHeights_append P xs h _ _ hall
      have hs0 : s0.setContactNodes = false := k2.trans (Static.solve_fields P h4 upper htu).1
      have hnot : h ∉ s0.heights := by
        intro hm
        rcases k1 h hm with hm | hm
        · rcases solve_heights P _ upper h hm with hm | hm
          · have hm' : h ∈ s.heights := hm
            rcases h6 with ⟨a, -⟩ | ⟨x, y, hxy, a, -⟩
            · have a' : s.heights = [0] := a
              rw [a'] at hm'
              exact hfh.1 (by simpa using hm')
            · have a' : s.heights = [0, x] := a
              rw [a'] at hm'
              simp only [List.mem_cons, List.not_mem_nil, or_false] at hm'
              rcases hm' with hm' | hm'
              · exact hfh.1 hm'
              · exact hfh.2 y (by rw [hm', hxy])
          · exact hnew (by simp [hm])
        · exact hnew (by simp [hm])
      unfold call at k3
      rw [if_neg hnot, him] at k3
      simp only [if_true] at k3
      injection k3 with k3 _
      have hres : s''.results = some h := by rw [← k3]; exact (Static.solve_fields P hs0 h hth).2.2.1
      have hs2 : s2 = s'' := by
        unfold ensure at e3
        rw [hres] at e3
        injection e3 with e3 _
        exact e3.symm
      subst hs2
      unfold Static.results at e4
      rw [hres] at e4
      injection e4 with e4
      subst e4
      rw [e5]
      exact ⟨rfl, e2'.symm⟩

/-- **C102 (partial)**: the interference that is reported is the one that the loads and displacements were computed for, if the root finder returns the height it tried last (and this height was not tried before).
Missing: root finders that return another height, see `C102_height_wrong`. -/
theorem C102_height_partial (a : Args) (prev : Previous N) (world : Nat → Option (ℝ × ℝ) → Problem N × ℝ) (choice : Nat → Choice) {qs : List (Interp.Quantities ℝ)}
    (hqs : Interp.run .real a.quantities prev.quantities = .ok qs) (hu : a.unloading = false ∨ prev.contactNodes = none) (hl : a.quantities.load ≠ .none)
    (ht : a.quantities.noTime = false) {l : Loop N} {cs : List Current} (hrun : run a prev world choice = .ok (l, cs)) {k : ℕ} {c : Current} (hk : cs[k]? = some c)
    {q : Interp.Quantities ℝ} (hq : qs[k]? = some q) {load : ℝ} (hload : q.load = some load) {P : Problem N} (hP : P = (world k q.offSet).1) {upper : ℝ} (hup : upper = (world k q.offSet).2 * a.upperFactor)
    (him : P.imMats = true) (hfu : Static.Fresh P upper) (htu : P.noNodes (P.touching upper) = false) (h0 : load ≠ 0) (hne : (P.bccg upper (P.touching upper)).1 ≠ load)
    {xs : List ℝ} {h : ℝ} (hmore : (choice k).more = xs ++ [h]) (hfh : Static.Fresh P h) (hnew : h ∉ upper :: xs) (hth : P.noNodes (P.touching h) = false)
    (hpick : (choice k).pick = xs.length + 2) : c.interference = c.solvedAt ∧ c.solvedAt = h := by
  obtain ⟨q', load', o, r, g1, g2, g3, hs⟩ := backward_time hqs hu hl ht hrun hk
  rw [hq] at g1
  injection g1 with g1
  subst g1
  rw [hload] at g2
  injection g2 with g2
  subst g2
  rw [← hP, ← hup] at g3
  obtain ⟨e1, e2⟩ := last_height him g3 hfu htu h0 hne hmore hfh hnew hth
  rw [hs.1, hs.2.1, e1, e2, hpick, hmore]
  refine ⟨?_, rfl⟩
  simp [List.getD]

/-- **C102 (negation)**: if the root finder returns another height than the one it tried last (Brent's method returns the best one of the last bracket) the loads and displacements of the state belong to
another interference than the one that is reported. -/
theorem C102_height_wrong (a : Args) (prev : Previous N) (world : Nat → Option (ℝ × ℝ) → Problem N × ℝ) (choice : Nat → Choice) {qs : List (Interp.Quantities ℝ)}
    (hqs : Interp.run .real a.quantities prev.quantities = .ok qs) (hu : a.unloading = false ∨ prev.contactNodes = none) (hl : a.quantities.load ≠ .none)
    (ht : a.quantities.noTime = false) {l : Loop N} {cs : List Current} (hrun : run a prev world choice = .ok (l, cs)) {k : ℕ} {c : Current} (hk : cs[k]? = some c)
    {q : Interp.Quantities ℝ} (hq : qs[k]? = some q) {load : ℝ} (hload : q.load = some load) {P : Problem N} (hP : P = (world k q.offSet).1) {upper : ℝ} (hup : upper = (world k q.offSet).2 * a.upperFactor)
    (him : P.imMats = true) (hfu : Static.Fresh P upper) (htu : P.noNodes (P.touching upper) = false) (h0 : load ≠ 0) (hne : (P.bccg upper (P.touching upper)).1 ≠ load)
    {xs : List ℝ} {h : ℝ} (hmore : (choice k).more = xs ++ [h]) (hfh : Static.Fresh P h) (hnew : h ∉ upper :: xs) (hth : P.noNodes (P.touching h) = false)
    (hpick : (choice k).pick < xs.length + 2) : c.interference ≠ c.solvedAt := by
  obtain ⟨q', load', o, r, g1, g2, g3, hs⟩ := backward_time hqs hu hl ht hrun hk
  rw [hq] at g1
  injection g1 with g1
  subst g1
  rw [hload] at g2
  injection g2 with g2
  subst g2
  rw [← hP, ← hup] at g3
  obtain ⟨e1, e2⟩ := last_height him g3 hfu htu h0 hne hmore hfh hnew hth
  rw [hs.1, hs.2.1, e1, e2, hmore]
  intro he
  have hlt : (choice k).pick < (0 :: upper :: xs).length := by simpa using hpick
  have hsplit : (0 : ℝ) :: upper :: (xs ++ [h]) = (0 :: upper :: xs) ++ [h] := rfl
  rw [hsplit, List.getD_append _ _ _ _ hlt, List.getD_eq_getElem _ _ hlt] at he
  have hm := List.getElem_mem hlt
  rw [he] at hm
  rcases List.mem_cons.mp hm with hm | hm
  · exact hfh.1 hm
  · exact hnew hm

/-- **C102 (negation)**: an increment with the load zero (the first one of a ramp that starts at zero) reports no interference together with the loads and displacements for the upper bound of the
interference, not converged. -/
theorem C102_zero_load_wrong (a : Args) (prev : Previous N) (world : Nat → Option (ℝ × ℝ) → Problem N × ℝ) (choice : Nat → Choice) {qs : List (Interp.Quantities ℝ)}
    (hqs : Interp.run .real a.quantities prev.quantities = .ok qs) (hu : a.unloading = false ∨ prev.contactNodes = none) (hl : a.quantities.load ≠ .none)
    (ht : a.quantities.noTime = false) {l : Loop N} {cs : List Current} (hrun : run a prev world choice = .ok (l, cs)) {k : ℕ} {c : Current} (hk : cs[k]? = some c)
    {q : Interp.Quantities ℝ} (hq : qs[k]? = some q) (hload : q.load = some 0) {P : Problem N} (hP : P = (world k q.offSet).1) {upper : ℝ} (hup : upper = (world k q.offSet).2 * a.upperFactor)
    (him : P.imMats = true) (hfu : Static.Fresh P upper) (htu : P.noNodes (P.touching upper) = false) :
    c.interference = 0 ∧ c.solvedAt = upper ∧ c.totalLoad = (P.bccg upper (P.touching upper)).1 ∧ c.converged = false := by
  obtain ⟨q', load', o, r, g1, g2, g3, hs⟩ := backward_time hqs hu hl ht hrun hk
  rw [hq] at g1
  injection g1 with g1
  subst g1
  rw [hload] at g2
  injection g2 with g2
  subst g2
  rw [← hP, ← hup] at g3
  obtain ⟨s, s1, s2, root, e1, e2, e3, t, e4, e5⟩ := solveLoad_new g3
  obtain ⟨s', h1, h2, h3, h4, h5, h6⟩ := Static.init_none P 0 0
  rw [e1] at h1
  injection h1 with h1
  subst h1
  obtain ⟨f1, f2, f3, f4, f5⟩ := Static.solve_fields P h4 upper htu
  unfold rootScalar at e2
  rw [Static.call_zero P h6] at e2
  dsimp only at e2
  rw [Static.call_fresh P him h6 hfu, h5] at e2
  dsimp only at e2
  rw [if_pos (by simp)] at e2
  injection e2 with e2 e2'
  injection e2' with e2'
  subst e2
  subst e2'
  have hs2 : s2 = (solveHeight P (changeLoad s 0 none) upper).1 := by
    unfold ensure at e3
    rw [f3] at e3
    injection e3 with e3 _
    exact e3.symm
  subst hs2
  unfold Static.results at e4
  rw [f3] at e4
  dsimp only at e4
  rw [Static.nodesFor_free P f1] at e4
  injection e4 with e4
  subst e4
  rw [hs.1, hs.2.1, hs.2.2.1, hs.2.2.2, e5]
  exact ⟨rfl, rfl, rfl, by simp [Static.close]⟩

/-- **C102**: a step that asks for a load out of reach of the bracket in one of its increments (below zero, or above the load at the upper bound) is not solved. -/
theorem C102_out_of_reach (a : Args) (prev : Previous N) (world : Nat → Option (ℝ × ℝ) → Problem N × ℝ) (choice : Nat → Choice) {qs : List (Interp.Quantities ℝ)}
    (hqs : Interp.run .real a.quantities prev.quantities = .ok qs) (hu : a.unloading = false ∨ prev.contactNodes = none) (hl : a.quantities.load ≠ .none)
    (ht : a.quantities.noTime = false) {k : ℕ}
    {q : Interp.Quantities ℝ} (hq : qs[k]? = some q) {load : ℝ} (hload : q.load = some load) {P : Problem N} (hP : P = (world k q.offSet).1) {upper : ℝ} (hup : upper = (world k q.offSet).2 * a.upperFactor)
    (him : P.imMats = true) (hfu : Static.Fresh P upper) (htu : P.noNodes (P.touching upper) = false)
    (hout : 0 < load ∧ (P.bccg upper (P.touching upper)).1 < load ∨ load < 0 ∧ load < (P.bccg upper (P.touching upper)).1) : ∃ e, run a prev world choice = .error e := by
  cases hrun : run a prev world choice with
  | error e => exact ⟨e, rfl⟩
  | ok v =>
    exfalso
    obtain ⟨l, cs⟩ := v
    have hlen := (C100_times a prev world choice hrun).2.1
    have hlen' := (Interp.C24_step_quantities_partial _ _ _ hqs).1
    obtain ⟨hkl, -⟩ := List.getElem?_eq_some_iff.mp hq
    obtain ⟨c, hk⟩ : ∃ c, cs[k]? = some c := ⟨_, List.getElem?_eq_getElem (by omega)⟩
    obtain ⟨q', load', o, r, g1, g2, g3, hs⟩ := backward_time hqs hu hl ht hrun hk
    rw [hq] at g1
    injection g1 with g1
    subst g1
    rw [hload] at g2
    injection g2 with g2
    subst g2
    rw [← hP, ← hup] at g3
    obtain ⟨s, s1, s2, root, e1, e2, -⟩ := solveLoad_new g3
    obtain ⟨s', h1, h2, h3, h4, h5, h6⟩ := Static.init_none P load load
    rw [e1] at h1
    injection h1 with h1
    subst h1
    unfold rootScalar at e2
    rw [Static.call_zero P h6] at e2
    dsimp only at e2
    rw [Static.call_fresh P him h6 hfu, (Static.solve_fields P h4 upper htu).2.2.2.2, h5] at e2
    dsimp only at e2
    rcases hout with ⟨ha, hb⟩ | ⟨ha, hb⟩
    · rw [if_neg (by linarith), if_neg (by linarith), if_pos ⟨fun _ => by linarith, fun _ => by linarith⟩] at e2
      injection e2 with _ e2
      cases e2
    · rw [if_neg (by linarith), if_neg (by linarith), if_pos ⟨fun h => by linarith, fun h => by linarith⟩] at e2
      injection e2 with _ e2
      cases e2

/-! ## Loads within reach -/

theorem call_ok (P : Problem N) (him : P.imMats = true) {s : HeightCache.State N} (hlen : s.heights.length = s.totals.length) (x : ℝ) :
    ∃ s' v, call P s x = (s', .ok v) ∧ s'.heights.length = s'.totals.length ∧ (s.results.isSome = true → s'.results.isSome = true) := by
  have hadd : ∀ (s : HeightCache.State N) t f, s.heights.length = s.totals.length → (addToCache P s x t f).heights.length = (addToCache P s x t f).totals.length := by
    intro s t f h
    unfold addToCache
    by_cases hc : P.useCache = true ∧ x ∉ s.heights ∧ f = false
    · rw [if_pos hc]
      simp only [List.length_insertIdx, h]
    · rw [if_neg hc]
      exact h
  unfold call
  split_ifs with h1
  · have : lookup s x ≠ none := by
      unfold lookup
      have : s.heights.findIdx (fun h => decide (h = x)) < s.totals.length := by
        rw [← hlen]
        exact List.findIdx_lt_length_of_exists ⟨x, h1, by simp⟩
      rw [List.getElem?_eq_getElem this]
      simp
    cases hl : lookup s x with
    | none => exact absurd hl this
    | some t => exact ⟨_, _, rfl, hlen, fun h => h⟩
  · refine ⟨_, _, rfl, ?_, ?_⟩
    · unfold solveHeight
      dsimp only
      split_ifs
      · exact hadd _ _ _ hlen
      · exact hadd _ _ _ hlen
    · intro h
      unfold solveHeight
      dsimp only
      split_ifs
      · rw [(Static.add_fields P _ _ _ _).2.2]; exact h
      · rw [(Static.add_fields P _ _ _ _).2.2]; rfl

theorem try_ok (P : Problem N) (him : P.imMats = true) (xs : List ℝ) : ∀ s : HeightCache.State N, s.heights.length = s.totals.length → s.results.isSome = true →
    ∃ s', Static.tryHeights P s xs = (s', .ok ()) ∧ s'.results.isSome = true := by
  induction xs with
  | nil => exact fun s _ h => ⟨s, rfl, h⟩
  | cons x xs ih =>
    intro s h1 h2
    obtain ⟨s', v, e1, e2, e3⟩ := call_ok P him h1 x
    rw [Static.tryHeights, e1]
    exact ih s' e2 (e3 h2)

/-- **C102**: with time dependence, loads that are not negative and at most the load at the upper bound of the interference can be applied, whatever heights the root finder tries. -/
theorem C102_in_reach (a : Args) (prev : Previous N) (world : Nat → Option (ℝ × ℝ) → Problem N × ℝ) (choice : Nat → Choice) {qs : List (Interp.Quantities ℝ)}
    (hqs : Interp.run .real a.quantities prev.quantities = .ok qs) (hf : a.fastLd = false) (hu : a.unloading = false ∨ prev.contactNodes = none) (hl : a.quantities.load ≠ .none)
    (ht : a.quantities.noTime = false)
    (hgood : ∀ (k : ℕ) q load P upper, qs[k]? = some q → q.load = some load → P = (world k q.offSet).1 → upper = (world k q.offSet).2 * a.upperFactor →
      P.imMats = true ∧ Static.Fresh P upper ∧ P.noNodes (P.touching upper) = false ∧ 0 ≤ load ∧ load ≤ (P.bccg upper (P.touching upper)).1) :
    ∃ l cs, run a prev world choice = .ok (l, cs) ∧ cs.length = qs.length := by
  obtain ⟨st, -, hinc, h1, h2, -, hrun⟩ := run_eq hqs hf world choice
  have hctl := controlled hqs
  have hini : initialNodes a prev = none := by unfold initialNodes; rcases hu with h | h <;> simp [h]
  have hlen := (Interp.increments_get .real st _ _ _ _ _ hinc).1
  obtain ⟨l, cs, e1, e2, -⟩ := forward a st prev world choice (fun _ _ _ => True) (fun _ _ => True) st.steps 0 ⟨st.q, none, none, prev.time⟩ qs hinc trivial (by
      intro k q o g hk _
      rw [Nat.zero_add]
      obtain ⟨load, hload⟩ := (hctl q (List.mem_of_getElem? hk)).2 hl
      obtain ⟨him, hfu, htu, hpos, hle⟩ := hgood k q load _ _ hk hload rfl rfl
      have hgap : gapFor st a.quantities.noTime world k q.offSet g = world k q.offSet := by
        unfold gapFor
        cases g with
        | none => rfl
        | some g => simp [ht]
      rw [hgap, hini, solveBy_load hl hload, ht]
      generalize (world k q.offSet).1 = P at him hfu htu hle ⊢
      generalize (world k q.offSet).2 * a.upperFactor = upper at hfu htu hle ⊢
      obtain ⟨s, k1, k2, k3, k4, k5, k6⟩ := Static.init_none P load load
      obtain ⟨f1, f2, f3, f4, f5⟩ := Static.solve_fields P k4 upper htu
      have hl0 : (changeLoad s load none).heights.length = (changeLoad s load none).totals.length := by
        rcases k6 with ⟨h, h'⟩ | ⟨x, y, -, h, h'⟩ <;> rw [h, h'] <;> rfl
      have hcall := Static.call_fresh P him k6 hfu
      obtain ⟨s', v, g1, g2, -⟩ := call_ok P him hl0 upper
      rw [hcall] at g1
      injection g1 with g1 g1'
      rw [← g1] at g2
      obtain ⟨s2, t1, t2⟩ := try_ok P him (choice k).more _ g2 (by rw [f3]; rfl)
      have hroot : ∃ s3 root, rootScalar P (changeLoad s load none) 0 upper (choice k) = (s3, .ok root) ∧ s3.results.isSome = true := by
        unfold rootScalar
        rw [Static.call_zero P k6]
        dsimp only
        rw [hcall, f5, k5]
        dsimp only
        by_cases h0 : (0 : ℝ) - load = 0
        · rw [if_pos h0]
          exact ⟨_, _, rfl, by rw [f3]; rfl⟩
        rw [if_neg h0]
        have hpos : 0 < load := lt_of_le_of_ne hpos (fun h => h0 (by linarith))
        by_cases hz : (P.bccg upper (P.touching upper)).1 - load = 0
        · rw [if_pos hz]
          exact ⟨_, _, rfl, by rw [f3]; rfl⟩
        · have hne : ¬ ((0 : ℝ) - load < 0 ↔ (P.bccg upper (P.touching upper)).1 - load < 0) := by
            intro h
            have := h.mp (by linarith)
            linarith
          rw [if_neg hz, if_neg hne, t1]
          exact ⟨_, _, rfl, t2⟩
      obtain ⟨s3, root, hr1, hr2⟩ := hroot
      obtain ⟨x, hx⟩ := Option.isSome_iff_exists.mp hr2
      have hsol : ∃ r, solveLoad false o P none load upper (choice k) = .ok r := by
        unfold solveLoad optimiser brackets
        simp only [k1, Except.map, bind, Except.bind, Bool.false_eq_true, if_false, hr1, ensure, hx, Static.results]
        exact ⟨_, rfl⟩
      obtain ⟨r, hr⟩ := hsol
      exact ⟨r, hr, trivial, trivial⟩)
  exact ⟨l, cs, by rw [hrun, e1], by rw [e2, hlen]⟩

/-! ## Without time dependence -/

/-- The loads of a height optimiser are those of the height that its results belong to. -/
theorem solveLoad_truth {noTime : Bool} {o : Option (Problem N × HeightCache.State N)} {P : Problem N} {load upper : ℝ} {ch : Choice} {r} (h : solveLoad noTime o P none load upper ch = .ok r) :
    (∃ w, optimiser noTime o P none load = .ok w ∧ r.1.1 = w.1) ∧ r.2.totalLoad = (r.1.1.bccg r.2.solvedAt (r.1.1.touching r.2.solvedAt)).1 ∧
      (r.2.converged = true → load ≠ 0 ∧ |r.2.totalLoad - load| / load < 5 / 100) := by
  have hfree : ∀ (P : Problem N) (s : HeightCache.State N) x, s.setContactNodes = false → (call P s x).1.setContactNodes = false := by
    intro P s x hs
    unfold call
    split_ifs
    · cases lookup s x <;> exact hs
    · unfold solveHeight
      dsimp only
      split_ifs <;> exact (Static.add_fields P _ _ _ _).1.trans hs
    · exact hs
  have htry : ∀ (P : Problem N) xs (s : HeightCache.State N), s.setContactNodes = false → (Static.tryHeights P s xs).1.setContactNodes = false := by
    intro P xs
    induction xs with
    | nil => exact fun s hs => hs
    | cons x xs ih =>
      intro s hs
      have := hfree P s x hs
      rw [Static.tryHeights]
      rcases hc : call P s x with ⟨s', _ | v⟩
      · rw [hc] at this; exact this
      · rw [hc] at this; exact ih s' this
  have hroot : ∀ (P : Problem N) (s : HeightCache.State N) a b, s.setContactNodes = false → (rootScalar P s a b ch).1.setContactNodes = false := by
    intro P s a b hs
    have h1 := hfree P s a hs
    unfold rootScalar
    rcases hc : call P s a with ⟨s', _ | v⟩
    · rw [hc] at h1; exact h1
    · rw [hc] at h1
      dsimp only at h1 ⊢
      have h2 := hfree P s' b h1
      rcases hc' : call P s' b with ⟨s'', _ | v'⟩
      · rw [hc'] at h2; exact h2
      · rw [hc'] at h2
        dsimp only at h2 ⊢
        split_ifs
        · exact h2
        · exact h2
        · exact h2
        · have h3 := htry P ch.more s'' h2
          rcases ht : Static.tryHeights P s'' ch.more with ⟨s3, _ | ⟨⟩⟩
          · rw [ht] at h3; exact h3
          · rw [ht] at h3; exact h3
  unfold solveLoad at h
  obtain ⟨w, hw, h⟩ := Interp.bind_ok h
  obtain ⟨b, hb, h⟩ := Interp.bind_ok h
  have h1 := hroot w.1 (changeLoad w.2 load none) b.1 b.2 rfl
  rcases hr : rootScalar w.1 (changeLoad w.2 load none) b.1 b.2 ch with ⟨s1, _ | root⟩
  · rw [hr] at h; cases h
  · rw [hr] at h h1
    dsimp only at h h1
    have h2 : (ensure w.1 s1 b.1 b.2).1.setContactNodes = false := by
      unfold ensure
      cases s1.results with
      | some x => exact h1
      | none =>
        have := hfree w.1 s1 ((b.1 + b.2) / 2) h1
        rcases hc : call w.1 s1 ((b.1 + b.2) / 2) with ⟨s', _ | v⟩
        · rw [hc] at this; simpa [hc] using this
        · rw [hc] at this; simpa [hc] using this
    rcases he : ensure w.1 s1 b.1 b.2 with ⟨s2, _ | ⟨⟩⟩
    · rw [he] at h; cases h
    · rw [he] at h h2
      dsimp only at h h2
      obtain ⟨t, ht, h⟩ := Interp.bind_ok h
      injection h with h
      subst h
      refine ⟨⟨w, hw, rfl⟩, ?_, ?_⟩
      · unfold Static.results at ht
        cases hres : s2.results with
        | none => rw [hres] at ht; cases ht
        | some x =>
          rw [hres] at ht
          dsimp only at ht
          rw [Static.nodesFor_free w.1 h2] at ht
          injection ht with ht
          subst ht
          rfl
      · intro hc
        simp only [Static.close, Bool.and_eq_true, decide_eq_true_eq] at hc
        exact hc.1

/-- **C102 (partial)**: without time dependence and with a set load, in each increment: the load that is reported is that of a contact solution for the surfaces at the start of the step, and converged means that it
is within 5 % of the load of this increment. Missing: that the contact solver succeeded, which is true unless the search ended at a height without contact. -/
theorem C102_no_time_partial (a : Args) (prev : Previous N) (world : Nat → Option (ℝ × ℝ) → Problem N × ℝ) (choice : Nat → Choice) {qs : List (Interp.Quantities ℝ)}
    (hqs : Interp.run .real a.quantities prev.quantities = .ok qs) (hu : a.unloading = false ∨ prev.contactNodes = none) (hl : a.quantities.load ≠ .none)
    (ht : a.quantities.noTime = true) {P : Problem N} (hP : ∀ q, qs[0]? = some q → (world 0 q.offSet).1 = P) {l : Loop N} {cs : List Current} (hrun : run a prev world choice = .ok (l, cs))
    {k : ℕ} {c : Current} (hk : cs[k]? = some c) :
    ∃ q load, qs[k]? = some q ∧ q.load = some load ∧ c.totalLoad = (P.bccg c.solvedAt (P.touching c.solvedAt)).1 ∧
      (c.converged = true → load ≠ 0 ∧ |c.totalLoad - load| / load < 5 / 100) := by
  have hf : a.fastLd = false := by
    by_contra h
    obtain ⟨e, he⟩ := C100_fast_wrong a prev world choice (by simpa using h)
    rw [he] at hrun
    cases hrun
  obtain ⟨st, -, hinc, h1, h2, -, hr⟩ := run_eq hqs hf world choice
  have hctl := controlled hqs
  have hini : initialNodes a prev = none := by unfold initialNodes; rcases hu with h | h <;> simp [h]
  rw [hr] at hrun
  obtain ⟨-, e3⟩ := backward a st prev world choice
    (fun k o g => (k = 0 ∧ o = none ∧ g = none) ∨ ∃ s, o = some (P, s))
    (fun k f => ∃ q load, qs[k]? = some q ∧ q.load = some load ∧ f.totalLoad = (P.bccg f.solvedAt (P.touching f.solvedAt)).1 ∧ (f.converged = true → load ≠ 0 ∧ |f.totalLoad - load| / load < 5 / 100))
    st.steps 0 ⟨st.q, none, none, prev.time⟩ qs hinc (Or.inl ⟨rfl, rfl, rfl⟩) (by
      intro k q o g r hk hI hr
      rw [Nat.zero_add] at hI hr ⊢
      obtain ⟨load, hload⟩ := (hctl q (List.mem_of_getElem? hk)).2 hl
      rw [hini, solveBy_load hl hload, ht] at hr
      obtain ⟨⟨w, hw, hrw⟩, t1, t2⟩ := solveLoad_truth hr
      have hwP : w.1 = P := by
        rcases hI with ⟨rfl, rfl, rfl⟩ | ⟨s, rfl⟩
        · unfold optimiser gapFor at hw
          dsimp only at hw
          rw [hP q hk] at hw
          cases hs : HeightCache.init P none load with
          | error e => rw [hs] at hw; cases hw
          | ok s =>
            rw [hs] at hw
            injection hw with hw
            subst hw
            rfl
        · injection hw with hw
          subst hw
          rfl
      rw [hrw, hwP] at t1
      exact ⟨Or.inr ⟨r.1.2, by rw [← hwP, ← hrw]⟩, q, load, hk, hload, t1, t2⟩) l cs hrun
  obtain ⟨f, ⟨q, load, g1, g2, g3, g4⟩, hs⟩ := e3 k c hk
  rw [Nat.zero_add] at g1
  refine ⟨q, load, g1, g2, ?_, ?_⟩
  · rw [hs.2.2.1, hs.2.1]; exact g3
  · rw [hs.2.2.2, hs.2.2.1]; exact g4

/-- **C102 (negation)**: materials that are not given by influence matrices: no step can be solved, whatever is controlled. -/
theorem C102_other_materials_wrong (a : Args) (prev : Previous N) (world : Nat → Option (ℝ × ℝ) → Problem N × ℝ) (choice : Nat → Choice) {qs : List (Interp.Quantities ℝ)}
    (hqs : Interp.run .real a.quantities prev.quantities = .ok qs) (him : ∀ off, (world 0 off).1.imMats = false) : ∃ e, run a prev world choice = .error e := by
  cases hf : a.fastLd with
  | true => exact C100_fast_wrong a prev world choice hf
  | false =>
    obtain ⟨st, -, hinc, h1, h2, -, hrun⟩ := run_eq hqs hf world choice
    have hctl := controlled hqs
    rw [hrun]
    obtain ⟨m, hm⟩ : ∃ m, st.steps = m + 1 := ⟨st.steps - 1, by omega⟩
    rw [hm] at hinc ⊢
    obtain ⟨q, rest, rfl, hq, -⟩ := interp_cons hinc
    rw [increments, increment_of a st prev world choice 0 _ hq]
    have hg : gapFor st a.quantities.noTime world 0 q.offSet none = world 0 q.offSet := rfl
    dsimp only
    rw [hg]
    have key : ∃ e, solveBy a q none (world 0 q.offSet).1 (initialNodes a prev) ((world 0 q.offSet).2 * a.upperFactor) (choice 0) = .error e := by
      generalize hPdef : (world 0 q.offSet).1 = P
      have hP : P.imMats = false := by rw [← hPdef]; exact him _
      generalize (world 0 q.offSet).2 * a.upperFactor = upper
      cases hin : initialNodes a prev with
      | some n =>
        obtain ⟨hA, hB⟩ := hctl q (by simp)
        by_cases hl : a.quantities.load = .none
        · obtain ⟨x, hx⟩ := hA hl
          rw [solveBy_disp hl hx]
          refine ⟨.attributeError, ?_⟩
          unfold solveDisp optimiser
          cases a.quantities.noTime <;> rfl
        · obtain ⟨x, hx⟩ := hB hl
          rw [solveBy_load hl hx]
          refine ⟨.attributeError, ?_⟩
          unfold solveLoad optimiser
          cases a.quantities.noTime <;> rfl
      | none =>
        have hinit : ∀ load, ∃ s, HeightCache.init P none load = .ok s ∧ s.heights = [0] ∧ s.totals = [0] := by
          intro load
          unfold HeightCache.init
          simp only [hP, Bool.false_and, Bool.false_eq_true, if_false]
          exact ⟨_, rfl, rfl, rfl⟩
        have hopt : ∀ load, ∃ s, optimiser a.quantities.noTime none P none load = .ok (P, s) ∧ s.heights = [0] ∧ s.totals = [0] := by
          intro load
          obtain ⟨s, hs, hh, ht⟩ := hinit load
          refine ⟨s, ?_, hh, ht⟩
          unfold optimiser
          rw [hs]
          cases a.quantities.noTime <;> rfl
        have hcall : ∀ (s : HeightCache.State N) (load x : ℝ), s.heights = [0] → s.totals = [0] → call P (changeLoad s load none) x = (changeLoad s load none, .ok (0 - load)) ∧ x = 0 ∨
            ∃ s', call P (changeLoad s load none) x = (s', .error .typeError) := by
          intro s load x hh hts
          by_cases hx : x = 0
          · left
            subst hx
            refine ⟨?_, rfl⟩
            have := Static.call_zero P (s := changeLoad s load none) (Or.inl ⟨hh, hts⟩)
            rw [this]
            rfl
          · right
            unfold call
            have : x ∉ (changeLoad s load none).heights := by
              intro hm
              have hm' : x ∈ s.heights := hm
              rw [hh] at hm'
              exact hx (by simpa using hm')
            rw [if_neg this, hP]
            exact ⟨_, rfl⟩
        obtain ⟨hA, hB⟩ := hctl q (by simp)
        by_cases hl : a.quantities.load = .none
        · obtain ⟨x, hx⟩ := hA hl
          rw [solveBy_disp hl hx]
          obtain ⟨s, hs, hh, hts⟩ := hopt 1
          unfold solveDisp
          rw [hs]
          simp only [bind, Except.bind]
          rcases hcall s 1 x hh hts with ⟨h, -⟩ | ⟨s', h⟩
          · rw [h]
            exact ⟨.typeError, rfl⟩
          · rw [h]
            exact ⟨_, rfl⟩
        · obtain ⟨load, hx⟩ := hB hl
          rw [solveBy_load hl hx]
          obtain ⟨s, hs, hh, hts⟩ := hopt load
          have hbr : brackets a.quantities.noTime P (changeLoad s load none) upper = .ok (0, upper) := by
            unfold brackets getBounds
            have : (changeLoad s load none).heights = [0] := hh
            rw [this]
            simp
          unfold solveLoad
          rw [hs]
          simp only [bind, Except.bind, hbr]
          have h0 : call P (changeLoad s load none) 0 = (changeLoad s load none, .ok (0 - load)) := by
            rcases hcall s load 0 hh hts with ⟨h, -⟩ | ⟨s', h⟩
            · exact h
            · rw [Static.call_zero P (s := changeLoad s load none) (Or.inl ⟨hh, hts⟩)] at h
              injection h with _ h
              cases h
          unfold rootScalar
          simp only [h0]
          rcases hcall s load upper hh hts with ⟨h, hup⟩ | ⟨s', h⟩
          · subst hup
            by_cases hz : load = 0
            · subst hz
              have hens : ensure P (changeLoad s 0 none) 0 0 = (changeLoad s 0 none, .ok ()) := by
                unfold ensure
                have hmid : ((0 : ℝ) + 0) / 2 = 0 := by norm_num
                have : (changeLoad s (0 : ℝ) (none : Option N)).results = none := rfl
                simp only [this, hmid, h0]
              simp only [h0, sub_self, if_true, hens]
              exact ⟨.typeError, rfl⟩
            · have hz' : (0 : ℝ) - load ≠ 0 := by simpa using hz
              simp only [h0, if_neg hz', if_true]
              exact ⟨_, rfl⟩
          · simp only [h]
            exact ⟨_, rfl⟩
    obtain ⟨e, he⟩ := key
    rw [he]
    exact ⟨e, rfl⟩

/-! ## Examples -/

/-- A step with a constant interference or load. -/
def constant (load interference : Interp.Arg ℝ) (noTime : Bool) (n : ℕ) : Args :=
  ⟨⟨.number 0, .number 0, load, interference, none, false, noTime, n⟩, false, false, 1, 4⟩

/-- The state before the first step. -/
def before : Previous Bool := ⟨0, ⟨none, none, none⟩, none⟩

theorem constant_interference (x : ℝ) (noTime : Bool) :
    Interp.run .real (constant .none (.number x) noTime 2).quantities before.quantities = .ok [⟨some (0, 0), none, some x, none⟩, ⟨some (0, 0), none, some x, none⟩] := rfl

theorem constant_load (x : ℝ) (noTime : Bool) :
    Interp.run .real (constant (.number x) .none noTime 2).quantities before.quantities = .ok [⟨some (0, 0), some x, none, none⟩, ⟨some (0, 0), some x, none, none⟩] := rfl

/-- The spring of `Verif.Static`; the greatest gap is 1, so that the upper bound of the interference is 4. -/
noncomputable def springs : Nat → Option (ℝ × ℝ) → Problem Bool × ℝ := fun _ _ => (Static.spring, 1)

theorem spring_fresh {x : ℝ} (h : 0 < x) : Static.Fresh Static.spring x ∧ Static.spring.noNodes (Static.spring.touching x) = false :=
  ⟨⟨h.ne', fun l => by simp [Static.spring]⟩, by simp [Static.spring, h]⟩

/-- Two increments with the interference 1, with time dependence: solved (C101_time_partial, and with it C100_times). -/
example : ∃ l cs, run (constant .none (.number 1) false 2) before springs (fun _ => ⟨[], 0⟩) = .ok (l, cs) ∧ cs.length = 2 := by
  obtain ⟨l, cs, h1, h2, -⟩ := C101_time_partial (constant .none (.number 1) false 2) before springs (fun _ => ⟨[], 0⟩) (constant_interference 1 false) rfl (Or.inl rfl) rfl rfl (by
    intro k q x hk hx
    have : x = 1 := by
      rcases k with _ | _ | k <;> simp at hk <;> subst hk <;> simp at hx <;> exact hx.symm
    subst this
    exact ⟨rfl, spring_fresh one_pos⟩)
  exact ⟨l, cs, h1, h2⟩

/-- The same without time dependence: the second increment fails. -/
example : ∃ e, run (constant .none (.number 1) true 2) before springs (fun _ => ⟨[], 0⟩) = .error e :=
  C101_repeat_wrong (constant .none (.number 1) true 2) before springs (fun _ => ⟨[], 0⟩) (constant_interference 1 true) rfl (Or.inl rfl) rfl rfl (P := Static.spring)
    (fun _ _ => rfl) rfl (i := 0) (j := 1) Nat.zero_lt_one rfl rfl rfl rfl rfl

/-- The interferences 1 and 2 are those of two increments, different from each other (C101_no_time_partial). -/
example : Interp.run .real (constant .none (.seq (.flat [some 1, some 2])) true 2).quantities before.quantities =
    .ok [⟨some (0, 0), none, some 1, none⟩, ⟨some (0, 0), none, some 2, none⟩] := by
  have h1 : ¬ (1 : ℝ) < 0 := by norm_num
  have h2 : ¬ (1 : ℝ) ≤ 0 := by norm_num
  simp [h1, h2, Interp.run, Interp.init, Interp.initOffSet, Interp.initInterference, Interp.initRolling, Interp.numberOrUpd, constant, Interp.makeInterpolationFunc, Interp.entries, Interp.interp1d,
    Interp.Arith.real, bind, Except.bind, Interp.increments, Interp.updateMovement, Interp.updateOffSet, Interp.updateOne, Interp.updated, Interp.callInterp, Interp.npInterp, Interp.relativeTime,
    List.mergeSort, List.MergeSort.Internal.splitInTwo, List.merge, Except.map]

/-- No interference, and a negative one, which is without contact (C101_no_contact_wrong). -/
example : (∃ e, run (constant .none (.number 0) false 2) before springs (fun _ => ⟨[], 0⟩) = .error e) ∧ ∃ e, run (constant .none (.number (-1)) true 2) before springs (fun _ => ⟨[], 0⟩) = .error e :=
  ⟨C101_no_contact_wrong (constant .none (.number 0) false 2) before springs (fun _ => ⟨[], 0⟩) (constant_interference 0 false) rfl (Or.inl rfl) rfl (k := 0) rfl rfl (Or.inl rfl),
   C101_no_contact_wrong (constant .none (.number (-1)) true 2) before springs (fun _ => ⟨[], 0⟩) (constant_interference (-1) true) rfl (Or.inl rfl) rfl (k := 0) rfl rfl
    (Or.inr fun _ _ => by simp [springs, Static.spring])⟩

/-- The load 2; the root finder tries 1 and 1.01 and returns 1: the loads belong to 1.01, the state is reported as converged at 1 (C102_in_reach, C102_load, C102_height_wrong). -/
example : ∃ l cs c, run (constant (.number 2) .none false 2) before springs (fun _ => ⟨[1, 101 / 100], 2⟩) = .ok (l, cs) ∧ cs[1]? = some c ∧ c.interference ≠ c.solvedAt := by
  have hu4 : (4 : ℝ) = (springs 1 (some (0, 0))).2 * (constant (.number 2) .none false 2).upperFactor := by simp [springs, constant]
  obtain ⟨l, cs, h1, h2⟩ := C102_in_reach (constant (.number 2) .none false 2) before springs (fun _ => ⟨[1, 101 / 100], 2⟩) (constant_load 2 false) rfl (Or.inl rfl) (by simp [constant]) rfl (by
    intro k q load P upper hk hx hP hup
    have hload : load = 2 := by
      rcases k with _ | _ | k <;> simp at hk <;> subst hk <;> simp at hx <;> exact hx.symm
    subst hload
    have hup4 : upper = 4 := by rw [hup]; simp [springs, constant]
    subst hup4
    subst hP
    exact ⟨rfl, (spring_fresh (by norm_num)).1, (spring_fresh (by norm_num)).2, by norm_num, by norm_num [springs, Static.spring]⟩)
  obtain ⟨c, hc⟩ : ∃ c, cs[1]? = some c := ⟨_, List.getElem?_eq_getElem (by rw [h2]; simp)⟩
  refine ⟨l, cs, c, h1, hc, ?_⟩
  exact C102_height_wrong (constant (.number 2) .none false 2) before springs (fun _ => ⟨[1, 101 / 100], 2⟩) (constant_load 2 false) (Or.inl rfl) (by simp [constant]) rfl h1 hc rfl rfl (P := Static.spring) rfl
    hu4 rfl (spring_fresh (by norm_num)).1 (spring_fresh (by norm_num)).2 (by norm_num) (by norm_num [Static.spring]) (xs := [1]) (h := 101 / 100) rfl (spring_fresh (by norm_num)).1 (by norm_num)
    (spring_fresh (by norm_num)).2 (by norm_num)

/-- The load 10 is out of reach: at the interference 4 the load is 8 (C102_out_of_reach). -/
example : ∃ e, run (constant (.number 10) .none false 2) before springs (fun _ => ⟨[], 0⟩) = .error e :=
  C102_out_of_reach (constant (.number 10) .none false 2) before springs (fun _ => ⟨[], 0⟩) (constant_load 10 false) (Or.inl rfl) (by simp [constant]) rfl (k := 0) rfl rfl (P := Static.spring) rfl
    (upper := 4) (by simp [springs, constant]) rfl (spring_fresh (by norm_num)).1 (spring_fresh (by norm_num)).2 (Or.inl (by norm_num [Static.spring]))

/-- An unloading step after a state with contact nodes (C100_unloading_wrong). -/
example : run { constant .none (.number 1) false 2 with unloading := true } ⟨0, ⟨none, none, none⟩, some true⟩ springs (fun _ => ⟨[], 0⟩) = .error .attributeError :=
  C100_unloading_wrong { constant .none (.number 1) false 2 with unloading := true } ⟨0, ⟨none, none, none⟩, some true⟩ springs (fun _ => ⟨[], 0⟩) (constant_interference 1 false) rfl rfl rfl

/-- The same with the tried heights in the other order: the loads belong to the height that is reported (`C102_converged_partial`, `C102_height_partial`). -/
example : ∃ l cs c, run (constant (.number 2) .none false 2) before springs (fun _ => ⟨[101 / 100, 1], 3⟩) = .ok (l, cs) ∧ cs[1]? = some c ∧ c.interference = c.solvedAt ∧ c.solvedAt = 1 := by
  have hu4 : (4 : ℝ) = (springs 1 (some (0, 0))).2 * (constant (.number 2) .none false 2).upperFactor := by simp [springs, constant]
  obtain ⟨l, cs, h1, h2⟩ := C102_in_reach (constant (.number 2) .none false 2) before springs (fun _ => ⟨[101 / 100, 1], 3⟩) (constant_load 2 false) rfl (Or.inl rfl) (by simp [constant]) rfl (by
    intro k q load P upper hk hx hP hup
    have hload : load = 2 := by
      rcases k with _ | _ | k <;> simp at hk <;> subst hk <;> simp at hx <;> exact hx.symm
    subst hload
    have hup4 : upper = 4 := by rw [hup]; simp [springs, constant]
    subst hup4
    subst hP
    exact ⟨rfl, (spring_fresh (by norm_num)).1, (spring_fresh (by norm_num)).2, by norm_num, by norm_num [springs, Static.spring]⟩)
  obtain ⟨c, hc⟩ : ∃ c, cs[1]? = some c := ⟨_, List.getElem?_eq_getElem (by rw [h2]; simp)⟩
  refine ⟨l, cs, c, h1, hc, ?_⟩
  exact C102_height_partial (constant (.number 2) .none false 2) before springs (fun _ => ⟨[101 / 100, 1], 3⟩) (constant_load 2 false) (Or.inl rfl) (by simp [constant]) rfl h1 hc rfl rfl (P := Static.spring) rfl
    hu4 rfl (spring_fresh (by norm_num)).1 (spring_fresh (by norm_num)).2 (by norm_num) (by norm_num [Static.spring]) (xs := [101 / 100]) (h := 1) rfl (spring_fresh (by norm_num)).1 (by norm_num)
    (spring_fresh (by norm_num)).2 rfl

/-- The load zero: nothing is pressed in, and the loads are those for the interference 4 (`C102_zero_load_wrong`). -/
example : ∃ l cs c, run (constant (.number 0) .none false 2) before springs (fun _ => ⟨[], 0⟩) = .ok (l, cs) ∧ cs[0]? = some c ∧ c.interference = 0 ∧ c.totalLoad = 8 := by
  have hu4 : (4 : ℝ) = (springs 0 (some (0, 0))).2 * (constant (.number 0) .none false 2).upperFactor := by simp [springs, constant]
  obtain ⟨l, cs, h1, h2⟩ := C102_in_reach (constant (.number 0) .none false 2) before springs (fun _ => ⟨[], 0⟩) (constant_load 0 false) rfl (Or.inl rfl) (by simp [constant]) rfl (by
    intro k q load P upper hk hx hP hup
    have hload : load = 0 := by
      rcases k with _ | _ | k <;> simp at hk <;> subst hk <;> simp at hx <;> exact hx.symm
    subst hload
    have hup4 : upper = 4 := by rw [hup]; simp [springs, constant]
    subst hup4
    subst hP
    exact ⟨rfl, (spring_fresh (by norm_num)).1, (spring_fresh (by norm_num)).2, le_rfl, by norm_num [springs, Static.spring]⟩)
  obtain ⟨c, hc⟩ : ∃ c, cs[0]? = some c := ⟨_, List.getElem?_eq_getElem (by rw [h2]; simp)⟩
  obtain ⟨g1, -, g2, -⟩ := C102_zero_load_wrong (constant (.number 0) .none false 2) before springs (fun _ => ⟨[], 0⟩) (constant_load 0 false) (Or.inl rfl) (by simp [constant]) rfl h1 hc rfl rfl (P := Static.spring) rfl
    hu4 rfl (spring_fresh (by norm_num)).1 (spring_fresh (by norm_num)).2
  exact ⟨l, cs, c, h1, hc, g1, by rw [g2]; norm_num [Static.spring]⟩

end Verif.Quasi
