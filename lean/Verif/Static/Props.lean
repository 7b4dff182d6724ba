import Verif.Static.Model
import Verif.HeightCache.Props
import Mathlib.Tactic.Linarith

/-!
# C93: the static step
-/

namespace Verif.Static

open Verif HeightCache

variable {N : Type}

/-! ## Arguments -/

/-- **C93**: exactly one of load and interference has to be given, except that a relative step without either keeps the interference. -/
theorem C93_arguments (l i : Option ℝ) (relative unloading : Bool) (period : ℝ) :
    (l.isSome = true → i.isSome = true → construct l i relative unloading period = .error .valueError) ∧
    (l = none → i = none → relative = false → construct l i relative unloading period = .error .valueError) ∧
    (l = none → i = none → relative = true → ∃ s, construct l i relative unloading period = .ok s ∧ s.normalLoad = none ∧ s.interference = some 0 ∧ s.relative = true ∧ s.unloading = unloading ∧ s.period = period) ∧
    (l.isSome = !i.isSome → construct l i relative unloading period = .ok ⟨l, i, relative, unloading, period⟩) := by
  refine ⟨?_, ?_, ?_, ?_⟩ <;> rcases l with _ | l <;> rcases i with _ | i <;> cases relative <;> simp [construct]

/-! ## One call of the function -/

/-- The state between two calls within a step: the nodes are free, and results and failure are those of one solution. -/
structure Inv (P : Problem N) (load : ℝ) (tried : List ℝ) (s : HeightCache.State N) : Prop where
  free : s.setContactNodes = false
  load : s.setLoad = load
  none : s.results = none → s.lastFailed = false
  some : ∀ h, s.results = some h → h ∈ tried ∧ s.lastFailed = (P.bccg h (P.touching h)).2

theorem nodesFor_free (P : Problem N) {s : HeightCache.State N} (h : s.setContactNodes = false) (x : ℝ) : nodesFor P s x = P.touching x := by
  unfold nodesFor
  rw [h]

theorem add_fields (P : Problem N) (s : HeightCache.State N) (x t : ℝ) (f : Bool) :
    (addToCache P s x t f).setContactNodes = s.setContactNodes ∧ (addToCache P s x t f).setLoad = s.setLoad ∧ (addToCache P s x t f).results = s.results := by
  unfold addToCache
  split_ifs <;> exact ⟨rfl, rfl, rfl⟩

theorem solve_fields (P : Problem N) {s : HeightCache.State N} (hf : s.setContactNodes = false) (x : ℝ) (hx : P.noNodes (P.touching x) = false) :
    (solveHeight P s x).1.setContactNodes = false ∧ (solveHeight P s x).1.setLoad = s.setLoad ∧ (solveHeight P s x).1.results = some x ∧
      (solveHeight P s x).1.lastFailed = (P.bccg x (P.touching x)).2 ∧ (solveHeight P s x).2 = (P.bccg x (P.touching x)).1 - s.setLoad := by
  unfold solveHeight
  simp only [nodesFor_free P hf, hx, Bool.false_eq_true, if_false]
  refine ⟨?_, ?_, ?_, trivial, trivial⟩
  · rw [(add_fields P _ _ _ _).1]; exact hf
  · rw [(add_fields P _ _ _ _).2.1]
  · rw [(add_fields P _ _ _ _).2.2]

theorem call_inv (P : Problem N) {load : ℝ} {tried : List ℝ} {s : HeightCache.State N} (hi : Inv P load tried s) {x : ℝ} (hx : x ∈ tried) (ht : P.noNodes (P.touching x) = false) :
    Inv P load tried (call P s x).1 := by
  unfold call
  split_ifs with h1 h2
  · cases lookup s x <;> exact hi
  · obtain ⟨e1, e2, e3, e4, -⟩ := solve_fields P hi.free x ht
    refine ⟨e1, e2.trans hi.load, fun h => ?_, fun h hh => ?_⟩
    · rw [e3] at h; cases h
    · rw [e3] at hh
      cases hh
      exact ⟨hx, e4⟩
  · exact ⟨hi.free, hi.load, hi.none, hi.some⟩

theorem try_inv (P : Problem N) {load : ℝ} {tried : List ℝ} (hs : List ℝ) (hsub : ∀ x ∈ hs, x ∈ tried) (ht : ∀ x ∈ hs, P.noNodes (P.touching x) = false) :
    ∀ s, Inv P load tried s → Inv P load tried (tryHeights P s hs).1 := by
  induction hs with
  | nil => exact fun s h => h
  | cons x xs ih =>
    intro s h
    have hc := call_inv P h (hsub x (by simp)) (ht x (by simp))
    rw [tryHeights]
    rcases hcall : call P s x with ⟨s', r⟩
    rw [hcall] at hc
    cases r with
    | error e => exact hc
    | ok v => exact ih (fun y hy => hsub y (by simp [hy])) (fun y hy => ht y (by simp [hy])) s' hc

/-- The state after the constructor and `change_load`. -/
theorem init_none (P : Problem N) (m load : ℝ) : ∃ s, HeightCache.init P none m = .ok s ∧ (changeLoad s load none).results = none ∧ (changeLoad s load none).lastFailed = false ∧
    (changeLoad s load none).setContactNodes = false ∧ (changeLoad s load none).setLoad = load ∧
    ((changeLoad s load none).heights = [0] ∧ (changeLoad s load none).totals = [0] ∨
      ∃ h l, P.maxEntry = some (h, l) ∧ (changeLoad s load none).heights = [0, h] ∧ (changeLoad s load none).totals = [0, l]) := by
  unfold HeightCache.init
  dsimp only
  by_cases h : (P.imMats && P.useCache) = true
  · rw [if_pos h]
    cases hm : P.maxEntry with
    | none => exact ⟨_, rfl, rfl, rfl, rfl, rfl, Or.inl ⟨rfl, rfl⟩⟩
    | some e => exact ⟨_, rfl, rfl, rfl, rfl, rfl, Or.inr ⟨e.1, e.2, rfl, rfl, rfl⟩⟩
  · rw [if_neg h]
    exact ⟨_, rfl, rfl, rfl, rfl, rfl, Or.inl ⟨rfl, rfl⟩⟩

/-- The call at height zero is answered from the cache. -/
theorem call_zero (P : Problem N) {s : HeightCache.State N} (h : s.heights = [0] ∧ s.totals = [0] ∨ ∃ h l, P.maxEntry = some (h, l) ∧ s.heights = [0, h] ∧ s.totals = [0, l]) :
    call P s 0 = (s, .ok (0 - s.setLoad)) := by
  have hl : lookup s 0 = some 0 := by
    unfold lookup
    rcases h with ⟨h1, h2⟩ | ⟨h, l, -, h1, h2⟩ <;> rw [h1, h2] <;> simp [List.findIdx_cons]
  unfold call
  rw [if_pos (by rcases h with ⟨h1, -⟩ | ⟨h, l, -, h1, -⟩ <;> rw [h1] <;> simp), hl]

/-- A height that is not in the cache of a new object. -/
def Fresh (P : Problem N) (x : ℝ) : Prop := x ≠ 0 ∧ ∀ l, P.maxEntry ≠ some (x, l)

theorem call_fresh (P : Problem N) (him : P.imMats = true) {s : HeightCache.State N}
    (h : s.heights = [0] ∧ s.totals = [0] ∨ ∃ h l, P.maxEntry = some (h, l) ∧ s.heights = [0, h] ∧ s.totals = [0, l]) {x : ℝ} (hx : Fresh P x) :
    call P s x = ((solveHeight P s x).1, .ok (solveHeight P s x).2) := by
  unfold call
  rw [if_neg, him]
  · rfl
  · rcases h with ⟨h1, -⟩ | ⟨h, l, hm, h1, -⟩ <;> rw [h1]
    · simpa using hx.1
    · simp only [List.mem_cons, List.not_mem_nil, or_false, not_or]
      refine ⟨hx.1, fun he => hx.2 l ?_⟩
      rw [he, hm]

/-! ## Displacement control -/

/-- The interference that is asked for. -/
def wantedInterference (st : Step) (prev : Previous N) : Option ℝ := match st.interference with
  | none => none
  | some i => if st.relative then prev.interference.map (· + i) else some i

/-- **C93 (partial)**: with the interference given, the step solves for this interference (added to that of the previous state if relative), reports the load of that
solution and converged exactly if the contact solver succeeded; the time advances by the period. Missing: interferences of zero or without contact, see below. -/
theorem C93_interference_partial (P : Problem N) (him : P.imMats = true) (st : Step) (prev : Previous N) (hn : st.normalLoad = none) (hu : st.unloading = false ∨ prev.contactNodes = none)
    {x : ℝ} (hx : wantedInterference st prev = some x) (hf : Fresh P x) (ht : P.noNodes (P.touching x) = false) (upper : ℝ) (more : List ℝ) :
    solve P st prev upper more = .ok ⟨prev.time + st.period, st.period, x, (P.bccg x (P.touching x)).1, !(P.bccg x (P.touching x)).2⟩ := by
  have hinit : (if st.unloading = true then prev.contactNodes else none) = none := by rcases hu with h | h <;> simp [h]
  obtain ⟨s, h1, h2, h3, h4, h5, h6⟩ := init_none P (st.normalLoad.getD 1) 1
  have hi : target st.relative prev.interference (st.interference.getD 0) = .ok x := by
    unfold wantedInterference at hx
    cases hii : st.interference with
    | none => simp [hii] at hx
    | some i =>
      cases hr : st.relative with
      | false => simp_all [target]
      | true =>
        simp only [hii, hr, if_true, Option.map_eq_some_iff] at hx
        obtain ⟨a, ha, rfl⟩ := hx
        simp [target, ha, item, Except.map]
  obtain ⟨e1, e2, e3, e4, e5⟩ := solve_fields P h4 x ht
  rw [hn] at h1
  unfold solve
  simp only [hinit, hn, h1, hi, bind, Except.bind, call_fresh P him h6 hf, results, e3, nodesFor_free P e1, e4]

/-- **C93 (negation)**: no interference, or one without contact (for example a negative one): `TypeError` instead of a state without loads. -/
theorem C93_no_contact_wrong (P : Problem N) (him : P.imMats = true) (st : Step) (prev : Previous N) (hn : st.normalLoad = none) (hu : st.unloading = false ∨ prev.contactNodes = none)
    {x : ℝ} (hx : wantedInterference st prev = some x) (ht : x = 0 ∨ (Fresh P x ∧ P.noNodes (P.touching x) = true)) (upper : ℝ) (more : List ℝ) :
    solve P st prev upper more = .error .typeError := by
  have hinit : (if st.unloading = true then prev.contactNodes else none) = none := by rcases hu with h | h <;> simp [h]
  obtain ⟨s, h1, h2, h3, h4, h5, h6⟩ := init_none P (st.normalLoad.getD 1) 1
  have hi : target st.relative prev.interference (st.interference.getD 0) = .ok x := by
    unfold wantedInterference at hx
    cases hii : st.interference with
    | none => simp [hii] at hx
    | some i =>
      cases hr : st.relative with
      | false => simp_all [target]
      | true =>
        simp only [hii, hr, if_true, Option.map_eq_some_iff] at hx
        obtain ⟨a, ha, rfl⟩ := hx
        simp [target, ha, item, Except.map]
  rw [hn] at h1
  rcases ht with rfl | ⟨hf, ht⟩
  · unfold solve
    simp only [hinit, hn, h1, hi, bind, Except.bind, call_zero P h6, results, h2]
  · have e : (solveHeight P (changeLoad s 1 none) x).1.results = none := by
      unfold solveHeight
      simp only [nodesFor_free P h4, ht, if_true]
      rw [(add_fields P _ _ _ _).2.2]
      rfl
    unfold solve
    simp only [hinit, hn, h1, hi, bind, Except.bind, call_fresh P him h6 hf, results, e]

/-! ## Load control -/

/-- The load that is asked for. -/
def wantedLoad (st : Step) (prev : Previous N) : Option ℝ := match st.normalLoad with
  | none => none
  | some l => if st.relative then prev.totalLoad.map (· + l) else some l

theorem solve_load (P : Problem N) (st : Step) (prev : Previous N) (hu : st.unloading = false ∨ prev.contactNodes = none) {l t : ℝ} (hl : st.normalLoad = some l)
    (ht : wantedLoad st prev = some t) (upper : ℝ) (more : List ℝ) {s : HeightCache.State N} (hs : HeightCache.init P none l = .ok s) :
    solve P st prev upper more = match rootScalar P (changeLoad s t none) upper more with
      | (_, .error e) => .error e
      | (s, .ok _) => match results P s with
        | .error e => .error e
        | .ok r => .ok ⟨prev.time + st.period, st.period, r.1, r.2, close r.2 l && !s.lastFailed⟩ := by
  have hinit : (if st.unloading = true then prev.contactNodes else none) = none := by rcases hu with h | h <;> simp [h]
  have hi : target st.relative prev.totalLoad l = .ok t := by
    unfold wantedLoad at ht
    cases hr : st.relative with
    | false => simp_all [target]
    | true =>
      simp only [hl, hr, if_true, Option.map_eq_some_iff] at ht
      obtain ⟨a, ha, rfl⟩ := ht
      simp [target, ha, item, Except.map]
  unfold solve
  simp only [hinit, hl, Option.getD_some, hs, hi, bind, Except.bind]
  rcases rootScalar P (changeLoad s t none) upper more with ⟨s', _ | _⟩
  · rfl
  · dsimp only
    cases results P s' <;> rfl

/-- **C93**: with a load given: the state that is returned is that of one of the heights tried, and converged is reported exactly if the load is
within 5 % of the number `normal_load` and the contact solver succeeded at this height. -/
theorem C93_load (P : Problem N) (him : P.imMats = true) (st : Step) (prev : Previous N) (hu : st.unloading = false ∨ prev.contactNodes = none) {l t : ℝ} (hl : st.normalLoad = some l)
    (ht : wantedLoad st prev = some t) (upper : ℝ) (more : List ℝ) (htouch : ∀ x ∈ upper :: more, P.noNodes (P.touching x) = false) {c : Current} (hc : solve P st prev upper more = .ok c) :
    c.time = prev.time + st.period ∧ c.timeStep = st.period ∧ c.interference ∈ upper :: more ∧ c.totalLoad = (P.bccg c.interference (P.touching c.interference)).1 ∧
      (c.converged = true ↔ l ≠ 0 ∧ |c.totalLoad - l| / l < 5 / 100 ∧ (P.bccg c.interference (P.touching c.interference)).2 = false) := by
  obtain ⟨s, h1, h2, h3, h4, h5, h6⟩ := init_none P l t
  rw [solve_load P st prev hu hl ht upper more h1] at hc
  have hinv : Inv P t (upper :: more) (changeLoad s t none) := ⟨h4, h5, fun _ => h3, fun h hh => by rw [h2] at hh; cases hh⟩
  have hroot : Inv P t (upper :: more) (rootScalar P (changeLoad s t none) upper more).1 := by
    unfold rootScalar
    rw [call_zero P h6]
    dsimp only
    have hcu := call_inv P hinv (x := upper) (by simp) (htouch upper (by simp))
    rcases hcall : call P (changeLoad s t none) upper with ⟨s', r⟩
    rw [hcall] at hcu
    cases r with
    | error e => exact hcu
    | ok v =>
      dsimp only
      split_ifs
      · exact hcu
      · exact hcu
      · exact hcu
      · exact try_inv P more (fun x hx => by simp [hx]) (fun x hx => htouch x (by simp [hx])) s' hcu
  rcases hr : rootScalar P (changeLoad s t none) upper more with ⟨s', r⟩
  rw [hr] at hroot hc
  cases r with
  | error e => cases hc
  | ok v =>
    dsimp only at hc
    unfold results at hc
    cases hres : s'.results with
    | none => rw [hres] at hc; cases hc
    | some h =>
      rw [hres] at hc
      dsimp only at hc
      rw [nodesFor_free P hroot.free] at hc
      injection hc with hc
      subst hc
      obtain ⟨m1, m2⟩ := hroot.some h hres
      refine ⟨rfl, rfl, m1, rfl, ?_⟩
      dsimp only at m2
      simp [close, m2, and_assoc]

/-- **C93 (partial)**: a positive load that is not relative: converged means that the load is within 5 % of the target in a solution of the contact problem. Missing: relative
loads, where this is false. -/
theorem C93_converged_partial (P : Problem N) (him : P.imMats = true) (st : Step) (prev : Previous N) (hu : st.unloading = false ∨ prev.contactNodes = none) {l : ℝ} (hl : st.normalLoad = some l)
    (hpos : 0 < l) (hr : st.relative = false) (upper : ℝ) (more : List ℝ) (htouch : ∀ x ∈ upper :: more, P.noNodes (P.touching x) = false) {c : Current} (hc : solve P st prev upper more = .ok c)
    (hconv : c.converged = true) : |c.totalLoad - l| < 5 / 100 * l ∧ P.bccg c.interference (P.touching c.interference) = (c.totalLoad, false) := by
  have ht : wantedLoad st prev = some l := by simp [wantedLoad, hl, hr]
  obtain ⟨-, -, -, h1, h2⟩ := C93_load P him st prev hu hl ht upper more htouch hc
  obtain ⟨-, h3, h4⟩ := h2.mp hconv
  refine ⟨?_, Prod.ext h1.symm h4⟩
  rwa [div_lt_iff₀ hpos] at h3

/-- **C93 (negation)**: a relative load is compared with the increment instead of the target. If the load was not small before the step, a step that ends exactly at
the target is reported as not converged. -/
theorem C93_relative_wrong (P : Problem N) (him : P.imMats = true) (st : Step) (prev : Previous N) (hu : st.unloading = false ∨ prev.contactNodes = none) {l before : ℝ} (hl : st.normalLoad = some l)
    (hpos : 0 < l) (hr : st.relative = true) (hb : prev.totalLoad = some before) (hbig : 5 / 100 * l ≤ before) (upper : ℝ) (more : List ℝ)
    (htouch : ∀ x ∈ upper :: more, P.noNodes (P.touching x) = false) {c : Current} (hc : solve P st prev upper more = .ok c) (hexact : c.totalLoad = before + l) : c.converged = false := by
  have ht : wantedLoad st prev = some (before + l) := by simp [wantedLoad, hl, hr, hb]
  obtain ⟨-, -, -, -, h2⟩ := C93_load P him st prev hu hl ht upper more htouch hc
  by_contra hcon
  obtain ⟨-, h3, -⟩ := h2.mp (by simpa using hcon)
  rw [div_lt_iff₀ hpos, hexact, add_sub_cancel_right] at h3
  have := le_abs_self before
  linarith

/-- **C93 (negation)**: a negative increment (unloading) is reported as converged whatever the load is, as long as the contact solver succeeds. -/
theorem C93_relative_unloading_wrong (P : Problem N) (him : P.imMats = true) (st : Step) (prev : Previous N) (hu : st.unloading = false ∨ prev.contactNodes = none) {l before : ℝ}
    (hl : st.normalLoad = some l) (hneg : l < 0) (hr : st.relative = true) (hb : prev.totalLoad = some before) (upper : ℝ) (more : List ℝ)
    (htouch : ∀ x ∈ upper :: more, P.noNodes (P.touching x) = false) {c : Current} (hc : solve P st prev upper more = .ok c)
    (hsolved : (P.bccg c.interference (P.touching c.interference)).2 = false) : c.converged = true := by
  have ht : wantedLoad st prev = some (before + l) := by simp [wantedLoad, hl, hr, hb]
  obtain ⟨-, -, -, -, h2⟩ := C93_load P him st prev hu hl ht upper more htouch hc
  refine h2.mpr ⟨hneg.ne, ?_, hsolved⟩
  have : |c.totalLoad - l| / l ≤ 0 := div_nonpos_of_nonneg_of_nonpos (abs_nonneg _) hneg.le
  linarith

theorem rootScalar_fresh (P : Problem N) (him : P.imMats = true) {s : HeightCache.State N} (hfree : s.setContactNodes = false)
    (h : s.heights = [0] ∧ s.totals = [0] ∨ ∃ h l, P.maxEntry = some (h, l) ∧ s.heights = [0, h] ∧ s.totals = [0, l]) {upper : ℝ} (hf : Fresh P upper) (ht : P.noNodes (P.touching upper) = false)
    (more : List ℝ) :
    rootScalar P s upper more = if s.setLoad = 0 ∨ (P.bccg upper (P.touching upper)).1 = s.setLoad then ((solveHeight P s upper).1, .ok ())
      else if (0 < s.setLoad ↔ (P.bccg upper (P.touching upper)).1 < s.setLoad) then ((solveHeight P s upper).1, .error .valueError) else tryHeights P (solveHeight P s upper).1 more := by
  unfold rootScalar
  rw [call_zero P h]
  dsimp only
  rw [call_fresh P him h hf, (solve_fields P hfree upper ht).2.2.2.2]
  dsimp only
  by_cases h1 : s.setLoad = 0
  · simp [h1]
  · have : (0 : ℝ) - s.setLoad ≠ 0 := by simpa using h1
    rw [if_neg this]
    by_cases h2 : (P.bccg upper (P.touching upper)).1 = s.setLoad
    · simp [h2]
    · have hor : ¬ (s.setLoad = 0 ∨ (P.bccg upper (P.touching upper)).1 = s.setLoad) := by simp [h1, h2]
      rw [if_neg (sub_ne_zero.mpr h2), if_neg hor]
      simp only [zero_sub, neg_lt_zero, sub_neg]

/-- **C93**: loads out of reach of the bracket (below zero, or above the load at three times the greatest gap) are refused with `ValueError`. -/
theorem C93_out_of_reach (P : Problem N) (him : P.imMats = true) (st : Step) (prev : Previous N) (hu : st.unloading = false ∨ prev.contactNodes = none) {l t : ℝ} (hl : st.normalLoad = some l)
    (ht : wantedLoad st prev = some t) {upper : ℝ} (hf : Fresh P upper) (htouch : P.noNodes (P.touching upper) = false)
    (hout : 0 < t ∧ (P.bccg upper (P.touching upper)).1 < t ∨ t < 0 ∧ t < (P.bccg upper (P.touching upper)).1) (more : List ℝ) : solve P st prev upper more = .error .valueError := by
  obtain ⟨s, h1, h2, h3, h4, h5, h6⟩ := init_none P l t
  rw [solve_load P st prev hu hl ht upper more h1, rootScalar_fresh P him h4 h6 hf htouch, h5]
  rcases hout with ⟨ha, hb⟩ | ⟨ha, hb⟩
  · have hor : ¬ (t = 0 ∨ (P.bccg upper (P.touching upper)).1 = t) := fun h => h.elim ha.ne' hb.ne
    have hiff : 0 < t ↔ (P.bccg upper (P.touching upper)).1 < t := ⟨fun _ => hb, fun _ => ha⟩
    rw [if_neg hor, if_pos hiff]
  · have hor : ¬ (t = 0 ∨ (P.bccg upper (P.touching upper)).1 = t) := fun h => h.elim ha.ne hb.ne'
    have hiff : 0 < t ↔ (P.bccg upper (P.touching upper)).1 < t := ⟨fun h => absurd h (not_lt.mpr ha.le), fun h => absurd h (not_lt.mpr hb.le)⟩
    rw [if_neg hor, if_pos hiff]

/-- **C93 (negation)**: a load of zero is answered with the solution for three times the greatest gap, not converged. -/
theorem C93_zero_load_wrong (P : Problem N) (him : P.imMats = true) (st : Step) (prev : Previous N) (hu : st.unloading = false ∨ prev.contactNodes = none) (hl : st.normalLoad = some 0)
    (hr : st.relative = false) {upper : ℝ} (hf : Fresh P upper) (htouch : P.noNodes (P.touching upper) = false) (more : List ℝ) :
    ∃ c, solve P st prev upper more = .ok c ∧ c.interference = upper ∧ c.totalLoad = (P.bccg upper (P.touching upper)).1 ∧ c.converged = false := by
  have ht : wantedLoad st prev = some 0 := by simp [wantedLoad, hl, hr]
  obtain ⟨s, h1, h2, h3, h4, h5, h6⟩ := init_none P 0 0
  obtain ⟨e1, e2, e3, e4, e5⟩ := solve_fields P h4 upper htouch
  rw [solve_load P st prev hu hl ht upper more h1, rootScalar_fresh P him h4 h6 hf htouch, h5, if_pos (Or.inl rfl)]
  simp only [results, e3, nodesFor_free P e1]
  exact ⟨_, rfl, rfl, rfl, by simp [close]⟩

/-- **C93 (negation)**: if the gap is zero everywhere (flat on flat) no load other than zero can be applied: `ValueError`. -/
theorem C93_flat_wrong (P : Problem N) (st : Step) (prev : Previous N) (hu : st.unloading = false ∨ prev.contactNodes = none) {l t : ℝ} (hl : st.normalLoad = some l)
    (ht : wantedLoad st prev = some t) (hne : t ≠ 0) (more : List ℝ) : solve P st prev 0 more = .error .valueError := by
  obtain ⟨s, h1, h2, h3, h4, h5, h6⟩ := init_none P l t
  have hr : rootScalar P (changeLoad s t none) 0 more = (changeLoad s t none, .error .valueError) := by
    unfold rootScalar
    rw [call_zero P h6]
    dsimp only
    rw [call_zero P h6]
    dsimp only
    rw [h5, if_neg (by simpa using hne), if_neg (by simpa using hne), if_pos Iff.rfl]
  rw [solve_load P st prev hu hl ht 0 more h1, hr]

/-! ## Failing cases that do not depend on the control -/

/-- **C93 (negation)**: with `unloading=True` after a step with contact nodes every call fails with `AttributeError`: the contact is never constrained to the previous nodes. -/
theorem C93_unloading_wrong (P : Problem N) (st : Step) (prev : Previous N) (hu : st.unloading = true) (nodes : N) (hn : prev.contactNodes = some nodes) (upper : ℝ) (more : List ℝ) :
    solve P st prev upper more = .error .attributeError := by
  unfold solve
  simp only [hu, hn, if_true]
  rfl

/-- **C93**: a relative step after a state without the quantity: `KeyError`. -/
theorem C93_relative_first (P : Problem N) (st : Step) (prev : Previous N) (hu : st.unloading = false ∨ prev.contactNodes = none) (hr : st.relative = true)
    (hm : st.normalLoad.isSome = true ∧ prev.totalLoad = none ∨ st.normalLoad = none ∧ prev.interference = none) (upper : ℝ) (more : List ℝ) :
    solve P st prev upper more = .error .keyError := by
  have hinit : (if st.unloading = true then prev.contactNodes else none) = none := by rcases hu with h | h <;> simp [h]
  obtain ⟨s, h1, -⟩ := init_none P (st.normalLoad.getD 1) 0
  rcases hm with ⟨hs, hp⟩ | ⟨hs, hp⟩
  · obtain ⟨l, hl⟩ := Option.isSome_iff_exists.mp hs
    rw [hl] at h1
    unfold solve
    simp only [hinit, hl, h1, hr, target, if_true, bind, Except.bind, item, hp, Except.map]
  · rw [hs] at h1
    unfold solve
    simp only [hinit, hs, h1, hr, target, if_true, bind, Except.bind, item, hp, Except.map]

/-- **C93 (negation)**: materials that are not given by influence matrices: `TypeError` for every interference other than zero and, if the gap is not zero everywhere, for every load. -/
theorem C93_other_materials_wrong (P : Problem N) (him : P.imMats = false) (st : Step) (prev : Previous N) (hu : st.unloading = false ∨ prev.contactNodes = none) {upper : ℝ} (hup : upper ≠ 0)
    (more : List ℝ) (hw : (∃ t, wantedLoad st prev = some t) ∨ ∃ x, st.normalLoad = none ∧ wantedInterference st prev = some x) :
    solve P st prev upper more = .error .typeError := by
  have hheights : ∀ (m t : ℝ) (s : HeightCache.State N), HeightCache.init P none m = .ok s → (changeLoad s t none).heights = [0] ∧ (changeLoad s t none).totals = [0] := by
    intro m t s hs
    unfold HeightCache.init at hs
    dsimp only at hs
    rw [him] at hs
    simp only [Bool.false_and, Bool.false_eq_true, if_false, Except.ok.injEq] at hs
    subst hs
    exact ⟨rfl, rfl⟩
  have hcall : ∀ (s : HeightCache.State N) (x : ℝ), s.heights = [0] → x ≠ 0 → ∃ s', call P s x = (s', .error .typeError) := by
    intro s x hs hx
    unfold call
    rw [if_neg (by rw [hs]; simpa using hx), him]
    exact ⟨_, rfl⟩
  rcases hw with ⟨t, ht⟩ | ⟨x, hn, hx⟩
  · cases hl : st.normalLoad with
    | none => simp [wantedLoad, hl] at ht
    | some l =>
      obtain ⟨s, h1, h2, h3, h4, h5, h6⟩ := init_none P l t
      obtain ⟨s', hc⟩ := hcall (changeLoad s t none) upper (hheights l t s h1).1 hup
      have hr : rootScalar P (changeLoad s t none) upper more = (s', .error .typeError) := by
        unfold rootScalar
        rw [call_zero P h6]
        dsimp only
        rw [hc]
      rw [solve_load P st prev hu hl ht upper more h1, hr]
  · by_cases hx0 : x = 0
    · have hinit : (if st.unloading = true then prev.contactNodes else none) = none := by rcases hu with h | h <;> simp [h]
      obtain ⟨s, h1, h2, h3, h4, h5, h6⟩ := init_none P (st.normalLoad.getD 1) 1
      subst hx0
      have hi : target st.relative prev.interference (st.interference.getD 0) = .ok 0 := by
        unfold wantedInterference at hx
        cases hii : st.interference with
        | none => simp [hii] at hx
        | some i =>
          cases hr : st.relative with
          | false => simp_all [target]
          | true =>
            simp only [hii, hr, if_true, Option.map_eq_some_iff] at hx
            obtain ⟨a, ha, hz⟩ := hx
            simp [target, ha, item, Except.map, hz]
      rw [hn] at h1
      unfold solve
      simp only [hinit, hn, h1, hi, bind, Except.bind, call_zero P h6, results, h2]
    · have hinit : (if st.unloading = true then prev.contactNodes else none) = none := by rcases hu with h | h <;> simp [h]
      obtain ⟨s, h1, h2, h3, h4, h5, h6⟩ := init_none P (st.normalLoad.getD 1) 1
      have hi : target st.relative prev.interference (st.interference.getD 0) = .ok x := by
        unfold wantedInterference at hx
        cases hii : st.interference with
        | none => simp [hii] at hx
        | some i =>
          cases hr : st.relative with
          | false => simp_all [target]
          | true =>
            simp only [hii, hr, if_true, Option.map_eq_some_iff] at hx
            obtain ⟨a, ha, rfl⟩ := hx
            simp [target, ha, item, Except.map]
      obtain ⟨s', hc⟩ := hcall (changeLoad s 1 none) x (hheights _ 1 s h1).1 hx0
      rw [hn] at h1
      unfold solve
      simp only [hinit, hn, h1, hi, bind, Except.bind, hc]

/-! ## Concrete steps -/

/-- A linear spring: load 2 per unit of height, all positive heights touch. -/
noncomputable def spring : Problem Bool := open Classical in
  { imMats := true, maxEntry := none, useCache := true, useLoads := true, touching := fun h => decide (0 < h), noNodes := fun n => !n,
    bccg := fun h _ => (2 * h, false), cubic := fun _ _ _ => .error .valueError }

/-- Interference 1 (`C93_interference_partial`), and a negative interference without contact (`C93_no_contact_wrong`). -/
example : wantedInterference (N := Bool) ⟨none, some 1, false, false, 1⟩ ⟨0, none, none, none⟩ = some 1 ∧ Fresh spring 1 ∧ spring.noNodes (spring.touching 1) = false ∧
    Fresh spring (-1) ∧ spring.noNodes (spring.touching (-1)) = true := by
  refine ⟨rfl, ⟨one_ne_zero, fun l => by simp [spring]⟩, by simp [spring], ⟨by norm_num, fun l => by simp [spring]⟩, ?_⟩
  simp [spring]

/-- The load 2 with the greatest gap 1: found at the height 1, converged (`C93_load`, `C93_converged_partial`). -/
example : ∃ c, solve spring ⟨some 2, none, false, false, 1⟩ ⟨0, none, none, none⟩ 3 [1] = .ok c ∧ c.converged = true ∧ ∀ x ∈ [(3 : ℝ), 1], spring.noNodes (spring.touching x) = false := by
  obtain ⟨s, h1, h2, h3, h4, h5, h6⟩ := init_none spring 2 2
  have hf : Fresh spring 3 := ⟨by norm_num, fun l => by simp [spring]⟩
  have ht : spring.noNodes (spring.touching 3) = false := by simp [spring]
  have ht1 : spring.noNodes (spring.touching 1) = false := by simp [spring]
  have hw : wantedLoad (N := Bool) ⟨some 2, none, false, false, 1⟩ ⟨0, none, none, none⟩ = some 2 := rfl
  obtain ⟨e1, e2, e3, e4, e5⟩ := solve_fields spring h4 3 ht
  have hheights : (solveHeight spring (changeLoad s 2 none) 3).1.heights = [0, 3] := by
    unfold solveHeight
    simp only [nodesFor_free spring h4, ht, Bool.false_eq_true, if_false]
    rcases h6 with ⟨a, b⟩ | ⟨x, y, hxy, -⟩
    · have ha : s.heights = [0] := a
      simp [addToCache, spring, changeLoad, ha, bisectLeft, bisectLoop]
    · simp [spring] at hxy
  have hcall : call spring (solveHeight spring (changeLoad s 2 none) 3).1 1 =
      ((solveHeight spring (solveHeight spring (changeLoad s 2 none) 3).1 1).1, .ok (solveHeight spring (solveHeight spring (changeLoad s 2 none) 3).1 1).2) := by
    unfold call
    rw [if_neg (by rw [hheights]; norm_num)]
    rfl
  obtain ⟨g1, g2, g3, g4, g5⟩ := solve_fields spring e1 1 ht1
  refine ⟨⟨1, 1, 1, 2, true⟩, ?_, rfl, fun x hx => ?_⟩
  · rw [solve_load spring _ _ (Or.inl rfl) rfl hw 3 [1] h1, rootScalar_fresh spring rfl h4 h6 hf ht, h5]
    have n1 : ¬ ((2 : ℝ) = 0 ∨ (spring.bccg 3 (spring.touching 3)).1 = 2) := by norm_num [spring]
    have n2 : ¬ ((0 : ℝ) < 2 ↔ (spring.bccg 3 (spring.touching 3)).1 < 2) := by norm_num [spring]
    rw [if_neg n1, if_neg n2, tryHeights, hcall]
    simp only [tryHeights, results, g3, g4, nodesFor_free spring g1]
    norm_num [spring, close]
  · rcases List.mem_cons.mp hx with rfl | hx
    · exact ht
    · rw [List.mem_singleton.mp hx]; exact ht1

/-- A relative step of 1 after a load of 10 (`C93_relative_wrong`); a decrease by 1 (`C93_relative_unloading_wrong`); a load out of reach of the bracket `(0, 3)` (`C93_out_of_reach`). -/
example : (5 / 100 * 1 ≤ (10 : ℝ)) ∧ wantedLoad (N := Bool) ⟨some (-1), none, true, false, 1⟩ ⟨0, some 10, none, none⟩ = some (10 + -1) ∧
    (spring.bccg 3 (spring.touching 3)).1 < 10 := by
  refine ⟨by norm_num, rfl, by norm_num [spring]⟩

/-- A step without load or interference is made with `relative_loading=True`, and unloading steps are made. -/
example : construct none none true true 1 = .ok ⟨none, some 0, true, true, 1⟩ ∧ construct (some 1) none true true 1 = .ok ⟨some 1, none, true, true, 1⟩ := ⟨rfl, rfl⟩

/-- The remaining calls: the load zero, a greatest gap of zero, an unloading step after contact, a relative step without a state before. -/
example : (∃ c, solve spring ⟨some 0, none, false, false, 1⟩ ⟨0, none, none, none⟩ 3 [] = .ok c ∧ c.interference = 3 ∧ c.totalLoad = (spring.bccg 3 (spring.touching 3)).1 ∧ c.converged = false) ∧
    solve spring ⟨some 2, none, false, false, 1⟩ ⟨0, none, none, none⟩ 0 [] = .error .valueError ∧
    solve spring ⟨some 2, none, false, true, 1⟩ ⟨0, none, none, some true⟩ 3 [] = .error .attributeError ∧
    solve spring ⟨some 2, none, true, false, 1⟩ ⟨0, none, none, none⟩ 3 [] = .error .keyError :=
  ⟨C93_zero_load_wrong spring rfl _ _ (Or.inl rfl) rfl rfl ⟨by norm_num, fun l => by simp [spring]⟩ (by simp [spring]) [],
    C93_flat_wrong spring _ _ (Or.inl rfl) (l := 2) (t := 2) rfl rfl (by norm_num) [],
    C93_unloading_wrong spring _ _ rfl true rfl 3 [],
    C93_relative_first spring _ _ (Or.inl rfl) rfl (Or.inl ⟨rfl, rfl⟩) 3 []⟩

end Verif.Static
