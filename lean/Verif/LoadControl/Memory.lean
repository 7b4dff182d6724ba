import Verif.LoadControl.Props

/-!
# C156: an elastic contact has no memory: the states of quasi static steps
-/

namespace Verif.LoadControl

open Verif HeightCache HeightResults Finset

section

variable {N : Type}

theorem call_free (P : Problem N) (s : HeightCache.State N) (x : ℝ) (hs : s.setContactNodes = false) : (HeightCache.call P s x).1.setContactNodes = false := by
  unfold HeightCache.call
  split_ifs
  · cases lookup s x <;> exact hs
  · unfold solveHeight
    dsimp only
    split_ifs <;> exact (Static.add_fields P _ _ _ _).1.trans hs
  · exact hs

/-- The loads after displacement control are those of the height that the results belong to. -/
theorem solveDisp_truth {noTime : Bool} {o : Option (Problem N × HeightCache.State N)} {P : Problem N} {x : ℝ} {r} (h : Quasi.solveDisp noTime o P none x = .ok r) :
    (∃ w, Quasi.optimiser noTime o P none 1 = .ok w ∧ r.1.1 = w.1) ∧ r.2.totalLoad = (r.1.1.bccg r.2.solvedAt (r.1.1.touching r.2.solvedAt)).1 := by
  unfold Quasi.solveDisp at h
  obtain ⟨w, hw, h⟩ := Interp.bind_ok h
  have h1 := call_free w.1 (HeightCache.changeLoad w.2 1 none) x rfl
  rcases hc : HeightCache.call w.1 (HeightCache.changeLoad w.2 1 none) x with ⟨s, _ | v⟩
  · rw [hc] at h; cases h
  · rw [hc] at h h1
    obtain ⟨t, ht, h⟩ := Interp.bind_ok h
    injection h with h
    subst h
    refine ⟨⟨w, hw, rfl⟩, ?_⟩
    unfold Static.results at ht
    cases hres : s.results with
    | none => rw [hres] at ht; cases ht
    | some y =>
      rw [hres] at ht
      dsimp only at ht
      rw [Static.nodesFor_free w.1 h1] at ht
      injection ht with ht
      subst ht
      rfl

/-- Each state of a call of `solve` with surfaces that do not change holds the load of the contact solution at its height, if the optimiser of an earlier call (if there is one) belongs to the same surfaces. -/
theorem solve_truth {a : Quasi.Args} {prev : Quasi.Previous N} {world : Nat → Option (ℝ × ℝ) → Problem N × ℝ} {choice : Nat → Quasi.Choice} {qs : List (Interp.Quantities ℝ)}
    (hqs : Interp.run .real a.quantities prev.quantities = .ok qs) {st : Interp.Step ℝ} {q0 : Interp.Quantities ℝ} (hinc : Interp.increments .real st prev.quantities st.steps 0 q0 = .ok qs)
    (hu : a.unloading = false ∨ prev.contactNodes = none) {P : Problem N} {o0 : Option (Problem N × HeightCache.State N)} (ho0 : ∀ w, o0 = some w → w.1 = P)
    (hP : ∀ (k : ℕ) q, qs[k]? = some q → (world k q.offSet).1 = P) {l : Quasi.Loop N} {cs : List Quasi.Current} (hrun : Quasi.increments a st prev world choice st.steps 0 ⟨q0, o0, none, prev.time⟩ = .ok (l, cs))
    {k : ℕ} {c : Quasi.Current} (hk : cs[k]? = some c) :
    c.totalLoad = (P.bccg c.solvedAt (P.touching c.solvedAt)).1 ∧
      (a.quantities.load ≠ .none → ∃ q load, qs[k]? = some q ∧ q.load = some load ∧ (c.converged = true → load ≠ 0 ∧ |c.totalLoad - load| / load < 5 / 100)) := by
  have hctl := Quasi.controlled hqs
  have hini : Quasi.initialNodes a prev = none := by unfold Quasi.initialNodes; rcases hu with h | h <;> simp [h]
  obtain ⟨-, e3⟩ := Quasi.backward a st prev world choice
    (fun _ o g => (∀ w, o = some w → w.1 = P) ∧ (∀ w, g = some w → w.1 = P))
    (fun k f => f.totalLoad = (P.bccg f.solvedAt (P.touching f.solvedAt)).1 ∧
      (a.quantities.load ≠ .none → ∃ q load, qs[k]? = some q ∧ q.load = some load ∧ (f.converged = true → load ≠ 0 ∧ |f.totalLoad - load| / load < 5 / 100)))
    st.steps 0 ⟨q0, o0, none, prev.time⟩ qs hinc ⟨ho0, (fun w h => by cases h)⟩ (by
      intro k q o g r hk hI hr
      rw [Nat.zero_add] at hr ⊢
      have hg : (Quasi.gapFor st a.quantities.noTime world k q.offSet g).1 = P := by
        unfold Quasi.gapFor
        cases g with
        | none => exact hP k q hk
        | some w =>
          dsimp only
          split_ifs
          · exact hP k q hk
          · exact hI.2 w rfl
      have hopt : ∀ m w, Quasi.optimiser a.quantities.noTime o P none m = .ok w → w.1 = P := by
        intro m w hw
        have new : (HeightCache.init P none m).map (fun s => (P, s)) = .ok w → w.1 = P := by
          intro hw
          cases hs : HeightCache.init P none m with
          | error e => rw [hs] at hw; cases hw
          | ok s => rw [hs] at hw; injection hw with hw; subst hw; rfl
        unfold Quasi.optimiser at hw
        split at hw
        · injection hw with hw
          subst hw
          exact hI.1 _ rfl
        · exact new hw
      rw [hg, hini] at hr
      by_cases hl : a.quantities.load = .none
      · obtain ⟨x, hx⟩ := (hctl q (List.mem_of_getElem? hk)).1 hl
        rw [Quasi.solveBy_disp hl hx] at hr
        obtain ⟨⟨w, hw, hrw⟩, t⟩ := solveDisp_truth hr
        have e := hrw.trans (hopt _ _ hw)
        rw [e] at t
        exact ⟨⟨(fun v hv => by injection hv with hv; subst hv; exact e), (fun v hv => by injection hv with hv; subst hv; exact hg)⟩, t, fun h => absurd hl h⟩
      · obtain ⟨load, hload⟩ := (hctl q (List.mem_of_getElem? hk)).2 hl
        rw [Quasi.solveBy_load hl hload] at hr
        obtain ⟨⟨w, hw, hrw⟩, t, t2⟩ := Quasi.solveLoad_truth hr
        have e := hrw.trans (hopt _ _ hw)
        rw [e] at t
        exact ⟨⟨(fun v hv => by injection hv with hv; subst hv; exact e), (fun v hv => by injection hv with hv; subst hv; exact hg)⟩, t, fun _ => ⟨q, load, hk, hload, t2⟩⟩) l cs hrun
  obtain ⟨f, ⟨g1, g2⟩, s1, s2, s3, s4⟩ := e3 k c hk
  rw [Nat.zero_add] at g2
  rw [s3, s2, s4]
  exact ⟨g1, g2⟩

/-- Each state of a quasi static step with surfaces that do not change holds the load of the contact solution at its height. -/
theorem state_truth {a : Quasi.Args} {prev : Quasi.Previous N} {world : Nat → Option (ℝ × ℝ) → Problem N × ℝ} {choice : Nat → Quasi.Choice} {qs : List (Interp.Quantities ℝ)}
    (hqs : Interp.run .real a.quantities prev.quantities = .ok qs) (hu : a.unloading = false ∨ prev.contactNodes = none) {P : Problem N}
    (hP : ∀ (k : ℕ) q, qs[k]? = some q → (world k q.offSet).1 = P) {l : Quasi.Loop N} {cs : List Quasi.Current} (hrun : Quasi.run a prev world choice = .ok (l, cs))
    {k : ℕ} {c : Quasi.Current} (hk : cs[k]? = some c) :
    c.totalLoad = (P.bccg c.solvedAt (P.touching c.solvedAt)).1 ∧
      (a.quantities.load ≠ .none → ∃ q load, qs[k]? = some q ∧ q.load = some load ∧ (c.converged = true → load ≠ 0 ∧ |c.totalLoad - load| / load < 5 / 100)) := by
  have hf : a.fastLd = false := by
    by_contra h
    obtain ⟨e, he⟩ := Quasi.C100_fast_wrong a prev world choice (by simpa using h)
    rw [he] at hrun
    cases hrun
  obtain ⟨st, -, hinc, -, -, -, hr⟩ := Quasi.run_eq hqs hf world choice
  rw [hr] at hrun
  exact solve_truth hqs hinc hu (fun w h => by cases h) hP hrun hk

end

variable {S : Setup} {c0 c1 : Bool} {M : Option ℝ}

/-- The load of the solution of the code is the load of the contact, at every height. -/
theorem load_at (hS : Ideal S c0 c1 M) (h : ℝ) : (S.problem.bccg h (S.problem.touching h)).1 = hS.load h := by
  cases hn : S.problem.noNodes (S.problem.touching h) with
  | false => exact hS.loads.solved h hn
  | true =>
    rw [hS.loads.none h hn]
    have hn' : (S.nodes (S.problem.touching h)).isEmpty = true := hn
    rw [List.isEmpty_iff] at hn'
    show ((S.nodes _).map _).sum * _ = _
    rw [hn']
    simp

/-- What is known of a run of a quasi static step between surfaces that do not change: `c` is one of its states. -/
structure StateOf (S : Setup) (c : Quasi.Current) where
  args : Quasi.Args
  prev : Quasi.Previous Mask
  world : Nat → Option (ℝ × ℝ) → Problem Mask × ℝ
  choice : Nat → Quasi.Choice
  quantities : List (Interp.Quantities ℝ)
  known : Interp.run .real args.quantities prev.quantities = .ok quantities
  nodes : args.unloading = false ∨ prev.contactNodes = none
  same : ∀ (k : ℕ) q, quantities[k]? = some q → (world k q.offSet).1 = S.problem
  loop : Quasi.Loop Mask
  states : List Quasi.Current
  done : Quasi.run args prev world choice = .ok (loop, states)
  number : ℕ
  there : states[number]? = some c

/-- **C156**: every state of a quasi static step (in load or displacement control, with or without time dependence, in any increment, whatever the root finder does) holds the load of the one elastic contact at the
height that its loads were solved at. -/
theorem C156_state (hS : Ideal S c0 c1 M) {c : Quasi.Current} (R : StateOf S c) : ∃ u, Carries S c0 c1 M c.totalLoad c.solvedAt u := by
  obtain ⟨u, hu⟩ := hS.pressures c.solvedAt
  refine ⟨u, hu, ?_⟩
  rw [(state_truth R.known R.nodes R.same R.done R.there).1, load_at hS, hS.load_eq hu]

/-- **C156**: two states with the same load hold the same pressures, whatever was done before them: another step, other increments, loading or unloading. -/
theorem C156_no_memory (hS : Ideal S c0 c1 M) (hsp : S.spacing ≠ 0) {c c' : Quasi.Current} (R : StateOf S c) (R' : StateOf S c') (h : c.totalLoad = c'.totalLoad) :
    ∃ u, Carries S c0 c1 M c.totalLoad c.solvedAt u ∧ Carries S c0 c1 M c'.totalLoad c'.solvedAt u := by
  obtain ⟨u, hu⟩ := C156_state hS R
  obtain ⟨u', hu'⟩ := C156_state hS R'
  refine ⟨u, hu, ?_⟩
  have e := C152_one_contact hS hsp hu (u' := u') (h' := c'.solvedAt) (by rw [h]; exact hu')
  rwa [e] at hu'

/-- **C156**: over all states the load rises with the height, and a state with the smaller load is at the smaller height. -/
theorem C156_order (hS : Ideal S c0 c1 M) {c c' : Quasi.Current} (R : StateOf S c) (R' : StateOf S c') :
    (c.solvedAt ≤ c'.solvedAt → c.totalLoad ≤ c'.totalLoad) ∧ (c.totalLoad < c'.totalLoad → c.solvedAt < c'.solvedAt) := by
  have e := (state_truth R.known R.nodes R.same R.done R.there).1
  have e' := (state_truth R'.known R'.nodes R'.same R'.done R'.there).1
  rw [load_at hS] at e e'
  have h1 : c.solvedAt ≤ c'.solvedAt → c.totalLoad ≤ c'.totalLoad := fun h => by rw [e, e']; exact hS.mono h
  refine ⟨h1, fun h => ?_⟩
  by_contra hn
  have : c'.totalLoad ≤ c.totalLoad := by rw [e, e']; exact hS.mono (not_lt.1 hn)
  linarith

/-- **C156**: a quasi static step and a static step that end with the same load end with the same pressures. -/
theorem C156_static (hS : Ideal S c0 c1 M) (hsp : S.spacing ≠ 0) (hg : ∃ i < S.rows, ∃ j < S.cols, S.gap i j ≤ 0) {c : Quasi.Current} (R : StateOf S c) {st : Static.Step} {prev : Static.Previous Mask}
    (hu : st.unloading = false) {l : ℝ} (hl : st.normalLoad = some l) (hpos : 0 < l) (hr : st.relative = false) {upper : ℝ} {more : List ℝ} (hm : ∀ x ∈ upper :: more, 0 < x) {c' : Static.Current}
    (hc : Static.solve S.problem st prev upper more = .ok c') (h : c.totalLoad = c'.totalLoad) :
    ∃ u, Carries S c0 c1 M c.totalLoad c.solvedAt u ∧ Carries S c0 c1 M c'.totalLoad c'.interference u := by
  obtain ⟨u, hu'⟩ := C156_state hS R
  obtain ⟨v, hv, -⟩ := C152_static hS hsp hg hu hl hpos hr hm hc
  refine ⟨u, hu', ?_⟩
  have e := C152_one_contact hS hsp hu' (u' := v) (h' := c'.interference) (by rw [h]; exact hv)
  rwa [e] at hv

/-- **C156**: in load control, if an increment is reported as converged, its pressures differ from those of the contact under the load of the increment by no more than the distance of the heights and five percent of the
load allow. -/
theorem C156_converged (hS : Ideal S c0 c1 M) {c : Quasi.Current} (R : StateOf S c) (hl : R.args.quantities.load ≠ .none) (hconv : c.converged = true) :
    ∃ q load, R.quantities[R.number]? = some q ∧ q.load = some load ∧ (0 < load → |c.totalLoad - load| < 5 / 100 * load ∧ ∀ u, Carries S c0 c1 M c.totalLoad c.solvedAt u → ∀ h v,
      Carries S c0 c1 M load h v → ∀ e, (∀ w : Fin S.rows × Fin S.cols → ℝ, e * ∑ q, w q ^ 2 ≤ ∑ q, w q * bodies S c0 c1 w q) →
        e * ∑ q, (u q - v q) ^ 2 * S.spacing ^ 2 ≤ |c.solvedAt - h| * (5 / 100 * load)) := by
  obtain ⟨q, load, h1, h2, h3⟩ := (state_truth R.known R.nodes R.same R.done R.there).2 hl
  refine ⟨q, load, h1, h2, fun hpos => ?_⟩
  have hd : |c.totalLoad - load| < 5 / 100 * load := by
    have := (h3 hconv).2
    rwa [div_lt_iff₀ hpos] at this
  refine ⟨hd, fun u hu h v hv e he => ?_⟩
  have t1 := (he (u - v)).trans (Contact.load_work hv.1 hu.1)
  have t2 : (c.solvedAt - h) * ((∑ q, u q) - ∑ q, v q) * S.spacing ^ 2 ≤ |c.solvedAt - h| * (5 / 100 * load) := by
    have e1 : (c.solvedAt - h) * ((∑ q, u q) - ∑ q, v q) * S.spacing ^ 2 = (c.solvedAt - h) * (c.totalLoad - load) := by
      rw [← hu.2, ← hv.2]; ring
    rw [e1]
    refine (le_abs_self _).trans ?_
    rw [abs_mul]
    exact mul_le_mul_of_nonneg_left hd.le (abs_nonneg _)
  rw [← sum_mul, ← mul_assoc]
  exact (mul_le_mul_of_nonneg_right t1 (sq_nonneg _)).trans t2

/-! ## Examples -/

/-- The surfaces of `soft` in every increment; the greatest gap is 1/2, so that the upper bound of the interference is 2. -/
noncomputable def softs : Nat → Option (ℝ × ℝ) → Problem Mask × ℝ := fun _ _ => (soft.problem, 1 / 2)

/-- The state before the first step. -/
def start : Quasi.Previous Mask := ⟨0, ⟨none, none, none⟩, none⟩

theorem soft_load : (soft.problem.bccg (3 / 2) (soft.problem.touching (3 / 2))).1 = 1 / 2 := by
  rw [load_at soft_ideal, soft_ideal.load_eq soft_carries.1]
  exact soft_carries.2

/-- At height 2 the load is 3/4. -/
theorem soft_more : (soft.problem.bccg 2 (soft.problem.touching 2)).1 = 3 / 4 := by
  have hp : Pressures soft false false (some 2) 2 fun q => 2 - ((q.2 : ℕ) : ℝ) := by
    have hq : ∀ q : Fin 1 × Fin 2, ((q.2 : ℕ) : ℝ) ≤ 1 := fun q => by exact_mod_cast Nat.lt_succ_iff.1 q.2.2
    refine ⟨fun i hi => absurd trivial hi, fun i _ => ?_, fun i _ m hm => ?_, fun i _ hlt => ?_, fun i _ hlt => ?_⟩
    · have := hq i
      linarith
    · cases hm
      have : (0 : ℝ) ≤ ((i.2 : ℕ) : ℝ) := Nat.cast_nonneg _
      linarith
    · rw [soft_bodies] at hlt
      exact absurd hlt (lt_irrefl _)
    · rw [soft_bodies] at hlt
      exact absurd hlt (lt_irrefl _)
  rw [load_at soft_ideal, soft_ideal.load_eq hp]
  have hs : ∑ q : Fin 1 × Fin 2, (2 - ((q.2 : ℕ) : ℝ)) = 3 := by
    rw [Fintype.sum_prod_type]
    norm_num [Fin.sum_univ_succ]
  rw [show ∑ q : Fin soft.rows × Fin soft.cols, (2 - ((q.2 : ℕ) : ℝ)) = 3 from hs]
  norm_num [soft]

theorem soft_fresh {x : ℝ} (h0 : x ≠ 0) (h3 : x ≠ 3) : Static.Fresh soft.problem x := by
  refine ⟨h0, fun l h => h3 ?_⟩
  have := congrArg (Option.map Prod.fst) h
  norm_num [soft, Setup.problem] at this
  exact this.symm

/-- The second of two increments under the load 1/2; the root finder tries 1 and then 3/2. -/
theorem pressed : ∃ c, ∃ R : StateOf soft c, R.args.quantities.load ≠ .none ∧ c.solvedAt = 3 / 2 ∧ c.totalLoad = 1 / 2 ∧ c.converged = true := by
  have hqs : Interp.run .real (Quasi.constant (.number (1 / 2)) .none false 2).quantities start.quantities = .ok (List.replicate 2 ⟨some (0, 0), some (1 / 2), none, none⟩) := rfl
  have hone : ∀ (k : ℕ) q, (List.replicate 2 ⟨some (0, 0), some (1 / 2), none, none⟩ : List (Interp.Quantities ℝ))[k]? = some q → q = ⟨some (0, 0), some (1 / 2), none, none⟩ :=
    fun k q hk => List.eq_of_mem_replicate (List.mem_of_getElem? hk)
  have hup : (2 : ℝ) = 1 / 2 * (Quasi.constant (.number (1 / 2)) .none false 2).upperFactor := by norm_num [Quasi.constant]
  obtain ⟨l, cs, h1, h2⟩ := Quasi.C102_in_reach (Quasi.constant (.number (1 / 2)) .none false 2) start softs (fun _ => ⟨[1, 3 / 2], 3⟩) hqs rfl (Or.inl rfl) (by simp [Quasi.constant]) rfl (by
    intro k q load P upper hk hq hP hu
    rw [hone k q hk] at hq
    injection hq with hq
    have hP' : P = soft.problem := hP
    have hu' : upper = 2 := hu.trans hup.symm
    rw [hP', hu', ← hq, soft_more]
    exact ⟨rfl, soft_fresh (by norm_num) (by norm_num), touching soft_touch (by norm_num), by norm_num, by norm_num⟩)
  have h0 : 1 < cs.length := by rw [h2]; simp
  obtain ⟨c, hc⟩ : ∃ c, cs[1]? = some c := ⟨_, List.getElem?_eq_getElem h0⟩
  obtain ⟨-, hat⟩ := Quasi.C102_height_partial _ start softs _ hqs (Or.inl rfl) (by simp [Quasi.constant]) rfl h1 hc (q := ⟨some (0, 0), some (1 / 2), none, none⟩) rfl rfl (P := soft.problem) rfl hup
    rfl (soft_fresh (by norm_num) (by norm_num)) (touching soft_touch (by norm_num)) (by norm_num) (by rw [soft_more]; norm_num) (xs := [1]) (h := 3 / 2) rfl (soft_fresh (by norm_num) (by norm_num))
    (by norm_num) (touching soft_touch (by norm_num)) rfl
  obtain ⟨-, -, ht, hconv⟩ := Quasi.C102_load _ start softs _ hqs (Or.inl rfl) (by simp [Quasi.constant]) rfl h1 hc (q := ⟨some (0, 0), some (1 / 2), none, none⟩) rfl rfl (P := soft.problem) rfl hup
    (fun x hx => touching soft_touch (by simp at hx; rcases hx with rfl | rfl | rfl | rfl <;> norm_num))
  rw [hat, soft_load] at ht
  refine ⟨c, ⟨_, start, softs, _, _, hqs, Or.inl rfl, fun _ _ _ => rfl, l, cs, h1, 1, hc⟩, by simp [Quasi.constant], hat, ht, hconv.2 ⟨by norm_num, by rw [ht]; norm_num, ?_⟩⟩
  rw [hat]
  rfl

/-- One increment with the interference `x`. -/
theorem moved {x : ℝ} (hx : 0 < x) (h3 : x ≠ 3) : ∃ c, ∃ _ : StateOf soft c, c.solvedAt = x ∧ c.totalLoad = (soft.problem.bccg x (soft.problem.touching x)).1 := by
  have hqs : Interp.run .real (Quasi.constant .none (.number x) false 1).quantities start.quantities = .ok (List.replicate 1 ⟨some (0, 0), none, some x, none⟩) := rfl
  have hone : ∀ (k : ℕ) q, (List.replicate 1 ⟨some (0, 0), none, some x, none⟩ : List (Interp.Quantities ℝ))[k]? = some q → q = ⟨some (0, 0), none, some x, none⟩ :=
    fun k q hk => List.eq_of_mem_replicate (List.mem_of_getElem? hk)
  obtain ⟨l, cs, h1, h2, h4⟩ := Quasi.C101_time_partial (Quasi.constant .none (.number x) false 1) start softs (fun _ => ⟨[], 0⟩) hqs rfl (Or.inl rfl) rfl rfl (by
    intro k q y hk hq
    rw [hone k q hk] at hq
    injection hq with hq
    rw [← hq]
    exact ⟨rfl, soft_fresh hx.ne' h3, touching soft_touch hx⟩)
  have h0 : 0 < cs.length := by rw [h2]; simp
  obtain ⟨c, hc⟩ : ∃ c, cs[0]? = some c := ⟨_, List.getElem?_eq_getElem h0⟩
  obtain ⟨q, y, e1, e2, -, e3, e4, -⟩ := h4 0 c hc
  rw [hone _ _ e1] at e2
  injection e2 with e2
  subst e2
  exact ⟨c, ⟨_, start, softs, _, _, hqs, Or.inl rfl, fun _ _ _ => rfl, l, cs, h1, 0, hc⟩, e3, e4⟩

example : ∃ c, ∃ _ : StateOf soft c, ∃ u, Carries soft false false (some 2) c.totalLoad c.solvedAt u := by
  obtain ⟨c, R, -⟩ := pressed
  exact ⟨c, R, C156_state soft_ideal R⟩

/-- The second increment under the load 1/2 and a displacement to 3/2 hold the same pressures. -/
example : ∃ c c', ∃ _ : StateOf soft c, ∃ _ : StateOf soft c', ∃ u, Carries soft false false (some 2) c.totalLoad c.solvedAt u ∧ Carries soft false false (some 2) c'.totalLoad c'.solvedAt u := by
  obtain ⟨c, R, -, -, h, -⟩ := pressed
  obtain ⟨c', R', -, h'⟩ := moved (x := 3 / 2) (by norm_num) (by norm_num)
  exact ⟨c, c', R, R', C156_no_memory soft_ideal (by norm_num [soft]) R R' (by rw [h, h', soft_load])⟩

/-- A displacement to 1 gives a smaller load than 1/2, or the same. -/
example : ∃ c c', ∃ _ : StateOf soft c, ∃ _ : StateOf soft c', c.solvedAt = 1 ∧ c'.totalLoad = 1 / 2 ∧ c.totalLoad ≤ c'.totalLoad := by
  obtain ⟨c', R', -, ha, h, -⟩ := pressed
  obtain ⟨c, R, h1, -⟩ := moved (x := 1) (by norm_num) (by norm_num)
  exact ⟨c, c', R, R', h1, h, (C156_order soft_ideal R R').1 (by rw [h1, ha]; norm_num)⟩

/-- The static step under the load 1/2 with the bracket up to 3/2, where it is reached. -/
example : ∃ c, ∃ _ : StateOf soft c, ∃ c', Static.solve soft.problem ⟨some (1 / 2), none, false, false, 1⟩ ⟨0, none, none, none⟩ (3 / 2) [3 / 2, 1] = .ok c' ∧
    (c.totalLoad = c'.totalLoad → ∃ u, Carries soft false false (some 2) c.totalLoad c.solvedAt u ∧ Carries soft false false (some 2) c'.totalLoad c'.interference u) := by
  obtain ⟨c, R, -⟩ := pressed
  have hs : (∑ q : Fin soft.rows × Fin soft.cols, (3 / 2 - ((q.2 : ℕ) : ℝ))) * soft.spacing ^ 2 = 1 / 2 := soft_carries.2
  obtain ⟨c', hc'⟩ := (C152_reach soft_ideal soft_touch (st := ⟨some (1 / 2), none, false, false, 1⟩) (prev := ⟨0, none, none, none⟩) rfl rfl (by norm_num) rfl (by norm_num)
    (fun x hx => by have := congrArg (Option.map Prod.fst) hx; norm_num [soft] at this) soft_pressures [3 / 2, 1]).1 hs.ge
  exact ⟨c, R, c', hc', C156_static soft_ideal (by norm_num [soft]) soft_touch R rfl rfl (by norm_num) rfl (by intro x hx; simp at hx; rcases hx with rfl | rfl | rfl <;> norm_num) hc'⟩

example : ∃ c, ∃ R : StateOf soft c, ∃ q load, R.quantities[R.number]? = some q ∧ q.load = some load ∧ (0 < load → |c.totalLoad - load| < 5 / 100 * load) := by
  obtain ⟨c, R, hl, -, -, hc⟩ := pressed
  obtain ⟨q, load, h1, h2, h3⟩ := C156_converged soft_ideal R hl hc
  exact ⟨c, R, q, load, h1, h2, fun hp => (h3 hp).1⟩

end Verif.LoadControl
