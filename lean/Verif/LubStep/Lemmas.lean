import Verif.LubStep.Model
import Verif.Interp.Props
import Verif.Quasi.Lemmas
import Mathlib.Tactic.Linarith

/-!
# The increments and iterations of a lubrication step (lemmas for C103-C106)
-/

namespace Verif.LubStep

open Verif

variable {ι L M : Type} [Fintype ι]

/-- The states of the increments, from the quantities. -/
noncomputable def chain (a : Args ι) (prev : Previous ι) (E : Env ι L M) : Nat → List (Interp.Quantities ℝ) → ℝ × (ι → ℝ) → List (Current ι L M)
  | _, [], _ => []
  | i, q :: qs, g =>
    let c := record a prev E i q g
    c :: chain a prev E (i + 1) qs (c.interference, c.pressure)

theorem increments_chain (a : Args ι) (st : Interp.Step ℝ) (prev : Previous ι) (E : Env ι L M) : ∀ (todo i : Nat) (q : Interp.Quantities ℝ) (p : Option (ι → ℝ)) (x : Option ℝ),
    increments a st prev E todo i q p x =
      (Interp.increments .real st prev.quantities todo i q).map (fun qs => chain a prev E i qs (x.getD 0, p.getD (fun _ => 0))) := by
  intro todo
  induction todo with
  | zero => intro i q p x; rfl
  | succ n ih =>
    intro i q p x
    rw [increments, Interp.increments]
    cases Interp.updateMovement .real st prev.quantities q (Interp.relativeTime .real st.steps i) with
    | error e => rfl
    | ok q' =>
      have hs : start (ι := ι) (i : ℤ) p x = .ok (x.getD 0, p.getD (fun _ => 0)) := by
        unfold start
        rw [if_pos (Int.natCast_nonneg i)]
      simp only [bind, Except.bind, hs, ih]
      cases Interp.increments .real st prev.quantities n (i + 1) q' with
      | error e => rfl
      | ok rest => rfl

/-- A step: the quantities of the increments, then the states. -/
theorem run_chain (a : Args ι) (prev : Previous ι) (E : Env ι L M) :
    run a prev E = if a.params.relax ≤ 0 ∨ 1 < a.params.relax then .error .valueError
      else (Interp.run .real a.quantities prev.quantities).map (fun qs => chain a prev E 0 qs (prev.interference.getD 0, prev.pressure.getD (fun _ => 0))) := by
  unfold run construct Interp.run
  split_ifs
  · rfl
  · cases Interp.init .real a.quantities with
    | error e => rfl
    | ok st =>
      simp only [bind, Except.bind]
      rw [increments_chain]

theorem chain_length (a : Args ι) (prev : Previous ι) (E : Env ι L M) : ∀ (qs : List (Interp.Quantities ℝ)) (i : Nat) (g : ℝ × (ι → ℝ)), (chain a prev E i qs g).length = qs.length := by
  intro qs
  induction qs with
  | nil => intro i g; rfl
  | cons q qs ih => intro i g; simp [chain, ih]

/-- The start of increment `k`. -/
def startOf (g : ℝ × (ι → ℝ)) (cs : List (Current ι L M)) (k : Nat) : ℝ × (ι → ℝ) := match k with
  | 0 => g
  | k + 1 => match cs[k]? with
    | none => g
    | some c => (c.interference, c.pressure)

theorem chain_get (a : Args ι) (prev : Previous ι) (E : Env ι L M) : ∀ (qs : List (Interp.Quantities ℝ)) (i : Nat) (g : ℝ × (ι → ℝ)) (k : Nat) (c : Current ι L M),
    (chain a prev E i qs g)[k]? = some c → ∃ q, qs[k]? = some q ∧ c = record a prev E (i + k) q (startOf g (chain a prev E i qs g) k) := by
  intro qs
  induction qs with
  | nil => intro i g k c h; simp [chain] at h
  | cons q qs ih =>
    intro i g k c h
    rw [chain] at h ⊢
    cases k with
    | zero =>
      simp only [List.getElem?_cons_zero, Option.some.injEq] at h
      exact ⟨q, rfl, h.symm⟩
    | succ k =>
      rw [List.getElem?_cons_succ] at h
      obtain ⟨q', hq', hc⟩ := ih (i + 1) _ k c h
      refine ⟨q', by simpa using hq', ?_⟩
      have e : i + 1 + k = i + (k + 1) := by omega
      rw [e] at hc
      rw [hc]
      congr 1
      cases k with
      | zero => rfl
      | succ k =>
        simp only [startOf, List.getElem?_cons_succ]
        have hk : k < (chain a prev E (i + 1) qs ((record a prev E i q g).interference, (record a prev E i q g).pressure)).length := by
          have := (List.getElem?_eq_some_iff.1 h).1
          omega
        rw [List.getElem?_eq_getElem hk]

/-- Each state of a step is that of its increment, started from the state before. -/
theorem run_get {a : Args ι} {prev : Previous ι} {E : Env ι L M} {cs : List (Current ι L M)} (h : run a prev E = .ok cs) :
    0 < a.params.relax ∧ a.params.relax ≤ 1 ∧ ∃ qs, Interp.run .real a.quantities prev.quantities = .ok qs ∧ cs.length = qs.length ∧ qs.length = a.quantities.steps ∧
      ∀ k c, cs[k]? = some c → ∃ q, qs[k]? = some q ∧ c = record a prev E k q (startOf (prev.interference.getD 0, prev.pressure.getD (fun _ => 0)) cs k) := by
  rw [run_chain] at h
  split_ifs at h with hr
  push Not at hr
  refine ⟨hr.1, hr.2, ?_⟩
  cases hq : Interp.run .real a.quantities prev.quantities with
  | error e => rw [hq] at h; cases h
  | ok qs =>
    rw [hq] at h
    injection h with h
    subst h
    refine ⟨qs, rfl, chain_length a prev E qs 0 _, (Interp.C24_step_quantities_partial _ _ _ hq).1, ?_⟩
    intro k c hc
    obtain ⟨q, h1, h2⟩ := chain_get a prev E qs 0 _ k c hc
    rw [Nat.zero_add] at h2
    exact ⟨q, h1, h2⟩

/-! ## The loop -/

/-- What holds for the start, is kept by an iteration that is followed by another one, and gives the wanted relation for the last one. -/
theorem loop_induct (S : Solver ι L M) (w : World ι) (lub : (ι → ℝ) → Option (ι → ℝ) → L) (pr : Params) (load : Option ℝ) (I : It ι L M → Prop)
    (hstep : ∀ last, I last → I (adjust S w pr load (iterate S w lub pr last))) :
    ∀ left start, I start → ∃ last, I last ∧ (loop S w lub pr load left start).1 = iterate S w lub pr last ∧
      ((loop S w lub pr load left start).2.1 = true ↔ pressureOk S pr last = true ∧ loadOk pr load (totalLoad pr (iterate S w lub pr last).p) = true) := by
  intro left
  induction left with
  | zero =>
    intro start hI
    refine ⟨start, hI, ?_⟩
    rw [loop]
    split_ifs with h
    · exact ⟨rfl, by simpa using h⟩
    · exact ⟨rfl, by simpa using h⟩
  | succ n ih =>
    intro start hI
    rw [loop]
    dsimp only
    split_ifs with h
    · exact ⟨start, hI, rfl, by simpa using h⟩
    · exact ih _ (hstep _ hI)

theorem loop_count (S : Solver ι L M) (w : World ι) (lub : (ι → ℝ) → Option (ι → ℝ) → L) (pr : Params) (load : Option ℝ) :
    ∀ left start, 1 ≤ (loop S w lub pr load left start).2.2 ∧ (loop S w lub pr load left start).2.2 ≤ left + 1 ∧
      ((loop S w lub pr load left start).2.1 = false → (loop S w lub pr load left start).2.2 = left + 1) := by
  intro left
  induction left with
  | zero =>
    intro start
    rw [loop]
    split_ifs <;> simp
  | succ n ih =>
    intro start
    rw [loop]
    dsimp only
    split_ifs
    · simp
    · obtain ⟨h1, h2, h3⟩ := ih (adjust S w pr load (iterate S w lub pr start))
      refine ⟨by simp, by simpa using h2, fun h => by simpa using h3 h⟩

/-- Without a load to be reached the interference is kept. -/
theorem loop_interference (S : Solver ι L M) (w : World ι) (lub : (ι → ℝ) → Option (ι → ℝ) → L) (pr : Params) (left : Nat) (start : It ι L M) :
    (loop S w lub pr none left start).1.interference = start.interference := by
  obtain ⟨last, h1, h2, -⟩ := loop_induct S w lub pr none (fun l => l.interference = start.interference) (fun last h => h) left start rfl
  rw [h2]
  exact h1

theorem first_gap_zero (S : Solver ι L M) (w : World ι) (lub : (ι → ℝ) → Option (ι → ℝ) → L) (g : ℝ × (ι → ℝ)) (h : ∀ i, S.ndP (g.2 i) = 0) (j : ι) :
    (first S w lub g).gap j = w.gap j + 0 - g.1 := by
  simp only [first, if_pos h]

theorem first_gap_ne (S : Solver ι L M) (w : World ι) (lub : (ι → ℝ) → Option (ι → ℝ) → L) (g : ℝ × (ι → ℝ)) (h : ¬ ∀ i, S.ndP (g.2 i) = 0) (j : ι) :
    (first S w lub g).gap j = w.gap j + w.total g.2 j - g.1 := by
  simp only [first, if_neg h]

theorem clip_le {m x : ℝ} : clip (some m) x ≤ m := min_le_right x m

/-- What a state of an increment consists of. -/
theorem record_loop (a : Args ι) (prev : Previous ι) (E : Env ι L M) (i : Nat) (q : Interp.Quantities ℝ) (g : ℝ × (ι → ℝ)) :
    ∃ r, loop (E.solver i q.rolling) (E.world i q.offSet) (E.lubricant (E.world i q.offSet)) a.params (loadOf a q) (a.params.maxIt + 1).toNat
        (first (E.solver i q.rolling) (E.world i q.offSet) (E.lubricant (E.world i q.offSet)) g) = r ∧
      (record a prev E i q g).ndP = r.1.ndP ∧ (record a prev E i q g).pressure = r.1.p ∧ (record a prev E i q g).interference = r.1.interference ∧
      (record a prev E i q g).gap = r.1.gap ∧ (record a prev E i q g).displacement = r.1.disp ∧ (record a prev E i q g).extras = r.1.extras ∧ (record a prev E i q g).memory = r.1.memory ∧
      (record a prev E i q g).totalLoad = totalLoad a.params r.1.p ∧ (record a prev E i q g).converged = r.2.1 ∧ (record a prev E i q g).iterations = r.2.2 :=
  ⟨_, rfl, rfl, rfl, rfl, rfl, rfl, rfl, rfl, rfl, rfl, rfl⟩

end Verif.LubStep
