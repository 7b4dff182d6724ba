import Verif.Quasi.Model
import Verif.Static.Props
import Verif.Interp.Props

/-!
# The increments of a quasi static step (lemmas for C100-C102)
-/

namespace Verif.Quasi

open Verif HeightCache

variable {N : Type}

/-- The contact nodes handed to a new height optimiser. -/
def initialNodes (a : Args) (prev : Previous N) : Option N := if a.unloading then prev.contactNodes else none

/-- The quantities that a state takes from a solution. -/
def Shows (c : Current) (f : Found) : Prop :=
  c.interference = f.interference ∧ c.solvedAt = f.solvedAt ∧ c.totalLoad = f.totalLoad ∧ c.converged = f.converged

theorem increment_of (a : Args) (st : Interp.Step ℝ) (prev : Previous N) (world : Nat → Option (ℝ × ℝ) → Problem N × ℝ) (choice : Nat → Choice) (i : Nat) (s : Loop N)
    {q : Interp.Quantities ℝ} (hq : Interp.updateMovement .real st prev.quantities s.q (Interp.relativeTime .real st.steps i) = .ok q) :
    increment a st prev world choice i s =
      (solveBy a q s.opt (gapFor st a.quantities.noTime world i q.offSet s.gap).1 (initialNodes a prev) ((gapFor st a.quantities.noTime world i q.offSet s.gap).2 * a.upperFactor) (choice i)).map
        (fun r => (⟨q, some r.1, some (gapFor st a.quantities.noTime world i q.offSet s.gap), s.time + a.period / a.quantities.steps⟩,
          ⟨decide (i = 0), a.period / a.quantities.steps, s.time + a.period / a.quantities.steps, r.2.interference, r.2.solvedAt, r.2.totalLoad, r.2.converged⟩)) := by
  unfold increment initialNodes
  rw [hq]
  simp only [bind, Except.bind]
  cases solveBy a q s.opt (gapFor st a.quantities.noTime world i q.offSet s.gap).1 (if a.unloading then prev.contactNodes else none)
    ((gapFor st a.quantities.noTime world i q.offSet s.gap).2 * a.upperFactor) (choice i) <;> rfl

theorem interp_cons {st : Interp.Step ℝ} {prev : Interp.Previous ℝ} {todo i : Nat} {q : Interp.Quantities ℝ} {qs : List (Interp.Quantities ℝ)}
    (h : Interp.increments .real st prev (todo + 1) i q = .ok qs) :
    ∃ q' rest, qs = q' :: rest ∧ Interp.updateMovement .real st prev q (Interp.relativeTime .real st.steps i) = .ok q' ∧ Interp.increments .real st prev todo (i + 1) q' = .ok rest := by
  rw [Interp.increments] at h
  split at h
  · cases h
  · rename_i q' hq
    split at h
    · cases h
    · rename_i rest hrest
      injection h with h
      exact ⟨q', rest, h.symm, hq, hrest⟩

/-- If each increment can be solved, the step can be solved. -/
theorem forward (a : Args) (st : Interp.Step ℝ) (prev : Previous N) (world : Nat → Option (ℝ × ℝ) → Problem N × ℝ) (choice : Nat → Choice)
    (I : Nat → Option (Problem N × HeightCache.State N) → Option (Problem N × ℝ) → Prop) (R : Nat → Found → Prop) :
    ∀ (todo i : Nat) (s : Loop N) (qs : List (Interp.Quantities ℝ)), Interp.increments .real st prev.quantities todo i s.q = .ok qs → I i s.opt s.gap →
    (∀ k q o g, qs[k]? = some q → I (i + k) o g →
      ∃ r, solveBy a q o (gapFor st a.quantities.noTime world (i + k) q.offSet g).1 (initialNodes a prev) ((gapFor st a.quantities.noTime world (i + k) q.offSet g).2 * a.upperFactor) (choice (i + k)) = .ok r ∧
        I (i + k + 1) (some r.1) (some (gapFor st a.quantities.noTime world (i + k) q.offSet g)) ∧ R (i + k) r.2) →
    ∃ l cs, increments a st prev world choice todo i s = .ok (l, cs) ∧ cs.length = todo ∧ ∀ k c, cs[k]? = some c → ∃ f, R (i + k) f ∧ Shows c f := by
  intro todo
  induction todo with
  | zero =>
    intro i s qs _ _ _
    exact ⟨s, [], rfl, rfl, fun k c h => by simp at h⟩
  | succ n ih =>
    intro i s qs hqs hI hstep
    obtain ⟨q, rest, rfl, hq, hrest⟩ := interp_cons hqs
    obtain ⟨r, hr, hI', hR⟩ := hstep 0 q s.opt s.gap rfl hI
    rw [Nat.add_zero] at hr hI' hR
    have hinc := increment_of a st prev world choice i s hq
    rw [hr] at hinc
    obtain ⟨l, cs, h1, h2, h3⟩ := ih (i + 1) ⟨q, some r.1, some (gapFor st a.quantities.noTime world i q.offSet s.gap), s.time + a.period / a.quantities.steps⟩ rest hrest hI' (by
      intro k q' o g hk hIk
      have e : i + 1 + k = i + (k + 1) := by omega
      rw [e] at hIk ⊢
      exact hstep (k + 1) q' o g (by simpa using hk) hIk)
    rw [increments, hinc]
    simp only [Except.map, bind, Except.bind, h1]
    refine ⟨_, _, rfl, by simp [h2], ?_⟩
    intro k c hk
    cases k with
    | zero =>
      simp only [List.getElem?_cons_zero, Option.some.injEq] at hk
      subst hk
      exact ⟨r.2, hR, rfl, rfl, rfl, rfl⟩
    | succ k =>
      rw [List.getElem?_cons_succ] at hk
      obtain ⟨f, hf, hs⟩ := h3 k c hk
      have e : i + 1 + k = i + (k + 1) := by omega
      rw [e] at hf
      exact ⟨f, hf, hs⟩

/-- What holds for each increment that is solved holds for the states of the step. -/
theorem backward (a : Args) (st : Interp.Step ℝ) (prev : Previous N) (world : Nat → Option (ℝ × ℝ) → Problem N × ℝ) (choice : Nat → Choice)
    (I : Nat → Option (Problem N × HeightCache.State N) → Option (Problem N × ℝ) → Prop) (R : Nat → Found → Prop) :
    ∀ (todo i : Nat) (s : Loop N) (qs : List (Interp.Quantities ℝ)), Interp.increments .real st prev.quantities todo i s.q = .ok qs → I i s.opt s.gap →
    (∀ k q o g r, qs[k]? = some q → I (i + k) o g →
      solveBy a q o (gapFor st a.quantities.noTime world (i + k) q.offSet g).1 (initialNodes a prev) ((gapFor st a.quantities.noTime world (i + k) q.offSet g).2 * a.upperFactor) (choice (i + k)) = .ok r →
        I (i + k + 1) (some r.1) (some (gapFor st a.quantities.noTime world (i + k) q.offSet g)) ∧ R (i + k) r.2) →
    ∀ l cs, increments a st prev world choice todo i s = .ok (l, cs) → cs.length = todo ∧ ∀ k c, cs[k]? = some c → ∃ f, R (i + k) f ∧ Shows c f := by
  intro todo
  induction todo with
  | zero =>
    intro i s qs _ _ _ l cs h
    rw [increments] at h
    cases h
    exact ⟨rfl, fun k c h => by simp at h⟩
  | succ n ih =>
    intro i s qs hqs hI hstep l cs h
    obtain ⟨q, rest, rfl, hq, hrest⟩ := interp_cons hqs
    have hinc := increment_of a st prev world choice i s hq
    rw [increments, hinc] at h
    cases hr : solveBy a q s.opt (gapFor st a.quantities.noTime world i q.offSet s.gap).1 (initialNodes a prev) ((gapFor st a.quantities.noTime world i q.offSet s.gap).2 * a.upperFactor) (choice i) with
    | error e => rw [hr] at h; cases h
    | ok r =>
      rw [hr] at h
      simp only [Except.map, bind, Except.bind] at h
      obtain ⟨hI', hR⟩ := hstep 0 q s.opt s.gap r rfl hI hr
      rw [Nat.add_zero] at hI' hR
      split at h
      · cases h
      · rename_i v hv
        obtain ⟨l', cs'⟩ := v
        obtain ⟨h2, h3⟩ := ih (i + 1) _ rest hrest hI' (by
          intro k q' o g r' hk hIk hr'
          have e : i + 1 + k = i + (k + 1) := by omega
          rw [e] at hIk hr' ⊢
          exact hstep (k + 1) q' o g r' (by simpa using hk) hIk hr') l' cs' hv
        injection h with h
        injection h with _ h
        subst h
        refine ⟨by simp [h2], ?_⟩
        intro k c hk
        cases k with
        | zero =>
          simp only [List.getElem?_cons_zero, Option.some.injEq] at hk
          subst hk
          exact ⟨r.2, hR, rfl, rfl, rfl, rfl⟩
        | succ k =>
          rw [List.getElem?_cons_succ] at hk
          obtain ⟨f, hf, hs⟩ := h3 k c hk
          have e : i + 1 + k = i + (k + 1) := by omega
          rw [e] at hf
          exact ⟨f, hf, hs⟩

/-- A step whose quantities can be evaluated. -/
theorem run_eq {a : Args} {prev : Previous N} {qs : List (Interp.Quantities ℝ)} (hqs : Interp.run .real a.quantities prev.quantities = .ok qs) (hf : a.fastLd = false)
    (world : Nat → Option (ℝ × ℝ) → Problem N × ℝ) (choice : Nat → Choice) :
    ∃ st, Interp.init .real a.quantities = .ok st ∧ Interp.increments .real st prev.quantities st.steps 0 st.q = .ok qs ∧ st.steps = a.quantities.steps ∧ a.quantities.steps ≠ 0 ∧
      (a.quantities.noTime = true → st.offUpd = none) ∧
      run a prev world choice = increments a st prev world choice st.steps 0 ⟨st.q, none, none, prev.time⟩ := by
  unfold Interp.run at hqs
  split at hqs
  · cases hqs
  · rename_i st hst
    obtain ⟨h0, h1, -, h2, -⟩ := Interp.init_ok .real hst
    refine ⟨st, hst, hqs, h1, h0, ?_, ?_⟩
    · intro hn
      unfold Interp.initOffSet at h2
      split at h2
      · injection h2 with h2
        injection h2 with _ h2
        exact h2.symm
      · rw [hn] at h2
        simp at h2
    · unfold run construct
      rw [if_neg (by simp [hf]), hst]
      simp only [bind, Except.bind, solve, hf, Bool.false_eq_true, if_false]

/-- In each increment there is the quantity that was asked for. -/
theorem controlled {a : Args} {prev : Previous N} {qs : List (Interp.Quantities ℝ)} (hqs : Interp.run .real a.quantities prev.quantities = .ok qs) :
    ∀ q ∈ qs, (a.quantities.load = .none → ∃ x, q.interference = some x) ∧ (a.quantities.load ≠ .none → ∃ l, q.load = some l) := by
  obtain ⟨-, hq⟩ := Interp.C24_step_quantities_partial _ _ _ hqs
  have hnone : a.quantities.load = .none → a.quantities.interference = .none → a.quantities.relative = true := by
    intro h1 h2
    by_contra h3
    unfold Interp.run Interp.init at hqs
    by_cases h0 : a.quantities.steps = 0
    · simp [h0] at hqs
    · have : Interp.initInterference .real a.quantities = .error .valueError := by
        unfold Interp.initInterference
        rw [h1, h2]
        simp [h3]
      rw [if_neg h0, this] at hqs
      cases hoff : Interp.initOffSet .real a.quantities <;> rw [hoff] at hqs <;> cases hqs
  intro q hqm
  obtain ⟨i, hi, rfl⟩ := List.getElem_of_mem hqm
  obtain ⟨h1, h2, -⟩ := hq i hi
  refine ⟨fun hl => ?_, fun hl => ?_⟩
  · rcases h2 with ⟨x, -, -, -, -, h⟩ | h
    · exact ⟨x, h⟩
    · by_cases hin : a.quantities.interference = .none
      · -- a number is put in
        unfold Interp.run at hqs
        split at hqs
        · cases hqs
        · rename_i s hs
          obtain ⟨-, hsteps, -, -, ⟨iarg, hiarg, hnum⟩, -⟩ := Interp.init_ok .real hs
          obtain ⟨-, hget⟩ := Interp.increments_get .real s _ _ _ _ _ hqs
          obtain ⟨-, -, g3, -⟩ := Interp.updateMovement_ok .real (hget i hi)
          have : iarg = .number 0 := by
            unfold Interp.initInterference at hiarg
            rw [hl, hin] at hiarg
            simp only [hnone hl hin, if_true] at hiarg
            injection hiarg with hiarg
            exact hiarg.symm
          subst this
          unfold Interp.numberOrUpd at hnum
          simp only [Except.ok.injEq, Prod.mk.injEq] at hnum
          rw [← hnum.1, ← hnum.2] at g3
          unfold Interp.updateOne at g3
          injection g3 with g3
          exact ⟨0, g3.symm⟩
      · generalize qs[i].interference = qi at h ⊢
        cases h with
        | none hn => exact absurd hn hin
        | number x _ => exact ⟨x, rfl⟩
        | seq v pts y _ _ _ => exact ⟨_, rfl⟩
  · generalize qs[i].load = ql at h1 ⊢
    cases h1 with
    | none hn => exact absurd hn hl
    | number x _ => exact ⟨x, rfl⟩
    | seq v pts y _ _ _ => exact ⟨_, rfl⟩

end Verif.Quasi
