import Verif.LubCheck.Model
import Verif.Lubricant.Props

/-!
# C144: the data check of a lubrication step
-/

namespace Verif.LubCheck

open Verif

theorem missing_empty (requires subs : List String) :
    (requires.filter fun n => !subs.contains n && !(["nd_gap", "nd_pressure"].contains n)).isEmpty = true ↔
    ∀ n ∈ requires, n ∈ subs ∨ n = "nd_gap" ∨ n = "nd_pressure" := by
  rw [List.isEmpty_iff, List.filter_eq_nil_iff]
  constructor
  · intro h n hn
    have := h n hn
    simp only [Bool.and_eq_true, Bool.not_eq_true', List.contains_eq_mem, decide_eq_false_iff_not, List.mem_cons, List.not_mem_nil, or_false] at this
    tauto
  · intro h n hn
    have := h n hn
    simp only [Bool.and_eq_true, Bool.not_eq_true', List.contains_eq_mem, decide_eq_false_iff_not, List.mem_cons, List.not_mem_nil, or_false]
    tauto

/-- **C144**: with errors switched on the check passes exactly if the step is in a model with a lubricant, has a solver, and all that the solver requires but the gap and the
pressure are sub models of the lubricant. -/
theorem C144_passes (s : Step) :
    (∃ n, dataCheck true s = .ok n) ↔
    ∃ r subs, s.reynolds = some r ∧ s.model = some (some subs) ∧ ∀ n ∈ r.requires, n ∈ subs ∨ n = "nd_gap" ∨ n = "nd_pressure" := by
  obtain ⟨reynolds, model⟩ := s
  constructor
  · rintro ⟨k, h⟩
    cases reynolds with
    | none => simp [dataCheck] at h
    | some r =>
      cases model with
      | none => simp [dataCheck] at h
      | some l =>
        cases l with
        | none => simp [dataCheck] at h
        | some subs =>
          refine ⟨r, subs, rfl, rfl, (missing_empty _ _).mp ?_⟩
          by_contra hc
          simp only [dataCheck, Option.isNone_some, Bool.false_and, Bool.false_eq_true, if_false, if_neg hc] at h
          simp at h
  · rintro ⟨r, subs, h1, h2, h3⟩
    dsimp only at h1 h2
    subst h1
    subst h2
    refine ⟨0, ?_⟩
    simp only [dataCheck, Option.isNone_some, Bool.false_and, Bool.false_eq_true, if_false, if_pos ((missing_empty _ _).mpr h3)]

/-- The check with the oil of the test of the package. -/
example : dataCheck true ⟨some unified, some (some ["nd_viscosity", "nd_density"])⟩ = .ok 0 := by decide

/-- **C144 does not hold with warnings**: if errors are switched off, a missing solver or a missing lubricant does not lead to a warning but to `AttributeError`; only missing sub
models are warned about. -/
theorem C144_warnings_wrong (s : Step) :
    (s.reynolds = none ∨ s.model = none ∨ s.model = some none → dataCheck false s = .error .attributeError) ∧
    (∀ r subs, s.reynolds = some r → s.model = some (some subs) → (∃ n ∈ r.requires, n ∉ subs ∧ n ≠ "nd_gap" ∧ n ≠ "nd_pressure") → dataCheck false s = .ok 1) := by
  obtain ⟨reynolds, model⟩ := s
  refine ⟨?_, ?_⟩
  · rintro (h | h | h) <;> dsimp only at h <;> subst h
    · match model with
      | none | some none | some (some _) => simp [dataCheck]
    · simp [dataCheck]
    · simp [dataCheck]
  · rintro r subs h1 h2 ⟨n, hn, h3, h4, h5⟩
    dsimp only at h1 h2
    subst h1
    subst h2
    have : ¬ (r.requires.filter fun n => !subs.contains n && !(["nd_gap", "nd_pressure"].contains n)).isEmpty = true := fun h => by
      rcases (missing_empty _ _).mp h n hn with h | h | h
      · exact h3 h
      · exact h4 h
      · exact h5 h
    simp only [dataCheck, Option.isNone_some, Bool.false_and, Bool.false_eq_true, if_false, if_neg this]

example : dataCheck false ⟨some unified, some (some ["nd_density"])⟩ = .ok 1 ∧ dataCheck false ⟨some unified, some none⟩ = .error .attributeError := by decide

/-- **C144**: after a check that passes the solver is given all that it requires, in its first call and in all later ones. -/
theorem C144_given {s : Step} {r : Declared} {subs : List String} (hr : s.reynolds = some r) (hm : s.model = some (some subs)) {k : Nat}
    (h : dataCheck true s = .ok k) (solved : List String) : ∀ n ∈ r.requires, n ∈ firstSolve subs ∧ n ∈ laterSolve solved subs := by
  obtain ⟨r', subs', h1, h2, h3⟩ := (C144_passes s).mp ⟨k, h⟩
  rw [hr] at h1
  rw [hm] at h2
  injection h1 with h1
  injection h2 with h2
  injection h2 with h2
  subst h1
  subst h2
  intro n hn
  unfold firstSolve laterSolve endNames laterNames firstNames
  rcases h3 n hn with h | rfl | rfl
  · simp [h]
  · simp
  · simp

example : ∃ n ∈ unified.requires, n ∈ ["nd_viscosity", "nd_density"] ∧ n ≠ "nd_gap" := ⟨"nd_density", by decide⟩

/-- **C144 does not hold the other way round**: solvers that require the pressure, the gap or the just touching gap are refused, though all of these are there in every
call. -/
theorem C144_refused_wrong (subs solved provided : List String) (n : String) (hn : n ∈ ["pressure", "gap", "just_touching_gap", "interference"]) (hs : n ∉ subs) :
    dataCheck true ⟨some ⟨[n], provided⟩, some (some subs)⟩ = .error .valueError ∧ n ∈ firstSolve subs ∧ n ∈ laterSolve solved subs := by
  refine ⟨?_, ?_, ?_⟩
  · have : ¬ (([n] : List String).filter fun n => !subs.contains n && !(["nd_gap", "nd_pressure"].contains n)).isEmpty = true := fun h => by
      rcases (missing_empty _ _).mp h n (by simp) with h | h | h
      · exact hs h
      · subst h; revert hn; decide
      · subst h; revert hn; decide
    simp only [dataCheck, Option.isNone_some, Bool.false_and, Bool.false_eq_true, if_false, if_true, if_neg this]
  · unfold firstSolve firstNames
    simp only [List.mem_cons, List.not_mem_nil, or_false] at hn
    rcases hn with rfl | rfl | rfl | rfl <;> simp
  · unfold laterSolve endNames laterNames
    simp only [List.mem_cons, List.not_mem_nil, or_false] at hn
    rcases hn with rfl | rfl | rfl | rfl <;> simp

example : "pressure" ∉ ["nd_viscosity", "nd_density"] := by decide

theorem mem_final (solved subs : List String) (n : String) : n ∈ finalNames solved subs ↔ n ∈ finalNames solved [] ∨ (n ∈ subs ∧ n ≠ "total_displacement_z") := by
  unfold finalNames endNames
  simp only [List.mem_append, List.mem_filter, List.not_mem_nil, or_false, bne_iff_ne]
  tauto

theorem mem_provides (r : Declared) (subs : List String) (n : String) : n ∈ provides r (some (some subs)) ↔ n ∈ ownProvides r ∨ n ∈ subs := by
  unfold provides
  exact List.mem_append

theorem final_empty : ∀ n ∈ finalNames unified.provides [], n ∈ ownProvides unified := by decide

theorem own_empty : ∀ n ∈ ownProvides unified, n ∈ finalNames unified.provides [] ∨ n = "nd_viscosity" ∨ n = "nd_density" := by decide

/-- **C144**: with the solver of the package (which returns what it declares), a check that passes and no sub model called 'total_displacement_z', the state that the step hands to
its sub models has exactly the names that the step declares. The interference without dimension, which is in the states of the iterations, is not in it. -/
theorem C144_delivers {subs : List String} {k : Nat} (h : dataCheck true ⟨some unified, some (some subs)⟩ = .ok k) (ht : "total_displacement_z" ∉ subs) (n : String) :
    n ∈ finalNames unified.provides subs ↔ n ∈ provides unified (some (some subs)) := by
  have hv : "nd_viscosity" ∈ subs ∧ "nd_density" ∈ subs := by
    obtain ⟨r', subs', h1, h2, h3⟩ := (C144_passes _).mp ⟨k, h⟩
    injection h1 with h1
    injection h2 with h2
    injection h2 with h2
    subst h1
    subst h2
    refine ⟨?_, ?_⟩
    · rcases h3 "nd_viscosity" (by decide) with h | h | h
      · exact h
      · exact absurd h (by decide)
      · exact absurd h (by decide)
    · rcases h3 "nd_density" (by decide) with h | h | h
      · exact h
      · exact absurd h (by decide)
      · exact absurd h (by decide)
  rw [mem_final, mem_provides]
  constructor
  · rintro (h | ⟨h, -⟩)
    · exact Or.inl (final_empty n h)
    · exact Or.inr h
  · rintro (h | h)
    · rcases own_empty n h with h | rfl | rfl
      · exact Or.inl h
      · exact Or.inr ⟨hv.1, by decide⟩
      · exact Or.inr ⟨hv.2, by decide⟩
    · exact Or.inr ⟨h, fun e => ht (e ▸ h)⟩

example : dataCheck true ⟨some unified, some (some ["viscosity", "nd_viscosity", "density", "nd_density"])⟩ = .ok 0 ∧
    "total_displacement_z" ∉ ["viscosity", "nd_viscosity", "density", "nd_density"] := by decide

/-- **C144 does not hold for a sub model called 'total_displacement_z'**: its result is deleted from the state though the step declares it. -/
theorem C144_deleted_wrong {subs : List String} (ht : "total_displacement_z" ∈ subs) (solved : List String) :
    "total_displacement_z" ∈ provides unified (some (some subs)) ∧ "total_displacement_z" ∉ finalNames solved subs := by
  refine ⟨(mem_provides _ _ _).mpr (Or.inr ht), fun h => ?_⟩
  unfold finalNames at h
  rcases List.mem_append.mp h with h | h
  · have := (List.mem_filter.mp h).2
    simp at this
  · revert h
    decide

example : dataCheck true ⟨some unified, some (some ["nd_viscosity", "nd_density", "total_displacement_z"])⟩ = .ok 0 := by decide

/-- **C144 (partial)**: if, besides, the check of the lubricant (`Lubricant.data_check`, C20) accepts the names that are there at first, for ordinary sub models, the first evaluation of
the sub models finds all arguments and adds all sub models. Missing: the step never calls the check of the lubricant. -/
theorem C144_first_evaluation_partial {V : Type} (subs : Lubricant.SubModels V) (out : List String) (state : Dict V)
    (ho : ∀ kf ∈ subs, Lubricant.Ordinary kf.2.sig) (hk : "self" ∉ subs.map Prod.fst) (hst : state.keys = firstNames)
    (hc : Lubricant.dataCheck subs firstNames = .ok out) (hb : ∀ kf ∈ subs, ∀ d, ∃ v, kf.2.body d = .ok v) :
    ∃ s', Lubricant.solveSubModels subs state = .ok s' ∧ ∀ n, (∃ v, (n, v) ∈ s') ↔ n ∈ firstNames ∨ ∃ f, (n, f) ∈ subs := by
  have hkeys : ∀ n, n ∈ firstNames ↔ ∃ v, (n, v) ∈ state := fun n => by
    rw [← hst]
    simp [Dict.keys]
  obtain ⟨-, -, h3, h4⟩ := Lubricant.C20_checked_lubricant_evaluates_partial subs firstNames out state ho hk (by rw [hst]; decide) hc (fun n hn => (hkeys n).mp hn)
  obtain ⟨s', hs⟩ := h4 hb
  exact ⟨s', hs, fun n => by rw [(h3 s' hs).1 n, hkeys]⟩

/-- A lubricant with two sub models of the pressure. -/
example : ∃ out, Lubricant.dataCheck (V := Nat) [("nd_viscosity", ⟨{ posOrKw := [⟨"nd_pressure", false⟩] }, fun _ => .ok 1⟩), ("nd_density", ⟨{ posOrKw := [⟨"nd_pressure", false⟩] }, fun _ => .ok 1⟩)]
    firstNames = .ok out := ⟨_, rfl⟩

/-- **C144 does not hold for lubricants that depend on the gap**: a sub model that needs the gap passes the check of the step, and the check of the lubricant for the names at the end of an
iteration; but in the first evaluation there is no gap yet: its arguments can't be bound (`TypeError`), whatever the state. -/
theorem C144_gap_wrong {V : Type} (value : V) (arg : String) (ha : arg = "gap" ∨ arg = "nd_gap" ∨ arg = "nd_interference") (state : Dict V) (hst : state.keys = firstNames) :
    let f : Lubricant.Func V := ⟨{ posOrKw := [⟨arg, false⟩] }, fun _ => .ok value⟩
    let subs : Lubricant.SubModels V := [("nd_viscosity", f), ("nd_density", f)]
    dataCheck true ⟨some unified, some (some (subs.map Prod.fst))⟩ = .ok 0 ∧
    (∃ out, Lubricant.dataCheck subs (laterSolve unified.provides []) = .ok out) ∧
    Lubricant.solveSubModels subs state = .error .binding := by
  intro f subs
  refine ⟨rfl, ?_, ?_⟩
  · rcases ha with rfl | rfl | rfl <;> exact ⟨_, rfl⟩
  · have hb : f.sig.binds state.keys = false := by
      rw [hst]
      rcases ha with rfl | rfl | rfl <;> rfl
    simp only [subs, Lubricant.solveSubModels, Lubricant.Func.call, hb, Bool.false_eq_true, if_false]

example : (Dict.keys [("nd_pressure", 1), ("just_touching_gap", 2), ("interference", 3), ("pressure", 4), ("total_displacement_z", 5)] : List String) = firstNames := rfl

end Verif.LubCheck
