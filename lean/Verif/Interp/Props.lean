import Verif.Interp.Lemmas
import Mathlib.Tactic.NormNum
import Mathlib.Tactic.Positivity

/-!
# C24: load cases interpolate between their end points
-/

namespace Verif.Interp

open Verif

section anyArithmetic

variable {α : Type} [LinearOrder α]

/-- **C24**: the sequences that are accepted are exactly two values and tables of at least two times; all others are rejected with a
`ValueError`. -/
theorem C24_accepted_iff (ar : Arith α) (v : Values α) :
    ((∃ f, makeInterpolationFunc ar v = .ok f) ↔ ∃ pts, Points ar.zero ar.one v pts) ∧
    ((¬ ∃ pts, Points ar.zero ar.one v pts) → makeInterpolationFunc ar v = .error .valueError) := by
  have h : (∃ f, makeInterpolationFunc ar v = .ok f) ↔ ∃ pts, Points ar.zero ar.one v pts :=
    ⟨fun ⟨f, hf⟩ => let ⟨p, hp, _⟩ := make_ok ar v f hf; ⟨p, hp⟩, fun ⟨p, hp⟩ => make_exists ar v p hp⟩
  refine ⟨h, fun hn => ?_⟩
  cases hm : makeInterpolationFunc ar v with
  | ok f => exact absurd (h.1 ⟨f, hm⟩) hn
  | error e => rw [make_error ar v e hm]

example : Points (0 : ℝ) 1 (.flat [some 3, some 5]) [(0, 3), (1, 5)] := .ends 3 5
example : ¬ ∃ pts, Points (0 : ℝ) 1 (.flat [some 3, none]) pts := by rintro ⟨_, h⟩; cases h

/-- **C24**: whatever the arithmetic, a quantity given as two values is exactly the first value at the start of the step and exactly the
second one at its end. -/
theorem C24_two_values_exact (ar : Arith α) (h01 : ar.zero < ar.one) (a b : α) :
    ∃ f, makeInterpolationFunc ar (.flat [some a, some b]) = .ok f ∧
      callInterp ar f ar.zero = .ok a ∧ callInterp ar f ar.one = .ok b := by
  have hf : makeInterpolationFunc ar (.flat [some a, some b]) = .ok [(ar.zero, a), (ar.one, b)] := by
    simp [makeInterpolationFunc, entries, interp1d, List.mergeSort, List.MergeSort.Internal.splitInTwo, List.merge, h01.le]
  refine ⟨_, hf, ?_, ?_⟩
  · simp [callInterp, h01.le.not_gt, npInterp, h01.not_ge]
  · simp [callInterp, h01.le.not_gt, npInterp]

example : Arith.real.zero < Arith.real.one := by norm_num [Arith.real]

/-- **C24**: whatever the arithmetic, a quantity given as a table with distinct times, in any order, has exactly the position of the table
at each time of the table. -/
theorem C24_table_exact (ar : Arith α) (pts : List (α × α)) (hl : 2 ≤ pts.length) (hd : (pts.map Prod.fst).Nodup) :
    ∃ f, makeInterpolationFunc ar (.rows [pts.map (fun p => some p.2), pts.map (fun p => some p.1)]) = .ok f ∧
      ∀ t p, (t, p) ∈ pts → callInterp ar f t = .ok p := by
  have hP := Points.table (zero := ar.zero) (one := ar.one) pts hl
  obtain ⟨f, hf⟩ := make_exists ar _ _ hP
  obtain ⟨pts', hP', hperm, hs, -⟩ := make_ok ar _ _ hf
  obtain rfl := points_unique hP' hP
  refine ⟨f, hf, ?_⟩
  intro t p hp
  have hmem := hperm.mem_iff.2 hp
  rw [callInterp_ok ar f hs t ⟨_, hmem, le_rfl⟩ ⟨_, hmem, le_rfl⟩]
  have hd' : (f.map Prod.fst).Nodup := ((hperm.map Prod.fst).nodup_iff).2 hd
  have hlt : f.Pairwise (fun a b => a.1 < b.1) := by
    have hne : f.Pairwise (fun a b => a.1 ≠ b.1) := List.pairwise_map.1 hd'
    exact hs.imp₂ (fun a b h1 h2 => lt_of_le_of_ne h1 h2) hne
  exact congrArg Except.ok (npInterp_item ar f hlt (t, p) hmem)

example : 2 ≤ ([(1, 5), (0, 3), (2, 4)] : List (ℝ × ℝ)).length ∧
    (([(1, 5), (0, 3), (2, 4)] : List (ℝ × ℝ)).map Prod.fst).Nodup := by
  refine ⟨by simp, ?_⟩
  norm_num

/-- **C24**: a time before or after all times of the table is rejected with a `ValueError`. -/
theorem C24_outside_rejected (ar : Arith α) (v : Values α) (pts : List (α × α)) (hP : Points ar.zero ar.one v pts) (f : List (α × α))
    (hf : makeInterpolationFunc ar v = .ok f) (x : α) (hx : (∀ p ∈ pts, x < p.1) ∨ ∀ p ∈ pts, p.1 < x) :
    callInterp ar f x = .error .valueError := by
  obtain ⟨pts', hP', hperm, hs, hne⟩ := make_ok ar _ _ hf
  obtain rfl := points_unique hP' hP
  cases hc : callInterp ar f x with
  | error e => rw [callInterp_error ar f x e hc]
  | ok y =>
    exfalso
    obtain ⟨-, ⟨a, ha, hax⟩, b, hb, hbx⟩ := callInterp_inv ar f x y hc
    rcases hx with hx | hx
    · exact absurd hax (not_le.2 (hx a (hperm.mem_iff.1 (List.mem_of_head? ha))))
    · exact absurd hbx (not_le.2 (hx b (hperm.mem_iff.1 (List.mem_of_getLast? hb))))

example : ∀ p ∈ ([(0, 3), (1, 5)] : List (ℝ × ℝ)), p.1 < 2 := by
  intro p hp
  simp only [List.mem_cons, List.not_mem_nil, or_false] at hp
  rcases hp with rfl | rfl <;> norm_num

/-- The first and the last relative time. `hz` says that the first one, `0 * step + 0`, is zero. -/
theorem relativeTime_ends (ar : Arith α) (hz : ∀ s, ar.add (ar.mul (ar.ofNat 0) s) ar.zero = ar.zero) (n : Nat) (hn : 2 ≤ n) :
    relativeTime ar n 0 = ar.zero ∧ relativeTime ar n (n - 1) = ar.one := by
  constructor
  · unfold relativeTime
    rw [if_neg (by omega), if_neg (by omega), hz]
  · unfold relativeTime
    rw [if_pos (by omega)]

/-- **C24**: whatever the arithmetic, a load given as two values is exactly the first value in the first of two or more increments
and exactly the second value in the last one (plus the load at the start of the step, if the loading is relative).
`hz` says that `0 * s + 0` is zero. -/
theorem C24_load_ends_exact (ar : Arith α) (h01 : ar.zero < ar.one)
    (hz : ∀ s, ar.add (ar.mul (ar.ofNat 0) s) ar.zero = ar.zero) (a : StepArgs α) (prev : Previous α) (x y : α)
    (hload : a.load = .seq (.flat [some x, some y])) (hn : 2 ≤ a.steps) (qs : List (Quantities α))
    (h : run ar a prev = .ok qs) :
    (qs.head?.map (·.load) = some (some (if a.relative then ar.add (prev.load.getD ar.zero) x else x))) ∧
    (qs.getLast?.map (·.load) = some (some (if a.relative then ar.add (prev.load.getD ar.zero) y else y))) := by
  unfold run at h
  split at h
  · cases h
  rename_i s hs
  obtain ⟨-, hsteps, hrel, -, -, -, hl⟩ := init_ok ar hs
  obtain ⟨f, hf, hf0, hf1⟩ := C24_two_values_exact ar h01 x y
  rw [hload] at hl
  simp only [numberOrUpd, hf, Except.ok.injEq, Prod.mk.injEq] at hl
  obtain ⟨hlen, hget⟩ := increments_get ar s prev _ _ _ _ h
  obtain ⟨hr0, hr1⟩ := relativeTime_ends ar hz a.steps hn
  have key : ∀ j (hj : j < qs.length) v, callInterp ar f (relativeTime ar s.steps (0 + j)) = .ok v →
      qs[j].load = some (if a.relative then ar.add (prev.load.getD ar.zero) v else v) := by
    intro j hj v hv
    obtain ⟨-, h2, -, -⟩ := updateMovement_ok ar (hget j hj)
    rw [← hl.2] at h2
    simp only [updateOne, updated, hv, hrel] at h2
    cases hb : a.relative <;> rw [hb] at h2 <;> simp [Except.map] at h2 <;> simp [← h2]
  have hpos : 0 < qs.length := by omega
  constructor
  · rw [List.head?_eq_getElem?, List.getElem?_eq_getElem hpos, Option.map_some, key 0 hpos x]
    rw [Nat.zero_add, hsteps, hr0, hf0]
  · have hlast : qs.length - 1 < qs.length := by omega
    rw [List.getLast?_eq_getElem?, List.getElem?_eq_getElem hlast, Option.map_some, key _ hlast y]
    rw [Nat.zero_add, hsteps, hlen, hsteps, hr1, hf1]

end anyArithmetic

example : ∀ s, Arith.real.add (Arith.real.mul (Arith.real.ofNat 0) s) Arith.real.zero = Arith.real.zero := by
  intro s; norm_num [Arith.real]

/-- **C24**: with exact arithmetic a quantity is defined exactly at the times between the earliest and the latest time of its table and is
on the broken line through the table. -/
theorem C24_curve (v : Values ℝ) (pts : List (ℝ × ℝ)) (hP : Points 0 1 v pts) (f : List (ℝ × ℝ))
    (hf : makeInterpolationFunc .real v = .ok f) (r : ℝ) :
    ((∃ y, callInterp .real f r = .ok y) ↔ (∃ p ∈ pts, p.1 ≤ r) ∧ ∃ p ∈ pts, r ≤ p.1) ∧
    ∀ y, callInterp .real f r = .ok y → OnCurve pts r y := by
  obtain ⟨pts', hP', hperm, hs, hne⟩ := make_ok .real _ _ hf
  obtain rfl := points_unique hP' hP
  refine ⟨⟨?_, ?_⟩, ?_⟩
  · rintro ⟨y, hy⟩
    obtain ⟨-, ⟨a, ha, hax⟩, b, hb, hbx⟩ := callInterp_inv _ f r y hy
    exact ⟨⟨a, hperm.mem_iff.1 (List.mem_of_head? ha), hax⟩, b, hperm.mem_iff.1 (List.mem_of_getLast? hb), hbx⟩
  · rintro ⟨⟨a, ha, hax⟩, b, hb, hbx⟩
    exact ⟨_, callInterp_ok _ f hs r ⟨a, hperm.mem_iff.2 ha, hax⟩ ⟨b, hperm.mem_iff.2 hb, hbx⟩⟩
  · intro y hy
    obtain ⟨rfl, ⟨a, ha, hax⟩, b, hb, hbx⟩ := callInterp_inv _ f r y hy
    exact onCurve_perm hperm (npInterp_onCurve f hs r a ha hax b hb hbx)

example : ∃ f, makeInterpolationFunc .real (.flat [some 3, some 5]) = .ok f ∧ ∃ y, callInterp .real f (1 / 2) = .ok y ∧ OnCurve [(0, 3), (1, 5)] (1 / 2) y := by
  obtain ⟨f, hf, -⟩ := C24_two_values_exact Arith.real (by norm_num [Arith.real]) (3 : ℝ) 5
  obtain ⟨h1, h2⟩ := C24_curve _ _ (.ends 3 5) f hf (1 / 2)
  obtain ⟨y, hy⟩ := h1.2 ⟨⟨(0, 3), by simp, by norm_num⟩, (1, 5), by simp, by norm_num⟩
  exact ⟨f, hf, y, hy, h2 y hy⟩

/-- The broken line through two values is the straight line from the first to the second. -/
theorem onCurve_ends (a b r y : ℝ) (h : OnCurve [(0, a), (1, b)] r y) : 0 ≤ r ∧ r ≤ 1 ∧ y = a + (b - a) * r := by
  obtain ⟨p, hp, q, hq, h1, h2, h3, h4, h5⟩ := h
  simp only [List.mem_cons, List.not_mem_nil, or_false] at hp hq
  rcases hp with rfl | rfl <;> rcases hq with rfl | rfl <;> simp only at h1 h2 h4 h5
  · have : r = 0 := le_antisymm h2 h1
    exact ⟨h1, by linarith, by rw [h5 this, this]; ring⟩
  · exact ⟨h1, h2, by linarith⟩
  · linarith
  · have : r = 1 := le_antisymm h2 h1
    exact ⟨by linarith, h2, by rw [h5 this, this]; ring⟩

theorem relativeTime_real (n i : Nat) (hi : i < n) : relativeTime .real n i = (i : ℝ) / ((n : ℝ) - 1) := by
  unfold relativeTime
  split
  · rename_i h
    have : ((i : ℝ)) = (n : ℝ) - 1 := by rw [← h.2]; push_cast; ring
    rw [this]
    have : (0 : ℝ) < n - 1 := by
      have : (1 : ℝ) < n := by exact_mod_cast h.1
      linarith
    simp [Arith.real, this.ne']
  · split
    · rename_i h1 h2
      obtain rfl : i = 0 := by omega
      simp [Arith.real]
    · rename_i h1 h2
      have : ((n - 1 : ℕ) : ℝ) = (n : ℝ) - 1 := by
        rw [Nat.cast_sub (by omega)]; norm_num
      simp only [Arith.real, this]
      ring

theorem relativeTime_mem (n i : Nat) (hi : i < n) : 0 ≤ relativeTime .real n i ∧ relativeTime .real n i ≤ 1 := by
  rw [relativeTime_real n i hi]
  have h1 : (0 : ℝ) ≤ i := Nat.cast_nonneg i
  have h2 : (i : ℝ) ≤ n - 1 := by
    have : ((i + 1 : ℕ) : ℝ) ≤ n := by exact_mod_cast hi
    push_cast at this; linarith
  have h3 : (0 : ℝ) ≤ (n : ℝ) - 1 := by linarith
  exact ⟨div_nonneg h1 h3, div_le_one_of_le₀ h2 h3⟩

/-- What `updated` returns, in terms of the specification. -/
theorem updated_value {rel : Bool} {o r y : ℝ} {v : Values ℝ} {t : List (ℝ × ℝ)} (ht : makeInterpolationFunc .real v = .ok t)
    (h : updated .real rel (some o) t r = .ok y) :
    ∃ pts z, Points 0 1 v pts ∧ OnCurve pts r z ∧ y = (if rel then o else 0) + z := by
  obtain ⟨pts, hP, -⟩ := make_ok .real v t ht
  unfold updated at h
  split at h
  · rename_i hr
    dsimp only at h
    split at h
    · cases h
    · rename_i z hz
      cases h
      refine ⟨pts, z, hP, (C24_curve v pts hP t ht r).2 z hz, ?_⟩
      rw [if_pos hr]
      rfl
  · rename_i hr
    exact ⟨pts, y, hP, (C24_curve v pts hP t ht r).2 y h, by rw [if_neg hr, zero_add]⟩

theorem value_of_update {arg : Arg ℝ} {q q' : Option ℝ} {upd : Option (List (ℝ × ℝ))} {rel : Bool} {o r : ℝ}
    (h1 : numberOrUpd .real arg = .ok (q, upd)) (h2 : updateOne .real rel (some o) upd q r = .ok q') :
    Value arg (if rel then o else 0) r q' := by
  cases arg with
  | none =>
    cases h1
    cases h2
    exact .none rfl
  | number x =>
    cases h1
    cases h2
    exact .number x rfl
  | seq v =>
    unfold numberOrUpd at h1
    dsimp only at h1
    split at h1
    · cases h1
    · rename_i t ht
      cases h1
      unfold updateOne at h2
      dsimp only at h2
      cases hu : updated .real rel (some o) t r with
      | error e => rw [hu] at h2; cases h2
      | ok y =>
        rw [hu] at h2
        cases h2
        obtain ⟨pts, z, hP, hz, rfl⟩ := updated_value ht hu
        exact .seq v pts z rfl hP hz

theorem component_of_update {arg : Arg ℝ} {upd : List (ℝ × ℝ)} {rel : Bool} {o r y : ℝ}
    (h1 : offSetUpd .real arg = .ok upd) (h2 : updated .real rel (some o) upd r = .ok y) :
    Component arg (if rel then o else 0) r y := by
  cases arg with
  | none => cases h1
  | number x =>
    obtain ⟨pts, z, hP, hz, rfl⟩ := updated_value (v := .flat [some x, some x]) h1 h2
    cases hP
    obtain ⟨-, -, hz⟩ := onCurve_ends x x r z hz
    obtain rfl : z = x := by rw [hz]; ring
    exact .number z rfl
  | seq v =>
    obtain ⟨pts, z, hP, hz, rfl⟩ := updated_value h1 h2
    exact .seq v pts z rfl hP hz

/-- **C24, partial**: in increment `i` of `n` increments, at the relative time `i / (n - 1)`, the load, the interference, the rolling
speed and the off set have the prescribed values: numbers as they are, sequences on the broken line, shifted by the value at the
start of the step if the loading is relative.

Missing: with a single increment the quantities stay at their values at the start (`C24_single_increment_stays_at_start`); with relative
loading numbers are not shifted (`C24_relative_number_not_shifted`), except if the other component of the off set varies (see
`Component`); a rolling speed that varies fails with relative loading (`C24_relative_rolling_speed_fails`). -/
theorem C24_step_quantities_partial (a : StepArgs ℝ) (prev : Previous ℝ) (qs : List (Quantities ℝ)) (h : run .real a prev = .ok qs) :
    qs.length = a.steps ∧ ∀ i (hi : i < qs.length),
      Value a.load (if a.relative then prev.load.getD 0 else 0) ((i : ℝ) / (a.steps - 1)) qs[i].load ∧
      (((∃ x, a.load = .none ∧ a.interference = .none ∧ a.relative = true ∧ x = 0 ∧ qs[i].interference = some x) ∨
        Value a.interference (if a.relative then prev.interference.getD 0 else 0) ((i : ℝ) / (a.steps - 1)) qs[i].interference)) ∧
      (∀ speed, a.rolling = some speed → Value speed 0 ((i : ℝ) / (a.steps - 1)) qs[i].rolling) ∧
      ((∃ x y, a.offX = .number x ∧ a.offY = .number y ∧ qs[i].offSet = some (x, y)) ∨
       (∃ x y, qs[i].offSet = some (x, y) ∧
          Component a.offX (if a.relative then (prev.offSet.getD (0, 0)).1 else 0) ((i : ℝ) / (a.steps - 1)) x ∧
          Component a.offY (if a.relative then (prev.offSet.getD (0, 0)).2 else 0) ((i : ℝ) / (a.steps - 1)) y)) := by
  unfold run at h
  split at h
  · cases h
  rename_i s hs
  obtain ⟨hn, hsteps, hrel, hoff, ⟨iarg, hiarg, hi⟩, hro, hl⟩ := init_ok .real hs
  obtain ⟨hlen, hget⟩ := increments_get .real s prev _ _ _ _ h
  refine ⟨by rw [hlen, hsteps], ?_⟩
  intro j hj
  obtain ⟨g1, g2, g3, g4⟩ := updateMovement_ok .real (hget j hj)
  rw [Nat.zero_add, hsteps, relativeTime_real _ _ (by omega)] at g1 g2 g3 g4
  rw [hrel] at g1 g2 g3 g4
  refine ⟨value_of_update hl g2, ?_, ?_, ?_⟩
  · unfold initInterference at hiarg
    split at hiarg
    · split at hiarg
      · rename_i e1 e2 hr
        cases hiarg
        have hv := value_of_update hi g3
        generalize hw : qs[j].interference = w at hv
        cases hv with
        | none hh => cases hh
        | number x hh =>
          cases hh
          exact Or.inl ⟨0, e1, e2, hr, rfl, rfl⟩
        | seq v pts y hh => cases hh
      · cases hiarg
    · cases hiarg
      exact Or.inr (value_of_update hi g3)
    · cases hiarg
      rename_i e2 _
      rw [e2]
      exact Or.inr (value_of_update hi g3)
    · cases hiarg
  · intro speed hsp
    rw [hsp] at hro
    have hro' : numberOrUpd .real speed = .ok (s.q.rolling, s.rollingUpd) := by
      cases speed with
      | none => cases hro
      | number x => exact hro
      | seq v => exact hro
    cases hu : s.rollingUpd with
    | none =>
      rw [hu] at g4 hro'
      have := value_of_update (rel := false) (o := 0) (r := (j : ℝ) / (a.steps - 1)) hro'
        (by exact g4 : updateOne .real false (some 0) none _ _ = _)
      simpa using this
    | some t =>
      rw [hu] at g4 hro'
      have hr : a.relative = false := by
        cases hb : a.relative
        · rfl
        · rw [hb] at g4
          cases g4
      rw [hr] at g4
      have := value_of_update (rel := false) (o := 0) (r := (j : ℝ) / (a.steps - 1)) hro'
        (by exact g4 : updateOne .real false (some 0) (some t) _ _ = _)
      simpa using this
  · unfold initOffSet at hoff
    split at hoff
    · rename_i x y hx hy
      simp only [Except.ok.injEq, Prod.mk.injEq] at hoff
      rw [← hoff.2, ← hoff.1] at g1
      simp only [updateOffSet, Except.ok.injEq] at g1
      exact Or.inl ⟨x, y, hx, hy, g1.symm⟩
    · rename_i ox oy _
      split at hoff
      · cases hoff
      split at hoff
      · cases hoff
      rename_i fx hfx
      split at hoff
      · cases hoff
      rename_i fy hfy
      simp only [Except.ok.injEq, Prod.mk.injEq] at hoff
      rw [← hoff.2] at g1
      unfold updateOffSet at g1
      dsimp only at g1
      obtain ⟨x, hx, g1⟩ := bind_ok g1
      obtain ⟨y, hy, g1⟩ := bind_ok g1
      simp only [Except.ok.injEq] at g1
      exact Or.inr ⟨x, y, g1.symm, component_of_update hfx hx, component_of_update hfy hy⟩

/-- A step with a load of 3 to 5 in three increments. -/
def exampleArgs : StepArgs ℝ where
  offX := .number 0
  offY := .number 1
  load := .seq (.flat [some 3, some 5])
  interference := .none
  rolling := Option.none
  relative := true
  noTime := true
  steps := 3

theorem updated_exists {v : Values ℝ} {t : List (ℝ × ℝ)} (ht : makeInterpolationFunc .real v = .ok t) (hc : Covers (.seq v)) (rel : Bool)
    (o : Option ℝ) (ho : rel = true → o ≠ none) (r : ℝ) (h0 : 0 ≤ r) (h1 : r ≤ 1) : ∃ y, updated .real rel o t r = .ok y := by
  obtain ⟨pts, hP, ⟨p, hp, hp0⟩, q, hq, hq1⟩ := hc v rfl
  obtain ⟨y, hy⟩ := (C24_curve v pts hP t ht r).1.2 ⟨⟨p, hp, hp0.trans h0⟩, q, hq, h1.trans hq1⟩
  unfold updated
  rw [hy]
  cases rel with
  | false => exact ⟨y, rfl⟩
  | true =>
    cases o with
    | none => exact absurd rfl (ho rfl)
    | some o => exact ⟨_, rfl⟩

theorem covers_ends (a b : ℝ) : Covers (.seq (.flat [some a, some b])) := by
  intro v hv
  cases hv
  exact ⟨_, .ends a b, ⟨(0, a), by simp, le_rfl⟩, (1, b), by simp, le_rfl⟩

theorem numberOrUpd_exists (arg : Arg ℝ) (hc : Covers arg) : ∃ q upd, numberOrUpd .real arg = .ok (q, upd) ∧
    ∀ rel o q' r, (rel = true → o ≠ none ∨ ∀ v, arg ≠ .seq v) → 0 ≤ r → r ≤ 1 → ∃ y, updateOne .real rel o upd q' r = .ok y := by
  cases arg with
  | none => exact ⟨_, _, rfl, fun _ _ q' _ _ _ _ => ⟨q', rfl⟩⟩
  | number x => exact ⟨_, _, rfl, fun _ _ q' _ _ _ _ => ⟨q', rfl⟩⟩
  | seq v =>
    obtain ⟨pts, hP, -⟩ := hc v rfl
    obtain ⟨t, ht⟩ := make_exists .real v pts hP
    refine ⟨Option.none, some t, by simp [numberOrUpd, ht], ?_⟩
    intro rel o q' r hr h0 h1
    obtain ⟨y, hy⟩ := updated_exists ht hc rel o (fun h => (hr h).resolve_right (fun hh => hh v rfl)) r h0 h1
    exact ⟨some y, by simp [updateOne, hy, Except.map]⟩

theorem offSetUpd_exists (arg : Arg ℝ) (hne : arg ≠ .none) (hc : Covers arg) : ∃ t, offSetUpd .real arg = .ok t ∧
    ∀ rel (o : ℝ) r, 0 ≤ r → r ≤ 1 → ∃ y, updated .real rel (some o) t r = .ok y := by
  cases arg with
  | none => exact absurd rfl hne
  | number x =>
    obtain ⟨t, ht⟩ := make_exists .real _ _ (Points.ends x x)
    exact ⟨t, ht, fun rel o r h0 h1 => updated_exists ht (covers_ends x x) rel (some o) (by simp) r h0 h1⟩
  | seq v =>
    obtain ⟨pts, hP, -⟩ := hc v rfl
    obtain ⟨t, ht⟩ := make_exists .real v pts hP
    exact ⟨t, ht, fun rel o r h0 h1 => updated_exists ht hc rel (some o) (by simp) r h0 h1⟩

/-- **C24**: the quantities of a step can be evaluated in all of its increments if exactly one of load and interference is given, the
sequences cover the step, there is time for sliding, and the rolling speed of a relative step is a number. -/
theorem C24_step_runs (a : StepArgs ℝ) (prev : Previous ℝ) (hn : a.steps ≠ 0) (hx : a.offX ≠ .none) (hy : a.offY ≠ .none)
    (hcx : Covers a.offX) (hcy : Covers a.offY) (hcl : Covers a.load) (hci : Covers a.interference)
    (hone : (a.load = .none ∧ a.interference ≠ .none) ∨ (a.load ≠ .none ∧ a.interference = .none))
    (hro : ∀ speed, a.rolling = some speed → speed ≠ .none ∧ Covers speed ∧ (a.relative = true → ∀ v, speed ≠ .seq v))
    (htime : a.noTime = true → (∃ x, a.offX = .number x) ∧ ∃ y, a.offY = .number y) :
    ∃ qs, run .real a prev = .ok qs := by
  obtain ⟨ql, ul, hl, hl2⟩ := numberOrUpd_exists a.load hcl
  have hI : ∃ iarg, initInterference .real a = .ok iarg ∧ Covers iarg := by
    rcases hone with ⟨h1, h2⟩ | ⟨h1, h2⟩
    · refine ⟨a.interference, ?_, hci⟩
      unfold initInterference
      rw [h1]
      cases h3 : a.interference with
      | none => exact absurd h3 h2
      | number x => rfl
      | seq v => rfl
    · refine ⟨.none, ?_, by rintro v hv; cases hv⟩
      unfold initInterference
      rw [h2]
      cases h3 : a.load with
      | none => exact absurd h3 h1
      | number x => rfl
      | seq v => rfl
  obtain ⟨iarg, hiarg, hcia⟩ := hI
  obtain ⟨qi, ui, hi, hi2⟩ := numberOrUpd_exists iarg hcia
  have hR : ∃ qr ur, initRolling .real a.rolling = .ok (qr, ur) ∧
      ∀ q' r, 0 ≤ r → r ≤ 1 → ∃ y, updateOne .real a.relative none ur q' r = .ok y := by
    cases hrol : a.rolling with
    | none => exact ⟨_, _, rfl, fun q' _ _ _ => ⟨q', rfl⟩⟩
    | some speed =>
      obtain ⟨h1, h2, h3⟩ := hro speed hrol
      obtain ⟨qr, ur, hr, hr2⟩ := numberOrUpd_exists speed h2
      refine ⟨qr, ur, ?_, fun q' r h0 h1 => hr2 _ _ q' r (fun hb => Or.inr (h3 hb)) h0 h1⟩
      cases speed with
      | none => exact absurd rfl h1
      | number x => exact hr
      | seq v => exact hr
  obtain ⟨qr, ur, hr, hr2⟩ := hR
  have hO : ∃ qo uo, initOffSet .real a = .ok (qo, uo) ∧
      ∀ (o : ℝ × ℝ) q' r, 0 ≤ r → r ≤ 1 → ∃ y, updateOffSet .real a.relative (some o) uo q' r = .ok y := by
    by_cases hb : (∃ x, a.offX = .number x) ∧ ∃ y, a.offY = .number y
    · obtain ⟨⟨x, hx⟩, y, hy⟩ := hb
      exact ⟨some (x, y), Option.none, by simp [initOffSet, hx, hy], fun _ q' _ _ _ => ⟨q', rfl⟩⟩
    · have hnt : a.noTime = false := by
        cases h : a.noTime
        · rfl
        · exact absurd (htime h) hb
      obtain ⟨fx, hfx, hfx2⟩ := offSetUpd_exists a.offX hx hcx
      obtain ⟨fy, hfy, hfy2⟩ := offSetUpd_exists a.offY hy hcy
      refine ⟨Option.none, some (fx, fy), ?_, ?_⟩
      · unfold initOffSet
        split
        · rename_i x y hx hy
          exact absurd ⟨⟨x, hx⟩, y, hy⟩ hb
        · simp [hnt, hfx, hfy]
      · intro o q' r h0 h1
        obtain ⟨x, hx⟩ := hfx2 a.relative o.1 r h0 h1
        obtain ⟨y, hy⟩ := hfy2 a.relative o.2 r h0 h1
        refine ⟨some (x, y), ?_⟩
        simp only [updateOffSet, Option.map_some, hx, hy]
        rfl
  obtain ⟨qo, uo, ho, ho2⟩ := hO
  have hinit : init .real a = .ok ⟨⟨qo, ql, qi, qr⟩, uo, ul, ui, ur, a.relative, a.steps⟩ := by
    simp only [init, if_neg hn, ho, hiarg, hr, hl]
    simp only [bind, Except.bind, hi]
  unfold run
  rw [hinit]
  dsimp only
  apply increments_exists
  intro j hj
  obtain ⟨h0, h1⟩ := relativeTime_mem a.steps (0 + j) (by omega)
  obtain ⟨y1, e1⟩ := ho2 (prev.offSet.getD (Arith.real.zero, Arith.real.zero)) qo _ h0 h1
  obtain ⟨y2, e2⟩ := hl2 a.relative (some (prev.load.getD Arith.real.zero)) ql _ (fun _ => Or.inl (by simp)) h0 h1
  obtain ⟨y3, e3⟩ := hi2 a.relative (some (prev.interference.getD Arith.real.zero)) qi _ (fun _ => Or.inl (by simp)) h0 h1
  obtain ⟨y4, e4⟩ := hr2 qr _ h0 h1
  refine ⟨⟨y1, y2, y3, y4⟩, ?_⟩
  simp only [updateMovement, e1, e2, e3, e4]
  rfl

/-- The example runs, so it meets the hypotheses of `C24_step_quantities_partial` and `C24_load_ends_exact` too. -/
example (prev : Previous ℝ) : ∃ qs, run .real exampleArgs prev = .ok qs :=
  C24_step_runs exampleArgs prev (by simp [exampleArgs]) (by simp [exampleArgs]) (by simp [exampleArgs])
    (by intro v hv; cases hv) (by intro v hv; cases hv) (covers_ends 3 5) (by intro v hv; cases hv)
    (Or.inr ⟨by simp [exampleArgs], rfl⟩) (by intro s hs; cases hs) (fun _ => ⟨⟨0, rfl⟩, 1, rfl⟩)

/-- **C24, negation**: with a single increment, the default of the lubrication step, a load given as two values is the first value; the
second one is never reached. -/
theorem C24_single_increment_stays_at_start (a : StepArgs ℝ) (prev : Previous ℝ) (x y : ℝ) (hn : a.steps = 1)
    (hload : a.load = .seq (.flat [some x, some y])) (hrel : a.relative = false) (qs : List (Quantities ℝ))
    (h : run .real a prev = .ok qs) : ∃ q, qs = [q] ∧ q.load = some x := by
  obtain ⟨hlen, hq⟩ := C24_step_quantities_partial a prev qs h
  rw [hn] at hlen
  obtain ⟨q, rfl⟩ := List.length_eq_one_iff.1 hlen
  refine ⟨q, rfl, ?_⟩
  obtain ⟨h1, -⟩ := hq 0 (by simp)
  simp only [List.getElem_cons_zero, Nat.cast_zero, zero_div, hload, hrel] at h1
  generalize hv : q.load = w at h1
  cases h1 with
  | none hh => cases hh
  | number x hh => cases hh
  | seq v pts z hh hP hz =>
    cases hh
    cases hP
    obtain ⟨-, -, rfl⟩ := onCurve_ends x y 0 z hz
    simp

example (prev : Previous ℝ) : ∃ qs, run .real { exampleArgs with steps := 1, relative := false } prev = .ok qs :=
  C24_step_runs _ prev (by simp) (by simp [exampleArgs]) (by simp [exampleArgs])
    (by intro v hv; cases hv) (by intro v hv; cases hv) (covers_ends 3 5) (by intro v hv; cases hv)
    (Or.inr ⟨by simp [exampleArgs], rfl⟩) (by intro s hs; cases hs) (fun _ => ⟨⟨0, rfl⟩, 1, rfl⟩)

/-- **C24, negation**: a load given as a number is not relative to the load at the start of the step, even if the loading is relative. -/
theorem C24_relative_number_not_shifted (a : StepArgs ℝ) (prev : Previous ℝ) (x : ℝ) (hload : a.load = .number x)
    (qs : List (Quantities ℝ)) (h : run .real a prev = .ok qs) : ∀ q ∈ qs, q.load = some x := by
  obtain ⟨-, hq⟩ := C24_step_quantities_partial a prev qs h
  intro q hqm
  obtain ⟨i, hi, rfl⟩ := List.getElem_of_mem hqm
  obtain ⟨h1, -⟩ := hq i hi
  generalize hv : qs[i].load = w at h1
  rw [hload] at h1
  cases h1 with
  | none hh => cases hh
  | number x hh => cases hh; rfl
  | seq v pts z hh => cases hh

example : ∃ qs, run .real { exampleArgs with load := .number 3 } ⟨some 10, some 1, some (0, 0)⟩ = .ok qs :=
  C24_step_runs _ _ (by simp [exampleArgs]) (by simp [exampleArgs]) (by simp [exampleArgs])
    (by intro v hv; cases hv) (by intro v hv; cases hv) (by intro v hv; cases hv) (by intro v hv; cases hv)
    (Or.inr ⟨by simp, rfl⟩) (by intro s hs; cases hs) (fun _ => ⟨⟨0, rfl⟩, 1, rfl⟩)

/-- **C24, negation**: a lubrication step with relative loading and a varying rolling speed fails with a `KeyError` (or earlier) in its
first increment. -/
theorem C24_relative_rolling_speed_fails (a : StepArgs ℝ) (prev : Previous ℝ) (v : Values ℝ) (hro : a.rolling = some (.seq v))
    (hrel : a.relative = true) : ∃ e, run .real a prev = .error e := by
  unfold run
  split
  · exact ⟨_, rfl⟩
  rename_i s hs
  obtain ⟨hn, hsteps, hr, -, -, hrol, -⟩ := init_ok .real hs
  have hu : ∃ t, s.rollingUpd = some t := by
    rw [hro] at hrol
    simp only [initRolling, numberOrUpd] at hrol
    split at hrol
    · cases hrol
    · simp only [Except.ok.injEq, Prod.mk.injEq] at hrol
      exact ⟨_, hrol.2.symm⟩
  obtain ⟨t, ht⟩ := hu
  cases hi : increments .real s prev s.steps 0 s.q with
  | error e => exact ⟨e, rfl⟩
  | ok qs =>
    exfalso
    obtain ⟨hlen, hget⟩ := increments_get .real s prev _ _ _ _ hi
    obtain ⟨-, -, -, g4⟩ := updateMovement_ok .real (hget 0 (by omega))
    rw [ht, hr, hrel] at g4
    cases g4

example : run .real { exampleArgs with rolling := some (.seq (.flat [some 1, some 2])) } ⟨none, none, none⟩ = .error .keyError := by
  obtain ⟨f, hf, hf0, -⟩ := C24_two_values_exact Arith.real (by norm_num [Arith.real]) (3 : ℝ) 5
  obtain ⟨g, hg, -⟩ := C24_two_values_exact Arith.real (by norm_num [Arith.real]) (1 : ℝ) 2
  have h0 := (relativeTime_ends Arith.real (by intro s; norm_num [Arith.real]) 3 (by norm_num)).1
  simp only [run, init, exampleArgs, initOffSet, initInterference, initRolling, numberOrUpd, hf, hg]
  simp [bind, Except.bind, increments, updateMovement, updateOffSet, updateOne, updated, h0, hf0, Except.map]

/-- **C24**: the target of a static step is the given load or interference, shifted by the one at the start of the step if the loading is
relative. -/
theorem C24_static_target (l i : Option ℝ) (rel : Bool) (prev : Previous ℝ) (x y : Option ℝ)
    (h : staticTarget .real l i rel prev = .ok (x, y)) :
    (∃ load, l = some load ∧ i = none ∧ y = none ∧ ∃ o, (rel = true → prev.load = some o) ∧ (rel = false → o = 0) ∧ x = some (o + load)) ∨
    (∃ d, l = none ∧ (i = some d ∨ (i = none ∧ d = 0 ∧ rel = true)) ∧ x = none ∧
      ∃ o, (rel = true → prev.interference = some o) ∧ (rel = false → o = 0) ∧ y = some (o + d)) := by
  cases l with
  | some l =>
    cases i with
    | some i => cases h
    | none =>
      left
      cases rel with
      | false =>
        cases h
        exact ⟨l, rfl, rfl, rfl, 0, by simp, by simp, by simp⟩
      | true =>
        simp only [staticTarget, if_true] at h
        split at h
        · cases h
        · rename_i o ho
          cases h
          exact ⟨l, rfl, rfl, rfl, o, by simp [ho], by simp, rfl⟩
  | none =>
    right
    cases rel with
    | false =>
      cases i with
      | none => cases h
      | some d =>
        cases h
        exact ⟨d, rfl, Or.inl rfl, rfl, 0, by simp, by simp, by simp⟩
    | true =>
      cases i with
      | none =>
        simp only [staticTarget] at h
        split at h
        · cases h
        · rename_i o ho
          cases h
          exact ⟨0, rfl, Or.inr ⟨rfl, rfl, rfl⟩, rfl, o, by simp [ho], by simp, rfl⟩
      | some d =>
        simp only [staticTarget] at h
        split at h
        · cases h
        · rename_i o ho
          cases h
          exact ⟨d, rfl, Or.inl rfl, rfl, o, by simp [ho], by simp, rfl⟩

example : staticTarget .real (some 3) none true ⟨some 4, some 0, some (0, 0)⟩ = .ok (some (4 + 3), none) := rfl

/-- **C24, negation**: a static step with a relative load directly after the initial step, whose state has no load, fails with a
`KeyError`. -/
theorem C24_static_relative_load_after_initial (load i o : ℝ) :
    staticTarget .real (some load) none true ⟨none, some i, some (o, o)⟩ = .error .keyError := rfl

end Verif.Interp
