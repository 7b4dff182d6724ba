import Mathlib.Algebra.Order.Floor.Semiring
import Mathlib.Algebra.Order.Floor.Ring
import Mathlib.Data.Real.Archimedean
import Mathlib.Tactic.Linarith
import Mathlib.Tactic.NormNum
import Mathlib.Tactic.Ring
import Mathlib.Tactic.Positivity
import Mathlib.Tactic.FieldSimp
import Mathlib.Tactic.IntervalCases
import Verif.Outputs.Model

/-!
# Properties C16, C17, C62: when outputs are written
-/

namespace Verif.Outputs

open Verif

/-- Number of queries in a history. -/
def queries : List Event → ℕ
  | [] => 0
  | .newStep _ :: es => queries es
  | .query _ _ :: es => queries es + 1

/-! ## C16 -/

lemma run_interval_aux (v : ℝ) (hv : 0 < v) (es : List Event) : ∀ (r : Req) (k : ℕ), r.timing = .interval → r.interval = v →
    ((k = 0 ∧ v ≤ r.count) ∨ (0 < k ∧ k ≤ ⌈v⌉₊ ∧ r.count = k)) →
    ∀ j, j < queries es → ((run r es).1[j]? = some true ↔ ⌈v⌉₊ ∣ (if k = 0 then 0 else k) + j) := by
  have hN : 0 < ⌈v⌉₊ := Nat.ceil_pos.mpr hv
  induction es with
  | nil => intro r k _ _ _ j hj; simp [queries] at hj
  | cons e es ih =>
    intro r k ht hi hc j hj
    cases e with
    | newStep t =>
      simp only [run]
      refine ih (newStep r t) k ?_ ?_ ?_ j hj
      · simp [newStep, ht]
      · simp [newStep, ht, hi]
      · simpa [newStep, ht] using hc
    | query t m =>
      simp only [run, isActive, ht]
      have hk : (r.count < r.interval) ↔ (0 < k ∧ k < ⌈v⌉₊) := by
        rw [hi]
        rcases hc with ⟨rfl, h⟩ | ⟨h0, h1, h2⟩
        · simp [h]
        · rw [h2, Nat.lt_ceil]; simp [h0]
      rcases j with _ | j
      · by_cases h : r.count < r.interval
        · have hk' := hk.mp h
          rw [if_pos h]
          simp only [List.getElem?_cons_zero]
          have : ¬ ⌈v⌉₊ ∣ k := fun hd => by have := Nat.le_of_dvd hk'.1 hd; omega
          simp [hk'.1.ne', this]
        · rw [if_neg h]
          have hk' : ¬ (0 < k ∧ k < ⌈v⌉₊) := fun h' => h (hk.mpr h')
          rcases hc with ⟨rfl, -⟩ | ⟨h0, h1, -⟩
          · simp
          · have : k = ⌈v⌉₊ := by omega
            rw [if_neg h0.ne', this]
            simp
      · have hj' : j < queries es := by simp [queries] at hj; exact hj
        by_cases h : r.count < r.interval
        · have hk' := hk.mp h
          rw [if_pos h]
          simp only [List.getElem?_cons_succ]
          rw [ih _ (k + 1) ?_ ?_ ?_ j hj']
          · simp [hk'.1.ne']; ring_nf
          · rfl
          · exact hi
          · right
            rcases hc with ⟨rfl, -⟩ | ⟨h0, h1, h2⟩
            · omega
            · exact ⟨by omega, by omega, by rw [h2]; push_cast; ring⟩
        · rw [if_neg h]
          have hk' : ¬ (0 < k ∧ k < ⌈v⌉₊) := fun h' => h (hk.mpr h')
          simp only [List.getElem?_cons_succ]
          rw [ih _ 1 ?_ ?_ ?_ j hj']
          · rcases hc with ⟨rfl, -⟩ | ⟨h0, h1, -⟩
            · simp [add_comm]
            · have : k = ⌈v⌉₊ := by omega
              simp only [one_ne_zero, if_false, h0.ne', this]
              have e : ⌈v⌉₊ + (j + 1) = (1 + j) + ⌈v⌉₊ := by ring
              rw [if_neg hN.ne', e, Nat.dvd_add_self_right]
          · rfl
          · exact hi
          · right; exact ⟨one_pos, hN, by simp⟩

/-- C16: an output request with interval `n` is active exactly in the increments number 1, n+1, 2n+1, ... of the analysis (here
counted from 0), whatever the times and wherever the steps begin. Also for intervals that are no integers, with `n` rounded up. -/
theorem C16_every_nth_increment (v : ℝ) (hv : 0 < v) (r : Req) (hr : mk .interval (.num v) = .ok r) (es : List Event) (j : ℕ)
    (hj : j < queries es) : (run r es).1[j]? = some true ↔ ⌈v⌉₊ ∣ j := by
  simp only [mk, Except.ok.injEq] at hr
  subst hr
  have := run_interval_aux v hv es ⟨.interval, v, v, 0, [], [], none, 0, none⟩ 0 rfl rfl (Or.inl ⟨rfl, le_rfl⟩) j hj
  simpa using this

/-- The same for an integer value. -/
theorem C16_every_nth_increment_int (n : ℕ) (hn : 0 < n) (r : Req) (hr : mk .interval (.int n) = .ok r) (es : List Event) (j : ℕ)
    (hj : j < queries es) : (run r es).1[j]? = some true ↔ n ∣ j := by
  simp only [mk, Except.ok.injEq] at hr
  subst hr
  have := run_interval_aux n (by exact_mod_cast hn) es ⟨.interval, n, n, 0, [], [], none, 0, none⟩ 0 rfl rfl (Or.inl ⟨rfl, le_rfl⟩) j hj
  simpa using this

lemma run_length (es : List Event) : ∀ r, (run r es).1.length = queries es := by
  induction es with
  | nil => intro r; rfl
  | cons e es ih => intro r; cases e <;> simp [run, queries, ih]

/-- Two steps of two increments each with interval 2: increments 0 and 2 (`C16_every_nth_increment`). -/
example : ∃ r, mk .interval (.int 2) = .ok r ∧ 2 < queries [.newStep 0, .query 1 2, .query 2 2, .newStep 2, .query 3 2, .query 4 2] :=
  ⟨_, rfl, by decide⟩

/-! ## C17 -/

open Classical in
/-- Answers of a request that still has to honour the times `ps` to queries at the times `qs`. -/
noncomputable def fires : List ℝ → List ℝ → List Bool
  | _, [] => []
  | [], _ :: qs => false :: fires [] qs
  | p :: ps, q :: qs => if p ≤ q then true :: fires ps qs else false :: fires (p :: ps) qs

/-- The requested times still to be honoured according to the state of the request. -/
def pending (r : Req) : List ℝ := match r.next with
  | none => []
  | some p => p :: r.points

/-- A timing mode with a list of times. -/
def ListMode (t : Timing) : Prop := t = .nOutputsPerStep ∨ t = .stepTimes ∨ t = .globalTimes

lemma pending_advance (r : Req) : pending (advance r) = r.points := by
  unfold advance pending
  cases h : r.points <;> simp

lemma advance_timing (r : Req) : (advance r).timing = r.timing := by unfold advance; split <;> rfl
lemma advance_endT (r : Req) : (advance r).endT = r.endT := by unfold advance; split <;> rfl

lemma run_started (maxT : ℝ) (qs : List ℝ) : ∀ r : Req, ListMode r.timing → r.endT.isSome → (r.next = none → r.points = []) →
    (run r (qs.map fun q => .query q maxT)).1 = fires (pending r) qs := by
  induction qs with
  | nil => intro r _ _ _; cases h : pending r <;> simp [run, fires]
  | cons q qs ih =>
    intro r hm he hp
    have hfc : firstCall r maxT = r := by
      unfold firstCall
      cases h : r.endT with
      | none => simp [h] at he
      | some e => rfl
    have hact : isActive r q maxT = match r.next with
        | none => (false, r)
        | some nx => if nx ≤ q then (true, advance r) else (false, r) := by
      unfold isActive
      rcases hm with h | h | h <;> rw [h] <;> simp only [hfc] <;> rfl
    simp only [List.map_cons, run, hact]
    cases hn : r.next with
    | none =>
      simp only
      rw [ih r hm he hp]
      simp [pending, hn, fires]
    | some nx =>
      simp only
      by_cases h : nx ≤ q
      · simp only [h, if_true]
        rw [ih (advance r) (by rw [advance_timing]; exact hm) (by rw [advance_endT]; exact he) ?_, pending_advance]
        · simp [pending, hn, fires, h]
        · intro h'
          unfold advance at h' ⊢
          cases hh : r.points <;> simp [hh] at h' ⊢
      · simp only [h, if_false]
        rw [ih r hm he hp]
        simp [pending, hn, fires, h]

lemma run_first (maxT : ℝ) (qs : List ℝ) (r : Req) (hm : ListMode r.timing) (he : r.endT = none)  :
    (run r (qs.map fun q => .query q maxT)).1 = fires (pending (firstCall r maxT)) qs := by
  cases qs with
  | nil => cases h : pending (firstCall r maxT) <;> simp [run, fires]
  | cons q qs =>
    have hfin : (firstCall r maxT).endT.isSome := by
      unfold firstCall
      rw [he]
      simp only [advance_endT]
      split_ifs <;> rfl
    have htim : (firstCall r maxT).timing = r.timing := by
      unfold firstCall
      rw [he]
      simp only [advance_timing]
      split_ifs <;> rfl
    have hnp : (firstCall r maxT).next = none → (firstCall r maxT).points = [] := by
      unfold firstCall
      rw [he]
      simp only
      intro h
      unfold advance at h ⊢
      split at h
      · rename_i hh; exact hh
      · simp at h
    have hsame : firstCall (firstCall r maxT) maxT = firstCall r maxT := by
      generalize firstCall r maxT = r' at hfin
      unfold firstCall
      cases h : r'.endT with
      | none => simp [h] at hfin
      | some e => rfl
    have key := run_started maxT (q :: qs) (firstCall r maxT) (by rw [htim]; exact hm) hfin hnp
    rw [← key]
    simp only [List.map_cons, run]
    have hact : isActive r q maxT = isActive (firstCall r maxT) q maxT := by
      unfold isActive
      rw [htim]
      rcases hm with h | h | h <;> rw [h] <;> simp only [hsame]
    rw [hact]

/-- `n` evenly spaced times from `a` to `b`, both included (only `a` for `n = 1`). -/
noncomputable def evenly (a b : ℝ) (n : ℕ) : List ℝ :=
  (List.range n).map fun j : ℕ => if n = 1 then a else (a * ((n : ℝ) - 1 - j) + b * j) / ((n : ℝ) - 1)

lemma linspace_eq (a b : ℝ) (n : ℕ) : linspace a b n = evenly a b n := by
  unfold linspace evenly
  apply List.map_congr_left
  intro j hj
  rw [List.mem_range] at hj
  split_ifs with h
  · rfl
  · have : (n : ℝ) - 1 ≠ 0 := by
      intro h'
      exact h (by exact_mod_cast (by linarith : (n : ℝ) = 1))
    field_simp
    ring

/-- The requested times of one step that starts at `s` and is `maxT` long, in absolute time. -/
noncomputable def requested (r : Req) (s maxT : ℝ) : List ℝ :=
  if r.timing = .nOutputsPerStep then evenly s (s + maxT) r.nOut else r.stepTimes.map (fun st => s + st)

lemma run_step (r : Req) (hm : r.timing = .nOutputsPerStep ∨ r.timing = .stepTimes) (s maxT : ℝ) (qs : List ℝ) :
    (run r (.newStep s :: qs.map fun q => .query q maxT)).1 = fires (requested r s maxT) qs := by
  have hns : newStep r s = { r with start := s, endT := none } := by
    unfold newStep
    rcases hm with h | h <;> simp [h]
  have : (run r (.newStep s :: qs.map fun q => .query q maxT)).1 = (run (newStep r s) (qs.map fun q => .query q maxT)).1 := rfl
  rw [this, run_first maxT qs (newStep r s) (by rw [hns]; rcases hm with h | h <;> simp [ListMode, h]) (by rw [hns])]
  congr 1
  rw [hns]
  unfold firstCall requested
  rcases hm with h | h <;> simp only [h] <;> simp [pending_advance, linspace_eq]

/-- The number of fires never exceeds the number of requested times that are passed. -/
lemma fires_count_le (qs : List ℝ) : ∀ (ps : List ℝ) (i : ℕ) (h : i < qs.length), qs.Pairwise (· ≤ ·) →
    ((fires ps qs).take (i + 1)).count true ≤ (ps.filter (fun p => decide (p ≤ qs[i]))).length := by
  induction qs with
  | nil => intro ps i h; simp at h
  | cons q qs ih =>
    intro ps i h hq
    rw [List.pairwise_cons] at hq
    have hle : ∀ (i : ℕ) (h : i < (q :: qs).length), q ≤ (q :: qs)[i] := by
      intro i h
      cases i with
      | zero => simp
      | succ i => exact hq.1 _ (List.getElem_mem (by simpa using h))
    cases ps with
    | nil =>
      cases i with
      | zero => simp [fires]
      | succ i =>
        have := ih [] i (by simpa using h) hq.2
        simpa [fires] using this
    | cons p ps =>
      by_cases hp : p ≤ q
      · have hp' : p ≤ (q :: qs)[i] := hp.trans (hle i h)
        rw [fires, if_pos hp, List.filter_cons, if_pos (by simpa using hp')]
        cases i with
        | zero => simp
        | succ i =>
          have := ih ps i (by simpa using h) hq.2
          simp only [List.take_succ_cons, List.count_cons, List.length_cons, List.getElem_cons_succ]
          simp
          exact this
      · rw [fires, if_neg hp]
        cases i with
        | zero => simp
        | succ i =>
          have := ih (p :: ps) i (by simpa using h) hq.2
          simpa using this

/-- Requested times come one per increment: at most one of them in the interval from the previous increment (exclusive, nothing
before the first) to this one (inclusive). -/
def OnePerIncrement (ps qs : List ℝ) : Prop :=
  ∀ (i : ℕ) (h : i < qs.length), (ps.filter (fun p => decide (p ≤ qs[i] ∧ ∀ h' : 0 < i, qs[i - 1] < p))).length ≤ 1

lemma one_rest (p q : ℝ) (ps qs rest : List ℝ) (hqs : (q :: qs).Pairwise (· ≤ ·)) (h1 : OnePerIncrement (p :: ps) (q :: qs))
    (hmem : ∀ x, x ∈ rest ↔ x ∈ p :: ps ∧ q < x)
    (hcount : ∀ P : ℝ → Bool, (∀ x, P x = true → q < x) → (rest.filter P).length = ((p :: ps).filter P).length) :
    OnePerIncrement rest qs := by
  rw [List.pairwise_cons] at hqs
  intro k hk
  have := h1 (k + 1) (by simpa using hk)
  refine le_trans (le_of_eq ?_) this
  rw [← hcount]
  · congr 1
    apply List.filter_congr
    intro x hx
    have hx' := (hmem x).mp hx
    simp only [decide_eq_decide]
    cases k with
    | zero => simp [hx'.2]
    | succ k => simp
  · intro x hx
    simp only [decide_eq_true_eq] at hx
    refine lt_of_le_of_lt ?_ (hx.2 (by omega))
    cases k with
    | zero => simp
    | succ k => exact hqs.1 _ (List.getElem_mem _)

lemma one_first (p q : ℝ) (ps qs : List ℝ) (h1 : OnePerIncrement (p :: ps) (q :: qs)) (hp : p ≤ q) : ∀ x ∈ ps, q < x := by
  intro x hx
  by_contra hc
  have h0 := h1 0 (by simp)
  simp [List.filter_cons, hp] at h0
  have := h0 x hx
  linarith [not_lt.mp hc]

/-- If the requested times come one per increment, there are as many outputs as times passed. -/
lemma fires_count_eq (qs : List ℝ) : ∀ ps : List ℝ, ps.Pairwise (· ≤ ·) → qs.Pairwise (· ≤ ·) → OnePerIncrement ps qs →
    ∀ last ∈ qs.getLast?, (fires ps qs).count true = (ps.filter (fun p => decide (p ≤ last))).length := by
  induction qs with
  | nil => intro ps _ _ _ last h; simp at h
  | cons q qs ih =>
    intro ps hps hqs h1 last hl
    have hqs' := hqs
    rw [List.pairwise_cons] at hqs
    have hqlast : q ≤ last := by
      rw [List.getLast?_cons] at hl
      simp only [Option.mem_def, Option.some.injEq] at hl
      cases hh : qs.getLast? with
      | none => rw [hh] at hl; simp at hl; exact hl.le
      | some l =>
        rw [hh] at hl
        simp at hl
        subst hl
        exact hqs.1 _ (List.mem_of_getLast? hh)
    have hcase : (qs = [] ∧ last = q) ∨ last ∈ qs.getLast? := by
      cases qs with
      | nil => left; simp at hl; exact ⟨rfl, hl.symm⟩
      | cons q' qs => right; simpa using hl
    cases ps with
    | nil =>
      have : ∀ qs : List ℝ, (fires [] qs).count true = 0 := by
        intro qs; induction qs with
        | nil => simp [fires]
        | cons q qs ih => simpa [fires] using ih
      simp [this]
    | cons p ps =>
      rw [List.pairwise_cons] at hps
      by_cases hp : p ≤ q
      · have hgt := one_first p q ps qs h1 hp
        rw [fires, if_pos hp, List.count_cons_self, List.filter_cons, if_pos (by simpa using hp.trans hqlast), List.length_cons]
        congr 1
        rcases hcase with ⟨rfl, rfl⟩ | hl'
        · have : ps.filter (fun p => decide (p ≤ last)) = [] := by
            rw [List.filter_eq_nil_iff]; intro x hx; simpa using hgt x hx
          rw [this]; simp [fires]
        · refine ih ps hps.2 hqs.2 (one_rest p q ps qs ps hqs' h1 ?_ ?_) last hl'
          · intro x
            constructor
            · intro hx; exact ⟨List.mem_cons_of_mem _ hx, hgt x hx⟩
            · rintro ⟨hx, hq⟩
              rcases List.mem_cons.mp hx with rfl | hx
              · linarith
              · exact hx
          · intro P hP
            rw [List.filter_cons, if_neg]
            intro hPp
            have := hP p hPp
            linarith
      · have hall : ∀ x ∈ p :: ps, q < x := by
          intro x hx
          rcases List.mem_cons.mp hx with rfl | hx
          · exact not_le.mp hp
          · exact lt_of_lt_of_le (not_le.mp hp) (hps.1 x hx)
        rw [fires, if_neg hp, List.count_cons_of_ne (by simp)]
        rcases hcase with ⟨rfl, rfl⟩ | hl'
        · have : (p :: ps).filter (fun p => decide (p ≤ last)) = [] := by
            rw [List.filter_eq_nil_iff]; intro x hx; simpa using hall x hx
          rw [this]; simp [fires]
        · exact ih (p :: ps) (List.pairwise_cons.mpr hps) hqs.2
            (one_rest p q ps qs (p :: ps) hqs' h1 (fun x => ⟨fun hx => ⟨hx, hall x hx⟩, fun h => h.1⟩) (fun _ _ => rfl)) last hl'

lemma fires_exact (qs : List ℝ) : ∀ ps : List ℝ, ps.Pairwise (· ≤ ·) → qs.Pairwise (· ≤ ·) → OnePerIncrement ps qs →
    ∀ (i : ℕ) (h : i < qs.length), (fires ps qs)[i]? = some (decide (∃ p ∈ ps, p ≤ qs[i] ∧ ∀ h' : 0 < i, qs[i - 1] < p)) := by
  induction qs with
  | nil => intro ps _ _ _ i h; simp at h
  | cons q qs ih =>
    intro ps hps hqs h1 i h
    rw [List.pairwise_cons] at hqs
    cases ps with
    | nil =>
      cases i with
      | zero => simp [fires]
      | succ i =>
        have := ih [] List.Pairwise.nil hqs.2 (fun i h => by simp) i (by simpa using h)
        simpa [fires] using this
    | cons p ps =>
      rw [List.pairwise_cons] at hps
      have hgt : p ≤ q → ∀ x ∈ ps, q < x := by
        intro hp x hx
        by_contra hc
        have h0 := h1 0 (by simp)
        have hx' : x ∈ ps.filter (fun p => decide (p ≤ q)) := by simp [hx, not_lt.mp hc]
        have : 0 < (ps.filter (fun p => decide (p ≤ q))).length := List.length_pos_of_mem hx'
        simp [List.filter_cons, hp] at h0
        have := h0 x hx
        linarith [not_lt.mp hc]
      -- the first query
      have hfirst : (∃ x ∈ p :: ps, x ≤ q) ↔ p ≤ q := by
        constructor
        · rintro ⟨x, hx, hxq⟩
          rcases List.mem_cons.mp hx with rfl | hx
          · exact hxq
          · exact (hps.1 x hx).trans hxq
        · intro hp; exact ⟨p, by simp, hp⟩
      cases i with
      | zero =>
        have : (∃ x ∈ p :: ps, x ≤ (q :: qs)[0] ∧ ∀ h' : 0 < 0, (q :: qs)[0 - 1] < x) ↔ p ≤ q := by
          rw [← hfirst]; simp
        by_cases hp : p ≤ q
        · rw [fires, if_pos hp]; simp only [List.getElem?_cons_zero, this, hp, decide_true]
        · rw [fires, if_neg hp]; simp only [List.getElem?_cons_zero, this, hp, decide_false]
      | succ i =>
        have hi : i < qs.length := by simpa using h
        -- times pending after the first query are those after `q`
        have hrest : ∀ rest : List ℝ, rest.Pairwise (· ≤ ·) → (∀ x, x ∈ rest ↔ x ∈ p :: ps ∧ q < x) →
            (∀ P : ℝ → Bool, (∀ x, P x = true → q < x) → (rest.filter P).length = ((p :: ps).filter P).length) →
            (fires rest qs)[i]? = some (decide (∃ x ∈ p :: ps, x ≤ (q :: qs)[i + 1] ∧ ∀ h' : 0 < i + 1, (q :: qs)[i + 1 - 1] < x)) := by
          intro rest hsort hmem hcount
          rw [ih rest hsort hqs.2 ?_ i hi]
          · congr 1
            simp only [decide_eq_decide]
            constructor
            · rintro ⟨x, hx, hxq, hprev⟩
              have hx' := (hmem x).mp hx
              refine ⟨x, hx'.1, by simpa using hxq, fun _ => ?_⟩
              cases i with
              | zero => simpa using hx'.2
              | succ i => simpa using hprev (by omega)
            · rintro ⟨x, hx, hxq, hprev⟩
              have hp1 := hprev (by omega)
              have hqx : q < x := by
                refine lt_of_le_of_lt ?_ hp1
                cases i with
                | zero => simp
                | succ i => exact hqs.1 _ (List.getElem_mem _)
              refine ⟨x, (hmem x).mpr ⟨hx, hqx⟩, by simpa using hxq, fun h' => ?_⟩
              cases i with
              | zero => omega
              | succ i => simpa using hp1
          · intro k hk
            have := h1 (k + 1) (by simpa using hk)
            refine le_trans (le_of_eq ?_) this
            rw [← hcount]
            · congr 1
              apply List.filter_congr
              intro x hx
              have hx' := (hmem x).mp hx
              simp only [decide_eq_decide]
              cases k with
              | zero => simp [hx'.2]
              | succ k => simp
            · intro x hx
              simp only [decide_eq_true_eq] at hx
              refine lt_of_le_of_lt ?_ (hx.2 (by omega))
              cases k with
              | zero => simp
              | succ k => exact hqs.1 _ (List.getElem_mem _)
        by_cases hp : p ≤ q
        · rw [fires, if_pos hp, List.getElem?_cons_succ]
          refine hrest ps hps.2 ?_ ?_
          · intro x
            constructor
            · intro hx; exact ⟨List.mem_cons_of_mem _ hx, hgt hp x hx⟩
            · rintro ⟨hx, hq⟩
              rcases List.mem_cons.mp hx with rfl | hx
              · linarith
              · exact hx
          · intro P hP
            rw [List.filter_cons, if_neg]
            intro hPp
            have := hP p hPp
            linarith
        · rw [fires, if_neg hp, List.getElem?_cons_succ]
          refine hrest (p :: ps) (List.pairwise_cons.mpr hps) ?_ (fun _ _ => rfl)
          intro x
          constructor
          · intro hx
            refine ⟨hx, ?_⟩
            rcases List.mem_cons.mp hx with rfl | hx
            · exact not_le.mp hp
            · exact lt_of_lt_of_le (not_le.mp hp) (hps.1 x hx)
          · exact fun h => h.1

/-- C17 (partial: step times and a number of outputs per step; see below for global times). Whatever the request went through
before: in a step starting at `s`, outputs are never written earlier than requested, and at most once for each requested time:
up to any increment there are at most as many outputs as requested times passed. -/
theorem C17_never_early_partial (r : Req) (hm : r.timing = .nOutputsPerStep ∨ r.timing = .stepTimes) (s maxT : ℝ) (qs : List ℝ)
    (hqs : qs.Pairwise (· ≤ ·)) (i : ℕ) (h : i < qs.length) :
    ((run r (.newStep s :: qs.map fun q => .query q maxT)).1.take (i + 1)).count true ≤
      ((requested r s maxT).filter (fun p => decide (p ≤ qs[i]))).length := by
  rw [run_step r hm s maxT qs]
  exact fires_count_le qs _ i h hqs

/-- C17 (partial: step times and a number of outputs per step). If the requested times come one per increment, an output is
written in exactly those increments that pass a requested time. -/
theorem C17_all_honoured_partial (r : Req) (hm : r.timing = .nOutputsPerStep ∨ r.timing = .stepTimes) (s maxT : ℝ) (qs : List ℝ)
    (hps : (requested r s maxT).Pairwise (· ≤ ·)) (hqs : qs.Pairwise (· ≤ ·)) (hone : OnePerIncrement (requested r s maxT) qs)
    (i : ℕ) (h : i < qs.length) :
    (run r (.newStep s :: qs.map fun q => .query q maxT)).1[i]? = some true ↔
      ∃ p ∈ requested r s maxT, p ≤ qs[i] ∧ ∀ h' : 0 < i, qs[i - 1] < p := by
  rw [run_step r hm s maxT qs, fires_exact qs _ hps hqs hone i h]
  simp

lemma evenly_sorted (a b : ℝ) (hab : a ≤ b) (n : ℕ) : (evenly a b n).Pairwise (· ≤ ·) := by
  unfold evenly
  rw [List.pairwise_map]
  refine List.pairwise_lt_range.imp_of_mem (fun {i j} hi hj hij => ?_)
  rw [List.mem_range] at hi hj
  split_ifs with h
  · exact le_rfl
  · have h2 : (2 : ℝ) ≤ n := by exact_mod_cast (by omega : 2 ≤ n)
    have hij' : (i : ℝ) ≤ j := by exact_mod_cast hij.le
    apply div_le_div_of_nonneg_right _ (by linarith)
    nlinarith

lemma evenly_le (a b : ℝ) (hab : a ≤ b) (n : ℕ) : ∀ x ∈ evenly a b n, a ≤ x ∧ x ≤ b := by
  intro x hx
  unfold evenly at hx
  rw [List.mem_map] at hx
  obtain ⟨j, hj, rfl⟩ := hx
  rw [List.mem_range] at hj
  split_ifs with h
  · exact ⟨le_rfl, hab⟩
  · have h2 : (2 : ℝ) ≤ n := by exact_mod_cast (by omega : 2 ≤ n)
    have hj' : (j : ℝ) + 1 ≤ n := by exact_mod_cast hj
    have hj0 : (0 : ℝ) ≤ j := Nat.cast_nonneg j
    constructor
    · rw [le_div_iff₀ (by linarith)]; nlinarith
    · rw [div_le_iff₀ (by linarith)]; nlinarith

/-- C17 (partial: a number of outputs per step): if the increments reach the end of the step and are fine enough, exactly `n`
outputs are written in the step. -/
theorem C17_n_outputs_in_step_partial (r : Req) (hm : r.timing = .nOutputsPerStep) (s maxT : ℝ) (hmax : 0 ≤ maxT) (qs : List ℝ)
    (hqs : qs.Pairwise (· ≤ ·)) (hone : OnePerIncrement (evenly s (s + maxT) r.nOut) qs) (hend : ∃ last ∈ qs.getLast?, s + maxT ≤ last) :
    (run r (.newStep s :: qs.map fun q => .query q maxT)).1.count true = r.nOut := by
  obtain ⟨last, hl, hle⟩ := hend
  rw [run_step r (Or.inl hm) s maxT qs]
  have e : requested r s maxT = evenly s (s + maxT) r.nOut := by simp [requested, hm]
  rw [e, fires_count_eq qs _ (evenly_sorted _ _ (by linarith) _) hqs hone last hl]
  rw [List.filter_eq_self.mpr]
  · simp [evenly]
  · intro x hx
    have := evenly_le s (s + maxT) (by linarith) r.nOut x hx
    simp; linarith

/-- Three outputs in a step from 0 to 2 with increments at 1/2, 1, 2. -/
example : OnePerIncrement (evenly 0 (0 + 2) 3) [1 / 2, 1, 2] ∧ ∃ last ∈ ([1 / 2, 1, 2] : List ℝ).getLast?, (0 : ℝ) + 2 ≤ last := by
  have : evenly 0 (0 + 2) 3 = [0, 1, 2] := by
    norm_num [evenly, List.range, List.range.loop]
  rw [this]
  refine ⟨?_, 2, by simp, by norm_num⟩
  intro i h
  simp only [List.length_cons, List.length_nil] at h
  interval_cases i <;> norm_num [List.filter]

/-- Step times 1 and 2.5 in a step starting at 10 with increments at 11, 12, 13 (`C17_never_early_partial`, `C17_all_honoured_partial`). -/
example : let r : Req := ⟨.stepTimes, 0, 0, 0, [1, 5 / 2], [], none, 0, none⟩
    (requested r 10 3).Pairwise (· ≤ ·) ∧ ([11, 12, 13] : List ℝ).Pairwise (· ≤ ·) ∧ OnePerIncrement (requested r 10 3) [11, 12, 13] := by
  intro r
  have : requested r 10 3 = [11, 25 / 2] := by
    norm_num [requested, r]
    intro h; cases h
  rw [this]
  refine ⟨by norm_num, by norm_num, ?_⟩
  intro i h
  simp only [List.length_cons, List.length_nil] at h
  interval_cases i <;> norm_num [List.filter]

/-- C17, negation for global times: a request for a single global time is never active, whatever happens during the analysis. -/
theorem C17_single_global_time_never_fires (p : ℝ) (r : Req) (hr : mk .globalTimes (.list [p]) = .ok r) (es : List Event) :
    true ∉ (run r es).1 := by
  have key : ∀ (es : List Event) (r : Req), r.timing = .globalTimes → r.points = [] → (r.endT = none ∨ r.next = none) →
      true ∉ (run r es).1 := by
    intro es
    induction es with
    | nil => intro r _ _ _; simp [run]
    | cons e es ih =>
      intro r ht hp he
      cases e with
      | newStep t =>
        simp only [run]
        refine ih _ ?_ ?_ ?_ <;> simp [newStep, ht, hp]
      | query t m =>
        have hact : isActive r t m = (false, firstCall r m) ∧ (firstCall r m).next = none ∧ (firstCall r m).points = [] ∧
            (firstCall r m).timing = .globalTimes := by
          have h1 : (firstCall r m).next = none ∧ (firstCall r m).points = [] ∧ (firstCall r m).timing = .globalTimes := by
            unfold firstCall
            cases h : r.endT with
            | none => simp [ht, advance, hp]
            | some e => rcases he with he | he
                        · simp [h] at he
                        · exact ⟨he, hp, ht⟩
          refine ⟨?_, h1⟩
          unfold isActive
          rw [ht]
          simp only [h1.1]
        simp only [run, hact.1, List.mem_cons, Bool.true_eq_false, false_or]
        exact ih _ hact.2.2.2 hact.2.2.1 (Or.inr hact.2.1)
  simp only [mk, Except.ok.injEq] at hr
  subst hr
  exact key es _ rfl rfl (Or.inl rfl)

example : ∃ r, mk .globalTimes (.list [1 / 2]) = .ok r := ⟨_, rfl⟩

lemma run_step_global (r : Req) (hm : r.timing = .globalTimes) (s maxT : ℝ) (qs : List ℝ) :
    (run r (.newStep s :: qs.map fun q => .query q maxT)).1 = fires r.points qs := by
  have hns : newStep r s = { r with start := s, endT := none } := by
    unfold newStep
    simp [hm]
  have : (run r (.newStep s :: qs.map fun q => .query q maxT)).1 = (run (newStep r s) (qs.map fun q => .query q maxT)).1 := rfl
  rw [this, run_first maxT qs (newStep r s) (by rw [hns]; simp [ListMode, hm]) (by rw [hns])]
  congr 1
  rw [hns]
  unfold firstCall
  simp [hm, pending_advance]

/-- C17 (partial, global times): every step forgets the time that the request waits for at its beginning, whatever the request
went through before; the later times are honoured if they come one per increment. -/
theorem C17_global_times_lose_one_per_step_partial (r : Req) (hm : r.timing = .globalTimes) (s maxT : ℝ) (qs : List ℝ)
    (hps : r.points.Pairwise (· ≤ ·)) (hqs : qs.Pairwise (· ≤ ·)) (hone : OnePerIncrement r.points qs) (i : ℕ) (h : i < qs.length) :
    (run r (.newStep s :: qs.map fun q => .query q maxT)).1[i]? = some true ↔ ∃ x ∈ r.points, x ≤ qs[i] ∧ ∀ h' : 0 < i, qs[i - 1] < x := by
  rw [run_step_global r hm, fires_exact qs _ hps hqs hone i h]
  simp

/-- C17 (partial, global times): never earlier than requested and at most once for each requested time, in every step. -/
theorem C17_global_times_never_early_partial (r : Req) (hm : r.timing = .globalTimes) (s maxT : ℝ) (qs : List ℝ)
    (hqs : qs.Pairwise (· ≤ ·)) (i : ℕ) (h : i < qs.length) :
    ((run r (.newStep s :: qs.map fun q => .query q maxT)).1.take (i + 1)).count true ≤
      (r.points.filter (fun p => decide (p ≤ qs[i]))).length := by
  rw [run_step_global r hm]
  exact fires_count_le qs _ i h hqs

/-- The request for the global times 1, 2, 3 in a step from 0 with increments at 1, 2, 3 (`C17_global_times_lose_one_per_step_partial`). -/
example : ∃ r, mk .globalTimes (.list [1, 2, 3]) = .ok r ∧ r.timing = .globalTimes ∧ r.points.Pairwise (· ≤ ·) ∧
    ([1, 2, 3] : List ℝ).Pairwise (· ≤ ·) ∧ OnePerIncrement r.points [1, 2, 3] := by
  refine ⟨_, rfl, rfl, by norm_num, by norm_num, ?_⟩
  intro i h
  simp only [List.length_cons, List.length_nil] at h
  interval_cases i <;> norm_num [List.filter]

/-- C17: the empty list of global times is rejected, every other is accepted. -/
theorem C17_global_times_constructor (l : List ℝ) : (∃ r, mk .globalTimes (.list l) = .ok r) ↔ l ≠ [] := by
  cases l <;> simp [mk]

example : ∃ r, mk .globalTimes (.list [1, 2]) = .ok r := (C17_global_times_constructor _).mpr (by simp)

/-! ## C62: outputs at a time interval -/

open Classical in
/-- Answers of a time interval request waiting for the time `nx`. -/
noncomputable def tfires (dt : ℝ) : ℝ → List ℝ → List Bool
  | _, [] => []
  | nx, q :: qs => if nx ≤ q then true :: tfires dt (nx + dt) qs else false :: tfires dt nx qs

lemma run_time (maxT : ℝ) (qs : List ℝ) : ∀ (r : Req) (nx : ℝ), r.timing = .timeInterval → r.next = some nx →
    (run r (qs.map fun q => .query q maxT)).1 = tfires r.interval nx qs := by
  induction qs with
  | nil => intro r nx _ _; simp [run, tfires]
  | cons q qs ih =>
    intro r nx ht hn
    simp only [List.map_cons, run, isActive, ht, hn]
    by_cases h : nx ≤ q
    · simp only [h, if_true, tfires]
      congr 1
      rw [ih _ (nx + r.interval) rfl rfl]
    · simp only [h, if_false, tfires]
      congr 1
      exact ih r nx ht hn

lemma run_step_time (r : Req) (hm : r.timing = .timeInterval) (s maxT : ℝ) (qs : List ℝ) :
    (run r (.newStep s :: qs.map fun q => .query q maxT)).1 = tfires r.interval s qs := by
  have : (run r (.newStep s :: qs.map fun q => .query q maxT)).1 = (run (newStep r s) (qs.map fun q => .query q maxT)).1 := rfl
  rw [this, run_time maxT qs (newStep r s) s (by simp [newStep, hm]) (by simp [newStep, hm])]
  simp [newStep, hm]

lemma tfires_le (dt : ℝ) (hdt : 0 < dt) (s : ℝ) (qs : List ℝ) : ∀ (m : ℕ) (i : ℕ) (h : i < qs.length), qs.Pairwise (· ≤ ·) →
    (∀ q ∈ qs, s + m * dt - dt ≤ q) →
    s + (m + ((tfires dt (s + m * dt) qs).take (i + 1)).count true : ℕ) * dt - dt ≤ qs[i] := by
  induction qs with
  | nil => intro m i h; simp at h
  | cons q qs ih =>
    intro m i h hq hm
    rw [List.pairwise_cons] at hq
    by_cases hf : s + m * dt ≤ q
    · rw [tfires, if_pos hf]
      cases i with
      | zero => simp; linarith
      | succ i =>
        have e : s + (m : ℝ) * dt + dt = s + ((m + 1 : ℕ) : ℝ) * dt := by push_cast; ring
        have := ih (m + 1) i (by simpa using h) hq.2 (fun x hx => by
          have := hq.1 x hx
          push_cast; linarith)
        rw [e]
        simp only [List.take_succ_cons, List.count_cons_self, List.getElem_cons_succ]
        rw [show m + (List.count true (List.take (i + 1) (tfires dt (s + ((m + 1 : ℕ) : ℝ) * dt) qs)) + 1) =
          m + 1 + List.count true (List.take (i + 1) (tfires dt (s + ((m + 1 : ℕ) : ℝ) * dt) qs)) by ring]
        exact this
    · rw [tfires, if_neg hf]
      cases i with
      | zero => simpa using hm q (by simp)
      | succ i =>
        have := ih m i (by simpa using h) hq.2 (fun x hx => hm x (List.mem_cons_of_mem _ hx))
        simpa using this

lemma tfires_ge (dt : ℝ) (s : ℝ) (qs : List ℝ) : ∀ (m : ℕ) (prev : ℝ) (i : ℕ) (h : i < qs.length), prev < s + m * dt →
    (prev :: qs).IsChain (fun a b => b - a ≤ dt) →
    qs[i] < s + (m + ((tfires dt (s + m * dt) qs).take (i + 1)).count true : ℕ) * dt := by
  induction qs with
  | nil => intro m prev i h; simp at h
  | cons q qs ih =>
    intro m prev i h hp hc
    rw [List.isChain_cons_cons] at hc
    by_cases hf : s + m * dt ≤ q
    · rw [tfires, if_pos hf]
      cases i with
      | zero => simp; linarith [hc.1]
      | succ i =>
        have e : s + (m : ℝ) * dt + dt = s + ((m + 1 : ℕ) : ℝ) * dt := by push_cast; ring
        have := ih (m + 1) q i (by simpa using h) (by push_cast; linarith [hc.1]) hc.2
        rw [e]
        simp only [List.take_succ_cons, List.count_cons_self, List.getElem_cons_succ]
        rw [show m + (List.count true (List.take (i + 1) (tfires dt (s + ((m + 1 : ℕ) : ℝ) * dt) qs)) + 1) =
          m + 1 + List.count true (List.take (i + 1) (tfires dt (s + ((m + 1 : ℕ) : ℝ) * dt) qs)) by ring]
        exact this
    · rw [tfires, if_neg hf]
      cases i with
      | zero => simpa using not_le.mp hf
      | succ i =>
        have := ih m q i (by simpa using h) (not_le.mp hf) hc.2
        simpa using this

/-- C62 (partial): up to any time of a step that starts at `s` there are at most as many outputs as multiples of the interval
`dt` from the start on, the start itself included. -/
theorem C62_at_most_one_per_interval_partial (r : Req) (hm : r.timing = .timeInterval) (hdt : 0 < r.interval) (s maxT : ℝ)
    (qs : List ℝ) (hqs : qs.Pairwise (· ≤ ·)) (hs : ∀ q ∈ qs, s ≤ q) (i : ℕ) (h : i < qs.length) :
    (((run r (.newStep s :: qs.map fun q => .query q maxT)).1.take (i + 1)).count true : ℤ) ≤ ⌊(qs[i] - s) / r.interval⌋ + 1 := by
  rw [run_step_time r hm]
  have := tfires_le r.interval hdt s qs 0 i h hqs (fun q hq => by have := hs q hq; simp; linarith)
  simp only [Nat.cast_zero, zero_mul, add_zero, zero_add] at this
  rw [← sub_le_iff_le_add, Int.le_floor, le_div_iff₀ hdt]
  push_cast
  linarith

/-- C62 (partial): if no increment is longer than the interval, and the first one shorter, there are exactly that many. -/
theorem C62_every_interval_honoured_partial (r : Req) (hm : r.timing = .timeInterval) (hdt : 0 < r.interval) (s maxT : ℝ)
    (qs : List ℝ) (hqs : qs.Pairwise (· ≤ ·)) (hs : ∀ q ∈ qs, s ≤ q) (hstep : qs.IsChain (fun a b => b - a ≤ r.interval))
    (hfirst : ∀ q ∈ qs.head?, q < s + r.interval) (i : ℕ) (h : i < qs.length) :
    (((run r (.newStep s :: qs.map fun q => .query q maxT)).1.take (i + 1)).count true : ℤ) = ⌊(qs[i] - s) / r.interval⌋ + 1 := by
  apply le_antisymm (C62_at_most_one_per_interval_partial r hm hdt s maxT qs hqs hs i h)
  rw [run_step_time r hm]
  cases qs with
  | nil => simp at h
  | cons q0 qs =>
    have h0 : q0 < s + r.interval := hfirst q0 (by simp)
    have := tfires_ge r.interval s (q0 :: qs) 0 (q0 - r.interval) i h (by simp; linarith)
      (List.isChain_cons_cons.mpr ⟨by linarith, hstep⟩)
    simp only [Nat.cast_zero, zero_mul, add_zero, zero_add] at this
    have hlt : ⌊((q0 :: qs)[i] - s) / r.interval⌋ < ((((tfires r.interval s (q0 :: qs)).take (i + 1)).count true : ℕ) : ℤ) := by
      rw [Int.floor_lt, div_lt_iff₀ hdt]
      push_cast
      linarith
    omega

/-- C62, negation: the first increment of a step always writes an output, also when it is shorter than the interval, so that the
documented times (multiples of the interval after the start of the step) are not the ones used. -/
theorem C62_first_increment_always_written (r : Req) (hm : r.timing = .timeInterval) (s maxT q : ℝ) (hq : s ≤ q) (qs : List ℝ) :
    (run r (.newStep s :: (q :: qs).map fun q => .query q maxT)).1[0]? = some true := by
  rw [run_step_time r hm]
  simp [tfires, hq]

/-- Interval 1/4 in a step from 2 with increments of 1/10 (`C62_at_most_one_per_interval_partial`, `C62_every_interval_honoured_partial`). -/
example : let r : Req := ⟨.timeInterval, 1 / 4, 0, 0, [], [], some 0, 0, none⟩
    mk .timeInterval (.num (1 / 4)) = .ok r ∧ 0 < r.interval ∧ ([2.1, 2.2, 2.3] : List ℝ).Pairwise (· ≤ ·) ∧
    (∀ q ∈ ([2.1, 2.2, 2.3] : List ℝ), 2 ≤ q) ∧ ([2.1, 2.2, 2.3] : List ℝ).IsChain (fun a b => b - a ≤ r.interval) ∧
    (∀ q ∈ ([2.1, 2.2, 2.3] : List ℝ).head?, q < 2 + r.interval) := by
  refine ⟨rfl, ?_, ?_, ?_, ?_, ?_⟩ <;> norm_num

end Verif.Outputs
