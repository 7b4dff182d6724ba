import Verif.LubStep.Lemmas
import Mathlib.Tactic.NormNum
import Mathlib.Algebra.BigOperators.Fin
import Mathlib.Algebra.Order.BigOperators.Group.Finset
import Mathlib.Tactic.FinCases

/-!
# The lubrication step (C103-C106)
-/

namespace Verif.LubStep

open Verif

variable {ι L M : Type} [Fintype ι]

/-! ## Specification -/

/-- The entries of a state fit together: the pressure is the solver's pressure in units, the displacement is that of the pressure, the gap is the just touching gap plus the
displacement minus the interference, and the load is the sum of the pressures times the area of a node. -/
structure Fits (S : Solver ι L M) (w : World ι) (spacing : ℝ) (c : Current ι L M) : Prop where
  pressure : ∀ j, c.pressure j = S.dimP (c.ndP j)
  displacement : c.displacement = w.total c.pressure
  displacement1 : c.displacement1 = w.first c.pressure
  displacement2 : c.displacement2 = w.second c.pressure
  gap : ∀ j, c.gap j = w.gap j + c.displacement j - c.interference
  ndGap : ∀ j, c.ndGap j = S.ndG (c.gap j)
  load : c.totalLoad = (∑ j, c.pressure j) * (spacing * spacing)

/-- A pressure `p` (without units) and an interference solve the coupled problem up to the relative tolerance `rtol`: solving Reynolds equation for the gap that the pressure itself
makes (with some entries of the lubricant and of the solver) changes the pressure by less than that, to `new`. -/
def Balanced (S : Solver ι L M) (w : World ι) (rtol interference : ℝ) (p new : ι → ℝ) : Prop :=
  ∃ m e, new = (S.solve m p (fun j => S.ndG (w.gap j + w.total (fun i => S.dimP (p i)) j - interference)) e).1 ∧ ∑ j, |new j - p j| < rtol * ∑ j, p j

/-! ## C103: the states of a lubrication step -/

/-- All states fit together, converged or not; the entries of the lubricant are those for the pressure and the gap of the state. -/
theorem C103_fits (a : Args ι) (prev : Previous ι) (E : Env ι L M) {cs : List (Current ι L M)} (h : run a prev E = .ok cs) :
    ∃ qs, Interp.run .real a.quantities prev.quantities = .ok qs ∧ cs.length = qs.length ∧
      ∀ (k : ℕ) c, cs[k]? = some c → ∃ q, qs[k]? = some q ∧ Fits (E.solver k q.rolling) (E.world k q.offSet) a.params.spacing c ∧
        c.extras = E.lubricant (E.world k q.offSet) c.ndP (some c.gap) := by
  obtain ⟨-, -, qs, hqs, hlen, -, hk⟩ := run_get h
  refine ⟨qs, hqs, hlen, fun k c hc => ?_⟩
  obtain ⟨q, hq, rfl⟩ := hk k c hc
  refine ⟨q, hq, ?_⟩
  generalize startOf _ cs k = g
  obtain ⟨last, -, hlast, -⟩ := loop_induct (E.solver k q.rolling) (E.world k q.offSet) (E.lubricant (E.world k q.offSet)) a.params (loadOf a q) (fun _ => True) (fun _ _ => trivial)
    (a.params.maxIt + 1).toNat (first (E.solver k q.rolling) (E.world k q.offSet) (E.lubricant (E.world k q.offSet)) g) trivial
  refine ⟨?_, by simp only [record, hlast]; rfl⟩
  constructor
  · intro j
    simp only [record, hlast]
    rfl
  · simp only [record, hlast]
    rfl
  · rfl
  · rfl
  · intro j
    simp only [record, hlast]
    rfl
  · intro j
    rfl
  · simp only [record, totalLoad, pow_two]

/-- A converged state: in load control the load is within the tolerance, and the pressure is the relaxed (and limited) step from a pressure that solves the coupled problem up to the
tolerance at the interference of the state. -/
theorem C103_converged (a : Args ι) (prev : Previous ι) (E : Env ι L M) {cs : List (Current ι L M)} (h : run a prev E = .ok cs) (hr : a.params.rtol ≤ 1)
    (hu : ∀ k v x, (E.solver k v).dimP ((E.solver k v).ndP x) = x) :
    ∃ qs, Interp.run .real a.quantities prev.quantities = .ok qs ∧ cs.length = qs.length ∧
      ∀ (k : ℕ) c, cs[k]? = some c → c.converged = true → ∃ q, qs[k]? = some q ∧
        (a.quantities.load ≠ .none → ∃ l, q.load = some l ∧ |c.totalLoad / l - 1| < a.params.rtol) ∧
        ∃ p new, Balanced (E.solver k q.rolling) (E.world k q.offSet) a.params.rtol c.interference p new ∧
          ∀ j, c.ndP j = match a.params.maxP with
            | none => p j + a.params.relax * (new j - p j)
            | some m => min (p j + a.params.relax * (new j - p j)) m := by
  obtain ⟨-, -, qs, hqs, hlen, -, hk⟩ := run_get h
  refine ⟨qs, hqs, hlen, fun k c hc hconv => ?_⟩
  obtain ⟨q, hq, rfl⟩ := hk k c hc
  refine ⟨q, hq, ?_⟩
  generalize startOf _ cs k = g at hconv ⊢
  have hload : a.quantities.load ≠ .none → ∃ l, q.load = some l := by
    have hmem := List.mem_of_getElem? hq
    exact (Quasi.controlled (N := Unit) (a := ⟨a.quantities, false, false, 0, 0⟩) (prev := ⟨0, prev.quantities, none⟩) hqs q hmem).2
  obtain ⟨last, hI, hlast, hok⟩ := loop_induct (E.solver k q.rolling) (E.world k q.offSet) (E.lubricant (E.world k q.offSet)) a.params (loadOf a q)
    (fun l => (∃ j, l.ndP j ≠ 0) → ∀ j, l.gap j = (E.world k q.offSet).gap j + (E.world k q.offSet).total (fun i => (E.solver k q.rolling).dimP (l.ndP i)) j - l.interference)
    (by
      intro last _ _ j
      unfold adjust
      split <;> rfl)
    (a.params.maxIt + 1).toNat (first (E.solver k q.rolling) (E.world k q.offSet) (E.lubricant (E.world k q.offSet)) g)
    (by
      intro ⟨j0, hj0⟩ j
      have hne : ¬ ∀ i, (E.solver k q.rolling).ndP (g.2 i) = 0 := fun hall => hj0 (hall j0)
      simp only [first, if_neg hne, hu])
  have hc' : (loop (E.solver k q.rolling) (E.world k q.offSet) (E.lubricant (E.world k q.offSet)) a.params (loadOf a q) (a.params.maxIt + 1).toNat
        (first (E.solver k q.rolling) (E.world k q.offSet) (E.lubricant (E.world k q.offSet)) g)).2.1 = true := hconv
  obtain ⟨hp, hl⟩ := hok.1 hc'
  refine ⟨fun hne => ?_, last.ndP, (reynolds (E.solver k q.rolling) last).1, ?_, ?_⟩
  · obtain ⟨l, hl'⟩ := hload hne
    refine ⟨l, hl', ?_⟩
    have : loadOf a q = some l := by
      unfold loadOf
      split
      · exact absurd (by assumption) hne
      · exact hl'
    rw [this] at hl
    have htot : (record a prev E k q g).totalLoad = totalLoad a.params (iterate (E.solver k q.rolling) (E.world k q.offSet) (E.lubricant (E.world k q.offSet)) a.params last).p := by
      simp only [record, hlast]
    rw [htot]
    simpa [loadOk] using hl
  · have hp' : pressureError last.ndP (reynolds (E.solver k q.rolling) last).1 < a.params.rtol := by simpa [pressureOk] using hp
    unfold pressureError at hp'
    split_ifs at hp' with hpos
    · have hex : ∃ j, last.ndP j ≠ 0 := by
        by_contra hall
        push Not at hall
        simp [hall] at hpos
      have hg := hI hex
      refine ⟨last.memory, last.extras, ?_, ?_⟩
      · have hint : (record a prev E k q g).interference = last.interference := by
          simp only [record, hlast]
          rfl
        rw [hint]
        unfold reynolds
        simp only [hg]
      · rwa [div_lt_iff₀ hpos] at hp'
    · linarith
  · intro j
    simp only [record, hlast]
    unfold iterate clip
    cases a.params.maxP <;> rfl

/-- A state that is not converged: in the last iteration the relative change of the pressure was not below the tolerance, or the load of the state is not within the tolerance of the one set. Without a set load only the former. -/
theorem C103_not_converged (a : Args ι) (prev : Previous ι) (E : Env ι L M) {cs : List (Current ι L M)} (h : run a prev E = .ok cs) :
    ∃ qs, Interp.run .real a.quantities prev.quantities = .ok qs ∧ cs.length = qs.length ∧
      ∀ (k : ℕ) c, cs[k]? = some c → c.converged = false → ∃ q, qs[k]? = some q ∧ ((a.quantities.load ≠ .none ∧ ∃ l, q.load = some l ∧ a.params.rtol ≤ |c.totalLoad / l - 1|) ∨
        ∃ p new, (0 < ∑ j, p j → a.params.rtol * ∑ j, p j ≤ ∑ j, |new j - p j|) ∧ (∑ j, p j ≤ 0 → a.params.rtol ≤ 1) ∧ (∃ m gap e, new = ((E.solver k q.rolling).solve m p gap e).1) ∧
          ∀ j, c.ndP j = match a.params.maxP with
            | none => p j + a.params.relax * (new j - p j)
            | some m => min (p j + a.params.relax * (new j - p j)) m) := by
  obtain ⟨-, -, qs, hqs, hlen, -, hk⟩ := run_get h
  refine ⟨qs, hqs, hlen, fun k c hc hconv => ?_⟩
  obtain ⟨q, hq, rfl⟩ := hk k c hc
  refine ⟨q, hq, ?_⟩
  generalize startOf _ cs k = g at hconv ⊢
  obtain ⟨last, -, hlast, hok⟩ := loop_induct (E.solver k q.rolling) (E.world k q.offSet) (E.lubricant (E.world k q.offSet)) a.params (loadOf a q) (fun _ => True) (fun _ _ => trivial)
    (a.params.maxIt + 1).toNat (first (E.solver k q.rolling) (E.world k q.offSet) (E.lubricant (E.world k q.offSet)) g) trivial
  have hc' : (loop (E.solver k q.rolling) (E.world k q.offSet) (E.lubricant (E.world k q.offSet)) a.params (loadOf a q) (a.params.maxIt + 1).toNat
        (first (E.solver k q.rolling) (E.world k q.offSet) (E.lubricant (E.world k q.offSet)) g)).2.1 = false := hconv
  rw [← Bool.not_eq_true, hok, not_and_or] at hc'
  rcases hc' with hp | hl
  · right
    refine ⟨last.ndP, (reynolds (E.solver k q.rolling) last).1, fun hpos => ?_, fun hn => ?_, ⟨_, _, _, rfl⟩, fun j => ?_⟩
    · simp only [pressureOk, decide_eq_true_eq, pressureError, if_pos hpos, not_lt] at hp
      rwa [le_div_iff₀ hpos] at hp
    · simpa only [pressureOk, decide_eq_true_eq, pressureError, if_neg (not_lt.2 hn), not_lt] using hp
    · simp only [record, hlast]
      unfold iterate clip
      cases a.params.maxP <;> rfl
  · left
    have hne : a.quantities.load ≠ .none := by
      intro e
      simp [loadOf, e, loadOk] at hl
    have hmem := List.mem_of_getElem? hq
    obtain ⟨l, hl'⟩ := (Quasi.controlled (N := Unit) (a := ⟨a.quantities, false, false, 0, 0⟩) (prev := ⟨0, prev.quantities, none⟩) hqs q hmem).2 hne
    have : loadOf a q = some l := by
      unfold loadOf
      split
      · exact absurd (by assumption) hne
      · exact hl'
    rw [this] at hl
    refine ⟨hne, l, hl', ?_⟩
    have htot : (record a prev E k q g).totalLoad = totalLoad a.params (iterate (E.solver k q.rolling) (E.world k q.offSet) (E.lubricant (E.world k q.offSet)) a.params last).p := by
      simp only [record, hlast]
    rw [htot]
    simpa [loadOk] using hl

/-- The pressure is never above the largest pressure of the materials. -/
theorem C103_limit (a : Args ι) (prev : Previous ι) (E : Env ι L M) {cs : List (Current ι L M)} (h : run a prev E = .ok cs) {m : ℝ} (hm : a.params.maxP = some m) :
    ∀ c ∈ cs, ∀ j, c.ndP j ≤ m := by
  obtain ⟨-, -, qs, -, -, -, hk⟩ := run_get h
  intro c hc j
  obtain ⟨k, hc⟩ := List.mem_iff_getElem?.1 hc
  obtain ⟨q, -, rfl⟩ := hk k c hc
  generalize startOf _ cs k = g
  obtain ⟨last, -, hlast, -⟩ := loop_induct (E.solver k q.rolling) (E.world k q.offSet) (E.lubricant (E.world k q.offSet)) a.params (loadOf a q) (fun _ => True) (fun _ _ => trivial)
    (a.params.maxIt + 1).toNat (first (E.solver k q.rolling) (E.world k q.offSet) (E.lubricant (E.world k q.offSet)) g) trivial
  simp only [record, hlast, iterate, hm]
  exact clip_le

/-- The number of times Reynolds equation is solved in an increment: at most two more than `max_it_pressure`, exactly that many if it does not converge. -/
theorem C103_iterations (a : Args ι) (prev : Previous ι) (E : Env ι L M) {cs : List (Current ι L M)} (h : run a prev E = .ok cs) (hm : 0 ≤ a.params.maxIt) :
    ∀ c ∈ cs, 1 ≤ c.iterations ∧ (c.iterations : ℤ) ≤ a.params.maxIt + 2 ∧ (c.converged = false → (c.iterations : ℤ) = a.params.maxIt + 2) := by
  obtain ⟨-, -, qs, -, -, -, hk⟩ := run_get h
  intro c hc
  obtain ⟨k, hc⟩ := List.mem_iff_getElem?.1 hc
  obtain ⟨q, -, rfl⟩ := hk k c hc
  generalize startOf _ cs k = g
  obtain ⟨h1, h2, h3⟩ := loop_count (E.solver k q.rolling) (E.world k q.offSet) (E.lubricant (E.world k q.offSet)) a.params (loadOf a q) (a.params.maxIt + 1).toNat
    (first (E.solver k q.rolling) (E.world k q.offSet) (E.lubricant (E.world k q.offSet)) g)
  refine ⟨h1, ?_, fun hc => ?_⟩
  · show ((loop _ _ _ _ _ _ _).2.2 : ℤ) ≤ _
    omega
  · show ((loop _ _ _ _ _ _ _).2.2 : ℤ) = _
    rw [h3 hc]
    omega

/-! ## C104: times, refused steps and what is set -/

/-- There is a state for each increment, at the end of its part of the time period. -/
theorem C104_times (a : Args ι) (prev : Previous ι) (E : Env ι L M) {cs : List (Current ι L M)} (h : run a prev E = .ok cs) :
    cs.length = a.quantities.steps ∧ ∀ (k : ℕ) c, cs[k]? = some c → c.time = prev.time + a.period * (k + 1) / a.quantities.steps ∧ c.timeStep = a.period / a.quantities.steps := by
  obtain ⟨-, -, qs, -, hlen, hlen', hk⟩ := run_get h
  refine ⟨hlen.trans hlen', fun k c hc => ?_⟩
  obtain ⟨q, -, rfl⟩ := hk k c hc
  refine ⟨?_, rfl⟩
  simp only [record]
  ring

/-- A step runs if and only if its relaxation factor is in (0, 1] and its quantities can be evaluated. -/
theorem C104_runs_iff (a : Args ι) (prev : Previous ι) (E : Env ι L M) :
    (∃ cs, run a prev E = .ok cs) ↔ 0 < a.params.relax ∧ a.params.relax ≤ 1 ∧ ∃ qs, Interp.run .real a.quantities prev.quantities = .ok qs := by
  rw [run_chain]
  constructor
  · rintro ⟨cs, h⟩
    split_ifs at h with hr
    push Not at hr
    refine ⟨hr.1, hr.2, ?_⟩
    cases hq : Interp.run .real a.quantities prev.quantities with
    | error e => rw [hq] at h; cases h
    | ok qs => exact ⟨qs, rfl⟩
  · rintro ⟨h1, h2, qs, hq⟩
    rw [if_neg (by push Not; exact ⟨h1, h2⟩), hq]
    exact ⟨_, rfl⟩

/-- Not as documented: in displacement control the interference stays that of the state before the step, whatever interference is set. -/
theorem C104_interference_wrong (a : Args ι) (prev : Previous ι) (E : Env ι L M) {cs : List (Current ι L M)} (h : run a prev E = .ok cs) (hl : a.quantities.load = .none) :
    ∀ c ∈ cs, c.interference = prev.interference.getD 0 := by
  obtain ⟨-, -, qs, -, -, -, hk⟩ := run_get h
  have key : ∀ (k : ℕ) c, cs[k]? = some c → c.interference = prev.interference.getD 0 := by
    intro k
    induction k with
    | zero =>
      intro c hc
      obtain ⟨q, -, rfl⟩ := hk 0 c hc
      have hn : loadOf a q = none := by unfold loadOf; rw [hl]
      simp only [record, hn, loop_interference]
      rfl
    | succ k ih =>
      intro c hc
      obtain ⟨q, -, rfl⟩ := hk (k + 1) c hc
      have hn : loadOf a q = none := by unfold loadOf; rw [hl]
      have hk' : k < cs.length := by
        have := (List.getElem?_eq_some_iff.1 hc).1
        omega
      simp only [record, hn, loop_interference, first, startOf, List.getElem?_eq_getElem hk']
      exact ih _ (List.getElem?_eq_getElem hk')
  intro c hc
  obtain ⟨k, hc⟩ := List.mem_iff_getElem?.1 hc
  exact key k c hc

/-- Setting the interference of the quantities of an increment. -/
def withInterference (y : ℝ) (q : Interp.Quantities ℝ) : Interp.Quantities ℝ := { q with interference := some y }

theorem increments_with (st st' : Interp.Step ℝ) (y : ℝ) (h : st.interferenceUpd = none) (h1 : st'.offUpd = st.offUpd) (h2 : st'.loadUpd = st.loadUpd) (h3 : st'.interferenceUpd = none)
    (h4 : st'.rollingUpd = st.rollingUpd) (h5 : st'.relative = st.relative) (h6 : st'.steps = st.steps) (prev : Interp.Previous ℝ) :
    ∀ (todo i : Nat) (q : Interp.Quantities ℝ), Interp.increments .real st' prev todo i (withInterference y q) = (Interp.increments .real st prev todo i q).map (List.map (withInterference y)) := by
  intro todo
  induction todo with
  | zero => intro i q; rfl
  | succ n ih =>
    intro i q
    have hu : Interp.updateMovement .real st' prev (withInterference y q) (Interp.relativeTime .real st'.steps i) =
        (Interp.updateMovement .real st prev q (Interp.relativeTime .real st.steps i)).map (withInterference y) := by
      unfold Interp.updateMovement
      rw [h, h1, h2, h3, h4, h5, h6]
      simp only [withInterference]
      cases Interp.updateOffSet .real st.relative (some (prev.offSet.getD (Interp.Arith.real.zero, Interp.Arith.real.zero))) st.offUpd q.offSet (Interp.relativeTime .real st.steps i) with
      | error e => rfl
      | ok o =>
        cases Interp.updateOne .real st.relative (some (prev.load.getD Interp.Arith.real.zero)) st.loadUpd q.load (Interp.relativeTime .real st.steps i) with
        | error e => rfl
        | ok l =>
          cases Interp.updateOne .real st.relative none st.rollingUpd q.rolling (Interp.relativeTime .real st.steps i) <;> rfl
    rw [Interp.increments, Interp.increments, hu]
    cases Interp.updateMovement .real st prev q (Interp.relativeTime .real st.steps i) with
    | error e => rfl
    | ok q' =>
      simp only [Except.map, ih]
      cases Interp.increments .real st prev n (i + 1) q' <;> rfl

/-- Not as documented: steps with different set interferences give the same states. -/
theorem C104_set_interference_wrong (a : Args ι) (prev : Previous ι) (E : Env ι L M) (hl : a.quantities.load = .none) (x y : ℝ) :
    run { a with quantities := { a.quantities with interference := .number x } } prev E = run { a with quantities := { a.quantities with interference := .number y } } prev E := by
  have hchain : ∀ (qs : List (Interp.Quantities ℝ)) (i : Nat) (g : ℝ × (ι → ℝ)), chain { a with quantities := { a.quantities with interference := .number y } } prev E i (qs.map (withInterference y)) g =
      chain { a with quantities := { a.quantities with interference := .number x } } prev E i qs g := by
    intro qs
    induction qs with
    | nil => intro i g; rfl
    | cons q qs ih =>
      intro i g
      have hr : record { a with quantities := { a.quantities with interference := .number y } } prev E i (withInterference y q) g =
          record { a with quantities := { a.quantities with interference := .number x } } prev E i q g := by
        simp only [record, loadOf, hl, withInterference]
      simp only [List.map_cons, chain, hr, ih]
  have hrun : Interp.run .real { a.quantities with interference := .number y } prev.quantities =
      (Interp.run .real { a.quantities with interference := .number x } prev.quantities).map (List.map (withInterference y)) := by
    unfold Interp.run Interp.init
    simp only [Interp.initInterference, hl, Interp.numberOrUpd]
    by_cases h0 : a.quantities.steps = 0
    · simp only [if_pos h0]
      rfl
    · simp only [if_neg h0]
      have ho : Interp.initOffSet .real ⟨a.quantities.offX, a.quantities.offY, .none, .number y, a.quantities.rolling, a.quantities.relative, a.quantities.noTime, a.quantities.steps⟩ =
          Interp.initOffSet .real ⟨a.quantities.offX, a.quantities.offY, .none, .number x, a.quantities.rolling, a.quantities.relative, a.quantities.noTime, a.quantities.steps⟩ := rfl
      rw [ho]
      cases Interp.initOffSet .real ⟨a.quantities.offX, a.quantities.offY, .none, .number x, a.quantities.rolling, a.quantities.relative, a.quantities.noTime, a.quantities.steps⟩ with
      | error e => rfl
      | ok o =>
        cases Interp.initRolling .real a.quantities.rolling with
        | error e => rfl
        | ok r =>
          exact increments_with ⟨⟨o.1, none, some x, r.1⟩, o.2, none, none, r.2, a.quantities.relative, a.quantities.steps⟩ ⟨⟨o.1, none, some y, r.1⟩, o.2, none, none, r.2, a.quantities.relative, a.quantities.steps⟩
            y rfl rfl rfl rfl rfl rfl rfl prev.quantities a.quantities.steps 0 ⟨o.1, none, some x, r.1⟩
  rw [run_chain, run_chain]
  dsimp only
  rw [hrun]
  split_ifs
  · rfl
  · cases Interp.run .real { a.quantities with interference := .number x } prev.quantities with
    | error e => rfl
    | ok qs => simp only [Except.map, hchain]

/-- Not as documented: the initial guess changes nothing. -/
theorem C104_guess_wrong (a : Args ι) (guess : Option (ℝ × (ι → ℝ))) (prev : Previous ι) (E : Env ι L M) : run { a with guess := guess } prev E = run a prev E := by
  rw [run_chain, run_chain]
  have : ∀ (qs : List (Interp.Quantities ℝ)) (i : Nat) (g : ℝ × (ι → ℝ)), chain { a with guess := guess } prev E i qs g = chain a prev E i qs g := by
    intro qs
    induction qs with
    | nil => intro i g; rfl
    | cons q qs ih => intro i g; simp only [chain, ih]; rfl
  simp only [this]

/-- In load control, an iteration that is followed by another one moves the surfaces together if and only if the load is too small, apart if and only if it is too large, and the gap
moves with them. -/
theorem C104_moves (S : Solver ι L M) (w : World ι) (pr : Params) (this : It ι L M) {l : ℝ} (hl : 0 < l) (hg : StrictMono S.dimG) (hi : S.dimG this.ndInterference = this.interference)
    (hf : ∀ j, this.gap j = w.gap j + this.disp j - this.interference) :
    (this.interference < (adjust S w pr (some l) this).interference ↔ (∑ j, this.p j) * pr.spacing ^ 2 < l) ∧
    ((adjust S w pr (some l) this).interference < this.interference ↔ l < (∑ j, this.p j) * pr.spacing ^ 2) ∧
    ∀ j, (adjust S w pr (some l) this).gap j - this.gap j = this.interference - (adjust S w pr (some l) this).interference := by
  refine ⟨?_, ?_, ?_⟩
  · simp only [adjust, ← hi]
    rw [hg.lt_iff_lt, totalLoad, lt_sub_iff_add_lt, ← lt_sub_iff_add_lt', sub_self]
    constructor
    · intro h
      have : (∑ j, this.p j) * pr.spacing ^ 2 / l < 1 := by linarith
      rwa [div_lt_one hl] at this
    · intro h
      rw [← div_lt_one hl] at h
      linarith
  · simp only [adjust, ← hi]
    rw [hg.lt_iff_lt, totalLoad]
    constructor
    · intro h
      have : 1 < (∑ j, this.p j) * pr.spacing ^ 2 / l := by linarith
      rwa [one_lt_div hl] at this
    · intro h
      rw [← one_lt_div hl] at h
      linarith
  · intro j
    simp only [adjust, hf]
    ring

/-! ## C105: the gap of the last time step -/

/-- What a solver that keeps the gap of its first call has kept. -/
theorem kept (a : Args ι) (prev : Previous ι) (world : Nat → Option (ℝ × ℝ) → World ι) (lub : World ι → (ι → ℝ) → Option (ι → ℝ) → L)
    (equation : Option ℝ → (ι → ℝ) × L → (ι → ℝ) → (ι → ℝ) → L → ι → ℝ) (dimP ndP dimG ndG : ℝ → ℝ) (k : Nat) (q : Interp.Quantities ℝ) (g : ℝ × (ι → ℝ)) :
    (record a prev ⟨world, fun _ v => keeping (equation v) dimP ndP dimG ndG, lub⟩ k q g).memory.map Prod.fst =
      some (fun j => ndG ((first (keeping (equation q.rolling) dimP ndP dimG ndG) (world k q.offSet) (lub (world k q.offSet)) g).gap j)) := by
  obtain ⟨last, hI, hlast, -⟩ := loop_induct (keeping (equation q.rolling) dimP ndP dimG ndG) (world k q.offSet) (lub (world k q.offSet)) a.params (loadOf a q)
    (fun l => (l.memory = none ∧ l.gap = (first (keeping (equation q.rolling) dimP ndP dimG ndG) (world k q.offSet) (lub (world k q.offSet)) g).gap) ∨
      l.memory.map Prod.fst = some (fun j => ndG ((first (keeping (equation q.rolling) dimP ndP dimG ndG) (world k q.offSet) (lub (world k q.offSet)) g).gap j)))
    (by
      intro last hI
      right
      have : (adjust (keeping (equation q.rolling) dimP ndP dimG ndG) (world k q.offSet) a.params (loadOf a q)
          (iterate (keeping (equation q.rolling) dimP ndP dimG ndG) (world k q.offSet) (lub (world k q.offSet)) a.params last)).memory =
            some (reynolds (keeping (equation q.rolling) dimP ndP dimG ndG) last).2 := by
        unfold adjust
        split <;> rfl
      rw [this]
      rcases hI with ⟨h1, h2⟩ | h
      · simp only [reynolds, keeping, h1, h2, Option.getD_none, Option.map_some]
      · cases hm : last.memory with
        | none => rw [hm] at h; cases h
        | some m =>
          rw [hm] at h
          simp only [reynolds, keeping, hm, Option.getD_some, Option.map_some] at h ⊢
          exact h)
    (a.params.maxIt + 1).toNat (first (keeping (equation q.rolling) dimP ndP dimG ndG) (world k q.offSet) (lub (world k q.offSet)) g) (Or.inl ⟨rfl, rfl⟩)
  simp only [record, hlast, iterate]
  rcases hI with ⟨h1, h2⟩ | h
  · simp only [reynolds, keeping, h1, h2, Option.getD_none, Option.map_some]
  · cases hm : last.memory with
    | none => rw [hm] at h; cases h
    | some m =>
      rw [hm] at h
      simp only [reynolds, keeping, hm, Option.getD_some, Option.map_some] at h ⊢
      exact h

/-- The gap of the "last time step" that the Reynolds solver uses in an increment is the gap of the surfaces at their *new* place, with the displacement and interference of the increment
before. -/
theorem C105_kept (a : Args ι) (prev : Previous ι) (world : Nat → Option (ℝ × ℝ) → World ι) (lub : World ι → (ι → ℝ) → Option (ι → ℝ) → L)
    (equation : Option ℝ → (ι → ℝ) × L → (ι → ℝ) → (ι → ℝ) → L → ι → ℝ) (dimP ndP dimG ndG : ℝ → ℝ) (hu : ∀ x, dimP (ndP x) = x) (h0 : dimP 0 = 0)
    (hw : ∀ k o, (world k o).total (fun _ => 0) = fun _ => 0) {cs : List (Current ι L ((ι → ℝ) × L))}
    (h : run a prev ⟨world, fun _ v => keeping (equation v) dimP ndP dimG ndG, lub⟩ = .ok cs) :
    ∃ qs, Interp.run .real a.quantities prev.quantities = .ok qs ∧ ∀ (k : ℕ) c c', cs[k]? = some c → cs[k + 1]? = some c' → ∃ q, qs[k + 1]? = some q ∧
      ∃ old e, c'.memory = some (old, e) ∧ ∀ j, old j = ndG ((world (k + 1) q.offSet).gap j + (world (k + 1) q.offSet).total c.pressure j - c.interference) := by
  obtain ⟨-, -, qs, hqs, -, -, hk⟩ := run_get h
  refine ⟨qs, hqs, fun k c c' hc hc' => ?_⟩
  obtain ⟨q, hq, rfl⟩ := hk (k + 1) c' hc'
  refine ⟨q, hq, ?_⟩
  have hs : startOf (prev.interference.getD 0, prev.pressure.getD (fun _ => 0)) cs (k + 1) = (c.interference, c.pressure) := by
    simp only [startOf, hc]
  rw [hs]
  have hkept := kept a prev world lub equation dimP ndP dimG ndG (k + 1) q (c.interference, c.pressure)
  cases hm : (record a prev ⟨world, fun _ v => keeping (equation v) dimP ndP dimG ndG, lub⟩ (k + 1) q (c.interference, c.pressure)).memory with
  | none => rw [hm] at hkept; cases hkept
  | some m =>
    rw [hm] at hkept
    refine ⟨m.1, m.2, rfl, fun j => ?_⟩
    simp only [Option.map_some, Option.some.injEq] at hkept
    rw [hkept]
    by_cases hz : ∀ i, ndP (c.pressure i) = 0
    · have : c.pressure = fun _ => 0 := by
        funext i
        rw [← hu (c.pressure i), hz i, h0]
      dsimp only
      rw [first_gap_zero _ _ _ _ hz, this, hw]
    · dsimp only
      rw [first_gap_ne _ _ _ _ hz]

/-- If the surfaces did not move, this is the gap of the increment before. -/
theorem C105_still_partial (a : Args ι) (prev : Previous ι) (world : Nat → Option (ℝ × ℝ) → World ι) (lub : World ι → (ι → ℝ) → Option (ι → ℝ) → L)
    (equation : Option ℝ → (ι → ℝ) × L → (ι → ℝ) → (ι → ℝ) → L → ι → ℝ) (dimP ndP dimG ndG : ℝ → ℝ) (hu : ∀ x, dimP (ndP x) = x) (h0 : dimP 0 = 0)
    (hw : ∀ k o, (world k o).total (fun _ => 0) = fun _ => 0) {cs : List (Current ι L ((ι → ℝ) × L))}
    (h : run a prev ⟨world, fun _ v => keeping (equation v) dimP ndP dimG ndG, lub⟩ = .ok cs)
    (hstill : ∀ k k' o o', (world k o).gap = (world k' o').gap ∧ (world k o).total = (world k' o').total) :
    ∀ (k : ℕ) c c', cs[k]? = some c → cs[k + 1]? = some c' → ∃ e, c'.memory = some (c.ndGap, e) := by
  obtain ⟨qs, hqs, hkept⟩ := C105_kept a prev world lub equation dimP ndP dimG ndG hu h0 hw h
  obtain ⟨qs', hqs', -, hfits⟩ := C103_fits a prev _ h
  intro k c c' hc hc'
  obtain ⟨q, hq, old, e, hm, hold⟩ := hkept k c c' hc hc'
  obtain ⟨q', hq', hf, -⟩ := hfits k c hc
  refine ⟨e, ?_⟩
  rw [hm]
  congr 2
  funext j
  rw [hold, hf.ndGap, hf.gap, hf.displacement, (hstill (k + 1) k q.offSet q'.offSet).1, (hstill (k + 1) k q.offSet q'.offSet).2]
  rfl

/-- Not as commented in the code: where the surfaces have moved it is not the gap of the last time step. -/
theorem C105_moved_wrong (a : Args ι) (prev : Previous ι) (world : Nat → Option (ℝ × ℝ) → World ι) (lub : World ι → (ι → ℝ) → Option (ι → ℝ) → L)
    (equation : Option ℝ → (ι → ℝ) × L → (ι → ℝ) → (ι → ℝ) → L → ι → ℝ) (dimP ndP dimG ndG : ℝ → ℝ) (hu : ∀ x, dimP (ndP x) = x) (h0 : dimP 0 = 0)
    (hinj : Function.Injective ndG) (hw : ∀ k o, (world k o).total (fun _ => 0) = fun _ => 0) {cs : List (Current ι L ((ι → ℝ) × L))}
    (h : run a prev ⟨world, fun _ v => keeping (equation v) dimP ndP dimG ndG, lub⟩ = .ok cs)
    (htotal : ∀ k k' o o', (world k o).total = (world k' o').total) :
    ∃ qs, Interp.run .real a.quantities prev.quantities = .ok qs ∧ ∀ (k : ℕ) c c' q q', cs[k]? = some c → cs[k + 1]? = some c' → qs[k]? = some q → qs[k + 1]? = some q' →
      ∀ j, (world k q.offSet).gap j ≠ (world (k + 1) q'.offSet).gap j → ∃ old e, c'.memory = some (old, e) ∧ old j ≠ c.ndGap j := by
  obtain ⟨qs, hqs, hkept⟩ := C105_kept a prev world lub equation dimP ndP dimG ndG hu h0 hw h
  obtain ⟨qs', hqs', -, hfits⟩ := C103_fits a prev _ h
  rw [hqs] at hqs'
  injection hqs' with hqs'
  subst hqs'
  refine ⟨qs, hqs, fun k c c' q q' hc hc' hq hq' j hj => ?_⟩
  obtain ⟨q1, hq1, old, e, hm, hold⟩ := hkept k c c' hc hc'
  obtain ⟨q2, hq2, hf, -⟩ := hfits k c hc
  rw [hq'] at hq1
  rw [hq] at hq2
  injection hq1 with hq1
  injection hq2 with hq2
  subst hq1 hq2
  refine ⟨old, e, hm, fun heq => hj ?_⟩
  rw [hold, hf.ndGap, hf.gap, hf.displacement, htotal (k + 1) k q'.offSet q.offSet] at heq
  have := hinj heq
  linarith

/-! ## C106: the interference by Regula Falsi -/

/-- If the interference were only adjusted when the pressure has converged: the first call works, each later one fails, also for other steps, as the lists belong to the class. -/
theorem C106_second_wrong (current error meanGap current' error' meanGap' : ℝ) :
    let s := (updateInterference ⟨[], []⟩ current error meanGap).1
    (updateInterference ⟨[], []⟩ current error meanGap).2 = .ok (if 0 < error then current - |meanGap| else if error < 0 then current + |meanGap| else current) ∧
    (updateInterference s current' error' meanGap').2 = .error .indexError := by
  constructor
  · simp only [updateInterference, List.nil_append, List.length_singleton, if_true]
    congr 1
    rcases lt_trichotomy error 0 with h | h | h
    · rw [Real.sign_of_neg h, if_neg (by linarith), if_pos h]
      ring
    · rw [h, Real.sign_zero]
      simp
    · rw [Real.sign_of_pos h, if_pos h]
      ring
  · simp [updateInterference, drop, secant, item, bind, Except.bind]

/-- And all the calls after it. -/
theorem C106_later_wrong (calls : List (ℝ × ℝ × ℝ)) (s : Regula) (h1 : s.interferences.length = 1) (h2 : s.errors.length = 1) (current error meanGap : ℝ) :
    (updateInterference (calls.foldl (fun s c => (updateInterference s c.1 c.2.1 c.2.2).1) s) current error meanGap).2 = .error .indexError := by
  have one : ∀ (s : Regula) (c e m : ℝ), s.interferences.length = 1 → s.errors.length = 1 →
      (updateInterference s c e m).2 = .error .indexError ∧ (updateInterference s c e m).1.interferences.length = 1 ∧ (updateInterference s c e m).1.errors.length = 1 := by
    intro s c e m h1 h2
    obtain ⟨x, hx⟩ := List.length_eq_one_iff.1 h1
    obtain ⟨y, hy⟩ := List.length_eq_one_iff.1 h2
    obtain ⟨a, b⟩ := s
    simp only at hx hy
    subst hx hy
    simp [updateInterference, drop, secant, item, bind, Except.bind]
  have : ∀ (calls : List (ℝ × ℝ × ℝ)) (s : Regula), s.interferences.length = 1 → s.errors.length = 1 →
      (calls.foldl (fun s c => (updateInterference s c.1 c.2.1 c.2.2).1) s).interferences.length = 1 ∧ (calls.foldl (fun s c => (updateInterference s c.1 c.2.1 c.2.2).1) s).errors.length = 1 := by
    intro calls
    induction calls with
    | nil => intro s h1 h2; exact ⟨h1, h2⟩
    | cons c cs ih =>
      intro s h1 h2
      exact ih _ (one s _ _ _ h1 h2).2.1 (one s _ _ _ h1 h2).2.2
  exact (one _ _ _ _ (this calls s h1 h2).1 (this calls s h1 h2).2).1

example : (updateInterference ⟨[3], [1/2]⟩ 2 (-1/2) 1).2 = .error .indexError := C106_later_wrong [] ⟨[3], [1/2]⟩ rfl rfl 2 (-1/2) 1

/-! ## Examples: a single node of area one, a solver that always finds the pressure one (two in units), elastic surfaces, one or two increments -/

/-- The arguments. -/
noncomputable def exArgs (load interference : Interp.Arg ℝ) (steps : Nat) : Args (Fin 1) where
  quantities := ⟨.number 0, .number 0, load, interference, some (.number 1), false, false, steps⟩
  guess := none
  params := ⟨1 / 10, 1, 5, some 3, 1⟩
  period := 1

/-- Nothing happened before. -/
def exPrev : Previous (Fin 1) := ⟨0, none, none, ⟨none, none, none⟩⟩

/-- The surfaces are worn by one in each increment. -/
noncomputable def exWorld (k : Nat) (_ : Option (ℝ × ℝ)) : World (Fin 1) := ⟨fun _ => k, fun p => p, fun p i => p i / 2, fun p i => p i / 2⟩

/-- The surfaces and the solver. -/
noncomputable def exEnv : Env (Fin 1) Unit ((Fin 1 → ℝ) × Unit) where
  world := exWorld
  solver _ _ := keeping (fun _ _ _ _ _ => 1) (fun x => 2 * x) (fun x => x / 2) (fun x => 2 * x) (fun x => x / 2)
  lubricant _ _ _ := ()

theorem exQuantities (load interference : Interp.Arg ℝ) (steps : Nat) (hs : steps ≠ 0)
    (h : (∃ l, load = .number l) ∧ interference = .none ∨ load = .none ∧ ∃ x, interference = .number x) :
    ∃ qs, Interp.run .real (exArgs load interference steps).quantities exPrev.quantities = .ok qs := by
  refine Interp.C24_step_runs _ _ hs (by simp [exArgs]) (by simp [exArgs]) (by rintro v hv; cases hv) (by rintro v hv; cases hv) ?_ ?_ ?_ ?_ (by simp [exArgs])
  · rcases h with ⟨⟨l, rfl⟩, rfl⟩ | ⟨rfl, x, rfl⟩ <;> (rintro v hv; cases hv)
  · rcases h with ⟨⟨l, rfl⟩, rfl⟩ | ⟨rfl, x, rfl⟩ <;> (rintro v hv; cases hv)
  · rcases h with ⟨⟨l, rfl⟩, rfl⟩ | ⟨rfl, x, rfl⟩ <;> simp [exArgs]
  · rintro speed hsp
    simp only [exArgs, Option.some.injEq] at hsp
    subst hsp
    exact ⟨by simp, (by rintro v hv; cases hv), by simp [exArgs]⟩

theorem exRuns (load interference : Interp.Arg ℝ) (steps : Nat) (hs : steps ≠ 0)
    (h : (∃ l, load = .number l) ∧ interference = .none ∨ load = .none ∧ ∃ x, interference = .number x) :
    ∃ cs, run (exArgs load interference steps) exPrev exEnv = .ok cs ∧ cs.length = steps := by
  obtain ⟨cs, hcs⟩ := (C104_runs_iff (exArgs load interference steps) exPrev exEnv).2 ⟨by norm_num [exArgs], by norm_num [exArgs], exQuantities load interference steps hs h⟩
  exact ⟨cs, hcs, (C104_times _ _ _ hcs).1⟩

/-- The iterations of the first increment with the load two. -/
theorem exLoop (o : Option (ℝ × ℝ)) : ∃ m, loop (exEnv.solver 0 (some 1)) (exWorld 0 o) (fun _ _ => ()) (exArgs (.number 2) .none 1).params (some 2) 6
    (first (exEnv.solver 0 (some 1)) (exWorld 0 o) (fun _ _ => ()) (0, fun _ => 0)) = (⟨fun _ => 1, fun _ => 2, fun _ => 2, 0, 0, fun _ => 2, (), some m⟩, true, 2) := by
  have hi : ∀ (m : Option ((Fin 1 → ℝ) × Unit)) (x p d g : Fin 1 → ℝ), iterate (exEnv.solver 0 (some 1)) (exWorld 0 o) (fun _ _ => ()) (exArgs (.number 2) .none 1).params ⟨x, p, d, 0, 0, g, (), m⟩ =
      ⟨fun _ => 1, fun _ => 2, fun _ => 2, 0, 0, fun _ => 2, (), some (m.getD (fun j => g j / 2, ()))⟩ := by
    intro m x p d g
    have h : ∀ j, clip (some 3) (x j + 1 * (1 - x j)) = 1 := by
      intro j
      have : x j + 1 * (1 - x j) = 1 := by ring
      rw [this, clip]
      norm_num
    simp only [iterate, reynolds, exEnv, keeping, exArgs, exWorld, Pi.one_apply, h]
    norm_num
  have hf : first (exEnv.solver 0 (some 1)) (exWorld 0 o) (fun _ _ => ()) (0, fun _ => 0) = (⟨fun _ => 0, fun _ => 0, fun _ => 0, 0, 0, fun _ => 0, (), none⟩ : It (Fin 1) Unit ((Fin 1 → ℝ) × Unit)) := by
    simp [first, exEnv, keeping, exWorld]
  have ha : ∀ (m : Option ((Fin 1 → ℝ) × Unit)), adjust (exEnv.solver 0 (some 1)) (exWorld 0 o) (exArgs (.number 2) .none 1).params (some 2) ⟨fun _ => 1, fun _ => 2, fun _ => 2, 0, 0, fun _ => 2, (), m⟩ =
      ⟨fun _ => 1, fun _ => 2, fun _ => 2, 0, 0, fun _ => 2, (), m⟩ := by
    intro m
    simp [adjust, totalLoad, exArgs, exEnv, keeping, exWorld]
  have hp0 : pressureOk (exEnv.solver 0 (some 1)) (exArgs (.number 2) .none 1).params (⟨fun _ => 0, fun _ => 0, fun _ => 0, 0, 0, fun _ => 0, (), none⟩ : It (Fin 1) Unit ((Fin 1 → ℝ) × Unit)) = false := by
    simp [pressureOk, pressureError, exArgs]
    norm_num
  have hp1 : ∀ (m : Option ((Fin 1 → ℝ) × Unit)), pressureOk (exEnv.solver 0 (some 1)) (exArgs (.number 2) .none 1).params (⟨fun _ => 1, fun _ => 2, fun _ => 2, 0, 0, fun _ => 2, (), m⟩ : It (Fin 1) Unit ((Fin 1 → ℝ) × Unit)) = true := by
    intro m
    simp [pressureOk, pressureError, exArgs, exEnv, reynolds, keeping]
  have hl : loadOk (exArgs (.number 2) .none 1).params (some 2) (totalLoad (exArgs (.number 2) .none 1).params (fun _ : Fin 1 => 2)) = true := by
    simp [loadOk, totalLoad, exArgs]
  rw [hf, loop, hp0]
  dsimp only
  rw [hi, ha, Bool.false_and, if_neg (by simp), loop]
  dsimp only
  rw [hi, hp1, hl]
  exact ⟨_, rfl⟩

/-- The first increment converges in two iterations in load control with the load that belongs to the pressure one. -/
theorem exConverges : ∃ c, run (exArgs (.number 2) .none 1) exPrev exEnv = .ok [c] ∧ c.converged = true ∧ c.iterations = 2 ∧ c.pressure 0 = 2 ∧ c.gap 0 = 2 := by
  obtain ⟨cs, hcs, hlen⟩ := exRuns (.number 2) .none 1 (by simp) (Or.inl ⟨⟨2, rfl⟩, rfl⟩)
  obtain ⟨c, rfl⟩ := List.length_eq_one_iff.1 hlen
  refine ⟨c, hcs, ?_⟩
  obtain ⟨-, -, qs, hqs, -, -, hk⟩ := run_get hcs
  obtain ⟨q, hq, hc⟩ := hk 0 c rfl
  obtain ⟨-, hq'⟩ := Interp.C24_step_quantities_partial _ _ _ hqs
  have hl : q.load = some 2 := by
    obtain ⟨hi, rfl⟩ := List.getElem?_eq_some_iff.1 hq
    obtain ⟨h1, -⟩ := hq' 0 hi
    generalize qs[0].load = ql at h1 ⊢
    cases h1 with
    | number x hx =>
      simp only [exArgs, Interp.Arg.number.injEq] at hx
      rw [hx]
    | none hx => cases hx
    | seq v pts y hx _ _ => cases hx
  obtain ⟨m, hm⟩ := exLoop q.offSet
  obtain ⟨r, hr, h1, h2, h3, h4, h5, h6, h7, h8, h9, h10⟩ := record_loop (exArgs (.number 2) .none 1) exPrev exEnv 0 q (0, fun _ => 0)
  have hload : loadOf (exArgs (.number 2) .none 1) q = some 2 := hl
  rw [hload] at hr
  have : r = _ := hr.symm.trans hm
  subst this
  change c = record (exArgs (.number 2) .none 1) exPrev exEnv 0 q (0, fun _ => 0) at hc
  rw [hc, h9, h10, h2, h4]
  exact ⟨rfl, rfl, rfl, rfl⟩

/-- The hypotheses of `C103_fits`, `C103_limit` and `C103_iterations`. -/
example : ∃ (a : Args (Fin 1)) (E : Env (Fin 1) Unit ((Fin 1 → ℝ) × Unit)) (c : Current (Fin 1) Unit ((Fin 1 → ℝ) × Unit)), run a exPrev E = .ok [c] ∧ c.converged = true ∧ a.params.rtol ≤ 1 ∧
    (∀ k v x, (E.solver k v).dimP ((E.solver k v).ndP x) = x) ∧ a.params.maxP = some 3 ∧ 0 ≤ a.params.maxIt := by
  obtain ⟨c, h1, h2, -⟩ := exConverges
  refine ⟨_, _, c, h1, h2, by norm_num [exArgs], ?_, rfl, by norm_num [exArgs]⟩
  intro k v x
  simp only [exEnv, keeping]
  ring

/-- With a tolerance of zero nothing converges: the hypotheses of `C103_not_converged`. -/
example : ∃ c, run { exArgs (.number 2) .none 1 with params := { (exArgs (.number 2) .none 1).params with rtol := 0 } } exPrev exEnv = .ok [c] ∧ c.converged = false := by
  obtain ⟨cs, h1⟩ := (C104_runs_iff { exArgs (.number 2) .none 1 with params := { (exArgs (.number 2) .none 1).params with rtol := 0 } } exPrev exEnv).2
    ⟨by norm_num [exArgs], by norm_num [exArgs], exQuantities (.number 2) .none 1 (by simp) (Or.inl ⟨⟨2, rfl⟩, rfl⟩)⟩
  obtain ⟨c, rfl⟩ := List.length_eq_one_iff.1 (C104_times _ _ _ h1).1
  refine ⟨c, h1, ?_⟩
  rw [← Bool.not_eq_true]
  intro hc
  obtain ⟨qs, -, -, h⟩ := C103_converged _ _ _ h1 (by norm_num) (fun k v x => by simp only [exEnv, keeping]; ring)
  obtain ⟨q, -, -, p, new, ⟨m, e, -, hlt⟩, -⟩ := h 0 c rfl hc
  rw [zero_mul] at hlt
  exact absurd hlt (not_lt.2 (Finset.sum_nonneg fun _ _ => abs_nonneg _))

/-- A set interference of five changes nothing (see also `C104_set_interference_wrong`). -/
example : ∃ cs, run (exArgs .none (.number 5) 2) exPrev exEnv = .ok cs ∧ cs.length = 2 ∧ ∀ c ∈ cs, c.interference = 0 := by
  obtain ⟨cs, h1, h2⟩ := exRuns .none (.number 5) 2 (by simp) (Or.inr ⟨rfl, 5, rfl⟩)
  exact ⟨cs, h1, h2, C104_interference_wrong _ _ _ h1 rfl⟩

/-- Two increments with wear in between; the hypotheses are those of `C105_kept` and some more. -/
example : ∃ c c', run (exArgs (.number 2) .none 2) exPrev exEnv = .ok [c, c'] ∧ ∃ old e, c'.memory = some (old, e) ∧ old 0 ≠ c.ndGap 0 := by
  obtain ⟨cs, h1, h2⟩ := exRuns (.number 2) .none 2 (by simp) (Or.inl ⟨⟨2, rfl⟩, rfl⟩)
  obtain ⟨c, c', rfl⟩ := List.length_eq_two.1 h2
  refine ⟨c, c', h1, ?_⟩
  obtain ⟨qs, hqs, h⟩ := C105_moved_wrong (exArgs (.number 2) .none 2) exPrev exWorld (fun _ _ _ => ()) (fun _ _ _ _ _ _ => 1) (fun x => 2 * x) (fun x => x / 2) (fun x => 2 * x) (fun x => x / 2)
    (by intro x; ring) (by ring) (by intro x y h; simp only at h; linarith) (by intro k o; rfl) h1 (by intro k k' o o'; rfl)
  have hlen : qs.length = 2 := (Interp.C24_step_quantities_partial _ _ _ hqs).1
  obtain ⟨q, q', rfl⟩ := List.length_eq_two.1 hlen
  exact h 0 c c' q q' rfl rfl rfl rfl 0 (by simp [exWorld])

/-- And without. -/
example : ∃ c c', run (exArgs (.number 2) .none 2) exPrev { exEnv with world := fun _ o => exWorld 0 o } = .ok [c, c'] ∧ ∃ e, c'.memory = some (c.ndGap, e) := by
  obtain ⟨cs, h1⟩ := (C104_runs_iff (exArgs (.number 2) .none 2) exPrev { exEnv with world := fun _ o => exWorld 0 o }).2
    ⟨by norm_num [exArgs], by norm_num [exArgs], exQuantities (.number 2) .none 2 (by simp) (Or.inl ⟨⟨2, rfl⟩, rfl⟩)⟩
  have h2 := (C104_times _ _ _ h1).1
  obtain ⟨c, c', rfl⟩ := List.length_eq_two.1 h2
  exact ⟨c, c', h1, C105_still_partial (exArgs (.number 2) .none 2) exPrev (fun _ o => exWorld 0 o) (fun _ _ _ => ()) (fun _ _ _ _ _ _ => 1) (fun x => 2 * x) (fun x => x / 2) (fun x => 2 * x) (fun x => x / 2)
    (by intro x; ring) (by ring) (by intro k o; rfl) h1 (by intro k k' o o'; exact ⟨rfl, rfl⟩) 0 c c' rfl rfl⟩

/-- A solver whose gaps grow with the gaps without units; at the zero iterate the equations of `C104_moves` hold. -/
example : StrictMono (keeping (ι := Fin 1) (L := Unit) (fun _ _ _ _ _ => 1) (fun x => 2 * x) (fun x => x / 2) (fun x => 2 * x) (fun x => x / 2)).dimG ∧ (2 : ℝ) * 0 = 0 := by
  refine ⟨?_, by ring⟩
  intro x y h
  simp only [keeping]
  linarith

end Verif.LubStep
