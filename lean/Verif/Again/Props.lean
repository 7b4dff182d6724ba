import Mathlib.Logic.Relation
import Verif.LoadControl.Memory
import Verif.LubStep.Model
import Verif.Outputs.Props

/-!
# Solving again (C157)

A step is an object that is kept after `solve`: its attributes and its output requests are those that the last call left. The states of a second call of `QuasiStaticStep.solve`
(`slippy/contact/quasi_static_step.py` l.243-312, `Verif.Quasi`) and of `IterSemiSystem.solve` (`slippy/contact/lubrication_steps.py` l.357-608, `Verif.LubStep`), and the answers of the output requests in a second analysis (`slippy/contact/outputs.py` l.177-224, `Verif.Outputs`) are compared with those of the first.
The static step has no attributes that `solve` changes (`slippy/contact/static_step.py` l.141-222), its model is a function of the step and the state.
-/

namespace Verif.Again

open Verif HeightCache HeightResults Quasi

variable {N : Type}

/-- What a step and its attributes can be after any number of calls of `solve` that returned, with surfaces allowed by `W`. -/
inductive Used (W : (Nat → Option (ℝ × ℝ) → Problem N × ℝ) → Prop) (a : Args) (st : Interp.Step ℝ) : Interp.Quantities ℝ → Option (Problem N × HeightCache.State N) → Prop
  | new : Used W a st st.q none
  | again {q o} (prev : Previous N) (world : Nat → Option (ℝ × ℝ) → Problem N × ℝ) (choice : Nat → Choice) {l : Loop N} {cs : List Current} :
      Used W a st q o → W world → solve a st q o prev world choice = .ok (l, cs) → Used W a st l.q l.opt

/-! ## The quantities -/

/-- The quantities that are not updated are those of the constructor. -/
structure Left (st : Interp.Step ℝ) (q : Interp.Quantities ℝ) : Prop where
  off : st.offUpd = none → q.offSet = st.q.offSet
  load : st.loadUpd = none → q.load = st.q.load
  interference : st.interferenceUpd = none → q.interference = st.q.interference
  rolling : st.rollingUpd = none → q.rolling = st.q.rolling

theorem updateOne_left {ar : Interp.Arith ℝ} {relative : Bool} {original : Option ℝ} {upd : Option (List (ℝ × ℝ))} {q q0 : Option ℝ} {r : ℝ} (h : upd = none → q = q0) :
    Interp.updateOne ar relative original upd q r = Interp.updateOne ar relative original upd q0 r := by
  cases upd with
  | none => rw [h rfl]
  | some t => rfl

theorem update_left {st : Interp.Step ℝ} {prev : Interp.Previous ℝ} {q : Interp.Quantities ℝ} (h : Left st q) (r : ℝ) :
    Interp.updateMovement .real st prev q r = Interp.updateMovement .real st prev st.q r := by
  unfold Interp.updateMovement
  rw [updateOne_left h.load, updateOne_left h.interference, updateOne_left h.rolling]
  congr 1
  unfold Interp.updateOffSet
  cases hu : st.offUpd with
  | none => dsimp only; rw [h.off hu]
  | some t => rfl

theorem left_update {st : Interp.Step ℝ} {prev : Interp.Previous ℝ} {q p : Interp.Quantities ℝ} (h : Left st q) {r : ℝ} (hp : Interp.updateMovement .real st prev q r = .ok p) : Left st p := by
  unfold Interp.updateMovement at hp
  obtain ⟨o, ho, hp⟩ := Interp.bind_ok hp
  obtain ⟨l, hl, hp⟩ := Interp.bind_ok hp
  obtain ⟨i, hi, hp⟩ := Interp.bind_ok hp
  obtain ⟨v, hv, hp⟩ := Interp.bind_ok hp
  injection hp with hp
  subst hp
  refine ⟨fun hu => ?_, fun hu => ?_, fun hu => ?_, fun hu => ?_⟩
  · rw [hu] at ho; injection ho with ho; exact ho.symm.trans (h.off hu)
  · rw [hu] at hl; injection hl with hl; exact hl.symm.trans (h.load hu)
  · rw [hu] at hi; injection hi with hi; exact hi.symm.trans (h.interference hu)
  · rw [hu] at hv; injection hv with hv; exact hv.symm.trans (h.rolling hu)

theorem increment_quantities {a : Args} {st : Interp.Step ℝ} {prev : Previous N} {world : Nat → Option (ℝ × ℝ) → Problem N × ℝ} {choice : Nat → Choice} {i : ℕ} {s : Loop N} {r}
    (h : increment a st prev world choice i s = .ok r) : Interp.updateMovement .real st prev.quantities s.q (Interp.relativeTime .real st.steps i) = .ok r.1.q := by
  unfold increment at h
  obtain ⟨q, hq, h⟩ := Interp.bind_ok h
  obtain ⟨f, -, h⟩ := Interp.bind_ok h
  injection h with h
  subst h
  exact hq

/-- What holds before the loop and is kept by each increment holds after the loop. -/
theorem loop_inv {a : Args} {st : Interp.Step ℝ} {prev : Previous N} {world : Nat → Option (ℝ × ℝ) → Problem N × ℝ} {choice : Nat → Choice} (J : Loop N → Prop)
    (hJ : ∀ i s r, increment a st prev world choice i s = .ok r → J s → J r.1) :
    ∀ todo i (s : Loop N) l cs, increments a st prev world choice todo i s = .ok (l, cs) → J s → J l := by
  intro todo
  induction todo with
  | zero =>
    intro i s l cs h hs
    injection h with h
    injection h with h _
    subst h
    exact hs
  | succ n ih =>
    intro i s l cs h hs
    rw [increments] at h
    obtain ⟨r, hr, h⟩ := Interp.bind_ok h
    obtain ⟨rest, hrest, h⟩ := Interp.bind_ok h
    injection h with h
    injection h with h _
    subst h
    exact ih (i + 1) r.1 rest.1 rest.2 hrest (hJ i s r hr hs)

theorem solve_ok {a : Args} {st : Interp.Step ℝ} {q : Interp.Quantities ℝ} {o : Option (Problem N × HeightCache.State N)} {prev : Previous N} {world : Nat → Option (ℝ × ℝ) → Problem N × ℝ} {choice : Nat → Choice} {r}
    (h : solve a st q o prev world choice = .ok r) : increments a st prev world choice st.steps 0 ⟨q, o, none, prev.time⟩ = .ok r := by
  unfold solve at h
  split_ifs at h
  exact h

theorem used_left {W : (Nat → Option (ℝ × ℝ) → Problem N × ℝ) → Prop} {a : Args} {st : Interp.Step ℝ} {q : Interp.Quantities ℝ} {o : Option (Problem N × HeightCache.State N)} (h : Used W a st q o) : Left st q := by
  induction h with
  | new => exact ⟨fun _ => rfl, fun _ => rfl, fun _ => rfl, fun _ => rfl⟩
  | again prev world choice _ _ hs ih =>
    exact loop_inv (fun s => Left st s.q) (fun i s r hr hs => left_update hs (increment_quantities hr)) _ _ _ _ _ (solve_ok hs) ih

/-! ## With time dependence -/

theorem solveBy_time {a : Args} (ht : a.quantities.noTime = false) (q : Interp.Quantities ℝ) (o o' : Option (Problem N × HeightCache.State N)) (P : Problem N) (initial : Option N) (upper : ℝ) (c : Choice) :
    solveBy a q o P initial upper c = solveBy a q o' P initial upper c := by
  have e : ∀ m, optimiser false o P initial m = optimiser false o' P initial m := fun m => rfl
  unfold solveBy
  rw [ht]
  unfold solveDisp solveLoad
  simp only [e]

theorem increments_time {a : Args} {st : Interp.Step ℝ} (ht : a.quantities.noTime = false) (prev : Previous N) (world : Nat → Option (ℝ × ℝ) → Problem N × ℝ) (choice : Nat → Choice) :
    ∀ todo i (s s' : Loop N), Left st s.q → Left st s'.q → s.time = s'.time →
      (increments a st prev world choice todo i s).map Prod.snd = (increments a st prev world choice todo i s').map Prod.snd := by
  intro todo
  cases todo with
  | zero => intro i s s' _ _ _; rfl
  | succ n =>
    intro i s s' h1 h2 h3
    rw [increments, increments]
    cases hq : Interp.updateMovement .real st prev.quantities s.q (Interp.relativeTime .real st.steps i) with
    | error e =>
      have hq' := hq
      rw [update_left h1, ← update_left h2] at hq'
      simp [increment, hq, hq', bind, Except.bind, Except.map]
    | ok p =>
      have hq' := hq
      rw [update_left h1, ← update_left h2] at hq'
      have hl := left_update h1 hq
      have hg : ∀ g, gapFor st a.quantities.noTime world i p.offSet g = world i p.offSet := by
        intro g
        unfold gapFor
        cases g with
        | none => rfl
        | some g => simp [ht]
      rw [increment_of a st prev world choice i s hq, increment_of a st prev world choice i s' hq', hg, hg, solveBy_time ht p s.opt s'.opt, h3]

/-- **C157 (partial)**: a quasi static step with time dependence that is solved again, from the same state with the same surfaces and choices of the root finder, goes through the states of the first time, whatever it was used
for in between; it fails if it failed the first time. Missing: steps without time dependence, see `C157_no_time_wrong`. -/
theorem C157_time_partial {a : Args} {st : Interp.Step ℝ} (hst : construct a = .ok st) (ht : a.quantities.noTime = false) {q : Interp.Quantities ℝ} {o : Option (Problem N × HeightCache.State N)}
    (hu : Used (fun _ => True) a st q o) (prev : Previous N) (world : Nat → Option (ℝ × ℝ) → Problem N × ℝ) (choice : Nat → Choice) :
    (solve a st q o prev world choice).map Prod.snd = (Quasi.run a prev world choice).map Prod.snd := by
  unfold Quasi.run
  rw [hst]
  show _ = (solve a st st.q none prev world choice).map Prod.snd
  unfold solve
  split_ifs
  · rfl
  · exact increments_time ht prev world choice _ _ _ _ (used_left hu) ⟨fun _ => rfl, fun _ => rfl, fun _ => rfl, fun _ => rfl⟩ rfl

/-! ## The lubrication step -/

/-- The quantities that calls of `update_movement` can leave in the attributes of a step, also by a call of `solve` that failed later. -/
def Moved (st : Interp.Step ℝ) : Interp.Quantities ℝ → Prop :=
  Relation.ReflTransGen (fun q q' => ∃ prev r, Interp.updateMovement .real st prev q r = .ok q') st.q

/-- **C157**: a lubrication step that is solved again, from the same state with the same surfaces, Reynolds solver and lubricant, goes through the states of the first time. -/
theorem C157_lubrication {ι L M : Type} [Fintype ι] {a : LubStep.Args ι} {st : Interp.Step ℝ} (hst : LubStep.construct a = .ok st) {q : Interp.Quantities ℝ} (hq : Moved st q) (prev : LubStep.Previous ι)
    (E : LubStep.Env ι L M) : LubStep.increments a st prev E st.steps 0 q prev.pressure prev.interference = LubStep.run a prev E := by
  have hl : Left st q := by
    induction hq with
    | refl => exact ⟨fun _ => rfl, fun _ => rfl, fun _ => rfl, fun _ => rfl⟩
    | tail _ h ih => obtain ⟨p, r, h⟩ := h; exact left_update ih h
  have key : ∀ todo i p x, LubStep.increments a st prev E todo i q p x = LubStep.increments a st prev E todo i st.q p x := by
    intro todo
    cases todo with
    | zero => intros; rfl
    | succ n =>
      intro i p x
      rw [LubStep.increments, LubStep.increments, update_left hl]
  unfold LubStep.run
  rw [hst, key]
  rfl

/-! ## Without time dependence -/

/-- The optimiser that is left belongs to the surfaces. -/
theorem used_surfaces {a : Args} {st : Interp.Step ℝ} {P : Problem N} {q : Interp.Quantities ℝ} {o : Option (Problem N × HeightCache.State N)} (h : Used (fun w => ∀ k off, (w k off).1 = P) a st q o) :
    ∀ w, o = some w → w.1 = P := by
  induction h with
  | new => exact fun w h => by cases h
  | again prev world choice _ hW hs ih =>
    refine (loop_inv (fun s : Loop N => (∀ w, s.opt = some w → w.1 = P) ∧ ∀ g, s.gap = some g → g.1 = P) (fun i s r hr hs => ?_) _ _ _ _ _ (solve_ok hs) ⟨ih, fun g hg => by cases hg⟩).1
    have hp := increment_quantities hr
    rw [increment_of a st prev world choice i s hp] at hr
    have hg : (gapFor st a.quantities.noTime world i r.1.q.offSet s.gap).1 = P := by
      unfold gapFor
      cases hgap : s.gap with
      | none => exact hW _ _
      | some g =>
        dsimp only
        split_ifs
        · exact hW _ _
        · exact hs.2 g hgap
    have hopt : ∀ m w ini, optimiser a.quantities.noTime s.opt P ini m = .ok w → w.1 = P := by
      intro m w ini hw
      unfold optimiser at hw
      split at hw
      · rename_i v _ hv
        injection hw with hw
        subst hw
        exact hs.1 _ hv
      · cases hi : HeightCache.init P ini m with
        | error e => rw [hi] at hw; cases hw
        | ok t => rw [hi] at hw; injection hw with hw; subst hw; rfl
    rw [hg] at hr
    cases hf : solveBy a r.1.q s.opt P (initialNodes a prev) ((gapFor st a.quantities.noTime world i r.1.q.offSet s.gap).2 * a.upperFactor) (choice i) with
    | error e => rw [hf] at hr; cases hr
    | ok f =>
      rw [hf] at hr
      injection hr with hr
      have h1 : r.1.opt = some f.1 := by rw [← hr]
      have h2 : r.1.gap = some (gapFor st a.quantities.noTime world i r.1.q.offSet s.gap) := by rw [← hr]
      rw [h1, h2]
      refine ⟨fun w hw => ?_, fun g hgg => by injection hgg with hgg; rw [← hgg]; exact hg⟩
      injection hw with hw
      subst hw
      have key : ∃ m w, optimiser a.quantities.noTime s.opt P (initialNodes a prev) m = .ok w ∧ f.1.1 = w.1 := by
        unfold solveBy at hf
        split at hf
        · unfold solveDisp at hf
          obtain ⟨w, hw, hf⟩ := Interp.bind_ok hf
          refine ⟨_, w, hw, ?_⟩
          split at hf
          · cases hf
          · obtain ⟨v, -, hf⟩ := Interp.bind_ok hf
            injection hf with hf
            rw [← hf]
        · cases hf
        · unfold solveLoad at hf
          obtain ⟨w, hw, hf⟩ := Interp.bind_ok hf
          obtain ⟨b, -, hf⟩ := Interp.bind_ok hf
          refine ⟨_, w, hw, ?_⟩
          split at hf
          · cases hf
          · split at hf
            · cases hf
            · obtain ⟨v, -, hf⟩ := Interp.bind_ok hf
              injection hf with hf
              rw [← hf]
        · cases hf
      obtain ⟨m, w, hw, e⟩ := key
      rw [e]
      exact hopt m w _ hw

/-- **C157**: with surfaces that do not change, in every call of `solve` of a step that has been solved any number of times (also without time dependence), the states hold the load of the contact solution at the height their
loads were solved at, and in load control they are reported as converged only if the load is within 5 % of the one asked for. -/
theorem C157_true {a : Args} {st : Interp.Step ℝ} (hst : construct a = .ok st) {P : Problem N} {q : Interp.Quantities ℝ} {o : Option (Problem N × HeightCache.State N)}
    (hused : Used (fun w => ∀ k off, (w k off).1 = P) a st q o) {prev : Previous N} (hu : a.unloading = false ∨ prev.contactNodes = none) {qs : List (Interp.Quantities ℝ)}
    (hqs : Interp.run .real a.quantities prev.quantities = .ok qs) {world : Nat → Option (ℝ × ℝ) → Problem N × ℝ} (hP : ∀ k off, (world k off).1 = P) {choice : Nat → Choice} {l : Loop N} {cs : List Current}
    (hs : solve a st q o prev world choice = .ok (l, cs)) {k : ℕ} {c : Current} (hk : cs[k]? = some c) :
    c.totalLoad = (P.bccg c.solvedAt (P.touching c.solvedAt)).1 ∧
      (a.quantities.load ≠ .none → ∃ q load, qs[k]? = some q ∧ q.load = some load ∧ (c.converged = true → load ≠ 0 ∧ |c.totalLoad - load| / load < 5 / 100)) := by
  have hst' : Interp.init .real a.quantities = .ok st := by
    unfold construct at hst
    split_ifs at hst
    exact hst
  have hinc : Interp.increments .real st prev.quantities st.steps 0 q = .ok qs := by
    unfold Interp.run at hqs
    rw [hst'] at hqs
    dsimp only at hqs
    rw [← hqs]
    have key : ∀ todo i (p p' : Interp.Quantities ℝ), Left st p → Left st p' → Interp.increments .real st prev.quantities todo i p = Interp.increments .real st prev.quantities todo i p' := by
      intro todo
      cases todo with
      | zero => intro i p p' _ _; rfl
      | succ n =>
        intro i p p' h h'
        rw [Interp.increments, Interp.increments, update_left h, update_left h']
    exact key _ _ _ _ (used_left hused) ⟨fun _ => rfl, fun _ => rfl, fun _ => rfl, fun _ => rfl⟩
  exact LoadControl.solve_truth hqs hinc hu (used_surfaces hused) (fun k q _ => hP k q.offSet) (solve_ok hs) hk

/-- **C157 (negation)**: a quasi static step without time dependence and with a set interference can't be solved a second time from the same state: the load of the first height is in the cache, so that there are no results. -/
theorem C157_no_time_wrong {a : Args} {st : Interp.Step ℝ} (hst : construct a = .ok st) (ht : a.quantities.noTime = true) (hl : a.quantities.load = .none) {prev : Previous N}
    (hu : a.unloading = false ∨ prev.contactNodes = none) {qs : List (Interp.Quantities ℝ)} (hqs : Interp.run .real a.quantities prev.quantities = .ok qs) {q : Interp.Quantities ℝ} (hq : qs[0]? = some q) {x : ℝ}
    (hx : q.interference = some x) {world : Nat → Option (ℝ × ℝ) → Problem N × ℝ} {choice : Nat → Choice} (hcache : (world 0 q.offSet).1.useCache = true)
    (hsolved : ((world 0 q.offSet).1.bccg x ((world 0 q.offSet).1.touching x)).2 = false) {l : Loop N} {cs : List Current} (hrun : Quasi.run a prev world choice = .ok (l, cs))
    (world' : Nat → Option (ℝ × ℝ) → Problem N × ℝ) (choice' : Nat → Choice) : ∃ e, solve a st l.q l.opt prev world' choice' = .error e := by
  have hini : initialNodes a prev = none := by unfold initialNodes; rcases hu with h | h <;> simp [h]
  have hf : a.fastLd = false := by
    by_contra h
    obtain ⟨e, he⟩ := C100_fast_wrong a prev world choice (by simpa using h)
    rw [he] at hrun
    cases hrun
  obtain ⟨st', hst', hinc, h1, h2, -, hr⟩ := run_eq hqs hf world choice
  have e : st' = st := by
    unfold construct at hst
    rw [if_neg (by simp [ht])] at hst
    rw [hst] at hst'
    injection hst' with h
    exact h.symm
  subst e
  rw [hr] at hrun
  have hup : Interp.updateMovement .real st' prev.quantities st'.q (Interp.relativeTime .real st'.steps 0) = .ok q := by
    obtain ⟨hlen, hget⟩ := Interp.increments_get .real st' _ _ _ _ _ hinc
    obtain ⟨hk, hv⟩ := List.getElem?_eq_some_iff.mp hq
    have := hget 0 hk
    rw [hv] at this
    exact this
  have hn : ∃ n, st'.steps = n + 1 := ⟨st'.steps - 1, by omega⟩
  obtain ⟨n, hn⟩ := hn
  have hleft : Left st' l.q := loop_inv (fun s => Left st' s.q) (fun i s r hr hs => left_update hs (increment_quantities hr)) _ _ _ _ _ hrun ⟨fun _ => rfl, fun _ => rfl, fun _ => rfl, fun _ => rfl⟩
  have hkept : ∃ s, l.opt = some ((world 0 q.offSet).1, s) ∧ x ∈ s.heights := by
    rw [hn, increments] at hrun
    obtain ⟨r, hr1, hrun⟩ := Interp.bind_ok hrun
    obtain ⟨rest, hrest, hrun⟩ := Interp.bind_ok hrun
    injection hrun with hrun
    injection hrun with hrun _
    subst hrun
    refine loop_inv (fun s : Loop N => ∃ t, s.opt = some ((world 0 q.offSet).1, t) ∧ x ∈ t.heights) ?_ _ _ _ _ _ hrest ?_
    · rintro i s r' hr' ⟨t, ht1, ht2⟩
      have hp := increment_quantities hr'
      rw [increment_of a st' prev world choice i s hp, hini, ht1] at hr'
      cases hs : solveBy a r'.1.q (some ((world 0 q.offSet).1, t)) (gapFor st' a.quantities.noTime world i r'.1.q.offSet s.gap).1 none ((gapFor st' a.quantities.noTime world i r'.1.q.offSet s.gap).2 * a.upperFactor) (choice i) with
      | error e => rw [hs] at hr'; cases hr'
      | ok f =>
        rw [hs] at hr'
        injection hr' with hr'
        have hopt : r'.1.opt = some f.1 := by rw [← hr']
        have hy : ∃ y, r'.1.q.interference = some y := by
          cases hy : r'.1.q.interference with
          | some y => exact ⟨y, rfl⟩
          | none =>
            unfold solveBy at hs
            rw [hl, hy] at hs
            cases hs
        obtain ⟨y, hy⟩ := hy
        rw [solveBy_disp hl hy] at hs
        obtain ⟨w, hw, hw1, -⟩ := solveDisp_ok _ _ _ _ hs
        rw [ht] at hw
        injection hw with hw
        subst hw
        rw [hopt, hw1]
        exact ⟨_, rfl, call_mono _ _ y x ht2⟩
    · rw [increment_of a st' prev world choice 0 _ hup, hini] at hr1
      have hg : gapFor st' a.quantities.noTime world 0 q.offSet none = world 0 q.offSet := rfl
      rw [hg, solveBy_disp hl hx] at hr1
      cases hs : solveDisp a.quantities.noTime none (world 0 q.offSet).1 none x with
      | error e => rw [hs] at hr1; cases hr1
      | ok f =>
        rw [hs] at hr1
        injection hr1 with hr1
        have hopt : r.1.opt = some f.1 := by rw [← hr1]
        obtain ⟨w, hw, hw1, hw2⟩ := solveDisp_ok _ _ _ _ hs
        have hwP : w.1 = (world 0 q.offSet).1 := by
          rw [ht] at hw
          unfold optimiser at hw
          dsimp only at hw
          cases hi : HeightCache.init (world 0 q.offSet).1 none 1 with
          | error e => rw [hi] at hw; cases hw
          | ok s => rw [hi] at hw; injection hw with hw; subst hw; rfl
        have hin := hw2 (by rw [hwP]; exact hcache) (by rw [hwP]; exact hsolved)
        rw [hopt]
        exact ⟨f.1.2, by rw [hw1, hwP], hin⟩
  obtain ⟨s, hs1, hs2⟩ := hkept
  unfold solve
  rw [hf, hn, increments]
  have hup' : Interp.updateMovement .real st' prev.quantities l.q (Interp.relativeTime .real st'.steps 0) = .ok q := by rw [update_left hleft]; exact hup
  obtain ⟨e, he⟩ := solveDisp_fails true (some ((world 0 q.offSet).1, s)) (world' 0 q.offSet).1 x (o := ((world 0 q.offSet).1, s)) rfl (Or.inl hs2)
  refine ⟨e, ?_⟩
  rw [increment_of a st' prev world' choice' 0 ⟨l.q, l.opt, none, prev.time⟩ hup', hini]
  have hg : gapFor st' a.quantities.noTime world' 0 q.offSet none = world' 0 q.offSet := rfl
  rw [hg, hs1, solveBy_disp hl hx, ht, he]
  rfl

/-! ## Outputs -/

section outputs

open Outputs

theorem run_append (es es' : List Event) : ∀ r, Outputs.run r (es ++ es') = ((Outputs.run r es).1 ++ (Outputs.run (Outputs.run r es).2 es').1, (Outputs.run (Outputs.run r es).2 es').2) := by
  induction es with
  | nil => intro r; rfl
  | cons e es ih =>
    intro r
    cases e with
    | newStep t => exact ih _
    | query t maxT =>
      rw [List.cons_append, Outputs.run, Outputs.run, ih]
      rfl

/-- The attributes that are never changed. -/
structure Same (r r' : Req) : Prop where
  timing : r.timing = r'.timing
  interval : r.interval = r'.interval
  nOut : r.nOut = r'.nOut
  stepTimes : r.stepTimes = r'.stepTimes

theorem same_advance (r : Req) : Same (advance r) r := by
  unfold advance
  cases r.points <;> exact ⟨rfl, rfl, rfl, rfl⟩

theorem same_trans {a b c : Req} (h : Same a b) (h' : Same b c) : Same a c := ⟨h.1.trans h'.1, h.2.trans h'.2, h.3.trans h'.3, h.4.trans h'.4⟩

theorem same_first (r : Req) (m : ℝ) : Same (firstCall r m) r := by
  unfold firstCall
  cases r.endT with
  | some _ => exact ⟨rfl, rfl, rfl, rfl⟩
  | none =>
    refine same_trans (same_advance _) ?_
    dsimp only
    split_ifs <;> exact ⟨rfl, rfl, rfl, rfl⟩

theorem same_active (r : Req) (t m : ℝ) : Same (isActive r t m).2 r := by
  have h := same_first r m
  have h' := same_trans (same_advance (firstCall r m)) h
  obtain ⟨ti, iv, c, n, ts, ps, nx, st, e⟩ := r
  have h0 : ∀ c' nx', Same ⟨ti, iv, c', n, ts, ps, nx', st, e⟩ ⟨ti, iv, c, n, ts, ps, nx, st, e⟩ := fun _ _ => ⟨rfl, rfl, rfl, rfl⟩
  cases ti <;> simp only [isActive] at h h' ⊢
  · split_ifs <;> exact h0 _ _
  · cases nx with
    | none => exact h0 _ _
    | some y => dsimp only; split_ifs <;> exact h0 _ _
  all_goals
    cases (firstCall _ m).next with
    | none => exact h
    | some y => dsimp only; split_ifs; exacts [h', h]

theorem same_run (es : List Event) : ∀ r, Same (Outputs.run r es).2 r := by
  induction es with
  | nil => intro r; exact ⟨rfl, rfl, rfl, rfl⟩
  | cons e es ih =>
    intro r
    cases e with
    | newStep t =>
      refine same_trans (ih _) ?_
      unfold newStep
      dsimp only
      split_ifs <;> exact ⟨rfl, rfl, rfl, rfl⟩
    | query t m => exact same_trans (ih _) (same_active r t m)

/-- Two requests that answer in the same way from now on. -/
structure Alike (r r' : Req) : Prop where
  same : Same r r'
  start : r.start = r'.start
  endT : r.endT = r'.endT
  interval : r.timing = .timeInterval → r.next = r'.next
  next : r.endT ≠ none → r.next = r'.next ∧ r.points = r'.points

theorem alike_new {r r' : Req} (h : Same r r') (t : ℝ) : Alike (newStep r t) (newStep r' t) := by
  obtain ⟨ti, iv, c, n, ts, ps, nx, st, e⟩ := r
  obtain ⟨ti', iv', c', n', ts', ps', nx', st', e'⟩ := r'
  obtain ⟨h1, h2, h3, h4⟩ := h
  dsimp only at h1 h2 h3 h4
  subst h1 h2 h3 h4
  by_cases hi : ti = .timeInterval
  · simp only [newStep, if_pos hi]
    exact ⟨⟨rfl, rfl, rfl, rfl⟩, rfl, rfl, fun _ => rfl, fun hn => absurd rfl hn⟩
  · simp only [newStep, if_neg hi]
    exact ⟨⟨rfl, rfl, rfl, rfl⟩, rfl, rfl, fun hn => absurd hn hi, fun hn => absurd rfl hn⟩

theorem alike_advance {r r' : Req} (h : Alike r r') (hp : r.points = r'.points) (hi : r.timing ≠ .timeInterval) : Alike (advance r) (advance r') := by
  unfold advance
  rw [hp]
  cases r'.points with
  | nil => exact ⟨⟨h.same.1, h.same.2, h.same.3, h.same.4⟩, h.start, h.endT, fun hn => absurd hn hi, fun _ => ⟨rfl, rfl⟩⟩
  | cons p ps => exact ⟨⟨h.same.1, h.same.2, h.same.3, h.same.4⟩, h.start, h.endT, fun hn => absurd hn hi, fun _ => ⟨rfl, rfl⟩⟩

theorem advance_end (r : Req) : (advance r).endT = r.endT := by unfold advance; cases r.points <;> rfl

theorem advance_alike {r r' : Req} (h : Same r r') (hs : r.start = r'.start) (he : r.endT = r'.endT) (hp : r.points = r'.points) (hi : r.timing ≠ .timeInterval) : Alike (advance r) (advance r') := by
  unfold advance
  rw [hp]
  cases r'.points with
  | nil => exact ⟨⟨h.1, h.2, h.3, h.4⟩, hs, he, fun hn => absurd hn hi, fun _ => ⟨rfl, rfl⟩⟩
  | cons p ps => exact ⟨⟨h.1, h.2, h.3, h.4⟩, hs, he, fun hn => absurd hn hi, fun _ => ⟨rfl, rfl⟩⟩

theorem alike_first {r r' : Req} (h : Alike r r') (ht : r.timing = .nOutputsPerStep ∨ r.timing = .stepTimes) (m : ℝ) :
    Alike (firstCall r m) (firstCall r' m) ∧ (firstCall r m).endT ≠ none := by
  obtain ⟨ti, iv, c, n, ts, ps, nx, st, e⟩ := r
  obtain ⟨ti', iv', c', n', ts', ps', nx', st', e'⟩ := r'
  obtain ⟨⟨h1, h2, h3, h4⟩, h5, h6, h7, h8⟩ := h
  dsimp only at h1 h2 h3 h4 h5 h6 h7 h8 ht
  subst h1 h2 h3 h4 h5 h6
  cases e with
  | some x => exact ⟨⟨⟨rfl, rfl, rfl, rfl⟩, rfl, rfl, h7, h8⟩, Option.some_ne_none x⟩
  | none =>
    rcases ht with rfl | rfl
    · simp only [firstCall, if_true, reduceCtorEq, if_false]
      exact ⟨advance_alike ⟨rfl, rfl, rfl, rfl⟩ rfl rfl rfl nofun, by rw [advance_end]; exact Option.some_ne_none _⟩
    · simp only [firstCall, if_true, reduceCtorEq, if_false]
      exact ⟨advance_alike ⟨rfl, rfl, rfl, rfl⟩ rfl rfl rfl nofun, by rw [advance_end]; exact Option.some_ne_none _⟩

theorem alike_active {r r' : Req} (h : Alike r r') (ht : r.timing ≠ .interval) (hg : r.timing ≠ .globalTimes) (t m : ℝ) :
    (isActive r t m).1 = (isActive r' t m).1 ∧ Alike (isActive r t m).2 (isActive r' t m).2 := by
  have later : r.timing = .nOutputsPerStep ∨ r.timing = .stepTimes → ∀ b b', b = firstCall r m → b' = firstCall r' m →
      (match b.next with | none => (false, b) | some nx => if nx ≤ t then (true, advance b) else (false, b)).1 =
        (match b'.next with | none => (false, b') | some nx => if nx ≤ t then (true, advance b') else (false, b')).1 ∧
      Alike (match b.next with | none => (false, b) | some nx => if nx ≤ t then (true, advance b) else (false, b)).2
        (match b'.next with | none => (false, b') | some nx => if nx ≤ t then (true, advance b') else (false, b')).2 := by
    rintro ht b b' rfl rfl
    obtain ⟨h1, h2⟩ := alike_first h ht m
    have hi : (firstCall r m).timing ≠ .timeInterval := by rw [(same_first r m).timing]; rcases ht with h | h <;> rw [h] <;> decide
    obtain ⟨h3, h4⟩ := h1.next h2
    rw [← h3]
    cases (firstCall r m).next with
    | none => exact ⟨rfl, h1⟩
    | some y =>
      dsimp only
      split_ifs
      · exact ⟨rfl, alike_advance h1 h4 hi⟩
      · exact ⟨rfl, h1⟩
  have e := h.same.timing
  unfold isActive
  rw [← e]
  cases hti : r.timing with
  | interval => exact absurd hti ht
  | globalTimes => exact absurd hti hg
  | nOutputsPerStep => exact later (Or.inl hti) _ _ rfl rfl
  | stepTimes => exact later (Or.inr hti) _ _ rfl rfl
  | timeInterval =>
    dsimp only
    rw [← h.interval hti]
    cases r.next with
    | none => exact ⟨rfl, h⟩
    | some y =>
      dsimp only
      split_ifs
      · refine ⟨rfl, ⟨⟨rfl, h.same.2, h.same.3, h.same.4⟩, h.start, h.endT, fun _ => by rw [h.same.interval], fun hn => ⟨by rw [h.same.interval], (h.next hn).2⟩⟩⟩
      · exact ⟨rfl, h⟩

theorem alike_run (es : List Event) : ∀ r r', Alike r r' → r.timing ≠ .interval → r.timing ≠ .globalTimes → (Outputs.run r es).1 = (Outputs.run r' es).1 := by
  induction es with
  | nil => intro r r' _ _ _; rfl
  | cons e es ih =>
    intro r r' h ht hg
    cases e with
    | newStep t =>
      have hs : (newStep r t).timing = r.timing := by unfold newStep; dsimp only; split_ifs <;> rfl
      exact ih _ _ (alike_new h.same t) (by rw [hs]; exact ht) (by rw [hs]; exact hg)
    | query t m =>
      obtain ⟨h1, h2⟩ := alike_active h ht hg t m
      have hs := (same_active r t m).timing
      rw [Outputs.run, Outputs.run]
      dsimp only
      rw [h1, ih _ _ h2 (by rw [hs]; exact ht) (by rw [hs]; exact hg)]

/-- **C157 (partial)**: requests for times in a step, a number of outputs per step or a time interval give the same answers in a second analysis, whatever happened before, as if they were new. Missing: requests for every n-th
increment and for global times, see `C157_interval`, `C157_interval_wrong` and `C157_global_wrong`. -/
theorem C157_outputs_partial {ti : Timing} {v : Value} {r : Req} (hr : mk ti v = .ok r) (h1 : ti ≠ .interval) (h2 : ti ≠ .globalTimes) (before : List Event) (t : ℝ) (es : List Event) :
    (Outputs.run (Outputs.run r before).2 (.newStep t :: es)).1 = (Outputs.run r (.newStep t :: es)).1 := by
  have ht : r.timing = ti := by
    unfold mk at hr
    split at hr <;> first | cases hr; rfl | cases hr
  have hs := same_run before r
  have hn : (newStep (Outputs.run r before).2 t).timing = ti := by
    rw [← ht, ← hs.timing]
    unfold newStep
    dsimp only
    split_ifs <;> rfl
  exact alike_run es _ _ (alike_new hs t) (by rw [hn]; exact h1) (by rw [hn]; exact h2)

/-- **C157**: requests for every n-th increment go on counting: in a second analysis after `before` the increments are those whose number from the start of the first analysis is a multiple of n. -/
theorem C157_interval {n : ℕ} (hn : 0 < n) {r : Req} (hr : mk .interval (.int n) = .ok r) (before es : List Event) {j : ℕ} (hj : j < queries es) :
    (Outputs.run (Outputs.run r before).2 es).1[j]? = some true ↔ n ∣ queries before + j := by
  have h := C16_every_nth_increment_int n hn r hr (before ++ es) (queries before + j) (by
    have e := run_length (before ++ es) r
    rw [run_append, List.length_append, run_length, run_length] at e
    omega)
  rw [run_append, List.getElem?_append_right (by rw [run_length]; omega), run_length] at h
  simpa using h

/-- **C157 (negation)**: if the number of increments of the first analysis is not a multiple of n the second analysis does not give the output of its first increment, which the first analysis gave. -/
theorem C157_interval_wrong {n : ℕ} (hn : 0 < n) {r : Req} (hr : mk .interval (.int n) = .ok r) {before : List Event} (hb : ¬ n ∣ queries before) :
    (Outputs.run r before).1[0]? = some true ∧ (Outputs.run (Outputs.run r before).2 before).1[0]? = some false := by
  have h0 : 0 < queries before := Nat.pos_of_ne_zero fun h => hb (by rw [h]; exact dvd_zero n)
  refine ⟨(C16_every_nth_increment_int n hn r hr before 0 h0).2 (dvd_zero n), ?_⟩
  have hl : 0 < (Outputs.run (Outputs.run r before).2 before).1.length := by rw [run_length]; exact h0
  have h := mt (C157_interval hn hr before before h0).1 (by simpa using hb)
  rw [List.getElem?_eq_getElem hl] at h ⊢
  simpa using h

/-- The number of outputs that a request for global times can still give. -/
def rest (r : Req) : ℕ := r.points.length + if r.next ≠ none ∧ r.endT ≠ none then 1 else 0

theorem rest_advance (r : Req) : rest (advance r) ≤ r.points.length ∧ (advance r).timing = r.timing := by
  unfold rest advance
  cases h : r.points with
  | nil => simp [h]
  | cons p ps =>
    dsimp only
    refine ⟨?_, rfl⟩
    split_ifs <;> simp

theorem rest_run (es : List Event) : ∀ r, r.timing = .globalTimes → (Outputs.run r es).1.count true + rest (Outputs.run r es).2 ≤ rest r := by
  induction es with
  | nil => intro r _; simp [Outputs.run]
  | cons e es ih =>
    intro r ht
    cases e with
    | newStep t =>
      have hn : newStep r t = { r with start := t, endT := none } := by simp [newStep, ht]
      refine (ih (newStep r t) (by rw [hn]; exact ht)).trans ?_
      rw [hn]
      simp [rest]
    | query t m =>
      have hf : rest (firstCall r m) ≤ rest r ∧ (firstCall r m).timing = .globalTimes ∧ (firstCall r m).endT ≠ none := by
        unfold firstCall
        cases he : r.endT with
        | some x => exact ⟨le_rfl, ht, by rw [he]; exact Option.some_ne_none x⟩
        | none =>
          simp only [ht, reduceCtorEq, if_false]
          refine ⟨(rest_advance _).1.trans ?_, (rest_advance _).2, by rw [advance_end]; exact Option.some_ne_none _⟩
          simp [rest]
      obtain ⟨h1, h2, h3⟩ := hf
      have hact : isActive r t m = match (firstCall r m).next with
          | none => (false, firstCall r m)
          | some nx => if nx ≤ t then (true, advance (firstCall r m)) else (false, firstCall r m) := by
        unfold isActive
        rw [ht]
        rfl
      rw [Outputs.run, hact]
      cases hx : (firstCall r m).next with
      | none =>
        have := ih (firstCall r m) h2
        simp
        omega
      | some y =>
        dsimp only
        split_ifs
        · have := ih (advance (firstCall r m)) ((rest_advance _).2.trans h2)
          have h4 := (rest_advance (firstCall r m)).1
          have h5 : rest (firstCall r m) = (firstCall r m).points.length + 1 := by unfold rest; rw [if_pos ⟨by rw [hx]; exact Option.some_ne_none y, h3⟩]
          simp
          omega
        · have := ih (firstCall r m) h2
          simp
          omega

/-- **C157 (negation)**: a request for global times gives each of them at most once over all analyses; if a first analysis gave all that it can give (all but the first one) no later analysis gives an output. -/
theorem C157_global_wrong {l : List ℝ} {r : Req} (hr : mk .globalTimes (.list l) = .ok r) {before : List Event} (hall : (Outputs.run r before).1.count true + 1 = l.length) (es : List Event) :
    ∀ b ∈ (Outputs.run (Outputs.run r before).2 es).1, b = false := by
  have hr' : r.timing = .globalTimes ∧ rest r + 1 = l.length := by
    cases l with
    | nil => cases hr
    | cons p ps => cases hr; simp [rest]
  have h1 := rest_run before r hr'.1
  have h2 := rest_run es (Outputs.run r before).2 ((same_run before r).timing.trans hr'.1)
  have h3 : (Outputs.run (Outputs.run r before).2 es).1.count true = 0 := by omega
  intro b hb
  cases b with
  | false => rfl
  | true => exact absurd hb (List.count_eq_zero.1 h3)

example := C157_outputs_partial (ti := .stepTimes) (v := .list [0, 1]) rfl nofun nofun [.newStep 0, .query 0 1, .query 1 1] 0 [.query 0 1, .query 1 1]

/-- Every second increment of three increments: the first and the third; in the second analysis only the second one. -/
example : ∃ r, mk .interval (.int 2) = .ok r ∧ (Outputs.run r [.newStep 0, .query 1 3, .query 2 3, .query 3 3]).1[0]? = some true ∧
    (Outputs.run (Outputs.run r [.newStep 0, .query 1 3, .query 2 3, .query 3 3]).2 [.newStep 0, .query 1 3, .query 2 3, .query 3 3]).1[0]? = some false :=
  ⟨_, rfl, C157_interval_wrong (by norm_num) rfl (by decide)⟩

example := C157_interval (n := 2) (by norm_num) rfl [.newStep 0, .query 1 3, .query 2 3, .query 3 3] [.newStep 0, .query 1 3] (j := 0) (by decide)

/-- The global times 0 and 1: the output at 1 is given in the first analysis, and nothing in the second. -/
example : ∃ r, mk .globalTimes (.list [0, 1]) = .ok r ∧ ∀ b ∈ (Outputs.run (Outputs.run r [.newStep 0, .query 1 2]).2 [.newStep 0, .query 1 2]).1, b = false :=
  ⟨_, rfl, C157_global_wrong (l := [0, 1]) rfl (by simp [Outputs.run, newStep, isActive, firstCall, advance]) _⟩

end outputs

/-! ## Examples -/

open LoadControl

/-- A step with time dependence is solved, then solved again from another time, then as the first time. -/
example : ∃ st l l' cs cs', construct (constant .none (.number (3 / 2)) false 1) = .ok st ∧ Quasi.run (constant .none (.number (3 / 2)) false 1) start softs (fun _ => ⟨[], 0⟩) = .ok (l, cs) ∧ cs.length = 1 ∧
    solve (constant .none (.number (3 / 2)) false 1) st l.q l.opt ⟨5, ⟨none, none, none⟩, none⟩ softs (fun _ => ⟨[], 0⟩) = .ok (l', cs') ∧
    (solve (constant .none (.number (3 / 2)) false 1) st l'.q l'.opt start softs (fun _ => ⟨[], 0⟩)).map Prod.snd = .ok cs := by
  have hgood : ∀ prev : Previous Mask, prev.quantities = ⟨none, none, none⟩ → ∃ l cs, Quasi.run (constant .none (.number (3 / 2)) false 1) prev softs (fun _ => ⟨[], 0⟩) = .ok (l, cs) ∧ cs.length = 1 := by
    intro prev hp
    have hqs : Interp.run .real (constant .none (.number (3 / 2)) false 1).quantities prev.quantities = .ok (List.replicate 1 ⟨some (0, 0), none, some (3 / 2), none⟩) := by rw [hp]; rfl
    obtain ⟨l, cs, h1, h2, -⟩ := C101_time_partial (constant .none (.number (3 / 2)) false 1) prev softs (fun _ => ⟨[], 0⟩) hqs rfl (Or.inl rfl) rfl rfl (by
      intro k q y hk hq
      rw [List.eq_of_mem_replicate (List.mem_of_getElem? hk)] at hq
      injection hq with hq
      rw [← hq]
      exact ⟨rfl, soft_fresh (by norm_num) (by norm_num), touching soft_touch (by norm_num)⟩)
    exact ⟨l, cs, h1, h2⟩
  obtain ⟨l, cs, h1, h2⟩ := hgood start rfl
  obtain ⟨l2, cs2, h3, h4⟩ := hgood ⟨5, ⟨none, none, none⟩, none⟩ rfl
  obtain ⟨st, hst⟩ : ∃ st, construct (constant .none (.number (3 / 2)) false 1) = .ok st := ⟨_, rfl⟩
  have hs : solve (constant .none (.number (3 / 2)) false 1) st st.q none start softs (fun _ => ⟨[], 0⟩) = .ok (l, cs) := by
    rw [← h1]
    unfold Quasi.run
    rw [hst]
    rfl
  have hu : Used (fun _ => True) (constant .none (.number (3 / 2)) false 1) st l.q l.opt := .again start softs _ .new trivial hs
  have h5 := C157_time_partial hst rfl hu ⟨5, ⟨none, none, none⟩, none⟩ softs (fun _ => ⟨[], 0⟩)
  rw [h3] at h5
  cases hs2 : solve (constant .none (.number (3 / 2)) false 1) st l.q l.opt ⟨5, ⟨none, none, none⟩, none⟩ softs (fun _ => ⟨[], 0⟩) with
  | error e => rw [hs2] at h5; cases h5
  | ok v =>
    refine ⟨st, l, v.1, cs, v.2, hst, h1, h2, hs2, ?_⟩
    have h6 := C157_time_partial hst rfl (.again _ softs _ hu trivial (l := v.1) (cs := v.2) hs2) start softs (fun _ => ⟨[], 0⟩)
    rw [h6, h1]
    rfl

/-- A lubrication step with constant load and rolling speed after one increment. -/
example (E : LubStep.Env (Fin 1) Unit Unit) (prev : LubStep.Previous (Fin 1)) (a : LubStep.Args (Fin 1))
    (ha : a = ⟨⟨.number 0, .number 0, .number 2, .none, some (.number 3), false, false, 4⟩, none, ⟨1 / 100, 1 / 2, 10, none, 1⟩, 1⟩) :
    ∃ st q, LubStep.construct a = .ok st ∧ Interp.updateMovement .real st prev.quantities st.q 0 = .ok q ∧
      LubStep.increments a st prev E st.steps 0 q prev.pressure prev.interference = LubStep.run a prev E := by
  subst ha
  have h : LubStep.construct (⟨⟨.number 0, .number 0, .number 2, .none, some (.number 3), false, false, 4⟩, none, ⟨1 / 100, 1 / 2, 10, none, 1⟩, 1⟩ : LubStep.Args (Fin 1)) =
      .ok ⟨⟨some (0, 0), some 2, none, some 3⟩, none, none, none, none, false, 4⟩ := by
    unfold LubStep.construct
    rw [if_neg (by norm_num)]
    rfl
  exact ⟨_, _, h, rfl, C157_lubrication h (.tail .refl ⟨prev.quantities, 0, rfl⟩) prev E⟩

/-- Without time dependence the same step fails the second time; the states of the first time are those of the contact. -/
example : ∃ st l cs, construct (constant .none (.number (3 / 2)) true 1) = .ok st ∧ Quasi.run (constant .none (.number (3 / 2)) true 1) start softs (fun _ => ⟨[], 0⟩) = .ok (l, cs) ∧ cs.length = 1 ∧
    (∀ (k : ℕ) c, cs[k]? = some c → c.totalLoad = (soft.problem.bccg c.solvedAt (soft.problem.touching c.solvedAt)).1) ∧
    ∃ e, solve (constant .none (.number (3 / 2)) true 1) st l.q l.opt start softs (fun _ => ⟨[], 0⟩) = .error e := by
  have hqs : Interp.run .real (constant .none (.number (3 / 2)) true 1).quantities start.quantities = .ok (List.replicate 1 ⟨some (0, 0), none, some (3 / 2), none⟩) := rfl
  obtain ⟨l, cs, h1, h2, -⟩ := C101_no_time_partial (constant .none (.number (3 / 2)) true 1) start softs (fun _ => ⟨[], 0⟩) hqs rfl (Or.inl rfl) rfl rfl (P := soft.problem) (fun _ _ => rfl) rfl (by
      intro k q y hk hq
      rw [List.eq_of_mem_replicate (List.mem_of_getElem? hk)] at hq
      injection hq with hq
      rw [← hq]
      exact ⟨soft_fresh (by norm_num) (by norm_num), touching soft_touch (by norm_num)⟩) (by
      intro j k q q' hj hk _
      obtain ⟨hj, -⟩ := List.getElem?_eq_some_iff.mp hj
      obtain ⟨hk, -⟩ := List.getElem?_eq_some_iff.mp hk
      simp at hj hk
      omega)
  obtain ⟨st, hst⟩ : ∃ st, construct (constant .none (.number (3 / 2)) true 1) = .ok st := ⟨_, rfl⟩
  have hs : solve (constant .none (.number (3 / 2)) true 1) st st.q none start softs (fun _ => ⟨[], 0⟩) = .ok (l, cs) := by
    rw [← h1]
    unfold Quasi.run
    rw [hst]
    rfl
  exact ⟨st, l, cs, hst, h1, h2, fun k c hk => (C157_true hst .new (Or.inl rfl) hqs (fun _ _ => rfl) hs hk).1,
    C157_no_time_wrong hst rfl rfl (Or.inl rfl) hqs (q := ⟨some (0, 0), none, some (3 / 2), none⟩) rfl rfl rfl rfl h1 _ _⟩

end Verif.Again
