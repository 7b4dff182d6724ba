import Verif.SubNames.Model
import Verif.Steps.CheckProps
import Verif.Steps.SaveLemmas
import Verif.Stiffness.Props

/-!
# C162: do the built-in sub models find what they require and deliver what they announce?
-/

namespace Verif.SubNames

open Verif Steps

/-! ## Specification -/

/-- The dictionary has an entry with the name. -/
def Has {V : Type} (d : Dict V) (n : String) : Prop := ∃ v, (n, v) ∈ d

/-- A sub model can be trusted: given at least what it requires it returns, and what it returns are exactly the names it announces. -/
def Honest {V : Type} (m : SubModel V) : Prop :=
  ∀ d : Dict V, (∀ n ∈ m.requires, Has d n) → ∃ r, m.solve d = .ok r ∧ ∀ n, Has r n ↔ n ∈ m.provides

/-- The sub model comes from a constructor of the package. -/
def Constructed : BuiltIn → Prop
  | .stiffness c => ∃ d dir l u b tol maxIt, Stiffness.construct d dir l u b tol maxIt = .ok c
  | _ => True

/-! ## Lemmas -/

variable {V ι : Type} [Fintype ι]

theorem has_keys (d : Dict V) (n : String) : Has d n ↔ n ∈ d.keys := by simp [Has, Dict.keys, List.mem_map]

theorem item_ok {d : Dict V} {n : String} (h : Has d n) : ∃ v, item d n = .ok v := by
  obtain ⟨v, hv⟩ := (Dict.mem_keys_iff d n).1 ((has_keys d n).1 h)
  exact ⟨v, by simp [item, hv]⟩

theorem get?_none {d : Dict V} {n : String} (h : ¬ Has d n) : d.get? n = none := by
  rw [has_keys, Dict.mem_keys_iff] at h
  cases hg : d.get? n with
  | none => rfl
  | some v => exact absurd ⟨v, hg⟩ h

theorem item_error {d : Dict V} {n : String} (h : ¬ Has d n) : item d n = .error .keyError := by
  simp [item, get?_none h]

/-- The announced names of a stiffness are those that are found. -/
theorem stiffness_names (w : Values V ι) {c : Stiffness.Config} (hc : Constructed (.stiffness c)) (e n : ι → Bool) (s : String) :
    Has ((Stiffness.solve c w.A w.imSum e n w.mem).1.map fun p => (p.1, w.num p.2)) s ↔ s ∈ c.provides := by
  obtain ⟨d, dir, l, u, b, tol, maxIt, h⟩ := hc
  rw [← Stiffness.C91_names h w.A w.imSum e n w.mem s]
  simp [Has, List.mem_map]

theorem stiffness_ok (w : Values V ι) (c : Stiffness.Config) {d : Dict V} (h1 : Has d "contact_nodes") (h2 : Has d "loads") :
    ∃ e n, solveStiffness w c d = .ok ((Stiffness.solve c w.A w.imSum e n w.mem).1.map fun p => (p.1, w.num p.2)) := by
  obtain ⟨a, ha⟩ := item_ok h1
  obtain ⟨l, hl⟩ := item_ok h2
  unfold solveStiffness
  cases c.loading <;> cases c.unloading <;> simp only [ha, hl, bind, Except.bind, if_true, if_false, Bool.false_eq_true] <;> exact ⟨_, _, rfl⟩

/-! ## C162 -/

/-- **C162**: Coulomb friction and the contact stiffness can be trusted. -/
theorem C162_honest_partial (w : Values V ι) (b : BuiltIn) (hb : b = .coulomb ∨ ∃ c, b = .stiffness c) (hc : Constructed b) : Honest (b.sub w) := by
  rcases hb with rfl | ⟨c, rfl⟩
  · intro d hd
    obtain ⟨v, hv⟩ := item_ok (hd "loads" (by simp [BuiltIn.sub, BuiltIn.requires]))
    refine ⟨[("maximum_tangential_force", w.val "maximum_tangential_force" d)], ?_, ?_⟩
    · simp [BuiltIn.sub, BuiltIn.solve, solveCoulomb, hv, bind, Except.bind]
    · intro n; simp [Has, BuiltIn.sub, BuiltIn.provides]
  · intro d hd
    obtain ⟨e, n, h⟩ := stiffness_ok w c (hd "contact_nodes" (by simp [BuiltIn.sub, BuiltIn.requires])) (hd "loads" (by simp [BuiltIn.sub, BuiltIn.requires]))
    exact ⟨_, h, stiffness_names w hc e n⟩

/-- **C162 does not hold for pure sliding**: the normal loads are read though they are not among the requirements. -/
theorem C162_sliding_wrong (w : Values V ι) (d : Dict V) (h1 : Has d "maximum_tangential_force") (h2 : ¬ Has d "loads") :
    (∀ n ∈ (BuiltIn.sliding.sub w).requires, Has d n) ∧ (BuiltIn.sliding.sub w).solve d = .error .keyError := by
  obtain ⟨v, hv⟩ := item_ok h1
  refine ⟨by simpa [BuiltIn.sub, BuiltIn.requires] using h1, ?_⟩
  simp [BuiltIn.sub, BuiltIn.solve, solveSliding, hv, item_error h2, bind, Except.bind]

/-- What is missing: with the loads in the state pure sliding works and delivers what it announces. -/
theorem C162_sliding_partial (w : Values V ι) (d : Dict V) (h1 : ∀ n ∈ (BuiltIn.sliding.sub w).requires, Has d n) (h2 : Has d "loads") :
    ∃ r, (BuiltIn.sliding.sub w).solve d = .ok r ∧ ∀ n, Has r n ↔ n ∈ (BuiltIn.sliding.sub w).provides := by
  obtain ⟨v, hv⟩ := item_ok (h1 "maximum_tangential_force" (by simp [BuiltIn.sub, BuiltIn.requires]))
  obtain ⟨l, hl⟩ := item_ok h2
  refine ⟨[("loads", w.val "loads" d)], ?_, ?_⟩
  · simp [BuiltIn.sub, BuiltIn.solve, solveSliding, hv, hl, bind, Except.bind]
  · intro n; simp [Has, BuiltIn.sub, BuiltIn.provides]

theorem slip_ok (w : Values V ι) {k : SlipKind} (hk : k ≠ .load) {d : Dict V} (h : ∀ n ∈ (BuiltIn.slip k).requires, Has d n) :
    ∃ r, solveSlip w k d = .ok r ∧ (∀ n, Has r n ↔ Has d n ∨ n ∈ ["slip_distance", "stick_nodes", "loads", "total_displacement"]) ∧
      (∀ n, n ∉ ["slip_distance", "stick_nodes", "loads", "total_displacement"] → r.get? n = d.get? n) ∧ (d.keys.Nodup → r.keys.Nodup) := by
  obtain ⟨v, hv⟩ := item_ok (h "maximum_tangential_force" (by simp [BuiltIn.requires]))
  obtain ⟨c, hc⟩ := item_ok (h "contact_nodes" (by simp [BuiltIn.requires]))
  obtain ⟨t, ht⟩ := item_ok (h "time" (by simp [BuiltIn.requires]))
  have key : ∀ a b c e : V, (∀ n, Has ((((d.set "stick_nodes" a).set "loads" b).set "total_displacement" c).set "slip_distance" e) n ↔
      Has d n ∨ n ∈ ["slip_distance", "stick_nodes", "loads", "total_displacement"]) ∧
      (∀ n, n ∉ ["slip_distance", "stick_nodes", "loads", "total_displacement"] →
        ((((d.set "stick_nodes" a).set "loads" b).set "total_displacement" c).set "slip_distance" e).get? n = d.get? n) ∧
      (d.keys.Nodup → ((((d.set "stick_nodes" a).set "loads" b).set "total_displacement" c).set "slip_distance" e).keys.Nodup) := by
    intro a b c e
    refine ⟨fun n => ?_, fun n hn => ?_, fun hnd => Dict.nodup_set _ _ _ (Dict.nodup_set _ _ _ (Dict.nodup_set _ _ _ (Dict.nodup_set _ _ _ hnd)))⟩
    · simp only [has_keys, Dict.mem_keys_set, List.mem_cons, List.not_mem_nil, or_false]
      tauto
    · simp only [List.mem_cons, List.not_mem_nil, or_false, not_or] at hn
      simp [Dict.get?_set, hn.1, hn.2.1, hn.2.2.1, hn.2.2.2]
  cases k with
  | load => exact absurd rfl hk
  | fromState =>
    obtain ⟨q, hq⟩ := item_ok (h "rigid_body_displacement" (by simp [BuiltIn.requires]))
    exact ⟨_, by simp only [solveSlip, hv, hc, hq, bind, Except.bind]; rfl, key _ _ _ _⟩
  | table => exact ⟨_, by simp only [solveSlip, hv, hc, ht, bind, Except.bind]; rfl, key _ _ _ _⟩
  | constant => exact ⟨_, by simp only [solveSlip, hv, hc, bind, Except.bind]; rfl, key _ _ _ _⟩

/-- **C162 does not hold for partial slip**: given all it requires it returns the whole state, so it never returns exactly the names it announces, and a step with
`ERROR_IF_MISSING_SUB_MODEL` switched off refuses it; under load control it never returns. -/
theorem C162_slip_wrong (w : Values V ι) (k : SlipKind) (d : Dict V) (h : ∀ n ∈ ((BuiltIn.slip k).sub w).requires, Has d n) (rest : List (SubModel V)) :
    (∀ r, ((BuiltIn.slip k).sub w).solve d = .ok r → ¬ ∀ n, Has r n ↔ n ∈ ((BuiltIn.slip k).sub w).provides) ∧
    (k ≠ .load → ∀ provides, solveSubModels true false provides ((BuiltIn.slip k).sub w :: rest) d = .error .valueError) ∧
    (k = .load → ((BuiltIn.slip k).sub w).solve d = .error .notImplementedError) := by
  have hload : k = .load → ((BuiltIn.slip k).sub w).solve d = .error .notImplementedError := by
    rintro rfl
    obtain ⟨v, hv⟩ := item_ok (h "maximum_tangential_force" (by simp [BuiltIn.sub, BuiltIn.requires]))
    obtain ⟨c, hc⟩ := item_ok (h "contact_nodes" (by simp [BuiltIn.sub, BuiltIn.requires]))
    simp [BuiltIn.sub, BuiltIn.solve, solveSlip, hv, hc, bind, Except.bind]
  refine ⟨?_, ?_, hload⟩
  · intro r hr hn
    by_cases hk : k = .load
    · rw [hload hk] at hr; cases hr
    · obtain ⟨r', hr', h1, -⟩ := slip_ok w hk h
      have : r = r' := by
        have := hr.symm.trans hr'
        simpa using this
      subst this
      have := (hn "loads").1 ((h1 _).2 (by simp))
      simp [BuiltIn.sub, BuiltIn.provides] at this
  · intro hk provides
    obtain ⟨r, hr, h1, -⟩ := slip_ok w hk h
    have hs : sameSet ((BuiltIn.slip k).sub w).provides r.keys = false := by
      by_contra hc
      simp only [sameSet, Bool.not_eq_false, Bool.and_eq_true, List.all_eq_true, List.contains_eq_mem, decide_eq_true_eq] at hc
      have := hc.2 "loads" ((has_keys _ _).1 ((h1 _).2 (by simp)))
      simp [BuiltIn.sub, BuiltIn.provides] at this
    have hr' : ((BuiltIn.slip k).sub w).solve d = .ok r := hr
    simp [solveSubModels, solveLoop, hr', hs]

/-- What is missing: unless a load is given, partial slip finds all it reads among its requirements. It adds the announced names to the state, and writes the loads and the
total displacements, which it does not announce; every other entry of the state is kept. -/
theorem C162_slip_partial (w : Values V ι) (k : SlipKind) (hk : k ≠ .load) (d : Dict V) (h : ∀ n ∈ ((BuiltIn.slip k).sub w).requires, Has d n) :
    ∃ r, ((BuiltIn.slip k).sub w).solve d = .ok r ∧ (∀ n ∈ ((BuiltIn.slip k).sub w).provides, Has r n) ∧
      (∀ n, Has r n ↔ Has d n ∨ n ∈ ["slip_distance", "stick_nodes", "loads", "total_displacement"]) ∧
      ∀ n, n ∉ ["slip_distance", "stick_nodes", "loads", "total_displacement"] → r.get? n = d.get? n := by
  obtain ⟨r, hr, h1, h2, -⟩ := slip_ok w hk h
  refine ⟨r, hr, ?_, h1, h2⟩
  intro n hn
  simp only [BuiltIn.sub, BuiltIn.provides, List.mem_cons, List.not_mem_nil, or_false] at hn
  exact (h1 n).2 (Or.inr (by rcases hn with rfl | rfl <;> simp))

/-- The state of a solution that did not converge. -/
def Failed (w : Values V ι) (d : Dict V) : Prop := ∃ v, d.get? "converged" = some v ∧ w.falsy v = true

theorem wear_failed (w : Values V ι) (p1 p2 noTime : Bool) {d : Dict V} (h : Failed w d) : solveWear w p1 p2 noTime d = .ok d := by
  obtain ⟨v, hv, hf⟩ := h
  simp [solveWear, failed, hv, hf, bind, Except.bind, pure, Except.pure]

theorem not_failed (w : Values V ι) {d : Dict V} (h : ¬ Failed w d) :
    failed w d = false := by
  unfold failed
  cases hg : d.get? "converged" with
  | none => rfl
  | some v =>
    cases hf : w.falsy v with
    | false => exact hf
    | true => exact absurd ⟨v, hg, hf⟩ h

theorem wear_ok (w : Values V ι) (p1 p2 noTime : Bool) {d : Dict V} (hf : ¬ Failed w d) (h : ∀ n ∈ (BuiltIn.wear p1 p2 noTime).requires, Has d n)
    (hl : Has d "loads") (hc : Has d "contact_nodes") (hg : noTime = false → Has d "gap") :
    ∃ r, solveWear w p1 p2 noTime d = .ok r ∧ ∀ n, Has r n ↔ n ∈ (BuiltIn.wear p1 p2 noTime).provides := by
  obtain ⟨a1, h1⟩ := item_ok (h "interference" (by simp [BuiltIn.requires]))
  obtain ⟨a2, h2⟩ := item_ok (h "total_displacement" (by simp [BuiltIn.requires]))
  obtain ⟨a3, h3⟩ := item_ok (h "just_touching_gap" (by simp [BuiltIn.requires]))
  obtain ⟨a4, h4⟩ := item_ok hl
  obtain ⟨a5, h5⟩ := item_ok hc
  have e := not_failed w hf
  have hs1 : p1 = true → ∃ v, item d "surface_1_points" = .ok v := fun e => item_ok (h _ (by simp [BuiltIn.requires, e]))
  have hs2 : p2 = true → ∃ v, item d "surface_2_points" = .ok v := fun e => item_ok (h _ (by simp [BuiltIn.requires, e]))
  have hg' : noTime = false → ∃ v, item d "gap" = .ok v := fun e => item_ok (hg e)
  refine ⟨[("total_plastic_deformation", w.val "total_plastic_deformation" d)] ++
    (if p1 then [("wear_plastic_surface_1", w.val "wear_plastic_surface_1" d)] else []) ++
    (if p2 then [("wear_plastic_surface_2", w.val "wear_plastic_surface_2" d)] else []), ?_, ?_⟩
  · unfold solveWear
    rw [e]
    cases noTime with
    | false =>
      obtain ⟨g, hg⟩ := hg' rfl
      cases p1 <;> cases p2
      · simp [hg, h4, h5, bind, Except.bind]
      · obtain ⟨b, hb⟩ := hs2 rfl
        simp [hg, h4, h5, hb, bind, Except.bind]
      · obtain ⟨a, ha⟩ := hs1 rfl
        simp [hg, h4, h5, ha, bind, Except.bind]
      · obtain ⟨a, ha⟩ := hs1 rfl
        obtain ⟨b, hb⟩ := hs2 rfl
        simp [hg, h4, h5, ha, hb, bind, Except.bind]
    | true =>
      cases p1 <;> cases p2
      · simp [h1, h2, h3, h4, h5, bind, Except.bind]
      · obtain ⟨b, hb⟩ := hs2 rfl
        simp [h1, h2, h3, h4, h5, hb, bind, Except.bind]
      · obtain ⟨a, ha⟩ := hs1 rfl
        simp [h1, h2, h3, h4, h5, ha, bind, Except.bind]
      · obtain ⟨a, ha⟩ := hs1 rfl
        obtain ⟨b, hb⟩ := hs2 rfl
        simp [h1, h2, h3, h4, h5, ha, hb, bind, Except.bind]
  · intro n
    rw [has_keys]
    cases p1 <;> cases p2 <;> simp [Dict.keys, BuiltIn.provides]

/-- **C162 does not hold for wear**: the loads, the contact nodes and the gap are read though they are not among the requirements; and if the solution did not converge
the state is returned unchanged, so the announced names are not found. -/
theorem C162_wear_wrong (w : Values V ι) (p1 p2 noTime : Bool) (d : Dict V) (h : ∀ n ∈ ((BuiltIn.wear p1 p2 noTime).sub w).requires, Has d n) :
    (¬ Failed w d → (¬ Has d "loads" ∨ ¬ Has d "contact_nodes" ∨ (noTime = false ∧ ¬ Has d "gap")) →
      ((BuiltIn.wear p1 p2 noTime).sub w).solve d = .error .keyError) ∧
    (Failed w d → ((BuiltIn.wear p1 p2 noTime).sub w).solve d = .ok d ∧ ¬ ∀ n, Has d n ↔ n ∈ ((BuiltIn.wear p1 p2 noTime).sub w).provides) := by
  constructor
  · intro hf hm
    obtain ⟨a1, h1⟩ := item_ok (h "interference" (by simp [BuiltIn.sub, BuiltIn.requires]))
    obtain ⟨a2, h2⟩ := item_ok (h "total_displacement" (by simp [BuiltIn.sub, BuiltIn.requires]))
    obtain ⟨a3, h3⟩ := item_ok (h "just_touching_gap" (by simp [BuiltIn.sub, BuiltIn.requires]))
    show solveWear w p1 p2 noTime d = _
    unfold solveWear
    rw [not_failed w hf]
    by_cases hl : Has d "loads"
    · obtain ⟨a4, h4⟩ := item_ok hl
      by_cases hc : Has d "contact_nodes"
      · obtain ⟨rfl, hg⟩ : noTime = false ∧ ¬ Has d "gap" := by tauto
        simp [item_error hg, bind, Except.bind]
      · cases noTime with
        | true => simp [h1, h2, h3, h4, item_error hc, bind, Except.bind]
        | false =>
          by_cases hg : Has d "gap"
          · obtain ⟨a5, h5⟩ := item_ok hg
            simp [h4, h5, item_error hc, bind, Except.bind]
          · simp [item_error hg, bind, Except.bind]
    · cases noTime with
      | true => simp [h1, h2, h3, item_error hl, bind, Except.bind]
      | false =>
        by_cases hg : Has d "gap"
        · obtain ⟨a5, h5⟩ := item_ok hg
          simp [h5, item_error hl, bind, Except.bind]
        · simp [item_error hg, bind, Except.bind]
  · intro hf
    refine ⟨wear_failed w p1 p2 noTime hf, fun hn => ?_⟩
    have := (hn "interference").1 (h _ (by simp [BuiltIn.sub, BuiltIn.requires]))
    cases p1 <;> cases p2 <;> simp [BuiltIn.sub, BuiltIn.provides] at this

/-- What is missing: if the solution converged and the loads, the contact nodes and the gap are there too, wear works and delivers what it announces. -/
theorem C162_wear_partial (w : Values V ι) (p1 p2 noTime : Bool) (d : Dict V) (hf : ¬ Failed w d) (h : ∀ n ∈ ((BuiltIn.wear p1 p2 noTime).sub w).requires, Has d n)
    (hl : Has d "loads") (hc : Has d "contact_nodes") (hg : noTime = false → Has d "gap") :
    ∃ r, ((BuiltIn.wear p1 p2 noTime).sub w).solve d = .ok r ∧ ∀ n, Has r n ↔ n ∈ ((BuiltIn.wear p1 p2 noTime).sub w).provides :=
  wear_ok w p1 p2 noTime hf h hl hc hg

/-- **C162 does not hold**: pure sliding, partial slip and wear can't be trusted, with whatever options. -/
theorem C162_not_honest_wrong [Inhabited V] (w : Values V ι) (b : BuiltIn) (hb : b = .sliding ∨ (∃ k, b = .slip k) ∨ ∃ p1 p2 t, b = .wear p1 p2 t) : ¬ Honest (b.sub w) := by
  intro hh
  have hk : ∀ n, Has (b.requires.map fun n => (n, (default : V))) n ↔ n ∈ b.requires := fun n => by simp [Has]
  have hr : ∀ n ∈ (b.sub w).requires, Has (b.requires.map fun n => (n, (default : V))) n := fun n hn => (hk n).2 hn
  obtain ⟨r, h1, h2⟩ := hh _ hr
  rcases hb with rfl | ⟨k, rfl⟩ | ⟨p1, p2, t, rfl⟩
  · rw [(C162_sliding_wrong w _ (hr _ (by simp [BuiltIn.sub, BuiltIn.requires])) (by rw [hk]; simp [BuiltIn.requires])).2] at h1
    cases h1
  · exact (C162_slip_wrong w k _ hr []).1 r h1 h2
  · have hf : ¬ Failed w ((BuiltIn.wear p1 p2 t).requires.map fun n => (n, (default : V))) := by
      rintro ⟨v, hv, -⟩
      have := (hk "converged").1 ⟨v, Dict.mem_of_get? hv⟩
      revert this
      cases p1 <;> cases p2 <;> simp [BuiltIn.requires]
    rw [(C162_wear_wrong w p1 p2 t _ hr).1 hf (Or.inl (by rw [hk]; cases p1 <;> cases p2 <;> simp [BuiltIn.requires]))] at h1
    cases h1

/-- **C162 does not hold in lubrication steps**: wear passes the data check of a lubrication step, and then there are no contact nodes: for every state with at most the
quantities the step announces, the sub model raises `KeyError` (if the solution converged). -/
theorem C162_lubrication_wrong (w : Values V ι) (em aliased : Bool) (p1 p2 noTime : Bool) (subs : List String) (hsubs : "contact_nodes" ∉ subs) (d : Dict V)
    (h1 : ∀ n ∈ ((BuiltIn.wear p1 p2 noTime).sub w).requires, Has d n) (h2 : ∀ n, Has d n → n ∈ LubCheck.provides LubCheck.unified (some (some subs)))
    (hf : ¬ Failed w d) (es : Bool) (rest : List (SubModel V)) :
    (dataCheck em aliased [(BuiltIn.wear p1 p2 noTime).sub w] (LubCheck.provides LubCheck.unified (some (some subs)))).1.problems = [] ∧
    solveSubModels true es (dataCheck em aliased [(BuiltIn.wear p1 p2 noTime).sub w] (LubCheck.provides LubCheck.unified (some (some subs)))).2
      ((BuiltIn.wear p1 p2 noTime).sub w :: rest) d = .error .keyError := by
  have hreq : ∀ n ∈ (BuiltIn.wear p1 p2 noTime).requires, n ∈ LubCheck.provides LubCheck.unified (some (some subs)) := fun n hn => h2 n (h1 n hn)
  constructor
  · have : ((BuiltIn.wear p1 p2 noTime).sub w).requires.any (fun n => !(LubCheck.provides LubCheck.unified (some (some subs))).contains n) = false := by
      simp only [List.any_eq_false, Bool.not_eq_true', Bool.not_eq_false, List.contains_eq_mem, decide_eq_true_eq]
      exact hreq
    simp only [dataCheck, checkSubModels, this, Bool.false_eq_true, if_false]
  · have hcn : ¬ Has d "contact_nodes" := by
      intro hc
      have := h2 _ hc
      simp only [LubCheck.provides, LubCheck.ownProvides, LubCheck.baseProvides, LubCheck.unified, ReynoldsNew.requires, ReynoldsNew.provides, List.mem_append] at this
      rcases this with ((h | h) | h) | h
      · revert h; decide
      · revert h; decide
      · revert h; decide
      · exact hsubs h
    have := (C162_wear_wrong w p1 p2 noTime d h1).1 hf (Or.inr (Or.inl hcn))
    simp [solveSubModels, solveLoop, this]

/-! ## Steps with any sub models of the package -/

theorem nodup_update (d e : Dict V) (h : d.keys.Nodup) : (d.update e).keys.Nodup := by
  unfold Dict.update
  induction e generalizing d with
  | nil => exact h
  | cons a e ih => exact ih _ (Dict.nodup_set _ _ _ h)

theorem get?_update_of_get? (d e : Dict V) (he : e.keys.Nodup) (n : String) (h : e.get? n = d.get? n) : (d.update e).get? n = d.get? n := by
  by_cases hn : n ∈ e.keys
  · obtain ⟨v, hv⟩ := (Dict.mem_keys_iff e n).1 hn
    rw [get?_update_of_mem d e he n v (Dict.mem_of_get? hv), ← h, hv]
  · exact get?_update_of_not_mem d e n hn

theorem converged_not_stiffness {c : Stiffness.Config} (hc : Constructed (.stiffness c)) : "converged" ∉ c.provides := by
  obtain ⟨d, dir, l, u, b, tol, maxIt, h⟩ := hc
  have hp : ∃ ks, c.provides = Stiffness.provided ks dir l u b := by
    cases d with
    | other => simp [Stiffness.construct] at h
    | str s =>
      simp only [Stiffness.construct, bind, Except.bind] at h
      by_cases h1 : s.toLower = "both" <;> by_cases h2 : s.toLower = "mean lines" <;> by_cases h3 : s.toLower = "far points" <;>
        by_cases h4 : dir = "x" ∨ dir = "y" ∨ dir = "z" <;> by_cases h5 : (l || u) = true <;> simp [h1, h2, h3, h4, h5, -Bool.or_eq_true, -Bool.not_eq_true] at h <;>
        exact ⟨_, by rw [← h]⟩
  obtain ⟨ks, hp⟩ := hp
  rw [hp]
  intro hm
  simp only [Stiffness.provided, List.mem_flatMap, List.mem_append] at hm
  obtain ⟨k, -, hm⟩ := hm
  have first : ∀ t : String, "converged" ≠ "s_contact_stiffness_" ++ t := by
    intro t ht
    have := congrArg (fun s : String => s.toList.head?) ht
    simp at this
  rcases hm with hm | hm
  · split at hm
    · simp only [List.mem_cons, List.not_mem_nil, or_false] at hm
      apply first ("loading_" ++ k.text ++ "_" ++ dir ++ "_" ++ toString b)
      rw [hm]
      simp only [← String.append_assoc]
      rfl
    · cases hm
  · split at hm
    · simp only [List.mem_cons, List.not_mem_nil, or_false] at hm
      apply first ("unloading_" ++ k.text ++ "_" ++ dir ++ "_" ++ toString b)
      rw [hm]
      simp only [← String.append_assoc]
      rfl
    · cases hm

/-- A sub model of wear. -/
def IsWear (b : BuiltIn) : Prop := ∃ p1 p2 t, b = .wear p1 p2 t

theorem step_ok (w : Values V ι) {b : BuiltIn} (hc : Constructed b) (hk : b ≠ .slip .load) {d : Dict V} (hnd : d.keys.Nodup)
    (h : ∀ n ∈ b.requires, Has d n) (hl : Has d "loads") (ht : Has d "total_displacement") (hs : IsWear b → Has d "contact_nodes" ∧ Has d "gap") :
    ∃ r, b.solve w d = .ok r ∧ (∀ n, Has (d.update r) n ↔ Has d n ∨ (n ∈ b.provides ∧ ¬ (Failed w d ∧ IsWear b))) ∧
      (d.update r).get? "converged" = d.get? "converged" ∧ (d.update r).keys.Nodup := by
  have hu : ∀ (r : Dict V) n, Has (d.update r) n ↔ Has d n ∨ Has r n := fun r n => by simp only [has_keys, mem_keys_update]
  cases b with
  | coulomb =>
    obtain ⟨r, h1, h2⟩ := C162_honest_partial w .coulomb (Or.inl rfl) hc d h
    refine ⟨r, h1, fun n => ?_, ?_, nodup_update _ _ hnd⟩
    · rw [hu, h2]; simp [IsWear, BuiltIn.sub]
    · refine get?_update_of_not_mem _ _ _ fun hm => ?_
      have := (h2 _).1 ((has_keys _ _).2 hm)
      simp [BuiltIn.sub, BuiltIn.provides] at this
  | sliding =>
    obtain ⟨r, h1, h2⟩ := C162_sliding_partial w d h hl
    refine ⟨r, h1, fun n => ?_, ?_, nodup_update _ _ hnd⟩
    · rw [hu, h2]; simp [IsWear, BuiltIn.sub]
    · refine get?_update_of_not_mem _ _ _ fun hm => ?_
      have := (h2 _).1 ((has_keys _ _).2 hm)
      simp [BuiltIn.sub, BuiltIn.provides] at this
  | stiffness c =>
    obtain ⟨r, h1, h2⟩ := C162_honest_partial w (.stiffness c) (Or.inr ⟨c, rfl⟩) hc d h
    refine ⟨r, h1, fun n => ?_, ?_, nodup_update _ _ hnd⟩
    · rw [hu, h2]; simp [IsWear, BuiltIn.sub]
    · exact get?_update_of_not_mem _ _ _ fun hm => converged_not_stiffness hc ((h2 _).1 ((has_keys _ _).2 hm))
  | slip k =>
    obtain ⟨r, h1, h2, h3, hrn⟩ := slip_ok w (k := k) (fun e => hk (by rw [e])) h
    refine ⟨r, h1, fun n => ?_, get?_update_of_get? _ _ (hrn hnd) _ (h3 _ (by decide)), nodup_update _ _ hnd⟩
    rw [hu, h2]
    simp only [IsWear, BuiltIn.provides, List.mem_cons, List.not_mem_nil, or_false]
    constructor
    · rintro (h | h | rfl | rfl | rfl | rfl) <;> simp_all
    · rintro (h | ⟨h, -⟩)
      · exact Or.inl h
      · tauto
  | wear p1 p2 t =>
    by_cases hf : Failed w d
    · refine ⟨d, wear_failed w p1 p2 t hf, fun n => ?_, get?_update_of_get? _ _ hnd _ rfl, nodup_update _ _ hnd⟩
      rw [hu]
      simp [hf, IsWear]
    · obtain ⟨r, h1, h2⟩ := wear_ok w p1 p2 t hf h hl (hs ⟨p1, p2, t, rfl⟩).1 (fun _ => (hs ⟨p1, p2, t, rfl⟩).2)
      refine ⟨r, h1, fun n => ?_, ?_, nodup_update _ _ hnd⟩
      · rw [hu, h2]; simp [hf]
      · refine get?_update_of_not_mem _ _ _ fun hm => ?_
        have := (h2 _).1 ((has_keys _ _).2 hm)
        cases p1 <;> cases p2 <;> simp [BuiltIn.provides] at this

/-- No sub model of the package requires what wear announces. -/
theorem requires_not_wear (b b' : BuiltIn) (hb : IsWear b') (n : String) (h1 : n ∈ b.requires) (h2 : n ∈ b'.provides) : False := by
  obtain ⟨p1, p2, t, rfl⟩ := hb
  have hn : n = "total_plastic_deformation" ∨ n = "wear_plastic_surface_1" ∨ n = "wear_plastic_surface_2" := by
    cases p1 <;> cases p2 <;> simp [BuiltIn.provides] at h2 <;> tauto
  cases b with
  | coulomb => rcases hn with rfl | rfl | rfl <;> simp [BuiltIn.requires] at h1
  | sliding => rcases hn with rfl | rfl | rfl <;> simp [BuiltIn.requires] at h1
  | slip k => cases k <;> rcases hn with rfl | rfl | rfl <;> simp [BuiltIn.requires] at h1
  | stiffness c => rcases hn with rfl | rfl | rfl <;> simp [BuiltIn.requires] at h1
  | wear a b _ => cases a <;> cases b <;> rcases hn with rfl | rfl | rfl <;> simp [BuiltIn.requires] at h1

theorem loop_ok (w : Values V ι) (em : Bool) (bs : List BuiltIn) (hb : ∀ b ∈ bs, Constructed b ∧ b ≠ .slip .load) (i : Nat) (names : List String) (state : Dict V)
    (hc : (checkSubModels em (bs.map (BuiltIn.sub w)) i names).problems = []) (hnd : state.keys.Nodup)
    (hn : ∀ n ∈ names, Has state n ∨ ∃ b, IsWear b ∧ n ∈ b.provides) (hl : Has state "loads") (ht : Has state "total_displacement")
    (hs : ∀ b ∈ bs, IsWear b → Has state "contact_nodes" ∧ Has state "gap") :
    ∃ s', solveLoop true (bs.map (BuiltIn.sub w)) state = .ok s' ∧
      ∀ n, Has s' n ↔ Has state n ∨ ∃ b ∈ bs, n ∈ b.provides ∧ ¬ (Failed w state ∧ IsWear b) := by
  induction bs generalizing i names state with
  | nil => exact ⟨state, rfl, by simp⟩
  | cons b bs ih =>
    simp only [List.map_cons] at hc
    unfold checkSubModels at hc
    split at hc
    · cases em <;> simp at hc
    · rename_i hlack
      have hreq := (lacks_iff _ names).1 (by simpa using hlack)
      have hr : ∀ n ∈ b.requires, Has state n := by
        intro n hm
        rcases hn n (hreq n hm) with h | ⟨b', h1, h2⟩
        · exact h
        · exact (requires_not_wear b b' h1 n hm h2).elim
      obtain ⟨r, h1, h2, h3, h4⟩ := step_ok w (hb b (by simp)).1 (hb b (by simp)).2 hnd hr hl ht (hs b (by simp))
      have hfail : Failed w (state.update r) ↔ Failed w state := by unfold Failed; rw [h3]
      obtain ⟨s', h5, h6⟩ := ih (fun b' h => hb b' (List.mem_cons_of_mem _ h)) (i + 1) (unionSet names b.provides) (state.update r) hc h4
        (by
          intro n hm
          rcases (mem_unionSet _ _ _).1 hm with h | h
          · rcases hn n h with h | h
            · exact Or.inl ((h2 n).2 (Or.inl h))
            · exact Or.inr h
          · by_cases hw : IsWear b
            · exact Or.inr ⟨b, hw, h⟩
            · exact Or.inl ((h2 n).2 (Or.inr ⟨h, fun h => hw h.2⟩)))
        ((h2 _).2 (Or.inl hl)) ((h2 _).2 (Or.inl ht))
        (fun b' hm hw => ⟨(h2 _).2 (Or.inl (hs b' (List.mem_cons_of_mem _ hm) hw).1), (h2 _).2 (Or.inl (hs b' (List.mem_cons_of_mem _ hm) hw).2)⟩)
      refine ⟨s', ?_, fun n => ?_⟩
      · have h1' : (BuiltIn.sub w b).solve state = .ok r := h1
        simp only [List.map_cons, solveLoop, h1', Bool.not_true, Bool.and_false, Bool.false_eq_true, if_false]
        exact h5
      · rw [h6, h2, hfail]
        simp only [List.mem_cons, exists_eq_or_imp, or_assoc]

/-- **C162 for static and quasi static steps**: take any list of sub models of the package, none of them partial slip with a given load. If the data check of a step reports no
problem, solving the sub models raises nothing (with the default settings) for any state with the quantities the step announces: each of them finds what it reads. Afterwards
the names in the state are those it had and those the sub models announce, except those of the wear models if the solution did not converge. -/
theorem C162_steps_partial (w : Values V ι) (em aliased : Bool) (bs : List BuiltIn) (hb : ∀ b ∈ bs, Constructed b ∧ b ≠ .slip .load) (state : Dict V) (hnd : state.keys.Nodup)
    (hs : ∀ n ∈ contactStep, Has state n) (hc : (dataCheck em aliased (bs.map (BuiltIn.sub w)) contactStep).1.problems = []) :
    ∃ s', solveSubModels true true (dataCheck em aliased (bs.map (BuiltIn.sub w)) contactStep).2 (bs.map (BuiltIn.sub w)) state = .ok s' ∧
      ∀ n, Has s' n ↔ Has state n ∨ ∃ b ∈ bs, n ∈ b.provides ∧ ¬ (Failed w state ∧ IsWear b) := by
  obtain ⟨s', h1, h2⟩ := loop_ok w em bs hb 0 contactStep state hc hnd (fun n hn => Or.inl (hs n hn))
    (hs _ (by simp [contactStep])) (hs _ (by simp [contactStep])) (fun _ _ _ => ⟨hs _ (by simp [contactStep]), hs _ (by simp [contactStep])⟩)
  exact ⟨s', by simp [solveSubModels, h1], h2⟩

/-- **C162 for lubrication steps**: without wear models, a list of sub models of the package that passes the data check of a lubrication step solves, whatever the lubricant
provides. -/
theorem C162_lubrication_partial (w : Values V ι) (em aliased : Bool) (bs : List BuiltIn) (hb : ∀ b ∈ bs, Constructed b ∧ b ≠ .slip .load ∧ ∀ p1 p2 t, b ≠ .wear p1 p2 t)
    (subs : List String) (state : Dict V) (hnd : state.keys.Nodup) (hs : ∀ n ∈ LubCheck.provides LubCheck.unified (some (some subs)), Has state n)
    (hc : (dataCheck em aliased (bs.map (BuiltIn.sub w)) (LubCheck.provides LubCheck.unified (some (some subs)))).1.problems = []) :
    ∃ s', solveSubModels true true (dataCheck em aliased (bs.map (BuiltIn.sub w)) (LubCheck.provides LubCheck.unified (some (some subs)))).2
        (bs.map (BuiltIn.sub w)) state = .ok s' ∧
      ∀ n, Has s' n ↔ Has state n ∨ ∃ b ∈ bs, n ∈ b.provides := by
  have hnw : ∀ b ∈ bs, ¬ IsWear b := fun b h ⟨p1, p2, t, e⟩ => (hb b h).2.2 p1 p2 t e
  obtain ⟨s', h1, h2⟩ := loop_ok w em bs (fun b h => ⟨(hb b h).1, (hb b h).2.1⟩) 0 _ state hc hnd (fun n hn => Or.inl (hs n hn))
    (hs _ (by simp [LubCheck.provides, LubCheck.ownProvides, LubCheck.baseProvides])) (hs _ (by simp [LubCheck.provides, LubCheck.ownProvides, LubCheck.baseProvides]))
    (fun b h hw => absurd hw (hnw b h))
  refine ⟨s', by simp [solveSubModels, h1], fun n => ?_⟩
  rw [h2]
  constructor
  · rintro (h | ⟨b, h3, h4, -⟩)
    · exact Or.inl h
    · exact Or.inr ⟨b, h3, h4⟩
  · rintro (h | ⟨b, h3, h4⟩)
    · exact Or.inl h
    · exact Or.inr ⟨b, h3, h4, fun h => hnw b h3 h.2⟩

/-! ## Examples -/

/-- Numbers as values; zero is false. -/
def exampleValues : Values ℕ (Fin 2) where
  falsy := fun v => v == 0
  val := fun _ d => d.length
  num := fun _ => 5
  nodes := fun _ _ => true
  elastic := fun _ _ _ => true
  A := fun u => u
  imSum := 1
  mem := ⟨none, none⟩

/-- The state of a contact step. -/
def exampleState : Dict ℕ := contactStep.map fun n => (n, 1)

/-- The hypotheses of `C162_honest_partial`. -/
example : Constructed .coulomb ∧ Constructed (.stiffness ⟨[.fp], "z", true, false, 0, 1, none, Stiffness.provided [.fp] "z" true false 0⟩) := by
  refine ⟨trivial, .str "far points", "z", true, false, 0, 1, none, ?_⟩
  have : ("far points" : String).toLower = "far points" := by decide +kernel
  simp [Stiffness.construct, this, bind, Except.bind]

/-- The hypotheses of `C162_sliding_wrong` and `C162_sliding_partial`. -/
example : Has [("maximum_tangential_force", 3)] "maximum_tangential_force" ∧ ¬ Has [("maximum_tangential_force", 3)] "loads" ∧
    (∀ n ∈ (BuiltIn.sliding.sub exampleValues).requires, Has [("loads", 2), ("maximum_tangential_force", 3)] n) ∧ Has [("loads", 2), ("maximum_tangential_force", 3)] "loads" := by
  simp [has_keys, Dict.keys, BuiltIn.sub, BuiltIn.requires]

/-- The hypotheses of `C162_slip_wrong` and `C162_slip_partial`. -/
example : ∀ k, ∀ n ∈ ((BuiltIn.slip k).sub exampleValues).requires,
    Has [("contact_nodes", 1), ("time", 0), ("maximum_tangential_force", 3), ("rigid_body_displacement", 7)] n := by
  intro k n hn
  rw [has_keys]
  revert n
  cases k <;> decide

/-- The hypotheses of `C162_wear_wrong`, and of `C162_wear_partial` for the second state. -/
example : (∀ n ∈ ((BuiltIn.wear true false false).sub exampleValues).requires,
      Has [("interference", 1), ("total_displacement", 1), ("just_touching_gap", 1), ("surface_1_points", 1)] n) ∧
    (¬ Failed exampleValues [("interference", 1), ("total_displacement", 1), ("just_touching_gap", 1), ("surface_1_points", 1)]) ∧
    Failed exampleValues [("converged", 0)] ∧
    (¬ Failed exampleValues exampleState ∧ (∀ n ∈ ((BuiltIn.wear true true false).sub exampleValues).requires, Has exampleState n) ∧
      Has exampleState "loads" ∧ Has exampleState "contact_nodes" ∧ Has exampleState "gap") := by
  refine ⟨?_, ?_, ⟨0, rfl, rfl⟩, ?_, ?_, ?_, ?_, ?_⟩
  · simp [has_keys, Dict.keys, BuiltIn.sub, BuiltIn.requires]
  · rintro ⟨v, hv, -⟩; simp [Dict.get?] at hv
  · rintro ⟨v, hv, hf⟩
    have : v = 1 := by simpa [exampleState, contactStep, Dict.get?] using hv.symm
    subst this
    simp [exampleValues] at hf
  all_goals simp only [has_keys]; decide

/-- The hypotheses of `C162_lubrication_wrong`. -/
example : "contact_nodes" ∉ ["nd_viscosity", "nd_density"] ∧
    (∀ n ∈ ((BuiltIn.wear true true true).sub exampleValues).requires, Has ((LubCheck.provides LubCheck.unified (some (some ["nd_viscosity", "nd_density"]))).map fun n => (n, 1)) n) ∧
    ¬ Failed exampleValues ((LubCheck.provides LubCheck.unified (some (some ["nd_viscosity", "nd_density"]))).map fun n => (n, 1)) := by
  refine ⟨by decide, ?_, ?_⟩
  · simp only [has_keys]; decide
  · rintro ⟨v, hv, hf⟩
    have : v = 1 := by simpa [LubCheck.provides, LubCheck.ownProvides, LubCheck.baseProvides, Dict.get?] using hv.symm
    subst this
    simp [exampleValues] at hf

/-- The hypotheses of `C162_lubrication_partial`: Coulomb friction and pure sliding. -/
example : (∀ b ∈ [BuiltIn.coulomb, .sliding], Constructed b ∧ b ≠ .slip .load ∧ ∀ p1 p2 t, b ≠ .wear p1 p2 t) ∧
    (dataCheck true false ([BuiltIn.coulomb, .sliding].map (BuiltIn.sub exampleValues)) (LubCheck.provides LubCheck.unified (some (some ["nd_viscosity", "nd_density"])))).1.problems = [] ∧
    ∃ state : Dict ℕ, state.keys.Nodup ∧ ∀ n ∈ LubCheck.provides LubCheck.unified (some (some ["nd_viscosity", "nd_density"])), Has state n := by
  refine ⟨by simp [Constructed], rfl, ((LubCheck.provides LubCheck.unified (some (some ["nd_viscosity", "nd_density"]))).dedup).map fun n => (n, 1), by decide, ?_⟩
  simp only [has_keys]
  decide

/-- The hypotheses of `C162_steps_partial`: Coulomb friction, partial slip with a fixed displacement, and wear. -/
example : (∀ b ∈ [BuiltIn.coulomb, .slip .constant, .wear true false false], Constructed b ∧ b ≠ .slip .load) ∧ exampleState.keys.Nodup ∧
    (∀ n ∈ contactStep, Has exampleState n) ∧
    (dataCheck true true ([BuiltIn.coulomb, .slip .constant, .wear true false false].map (BuiltIn.sub exampleValues)) contactStep).1.problems = [] := by
  refine ⟨?_, by decide, ?_, rfl⟩
  · simp [Constructed]
  · simp only [has_keys]; decide

end Verif.SubNames
