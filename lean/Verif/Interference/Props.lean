import Mathlib.Data.Prod.Lex
import Verif.Interference.Model

/-!
# C97: the search for the contact nodes
-/

namespace Verif.Interference

open Verif Verif.Materials

variable {ι D : Type} [Fintype ι]

/-! ## Specification, independent of the model -/

/-- The number of nodes with a property. -/
noncomputable def number (p : ι → Prop) : ℕ := open Classical in (Finset.univ.filter p).card

theorem count_eq (m : ι → Bool) : count m = number fun i => m i = true := by
  unfold count number
  congr!

/-- The displacements asked for: to close the gap exactly on the given nodes. -/
def Asks (interference : ℝ) (gap : ι → ℝ) (contact : ι → Bool) (d : ι → XR) : Prop :=
  ∀ i, (contact i = true → d i = .fin (interference - gap i)) ∧ (contact i = false → d i = .nan)

/-- The number of nodes out of contact where the surfaces overlap after deformation. -/
noncomputable def overlapping (interference : ℝ) (gap : ι → ℝ) (total : ι → XR) (contact : ι → Bool) : ℕ :=
  number fun i => contact i = false ∧ XR.lt (.fin (gap i - interference) + total i) (.fin 0) = true

/-! ## The loop -/

/-- What holds when the loop returns: the flag says how it ended. -/
def Ended (mat : ℕ → (ι → XR) → Except PyErr (Answer ι D)) (pick : Pick ι) (s : Settings ι) (interference : ℝ) (gap : ι → ℝ) (r : Result ι D) : Prop :=
  (r.failed = true ∧ (∀ i, r.loads i = .nan) ∧ s.maxIter < r.calls) ∨
  (r.failed = false ∧ ∃ last remove add force, mat (r.calls - 1) (prescribed (needed interference gap) r.contact) = .ok ⟨r.loads, r.total, r.rest⟩ ∧
    update pick s r.loads (deformed interference gap r.total) r.contact last = .ok (remove, add, force) ∧ again s r.contact remove add force = false)

theorem loop_ended (mat : ℕ → (ι → XR) → Except PyErr (Answer ι D)) (pick : Pick ι) (s : Settings ι) (interference : ℝ) (gap : ι → ℝ) (it : ℕ) (contact : ι → Bool) (last : Option ℕ) {r : Result ι D}
    {c : ι → Bool} (h : loop mat pick s interference gap it contact last = (.ok r, c)) :
    c = r.contact ∧ it + 1 ≤ r.calls ∧ (r.calls : ℤ) ≤ max s.maxIter it + 1 ∧ Ended mat pick s interference gap r := by
  induction hn : (s.maxIter - it).toNat using Nat.strong_induction_on generalizing it contact last with
  | _ n ih =>
    rw [loop] at h
    split at h
    · cases h
    · rename_i a ha
      split at h
      · cases h
      · rename_i remove add force hu
        split_ifs at h with h1 h2
        · injection h with h3 h4
          injection h3 with h3
          subst h3 h4
          refine ⟨rfl, le_rfl, ?_, .inl ⟨rfl, fun _ => rfl, h2⟩⟩
          show ((it + 1 : ℕ) : ℤ) ≤ _
          have := le_max_right s.maxIter (it : ℤ)
          push_cast
          omega
        · obtain ⟨e1, e2, e3, e4⟩ := ih _ (by push_cast at h2 ⊢; omega) (it + 1) _ _ h rfl
          refine ⟨e1, by omega, ?_, e4⟩
          have : max s.maxIter ((it + 1 : ℕ) : ℤ) = max s.maxIter (it : ℤ) := by
            push_cast at h2 ⊢
            omega
          rw [this] at e3
          exact e3
        · injection h with h3 h4
          injection h3 with h3
          subst h3 h4
          refine ⟨rfl, le_rfl, ?_, .inr ⟨rfl, last, remove, add, force, ha, hu, by simpa using h1⟩⟩
          show ((it + 1 : ℕ) : ℤ) ≤ _
          have := le_max_right s.maxIter (it : ℤ)
          push_cast
          omega

/-- **C97, the search ends.** With at least one contact node at the start and materials that are not both influence matrix materials, a call that returns has asked the material at most
`max_iter + 1` times (once if `max_iter` is negative); the caller's array of contact nodes is the returned one; and failure is reported exactly if the last allowed call changed the nodes, then all
loads are `nan`. -/
theorem C97_stops {n0 n1 : ℕ} (pick : Pick (Node n0 n1)) (mat : ℕ → (Node n0 n1 → XR) → Except PyErr (Answer (Node n0 n1) (Pair (Node n0 n1)))) (gs interference : ℝ) (gap : Node n0 n1 → ℝ) (c : Call n0 n1)
    {r : Result (Node n0 n1) (Pair (Node n0 n1))} {after : Node n0 n1 → Bool} (hne : ∃ i, startNodes (needed interference gap) c.contact i = true)
    (h : solve pick (.other mat) gs interference gap c = (.ok r, after)) :
    after = r.contact ∧ 1 ≤ r.calls ∧ (r.calls : ℤ) ≤ max c.maxIter 0 + 1 ∧ (r.failed = true → (∀ i, r.loads i = .nan) ∧ c.maxIter < r.calls) := by
  obtain ⟨i, hi⟩ := hne
  have h0 : count (startNodes (needed interference gap) c.contact) ≠ 0 := by
    unfold count
    rw [Finset.card_ne_zero]
    exact ⟨i, by simpa using hi⟩
  unfold solve at h
  simp only [if_neg h0] at h
  obtain ⟨e1, e2, e3, e4⟩ := loop_ended _ _ _ _ _ _ _ _ h
  refine ⟨e1, by omega, by simpa using e3, fun hf => ?_⟩
  rcases e4 with ⟨-, h1, h2⟩ | ⟨h1, -⟩
  · exact ⟨h1, h2⟩
  · rw [hf] at h1; cases h1

/-- **C97, success.** With a number for the adhesive pressure and a result that is not marked as failed: the loads and displacements are those the material gave for closing the gap exactly at
the returned contact nodes, no load on a contact node is below the adhesive pressure, and the surfaces overlap in at most the tolerated number of nodes out of contact. -/
theorem C97_success {n0 n1 : ℕ} (pick : Pick (Node n0 n1)) (mat : ℕ → (Node n0 n1 → XR) → Except PyErr (Answer (Node n0 n1) (Pair (Node n0 n1)))) (gs interference : ℝ) (gap : Node n0 n1 → ℝ) (c : Call n0 n1)
    (p : ℝ) (hp : c.adhesive = some (.number p) ∨ c.adhesive = none ∧ p = 0)
    {r : Result (Node n0 n1) (Pair (Node n0 n1))} {after : Node n0 n1 → Bool} (hne : ∃ i, startNodes (needed interference gap) c.contact i = true)
    (h : solve pick (.other mat) gs interference gap c = (.ok r, after)) (hs : r.failed = false) :
    (∃ d, Asks interference gap r.contact d ∧ mat (r.calls - 1) d = .ok ⟨r.loads, r.total, r.rest⟩) ∧ (∀ i, r.contact i = true → XR.lt (r.loads i) (.fin p) = false) ∧
      (overlapping interference gap r.total r.contact : ℝ) ≤ (number fun i => r.contact i = true) * c.nodeThresh := by
  obtain ⟨i, hi⟩ := hne
  have h0 : count (startNodes (needed interference gap) c.contact) ≠ 0 := by
    unfold count
    rw [Finset.card_ne_zero]
    exact ⟨i, by simpa using hi⟩
  have hp' : c.adhesive.getD (.number 0) = .number p := by
    rcases hp with h | ⟨h, rfl⟩ <;> rw [h] <;> rfl
  unfold solve at h
  simp only [if_neg h0, hp'] at h
  obtain ⟨e1, e2, e3, e4⟩ := loop_ended _ _ _ _ _ _ _ _ h
  rcases e4 with ⟨h1, -⟩ | ⟨-, last, remove, add, force, h1, h2, h3⟩
  · rw [hs] at h1; cases h1
  refine ⟨⟨_, fun i => ⟨fun h => ?_, fun h => ?_⟩, h1⟩, ?_⟩
  · simp [prescribed, h, needed]
  · simp [prescribed, h]
  unfold update at h2
  simp only [again, Bool.or_eq_false_iff, decide_eq_false_iff_not, not_exists, not_lt] at h2 h3
  obtain ⟨⟨h4, h5⟩, h6⟩ := h3
  split_ifs at h2
  · simp only [Except.ok.injEq, Prod.mk.injEq] at h2
    rw [h4] at h2
    cases h2.2.2
  · simp only [Except.ok.injEq, Prod.mk.injEq] at h2
    obtain ⟨rfl, rfl, -⟩ := h2
    refine ⟨fun i hi => ?_, ?_⟩
    · have := h5 i
      simp only [hi, Bool.and_true] at this
      simpa using this
    · rw [count_eq, count_eq] at h6
      have : overlapping interference gap r.total r.contact = number fun i => (XR.lt (deformed interference gap r.total i) (.fin 0) && !r.contact i) = true := by
        unfold overlapping
        congr 1
        funext i
        simp [deformed, and_comm]
      rw [this]
      exact h6

/-- **C97, no contact.** Without contact nodes at the start all loads and displacements are zero, and it is no failure. -/
theorem C97_no_contact {n0 n1 : ℕ} (pick : Pick (Node n0 n1)) (mats : Materials2 n0 n1) (gs interference : ℝ) (gap : Node n0 n1 → ℝ) (c : Call n0 n1) (hc : c.contact = none) (hgap : ∀ i, interference ≤ gap i) :
    ∃ r, solve pick mats gs interference gap c = (.ok r, r.contact) ∧ r.failed = false ∧ ∀ i, r.contact i = false ∧ r.loads i = .fin 0 ∧ r.total i = .fin 0 ∧ r.rest.1 i = .fin 0 ∧ r.rest.2 i = .fin 0 := by
  have h : ∀ i, startNodes (needed interference gap) c.contact i = false := fun i => by
    rw [hc]
    simp [startNodes, needed, hgap i]
  have h0 : count (startNodes (needed interference gap) c.contact) = 0 := by
    unfold count
    rw [Finset.card_eq_zero, Finset.filter_eq_empty_iff]
    intro i _
    simp [h i]
  unfold solve
  simp only [if_pos h0]
  exact ⟨_, rfl, rfl, fun i => ⟨h i, rfl, rfl, rfl, rfl⟩⟩

/-! ## Removing nodes -/

/-- **C97, removed nodes.** If the limit is not below one, an iteration removes at most that many nodes, so at most `remove_percent` of the contact nodes, and no node that stays has a smaller load
than one that is removed when the limit is met. Missing: the case of a limit of zero, see `C97_removal_wrong`. -/
theorem C97_removal_partial (pick : Pick ι) (hpick : pick.Ok) (s : Settings ι) (p : ℝ) (hp : s.adhesive = .number p) (hr : 0 ≤ s.removePercent) (loads gap' : ι → XR) (contact : ι → Bool) (last : Option ℕ)
    (hmost : 1 ≤ maxRemove (count contact) s.removePercent last) {remove add : ι → Bool} {force : Bool} (h : update pick s loads gap' contact last = .ok (remove, add, force)) :
    (count remove : ℝ) ≤ (count contact : ℝ) * s.removePercent ∧ (∀ a, last = some a → 2 * count remove ≤ a) ∧
      (force = true → ∀ i j, remove i = true → remove j = false → sortLe (-loads j) (-loads i) = true) ∧ (force = false → ∀ i, remove i = true ↔ contact i = true ∧ XR.lt (loads i) (.fin p) = true) := by
  set most := maxRemove (count contact) s.removePercent last with hm
  have hpos : 0 ≤ (count contact : ℝ) * s.removePercent := by positivity
  have hle : (most : ℝ) ≤ (count contact : ℝ) * s.removePercent := by
    rw [hm]
    unfold maxRemove
    cases last with
    | none => exact Nat.floor_le hpos
    | some a => exact (Nat.floor_le (le_min hpos (by positivity))).trans (min_le_left _ _)
  have hla : ∀ a, last = some a → 2 * most ≤ a := by
    rintro a rfl
    have : (most : ℝ) ≤ (a : ℝ) / 2 := by
      rw [hm]
      exact (Nat.floor_le (le_min hpos (by positivity))).trans (min_le_right _ _)
    have : (2 * most : ℝ) ≤ a := by linarith
    exact_mod_cast this
  have hcount : ∀ m : ι → Bool, count m ≤ Fintype.card ι := fun m => Finset.card_le_univ _
  have key : count remove ≤ most ∧ (force = true → ∀ i j, remove i = true → remove j = false → sortLe (-loads j) (-loads i) = true) ∧
      (force = false → ∀ i, remove i = true ↔ contact i = true ∧ XR.lt (loads i) (.fin p) = true) := by
    unfold update at h
    rw [hp] at h
    simp only [← hm] at h
    split_ifs at h with hc
    · simp only [Except.ok.injEq, Prod.mk.injEq] at h
      obtain ⟨rfl, -, rfl⟩ := h
      have hk : most ≤ Fintype.card ι := by
        have := hcount fun i => XR.lt (loads i) (.fin p) && contact i
        omega
      rw [lowest, if_neg (by omega : most ≠ 0)]
      refine ⟨?_, fun _ i j hi hj => ?_, fun h => by cases h⟩
      · unfold count
        refine le_of_eq (Eq.trans ?_ (hpick.card loads _ hk))
        congr 1
        ext i
        simp
      · simp only [decide_eq_true_eq, decide_eq_false_iff_not] at hi hj
        exact hpick.largest _ _ hk i hi j hj
    · simp only [Except.ok.injEq, Prod.mk.injEq] at h
      obtain ⟨rfl, -, rfl⟩ := h
      refine ⟨by omega, fun h => (by cases h), fun _ i => ?_⟩
      simp [and_comm]
  obtain ⟨k1, k2, k3⟩ := key
  have : (count remove : ℝ) ≤ most := by exact_mod_cast k1
  exact ⟨this.trans hle, fun a ha => by have := hla a ha; omega, k2, k3⟩

/-- **C97, the limit on removed nodes does not hold.** If one node was added in the iteration before (or the limit is below one for another reason) and the load of any contact node is below the
adhesive pressure, all nodes are removed, whatever their loads; the next iteration starts without contact. -/
theorem C97_removal_wrong (mat : ℕ → (ι → XR) → Except PyErr (Answer ι D)) (pick : Pick ι) (s : Settings ι) (p : ℝ) (hp : s.adhesive = .number p) (interference : ℝ) (gap : ι → ℝ) (it : ℕ) (contact : ι → Bool)
    {a : Answer ι D} (ha : mat it (prescribed (needed interference gap) contact) = .ok a) {i : ι} (hi : contact i = true) (hload : XR.lt (a.loads i) (.fin p) = true) (hit : (it + 1 : ℕ) ≤ s.maxIter) :
    ∃ last', loop mat pick s interference gap it contact (some 1) = loop mat pick s interference gap (it + 1) (fun _ => false) last' := by
  have hmost : maxRemove (count contact) s.removePercent (some 1) = 0 := by
    unfold maxRemove
    rw [Nat.floor_eq_zero]
    exact lt_of_le_of_lt (min_le_right _ _) (by norm_num)
  have hcount : 0 < count fun i => XR.lt (a.loads i) (.fin p) && contact i := by
    unfold count
    rw [Finset.card_pos]
    exact ⟨i, by simp [hi, hload]⟩
  have hu : update pick s a.loads (deformed interference gap a.total) contact (some 1) =
      .ok (fun _ => true, fun i => XR.lt (deformed interference gap a.total i) (.fin 0) && !contact i, true) := by
    unfold update
    rw [hp]
    simp only [hmost, if_pos hcount, lowest, if_pos]
  refine ⟨lastAdded (fun i => XR.lt (deformed interference gap a.total i) (.fin 0) && !contact i) (some 1), ?_⟩
  rw [loop, ha]
  simp only [hu]
  rw [if_pos (by simp [again]), if_neg (by omega)]
  congr 1
  funext j
  simp [change]

/-- **C97, one iteration.** With a number for the adhesive pressure, and not more contact nodes with a load below it than the limit allows: if there are such nodes, or more overlapping nodes than tolerated, the search goes on; the overlapping
nodes are in contact then, those with a load below the pressure are not, and the limit is kept at half the number of nodes of the last iteration that added any. -/
theorem C97_iteration (mat : ℕ → (ι → XR) → Except PyErr (Answer ι D)) (pick : Pick ι) (s : Settings ι) (p : ℝ) (hp : s.adhesive = .number p) (interference : ℝ) (gap : ι → ℝ) (it : ℕ) (contact : ι → Bool) (last : Option ℕ)
    {a : Answer ι D} {d : ι → XR} (hd : Asks interference gap contact d) (ha : mat it d = .ok a)
    (hlimit : ((number fun i => contact i = true ∧ XR.lt (a.loads i) (.fin p) = true : ℕ) : ℝ) ≤ (number fun i => contact i = true) * s.removePercent)
    (hlast : ∀ k, last = some k → 2 * (number fun i => contact i = true ∧ XR.lt (a.loads i) (.fin p) = true) ≤ k)
    (hgo : (∃ i, contact i = true ∧ XR.lt (a.loads i) (.fin p) = true) ∨ ((number fun i => contact i = true) : ℝ) * s.nodeThresh < overlapping interference gap a.total contact) (hit : ((it + 1 : ℕ) : ℤ) ≤ s.maxIter) :
    ∃ contact', loop mat pick s interference gap it contact last =
        loop mat pick s interference gap (it + 1) contact' (if overlapping interference gap a.total contact = 0 then last else some (overlapping interference gap a.total contact)) ∧
      ∀ i, contact' i = true ↔ (contact i = true ∧ XR.lt (a.loads i) (.fin p) = false) ∨ (contact i = false ∧ XR.lt (.fin (gap i - interference) + a.total i) (.fin 0) = true) := by
  have hd' : d = prescribed (needed interference gap) contact := by
    funext i
    cases h : contact i with
    | true => rw [(hd i).1 h]; simp [prescribed, h, needed]
    | false => rw [(hd i).2 h]; simp [prescribed, h]
  rw [hd'] at ha
  have hov : (count fun i => XR.lt (deformed interference gap a.total i) (.fin 0) && !contact i) = overlapping interference gap a.total contact := by
    rw [count_eq]
    unfold overlapping
    congr 1
    funext i
    simp [deformed, and_comm]
  have hrm : (count fun i => XR.lt (a.loads i) (.fin p) && contact i) = number fun i => contact i = true ∧ XR.lt (a.loads i) (.fin p) = true := by
    rw [count_eq]
    congr 1
    funext i
    simp [and_comm]
  have hmost : ¬maxRemove (count contact) s.removePercent last < count fun i => XR.lt (a.loads i) (.fin p) && contact i := by
    rw [hrm, not_lt, count_eq contact]
    unfold maxRemove
    cases last with
    | none => exact Nat.le_floor hlimit
    | some k =>
      refine Nat.le_floor (le_min hlimit ?_)
      have := hlast k rfl
      have h2 : ((2 * (number fun i => contact i = true ∧ XR.lt (a.loads i) (.fin p) = true) : ℕ) : ℝ) ≤ k := by exact_mod_cast this
      push_cast at h2
      linarith
  have hu : update pick s a.loads (deformed interference gap a.total) contact last =
      .ok (fun i => XR.lt (a.loads i) (.fin p) && contact i, fun i => XR.lt (deformed interference gap a.total i) (.fin 0) && !contact i, false) := by
    unfold update
    rw [hp]
    simp only [if_neg hmost]
  refine ⟨change contact (fun i => XR.lt (a.loads i) (.fin p) && contact i) fun i => XR.lt (deformed interference gap a.total i) (.fin 0) && !contact i, ?_, fun i => ?_⟩
  · rw [loop, ha]
    simp only [hu]
    have hag : again s contact (fun i => XR.lt (a.loads i) (.fin p) && contact i) (fun i => XR.lt (deformed interference gap a.total i) (.fin 0) && !contact i) false = true := by
      unfold again
      rw [hov, count_eq contact]
      rcases hgo with ⟨i, h1, h2⟩ | h
      · simp only [Bool.false_or, Bool.or_eq_true, decide_eq_true_eq]
        exact .inl ⟨i, by simp [h1, h2]⟩
      · simp only [Bool.false_or, Bool.or_eq_true, decide_eq_true_eq]
        exact .inr h
    rw [if_pos hag, if_neg (by omega)]
    congr 1
    unfold lastAdded
    rw [hov]
  · cases hc : contact i <;> simp [change, hc, deformed]

/-- **C97, a callable.** With a function that also returns the flag, a result that is not marked as failed means that the function asked neither for another iteration nor for nodes to be removed, and for few nodes to be added. -/
theorem C97_callable_partial (mat : ℕ → (ι → XR) → Except PyErr (Answer ι D)) (pick : Pick ι) (s : Settings ι) (f : (ι → XR) → (ι → XR) → (ι → Bool) → RuleOut ι) (hs : s.adhesive = .rule f) (interference : ℝ) (gap : ι → ℝ)
    (it : ℕ) (contact : ι → Bool) (last : Option ℕ) {r : Result ι D} {after : ι → Bool} (h : loop mat pick s interference gap it contact last = (.ok r, after)) (hok : r.failed = false) :
    ∃ remove add, f r.loads (fun i => .fin (gap i - interference) + r.total i) r.contact = .three remove add false ∧ (∀ i, remove i = false) ∧
      ((number fun i => add i = true) : ℝ) ≤ (number fun i => r.contact i = true) * s.nodeThresh := by
  obtain ⟨-, -, -, he⟩ := loop_ended _ _ _ _ _ _ _ _ h
  rcases he with ⟨h1, -⟩ | ⟨-, last', remove, add, force, -, hu, hag⟩
  · rw [hok] at h1; cases h1
  unfold update at hu
  rw [hs] at hu
  simp only at hu
  simp only [again, Bool.or_eq_false_iff, decide_eq_false_iff_not, not_exists, not_lt] at hag
  obtain ⟨⟨h1, h2⟩, h3⟩ := hag
  have hdef : deformed interference gap r.total = fun i => .fin (gap i - interference) + r.total i := rfl
  rw [hdef] at hu
  cases hf : f r.loads (fun i => .fin (gap i - interference) + r.total i) r.contact with
  | two _ _ => rw [hf] at hu; cases hu
  | three a b c =>
    rw [hf] at hu
    simp only [Except.ok.injEq, Prod.mk.injEq] at hu
    obtain ⟨rfl, rfl, rfl⟩ := hu
    refine ⟨a, b, by rw [h1], fun i => by simpa using h2 i, ?_⟩
    rw [count_eq, count_eq] at h3
    exact h3

/-! ### The hypotheses can be met -/

/-- Two nodes in contact, one with a load below zero, and a limit of one: the hypotheses of `C97_iteration`. -/
example : Asks 1 (fun _ : Fin 2 => 0) (fun _ => true) (fun _ => .fin 1) ∧
    ((number fun i : Fin 2 => true = true ∧ XR.lt ((fun i : Fin 2 => if i = 0 then XR.fin (-1) else .fin 1) i) (.fin 0) = true : ℕ) : ℝ) ≤ (number fun _ : Fin 2 => true = true) * (1 / 2 : ℝ) := by
  refine ⟨fun i => ⟨fun _ => by norm_num, fun h => by cases h⟩, ?_⟩
  have h1 : (number fun i : Fin 2 => true = true ∧ XR.lt ((fun i : Fin 2 => if i = 0 then XR.fin (-1) else .fin 1) i) (.fin 0) = true) = 1 := by
    have : (fun i : Fin 2 => true = true ∧ XR.lt ((fun i : Fin 2 => if i = 0 then XR.fin (-1) else .fin 1) i) (.fin 0) = true) = fun i => i = 0 := by
      funext i
      by_cases h : i = 0 <;> simp [h, XR.lt]
    rw [this]
    exact Finset.card_eq_one.2 ⟨0, by ext; simp⟩
  have h2 : (number fun _ : Fin 2 => true = true) = 2 := by simp [number]
  rw [h1, h2]
  norm_num

/-- A function that is content with every answer: a call that succeeds, for `C97_callable_partial`. -/
example (pick : Pick (Fin 2)) : ∃ r after, loop (D := Unit) (fun _ d => .ok ⟨fun _ => .fin 1, d, ()⟩) pick ⟨.rule fun _ _ _ => .three (fun _ => false) (fun _ => false) false, 1, 1 / 2, 0⟩ 1 (fun _ => 0) 0 (fun _ => true) none = (.ok r, after) ∧
    r.failed = false ∧ r.loads 0 = .fin 1 := by
  rw [loop]
  simp only [update]
  rw [if_neg]
  · exact ⟨_, _, rfl, rfl, rfl⟩
  · simp [again, count]

/-- The place of a value in the order numpy sorts by. -/
def rank : XR → ℕ ×ₗ ℝ
  | .ninf => toLex (0, 0)
  | .fin x => toLex (1, x)
  | .pinf => toLex (2, 0)
  | .nan => toLex (3, 0)

theorem sortLe_of_rank {a b : XR} (h : rank a ≤ rank b) : sortLe a b = true := by
  cases a <;> cases b <;> simp_all [rank, sortLe, XR.le, Prod.Lex.toLex_le_toLex]

/-- Positions as wanted can always be found. -/
theorem exists_pick : ∃ pick : Pick ι, pick.Ok := by
  classical
  have hex : ∀ (l : ι → XR) (k : ℕ), ∃ t : Finset ι, k ≤ Fintype.card ι → t.card = k ∧ ∀ i ∈ t, ∀ j ∉ t, rank (-l j) ≤ rank (-l i) := by
    intro l k
    induction k with
    | zero => exact ⟨∅, fun _ => ⟨rfl, by simp⟩⟩
    | succ k ih =>
      obtain ⟨t, ht⟩ := ih
      by_cases hk : k + 1 ≤ Fintype.card ι
      · obtain ⟨hc, ht⟩ := ht (by omega)
        have hne : tᶜ.Nonempty := by
          rw [← Finset.card_pos, Finset.card_compl]
          omega
        obtain ⟨m, hm, hmax⟩ := Finset.exists_max_image tᶜ (fun i => rank (-l i)) hne
        rw [Finset.mem_compl] at hm
        refine ⟨insert m t, fun _ => ⟨by rw [Finset.card_insert_of_notMem hm, hc], fun i hi j hj => ?_⟩⟩
        rw [Finset.mem_insert, not_or] at hj
        rcases Finset.mem_insert.mp hi with rfl | hi
        · exact hmax j (Finset.mem_compl.mpr hj.2)
        · exact ht i hi j hj.2
      · exact ⟨∅, fun h => absurd h hk⟩
  choose t ht using hex
  exact ⟨t, fun l k hk => (ht l k hk).1, fun l k hk i hi j hj => sortLe_of_rank ((ht l k hk).2 i hi j hj)⟩

/-- Four nodes in contact, the load of one is below zero: the hypotheses of `C97_removal_partial` can be met. -/
example : ∃ (pick : Pick (Fin 4)) (u : (Fin 4 → Bool) × (Fin 4 → Bool) × Bool), pick.Ok ∧ 1 ≤ maxRemove (count fun _ : Fin 4 => true) (1 / 2) none ∧
    update pick ⟨.number 0, 100, 1 / 2, 1 / 100⟩ (fun i => .fin (if i = 0 then -1 else 1)) (fun _ => .fin 0) (fun _ => true) none = .ok u := by
  obtain ⟨pick, hp⟩ := exists_pick (ι := Fin 4)
  have hc : count (fun _ : Fin 4 => true) = 4 := by decide
  have hu : ∃ u, update pick ⟨.number 0, 100, 1 / 2, 1 / 100⟩ (fun i => .fin (if i = 0 then -1 else 1)) (fun _ => .fin 0) (fun _ : Fin 4 => true) none = .ok u := by
    unfold update
    simp only
    split_ifs
    · exact ⟨_, rfl⟩
    · exact ⟨_, rfl⟩
  obtain ⟨u, hu⟩ := hu
  refine ⟨pick, u, hp, ?_, hu⟩
  · rw [hc]
    unfold maxRemove
    simp only
    rw [Nat.le_floor_iff (by norm_num)]
    norm_num

/-- Two nodes in contact, the load of one is below zero: the hypotheses of `C97_removal_wrong` can be met, also by a call that never succeeds. -/
example : ∃ (mat : ℕ → (Fin 2 → XR) → Except PyErr (Answer (Fin 2) Unit)) (a : Answer (Fin 2) Unit), mat 1 (prescribed (needed 1 fun _ => 0) fun _ => true) = .ok a ∧
    XR.lt (a.loads 0) (.fin 0) = true ∧ a.loads 1 = .fin 1 :=
  ⟨fun _ _ => .ok ⟨fun i => .fin (if i = 0 then -1 else 1), fun _ => .fin 0, ()⟩, _, rfl, by simp [XR.lt], by simp⟩

/-- A spring under each node, the gap closed at the first of two nodes: the call succeeds with a load of one there, so that the hypotheses of `C97_stops` and `C97_success` can be met. -/
example (pick : Pick (Node 1 2)) : ∃ (mat : ℕ → (Node 1 2 → XR) → Except PyErr (Answer (Node 1 2) (Pair (Node 1 2)))) (gap : Node 1 2 → ℝ) (r : Result (Node 1 2) (Pair (Node 1 2))),
    (∃ i, startNodes (needed 1 gap) (none) i = true) ∧ solve pick (.other mat) 1 1 gap {} = (.ok r, r.contact) ∧ r.failed = false ∧ r.loads (0, 0) = .fin 1 := by
  refine ⟨fun _ d => .ok ⟨fun i => nanToNum (d i), fun i => nanToNum (d i), (fun _ => .fin 0, fun _ => .fin 0)⟩, fun i => if i.2 = 0 then 0 else 2, ?_⟩
  set gap : Node 1 2 → ℝ := fun i => if i.2 = 0 then 0 else 2 with hgap
  have hs : startNodes (needed 1 gap) none = fun i => decide (i.2 = 0) := by
    funext i
    simp only [startNodes, needed, hgap]
    split_ifs with h <;> simp [h]
  have hpre : ∀ i, nanToNum (prescribed (needed 1 gap) (fun i => decide (i.2 = 0)) i) = .fin (if i.2 = 0 then 1 else 0) := by
    intro i
    by_cases h : i.2 = 0 <;> simp [prescribed, needed, h, nanToNum, hgap]
  refine ⟨⟨fun i => .fin (if i.2 = 0 then 1 else 0), fun i => .fin (if i.2 = 0 then 1 else 0), (fun _ => .fin 0, fun _ => .fin 0), fun i => decide (i.2 = 0), false, 1⟩, ⟨(0, 0), by rw [hs]; rfl⟩, ?_, rfl, by simp⟩
  unfold solve
  simp only [hs, Option.getD_none]
  rw [if_neg (by decide), loop]
  simp only [hpre]
  have hu : update pick ⟨.number 0, 100, 1 / 2, 1 / 100⟩ (fun i : Node 1 2 => .fin (if i.2 = 0 then 1 else 0)) (deformed 1 gap fun i => .fin (if i.2 = 0 then 1 else 0)) (fun i => decide (i.2 = 0)) none =
      .ok (fun _ => false, fun _ => false, false) := by
    have h1 : (fun i : Node 1 2 => XR.lt (.fin (if i.2 = 0 then 1 else 0)) (.fin 0) && decide (i.2 = 0)) = fun _ => false := by
      funext i
      split_ifs with h <;> simp [XR.lt, h]
    have h2 : (fun i : Node 1 2 => XR.lt (deformed 1 gap (fun i => .fin (if i.2 = 0 then 1 else 0)) i) (.fin 0) && !decide (i.2 = 0)) = fun _ => false := by
      funext i
      by_cases h : i.2 = 0
      · simp [h]
      · simp [h, deformed, hgap, XR.lt]
    unfold update
    simp only [h1, h2]
    rw [if_neg (by simp [count])]
  rw [hu]
  simp only
  rw [if_neg]
  simp [again, count]

/-- A gap everywhere: the hypotheses of `C97_no_contact` can be met. -/
example : ({} : Call 1 2).contact = none ∧ ∀ i : Node 1 2, (1 : ℝ) ≤ (fun _ => 2) i := ⟨rfl, fun _ => by norm_num⟩

/-! ## Other arguments -/

/-- **C97, a callable as documented.** A function that returns the two arrays of the docstring leads to a `ValueError` after the first call of the material. -/
theorem C97_callable_wrong (mat : ℕ → (ι → XR) → Except PyErr (Answer ι D)) (pick : Pick ι) (s : Settings ι) (f : (ι → XR) → (ι → XR) → (ι → Bool) → RuleOut ι) (hs : s.adhesive = .rule f)
    (hf : ∀ l g c, ∃ remove add, f l g c = .two remove add) (interference : ℝ) (gap : ι → ℝ) (contact : ι → Bool) (last : Option ℕ) (it : ℕ) :
    ∃ e, loop mat pick s interference gap it contact last = (.error e, contact) ∧ ((∃ a, mat it (prescribed (needed interference gap) contact) = .ok a) → e = .valueError) := by
  rw [loop]
  cases h : mat it (prescribed (needed interference gap) contact) with
  | error e => exact ⟨e, rfl, fun ⟨a, ha⟩ => by cases ha⟩
  | ok a =>
    obtain ⟨remove, add, hr⟩ := hf a.loads (deformed interference gap a.total) contact
    simp only [update, hs, hr]
    exact ⟨_, rfl, fun _ => rfl⟩

/-- The function that never changes the nodes. -/
example : ∃ f : (Fin 2 → XR) → (Fin 2 → XR) → (Fin 2 → Bool) → RuleOut (Fin 2), ∀ l g c, ∃ remove add, f l g c = .two remove add :=
  ⟨fun _ _ _ => .two (fun _ => false) fun _ => false, fun _ _ _ => ⟨_, _, rfl⟩⟩

end Verif.Interference
