import Verif.Interp.Spec
import Mathlib.Tactic.Linarith
import Mathlib.Tactic.FieldSimp
import Mathlib.Tactic.Ring

/-!
# Lemmas on the interpolator and the loop over the increments
-/

namespace Verif.Interp

open Verif

variable {α : Type}

theorem entries_some_iff (xs : List (Option α)) (ys : List α) : entries xs = some ys ↔ xs = ys.map some := by
  induction xs generalizing ys with
  | nil => cases ys <;> simp [entries]
  | cons x rest ih =>
    cases x with
    | none => cases ys <;> simp [entries]
    | some x =>
      cases ys with
      | nil => simp [entries]
      | cons y ys =>
        simp only [entries, Option.map_eq_some_iff, List.cons.injEq, List.map_cons, Option.some.injEq]
        constructor
        · rintro ⟨zs, h, rfl, rfl⟩
          exact ⟨rfl, (ih zs).1 h⟩
        · rintro ⟨rfl, h⟩
          exact ⟨ys, (ih ys).2 h, rfl, rfl⟩

variable [LinearOrder α]

/-- The table kept by the interpolator: the points sorted by time. -/
theorem interp1d_ok (time position : List α) (tbl : List (α × α)) (h : interp1d time position = .ok tbl) :
    time.length = position.length ∧ time ≠ [] ∧ tbl.Perm (time.zip position) ∧ tbl.Pairwise (fun a b => a.1 ≤ b.1) := by
  unfold interp1d at h
  split at h
  · cases h
  split at h
  · cases h
  rename_i h1 h2
  cases h
  refine ⟨by omega, by rintro rfl; simp at h2, List.mergeSort_perm _ _, ?_⟩
  have := List.pairwise_mergeSort (le := fun a b : α × α => decide (a.1 ≤ b.1))
    (by intro a b c h1 h2; simp only [decide_eq_true_eq] at *; exact le_trans h1 h2)
    (by intro a b; simp only [Bool.or_eq_true, decide_eq_true_eq]; exact le_total _ _) (time.zip position)
  exact this.imp (by intro a b h; simpa using h)

theorem interp1d_exists (time position : List α) (h : time.length = position.length) (hne : time ≠ []) :
    ∃ tbl, interp1d time position = .ok tbl := by
  unfold interp1d
  rw [if_neg (by simpa using h), if_neg (by simpa using hne)]
  exact ⟨_, rfl⟩

theorem interp1d_error (time position : List α) (e : PyErr) (h : interp1d time position = .error e) : e = .valueError := by
  unfold interp1d at h
  split at h
  · cases h; rfl
  split at h
  · cases h; rfl
  · cases h

/-- Every accepted sequence prescribes points, and the interpolator keeps them sorted by time. -/
theorem make_ok (ar : Arith α) (v : Values α) (tbl : List (α × α)) (h : makeInterpolationFunc ar v = .ok tbl) :
    ∃ pts, Points ar.zero ar.one v pts ∧ tbl.Perm pts ∧ tbl.Pairwise (fun a b => a.1 ≤ b.1) ∧ pts ≠ [] := by
  unfold makeInterpolationFunc at h
  split at h
  · split at h
    · cases h
    · rename_i xs _ a b hx
      rw [entries_some_iff] at hx
      subst hx
      obtain ⟨-, -, h1, h2⟩ := interp1d_ok _ _ _ h
      exact ⟨_, .ends a b, h1, h2, by simp⟩
    · cases h
  · split at h
    · split at h
      · cases h
      · rename_i r _ a b hx
        rw [entries_some_iff] at hx
        subst hx
        obtain ⟨-, -, h1, h2⟩ := interp1d_ok _ _ _ h
        exact ⟨_, .row a b, h1, h2, by simp⟩
      · cases h
    · rename_i p t
      split at h
      · cases h
      rename_i hlen
      split at h
      · rename_i position time hp ht
        split at h
        · cases h
        rename_i hone
        obtain ⟨h0, h3, h1, h2⟩ := interp1d_ok _ _ _ h
        rw [entries_some_iff] at hp ht
        subst hp ht
        have hl : 2 ≤ (time.zip position).length := by
          rw [List.length_zip, ← h0]
          have := List.length_pos_iff.2 h3
          omega
        have := Points.table (zero := ar.zero) (one := ar.one) (time.zip position) hl
        have e1 : (time.zip position).map (fun p => some p.2) = position.map some :=
          (List.map_map (f := Prod.snd) (g := some) (l := time.zip position)).symm.trans
            (by rw [List.map_snd_zip (by omega)])
        have e2 : (time.zip position).map (fun p => some p.1) = time.map some :=
          (List.map_map (f := Prod.fst) (g := some) (l := time.zip position)).symm.trans
            (by rw [List.map_fst_zip (by omega)])
        rw [e1, e2] at this
        exact ⟨_, this, h1, h2, by intro hh; rw [hh] at hl; simp at hl⟩
      · cases h
    · cases h

theorem make_exists (ar : Arith α) (v : Values α) (pts : List (α × α)) (h : Points ar.zero ar.one v pts) :
    ∃ tbl, makeInterpolationFunc ar v = .ok tbl := by
  cases h with
  | ends a b => exact interp1d_exists _ _ rfl (by simp)
  | row a b => exact interp1d_exists _ _ rfl (by simp)
  | table _ hl =>
    unfold makeInterpolationFunc
    dsimp only
    rw [if_neg (by simp),
      (entries_some_iff (pts.map (fun p => some p.2)) (pts.map Prod.snd)).2 (by simp [Function.comp_def]),
      (entries_some_iff (pts.map (fun p => some p.1)) (pts.map Prod.fst)).2 (by simp [Function.comp_def])]
    dsimp only
    rw [if_neg (by simp; omega)]
    exact interp1d_exists _ _ (by simp) (by rintro hh; simp at hh; simp [hh] at hl)

theorem make_error (ar : Arith α) (v : Values α) (e : PyErr) (h : makeInterpolationFunc ar v = .error e) :
    e = .valueError := by
  unfold makeInterpolationFunc at h
  repeat' split at h
  all_goals first | exact interp1d_error _ _ _ h | (cases h; rfl)

/-- The points prescribed by a sequence are unique. -/
theorem points_unique {zero one : α} {v : Values α} {p q : List (α × α)} (hp : Points zero one v p) (hq : Points zero one v q) :
    p = q := by
  cases hp with
  | ends => cases hq; rfl
  | row a b =>
    generalize hv : Values.rows [[some a, some b]] = v at hq
    cases hq with
    | ends => cases hv
    | row => cases hv; rfl
    | table => simp at hv
  | table _ hl =>
    generalize hv : Values.rows [p.map (fun x => some x.2), p.map (fun x => some x.1)] = v at hq
    cases hq with
    | ends => cases hv
    | row => simp at hv
    | table _ hl2 =>
      simp only [Values.rows.injEq, List.cons.injEq, and_true] at hv
      clear hl hl2
      obtain ⟨h1, h2⟩ := hv
      induction p generalizing q with
      | nil => cases q <;> simp_all
      | cons a p ih =>
        cases q with
        | nil => simp at h1
        | cons b q =>
          simp only [List.map_cons, List.cons.injEq, Option.some.injEq] at h1 h2
          rw [ih h1.2 h2.2, Prod.ext h2.1 h1.1]

/-! ## The interpolator -/

/-- In a table with strictly increasing times the interpolator returns the position of each item, whatever the arithmetic. -/
theorem npInterp_item (ar : Arith α) (l : List (α × α)) (h : l.Pairwise (fun a b => a.1 < b.1)) (c : α × α) (hc : c ∈ l) :
    npInterp ar l c.1 = c.2 := by
  induction l with
  | nil => cases hc
  | cons a rest ih =>
    cases rest with
    | nil =>
      rw [List.mem_singleton] at hc
      subst hc
      rfl
    | cons b rest =>
      rw [List.pairwise_cons] at h
      rcases List.mem_cons.1 hc with rfl | hc
      · have : ¬ b.1 ≤ c.1 := not_le.2 (h.1 b (by simp))
        simp only [npInterp, if_neg this, if_true]
      · have : b.1 ≤ c.1 := by
          rcases List.mem_cons.1 hc with rfl | hc
          · exact le_rfl
          · exact le_of_lt ((List.pairwise_cons.1 h.2).1 c hc)
        simp only [npInterp, if_pos this]
        exact ih h.2 hc

/-- The first item of a sorted table is the earliest, the last one the latest. -/
theorem head_le (l : List (α × α)) (h : l.Pairwise (fun a b => a.1 ≤ b.1)) (a : α × α) (ha : l.head? = some a) (c : α × α)
    (hc : c ∈ l) : a.1 ≤ c.1 := by
  cases l with
  | nil => cases hc
  | cons b rest =>
    simp only [List.head?_cons, Option.some.injEq] at ha
    subst ha
    rcases List.mem_cons.1 hc with rfl | hc
    · exact le_rfl
    · exact (List.pairwise_cons.1 h).1 c hc

theorem le_last (l : List (α × α)) (h : l.Pairwise (fun a b => a.1 ≤ b.1)) (b : α × α) (hb : l.getLast? = some b) (c : α × α)
    (hc : c ∈ l) : c.1 ≤ b.1 := by
  induction l with
  | nil => cases hc
  | cons a rest ih =>
    rw [List.pairwise_cons] at h
    cases rest with
    | nil =>
      simp at hb hc
      subst hb hc
      exact le_rfl
    | cons d rest =>
      rw [List.getLast?_cons_cons] at hb
      rcases List.mem_cons.1 hc with rfl | hc
      · exact h.1 b (List.mem_of_getLast? hb)
      · exact ih h.2 hb hc

/-- The interpolator answers exactly for times between the earliest and the latest item. -/
theorem callInterp_ok (ar : Arith α) (l : List (α × α)) (h : l.Pairwise (fun a b => a.1 ≤ b.1)) (x : α)
    (h1 : ∃ a ∈ l, a.1 ≤ x) (h2 : ∃ b ∈ l, x ≤ b.1) : callInterp ar l x = .ok (npInterp ar l x) := by
  obtain ⟨a, ha, hax⟩ := h1
  obtain ⟨b, hb, hbx⟩ := h2
  have hne : l ≠ [] := List.ne_nil_of_mem ha
  unfold callInterp
  rw [List.head?_eq_some_head hne, List.getLast?_eq_some_getLast hne]
  dsimp only
  rw [if_neg (not_lt.2 ((head_le l h _ (List.head?_eq_some_head hne) a ha).trans hax)),
    if_neg (not_lt.2 (hbx.trans (le_last l h _ (List.getLast?_eq_some_getLast hne) b hb)))]

theorem callInterp_inv (ar : Arith α) (l : List (α × α)) (x y : α) (hc : callInterp ar l x = .ok y) :
    y = npInterp ar l x ∧ (∃ a, l.head? = some a ∧ a.1 ≤ x) ∧ ∃ b, l.getLast? = some b ∧ x ≤ b.1 := by
  unfold callInterp at hc
  split at hc
  · rename_i a b ha hb
    split at hc
    · cases hc
    split at hc
    · cases hc
    rename_i h1 h2
    cases hc
    exact ⟨rfl, ⟨a, ha, not_lt.1 h1⟩, b, hb, not_lt.1 h2⟩
  · cases hc

theorem callInterp_error (ar : Arith α) (l : List (α × α)) (x : α) (e : PyErr) (hc : callInterp ar l x = .error e) :
    e = .valueError := by
  unfold callInterp at hc
  repeat' split at hc
  all_goals first | (cases hc; rfl) | cases hc

/-- With exact arithmetic the interpolator stays on the broken line. -/
theorem npInterp_onCurve (l : List (ℝ × ℝ)) (h : l.Pairwise (fun a b => a.1 ≤ b.1)) (r : ℝ) (a : ℝ × ℝ) (ha : l.head? = some a)
    (har : a.1 ≤ r) (b : ℝ × ℝ) (hb : l.getLast? = some b) (hbr : r ≤ b.1) : OnCurve l r (npInterp .real l r) := by
  induction l generalizing a with
  | nil => cases ha
  | cons a' rest ih =>
    simp only [List.head?_cons, Option.some.injEq] at ha
    subst ha
    cases rest with
    | nil =>
      simp only [List.getLast?_singleton, Option.some.injEq] at hb
      subst hb
      refine ⟨a', by simp, a', by simp, har, hbr, ?_, ?_, fun _ => rfl⟩
      · intro c hc
        rw [List.mem_singleton] at hc
        subst hc
        exact Or.inl le_rfl
      · simp [npInterp]
    | cons d rest =>
      rw [List.pairwise_cons] at h
      rw [List.getLast?_cons_cons] at hb
      by_cases hd : d.1 ≤ r
      · obtain ⟨x, hx, y, hy, h1, h2, h3, h4, h5⟩ := ih h.2 d rfl hd hb
        have he : npInterp .real (a' :: d :: rest) r = npInterp .real (d :: rest) r := by
          obtain ⟨t0, p0⟩ := a'
          obtain ⟨t1, p1⟩ := d
          simp only [npInterp, if_pos hd]
        rw [he]
        refine ⟨x, List.mem_cons_of_mem _ hx, y, List.mem_cons_of_mem _ hy, h1, h2, ?_, h4, h5⟩
        intro c hc
        rcases List.mem_cons.1 hc with rfl | hc
        · exact Or.inl (h.1 x hx)
        · exact h3 c hc
      · have hd' := not_le.1 hd
        refine ⟨a', by simp, d, by simp, har, hd'.le, ?_, ?_, ?_⟩
        · intro c hc
          rcases List.mem_cons.1 hc with rfl | hc
          · exact Or.inl le_rfl
          · exact Or.inr (head_le _ h.2 d rfl c hc)
        · simp only [npInterp, if_neg hd]
          split
          · rename_i heq
            rw [← heq]
            ring
          · have : d.1 - a'.1 ≠ 0 := by linarith
            simp only [Arith.real]
            field_simp
            ring
        · intro hra
          simp only [npInterp, if_neg hd, if_pos hra.symm]

theorem onCurve_perm {l pts : List (ℝ × ℝ)} (hp : l.Perm pts) {r y : ℝ} (h : OnCurve l r y) : OnCurve pts r y := by
  obtain ⟨a, ha, b, hb, h1, h2, h3, h4, h5⟩ := h
  exact ⟨a, hp.mem_iff.1 ha, b, hp.mem_iff.1 hb, h1, h2, fun c hc => h3 c (hp.mem_iff.2 hc), h4, h5⟩

/-! ## The loop over the increments -/

theorem updateOne_again (ar : Arith α) {rel : Bool} {o : Option α} {upd : Option (List (α × α))} {q q' : Option α} {r : α}
    (h : updateOne ar rel o upd q r = .ok q') (s : α) : updateOne ar rel o upd q' s = updateOne ar rel o upd q s := by
  cases upd with
  | none => cases h; rfl
  | some t => rfl

theorem updateOffSet_again (ar : Arith α) {rel : Bool} {o : Option (α × α)} {upd : Option (List (α × α) × List (α × α))}
    {q q' : Option (α × α)} {r : α} (h : updateOffSet ar rel o upd q r = .ok q') (s : α) :
    updateOffSet ar rel o upd q' s = updateOffSet ar rel o upd q s := by
  cases upd with
  | none => cases h; rfl
  | some t => rfl

theorem bind_ok {ε β γ : Type} {x : Except ε β} {f : β → Except ε γ} {c : γ} (h : x >>= f = .ok c) :
    ∃ b, x = .ok b ∧ f b = .ok c := by
  cases x with
  | error e => cases h
  | ok b => exact ⟨b, rfl, h⟩

/-- The parts of `updateMovement`. -/
theorem updateMovement_ok (ar : Arith α) {s : Step α} {prev : Previous α} {q q' : Quantities α} {r : α}
    (h : updateMovement ar s prev q r = .ok q') :
    updateOffSet ar s.relative (some (prev.offSet.getD (ar.zero, ar.zero))) s.offUpd q.offSet r = .ok q'.offSet ∧
    updateOne ar s.relative (some (prev.load.getD ar.zero)) s.loadUpd q.load r = .ok q'.load ∧
    updateOne ar s.relative (some (prev.interference.getD ar.zero)) s.interferenceUpd q.interference r = .ok q'.interference ∧
    updateOne ar s.relative none s.rollingUpd q.rolling r = .ok q'.rolling := by
  unfold updateMovement at h
  obtain ⟨a, ha, h⟩ := bind_ok h
  obtain ⟨b, hb, h⟩ := bind_ok h
  obtain ⟨c, hc, h⟩ := bind_ok h
  obtain ⟨d, hd, h⟩ := bind_ok h
  cases h
  exact ⟨ha, hb, hc, hd⟩

theorem updateMovement_again (ar : Arith α) {s : Step α} {prev : Previous α} {q q' : Quantities α} {r : α}
    (h : updateMovement ar s prev q r = .ok q') (t : α) : updateMovement ar s prev q' t = updateMovement ar s prev q t := by
  obtain ⟨h1, h2, h3, h4⟩ := updateMovement_ok ar h
  unfold updateMovement
  rw [updateOffSet_again ar h1, updateOne_again ar h2, updateOne_again ar h3, updateOne_again ar h4]

/-- The quantities in an increment depend on the step only, not on the increments before. -/
theorem increments_get (ar : Arith α) (s : Step α) (prev : Previous α) (todo i : Nat) (q : Quantities α)
    (qs : List (Quantities α)) (h : increments ar s prev todo i q = .ok qs) :
    qs.length = todo ∧ ∀ j (hj : j < qs.length), updateMovement ar s prev q (relativeTime ar s.steps (i + j)) = .ok qs[j] := by
  induction todo generalizing i q qs with
  | zero => cases h; exact ⟨rfl, by intro j hj; simp at hj⟩
  | succ n ih =>
    unfold increments at h
    split at h
    · cases h
    · rename_i q' hq
      split at h
      · cases h
      · rename_i rest hrest
        cases h
        obtain ⟨h1, h2⟩ := ih (i + 1) q' rest hrest
        refine ⟨by simp [h1], ?_⟩
        intro j hj
        cases j with
        | zero => exact hq
        | succ j =>
          have := h2 j (by simpa using hj)
          rw [updateMovement_again ar hq] at this
          rw [show i + (j + 1) = i + 1 + j from by omega]
          exact this

theorem increments_exists (ar : Arith α) (s : Step α) (prev : Previous α) (todo i : Nat) (q : Quantities α)
    (h : ∀ j < todo, ∃ q', updateMovement ar s prev q (relativeTime ar s.steps (i + j)) = .ok q') :
    ∃ qs, increments ar s prev todo i q = .ok qs := by
  induction todo generalizing i q with
  | zero => exact ⟨[], rfl⟩
  | succ n ih =>
    obtain ⟨q', hq⟩ := h 0 (by omega)
    obtain ⟨qs, hqs⟩ := ih (i + 1) q' (by
      intro j hj
      obtain ⟨q2, h2⟩ := h (j + 1) (by omega)
      rw [updateMovement_again ar hq, show i + 1 + j = i + (j + 1) from by omega]
      exact ⟨q2, h2⟩)
    rw [Nat.add_zero] at hq
    refine ⟨q' :: qs, ?_⟩
    unfold increments
    rw [hq]
    dsimp only
    rw [hqs]

/-! ## Construction of a step -/

/-- The parts of `init`. -/
theorem init_ok (ar : Arith α) {a : StepArgs α} {s : Step α} (h : init ar a = .ok s) :
    a.steps ≠ 0 ∧ s.steps = a.steps ∧ s.relative = a.relative ∧
    initOffSet ar a = .ok (s.q.offSet, s.offUpd) ∧
    (∃ i, initInterference ar a = .ok i ∧ numberOrUpd ar i = .ok (s.q.interference, s.interferenceUpd)) ∧
    initRolling ar a.rolling = .ok (s.q.rolling, s.rollingUpd) ∧
    numberOrUpd ar a.load = .ok (s.q.load, s.loadUpd) := by
  unfold init at h
  split at h
  · cases h
  rename_i h0
  obtain ⟨off, hoff, h⟩ := bind_ok h
  obtain ⟨i, hi, h⟩ := bind_ok h
  obtain ⟨ro, hro, h⟩ := bind_ok h
  obtain ⟨l, hl, h⟩ := bind_ok h
  obtain ⟨it, hit, h⟩ := bind_ok h
  cases h
  exact ⟨h0, rfl, rfl, hoff, ⟨i, hi, hit⟩, hro, hl⟩

end Verif.Interp
