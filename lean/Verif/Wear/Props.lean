import Verif.Wear.Spec
import Mathlib.Tactic.FieldSimp
import Mathlib.Tactic.Ring
import Mathlib.Tactic.NormNum
import Mathlib.Tactic.Linarith

/-! # C39, C40: wear -/

namespace Verif.Wear

open Spec

variable {K : Type} [Field K] [LinearOrder K] [IsStrictOrderedRing K] [FloorRing K]

/-- The change at a node: the last depth given for it. -/
def lastAt (y x : ℕ) : List (Pt K) → K → K
  | [], d => d
  | p :: l, d => lastAt y x l (if y = p.y ∧ x = p.x then p.d else d)

omit [LinearOrder K] [IsStrictOrderedRing K] [FloorRing K] in
theorem foldl_set (f : K) (a : Arr K) (pts : List (Pt K)) (acc : Arr K) (d : K) (y x : ℕ) (h : acc.val y x = a.val y x + f * d) :
    (pts.foldl (fun acc p => acc.set p.y p.x (a.val p.y p.x + f * p.d)) acc).val y x = a.val y x + f * lastAt y x pts d := by
  induction pts generalizing acc d with
  | nil => exact h
  | cons p l ih =>
    simp only [List.foldl_cons, lastAt]
    refine ih _ _ ?_
    simp only [Arr.set]
    by_cases hc : y = p.y ∧ x = p.x
    · simp only [hc, and_self, if_true]
    · simp only [hc, if_false]; exact h

omit [LinearOrder K] [IsStrictOrderedRing K] [FloorRing K] in
theorem addAt_val (f : K) (a : Arr K) (pts : List (Pt K)) (y x : ℕ) : (addAt f a pts).val y x = a.val y x + f * lastAt y x pts 0 :=
  foldl_set f a pts a 0 y x (by ring)

omit [LinearOrder K] [IsStrictOrderedRing K] [FloorRing K] in
theorem addAt_shape (f : K) (a : Arr K) (pts : List (Pt K)) : (addAt f a pts).rows = a.rows ∧ (addAt f a pts).cols = a.cols := by
  unfold addAt
  suffices h : ∀ acc : Arr K, (pts.foldl (fun acc p => acc.set p.y p.x (a.val p.y p.x + f * p.d)) acc).rows = acc.rows ∧
      (pts.foldl (fun acc p => acc.set p.y p.x (a.val p.y p.x + f * p.d)) acc).cols = acc.cols from h a
  induction pts with
  | nil => exact fun acc => ⟨rfl, rfl⟩
  | cons p l ih => intro acc; simp only [List.foldl_cons]; exact ⟨(ih _).1, (ih _).2⟩

/-- Setting an entry changes the sum by the difference. -/
theorem recorded_set (w : Dict (Arr K)) (k : String) (v : Arr K) (y x : ℕ) :
    recorded (Dict.set w k v) y x = recorded w y x + (v.val y x - ((w.get? k).map fun a => a.val y x).getD 0) := by
  induction w with
  | nil => simp [recorded, Dict.set, Dict.get?]
  | cons a w ih =>
    obtain ⟨k', v'⟩ := a
    by_cases h : k' = k
    · simp [recorded, Dict.set, Dict.get?, h]; ring
    · simp only [Dict.set, if_neg h, Dict.get?]
      simp only [recorded, List.map_cons, List.sum_cons] at ih ⊢
      rw [ih]; ring

theorem recorded_open (w : Dict (Arr K)) (k : String) (p : Arr K) (y x : ℕ) :
    recorded (Dict.set w k ((w.get? k).getD p.zeros)) y x = recorded w y x := by
  rw [recorded_set]
  cases h : w.get? k <;> simp [Arr.zeros]

theorem conserved_step (s : Surf K) (o : Op K) (h : Conserved s) : Conserved (step s o) := by
  cases o with
  | setProfile p => exact ⟨rfl, rfl, fun y x => by simp [recorded, step]⟩
  | delProfile => rfl
  | setGs g => exact h
  | wear name xs ys depth =>
    simp only [step, wear]
    split
    · exact h
    split
    · exact h
    cases hp : s.prof with
    | none => exact h
    | some p =>
      cases hu : s.unworn with
      | none => simp [Conserved, hp, hu] at h
      | some u =>
        simp only [Conserved, hp, hu] at h
        obtain ⟨h1, h2, h3⟩ := h
        cases hg : s.gs with
        | none =>
          simp only [Conserved, hp, hu]
          exact ⟨h1, h2, fun y x => by rw [recorded_open]; exact h3 y x⟩
        | some g =>
          simp only
          split
          · simp only [Conserved, hu]
            refine ⟨by rw [(addAt_shape _ _ _).1]; exact h1, by rw [(addAt_shape _ _ _).2]; exact h2, fun y x => ?_⟩
            rw [recorded_set, recorded_open, addAt_val, addAt_val, Dict.get?_set, if_pos rfl, ← h3 y x]
            simp only [Option.map_some, Option.getD_some]
            ring
          · simp only [Conserved, hp, hu]
            exact ⟨h1, h2, fun y x => by rw [recorded_open]; exact h3 y x⟩

/-- **C39.** After any sequence of wear calls (any names, positions and depths, also with exceptions), assignments and deletions of the
profile, and assignments of the grid spacing, the unworn profile minus the profile is the sum of the recorded depths, at every node. -/
theorem C39_conserved (ops : List (Op K)) : Conserved (run (Surf.new : Surf K) ops) := by
  have gen : ∀ (ops : List (Op K)) (s : Surf K), Conserved s → Conserved (run s ops) := by
    intro ops
    induction ops with
    | nil => exact fun s h => h
    | cons o os ih => exact fun s h => ih _ (conserved_step s o h)
  exact gen ops _ rfl

/-- **C39, new profile.** Assigning a profile resets the record, and both the profile and the unworn profile are the new one. -/
theorem C39_reset (ops : List (Op K)) (p : Arr K) :
    (run (Surf.new : Surf K) (ops ++ [.setProfile p])).wear = [] ∧ (run (Surf.new : Surf K) (ops ++ [.setProfile p])).prof = some p ∧
      (run (Surf.new : Surf K) (ops ++ [.setProfile p])).unworn = some p := by
  simp [run, step]

/-! ## C40 -/

theorem noNan_none (depth : List (Option K)) (h : none ∈ depth) : noNan depth = none := by
  induction depth with
  | nil => simp at h
  | cons a l ih =>
    cases a with
    | none => rfl
    | some d => simp only [List.mem_cons, reduceCtorEq, false_or] at h; simp [noNan, ih h]

/-- **C40, malformed input.** If the lengths differ, or a depth is `nan`, there is a `ValueError` and the surface is unchanged. -/
theorem C40_malformed (s : Surf K) (name : String) (xs ys : List K) (depth : List (Option K))
    (h : xs.length ≠ ys.length ∨ ys.length ≠ depth.length ∨ none ∈ depth) : wear s name xs ys depth = (s, some .valueError) := by
  unfold wear
  by_cases hl : xs.length = ys.length ∧ ys.length = depth.length
  · have hn : none ∈ depth := by
      rcases h with h | h | h
      · exact absurd hl.1 h
      · exact absurd hl.2 h
      · exact h
    simp only [hl, and_self, not_true, if_false, noNan_none depth hn]
  · rw [if_pos hl]

/-- The hypothesis can be met. -/
example : (([1, 2] : List ℚ).length ≠ ([1] : List ℚ).length ∨ ([1] : List ℚ).length ≠ ([none] : List (Option ℚ)).length ∨ none ∈ ([none] : List (Option ℚ))) := by
  simp

theorem noNan_some (ds : List K) : noNan (ds.map some) = some ds := by
  induction ds with
  | nil => rfl
  | cons a l ih => simp [noNan, ih]

theorem points_map (g : K) (l : List (Place K)) :
    points g (l.map Place.x) (l.map Place.y) (l.map Place.d) = l.map fun p => ⟨index g p.y, index g p.x, p.d⟩ := by
  induction l with
  | nil => rfl
  | cons a l ih => simp [points, ih]

theorem lastAt_absent (y x : ℕ) (pts : List (Pt K)) (d : K) (h : ∀ p ∈ pts, ¬ (p.y = y ∧ p.x = x)) : lastAt y x pts d = d := by
  induction pts with
  | nil => rfl
  | cons p l ih =>
    have hp := h p (by simp)
    have : ¬ (y = p.y ∧ x = p.x) := fun e => hp ⟨e.1.symm, e.2.symm⟩
    simp only [lastAt, this, if_false]
    exact ih fun q hq => h q (by simp [hq])

theorem lastAt_present (y x : ℕ) (pts : List (Pt K)) (d : K) (q : Pt K) (hq : q ∈ pts) (hy : q.y = y) (hx : q.x = x)
    (hu : ∀ p ∈ pts, p.y = y → p.x = x → p.d = q.d) : lastAt y x pts d = q.d := by
  induction pts generalizing d with
  | nil => simp at hq
  | cons p l ih =>
    simp only [lastAt]
    by_cases hin : q ∈ l
    · exact ih _ hin fun r hr => hu r (by simp [hr])
    · have hqp : q = p := by simpa [hin] using hq
      subst hqp
      rw [if_pos ⟨hy.symm, hx.symm⟩]
      by_cases hex : ∃ r ∈ l, r.y = y ∧ r.x = x
      · clear ih hq hin
        have gen : ∀ (l : List (Pt K)) (d : K), (∀ p ∈ l, p.y = y → p.x = x → p.d = q.d) → d = q.d → lastAt y x l d = q.d := by
          intro l
          induction l with
          | nil => exact fun d _ h => h
          | cons p l ih =>
            intro d h1 h2
            simp only [lastAt]
            refine ih _ (fun r hr => h1 r (by simp [hr])) ?_
            split
            · rename_i hc; exact h1 p (by simp) hc.1.symm hc.2.symm
            · exact h2
        exact gen l _ (fun r hr => hu r (by simp [hr])) rfl
      · exact lastAt_absent y x l _ fun r hr hc => hex ⟨r, hr, hc⟩

theorem total_of_distinct (l : List (Place K)) (h : l.Pairwise fun p q => ¬ (p.row = q.row ∧ p.col = q.col)) (y x : ℕ) :
    lastAt y x (l.map fun p => (⟨p.row, p.col, p.d⟩ : Pt K)) 0 = total l y x := by
  induction l with
  | nil => rfl
  | cons a l ih =>
    rw [List.pairwise_cons] at h
    simp only [List.map_cons, lastAt]
    by_cases hc : a.row = y ∧ a.col = x
    · have h1 : ∀ q ∈ l, ¬ (q.row = y ∧ q.col = x) := fun q hq e => h.1 q hq ⟨hc.1.trans e.1.symm, hc.2.trans e.2.symm⟩
      rw [if_pos ⟨hc.1.symm, hc.2.symm⟩, lastAt_absent]
      · have h2 : l.filter (fun p => decide (p.row = y ∧ p.col = x)) = [] := by
          rw [List.filter_eq_nil_iff]
          intro q hq; simpa using h1 q hq
        simp only [total, List.filter_cons, hc, and_self, decide_true, if_true, h2, List.map_cons, List.map_nil, List.sum_cons, List.sum_nil, add_zero]
      · intro p hp
        obtain ⟨q, hq, rfl⟩ := List.mem_map.1 hp
        exact h1 q hq
    · have hc' : ¬ (y = a.row ∧ x = a.col) := fun e => hc ⟨e.1.symm, e.2.symm⟩
      rw [if_neg hc', ih h.2]
      simp only [total, List.filter_cons, hc, decide_false]
      rfl

/-- The effect of a wear call whose positions are converted to the given nodes, all different. -/
theorem wear_effect (s : Surf K) (p : Arr K) (g : K) (name : String) (l : List (Place K)) (hp : s.prof = some p) (hg : s.gs = some g)
    (hrow : ∀ q ∈ l, index g q.y = q.row) (hcol : ∀ q ∈ l, index g q.x = q.col) (hin : ∀ q ∈ l, q.row < p.rows ∧ q.col < p.cols)
    (hd : l.Pairwise fun p q => ¬ (p.row = q.row ∧ p.col = q.col)) :
    (wear s name (l.map Place.x) (l.map Place.y) (l.map fun q => some q.d)).2 = none ∧
    ∃ p', (wear s name (l.map Place.x) (l.map Place.y) (l.map fun q => some q.d)).1.prof = some p' ∧ p'.rows = p.rows ∧ p'.cols = p.cols ∧
      ∀ y x, p'.val y x = p.val y x - total l y x := by
  have e1 : noNan (l.map fun q => some q.d) = some (l.map Place.d) := by
    rw [show (l.map fun q => some q.d) = (l.map Place.d).map some by simp [Function.comp_def], noNan_some]
  have e2 : points g (l.map Place.x) (l.map Place.y) (l.map Place.d) = l.map fun q => (⟨q.row, q.col, q.d⟩ : Pt K) := by
    rw [points_map]
    exact List.map_congr_left fun q hq => by rw [hrow q hq, hcol q hq]
  have e3 : (l.map fun q => (⟨q.row, q.col, q.d⟩ : Pt K)).all (fun q => decide (q.y < p.rows) && decide (q.x < p.cols)) = true := by
    rw [List.all_eq_true]
    intro q hq
    obtain ⟨r, hr, rfl⟩ := List.mem_map.1 hq
    simp [hin r hr]
  unfold wear
  simp only [List.length_map, and_self, not_true, if_false, e1, hp, hg, e2, e3, if_true]
  refine ⟨trivial, _, rfl, (addAt_shape _ _ _).1, (addAt_shape _ _ _).2, fun y x => ?_⟩
  rw [addAt_val, total_of_distinct l hd]
  ring

theorem index_node (g : K) (i : ℕ) (h0 : 0 < g) (h2 : g < 2) (hi : i < 65536) : index g ((i : K) * g) = i := by
  unfold index trunc
  have e : (i : K) * g / g = i := by field_simp
  have hpos : (0 : K) ≤ (i : K) + g / 2 := by positivity
  rw [e, if_pos hpos]
  have : ⌊(i : K) + g / 2⌋ = (i : ℤ) := by
    rw [Int.floor_eq_iff]
    constructor
    · push_cast; linarith
    · push_cast; linarith
  rw [this]; omega

theorem index_one (x : K) (i : ℕ) (h0 : 0 ≤ x) (hi : i < 65536) (hn : Nearest 1 x i) (htie : ∀ j : ℕ, x ≠ (j : K) + 1 / 2) : index 1 x = i := by
  unfold index trunc
  have hpos : (0 : K) ≤ x / 1 + 1 / 2 := by simp only [div_one]; positivity
  rw [if_pos hpos]
  have : ⌊x / 1 + 1 / 2⌋ = (i : ℤ) := by
    rw [Int.floor_eq_iff]
    push_cast
    rw [div_one]
    have hup := hn (i + 1)
    push_cast at hup
    simp only [mul_one] at hup
    constructor
    · rcases Nat.eq_zero_or_pos i with rfl | hpos'
      · simp; linarith
      · obtain ⟨k, rfl⟩ : ∃ k, i = k + 1 := ⟨i - 1, by omega⟩
        have hdn := hn k
        push_cast at hdn ⊢
        simp only [mul_one] at hdn
        by_contra hlt
        rw [not_le] at hlt
        have h1 : |x - ((k : K) + 1)| = (k : K) + 1 - x := by rw [abs_of_nonpos (by linarith)]; ring
        rw [h1] at hdn
        rcases abs_cases (x - (k : K)) with ⟨h2, -⟩ | ⟨h2, h3⟩ <;> rw [h2] at hdn <;> linarith
    · by_contra hge
      rw [not_lt] at hge
      have hne := htie i
      have hgt : (i : K) + 1 / 2 < x := lt_of_le_of_ne (by linarith) (Ne.symm hne)
      rw [abs_of_nonneg (by linarith : (0 : K) ≤ x - i)] at hup
      rcases abs_cases (x - ((i : K) + 1)) with ⟨h2, -⟩ | ⟨h2, h3⟩ <;> rw [h2] at hup <;> linarith
  rw [this]; omega

/-- **C40 at the nodes (partial).** If the positions are positions of nodes of the surface (no more than 65536 in each direction), all different, and the
grid spacing is below 2 (in whatever units), each depth lowers the profile at its node. Missing: positions between the nodes, larger grid spacings and
repeated nodes, for which the claim is false, see `C40_fails`. -/
theorem C40_at_nodes_partial (s : Surf K) (p : Arr K) (g : K) (name : String) (l : List (Place K)) (hp : s.prof = some p) (hg : s.gs = some g)
    (h0 : 0 < g) (h2 : g < 2) (hrows : p.rows ≤ 65536) (hcols : p.cols ≤ 65536)
    (hpos : ∀ q ∈ l, q.x = (q.col : K) * g ∧ q.y = (q.row : K) * g) (hin : ∀ q ∈ l, q.row < p.rows ∧ q.col < p.cols)
    (hd : l.Pairwise fun p q => ¬ (p.row = q.row ∧ p.col = q.col)) :
    (wear s name (l.map Place.x) (l.map Place.y) (l.map fun q => some q.d)).2 = none ∧
    ∃ p', (wear s name (l.map Place.x) (l.map Place.y) (l.map fun q => some q.d)).1.prof = some p' ∧ p'.rows = p.rows ∧ p'.cols = p.cols ∧
      ∀ y x, p'.val y x = p.val y x - total l y x :=
  wear_effect s p g name l hp hg (fun q hq => by rw [(hpos q hq).2]; exact index_node g _ h0 h2 (by have := (hin q hq).1; omega))
    (fun q hq => by rw [(hpos q hq).1]; exact index_node g _ h0 h2 (by have := (hin q hq).2; omega)) hin hd

/-- The hypotheses can be met. -/
example : ∃ (p : Arr ℚ) (l : List (Place ℚ)) (g : ℚ), 0 < g ∧ g < 2 ∧ p.rows ≤ 65536 ∧ p.cols ≤ 65536 ∧ l.length = 2 ∧
    (∀ q ∈ l, q.x = (q.col : ℚ) * g ∧ q.y = (q.row : ℚ) * g) ∧ (∀ q ∈ l, q.row < p.rows ∧ q.col < p.cols) ∧
    l.Pairwise fun p q => ¬ (p.row = q.row ∧ p.col = q.col) :=
  ⟨⟨3, 4, fun _ _ => 0⟩, [⟨1 / 2, 0, 1, 1, 0⟩, ⟨1 / 2, 1, 1, 1, 2⟩], 1 / 2, by norm_num, by norm_num, by norm_num, by norm_num, rfl,
    by simp, by simp, by simp⟩

/-- **C40 for the grid spacing 1 (partial).** With a grid spacing of exactly 1 each depth lowers the profile at the nearest node, for all positions that are
not half way between two nodes and whose nearest nodes are different. Missing: other grid spacings and repeated nodes. -/
theorem C40_spacing_one_partial (s : Surf K) (p : Arr K) (name : String) (l : List (Place K)) (hp : s.prof = some p) (hg : s.gs = some 1)
    (hrows : p.rows ≤ 65536) (hcols : p.cols ≤ 65536) (hx : ∀ q ∈ l, 0 ≤ q.x ∧ Nearest 1 q.x q.col ∧ ∀ j : ℕ, q.x ≠ (j : K) + 1 / 2)
    (hy : ∀ q ∈ l, 0 ≤ q.y ∧ Nearest 1 q.y q.row ∧ ∀ j : ℕ, q.y ≠ (j : K) + 1 / 2) (hin : ∀ q ∈ l, q.row < p.rows ∧ q.col < p.cols)
    (hd : l.Pairwise fun p q => ¬ (p.row = q.row ∧ p.col = q.col)) :
    (wear s name (l.map Place.x) (l.map Place.y) (l.map fun q => some q.d)).2 = none ∧
    ∃ p', (wear s name (l.map Place.x) (l.map Place.y) (l.map fun q => some q.d)).1.prof = some p' ∧ p'.rows = p.rows ∧ p'.cols = p.cols ∧
      ∀ y x, p'.val y x = p.val y x - total l y x :=
  wear_effect s p 1 name l hp hg
    (fun q hq => index_one q.y q.row (hy q hq).1 (by have := (hin q hq).1; omega) (hy q hq).2.1 (hy q hq).2.2)
    (fun q hq => index_one q.x q.col (hx q hq).1 (by have := (hin q hq).2; omega) (hx q hq).2.1 (hx q hq).2.2) hin hd

/-- The hypotheses can be met. -/
example : ∃ l : List (Place ℚ), l.length = 1 ∧ (∀ q ∈ l, 0 ≤ q.x ∧ Nearest 1 q.x q.col ∧ ∀ j : ℕ, q.x ≠ (j : ℚ) + 1 / 2) ∧
    ∀ q ∈ l, 0 ≤ q.y ∧ Nearest 1 q.y q.row ∧ ∀ j : ℕ, q.y ≠ (j : ℚ) + 1 / 2 := by
  have h1 : Nearest (1 : ℚ) (3 / 4) 1 := by
    intro j
    rcases j with _ | j
    · norm_num
    · have : (0 : ℚ) ≤ j := by positivity
      push_cast
      rw [abs_of_nonpos (by norm_num), abs_of_nonpos (by linarith)]; linarith
  have h2 : ∀ j : ℕ, (3 / 4 : ℚ) ≠ (j : ℚ) + 1 / 2 := by
    intro j h
    rcases j with _ | j
    · norm_num at h
    · have : (0 : ℚ) ≤ j := by positivity
      push_cast at h; linarith
  exact ⟨[⟨3 / 4, 3 / 4, 1, 1, 1⟩], rfl, fun q hq => by rw [List.mem_singleton] at hq; subst hq; exact ⟨by norm_num, h1, h2⟩,
    fun q hq => by rw [List.mem_singleton] at hq; subst hq; exact ⟨by norm_num, h1, h2⟩⟩

/-- **C40 is false as stated.** On a surface of 8 by 8 nodes: with the grid spacing 1/1000 a depth given at 0.9 grid spacings in the direction x is worn at the
column 0 instead of the column 1; with the grid spacing 4 a depth given at the column 1 and the row 0 is worn at the column 3 and the row 2; two depths of 1 given for
the same node lower it by 1 only. On a surface with 65537 columns a depth given at the last node is worn at the first one. -/
theorem C40_fails (u : String) :
    let flat : Arr ℚ := ⟨8, 8, fun _ _ => 0⟩
    let long : Arr ℚ := ⟨1, 65537, fun _ _ => 0⟩
    let worn := fun (p : Arr ℚ) (g : ℚ) (xs : List ℚ) => ((wear ⟨some p, some p, [], some g⟩ u xs (xs.map fun _ => 0) (xs.map fun _ => some 1)).1.prof.getD p).val
    (Nearest (1 / 1000 : ℚ) (9 / 10000) 1 ∧ worn flat (1 / 1000) [9 / 10000] 0 1 = 0 ∧ worn flat (1 / 1000) [9 / 10000] 0 0 = -1) ∧
    (Nearest (4 : ℚ) 4 1 ∧ worn flat 4 [4] 0 1 = 0 ∧ worn flat 4 [4] 2 3 = -1) ∧
    worn flat 1 [0, 0] 0 0 = -1 ∧
    (Nearest (1 : ℚ) 65536 65536 ∧ worn long 1 [65536] 0 65536 = 0 ∧ worn long 1 [65536] 0 0 = -1) := by
  refine ⟨⟨?_, ?_, ?_⟩, ⟨?_, ?_, ?_⟩, ?_, ?_, ?_, ?_⟩
  · intro j
    rcases j with _ | j
    · norm_num [abs_of_pos, abs_of_neg]
    · have : (0 : ℚ) ≤ j := by positivity
      push_cast
      rw [abs_of_nonpos (by norm_num), abs_of_nonpos (by linarith)]; linarith
  · norm_num [wear, noNan, points, index, trunc, addAt, Arr.set, Int.floor_eq_zero_iff]
  · norm_num [wear, noNan, points, index, trunc, addAt, Arr.set, Int.floor_eq_zero_iff]
  · intro j; simp
  · norm_num [wear, noNan, points, index, trunc, addAt, Arr.set]
    decide
  · norm_num [wear, noNan, points, index, trunc, addAt, Arr.set]
    decide
  · norm_num [wear, noNan, points, index, trunc, addAt, Arr.set]
  · intro j; simp
  · norm_num [wear, noNan, points, index, trunc, addAt, Arr.set]
  · norm_num [wear, noNan, points, index, trunc, addAt, Arr.set]

end Verif.Wear
