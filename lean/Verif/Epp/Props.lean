import Verif.Epp.Spec
import Verif.Wear.Props

/-! # C60: elastic perfectly plastic wear -/

namespace Verif.Epp

open Spec

variable {K : Type} [Field K] [LinearOrder K] [IsStrictOrderedRing K] [FloorRing K]

/-! ## Lemmas -/

omit [IsStrictOrderedRing K] [FloorRing K] [Field K] in
theorem reaches_min (m1 m2 : Option K) (x : K) : reaches x (minLoad m1 m2) = true ↔ Reached m1 m2 x := by
  cases m1 with
  | none => cases m2 <;> simp [minLoad, reaches, Reached]
  | some a =>
    cases m2 with
    | none => simp [minLoad, reaches, Reached]
    | some b =>
      simp only [minLoad, reaches, Reached, Option.some.injEq, exists_eq_left', decide_eq_true_eq]
      split
      · rename_i h; exact ⟨.inr, fun e => e.elim (fun e => h.le.trans e) id⟩
      · rename_i h; exact ⟨.inl, fun e => e.elim id fun e => (not_lt.mp h).trans e⟩

/-- The fresh field of gaps. -/
def fresh (noTime : Bool) (inp : Input K) : List (Gapped K) := inp.nodes.map fun n => ⟨n, gapOf noTime inp.interference n⟩

theorem gaps_fresh (c : Cfg K) (st : St K) (inp : Input K) (h : Fresh c st inp) :
    gaps c.noTime (plasticStart st inp) inp = fresh c.noTime inp ∧ ¬ (c.noTime = true ∧ (plasticStart st inp).length ≠ inp.nodes.length) := by
  by_cases hn : c.noTime = true
  · have hz : plasticStart st inp = inp.nodes.map fun _ => 0 := by
      unfold plasticStart
      rcases h with h | h | h
      · rw [h] at hn; cases hn
      · rw [h]
      · rw [h]; cases st.plastic <;> simp
    rw [hz, hn]
    refine ⟨?_, by simp⟩
    simp only [gaps, fresh, if_true, gapOf]
    induction inp.nodes with
    | nil => rfl
    | cons n l ih => simp only [List.map_cons, List.zipWith_cons_cons, add_zero]; rw [← ih]
  · rw [Bool.not_eq_true] at hn
    simp [hn, gaps, fresh, gapOf]

/-- A sum over the selected nodes is a sum of overlaps over all nodes. -/
theorem sum_idx (m1 m2 : Option K) (noTime : Bool) (inp : Input K) (nodes : List (Node K)) :
    (((nodes.map fun n => (⟨n, gapOf noTime inp.interference n⟩ : Gapped K)).filter (worn (minLoad m1 m2))).map fun e => -e.g).sum =
      (nodes.map (overlap m1 m2 noTime inp.interference)).sum := by
  induction nodes with
  | nil => rfl
  | cons n l ih =>
    simp only [List.map_cons, List.sum_cons, ← ih, List.filter_cons]
    have hr := reaches_min m1 m2 n.load
    by_cases h : worn (minLoad m1 m2) ⟨n, gapOf noTime inp.interference n⟩ = true
    · rw [if_pos h, List.map_cons, List.sum_cons]
      congr 1
      simp only [worn, Bool.and_eq_true, decide_eq_true_eq] at h
      unfold overlap
      rw [if_pos ⟨hr.mp h.1, h.2.2⟩, max_eq_right (by linarith [h.2.1])]
    · rw [if_neg h]
      have : overlap m1 m2 noTime inp.interference n = 0 := by
        unfold overlap
        split
        · rename_i e
          refine max_eq_left ?_
          by_contra hlt
          exact h (by simp only [worn, Bool.and_eq_true, decide_eq_true_eq]; exact ⟨hr.mpr e.1, by linarith [not_le.mp hlt], e.2⟩)
        · rfl
      rw [this, zero_add]

theorem overlap_worn (m1 m2 : Option K) (noTime : Bool) (inp : Input K) (n : Node K) :
    overlap m1 m2 noTime inp.interference n =
      if worn (minLoad m1 m2) ⟨n, gapOf noTime inp.interference n⟩ = true then -gapOf noTime inp.interference n else 0 := by
  have := sum_idx m1 m2 noTime inp [n]
  simp only [List.map_cons, List.map_nil, List.sum_cons, List.sum_nil, add_zero, List.filter_cons, List.filter_nil] at this
  rw [← this]
  split <;> simp

/-! ## Construction -/

/-- **C60, construction.** With both proportions given between zero and one the sub model is made with these; otherwise there is an exception. In particular the documented default of the second
proportion (the rest of the overlap) does not exist: without it there is a `TypeError`. -/
theorem C60_construct (p1 : K) (p2 : Option K) (nt : Bool) :
    (∀ q, p2 = some q → 0 ≤ p1 → p1 ≤ 1 → 0 ≤ q → q ≤ 1 → construct p1 p2 nt = .ok ⟨p1, q, nt⟩) ∧
    (¬ (0 ≤ p1 ∧ p1 ≤ 1) → construct p1 p2 nt = .error .valueError) ∧
    (∀ q, p2 = some q → ¬ (0 ≤ q ∧ q ≤ 1) → construct p1 p2 nt = .error .valueError) ∧
    (p2 = none → 0 ≤ p1 → p1 ≤ 1 → construct p1 p2 nt = .error .typeError) := by
  refine ⟨?_, ?_, ?_, ?_⟩
  · rintro q rfl a b c d
    unfold construct
    rw [if_neg (not_or.mpr ⟨not_lt.mpr b, not_lt.mpr a⟩)]
    simp only
    rw [if_neg (not_or.mpr ⟨not_lt.mpr d, not_lt.mpr c⟩)]
  · intro h
    unfold construct
    rw [if_pos (by rw [not_and_or, not_le, not_le] at h; exact h.symm)]
  · rintro q rfl h
    unfold construct
    split
    · rfl
    · simp only
      rw [if_pos (by rw [not_and_or, not_le, not_le] at h; exact h.symm)]
  · rintro rfl a b
    unfold construct
    rw [if_neg (not_or.mpr ⟨not_lt.mpr b, not_lt.mpr a⟩)]

example : construct (1 / 2 : ℚ) (some (1 / 4)) true = .ok ⟨1 / 2, 1 / 4, true⟩ ∧ construct (2 : ℚ) none true = .error .valueError :=
  ⟨(C60_construct _ _ _).1 _ rfl (by norm_num) (by norm_num) (by norm_num) (by norm_num), (C60_construct _ _ _).2.1 (by norm_num)⟩

/-! ## One call -/

/-- **C60, not converged.** Nothing is worn after a solution that did not converge. -/
theorem C60_not_converged (c : Cfg K) (name : String) (m1 m2 : Option K) (st : St K) (inp : Input K) (h : inp.converged = some false) :
    solve c name m1 m2 st inp = (st, .ok .same) := by
  simp [solve, h]

example : (⟨some false, none, 0, []⟩ : Input ℚ).converged = some false := rfl

/-- The state before the surfaces are worn. -/
def mid (c : Cfg K) (m1 m2 : Option K) (st : St K) (inp : Input K) : St K :=
  ⟨st.s1, st.s2, if c.noTime then some (addPlastic (minLoad m1 m2) (gaps c.noTime (plasticStart st inp) inp) (plasticStart st inp)) else st.plastic⟩

/-- The nodes to be worn. -/
def sel (c : Cfg K) (m1 m2 : Option K) (st : St K) (inp : Input K) : List (Gapped K) := (gaps c.noTime (plasticStart st inp) inp).filter (worn (minLoad m1 m2))

/-- The reported total. -/
def tpdOf (c : Cfg K) (g : Option K) (tot : List K) : K := match g with | none => 0 | some g => tpd g c.p1 c.p2 tot

theorem solve_eq (c : Cfg K) (name : String) (m1 m2 : Option K) (st : St K) (inp : Input K) (hc : inp.converged ≠ some false) :
    solve c name m1 m2 st inp = if c.noTime ∧ (plasticStart st inp).length ≠ inp.nodes.length then (st, .error .valueError)
      else if st.s1.gs = none ∧ (sel c m1 m2 st inp).map (fun e => -e.g) ≠ [] then (mid c m1 m2 st inp, .error .typeError)
      else solve.finish c name (mid c m1 m2 st inp) (sel c m1 m2 st inp) ((sel c m1 m2 st inp).map fun e => -e.g)
        (tpdOf c st.s1.gs ((sel c m1 m2 st inp).map fun e => -e.g)) := by
  have e1 : ∀ (pl pl' : Option (List K)), (if c.noTime = true then { (if c.noTime = true then { st with plastic := pl } else st) with plastic := pl' } else
      (if c.noTime = true then { st with plastic := pl } else st)) = (⟨st.s1, st.s2, if c.noTime = true then pl' else st.plastic⟩ : St K) := by
    intro pl pl'; cases c.noTime <;> rfl
  unfold solve
  rw [if_neg hc]
  simp only
  split
  · rfl
  · rw [e1]
    simp only
    cases hg : st.s1.gs with
    | none =>
      simp only [true_and]
      by_cases ht : (sel c m1 m2 st inp).map (fun e => -e.g) = []
      · rw [if_neg (not_not.mpr ht)]
        have ht' := ht
        simp only [sel] at ht'
        rw [if_pos ht']; rfl
      · rw [if_pos ht]
        have ht' := ht
        simp only [sel] at ht'
        rw [if_neg ht']; rfl
    | some g => simp only [reduceCtorEq, false_and, if_false]; rfl

/-- The call, with the steps before the wear of the surfaces carried out. -/
theorem solve_fresh (c : Cfg K) (name : String) (m1 m2 : Option K) (st : St K) (inp : Input K) (g : K) (hc : inp.converged ≠ some false) (hf : Fresh c st inp)
    (hg : st.s1.gs = some g) :
    ∃ pl, solve c name m1 m2 st inp = solve.finish c name ⟨st.s1, st.s2, pl⟩ ((fresh c.noTime inp).filter (worn (minLoad m1 m2)))
      (((fresh c.noTime inp).filter (worn (minLoad m1 m2))).map fun e => -e.g)
      (tpd g c.p1 c.p2 (((fresh c.noTime inp).filter (worn (minLoad m1 m2))).map fun e => -e.g)) := by
  obtain ⟨e1, e2⟩ := gaps_fresh c st inp hf
  refine ⟨if c.noTime then some (addPlastic (minLoad m1 m2) (fresh c.noTime inp) (plasticStart st inp)) else st.plastic, ?_⟩
  unfold solve
  rw [if_neg hc]
  simp only
  rw [if_neg e2, e1]
  by_cases hn : c.noTime = true <;> simp [hn, hg]

/-- The wear of one surface by the selected nodes. -/
theorem wear_one (s : Wear.Surf K) (p : Wear.Arr K) (g q : K) (name : String) (m1 m2 : Option K) (noTime : Bool) (inp : Input K)
    (y x : Node K → K) (row col : Node K → ℕ) (h : OnGrid s p g inp.nodes y x row col) :
    let idx := (fresh noTime inp).filter (worn (minLoad m1 m2))
    let r := Wear.wear s name (idx.map fun e => x e.node) (idx.map fun e => y e.node) (((idx.map fun e => -e.g).map fun d => d * q).map some)
    r.2 = none ∧ ∃ p', r.1.prof = some p' ∧ p'.rows = p.rows ∧ p'.cols = p.cols ∧
      ∀ i j, p'.val i j = p.val i j - q * at_ inp.nodes row col (overlap m1 m2 noTime inp.interference) i j := by
  intro idx r
  have hmem : ∀ e ∈ idx, e.node ∈ inp.nodes := by
    intro e he
    have := (List.mem_filter.mp he).1
    simp only [fresh, List.mem_map] at this
    obtain ⟨n, hn, rfl⟩ := this
    exact hn
  let l : List (Wear.Spec.Place K) := idx.map fun e => ⟨x e.node, y e.node, -e.g * q, col e.node, row e.node⟩
  have hl : ∀ z ∈ l, z.x = (z.col : K) * g ∧ z.y = (z.row : K) * g ∧ z.row < p.rows ∧ z.col < p.cols := by
    intro z hz
    obtain ⟨e, he, rfl⟩ := List.mem_map.mp hz
    obtain ⟨a, b, c, d⟩ := h.place _ (hmem e he)
    exact ⟨b, a, c, d⟩
  have hpw : l.Pairwise fun a b => ¬ (a.row = b.row ∧ a.col = b.col) := by
    refine List.Pairwise.map _ (fun a b hab => hab) ?_
    refine List.Pairwise.filter _ ?_
    unfold fresh
    exact List.Pairwise.map _ (fun a b hab => hab) h.distinct
  obtain ⟨k1, p', k2, k3, k4, k5⟩ := Wear.C40_at_nodes_partial s p g name l h.prof h.gs h.pos h.small h.rows h.cols (fun z hz => ⟨(hl z hz).1, (hl z hz).2.1⟩)
    (fun z hz => (hl z hz).2.2) hpw
  have er : Wear.wear s name (l.map Wear.Spec.Place.x) (l.map Wear.Spec.Place.y) (l.map fun q => some q.d) = r := by
    simp only [l, r, List.map_map, Function.comp_def]
  rw [er] at k1 k2
  refine ⟨k1, p', k2, k3, k4, fun i j => ?_⟩
  rw [k5 i j]
  congr 1
  have key : ∀ nodes : List (Node K),
      Wear.Spec.total (((nodes.map fun n => (⟨n, gapOf noTime inp.interference n⟩ : Gapped K)).filter (worn (minLoad m1 m2))).map
        fun e => (⟨x e.node, y e.node, -e.g * q, col e.node, row e.node⟩ : Wear.Spec.Place K)) i j =
      q * at_ nodes row col (overlap m1 m2 noTime inp.interference) i j := by
    intro nodes
    induction nodes with
    | nil => simp [Wear.Spec.total, at_]
    | cons n nodes ih =>
      have ho := overlap_worn m1 m2 noTime inp n
      simp only [Wear.Spec.total, at_, List.map_cons, List.filter_cons] at ih ⊢
      by_cases hw : worn (minLoad m1 m2) ⟨n, gapOf noTime inp.interference n⟩ = true
      · rw [if_pos hw] at ho ⊢
        by_cases hij : row n = i ∧ col n = j
        · simp only [List.map_cons, List.filter_cons, hij, and_self, decide_true, if_true, List.sum_cons]
          rw [ih, ho]; ring
        · simp only [List.map_cons, List.filter_cons, hij, decide_false, Bool.false_eq_true, if_false]
          exact ih
      · rw [if_neg hw] at ho ⊢
        by_cases hij : row n = i ∧ col n = j
        · simp only [hij, and_self, decide_true, if_true, List.map_cons, List.sum_cons]
          rw [ho, zero_add]; exact ih
        · simp only [hij, decide_false, Bool.false_eq_true, if_false]; exact ih
  exact key inp.nodes

theorem at_nonneg_zero (nodes : List (Node K)) (row col : Node K → ℕ) (f : Node K → K) (i j : ℕ) : (0 : K) * at_ nodes row col f i j = 0 := zero_mul _

/-- **C60, exact removal, partial.** After a converged solution, with the contact nodes on distinct nodes of the two profiles (spacing less than 2, at most 65536 rows and columns), nothing having been
worn in the step before: the call returns, each profile is lowered at every node by the requested proportion of the inter-penetration there, if the node is in contact and one of the
maximum loads is reached, and by nothing elsewhere; the reported total is the volume removed from both.
Missing: positions between the nodes, repeated positions and coarse spacings, for which the wear of surfaces is wrong (C40), see also `C60_fails`. -/
theorem C60_exact_partial (c : Cfg K) (name : String) (m1 m2 : Option K) (st : St K) (inp : Input K) (g g' : K) (a b : Wear.Arr K) (r1 c1 r2 c2 : Node K → ℕ)
    (hc : inp.converged ≠ some false) (hf : Fresh c st inp) (hp1 : 0 ≤ c.p1) (hp2 : 0 ≤ c.p2)
    (h1 : OnGrid st.s1 a g inp.nodes Node.y1 Node.x1 r1 c1) (h2 : OnGrid st.s2 b g' inp.nodes Node.y2 Node.x2 r2 c2) :
    ∃ a' b' r, (solve c name m1 m2 st inp).2 = .ok (.res r) ∧
      (solve c name m1 m2 st inp).1.s1.prof = some a' ∧ a'.rows = a.rows ∧ a'.cols = a.cols ∧
      (∀ i j, a'.val i j = a.val i j - c.p1 * at_ inp.nodes r1 c1 (overlap m1 m2 c.noTime inp.interference) i j) ∧
      (solve c name m1 m2 st inp).1.s2.prof = some b' ∧ b'.rows = b.rows ∧ b'.cols = b.cols ∧
      (∀ i j, b'.val i j = b.val i j - c.p2 * at_ inp.nodes r2 c2 (overlap m1 m2 c.noTime inp.interference) i j) ∧
      r.tpd = (c.p1 + c.p2) * g ^ 2 * (inp.nodes.map (overlap m1 m2 c.noTime inp.interference)).sum := by
  obtain ⟨pl, e⟩ := solve_fresh c name m1 m2 st inp g hc hf h1.gs
  have w1 := wear_one st.s1 a g c.p1 name m1 m2 c.noTime inp _ _ r1 c1 h1
  have w2 := wear_one st.s2 b g' c.p2 name m1 m2 c.noTime inp _ _ r2 c2 h2
  have ht : tpd g c.p1 c.p2 (((fresh c.noTime inp).filter (worn (minLoad m1 m2))).map fun e => -e.g) =
      (c.p1 + c.p2) * g ^ 2 * (inp.nodes.map (overlap m1 m2 c.noTime inp.interference)).sum := by
    rw [← sum_idx]
    unfold tpd
    split
    · rename_i h0
      rw [show (List.map (fun n => (⟨n, gapOf c.noTime inp.interference n⟩ : Gapped K)) inp.nodes) = fresh c.noTime inp from rfl, h0]; simp
    · unfold fresh; ring
  rw [e]
  simp only at w1 w2
  unfold solve.finish
  simp only
  have s1 : ∃ q, (if c.p1 > 0 then Wear.wear st.s1 name (((fresh c.noTime inp).filter (worn (minLoad m1 m2))).map fun e => e.node.x1)
      (((fresh c.noTime inp).filter (worn (minLoad m1 m2))).map fun e => e.node.y1)
      (((((fresh c.noTime inp).filter (worn (minLoad m1 m2))).map fun e => -e.g).map fun d => d * c.p1).map some) else (st.s1, none)) = (q, none) ∧
      ∃ a', q.prof = some a' ∧ a'.rows = a.rows ∧ a'.cols = a.cols ∧
        ∀ i j, a'.val i j = a.val i j - c.p1 * at_ inp.nodes r1 c1 (overlap m1 m2 c.noTime inp.interference) i j := by
    split
    · exact ⟨_, Prod.ext rfl w1.1, w1.2⟩
    · rename_i hn
      have h0 : c.p1 = 0 := le_antisymm (not_lt.mp hn) hp1
      exact ⟨_, rfl, a, h1.prof, rfl, rfl, fun i j => by rw [h0]; ring⟩
  have s2 : ∃ q, (if c.p2 > 0 then Wear.wear st.s2 name (((fresh c.noTime inp).filter (worn (minLoad m1 m2))).map fun e => e.node.x2)
      (((fresh c.noTime inp).filter (worn (minLoad m1 m2))).map fun e => e.node.y2)
      (((((fresh c.noTime inp).filter (worn (minLoad m1 m2))).map fun e => -e.g).map fun d => d * c.p2).map some) else (st.s2, none)) = (q, none) ∧
      ∃ a', q.prof = some a' ∧ a'.rows = b.rows ∧ a'.cols = b.cols ∧
        ∀ i j, a'.val i j = b.val i j - c.p2 * at_ inp.nodes r2 c2 (overlap m1 m2 c.noTime inp.interference) i j := by
    split
    · exact ⟨_, Prod.ext rfl w2.1, w2.2⟩
    · rename_i hn
      have h0 : c.p2 = 0 := le_antisymm (not_lt.mp hn) hp2
      exact ⟨_, rfl, b, h2.prof, rfl, rfl, fun i j => by rw [h0]; ring⟩
  obtain ⟨q1, e1, a', ha, ha1, ha2, ha3⟩ := s1
  obtain ⟨q2, e2, b', hb, hb1, hb2, hb3⟩ := s2
  rw [e1]
  simp only
  rw [e2]
  exact ⟨a', b', _, rfl, ha, ha1, ha2, ha3, hb, hb1, hb2, hb3, ht⟩

/-- One node, the materials with maximum loads 5 and infinity. -/
example : let n : Node ℚ := ⟨5, true, -1, 0, 0, 0, 1, 1, 0⟩
    let a : Wear.Arr ℚ := ⟨2, 2, fun _ _ => 0⟩
    let s : Wear.Surf ℚ := ⟨some a, some a, [], some 1⟩
    (⟨none, none, 0, [n]⟩ : Input ℚ).converged ≠ some false ∧ Fresh ⟨1 / 2, 1 / 2, false⟩ (⟨s, s, none⟩ : St ℚ) ⟨none, none, 0, [n]⟩ ∧
    OnGrid s a 1 [n] Node.y1 Node.x1 (fun _ => 0) (fun _ => 1) ∧ OnGrid s a 1 [n] Node.y2 Node.x2 (fun _ => 1) (fun _ => 0) ∧
    overlap (some 5) none false 0 n = 1 := by
  refine ⟨by simp, .inl rfl, ⟨rfl, rfl, by norm_num, by norm_num, by norm_num, by norm_num, by simp, by simp⟩,
    ⟨rfl, rfl, by norm_num, by norm_num, by norm_num, by norm_num, by simp, by simp⟩, ?_⟩
  unfold overlap
  rw [if_pos ⟨.inl ⟨5, rfl, le_refl _⟩, rfl⟩]
  simp [gapOf]

/-! ## Never adds material -/

omit [IsStrictOrderedRing K] [FloorRing K] in
theorem lastAt_nonneg (y x : ℕ) (pts : List (Wear.Pt K)) (h : ∀ q ∈ pts, 0 ≤ q.d) (d : K) (hd : 0 ≤ d) : 0 ≤ Wear.lastAt y x pts d := by
  induction pts generalizing d with
  | nil => exact hd
  | cons q l ih =>
    simp only [Wear.lastAt]
    refine ih (fun q hq => h q (by simp [hq])) _ ?_
    split
    · exact h q (by simp)
    · exact hd

theorem points_nonneg (g : K) (xs ys ds : List K) (h : ∀ d ∈ ds, 0 ≤ d) : ∀ q ∈ Wear.points g xs ys ds, 0 ≤ q.d := by
  induction xs generalizing ys ds with
  | nil => simp [Wear.points]
  | cons x xs ih =>
    match ys, ds with
    | [], _ => simp [Wear.points]
    | y :: ys, [] => simp [Wear.points]
    | y :: ys, d :: ds =>
      intro q hq
      simp only [Wear.points, List.mem_cons] at hq
      rcases hq with rfl | hq
      · exact h d (by simp)
      · exact ih ys ds (fun d hd => h d (by simp [hd])) q hq

omit [FloorRing K] [IsStrictOrderedRing K] [LinearOrder K] [Field K] in
theorem noNan_map_some (l ds : List K) (h : Wear.noNan (l.map some) = some ds) : ds = l := by
  induction l generalizing ds with
  | nil => simpa [Wear.noNan, eq_comm] using h
  | cons a l ih =>
    simp only [List.map_cons, Wear.noNan, Option.map_eq_some_iff] at h
    obtain ⟨us, hus, rfl⟩ := h
    rw [ih us hus]

omit [FloorRing K] in
theorem onlyRemoves_refl (s : Wear.Surf K) : OnlyRemoves s s := by
  unfold OnlyRemoves
  cases s.prof with
  | none => trivial
  | some p => exact ⟨rfl, rfl, fun _ _ => le_refl _⟩

theorem wear_onlyRemoves (s : Wear.Surf K) (name : String) (xs ys ds : List K) (h : ∀ d ∈ ds, 0 ≤ d) : OnlyRemoves s (Wear.wear s name xs ys (ds.map some)).1 := by
  unfold Wear.wear
  split
  · exact onlyRemoves_refl s
  · split
    · exact onlyRemoves_refl s
    · rename_i us hus
      rw [noNan_map_some ds us hus]
      split
      · exact onlyRemoves_refl s
      · rename_i p hp
        simp only
        split
        · simp [OnlyRemoves, hp]
        · rename_i g hg
          split
          · simp only [OnlyRemoves, hp]
            refine ⟨(Wear.addAt_shape _ _ _).1, (Wear.addAt_shape _ _ _).2, fun i j => ?_⟩
            rw [Wear.addAt_val]
            have := lastAt_nonneg i j _ (points_nonneg g xs ys ds h) 0 (le_refl _)
            linarith
          · simp [OnlyRemoves, hp]

theorem finish_onlyRemoves (c : Cfg K) (name : String) (st : St K) (idx : List (Gapped K)) (tot : List K) (t : K) (h : ∀ d ∈ tot, 0 ≤ d) :
    OnlyRemoves st.s1 (solve.finish c name st idx tot t).1.s1 ∧ OnlyRemoves st.s2 (solve.finish c name st idx tot t).1.s2 := by
  have g1 : OnlyRemoves st.s1 (if c.p1 > 0 then Wear.wear st.s1 name (idx.map fun e => e.node.x1) (idx.map fun e => e.node.y1) ((tot.map fun d => d * c.p1).map some)
      else (st.s1, none)).1 := by
    split
    · rename_i hp
      refine wear_onlyRemoves _ _ _ _ _ ?_
      intro d hd; obtain ⟨u, hu, rfl⟩ := List.mem_map.mp hd; exact mul_nonneg (h u hu) hp.le
    · exact onlyRemoves_refl _
  have g2 : OnlyRemoves st.s2 (if c.p2 > 0 then Wear.wear st.s2 name (idx.map fun e => e.node.x2) (idx.map fun e => e.node.y2) ((tot.map fun d => d * c.p2).map some)
      else (st.s2, none)).1 := by
    split
    · rename_i hp
      refine wear_onlyRemoves _ _ _ _ _ ?_
      intro d hd; obtain ⟨u, hu, rfl⟩ := List.mem_map.mp hd; exact mul_nonneg (h u hu) hp.le
    · exact onlyRemoves_refl _
  unfold solve.finish
  simp only
  split
  · exact ⟨g1, onlyRemoves_refl _⟩
  · split <;> exact ⟨g1, g2⟩

/-- **C60, never adds material.** Whatever the state, the positions and the proportions, and also if the call raises: no node of a profile is higher afterwards. -/
theorem C60_never_adds (c : Cfg K) (name : String) (m1 m2 : Option K) (st : St K) (inp : Input K) :
    OnlyRemoves st.s1 (solve c name m1 m2 st inp).1.s1 ∧ OnlyRemoves st.s2 (solve c name m1 m2 st inp).1.s2 := by
  have tot : ∀ gs : List (Gapped K), ∀ d ∈ (gs.filter (worn (minLoad m1 m2))).map fun e => -e.g, 0 ≤ d := by
    intro gs d hd
    obtain ⟨e, he, rfl⟩ := List.mem_map.mp hd
    have := (List.mem_filter.mp he).2
    simp only [worn, Bool.and_eq_true, decide_eq_true_eq] at this
    linarith [this.2.1]
  by_cases hc : inp.converged = some false
  · rw [C60_not_converged c name m1 m2 st inp hc]
    exact ⟨onlyRemoves_refl _, onlyRemoves_refl _⟩
  rw [solve_eq c name m1 m2 st inp hc]
  split
  · exact ⟨onlyRemoves_refl _, onlyRemoves_refl _⟩
  · split
    · exact ⟨onlyRemoves_refl _, onlyRemoves_refl _⟩
    · exact finish_onlyRemoves c name (mid c m1 m2 st inp) _ _ _ (tot _)

/-! ## Steps without time -/

theorem wear_ok (s : Wear.Surf K) (name : String) (xs ys : List K) (d : List (Option K)) (h : (Wear.wear s name xs ys d).2 = none) :
    (Wear.wear s name xs ys d).1.prof.isSome ∧ (Wear.wear s name xs ys d).1.gs.isSome := by
  unfold Wear.wear at h ⊢
  split at h
  · simp at h
  · split at h
    · simp at h
    · split at h
      · simp at h
      · rename_i p hp
        simp only at h
        split at h
        · simp at h
        · rename_i g hg
          split at h
          · rename_i h0 _ us hus _ _ hall
            rw [if_neg h0]
            simp [hus, hp, hg, hall]
          · simp at h

theorem wear_nil (s : Wear.Surf K) (name : String) (hp : s.prof.isSome) (hg : s.gs.isSome) : (Wear.wear s name [] [] []).2 = none ∧ (Wear.wear s name [] [] []).1.prof = s.prof := by
  obtain ⟨p, hp⟩ := Option.isSome_iff_exists.mp hp
  obtain ⟨g, hg⟩ := Option.isSome_iff_exists.mp hg
  simp [Wear.wear, Wear.noNan, hp, hg, Wear.points, Wear.addAt]

/-- After a call that returned, the surfaces that are worn have profiles and spacings. -/
theorem finish_ok (c : Cfg K) (name : String) (st : St K) (idx : List (Gapped K)) (tot : List K) (t : K) (r : Res K) (h : (solve.finish c name st idx tot t).2 = .ok (.res r)) :
    (solve.finish c name st idx tot t).1.plastic = st.plastic ∧
    (c.p1 > 0 → (solve.finish c name st idx tot t).1.s1.prof.isSome ∧ (solve.finish c name st idx tot t).1.s1.gs.isSome) ∧
    (c.p2 > 0 → (solve.finish c name st idx tot t).1.s2.prof.isSome ∧ (solve.finish c name st idx tot t).1.s2.gs.isSome) := by
  unfold solve.finish at h ⊢
  simp only at h ⊢
  split at h
  · simp at h
  · rename_i h1
    split at h
    · simp at h
    · rename_i h2
      simp only [h1, h2]
      refine ⟨trivial, fun hp => ?_, fun hp => ?_⟩
      · rw [if_pos hp] at h1 ⊢; exact wear_ok _ _ _ _ _ h1
      · rw [if_pos hp] at h2 ⊢; exact wear_ok _ _ _ _ _ h2

theorem finish_nil (c : Cfg K) (name : String) (st : St K) (t : K) (h1 : c.p1 > 0 → st.s1.prof.isSome ∧ st.s1.gs.isSome) (h2 : c.p2 > 0 → st.s2.prof.isSome ∧ st.s2.gs.isSome) :
    (solve.finish c name st [] [] t).1.s1.prof = st.s1.prof ∧ (solve.finish c name st [] [] t).1.s2.prof = st.s2.prof ∧
      ∃ r', (solve.finish c name st [] [] t).2 = .ok (.res r') ∧ r'.tpd = t ∧ r'.wear1.getD [] = [] ∧ r'.wear2.getD [] = [] := by
  unfold solve.finish
  simp only [List.map_nil]
  by_cases p1 : c.p1 > 0
  · have w1 := wear_nil st.s1 name (h1 p1).1 (h1 p1).2
    simp only [p1, if_true, w1.1, w1.2]
    by_cases p2 : c.p2 > 0
    · have w2 := wear_nil st.s2 name (h2 p2).1 (h2 p2).2
      simp [p2, w1.2, w2.1, w2.2]
    · simp [p2, w1.2]
  · simp only [p1, if_false]
    by_cases p2 : c.p2 > 0
    · have w2 := wear_nil st.s2 name (h2 p2).1 (h2 p2).2
      simp [p2, w2.1, w2.2]
    · simp [p2]

theorem none_left (m : Option K) (i : K) (nodes : List (Node K)) (pl : List K) (hl : pl.length = nodes.length) :
    let gs := List.zipWith (fun n p => (⟨n, n.jtg - i + n.disp + p⟩ : Gapped K)) nodes pl
    (addPlastic m gs pl).length = nodes.length ∧
    (List.zipWith (fun n p => (⟨n, n.jtg - i + n.disp + p⟩ : Gapped K)) nodes (addPlastic m gs pl)).filter (worn m) = [] := by
  induction nodes generalizing pl with
  | nil => simp [addPlastic]
  | cons n nodes ih =>
    match pl, hl with
    | p :: pl, hl =>
      obtain ⟨k1, k2⟩ := ih pl (by simpa using hl)
      simp only [addPlastic, List.zipWith_cons_cons, List.length_cons, List.filter_cons] at k1 k2 ⊢
      refine ⟨by rw [k1], ?_⟩
      rw [k2]
      by_cases hw : worn m ⟨n, n.jtg - i + n.disp + p⟩ = true
      · rw [if_pos hw, show n.jtg - i + n.disp + (p + -(n.jtg - i + n.disp + p)) = 0 by ring, if_neg (by simp [worn])]
      · rw [if_neg hw, if_neg hw]

/-- **C60, once per step.** In a step without time, a second call with the same state, which is not marked as a new step, finds nothing left to remove: both surfaces keep their profiles and the
reported total is zero. -/
theorem C60_no_time_once (c : Cfg K) (name : String) (m1 m2 : Option K) (st : St K) (inp : Input K) (r : Res K) (hn : c.noTime = true)
    (hnew : inp.newStep ≠ some true) (hok : (solve c name m1 m2 st inp).2 = .ok (.res r)) :
    (solve c name m1 m2 (solve c name m1 m2 st inp).1 inp).1.s1.prof = (solve c name m1 m2 st inp).1.s1.prof ∧
    (solve c name m1 m2 (solve c name m1 m2 st inp).1 inp).1.s2.prof = (solve c name m1 m2 st inp).1.s2.prof ∧
    ∃ r', (solve c name m1 m2 (solve c name m1 m2 st inp).1 inp).2 = .ok (.res r') ∧ r'.tpd = 0 ∧ r'.wear1.getD [] = [] ∧ r'.wear2.getD [] = [] := by
  have hc : inp.converged ≠ some false := by
    intro h; rw [C60_not_converged c name m1 m2 st inp h] at hok; simp at hok
  have e := solve_eq c name m1 m2 st inp hc
  split at e
  · rw [e] at hok; simp at hok
  · rename_i hlen
    have hlen : (plasticStart st inp).length = inp.nodes.length := by simpa [hn] using hlen
    split at e
    · rw [e] at hok; simp at hok
    · generalize hst : (solve c name m1 m2 st inp).1 = st1
      rw [e] at hok hst
      obtain ⟨f1, f2, f3⟩ := finish_ok c name _ _ _ _ r hok
      rw [hst] at f1 f2 f3
      obtain ⟨n1, n2⟩ := none_left (minLoad m1 m2) inp.interference inp.nodes (plasticStart st inp) hlen
      have hpl : plasticStart st1 inp = addPlastic (minLoad m1 m2) (List.zipWith (fun n p => (⟨n, n.jtg - inp.interference + n.disp + p⟩ : Gapped K)) inp.nodes
          (plasticStart st inp)) (plasticStart st inp) := by
        rw [plasticStart, f1]
        simp only [mid, hn, if_true, hnew, if_false, gaps]
      have hsel : sel c m1 m2 st1 inp = [] := by
        unfold sel
        rw [hpl]
        simpa only [gaps, hn, if_true] using n2
      rw [solve_eq c name m1 m2 st1 inp hc, hsel]
      rw [if_neg (by rw [hpl]; simp [n1]), if_neg (by simp)]
      have := finish_nil c name (mid c m1 m2 st1 inp) (tpdOf c st1.s1.gs (List.map (fun e => -e.g) ([] : List (Gapped K)))) f2 f3
      have ht : tpdOf c st1.s1.gs (List.map (fun e => -e.g) ([] : List (Gapped K))) = 0 := by
        unfold tpdOf; split <;> simp [tpd]
      rw [ht] at this ⊢
      exact this

/-- **C60, what is reported.** A call that returns results reports the wear of a surface exactly if its proportion is positive, and then one depth for each worn node: the proportions of the same
inter-penetrations, none of them negative. -/
theorem C60_reported (c : Cfg K) (name : String) (m1 m2 : Option K) (st : St K) (inp : Input K) (r : Res K) (h : (solve c name m1 m2 st inp).2 = .ok (.res r)) :
    (r.wear1.isSome ↔ 0 < c.p1) ∧ (r.wear2.isSome ↔ 0 < c.p2) ∧ ∃ depth : List K, (∀ d ∈ depth, 0 ≤ d) ∧
      (∀ w, r.wear1 = some w → w = depth.map fun d => d * c.p1) ∧ ∀ w, r.wear2 = some w → w = depth.map fun d => d * c.p2 := by
  by_cases hc : inp.converged = some false
  · rw [C60_not_converged c name m1 m2 st inp hc] at h
    cases h
  rw [solve_eq c name m1 m2 st inp hc] at h
  split at h
  · cases h
  · split at h
    · cases h
    · have hnn : ∀ d ∈ (sel c m1 m2 st inp).map (fun e => -e.g), 0 ≤ d := by
        intro d hd
        obtain ⟨e, he, rfl⟩ := List.mem_map.mp hd
        have := (List.mem_filter.mp he).2
        simp only [worn, Bool.and_eq_true, decide_eq_true_eq] at this
        linarith [this.2.1]
      generalize (sel c m1 m2 st inp).map (fun e => -e.g) = tot at h hnn
      unfold solve.finish at h
      simp only at h
      split at h
      · cases h
      · split at h
        · cases h
        · simp only [Except.ok.injEq, Ret.res.injEq] at h
          subst h
          have key : ∀ (q : K) (l : List K), (if q > 0 then some l else none).isSome ↔ 0 < q := fun q l => by
            split_ifs with hp
            · simpa using hp
            · simpa using hp
          refine ⟨key _ _, key _ _, tot, hnn, fun w hw => ?_, fun w hw => ?_⟩
          · dsimp only at hw
            split_ifs at hw
            injection hw with hw
            exact hw.symm
          · dsimp only at hw
            split_ifs at hw
            injection hw with hw
            exact hw.symm

/-- The node of `C60_fails` below, in a step without time. -/
def n0 : Node ℚ := ⟨5, true, -1, -1, 0, 0, 0, 0, 0⟩

/-- A flat surface with one node. -/
def flat : Wear.Surf ℚ := ⟨some ⟨1, 1, fun _ _ => 0⟩, some ⟨1, 1, fun _ _ => 0⟩, [], some 1⟩

/-- The height of the first node. -/
def h0 (s : Wear.Surf ℚ) : Option ℚ := s.prof.map fun a => a.val 0 0

/-- The hypotheses of `C60_no_time_once` and `C60_fails` can be met. -/
example : ∃ r, (solve ⟨1 / 2, 1 / 2, true⟩ "w" (some 5) none ⟨flat, flat, none⟩ ⟨none, none, 0, [n0]⟩).2 = .ok (.res r) := by
  have hg : OnGrid flat ⟨1, 1, fun _ _ => 0⟩ 1 [n0] Node.y1 Node.x1 (fun _ => 0) (fun _ => 0) :=
    ⟨rfl, rfl, by norm_num, by norm_num, by norm_num, by norm_num, by simp [n0], by simp⟩
  have hg' : OnGrid flat ⟨1, 1, fun _ _ => 0⟩ 1 [n0] Node.y2 Node.x2 (fun _ => 0) (fun _ => 0) :=
    ⟨rfl, rfl, by norm_num, by norm_num, by norm_num, by norm_num, by simp [n0], by simp⟩
  obtain ⟨_, _, r, h, -⟩ := C60_exact_partial ⟨1 / 2, 1 / 2, true⟩ "w" (some 5) none ⟨flat, flat, none⟩ ⟨none, none, 0, [n0]⟩ 1 1 _ _ _ _ _ _ (by simp) (.inr (.inl rfl))
    (by norm_num) (by norm_num) hg hg'
  exact ⟨r, h⟩

/-- **C60 does not hold.** With proportions 1 and 1, which are accepted, twice the inter-penetration is removed; two contact nodes on the same node of the profile remove the second one only;
and in a step without time a call marked as a new step, with the same state as before, removes the same again. -/
theorem C60_fails :
    construct (1 : ℚ) (some 1) false = .ok ⟨1, 1, false⟩ ∧
    (let r := solve ⟨1, 1, false⟩ "w" (some 5) none ⟨flat, flat, none⟩ ⟨some true, none, 0, [n0]⟩
     h0 r.1.s1 = some (-1) ∧ h0 r.1.s2 = some (-1)) ∧
    (let r := solve ⟨1, 0, false⟩ "w" (some 5) none ⟨flat, flat, none⟩ ⟨some true, none, 0, [n0, n0]⟩
     h0 r.1.s1 = some (-1) ∧ (r.2.toOption.map fun | .same => 0 | .res r => r.tpd) = some 2) ∧
    (let r := solve ⟨1, 0, true⟩ "w" (some 5) none ⟨flat, flat, none⟩ ⟨some true, some true, 0, [n0]⟩
     h0 (solve ⟨1, 0, true⟩ "w" (some 5) none r.1 ⟨some true, some true, 0, [n0]⟩).1.s1 = some (-2)) := by
  refine ⟨?_, ⟨?_, ?_⟩, ⟨?_, ?_⟩, ?_⟩
  · norm_num [construct]
  all_goals decide +kernel

end Verif.Epp
