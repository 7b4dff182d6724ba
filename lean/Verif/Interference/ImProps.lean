import Verif.Bccg.OneNode
import Verif.Conv.Props
import Verif.Materials.Lemmas
import Verif.Interference.Props

/-!
# C98: a set interference of two influence matrix materials
-/

namespace Verif.Interference

open Verif Verif.Materials

variable {n0 n1 : ℕ}

/-- An array of numbers with zeros outside, as function of the indices. -/
def wideR (l : Node n0 n1 → ℝ) : ℕ → ℕ → ℝ := fun i j => if h : i < n0 ∧ j < n1 then l (⟨i, h.1⟩, ⟨j, h.2⟩) else 0

/-- The displacements of real loads. -/
noncomputable def disp (span : ℕ × ℕ) (im : ℕ → ℕ → ℝ) (l : Node n0 n1 → ℝ) : Node n0 n1 → ℝ := fun i => Conv.sameConvolve n0 n1 span.1 span.2 im (wideR l) i.1 i.2

theorem conv_fin (span : ℕ × ℕ) (im : ℕ → ℕ → ℝ) (l : Node n0 n1 → ℝ) (i : Node n0 n1) : conv span im (fun i => .fin (l i)) i = .fin (disp span im l i) := by
  unfold conv disp
  rw [← convX_fin]
  congr 1
  funext a b
  unfold wide wideR
  split_ifs <;> rfl

theorem disp_add_im (span : ℕ × ℕ) (k k' : ℕ → ℕ → ℝ) (l : Node n0 n1 → ℝ) (i : Node n0 n1) : disp span (fun a b => k a b + k' a b) l i = disp span k l i + disp span k' l i := same_add_im _ _ _ _ _ _ _ _ _

theorem wideR_linear (l l' : Node n0 n1 → ℝ) (r r' : ℝ) : wideR (fun i => r * l i + r' * l' i) = fun a b => r * wideR l a b + r' * wideR l' a b := by
  funext a b
  unfold wideR
  split_ifs <;> simp

theorem disp_linear (span : ℕ × ℕ) (k : ℕ → ℕ → ℝ) (l l' : Node n0 n1 → ℝ) (r r' : ℝ) (i : Node n0 n1) :
    disp span k (fun i => r * l i + r' * l' i) i = r * disp span k l i + r' * disp span k l' i := by
  unfold disp
  rw [wideR_linear]
  exact same_linear _ _ _ _ _ _ _ _ _ _ _

/-- Real loads on the domain, with zeros elsewhere. -/
def fillR {contact : Node n0 n1 → Bool} (u : {i : Node n0 n1 // contact i = true} → ℝ) : Node n0 n1 → ℝ := fun i => if h : contact i = true then u ⟨i, h⟩ else 0

theorem fill_fin {contact : Node n0 n1 → Bool} (u : {i : Node n0 n1 // contact i = true} → ℝ) : fill (fun i => XR.fin (u i)) = fun i => .fin (fillR u i) := by
  funext i
  unfold fill fillR
  split_ifs <;> rfl

/-- The convolution on the domain as linear map. -/
noncomputable def operator (span : ℕ × ℕ) (im : ℕ → ℕ → ℝ) (contact : Node n0 n1 → Bool) : ({i : Node n0 n1 // contact i = true} → ℝ) →ₗ[ℝ] ({i : Node n0 n1 // contact i = true} → ℝ) where
  toFun u := fun i => disp span im (fillR u) i.1
  map_add' u v := by
    funext i
    have : fillR (u + v) = fun i => 1 * fillR u i + 1 * fillR v i := by
      funext j
      unfold fillR
      split_ifs <;> simp
    rw [this, disp_linear]
    simp
  map_smul' r u := by
    funext i
    have : fillR (r • u) = fun i => r * fillR u i + 0 * fillR u i := by
      funext j
      unfold fillR
      split_ifs <;> simp
    rw [this, disp_linear]
    simp

theorem acts (span : ℕ × ℕ) (im : ℕ → ℕ → ℝ) (z : Node n0 n1 → ℝ) (contact : Node n0 n1 → Bool) (tol : ℝ) (maxIter : ℤ) (start : Node n0 n1 → XR) (p : ℝ) (m : XR) :
    Bccg.ActsAs (problem span im z contact tol maxIter start p m).f (operator span im contact) := by
  intro u
  funext i
  show conv span im (fill fun i => XR.fin (u i)) i.1 = _
  rw [fill_fin, conv_fin]
  rfl

/-- A greatest load: positive or infinite. -/
def PosLoad (m : XR) : Prop := m = .pinf ∨ ∃ x : ℝ, 0 < x ∧ m = .fin x

theorem smaller_pos {a b : XR} (ha : PosLoad a) (hb : PosLoad b) : PosLoad (smaller a b) := by
  unfold smaller
  split_ifs <;> assumption

/-- The call for two influence matrix materials: the matrices for the span asked for. -/
structure Given (m1 m2 : Mat) (gs : ℝ) (span : ℕ × ℕ) (K1 K2 : ℕ → ℕ → ℝ) : Prop where
  first : m1.im span [gs, gs] (.z, .z) = .ok K1
  second : m2.im span [gs, gs] (.z, .z) = .ok K2

/-- The form of a result. -/
theorem solveIm_inv {m1 m2 : Mat} {max1 max2 : XR} {gs : ℝ} {span : Option (ℕ × ℕ)} {z : Node n0 n1 → ℝ} {contact : Node n0 n1 → Bool} {p : ℝ} {tol : ℝ} {maxIter : ℤ} {guess : Option (Guess (Node n0 n1))}
    {K1 K2 : ℕ → ℕ → ℝ} (hK : Given m1 m2 gs (span.getD (n0 * 2, n1 * 2)) K1 K2) {r : Result (Node n0 n1) (Pair (Node n0 n1))}
    (h : solveIm m1 m2 max1 max2 gs span z contact (.number p) tol maxIter guess = .ok r) :
    ∃ start, startLoads (span.getD (n0 * 2, n1 * 2)) (fun i j => K1 i j + K2 i j) z guess = .ok start ∧
      r.loads = fill (Bccg.bccg Bccg.exact (problem (span.getD (n0 * 2, n1 * 2)) (fun i j => K1 i j + K2 i j) z contact tol maxIter start p (smaller max1 max2))).x ∧
      r.failed = (Bccg.bccg Bccg.exact (problem (span.getD (n0 * 2, n1 * 2)) (fun i j => K1 i j + K2 i j) z contact tol maxIter start p (smaller max1 max2))).failed ∧
      r.total = conv (span.getD (n0 * 2, n1 * 2)) (fun i j => K1 i j + K2 i j) r.loads ∧ r.rest = (conv (span.getD (n0 * 2, n1 * 2)) K1 r.loads, conv (span.getD (n0 * 2, n1 * 2)) K2 r.loads) ∧
      ∀ i, r.contact i = true ↔ XR.lt (.fin p) (r.loads i) = true ∧ r.loads i ≠ .fin 0 := by
  unfold solveIm at h
  simp only [hK.first, hK.second, bind, Except.bind] at h
  split at h
  · cases h
  · rename_i start hs
    injection h with h
    subst h
    exact ⟨start, hs, rfl, rfl, rfl, rfl, fun i => by simp⟩

/-- The call in terms of its parts. -/
theorem solve_im {pick : Pick (Node n0 n1)} {m1 m2 : Mat} {max1 max2 : XR} {gs interference : ℝ} {gap : Node n0 n1 → ℝ} {c : Call n0 n1} (hne : ∃ i, startNodes (needed interference gap) c.contact i = true) :
    solve pick (.im m1 m2 max1 max2) gs interference gap c =
      (solveIm m1 m2 max1 max2 gs c.span (needed interference gap) (startNodes (needed interference gap) c.contact) (c.adhesive.getD (.number 0)) c.tol c.maxIter c.guess, startNodes (needed interference gap) c.contact) := by
  obtain ⟨i, hi⟩ := hne
  have h0 : count (startNodes (needed interference gap) c.contact) ≠ 0 := by
    unfold count
    rw [Finset.card_ne_zero]
    exact ⟨i, by simpa using hi⟩
  unfold solve
  simp only [if_neg h0]

/-- **C98, the displacements.** If the loads are numbers, the displacement of each surface is the convolution of its influence matrix with the loads that `plan_convolve` gives for the whole grid, and the
total displacement is the sum of the two. Loads are zero outside the nodes at the start, and the nodes at the start are left as they are. -/
theorem C98_displacements (pick : Pick (Node n0 n1)) {m1 m2 : Mat} (max1 max2 : XR) (gs interference : ℝ) (gap : Node n0 n1 → ℝ) (c : Call n0 n1) {p : ℝ} (hp : c.adhesive.getD (.number 0) = .number p)
    (hne : ∃ i, startNodes (needed interference gap) c.contact i = true) {K1 K2 : ℕ → ℕ → ℝ} (hK : Given m1 m2 gs (c.span.getD (n0 * 2, n1 * 2)) K1 K2) (nfl : ℕ → ℕ) (hn : Conv.FastLen nfl)
    {r : Result (Node n0 n1) (Pair (Node n0 n1))} {after : Node n0 n1 → Bool} (h : solve pick (.im m1 m2 max1 max2) gs interference gap c = (.ok r, after)) (l : Node n0 n1 → ℝ) (hl : ∀ i, r.loads i = .fin (l i)) :
    after = startNodes (needed interference gap) c.contact ∧ (∀ i, startNodes (needed interference gap) c.contact i = false → l i = 0) ∧
      ∃ d1 d2 : ℕ → ℕ → ℝ, Conv.planConvolve nfl (.int false) n0 n1 (c.span.getD (n0 * 2, n1 * 2)).1 (c.span.getD (n0 * 2, n1 * 2)).2 K1 (wideR l) = .ok d1 ∧
        Conv.planConvolve nfl (.int false) n0 n1 (c.span.getD (n0 * 2, n1 * 2)).1 (c.span.getD (n0 * 2, n1 * 2)).2 K2 (wideR l) = .ok d2 ∧
        ∀ i, r.rest.1 i = .fin (d1 i.1 i.2) ∧ r.rest.2 i = .fin (d2 i.1 i.2) ∧ r.total i = .fin (d1 i.1 i.2 + d2 i.1 i.2) := by
  rw [solve_im hne, hp] at h
  injection h with h1 h2
  obtain ⟨start, -, e1, -, e3, e4, -⟩ := solveIm_inv hK h1
  have hl' : r.loads = fun i => .fin (l i) := funext hl
  obtain ⟨i, -⟩ := hne
  have hp0 : 0 < n0 := Fin.pos i.1
  have hp1 : 0 < n1 := Fin.pos i.2
  obtain ⟨d1, f1, g1⟩ := Conv.C08_routes_agree nfl hn n0 n1 (c.span.getD (n0 * 2, n1 * 2)).1 (c.span.getD (n0 * 2, n1 * 2)).2 hp0 hp1 K1 (wideR l)
  obtain ⟨d2, f2, g2⟩ := Conv.C08_routes_agree nfl hn n0 n1 (c.span.getD (n0 * 2, n1 * 2)).1 (c.span.getD (n0 * 2, n1 * 2)).2 hp0 hp1 K2 (wideR l)
  refine ⟨h2.symm, fun i hi => ?_, d1, d2, f1, f2, fun i => ?_⟩
  · have := hl i
    rw [e1] at this
    simp only [fill, hi, Bool.false_eq_true, dite_false, XR.fin.injEq] at this
    exact this.symm
  · rw [e4, e3, hl']
    simp only [conv_fin, disp_add_im]
    rw [g1 i.1 i.2 i.1.2 i.2.2, g2 i.1 i.2 i.1.2 i.2.2]
    exact ⟨rfl, rfl, rfl⟩

/-- **C98, admissible loads.** Without adhesion and with greatest loads that are positive: if the call is not marked as failed, all loads are numbers, at least zero and at most the smaller of the two greatest
loads (to within 1e-14); they are zero at the nodes that were not to carry load; the returned contact nodes are those with a positive load; and if the influence matrices have no negative entry, the surfaces
do not overlap at nodes whose undeformed gap is not below the interference, to within rounding: by less than 1e-14 times the number of nodes times the largest entry.
Missing: that the gap is closed to within a tolerance at the nodes with load, see C14. -/
theorem C98_loads_partial (pick : Pick (Node n0 n1)) {m1 m2 : Mat} {max1 max2 : XR} (h1 : PosLoad max1) (h2 : PosLoad max2) (gs interference : ℝ) (gap : Node n0 n1 → ℝ) (c : Call n0 n1)
    (hp : c.adhesive = none ∨ c.adhesive = some (.number 0)) (hne : ∃ i, startNodes (needed interference gap) c.contact i = true) {K1 K2 : ℕ → ℕ → ℝ}
    (hK : Given m1 m2 gs (c.span.getD (n0 * 2, n1 * 2)) K1 K2) {r : Result (Node n0 n1) (Pair (Node n0 n1))} {after : Node n0 n1 → Bool}
    (h : solve pick (.im m1 m2 max1 max2) gs interference gap c = (.ok r, after)) (hs : r.failed = false) :
    ∃ l t : Node n0 n1 → ℝ, (∀ i, r.loads i = .fin (l i)) ∧ (∀ i, r.total i = .fin (t i)) ∧ (∀ i, -(1 / 10 ^ 14) ≤ l i) ∧
      (∀ i x, max1 = .fin x ∨ max2 = .fin x → l i ≤ x * (1 + 1 / 10 ^ 14)) ∧ (∀ i, startNodes (needed interference gap) c.contact i = false → l i = 0) ∧ (∀ i, r.contact i = true ↔ 0 < l i) ∧
      ∀ M : ℝ, (∀ u v, 0 ≤ K1 u v + K2 u v ∧ K1 u v + K2 u v ≤ M) → ∀ i, interference ≤ gap i → -(1 / 10 ^ 14) * (n0 * n1 * M) ≤ gap i - interference + t i := by
  have hp' : c.adhesive.getD (.number 0) = .number 0 := by rcases hp with h | h <;> rw [h] <;> rfl
  rw [solve_im hne, hp'] at h
  injection h with h3 h4
  obtain ⟨start, -, e1, e2, e3, -, e5⟩ := solveIm_inv hK h3
  set span := c.span.getD (n0 * 2, n1 * 2) with hspan
  set contact := startNodes (needed interference gap) c.contact with hcontact
  set a := problem span (fun i j => K1 i j + K2 i j) (needed interference gap) contact c.tol c.maxIter start 0 (smaller max1 max2) with ha
  have hmax : Bccg.PosMax a.maxP := fun _ => smaller_pos h1 h2
  rw [hs] at e2
  obtain ⟨u, f1, -, -, -, f5⟩ := Bccg.C14_sign_conditions a (operator span (fun i j => K1 i j + K2 i j) contact) (acts _ _ _ _ _ _ _ _ _) (fun i => needed interference gap i.1) rfl hmax rfl e2.symm
  have hl : r.loads = fun i => .fin (fillR u i) := by rw [e1, f1, fill_fin]
  have hlow : ∀ i, -(1 / 10 ^ 14) ≤ fillR u i := fun i => by
    unfold fillR
    split_ifs with hi
    · exact f5 ⟨i, hi⟩
    · have : (0 : ℝ) < 1 / 10 ^ 14 := by positivity
      linarith
  have ht : ∀ i, r.total i = .fin (disp span (fun i j => K1 i j + K2 i j) (fillR u) i) := fun i => by rw [e3, hl, conv_fin]
  refine ⟨fillR u, _, fun i => congrFun hl i, ht, hlow, fun i x hx => ?_, fun i hi => ?_, fun i => ?_, fun M hM i hi => ?_⟩
  · unfold fillR
    split_ifs with hi
    · have key : ∃ y : ℝ, 0 < y ∧ y ≤ x ∧ smaller max1 max2 = .fin y := by
        unfold smaller
        rcases h1 with rfl | ⟨y1, hy1, rfl⟩ <;> rcases h2 with rfl | ⟨y2, hy2, rfl⟩
        · rcases hx with h | h <;> cases h
        · rcases hx with h | h
          · cases h
          · injection h with h
            exact ⟨y2, hy2, h.le, by simp [XR.lt]⟩
        · rcases hx with h | h
          · injection h with h
            exact ⟨y1, hy1, h.le, by simp [XR.lt]⟩
          · cases h
        · by_cases hlt : y2 < y1
          · refine ⟨y2, hy2, ?_, by simp [XR.lt, hlt]⟩
            rcases hx with h | h <;> injection h with h <;> linarith
          · refine ⟨y1, hy1, ?_, by simp [XR.lt, hlt]⟩
            rcases hx with h | h <;> injection h with h <;> linarith
      obtain ⟨y, hy, hyx, he⟩ := key
      have := (Bccg.C13_finite_pressures_admissible a (fun _ => y) (fun _ => .inr ⟨he, hy⟩) (.inl le_rfl) ⟨i, hi⟩ (u ⟨i, hi⟩) (congrFun f1 _)).2 he
      refine this.trans (mul_le_mul_of_nonneg_right hyx (by positivity))
    · have hx0 : 0 < x := by
        rcases hx with rfl | rfl
        · rcases h1 with h | ⟨y, hy, h⟩
          · cases h
          · injection h with h; rw [h]; exact hy
        · rcases h2 with h | ⟨y, hy, h⟩
          · cases h
          · injection h with h; rw [h]; exact hy
      positivity
  · unfold fillR
    simp [hi]
  · rw [e5 i, hl]
    simp only [XR.lt, decide_eq_true_eq, ne_eq, XR.fin.injEq, and_iff_left_iff_imp]
    exact fun h => h.ne'
  · have hM0 : 0 ≤ M := (hM 0 0).1.trans (hM 0 0).2
    have hterm : ∀ x k : ℝ, -(1 / 10 ^ 14) ≤ x → 0 ≤ k → k ≤ M → -(1 / 10 ^ 14) * M ≤ x * k := fun x k hx hk hkM => by
      have h1 : -(1 / 10 ^ 14 : ℝ) * M ≤ -(1 / 10 ^ 14) * k := by nlinarith [show (0 : ℝ) < 1 / 10 ^ 14 by positivity]
      exact h1.trans (mul_le_mul_of_nonneg_right hx hk)
    have hwide : ∀ a b, -(1 / 10 ^ 14) ≤ wideR (fillR u) a b := fun a b => by
      unfold wideR
      split_ifs
      · exact hlow _
      · have : (0 : ℝ) < 1 / 10 ^ 14 := by positivity
        linarith
    have : -(1 / 10 ^ 14) * (n0 * n1 * M) ≤ disp span (fun i j => K1 i j + K2 i j) (fillR u) i := by
      unfold disp Conv.sameConvolve
      calc -(1 / 10 ^ 14) * (n0 * n1 * M) = ∑ _a ∈ Finset.range n0, ∑ _b ∈ Finset.range n1, -(1 / 10 ^ 14) * M := by
            simp only [Finset.sum_const, Finset.card_range, nsmul_eq_mul]; ring
        _ ≤ _ := by
            refine Finset.sum_le_sum fun a _ => Finset.sum_le_sum fun b _ => ?_
            split_ifs
            · exact hterm _ _ (hwide a b) (hM _ _).1 (hM _ _).2
            · exact hterm _ _ (hwide a b) le_rfl hM0
    linarith

/-- **C98, adhesion has no effect.** Whatever the adhesive pressure, and whether the call succeeds or not, no load is a number below zero (to within 1e-14): no node carries tension. -/
theorem C98_adhesion_wrong (pick : Pick (Node n0 n1)) {m1 m2 : Mat} {max1 max2 : XR} (h1 : PosLoad max1) (h2 : PosLoad max2) (gs interference : ℝ) (gap : Node n0 n1 → ℝ) (c : Call n0 n1) (p : ℝ)
    (hp : c.adhesive = some (.number p)) (hne : ∃ i, startNodes (needed interference gap) c.contact i = true) {K1 K2 : ℕ → ℕ → ℝ} (hK : Given m1 m2 gs (c.span.getD (n0 * 2, n1 * 2)) K1 K2)
    {r : Result (Node n0 n1) (Pair (Node n0 n1))} {after : Node n0 n1 → Bool} (h : solve pick (.im m1 m2 max1 max2) gs interference gap c = (.ok r, after)) (i : Node n0 n1) (x : ℝ) (hx : r.loads i = .fin x) :
    -(1 / 10 ^ 14) ≤ x := by
  rw [solve_im hne, hp] at h
  injection h with h3 h4
  obtain ⟨start, -, e1, -⟩ := solveIm_inv hK h3
  set a := problem (c.span.getD (n0 * 2, n1 * 2)) (fun i j => K1 i j + K2 i j) (needed interference gap) (startNodes (needed interference gap) c.contact) c.tol c.maxIter start p (smaller max1 max2)
  rw [e1] at hx
  unfold fill at hx
  split_ifs at hx with hi
  · obtain ⟨m, hm⟩ : ∃ m : ℝ, smaller max1 max2 = .pinf ∨ smaller max1 max2 = .fin m ∧ 0 < m := by
      rcases smaller_pos h1 h2 with h | ⟨m, hm, h⟩
      · exact ⟨0, .inl h⟩
      · exact ⟨m, .inr ⟨h, hm⟩⟩
    exact (Bccg.C13_finite_pressures_admissible a (fun _ => m) (fun _ => hm) (.inl le_rfl) ⟨i, hi⟩ x hx).1
  · injection hx with hx
    have : (0 : ℝ) < 1 / 10 ^ 14 := by positivity
    linarith

/-- C98, one contact node, no greatest loads: the solver starts at the greater of the guess and the adhesive pressure. If that start is not the solution, and the relative error of its displacement is above the tolerance, the call is
marked as failed; below the tolerance the load is the exact one. Missing: a start that is not positive, more nodes. -/
theorem C98_one_node_partial (pick : Pick (Node n0 n1)) {m1 m2 : Mat} (gs interference : ℝ) (gap : Node n0 n1 → ℝ) (c : Call n0 n1) {p : ℝ} (hp : c.adhesive.getD (.number 0) = .number p) {K1 K2 : ℕ → ℕ → ℝ}
    (hK : Given m1 m2 gs (c.span.getD (n0 * 2, n1 * 2)) K1 K2) (q : Node n0 n1) (hq : ∀ i, startNodes (needed interference gap) c.contact i = true ↔ i = q) (hgap : gap q < interference)
    (k : ℝ) (hk : k = K1 (((c.span.getD (n0 * 2, n1 * 2)).1 - 1) / 2) (((c.span.getD (n0 * 2, n1 * 2)).2 - 1) / 2) + K2 (((c.span.getD (n0 * 2, n1 * 2)).1 - 1) / 2) (((c.span.getD (n0 * 2, n1 * 2)).2 - 1) / 2))
    (hspan : 0 < (c.span.getD (n0 * 2, n1 * 2)).1 ∧ 0 < (c.span.getD (n0 * 2, n1 * 2)).2) (hk0 : 0 < k) (x y : ℝ) (hx : 0 < x) (hxy : x = max y p) (g : Node n0 n1 → XR)
    (hg : c.guess = some (.loads g) ∨ c.guess = none ∧ ∃ m, Greatest (c.span.getD (n0 * 2, n1 * 2)) (fun i j => K1 i j + K2 i j) m ∧ ∀ i, g i = .fin ((interference - gap i) * m)) (hgx : g q = .fin y)
    (htol : 0 ≤ c.tol) (hit : 1 ≤ c.maxIter) :
    ∃ r after, solve pick (.im m1 m2 .pinf .pinf) gs interference gap c = (.ok r, after) ∧ (c.tol * (interference - gap q) < |interference - gap q - k * x| → r.failed = true ∧ r.loads q = .nan) ∧
      (k * x ≠ interference - gap q → |interference - gap q - k * x| < c.tol * (interference - gap q) → r.failed = false ∧ r.loads q = .fin ((interference - gap q) / k)) := by
  set span := c.span.getD (n0 * 2, n1 * 2) with hsp
  set contact := startNodes (needed interference gap) c.contact with hc
  have hqc : contact q = true := (hq q).mpr rfl
  set a := problem span (fun i j => K1 i j + K2 i j) (needed interference gap) contact c.tol c.maxIter g p (smaller .pinf .pinf) with ha
  letI : Unique {i : Node n0 n1 // contact i = true} := ⟨⟨⟨q, hqc⟩⟩, fun i => Subtype.ext ((hq i.1).mp i.2)⟩
  have hval : ∀ i : {i : Node n0 n1 // contact i = true}, i.1 = q := fun i => (hq i.1).mp i.2
  have hself : ∀ u : ℝ, disp span (fun i j => K1 i j + K2 i j) (fillR (contact := contact) fun _ => u) q = k * u := by
    intro u
    have hw : ∀ i j, wideR (fillR (contact := contact) fun _ => u) i j = if i = q.1 ∧ j = q.2 then u else 0 := by
      intro i j
      unfold wideR fillR
      by_cases hij : i < n0 ∧ j < n1
      · rw [dif_pos hij]
        by_cases he : i = q.1 ∧ j = q.2
        · rw [if_pos he, dif_pos]
          rw [hq]
          exact Prod.ext (Fin.ext he.1) (Fin.ext he.2)
        · rw [if_neg he, dif_neg]
          rw [hq]
          rintro rfl
          exact he ⟨rfl, rfl⟩
      · rw [dif_neg hij, if_neg]
        rintro ⟨rfl, rfl⟩
        exact hij ⟨q.1.2, q.2.2⟩
    unfold disp Conv.sameConvolve
    simp only [hw]
    rw [Finset.sum_eq_single q.1.val, Finset.sum_eq_single q.2.val]
    · rw [if_pos ⟨rfl, rfl⟩, if_pos (by omega), hk, Nat.add_sub_cancel_left, Nat.add_sub_cancel_left]
      ring
    · intro b _ hb
      rw [if_neg (fun h => hb h.2), zero_mul]
    · intro h
      exact absurd (Finset.mem_range.mpr q.2.2) h
    · intro b _ hb
      refine Finset.sum_eq_zero fun d _ => ?_
      rw [if_neg (fun h => hb h.1), zero_mul]
    · intro h
      exact absurd (Finset.mem_range.mpr q.1.2) h
  have hone : Bccg.OneSpring a k (interference - gap q) x := by
    refine ⟨fun u => funext fun i => ?_, funext fun i => ?_, rfl, ⟨p, y, rfl, funext fun i => ?_, hxy.symm⟩, rfl⟩
    · show conv span (fun i j => K1 i j + K2 i j) (fill fun _ => XR.fin u) i.1 = _
      rw [fill_fin (fun _ => u), conv_fin, hval i, hself]
    · show XR.fin (needed interference gap i.1) = _
      rw [hval i]
      rfl
    · show g i.1 = _
      rw [hval i, hgx]
  have hb0 : 0 < interference - gap q := by linarith
  have hres : solve pick (.im m1 m2 .pinf .pinf) gs interference gap c = (solveIm m1 m2 .pinf .pinf gs c.span (needed interference gap) contact (.number p) c.tol c.maxIter c.guess, contact) := by
    rw [solve_im ⟨q, hqc⟩, hp]
  have hstart : startLoads span (fun i j => K1 i j + K2 i j) (needed interference gap) c.guess = .ok g := by
    rcases hg with hg | ⟨hg, m, hm, hgv⟩
    · rw [hg]
      rfl
    · rw [hg]
      obtain ⟨m', h1, h2⟩ := maxIm_greatest hspan.1 hspan.2 fun i j => K1 i j + K2 i j
      have hmm : m' = m := by
        obtain ⟨⟨u, v, hu, hv, e⟩, hle⟩ := hm
        obtain ⟨⟨u', v', hu', hv', e'⟩, hle'⟩ := h2
        exact le_antisymm (e' ▸ hle u' v' hu' hv') (e ▸ hle' u v hu hv)
      simp only [startLoads, h1, bind, Except.bind]
      refine congrArg Except.ok (funext fun i => ?_)
      rw [hgv i, hmm]
      rfl
  rw [hres]
  unfold solveIm
  simp only [← hsp, hK.first, hK.second, bind, Except.bind, hstart]
  refine ⟨_, _, rfl, fun hbad => ?_, fun hne hgood => ?_⟩
  · obtain ⟨f1, f2⟩ := Bccg.C15_one_node_fails a hone hk0 hb0 hx
      (fun h => by
        rw [h, sub_self, abs_zero] at hbad
        exact absurd hbad (not_lt.mpr (by positivity)))
      (by
        show XR.lt (.fin _) (.fin c.tol) = false
        simp only [XR.lt, decide_eq_false_iff_not, not_lt]
        rw [le_div_iff₀ hb0]
        exact hbad.le) hit
    refine ⟨f1, ?_⟩
    show fill (Bccg.bccg Bccg.exact a).x q = _
    rw [fill, dif_pos hqc]
    exact f2 _
  · obtain ⟨f1, f2⟩ := Bccg.C15_one_node_partial a hone hk0 hb0 hx hne
      (by
        show XR.lt (.fin _) (.fin c.tol) = true
        simp only [XR.lt, decide_eq_true_eq]
        rw [div_lt_iff₀ hb0]
        exact hgood) hit
    refine ⟨f1, ?_⟩
    show fill (Bccg.bccg Bccg.exact a).x q = _
    rw [fill, dif_pos hqc, f2]

/-- **C98, no answer for one node.** If one node is in contact at the start, without greatest loads and adhesion, and the guess is not the solution, nor is the first step below the tolerance, the call
is marked as failed and the load of that node is `nan`. -/
theorem C98_one_node_wrong (pick : Pick (Node n0 n1)) {m1 m2 : Mat} (gs interference : ℝ) (gap : Node n0 n1 → ℝ) (c : Call n0 n1) (hp : c.adhesive = none) {K1 K2 : ℕ → ℕ → ℝ}
    (hK : Given m1 m2 gs (c.span.getD (n0 * 2, n1 * 2)) K1 K2) (q : Node n0 n1) (hq : ∀ i, startNodes (needed interference gap) c.contact i = true ↔ i = q) (hgap : gap q < interference)
    (k : ℝ) (hk : k = K1 (((c.span.getD (n0 * 2, n1 * 2)).1 - 1) / 2) (((c.span.getD (n0 * 2, n1 * 2)).2 - 1) / 2) + K2 (((c.span.getD (n0 * 2, n1 * 2)).1 - 1) / 2) (((c.span.getD (n0 * 2, n1 * 2)).2 - 1) / 2))
    (hspan : 0 < (c.span.getD (n0 * 2, n1 * 2)).1 ∧ 0 < (c.span.getD (n0 * 2, n1 * 2)).2) (hk0 : 0 < k) (x : ℝ) (hx : 0 < x) (g : Node n0 n1 → XR) (hg : c.guess = some (.loads g)) (hgx : g q = .fin x)
    (hbad : c.tol * (interference - gap q) < |interference - gap q - k * x|) (htol : 0 ≤ c.tol) (hit : 1 ≤ c.maxIter) :
    ∃ r after, solve pick (.im m1 m2 .pinf .pinf) gs interference gap c = (.ok r, after) ∧ r.failed = true ∧ r.loads q = .nan := by
  obtain ⟨r, after, h, h1, -⟩ := C98_one_node_partial pick gs interference gap c (p := 0) (by rw [hp]; rfl) hK q hq hgap k hk hspan hk0 x x hx (max_eq_left hx.le).symm g (.inl hg) hgx htol hit
  exact ⟨r, after, h, h1 hbad⟩

/-- **C98, no answer for one node without a guess.** If one node is in contact at the start, without greatest loads, adhesion and guess, and the greatest influence is that of the load on its own node, `k`, the call fails unless the
square of `k` (a length by a pressure) happens to be one within the tolerance: the start is the displacement times `k`, not divided by `k`. -/
theorem C98_default_guess_wrong (pick : Pick (Node n0 n1)) {m1 m2 : Mat} (gs interference : ℝ) (gap : Node n0 n1 → ℝ) (c : Call n0 n1) (hp : c.adhesive = none) {K1 K2 : ℕ → ℕ → ℝ}
    (hK : Given m1 m2 gs (c.span.getD (n0 * 2, n1 * 2)) K1 K2) (q : Node n0 n1) (hq : ∀ i, startNodes (needed interference gap) c.contact i = true ↔ i = q) (hgap : gap q < interference)
    (k : ℝ) (hk : k = K1 (((c.span.getD (n0 * 2, n1 * 2)).1 - 1) / 2) (((c.span.getD (n0 * 2, n1 * 2)).2 - 1) / 2) + K2 (((c.span.getD (n0 * 2, n1 * 2)).1 - 1) / 2) (((c.span.getD (n0 * 2, n1 * 2)).2 - 1) / 2))
    (hspan : 0 < (c.span.getD (n0 * 2, n1 * 2)).1 ∧ 0 < (c.span.getD (n0 * 2, n1 * 2)).2) (hk0 : 0 < k) (hmax : ∀ u v, u < (c.span.getD (n0 * 2, n1 * 2)).1 → v < (c.span.getD (n0 * 2, n1 * 2)).2 → K1 u v + K2 u v ≤ k)
    (hg : c.guess = none) (hbad : c.tol < |1 - k ^ 2|) (htol : 0 ≤ c.tol) (hit : 1 ≤ c.maxIter) :
    ∃ r after, solve pick (.im m1 m2 .pinf .pinf) gs interference gap c = (.ok r, after) ∧ r.failed = true ∧ r.loads q = .nan := by
  have hb0 : 0 < interference - gap q := by linarith
  have hx : 0 < (interference - gap q) * k := by positivity
  obtain ⟨r, after, h, h1, -⟩ := C98_one_node_partial pick gs interference gap c (p := 0) (by rw [hp]; rfl) hK q hq hgap k hk hspan hk0 ((interference - gap q) * k) ((interference - gap q) * k) hx (max_eq_left hx.le).symm
    (fun i => .fin ((interference - gap i) * k)) (.inr ⟨hg, k, ⟨⟨_, _, by omega, by omega, hk.symm⟩, hmax⟩, fun _ => rfl⟩) rfl htol hit
  refine ⟨r, after, h, h1 ?_⟩
  have : interference - gap q - k * ((interference - gap q) * k) = (1 - k ^ 2) * (interference - gap q) := by ring
  rw [this, abs_mul, abs_of_pos hb0]
  exact mul_lt_mul_of_pos_right hbad hb0

/-- **C98, the guess of the docstring.** An array as guess, as documented, raises an `AttributeError`; a callable as adhesive pressure a `TypeError`. -/
theorem C98_arguments_wrong (pick : Pick (Node n0 n1)) {m1 m2 : Mat} (max1 max2 : XR) (gs interference : ℝ) (gap : Node n0 n1 → ℝ) (c : Call n0 n1)
    (hne : ∃ i, startNodes (needed interference gap) c.contact i = true) {K1 K2 : ℕ → ℕ → ℝ} (hK : Given m1 m2 gs (c.span.getD (n0 * 2, n1 * 2)) K1 K2) :
    (∀ x, c.guess = some (.array x) → (solve pick (.im m1 m2 max1 max2) gs interference gap c).1 = .error .attributeError) ∧
      ∀ f x, c.adhesive = some (.rule f) → c.guess = some (.loads x) → (solve pick (.im m1 m2 max1 max2) gs interference gap c).1 = .error .typeError := by
  refine ⟨fun x hx => ?_, fun f x hf hx => ?_⟩
  · rw [solve_im hne]
    unfold solveIm
    simp only [hK.first, hK.second, bind, Except.bind, hx, startLoads]
  · rw [solve_im hne]
    unfold solveIm
    simp only [hK.first, hK.second, bind, Except.bind, hx, startLoads, hf, Option.getD_some]

/-- The compliance of the examples: a load moves its own node by two. -/
def own : ℕ → ℕ → ℝ := fun u v => if u = 0 ∧ v = 1 then 2 else 0

/-- The gap of the examples: only the first of two nodes is closed by an interference of one. -/
def step : Node 1 2 → ℝ := fun i => if i.2 = 0 then 0 else 2

theorem step_nodes (i : Node 1 2) : startNodes (needed 1 step) none i = true ↔ i = (0, 0) := by
  have : ∀ i : Node 1 2, i = (0, 0) ↔ i.2 = 0 := by decide
  rw [this]
  simp only [startNodes, needed, decide_eq_true_eq, step]
  split_ifs with h <;> simp [h]

/-- A rigid body on a material that deforms only under the load itself, one node closed by one, with a rough tolerance: the call succeeds with a load of one half, so that the hypotheses of `C98_displacements`,
`C98_loads_partial` and `C98_adhesion_wrong` can be met. -/
example (pick : Pick (Node 1 2)) : ∃ (m : Mat) (c : Call 1 2) (r : Result (Node 1 2) (Pair (Node 1 2))) (after : Node 1 2 → Bool), Given m .rigid 1 (c.span.getD (1 * 2, 2 * 2)) own (fun _ _ => 0) ∧ PosLoad .pinf ∧
    c.adhesive = none ∧ (∃ i, startNodes (needed 1 step) c.contact i = true) ∧ (∀ u v, 0 ≤ own u v + 0 ∧ own u v + 0 ≤ 2) ∧
    solve pick (.im m .rigid .pinf .pinf) 1 1 step c = (.ok r, after) ∧ r.failed = false ∧ r.loads (0, 0) = .fin (1 / 2) := by
  obtain ⟨r, after, h, -, h2⟩ := C98_one_node_partial pick (m1 := .general fun _ _ _ => .ok own) (m2 := .rigid) 1 1 step { tol := 9 / 10, guess := some (.loads fun _ => .fin (1 / 4)) } (p := 0) rfl (K1 := own) (K2 := fun _ _ => 0) ⟨rfl, rfl⟩ (0, 0)
    step_nodes (by norm_num [step]) 2 (by norm_num [own]) (by norm_num) (by norm_num) (1 / 4) (1 / 4) (by norm_num) (by norm_num) _ (.inl rfl) rfl (by norm_num) (by norm_num)
  obtain ⟨h3, h4⟩ := h2 (by norm_num [step]) (by norm_num [step, abs_of_pos])
  refine ⟨_, _, r, after, ⟨rfl, rfl⟩, .inl rfl, rfl, ⟨(0, 0), (step_nodes _).mpr rfl⟩, fun u v => ?_, h, h3, ?_⟩
  · unfold own
    split_ifs <;> norm_num
  · rw [h4]
    norm_num [step]

/-- The same with the default tolerance and a load of one as guess: the hypotheses of `C98_one_node_wrong`. -/
example : Given (.general fun _ _ _ => .ok own) .rigid 1 (({} : Call 1 2).span.getD (1 * 2, 2 * 2)) own (fun _ _ => 0) ∧ 0 < own ((2 - 1) / 2) ((4 - 1) / 2) + 0 ∧
    ({} : Call 1 2).tol * (1 - step (0, 0)) < |1 - step (0, 0) - 2 * 1| := ⟨⟨rfl, rfl⟩, by norm_num [own], by norm_num [step]⟩

/-- The same without a guess, with an influence of two on the own node: the hypotheses of `C98_default_guess_wrong`. -/
example : (∀ u v, own u v + 0 ≤ (2 : ℝ)) ∧ ({} : Call 1 2).tol < |1 - (2 : ℝ) ^ 2| ∧ ({} : Call 1 2).guess = none := by
  refine ⟨fun u v => ?_, by norm_num, rfl⟩
  unfold own
  split_ifs <;> norm_num

/-- The adhesive pressure is the least start: with a guess of zero and an adhesive pressure of 0.49 the relative error of the start is 0.02, and the solution 0.5 is found within a tolerance of 0.1. -/
example (pick : Pick (Node 1 2)) : ∃ r after, solve pick (.im (.general fun _ _ _ => .ok own) .rigid .pinf .pinf) 1 1 step { tol := 1 / 10, guess := some (.loads fun _ => .fin 0), adhesive := some (.number (49 / 100)) } = (.ok r, after) ∧
    r.failed = false ∧ r.loads (0, 0) = .fin (1 / 2) := by
  obtain ⟨r, after, h, -, h2⟩ := C98_one_node_partial pick (m1 := .general fun _ _ _ => .ok own) (m2 := .rigid) 1 1 step { tol := 1 / 10, guess := some (.loads fun _ => .fin 0), adhesive := some (.number (49 / 100)) } (p := 49 / 100) rfl
    (K1 := own) (K2 := fun _ _ => 0) ⟨rfl, rfl⟩ (0, 0) step_nodes (by norm_num [step]) 2 (by norm_num [own]) (by norm_num) (by norm_num) (49 / 100) 0 (by norm_num) (by norm_num) _ (.inl rfl) rfl (by norm_num) (by norm_num)
  obtain ⟨h3, h4⟩ := h2 (by norm_num [step]) (by norm_num [step, abs_of_pos])
  refine ⟨r, after, h, h3, ?_⟩
  rw [h4]
  norm_num [step]

end Verif.Interference
