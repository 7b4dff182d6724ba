import Verif.Definite.Loads
import Verif.Interference.ImProps

/-!
# C153: a set interference of two elastic bodies
-/

namespace Verif.Definite

open Verif HeightResults Materials Interference Finset Real

variable {n0 n1 : ℕ}

theorem disp_settlement (b : Body) {h : ℝ} (hh : 0 < h) (l : Node n0 n1 → ℝ) (i : Node n0 n1) : disp (n0 * 2, n1 * 2) (zz b (n0 * 2) (n1 * 2) h) l i = settlement b h n0 n1 (lift l) i.1 i.2 :=
  same_settlement b hh (by omega) (by omega) _ i.1.2 i.2.2

theorem sum_fillR {contact : Node n0 n1 → Bool} (u : {i : Node n0 n1 // contact i = true} → ℝ) (f : Node n0 n1 → ℝ) : ∑ i, u i * f i.1 = ∑ i, fillR u i * f i := by
  classical
  rw [← Finset.sum_filter_add_sum_filter_not univ (fun i => contact i = true) fun i => fillR u i * f i, Finset.sum_eq_zero (s := univ.filter fun i => ¬contact i = true) (fun i hi => ?_), add_zero,
    Finset.sum_subtype (univ.filter fun i => contact i = true) (p := fun i => contact i = true) (by simp)]
  · refine sum_congr rfl fun i _ => ?_
    rw [fillR, dif_pos i.2]
  · rw [fillR, dif_neg (mem_filter.mp hi).2, zero_mul]

theorem operator_definite {b1 b2 : Body} (h1 : Soft b1) (h2 : Soft b2) {h : ℝ} (hh : 0 < h) (contact : Node n0 n1 → Bool) :
    Contact.Definite (Interference.operator (n0 * 2, n1 * 2) (fun i j => zz b1 (n0 * 2) (n1 * 2) h i j + zz b2 (n0 * 2) (n1 * 2) h i j) contact) := by
  intro u hu
  obtain ⟨q, hq⟩ := Function.ne_iff.mp hu
  have e : ∀ i : {i : Node n0 n1 // contact i = true}, Interference.operator (n0 * 2, n1 * 2) (fun i j => zz b1 (n0 * 2) (n1 * 2) h i j + zz b2 (n0 * 2) (n1 * 2) h i j) contact u i = halfSpaces b1 b2 h n0 n1 (fillR u) i.1 := by
    intro i
    show disp (n0 * 2, n1 * 2) (fun i j => zz b1 (n0 * 2) (n1 * 2) h i j + zz b2 (n0 * 2) (n1 * 2) h i j) (fillR u) i.1 = _
    rw [disp_add_im, disp_settlement b1 hh, disp_settlement b2 hh]
    rfl
  simp only [e]
  rw [sum_fillR u]
  refine (C153_one_contact h1 h2 hh (fun _ => True) (fun _ => 0) (M := fun _ => none) fun _ m hm => (by cases hm)).1 _ fun h0 => hq ?_
  have := congrFun h0 q.1
  rw [fillR, dif_pos q.2] at this
  exact this

/-- C153: for a set interference of two elastic bodies with the default span the displacements returned are those of the two half spaces under the loads returned at every node of the grid, however far from the loads, and the matrix
that the solver is given for the nodes at the start is positive definite, so that its problem has exactly one solution. -/
theorem C153_interference (pick : Pick (Node n0 n1)) {b1 b2 : Body} (h1 : Soft b1) (h2 : Soft b2) (max1 max2 : XR) {gs : ℝ} (hh : 0 < gs) (interference : ℝ) (gap : Node n0 n1 → ℝ) (c : Call n0 n1) (hspan : c.span = none) {p : ℝ}
    (hp : c.adhesive.getD (.number 0) = .number p) (hne : ∃ i, startNodes (needed interference gap) c.contact i = true) {r : Result (Node n0 n1) (Pair (Node n0 n1))} {after : Node n0 n1 → Bool}
    (h : solve pick (.im (.general (elasticIm b1.G b1.v)) (.general (elasticIm b2.G b2.v)) max1 max2) gs interference gap c = (.ok r, after)) (l : Node n0 n1 → ℝ) (hl : ∀ i, r.loads i = .fin (l i)) :
    (∀ i, r.rest.1 i = .fin (settlement b1 gs n0 n1 (lift l) i.1 i.2) ∧ r.rest.2 i = .fin (settlement b2 gs n0 n1 (lift l) i.1 i.2) ∧
      r.total i = .fin (settlement b1 gs n0 n1 (lift l) i.1 i.2 + settlement b2 gs n0 n1 (lift l) i.1 i.2)) ∧
    ∃ (a : Bccg.Args XR {i : Node n0 n1 // startNodes (needed interference gap) c.contact i = true}) (L : ({i : Node n0 n1 // startNodes (needed interference gap) c.contact i = true} → ℝ) →ₗ[ℝ] _),
      (∀ i, r.loads i.1 = (Bccg.bccg Bccg.exact a).x i) ∧ (a.b = fun i => .fin (interference - gap i.1)) ∧ Bccg.ActsAs a.f L ∧ Contact.Definite L ∧
      ∀ M : _ → Option ℝ, (∀ i m, M i = some m → 0 ≤ m) → ∃! u, Contact.Solution (fun _ => True) L (fun i => interference - gap i.1) M u := by
  rw [solve_im hne, hp] at h
  injection h with h3 h4
  have hK : Given (.general (elasticIm b1.G b1.v)) (.general (elasticIm b2.G b2.v)) gs (c.span.getD (n0 * 2, n1 * 2)) (zz b1 (n0 * 2) (n1 * 2) gs) (zz b2 (n0 * 2) (n1 * 2) gs) := by
    rw [hspan]
    exact ⟨rfl, rfl⟩
  obtain ⟨start, -, e1, -, e3, e4, -⟩ := solveIm_inv hK h3
  rw [hspan] at e1 e3 e4
  change r.loads = fill (Bccg.bccg Bccg.exact (problem (n0 * 2, n1 * 2) _ _ _ _ _ _ _ _)).x at e1
  have hl' : r.loads = fun i => .fin (l i) := funext hl
  constructor
  · intro i
    rw [e4, e3, hl']
    simp only [Option.getD_none, conv_fin, disp_add_im, disp_settlement b1 hh, disp_settlement b2 hh]
    exact ⟨trivial, trivial, trivial⟩
  · refine ⟨problem (n0 * 2, n1 * 2) (fun i j => zz b1 (n0 * 2) (n1 * 2) gs i j + zz b2 (n0 * 2) (n1 * 2) gs i j) (needed interference gap) (startNodes (needed interference gap) c.contact) c.tol c.maxIter start p (smaller max1 max2),
      _, fun i => ?_, rfl, acts _ _ _ _ _ _ _ _ _, operator_definite h1 h2 hh _, fun M hM => Contact.C150_one_solution _ (operator_definite h1 h2 hh _) _ hM⟩
    rw [e1]
    simp only [fill, i.2, dite_true]

/-- One node in contact of two, with an exact start and a wide tolerance: a call that is answered. -/
example (pick : Pick (Node 1 2)) : ∃ (r : Result (Node 1 2) (Pair (Node 1 2))) (after : Node 1 2 → Bool) (l : Node 1 2 → ℝ),
    solve pick (.im (.general (elasticIm 1 (1 / 4))) (.general (elasticIm 2 (1 / 3))) .pinf .pinf) (1 / 2) 1 Interference.step { tol := 9 / 10, guess := some (.loads fun _ => .fin (1 / own / 2)) } = (.ok r, after) ∧
      (∀ i, r.loads i = .fin (l i)) ∧ ∀ i, r.total i = .fin (settlement ⟨1, 1 / 4⟩ (1 / 2) 1 2 (lift l) i.1 i.2 + settlement ⟨2, 1 / 3⟩ (1 / 2) 1 2 (lift l) i.1 i.2) := by
  have hown := own_pos
  have hK : Given (.general (elasticIm 1 (1 / 4))) (.general (elasticIm 2 (1 / 3))) (1 / 2) ((none : Option (ℕ × ℕ)).getD (1 * 2, 2 * 2)) (zz ⟨1, 1 / 4⟩ (1 * 2) (2 * 2) (1 / 2)) (zz ⟨2, 1 / 3⟩ (1 * 2) (2 * 2) (1 / 2)) := ⟨rfl, rfl⟩
  have hc : ∀ b : Body, zz b 2 4 (1 / 2) 0 1 = Bouss.cell (Bouss.pointLoad b.G b.v 'z' 'z') (1 / 2) (1 / 2) 0 0 := by
    intro b
    unfold zz Conv.fillMatrix
    dsimp only
    rw [zz_coefficient b (by norm_num)]
    norm_num [Conv.offset]
  obtain ⟨r, after, h, -, h2⟩ := C98_one_node_partial pick (m1 := .general (elasticIm 1 (1 / 4))) (m2 := .general (elasticIm 2 (1 / 3))) (1 / 2) 1 Interference.step { tol := 9 / 10, guess := some (.loads fun _ => .fin (1 / own / 2)) } (p := 0) rfl hK (0, 0)
    step_nodes (by norm_num [Interference.step]) own (by
      show own = zz _ 2 4 (1 / 2) 0 1 + zz _ 2 4 (1 / 2) 0 1
      rw [hc, hc]
      rfl) (by norm_num) hown (1 / own / 2) (1 / own / 2) (by positivity) (max_eq_left (by positivity)).symm _ (.inl rfl) rfl (by norm_num) (by norm_num)
  have hx : own * (1 / own / 2) = 1 / 2 := by field_simp
  obtain ⟨h3, h4⟩ := h2 (by rw [hx]; norm_num [Interference.step]) (by rw [hx]; norm_num [Interference.step, abs_of_pos])
  obtain ⟨l, -, hl, -⟩ := C98_loads_partial pick (.inl rfl) (.inl rfl) (1 / 2) 1 Interference.step { tol := 9 / 10, guess := some (.loads fun _ => .fin (1 / own / 2)) } (.inl rfl) ⟨(0, 0), (step_nodes _).mpr rfl⟩ hK h h3
  exact ⟨r, after, l, h, hl, fun i => ((C153_interference pick (b1 := ⟨1, 1 / 4⟩) (b2 := ⟨2, 1 / 3⟩) ⟨by norm_num, by norm_num⟩ ⟨by norm_num, by norm_num⟩ .pinf .pinf (by norm_num) 1 Interference.step _ rfl rfl ⟨(0, 0), (step_nodes _).mpr rfl⟩ h l hl).1 i).2.2⟩

end Verif.Definite
