import Verif.Quasi.LoadProps

/-!
# C102: a load that has been found before

Without time dependence the heights and loads found in earlier increments are kept. If the load of an increment is one of them, the root finder has nothing to solve, and the loads and displacements are then those of the
height in the middle of the bracket (`quasi_static_step.py` l.365-366), not those of the height found.
-/

namespace Verif.Quasi

open Verif HeightCache

variable {N : Type}

theorem lookup_nth {s : HeightCache.State N} (hs : s.heights.Pairwise (· < ·)) {i : ℕ} {h t : ℝ} (hh : s.heights[i]? = some h) (ht : s.totals[i]? = some t) : lookup s h = some t := by
  obtain ⟨hi, rfl⟩ := List.getElem?_eq_some_iff.1 hh
  have : s.heights.findIdx (fun y => decide (y = s.heights[i])) = i := by
    rw [List.findIdx_eq hi]
    refine ⟨by simp, fun j hj => ?_⟩
    have := List.pairwise_iff_getElem.1 hs j i (by omega) hi hj
    simpa using this.ne
  unfold lookup
  rw [this, ht]

theorem bisect_nth {a : List ℝ} (ha : a.Pairwise (· < ·)) {i : ℕ} {x : ℝ} (hx : a[i]? = some x) : bisectLeft a x = i := by
  obtain ⟨h0, h1, h2⟩ := bisectLeft_spec a x
  obtain ⟨hi, rfl⟩ := List.getElem?_eq_some_iff.1 hx
  have hp := List.pairwise_iff_getElem.1 ha
  generalize bisectLeft a a[i] = k at *
  rcases lt_trichotomy k i with h | h | h
  · have e1 := h2 (a[k]'(by omega)) (List.getElem?_eq_getElem _)
    have e2 := hp k i (by omega) hi h
    linarith
  · exact h
  · have e1 := h1 (a[k - 1]'(by omega)) (by omega) (List.getElem?_eq_getElem _)
    rcases Nat.lt_or_ge i (k - 1) with h' | h'
    · have e2 := hp i (k - 1) hi (by omega) h'
      linarith
    · obtain rfl : i = k - 1 := by omega
      exact absurd e1 (lt_irrefl _)

/-- **C102 (negation)**: a step without time dependence that has found the load before, at the height `h1`: that height is reported as the interference, with the loads of the height half way between it and the next
smaller one tried. -/
theorem C102_cached_wrong {P : Problem N} (him : P.imMats = true) {s : HeightCache.State N} (hs : s.heights.Pairwise (· < ·)) (ht : s.totals.Pairwise (· < ·)) {i : ℕ} {h0 h1 l0 load : ℝ}
    (e0 : s.heights[i]? = some h0) (e1 : s.heights[i + 1]? = some h1) (f0 : s.totals[i]? = some l0) (f1 : s.totals[i + 1]? = some load) (hpos : 0 ≤ h0) (hwide : 1e-10 ≤ |h1 - h0| / h1)
    (hn : P.noNodes (P.touching ((h0 + h1) / 2)) = false) (P' : Problem N) (upper : ℝ) (ch : Choice) :
    ∃ r, solveLoad true (some (P, s)) P' none load upper ch = .ok r ∧ r.2.interference = h1 ∧ r.2.solvedAt = (h0 + h1) / 2 ∧ r.2.totalLoad = (P.bccg ((h0 + h1) / 2) (P.touching ((h0 + h1) / 2))).1 ∧
      (r.2.converged = true ↔ (load ≠ 0 ∧ |r.2.totalLoad - load| / load < 5 / 100) ∧ (P.bccg ((h0 + h1) / 2) (P.touching ((h0 + h1) / 2))).2 = false) := by
  have hlt : h0 < h1 := by
    obtain ⟨a, rfl⟩ := List.getElem?_eq_some_iff.1 e0
    obtain ⟨b, rfl⟩ := List.getElem?_eq_some_iff.1 e1
    exact List.pairwise_iff_getElem.1 hs i (i + 1) a b (by omega)
  have hl : l0 < load := by
    obtain ⟨a, rfl⟩ := List.getElem?_eq_some_iff.1 f0
    obtain ⟨b, rfl⟩ := List.getElem?_eq_some_iff.1 f1
    exact List.pairwise_iff_getElem.1 ht i (i + 1) a b (by omega)
  have hlen : i + 1 < s.heights.length := (List.getElem?_eq_some_iff.1 e1).1
  set s1 := changeLoad s load none with hs1
  have hh : s1.heights = s.heights := rfl
  have htt : s1.totals = s.totals := rfl
  have hbis : bisectLeft s.totals load = i + 1 := bisect_nth ht f1
  have hb : getBounds P s1 0 upper = .ok (h0, h1) := by
    unfold getBounds
    rw [hh, htt, if_neg (by omega), show s1.setLoad = load from rfl, hbis]
    simp only [Nat.add_sub_cancel, List.getD_eq_getElem?_getD, e0, e1, Option.getD_some, Nat.succ_pos, if_true, max_eq_left hpos]
    rw [if_neg (by rintro ⟨h, -⟩; linarith), if_neg]
    rintro (⟨-, h⟩ | h)
    · linarith
    · linarith
  have c0 : call P s1 h0 = (s1, .ok (l0 - load)) := by
    unfold call
    rw [if_pos (show h0 ∈ s1.heights from List.mem_of_getElem? e0), show lookup s1 h0 = some l0 from lookup_nth hs e0 f0]
    rfl
  have c1 : call P s1 h1 = (s1, .ok 0) := by
    unfold call
    rw [if_pos (show h1 ∈ s1.heights from List.mem_of_getElem? e1), show lookup s1 h1 = some load from lookup_nth hs e1 f1]
    show (s1, Except.ok (load - load)) = _
    rw [sub_self]
  have hr : rootScalar P s1 h0 h1 ch = (s1, .ok h1) := by
    unfold rootScalar
    rw [c0]
    dsimp only
    rw [c1]
    dsimp only
    rw [if_neg (by linarith), if_pos rfl]
  have hmid : (h0 + h1) / 2 ∉ s1.heights := by
    intro hm
    rw [hh] at hm
    obtain ⟨j, hj, ej⟩ := List.getElem_of_mem hm
    obtain ⟨a, a'⟩ := List.getElem?_eq_some_iff.1 e0
    obtain ⟨b, b'⟩ := List.getElem?_eq_some_iff.1 e1
    have hp := List.pairwise_iff_getElem.1 hs
    rcases Nat.lt_or_ge i j with h | h
    · rcases Nat.lt_or_ge (i + 1) j with h' | h'
      · have := hp (i + 1) j b hj h'
        rw [ej, b'] at this
        linarith
      · obtain rfl : j = i + 1 := by omega
        rw [b'] at ej
        linarith
    · rcases Nat.lt_or_ge j i with h' | h'
      · have := hp j i hj a h'
        rw [ej, a'] at this
        linarith
      · obtain rfl : j = i := by omega
        rw [a'] at ej
        linarith
  obtain ⟨g1, g2, g3, g4, g5⟩ := Static.solve_fields P (s := s1) rfl _ hn
  have hc : call P s1 ((h0 + h1) / 2) = ((solveHeight P s1 ((h0 + h1) / 2)).1, .ok (solveHeight P s1 ((h0 + h1) / 2)).2) := by
    unfold call
    rw [if_neg hmid, if_pos him]
  have hen : ensure P s1 h0 h1 = ((solveHeight P s1 ((h0 + h1) / 2)).1, .ok ()) := by
    unfold ensure
    rw [show s1.results = none from rfl]
    dsimp only
    rw [hc]
  generalize (solveHeight P s1 ((h0 + h1) / 2)).1 = s2 at *
  have hres : Static.results P s2 = .ok ((h0 + h1) / 2, (P.bccg ((h0 + h1) / 2) (P.touching ((h0 + h1) / 2))).1) := by
    unfold Static.results
    rw [g3]
    dsimp only
    rw [Static.nodesFor_free P g1]
  refine ⟨((P, s2), ⟨h1, (h0 + h1) / 2, (P.bccg ((h0 + h1) / 2) (P.touching ((h0 + h1) / 2))).1, Static.close (P.bccg ((h0 + h1) / 2) (P.touching ((h0 + h1) / 2))).1 load && !s2.lastFailed⟩), ?_, ?_⟩
  · unfold solveLoad optimiser brackets
    simp only [bind, Except.bind, if_true, ← hs1, hb, hr, hen, hres]
  · refine ⟨rfl, rfl, rfl, ?_⟩
    dsimp only
    rw [g4]
    simp [Static.close]

/-! ## A step of two increments -/

theorem bisect_one {x y : ℝ} (h : x < y) : bisectLeft [x] y = 1 := by
  unfold bisectLeft
  rw [bisectLoop, if_pos (by simp)]
  simp only [List.length_singleton, Nat.zero_add, Nat.reduceDiv, List.getD_cons_zero, h, if_true]
  rw [bisectLoop, if_neg (by simp)]

theorem bisect_two {x y z : ℝ} (h : x < y) (h' : y < z) : bisectLeft [x, z] y = 1 := by
  unfold bisectLeft
  rw [bisectLoop, if_pos (by simp)]
  simp only [List.length_cons, List.length_nil, Nat.zero_add, Nat.reduceAdd, Nat.reduceDiv, List.getD_cons_succ, List.getD_cons_zero, h'.not_gt, if_false]
  rw [bisectLoop, if_pos (by simp)]
  simp only [Nat.zero_add, Nat.reduceDiv, List.getD_cons_zero, h, if_true]
  rw [bisectLoop, if_neg (by simp)]

theorem spring_call {s : HeightCache.State Bool} {x : ℝ} (hx : 0 < x) (hn : x ∉ s.heights) (hf : s.setContactNodes = false) : ∃ s', call Static.spring s x = (s', .ok (2 * x - s.setLoad)) ∧
    s'.heights = s.heights.insertIdx (bisectLeft s.heights x) x ∧ s'.totals = s.totals.insertIdx (bisectLeft s.heights x) (2 * x) ∧ s'.setContactNodes = false ∧ s'.setLoad = s.setLoad ∧
    s'.results = some x ∧ s'.lastFailed = false := by
  obtain ⟨g1, g2, g3, g4, g5⟩ := Static.solve_fields Static.spring hf x (spring_fresh hx).2
  refine ⟨(solveHeight Static.spring s x).1, ?_, ?_, ?_, g1, g2, g3, g4⟩
  · unfold call
    rw [if_neg hn, if_pos (show Static.spring.imMats = true from rfl)]
    dsimp only
    rw [g5]
    rfl
  all_goals
    unfold solveHeight
    simp only [Static.nodesFor_free Static.spring hf, (spring_fresh hx).2, Bool.false_eq_true, if_false]
    unfold addToCache
    rw [if_pos ⟨rfl, hn, rfl⟩]
    try rfl

/-- The first increment of the example: the heights 0, 4 and L / 2 are known with their loads. -/
theorem first_increment {L : ℝ} (h0 : 0 < L) (h8 : L < 8) : ∃ s : HeightCache.State Bool, solveLoad true none Static.spring none L 4 ⟨[L / 2], 2⟩ = .ok ((Static.spring, s), ⟨L / 2, L / 2, L, true⟩) ∧
    s.heights = [0, L / 2, 4] ∧ s.totals = [0, L, 8] := by
  obtain ⟨s, k1, k2, k3, k4, k5, k6⟩ := Static.init_none Static.spring L L
  have k6 : (changeLoad s L none).heights = [0] ∧ (changeLoad s L none).totals = [0] := by
    rcases k6 with h | ⟨h, l, hm, -⟩
    · exact h
    · cases hm
  have hzero := Static.call_zero Static.spring (Or.inl k6)
  set s1 := changeLoad s L none with hs1
  obtain ⟨s2, c1, c2, c3, c4, c5, c6, c7⟩ := spring_call (s := s1) (x := 4) (by norm_num) (by rw [k6.1]; norm_num) k4
  rw [k6.1, bisect_one (by norm_num)] at c2
  rw [k6.1, k6.2, bisect_one (by norm_num)] at c3
  have c2 : s2.heights = [0, 4] := c2
  have c3 : s2.totals = [0, 2 * 4] := c3
  have hL : L / 2 ∉ s2.heights := by
    rw [c2]
    simp only [List.mem_cons, List.not_mem_nil, or_false, not_or]
    constructor <;> intro h <;> linarith
  obtain ⟨s3, d1, d2, d3, d4, d5, d6, d7⟩ := spring_call (s := s2) (x := L / 2) (by linarith) hL c4
  have hb2 : bisectLeft [0, 4] (L / 2) = 1 := bisect_two (by linarith) (by linarith)
  rw [c2, hb2] at d2
  rw [c2, c3, hb2] at d3
  have d2 : s3.heights = [0, L / 2, 4] := d2
  have d3 : s3.totals = [0, 2 * (L / 2), 2 * 4] := d3
  have hroot : rootScalar Static.spring s1 0 4 ⟨[L / 2], 2⟩ = (s3, .ok (L / 2)) := by
    unfold rootScalar
    rw [hzero]
    dsimp only
    rw [c1, k5]
    dsimp only
    rw [if_neg (by linarith), if_neg (by linarith), if_neg (by intro h; have := h.1 (by linarith); linarith)]
    simp only [Static.tryHeights, d1]
    rfl
  have hb : getBounds Static.spring s1 0 4 = .ok (0, 4) := by
    unfold getBounds
    rw [k6.1, if_pos (by simp)]
  have hen : ensure Static.spring s3 0 4 = (s3, .ok ()) := by
    unfold ensure
    rw [d6]
  have hres : Static.results Static.spring s3 = .ok (L / 2, L) := by
    unfold Static.results
    rw [d6]
    show Except.ok (L / 2, 2 * (L / 2)) = _
    rw [mul_div_cancel₀ _ two_ne_zero]
  refine ⟨s3, ?_, d2, by rw [d3, mul_div_cancel₀ _ two_ne_zero, show (2 : ℝ) * 4 = 8 by norm_num]⟩
  unfold solveLoad optimiser brackets
  simp only [bind, Except.bind, k1, Except.map, if_true, ← hs1, hb, hroot, hen, hres, d7]
  simp [Static.close, h0.ne']

/-- **C102 (negation)**: two increments with the load L on a spring of stiffness 2, without time dependence. The first gives the height L / 2 with the load L; the second reports the same height with half the load,
not converged. -/
theorem C102_second_wrong {L : ℝ} (h0 : 0 < L) (h8 : L < 8) : ∃ l c1 c2, run (constant (.number L) .none true 2) before springs (fun _ => ⟨[L / 2], 2⟩) = .ok (l, [c1, c2]) ∧
    (c1.interference = L / 2 ∧ c1.totalLoad = L ∧ c1.converged = true) ∧ c2.interference = L / 2 ∧ c2.totalLoad = L / 2 ∧ c2.converged = false := by
  obtain ⟨st, -, hinc, h1, h2, -, hr⟩ := run_eq (a := constant (.number L) .none true 2) (constant_load L true) rfl springs (fun _ => ⟨[L / 2], 2⟩)
  obtain ⟨s, e1, e2, e3⟩ := first_increment h0 h8
  obtain ⟨r, f1, f2, f3, f4, f5⟩ := C102_cached_wrong (P := Static.spring) rfl (s := s) (by rw [e2]; simp; constructor <;> linarith) (by rw [e3]; simp; constructor <;> linarith) (i := 0) (h0 := 0) (h1 := L / 2) (l0 := 0) (load := L)
    (by rw [e2]; rfl) (by rw [e2]; rfl) (by rw [e3]; rfl) (by rw [e3]; rfl) le_rfl
    (by rw [sub_zero, abs_of_pos (by linarith), div_self (by linarith)]; norm_num) (spring_fresh (by linarith)).2 Static.spring 4 ⟨[L / 2], 2⟩
  rw [h1] at hinc hr
  obtain ⟨q1, rest, hq, u1, hinc⟩ := interp_cons hinc
  obtain ⟨q2, rest', hq', u2, -⟩ := interp_cons hinc
  subst hq'
  injection hq with hq hrest
  injection hrest with hrest _
  subst hq hrest
  have hup : (1 : ℝ) * (constant (.number L) .none true 2).upperFactor = 4 := one_mul _
  have hload : (constant (.number L) .none true 2).quantities.load ≠ .none := by simp [constant]
  have g1 := increment_of (constant (.number L) .none true 2) st before springs (fun _ => ⟨[L / 2], 2⟩) 0 ⟨st.q, none, none, before.time⟩ u1
  rw [show gapFor st (constant (.number L) .none true 2).quantities.noTime springs 0 (some (0, 0)) none = (Static.spring, 1) from rfl] at g1
  rw [solveBy_load hload rfl, show initialNodes (constant (.number L) .none true 2) before = none from rfl, hup, show (constant (.number L) .none true 2).quantities.noTime = true from rfl, e1] at g1
  have g2 := fun t => increment_of (constant (.number L) .none true 2) st before springs (fun _ => ⟨[L / 2], 2⟩) 1 ⟨⟨some (0, 0), some L, none, none⟩, some (Static.spring, s), some (Static.spring, 1), t⟩ u2
  have hgap : gapFor st true springs 1 (some (0, 0)) (some (Static.spring, 1)) = (Static.spring, 1) := by
    unfold gapFor springs
    dsimp only
    split_ifs <;> rfl
  have hsb : ∀ o P ini upper c, solveBy (N := Bool) (constant (.number L) .none true 2) ⟨some (0, 0), some L, none, none⟩ o P ini upper c = solveLoad true o P ini L upper c :=
    fun o P ini upper c => solveBy_load hload rfl o P ini upper c
  simp only [hgap, hsb, show initialNodes (constant (.number L) .none true 2) before = none from rfl, hup, show (constant (.number L) .none true 2).quantities.noTime = true from rfl, f1] at g2
  rw [show (constant (.number L) .none true 2).quantities.steps = 1 + 1 from rfl, increments, g1] at hr
  simp only [bind, Except.bind, Except.map] at hr
  rw [increments, g2] at hr
  simp only [bind, Except.bind, Except.map, increments] at hr
  refine ⟨_, _, _, hr, ⟨rfl, rfl, rfl⟩, f2, ?_, ?_⟩
  · show r.2.totalLoad = _
    rw [f4]
    show 2 * ((0 + L / 2) / 2) = _
    ring
  · show r.2.converged = false
    rw [← Bool.not_eq_true, f5]
    rintro ⟨⟨-, h⟩, -⟩
    rw [f4] at h
    have e : (Static.spring.bccg ((0 + L / 2) / 2) (Static.spring.touching ((0 + L / 2) / 2))).1 = L / 2 := by
      show 2 * ((0 + L / 2) / 2) = _
      ring
    rw [e, show L / 2 - L = -(L / 2) by ring, abs_neg, abs_of_pos (by linarith), div_lt_iff₀ h0] at h
    linarith

/-- The load 2. -/
example := C102_second_wrong (L := 2) (by norm_num) (by norm_num)

/-- The heights and loads of the first increment with the load 2 (`C102_cached_wrong`). -/
example : ∃ s : HeightCache.State Bool, ∃ r, solveLoad true (some (Static.spring, s)) Static.spring none 2 4 ⟨[], 0⟩ = .ok r ∧ r.2.interference = 1 ∧ r.2.solvedAt = 1 / 2 := by
  obtain ⟨s, -, e2, e3⟩ := first_increment (L := 2) (by norm_num) (by norm_num)
  obtain ⟨r, f1, f2, f3, -⟩ := C102_cached_wrong (P := Static.spring) rfl (s := s) (by rw [e2]; norm_num) (by rw [e3]; norm_num) (i := 0) (h0 := 0) (h1 := 1) (l0 := 0) (load := 2)
    (by rw [e2]; rfl) (by rw [e2]; norm_num) (by rw [e3]; rfl) (by rw [e3]; rfl) le_rfl (by norm_num) (spring_fresh (by norm_num)).2 Static.spring 4 ⟨[], 0⟩
  exact ⟨s, r, f1, f2, by rw [f3]; norm_num⟩

/-- The same two increments: the loads are those of contact solutions for the surfaces at the start, and the first state, which is reported as converged, has the load 2 within 5 % (`C102_no_time_partial`). -/
example : ∃ l cs c, run (constant (.number 2) .none true 2) before springs (fun _ => ⟨[2 / 2], 2⟩) = .ok (l, cs) ∧ cs[0]? = some c ∧ c.converged = true ∧ |c.totalLoad - 2| / 2 < 5 / 100 := by
  obtain ⟨l, c1, c2, h, ⟨-, -, hc⟩, -⟩ := C102_second_wrong (L := 2) (by norm_num) (by norm_num)
  obtain ⟨q, load, e1, e2, -, e3⟩ := C102_no_time_partial (constant (.number 2) .none true 2) before springs (fun _ => ⟨[2 / 2], 2⟩) (constant_load 2 true) (Or.inl rfl) (by simp [constant]) rfl (P := Static.spring)
    (fun _ _ => rfl) h (k := 0) rfl
  injection e1 with e1
  subst e1
  injection e2 with e2
  subst e2
  exact ⟨l, _, c1, h, rfl, hc, (e3 hc).2⟩

end Verif.Quasi
