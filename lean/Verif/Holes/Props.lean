import Verif.Holes.Lemmas
import Mathlib.Tactic.NormNum
import Mathlib.Algebra.Order.Field.Rat

/-!
# Filling holes (C107)
-/

namespace Verif.Holes

open Verif

variable {K : Type} [Field K] [LinearOrder K] [IsStrictOrderedRing K]

/-! ## Specification -/

/-- Outside of the rows `r0 ≤ i < r1` and the columns `c0 ≤ j < c1` there are holes only, and the first and the last of these rows and columns do not have more than the fraction `thresh`
of holes. -/
structure Framed (thresh : K) (R C : ℕ) (hole : ℕ → ℕ → Bool) (r0 r1 c0 c1 : ℕ) : Prop where
  rows : r0 < r1 ∧ r1 ≤ R
  cols : c0 < c1 ∧ c1 ≤ C
  outside : ∀ i j, i < R → j < C → i < r0 ∨ r1 ≤ i ∨ j < c0 ∨ c1 ≤ j → hole i j = true
  top : ((holesIn (fun j => hole r0 j) C : ℕ) : K) ≤ thresh * C
  bottom : ((holesIn (fun j => hole (r1 - 1) j) C : ℕ) : K) ≤ thresh * C
  left : ((holesIn (fun i => hole i c0) R : ℕ) : K) ≤ thresh * R
  right : ((holesIn (fun i => hole i (c1 - 1)) R : ℕ) : K) ≤ thresh * R

/-- The rows and columns from the first to the last one with a value that is not a hole. -/
structure Bounds (R C : ℕ) (hole : ℕ → ℕ → Bool) (r0 r1 c0 c1 : ℕ) : Prop where
  outside : ∀ i j, i < R → j < C → hole i j = false → r0 ≤ i ∧ i < r1 ∧ c0 ≤ j ∧ j < c1
  top : ∃ j, j < C ∧ r0 < R ∧ hole r0 j = false
  bottom : ∃ j, j < C ∧ r1 - 1 < R ∧ r1 ≠ 0 ∧ hole (r1 - 1) j = false
  left : ∃ i, i < R ∧ c0 < C ∧ hole i c0 = false
  right : ∃ i, i < R ∧ c1 - 1 < C ∧ c1 ≠ 0 ∧ hole i (c1 - 1) = false

/-! ## The loops -/

/-- What holds while a frame is cut off. -/
structure Inv (R C r0 r1 c0 c1 : ℕ) (b : Box) (g : Good) : Prop where
  startR : b.startR ≤ r0
  endR : b.endR ≤ R - r1
  startC : b.startC ≤ c0
  endC : b.endC ≤ C - c1
  top : g.top = true → b.startR = r0
  bottom : g.bottom = true → b.endR = R - r1
  left : g.left = true → b.startC = c0
  right : g.right = true → b.endC = C - c1

section frame

variable {thresh : K} {R C : ℕ} {hole : ℕ → ℕ → Bool} {r0 r1 c0 c1 : ℕ} (hf : Framed thresh R C hole r0 r1 c0 c1) (ht : thresh < 1)

include hf ht

theorem cutTop_inv {b : Box} {g : Good} (h : Inv R C r0 r1 c0 c1 b g) : ∃ s, cutTop thresh R C hole b g = .ok s ∧ Inv R C r0 r1 c0 c1 s.1 s.2 := by
  obtain ⟨⟨a1, a2⟩, ⟨a3, a4⟩, ho, h1, h2, h3, h4⟩ := hf
  obtain ⟨q1, q2, q3, q4, q5, q6, q7, q8⟩ := h
  unfold cutTop
  rw [if_neg (by omega)]
  by_cases hlt : b.startR < r0
  · rw [if_pos (mostly_all ht (by omega) (fun j _ hj => ho _ j (by omega) (by omega) (Or.inl hlt)))]
    exact ⟨_, rfl, by dsimp only; omega, q2, q3, q4, fun hg => absurd (q5 hg) (by omega), q6, q7, q8⟩
  · have e : b.startR = r0 := by omega
    rw [e, if_neg (by rw [mostly_few ht.le (by omega) (fun j hj => ho r0 j (by omega) (by omega) (by omega)) (fun j hj hj' => ho r0 j (by omega) hj' (by omega)) h1]; simp)]
    exact ⟨_, rfl, by omega, q2, q3, q4, fun _ => e, q6, q7, q8⟩

theorem cutBottom_inv {b : Box} {g : Good} (h : Inv R C r0 r1 c0 c1 b g) : ∃ s, cutBottom thresh R C hole b g = .ok s ∧ Inv R C r0 r1 c0 c1 s.1 s.2 := by
  obtain ⟨⟨a1, a2⟩, ⟨a3, a4⟩, ho, h1, h2, h3, h4⟩ := hf
  obtain ⟨q1, q2, q3, q4, q5, q6, q7, q8⟩ := h
  unfold cutBottom
  rw [if_neg (by omega)]
  by_cases hlt : b.endR < R - r1
  · rw [if_pos (mostly_all ht (by omega) (fun j _ hj => ho _ j (by omega) (by omega) (by omega)))]
    exact ⟨_, rfl, q1, by dsimp only; omega, q3, q4, q5, fun hg => absurd (q6 hg) (by omega), q7, q8⟩
  · have e : b.endR = R - r1 := by omega
    have e' : R - (b.endR + 1) = r1 - 1 := by omega
    rw [e', if_neg (by rw [mostly_few ht.le (by omega) (fun j hj => ho _ j (by omega) (by omega) (by omega)) (fun j hj hj' => ho _ j (by omega) hj' (by omega)) h2]; simp)]
    exact ⟨_, rfl, q1, by omega, q3, q4, q5, fun _ => e, q7, q8⟩

theorem cutLeft_inv {b : Box} {g : Good} (h : Inv R C r0 r1 c0 c1 b g) : ∃ s, cutLeft thresh R C hole b g = .ok s ∧ Inv R C r0 r1 c0 c1 s.1 s.2 := by
  obtain ⟨⟨a1, a2⟩, ⟨a3, a4⟩, ho, h1, h2, h3, h4⟩ := hf
  obtain ⟨q1, q2, q3, q4, q5, q6, q7, q8⟩ := h
  unfold cutLeft
  rw [if_neg (by omega)]
  by_cases hlt : b.startC < c0
  · rw [if_pos (mostly_all ht (by omega) (fun i _ hi => ho i _ (by omega) (by omega) (by omega)))]
    exact ⟨_, rfl, q1, q2, by dsimp only; omega, q4, q5, q6, fun hg => absurd (q7 hg) (by omega), q8⟩
  · have e : b.startC = c0 := by omega
    rw [e, if_neg (by rw [mostly_few ht.le (by omega) (fun i hi => ho i c0 (by omega) (by omega) (by omega)) (fun i hi hi' => ho i c0 hi' (by omega) (by omega)) h3]; simp)]
    exact ⟨_, rfl, q1, q2, by omega, q4, q5, q6, fun _ => e, q8⟩

theorem cutRight_inv {b : Box} {g : Good} (h : Inv R C r0 r1 c0 c1 b g) : ∃ s, cutRight thresh R C hole b g = .ok s ∧ Inv R C r0 r1 c0 c1 s.1 s.2 := by
  obtain ⟨⟨a1, a2⟩, ⟨a3, a4⟩, ho, h1, h2, h3, h4⟩ := hf
  obtain ⟨q1, q2, q3, q4, q5, q6, q7, q8⟩ := h
  unfold cutRight
  rw [if_neg (by omega)]
  by_cases hlt : b.endC < C - c1
  · rw [if_pos (mostly_all ht (by omega) (fun i _ hi => ho i _ (by omega) (by omega) (by omega)))]
    exact ⟨_, rfl, q1, q2, q3, by dsimp only; omega, q5, q6, q7, fun hg => absurd (q8 hg) (by omega)⟩
  · have e : b.endC = C - c1 := by omega
    have e' : C - (b.endC + 1) = c1 - 1 := by omega
    rw [e', if_neg (by rw [mostly_few ht.le (by omega) (fun i hi => ho i _ (by omega) (by omega) (by omega)) (fun i hi hi' => ho i _ hi' (by omega) (by omega)) h4]; simp)]
    exact ⟨_, rfl, q1, q2, q3, by omega, q5, q6, q7, fun _ => e⟩

theorem cut_frame : ∀ (n : ℕ) (b : Box) (g : Good), Inv R C r0 r1 c0 c1 b g → cut thresh R C hole n b g = none ∨ cut thresh R C hole n b g = some (.ok ⟨r0, R - r1, c0, C - c1⟩) := by
  intro n
  induction n with
  | zero =>
    intro b g h
    by_cases hg : g.all = true
    · right
      rw [cut_all hg]
      simp only [Good.all, Bool.and_eq_true] at hg
      obtain ⟨⟨⟨g1, g2⟩, g3⟩, g4⟩ := hg
      obtain ⟨x1, x2, x3, x4⟩ := b
      have := h.top g1; have := h.bottom g2; have := h.left g3; have := h.right g4
      simp only at *
      subst_vars
      rfl
    · left
      rw [cut, if_neg hg]
  | succ n ih =>
    intro b g h
    by_cases hg : g.all = true
    · right
      rw [cut_all hg]
      simp only [Good.all, Bool.and_eq_true] at hg
      obtain ⟨⟨⟨g1, g2⟩, g3⟩, g4⟩ := hg
      obtain ⟨x1, x2, x3, x4⟩ := b
      have := h.top g1; have := h.bottom g2; have := h.left g3; have := h.right g4
      simp only at *
      subst_vars
      rfl
    · obtain ⟨s1, e1, i1⟩ := cutTop_inv hf ht h
      obtain ⟨s2, e2, i2⟩ := cutBottom_inv hf ht i1
      obtain ⟨s3, e3, i3⟩ := cutLeft_inv hf ht i2
      obtain ⟨s4, e4, i4⟩ := cutRight_inv hf ht i3
      have hp : cutPass thresh R C hole b g = .ok s4 := by
        unfold cutPass
        simp only [bind, Except.bind, e1, e2, e3, e4]
      rw [cut, if_neg hg]
      simp only [hp]
      exact ih s4.1 s4.2 i4

theorem addPass_frame (g : Good) : addPass thresh R C hole ⟨r0, R - r1, c0, C - c1⟩ g = (⟨r0, R - r1, c0, C - c1⟩, ⟨false, false, false, false⟩) := by
  obtain ⟨⟨a1, a2⟩, ⟨a3, a4⟩, ho, h1, h2, h3, h4⟩ := hf
  have t1 : ∀ g, addTop thresh C hole ⟨r0, R - r1, c0, C - c1⟩ g = (⟨r0, R - r1, c0, C - c1⟩, { g with top := false }) := by
    intro g
    unfold addTop
    rw [if_neg]
    rintro ⟨p1, p2⟩
    dsimp only at p1 p2
    rw [mostly_all ht (by omega) (fun j _ hj => ho _ j (by omega) (by omega) (by omega))] at p2
    cases p2
  have t2 : ∀ g, addBottom thresh R C hole ⟨r0, R - r1, c0, C - c1⟩ g = (⟨r0, R - r1, c0, C - c1⟩, { g with bottom := false }) := by
    intro g
    unfold addBottom
    rw [if_neg]
    rintro ⟨p1, p2⟩
    dsimp only at p1 p2
    rw [mostly_all ht (by omega) (fun j _ hj => ho _ j (by omega) (by omega) (by omega))] at p2
    cases p2
  have t3 : ∀ g, addLeft thresh R hole ⟨r0, R - r1, c0, C - c1⟩ g = (⟨r0, R - r1, c0, C - c1⟩, { g with left := false }) := by
    intro g
    unfold addLeft
    rw [if_neg]
    rintro ⟨p1, p2⟩
    dsimp only at p1 p2
    rw [mostly_all ht (by omega) (fun i _ hi => ho i _ (by omega) (by omega) (by omega))] at p2
    cases p2
  have t4 : ∀ g, addRight thresh R C hole ⟨r0, R - r1, c0, C - c1⟩ g = (⟨r0, R - r1, c0, C - c1⟩, { g with right := false }) := by
    intro g
    unfold addRight
    rw [if_neg]
    rintro ⟨p1, p2⟩
    dsimp only at p1 p2
    rw [mostly_all ht (by omega) (fun i _ hi => ho i _ (by omega) (by omega) (by omega))] at p2
    cases p2
  unfold addPass
  simp only [t1, t2, t3, t4]

end frame

omit [IsStrictOrderedRing K] in
theorem border_ends (thresh : K) (R C : ℕ) (hole : ℕ → ℕ → Bool) : ∃ r, ∀ n, 2 * R + 2 * C + 1 ≤ n → border thresh R C hole n = some r := by
  obtain ⟨r, h1, h2, h3⟩ := cut_ends (thresh := thresh) (R := R) (C := C) (hole := hole) (2 * R + 2 * C + 1) ⟨0, 0, 0, 0⟩ ⟨false, false, false, false⟩ (by simp [Within]) (by simp only [left]; omega)
  cases r with
  | error e =>
    refine ⟨.error e, fun n hn => ?_⟩
    unfold border
    rw [h2 n hn]
  | ok b =>
    obtain ⟨w1, w2, w3, w4⟩ := h3 b rfl
    obtain ⟨r, h4, h5⟩ := addBack_ends (thresh := thresh) (R := R) (C := C) (hole := hole) (2 * R + 2 * C + 1) b ⟨true, true, true, true⟩ (by simp only [removed]; omega)
    refine ⟨.ok r, fun n hn => ?_⟩
    unfold border
    rw [h2 n hn]
    simp only [h5 n hn, Option.map_some]

theorem border_frame {thresh : K} {R C : ℕ} {hole : ℕ → ℕ → Bool} {r0 r1 c0 c1 : ℕ} (hf : Framed thresh R C hole r0 r1 c0 c1) (ht : thresh < 1) {n : ℕ} (hn : 2 * R + 2 * C + 1 ≤ n) :
    border thresh R C hole n = some (.ok ⟨r0, R - r1, c0, C - c1⟩) := by
  obtain ⟨r, h1, h2, h3⟩ := cut_ends (thresh := thresh) (R := R) (C := C) (hole := hole) (2 * R + 2 * C + 1) ⟨0, 0, 0, 0⟩ ⟨false, false, false, false⟩ (by simp [Within]) (by simp only [left]; omega)
  have hc := cut_frame hf ht n ⟨0, 0, 0, 0⟩ ⟨false, false, false, false⟩ ⟨by simp, by simp, by simp, by simp, by simp, by simp, by simp, by simp⟩
  rw [h2 n hn] at hc
  simp only [reduceCtorEq, Option.some.injEq, false_or] at hc
  unfold border
  rw [h2 n hn, hc]
  obtain ⟨m, rfl⟩ : ∃ m, n = m + 1 := ⟨n - 1, by omega⟩
  dsimp only
  rw [addBack, if_neg (by simp [Good.any])]
  simp only [addPass_frame hf ht]
  rw [addBack_none rfl]
  rfl

/-! ## C107 -/

omit [IsStrictOrderedRing K] in
/-- The loops always end: the result does not depend on the number of passes followed, if it is at least `2 R + 2 C + 1`. -/
theorem C107_ends (inpaint : ℕ → ℕ → (ℕ → ℕ → Option K) → (ℕ → ℕ → Bool) → ℕ → ℕ → Option K) (h : HoleValue K) (mkCopy removeBorder : Bool) (thresh : K) (s : Surf K) :
    ∃ r, ∀ n, 2 * s.stored.rows + 2 * s.stored.cols + 1 ≤ n → fillHoles inpaint h mkCopy removeBorder thresh n s = some r := by
  have hr : s.profile.rows = s.stored.rows := by unfold Surf.profile; split_ifs <;> rfl
  have hc : s.profile.cols = s.stored.cols := by unfold Surf.profile; split_ifs <;> rfl
  have key : ∃ r, ∀ n, 2 * s.stored.rows + 2 * s.stored.cols + 1 ≤ n →
      (if removeBorder then border thresh s.profile.rows s.profile.cols (fun i j => isHole h (s.profile.value i j)) n else some (.ok ⟨0, 0, 0, 0⟩)) = some r := by
    cases removeBorder with
    | false => exact ⟨_, fun n _ => by rw [if_neg (by simp)]⟩
    | true =>
      obtain ⟨r, hr'⟩ := border_ends thresh s.profile.rows s.profile.cols (fun i j => isHole h (s.profile.value i j))
      refine ⟨r, fun n hn => ?_⟩
      rw [if_pos rfl]
      exact hr' n (by omega)
  obtain ⟨r, hr'⟩ := key
  cases r with
  | error e =>
    refine ⟨(if s.invert then s else { s with stored := zeroed h s.profile }, .error e), fun n hn => ?_⟩
    unfold fillHoles
    simp only [hr' n hn]
  | ok b =>
    have hN : ∃ r, fillHoles inpaint h mkCopy removeBorder thresh (2 * s.stored.rows + 2 * s.stored.cols + 1) s = some r := by
      unfold fillHoles
      simp only [hr' _ (le_refl _)]
      cases mkCopy <;> exact ⟨_, rfl⟩
    obtain ⟨r, hN⟩ := hN
    refine ⟨r, fun n hn => ?_⟩
    rw [← hN]
    unfold fillHoles
    simp only [hr' n hn, hr' _ (le_refl (2 * s.stored.rows + 2 * s.stored.cols + 1))]

/-- A frame of holes is cut off and nothing else; the values are those that the inpainting gives for the rest, with zeros in the holes. -/
theorem C107_frame_partial (inpaint : ℕ → ℕ → (ℕ → ℕ → Option K) → (ℕ → ℕ → Bool) → ℕ → ℕ → Option K) (h : HoleValue K) {thresh : K} (ht : thresh < 1) (p : Profile K) {r0 r1 c0 c1 : ℕ}
    (hf : Framed thresh p.rows p.cols (fun i j => isHole h (p.value i j)) r0 r1 c0 c1) {n : ℕ} (hn : 2 * p.rows + 2 * p.cols + 1 ≤ n) :
    ∃ out, fillHoles inpaint h false true thresh n ⟨p, false⟩ = some (⟨out, false⟩, .ok none) ∧ out.rows = r1 - r0 ∧ out.cols = c1 - c0 ∧
      out.value = inpaint (r1 - r0) (c1 - c0) (fun i j => if isHole h (p.value (r0 + i) (c0 + j)) then some 0 else p.value (r0 + i) (c0 + j)) (fun i j => isHole h (p.value (r0 + i) (c0 + j))) := by
  have hb := border_frame hf ht hn
  have a1 := hf.rows
  have a2 := hf.cols
  have e1 : span p.rows r0 (p.rows - r1) = r1 - r0 := by unfold span; omega
  have e2 : span p.cols c0 (p.cols - c1) = c1 - c0 := by unfold span; omega
  unfold fillHoles
  simp only [Surf.profile, Bool.false_eq_true, if_false, if_true, hb, e1, e2]
  exact ⟨_, rfl, rfl, rfl, rfl⟩

omit [IsStrictOrderedRing K] in
theorem few_of_value [IsStrictOrderedRing K] {thresh : K} {line : ℕ → Bool} {n : ℕ} (hn : (n : K) - 1 ≤ thresh * n) {j : ℕ} (hj : j < n) (h : line j = false) : ((holesIn line n : ℕ) : K) ≤ thresh * n := by
  have : holesIn line n + 1 ≤ n := by
    have h1 : holesIn line n < (List.range n).length := by
      unfold holesIn
      rcases Nat.lt_or_ge ((List.range n).countP line) (List.range n).length with h1 | h1
      · exact h1
      · have h2 := Nat.le_antisymm List.countP_le_length h1
        rw [List.countP_eq_length] at h2
        have := h2 j (List.mem_range.2 hj)
        rw [h] at this
        cases this
    rw [List.length_range] at h1
    omega
  have h2 : ((holesIn line n : ℕ) : K) + 1 ≤ n := by exact_mod_cast this
  linarith

/-- If the threshold is as large as one hole less than a whole line (0.99 for lines of up to 100 values), the profile is cut to the rows and columns from the first to the last one with
a value. -/
theorem C107_bounds (inpaint : ℕ → ℕ → (ℕ → ℕ → Option K) → (ℕ → ℕ → Bool) → ℕ → ℕ → Option K) (h : HoleValue K) {thresh : K} (ht : thresh < 1) (p : Profile K) {r0 r1 c0 c1 : ℕ}
    (hR : (p.rows : K) - 1 ≤ thresh * p.rows) (hC : (p.cols : K) - 1 ≤ thresh * p.cols)
    (hb : Bounds p.rows p.cols (fun i j => isHole h (p.value i j)) r0 r1 c0 c1) {n : ℕ} (hn : 2 * p.rows + 2 * p.cols + 1 ≤ n) :
    ∃ out, fillHoles inpaint h false true thresh n ⟨p, false⟩ = some (⟨out, false⟩, .ok none) ∧ out.rows = r1 - r0 ∧ out.cols = c1 - c0 ∧
      out.value = inpaint (r1 - r0) (c1 - c0) (fun i j => if isHole h (p.value (r0 + i) (c0 + j)) then some 0 else p.value (r0 + i) (c0 + j)) (fun i j => isHole h (p.value (r0 + i) (c0 + j))) := by
  obtain ⟨ho, ⟨jt, t1, t2, t3⟩, ⟨jb, b1, b2, b3, b4⟩, ⟨il, l1, l2, l3⟩, ⟨ir, q1, q2, q3, q4⟩⟩ := hb
  obtain ⟨o1, o2, o3, o4⟩ := ho r0 jt t2 t1 t3
  refine C107_frame_partial inpaint h ht p ⟨⟨o2, by omega⟩, ⟨by omega, by omega⟩, ?_, few_of_value hC t1 t3, few_of_value hC b1 b4, few_of_value hR l1 l3, few_of_value hR q1 q4⟩ hn
  intro i j hi hj hout
  by_contra hne
  rw [Bool.not_eq_true] at hne
  have := ho i j hi hj hne
  omega

/-- While no row or no column is left, the loop goes on with the other ones. -/
structure Full (R C : ℕ) (b : Box) (g : Good) : Prop where
  some : b.startR < R - b.endR ∨ b.startC < C - b.endC
  rowFlags : g.top = true ∨ g.bottom = true → C - b.endC ≤ b.startC
  colFlags : g.left = true ∨ g.right = true → R - b.endR ≤ b.startR

omit [IsStrictOrderedRing K] in
theorem cut_error {thresh : K} {R C : ℕ} {hole : ℕ → ℕ → Bool} (hstep : ∀ b g s, Full R C b g → cutPass thresh R C hole b g = .ok s → Full R C s.1 s.2)
    (herr : ∀ b g e, cutPass thresh R C hole b g = .error e → e = .indexError) :
    ∀ (n : ℕ) (b : Box) (g : Good), Full R C b g → cut thresh R C hole n b g = none ∨ cut thresh R C hole n b g = some (.error .indexError) := by
  have hno : ∀ b g, Full R C b g → ¬ g.all = true := by
    intro b g h hg
    simp only [Good.all, Bool.and_eq_true] at hg
    obtain ⟨⟨⟨g1, g2⟩, g3⟩, g4⟩ := hg
    have h1 := h.rowFlags (Or.inl g1)
    have h2 := h.colFlags (Or.inl g3)
    rcases h.some with h3 | h3 <;> omega
  intro n
  induction n with
  | zero =>
    intro b g h
    left
    rw [cut, if_neg (hno b g h)]
  | succ n ih =>
    intro b g h
    rw [cut, if_neg (hno b g h)]
    cases hp : cutPass thresh R C hole b g with
    | error e => right; rw [herr b g e hp]
    | ok s => exact ih s.1 s.2 (hstep b g s h hp)

omit [IsStrictOrderedRing K] in
theorem cutPass_indexError {thresh : K} {R C : ℕ} {hole : ℕ → ℕ → Bool} {b : Box} {g : Good} {e : PyErr} (h : cutPass thresh R C hole b g = .error e) : e = .indexError := by
  have k1 : ∀ b g e, cutTop thresh R C hole b g = .error e → e = .indexError := by
    intro b g e h
    unfold cutTop at h
    split_ifs at h
    injection h with h
    exact h.symm
  have k2 : ∀ b g e, cutBottom thresh R C hole b g = .error e → e = .indexError := by
    intro b g e h
    unfold cutBottom at h
    split_ifs at h
    injection h with h
    exact h.symm
  have k3 : ∀ b g e, cutLeft thresh R C hole b g = .error e → e = .indexError := by
    intro b g e h
    unfold cutLeft at h
    split_ifs at h
    injection h with h
    exact h.symm
  have k4 : ∀ b g e, cutRight thresh R C hole b g = .error e → e = .indexError := by
    intro b g e h
    unfold cutRight at h
    split_ifs at h
    injection h with h
    exact h.symm
  unfold cutPass at h
  cases h1 : cutTop thresh R C hole b g with
  | error e' => rw [h1] at h; injection h with h; rw [← h]; exact k1 _ _ _ h1
  | ok s1 =>
    rw [h1] at h
    simp only [bind, Except.bind] at h
    cases h2 : cutBottom thresh R C hole s1.1 s1.2 with
    | error e' => rw [h2] at h; injection h with h; rw [← h]; exact k2 _ _ _ h2
    | ok s2 =>
      rw [h2] at h
      simp only at h
      cases h3 : cutLeft thresh R C hole s2.1 s2.2 with
      | error e' => rw [h3] at h; injection h with h; rw [← h]; exact k3 _ _ _ h3
      | ok s3 =>
        rw [h3] at h
        exact k4 _ _ _ h

/-- A profile of holes only (which has no values to fill them from) gives `IndexError`, after its values were replaced. -/
theorem C107_all_holes_wrong (inpaint : ℕ → ℕ → (ℕ → ℕ → Option K) → (ℕ → ℕ → Bool) → ℕ → ℕ → Option K) (h : HoleValue K) (mkCopy : Bool) {thresh : K} (ht : thresh < 1) (p : Profile K)
    (hR : 0 < p.rows) (hall : ∀ i j, i < p.rows → j < p.cols → isHole h (p.value i j) = true) (hC : 0 < p.cols) {n : ℕ} (hn : 2 * p.rows + 2 * p.cols + 1 ≤ n) :
    ∃ s, fillHoles inpaint h mkCopy true thresh n ⟨p, false⟩ = some (s, .error .indexError) ∧ ∀ i j, i < p.rows → j < p.cols → s.stored.value i j = some 0 := by
  have hstep : ∀ b g s, Full p.rows p.cols b g → cutPass thresh p.rows p.cols (fun i j => isHole h (p.value i j)) b g = .ok s → Full p.rows p.cols s.1 s.2 := by
    intro b g s hfull hs
    obtain ⟨s1, s2, s3, h1, h2, h3, h4⟩ := cutPass_ok hs
    have f1 : Full p.rows p.cols s1.1 s1.2 := by
      obtain ⟨q1, q2, q3⟩ := hfull
      unfold cutTop at h1
      split_ifs at h1 with c1 c2
      · injection h1 with h1
        subst h1
        unfold mostly at c2
        rw [decide_eq_true_eq] at c2
        exact ⟨Or.inr c2.1, q2, fun hg => by have := q3 hg; dsimp only; omega⟩
      · injection h1 with h1
        subst h1
        have hemp : p.cols - b.endC ≤ b.startC := by
          by_contra hne
          exact c2 (mostly_all ht (by omega) (fun j _ hj => hall _ j (by omega) (by omega)))
        exact ⟨q1, fun _ => hemp, q3⟩
    have f2 : Full p.rows p.cols s2.1 s2.2 := by
      obtain ⟨q1, q2, q3⟩ := f1
      unfold cutBottom at h2
      split_ifs at h2 with c1 c2
      · injection h2 with h2
        subst h2
        unfold mostly at c2
        rw [decide_eq_true_eq] at c2
        exact ⟨Or.inr c2.1, q2, fun hg => by have := q3 hg; dsimp only; omega⟩
      · injection h2 with h2
        subst h2
        have hemp : p.cols - s1.1.endC ≤ s1.1.startC := by
          by_contra hne
          exact c2 (mostly_all ht (by omega) (fun j _ hj => hall _ j (by omega) (by omega)))
        exact ⟨q1, fun _ => hemp, q3⟩
    have f3 : Full p.rows p.cols s3.1 s3.2 := by
      obtain ⟨q1, q2, q3⟩ := f2
      unfold cutLeft at h3
      split_ifs at h3 with c1 c2
      · injection h3 with h3
        subst h3
        unfold mostly at c2
        rw [decide_eq_true_eq] at c2
        exact ⟨Or.inl c2.1, fun hg => by have := q2 hg; dsimp only; omega, q3⟩
      · injection h3 with h3
        subst h3
        have hemp : p.rows - s2.1.endR ≤ s2.1.startR := by
          by_contra hne
          exact c2 (mostly_all ht (by omega) (fun i _ hi => hall i _ (by omega) (by omega)))
        exact ⟨q1, q2, fun _ => hemp⟩
    obtain ⟨q1, q2, q3⟩ := f3
    unfold cutRight at h4
    split_ifs at h4 with c1 c2
    · injection h4 with h4
      subst h4
      unfold mostly at c2
      rw [decide_eq_true_eq] at c2
      exact ⟨Or.inl c2.1, fun hg => by have := q2 hg; dsimp only; omega, q3⟩
    · injection h4 with h4
      subst h4
      have hemp : p.rows - s3.1.endR ≤ s3.1.startR := by
        by_contra hne
        exact c2 (mostly_all ht (by omega) (fun i _ hi => hall i _ (by omega) (by omega)))
      exact ⟨q1, q2, fun _ => hemp⟩
  have hcut := cut_error hstep (fun b g e => cutPass_indexError) n ⟨0, 0, 0, 0⟩ ⟨false, false, false, false⟩ ⟨Or.inl (by simpa using hR), by simp, by simp⟩
  obtain ⟨r, -, h2, -⟩ := cut_ends (thresh := thresh) (R := p.rows) (C := p.cols) (hole := fun i j => isHole h (p.value i j)) (2 * p.rows + 2 * p.cols + 1) ⟨0, 0, 0, 0⟩
    ⟨false, false, false, false⟩ (by simp [Within]) (by simp only [left]; omega)
  rw [h2 n hn] at hcut
  simp only [reduceCtorEq, Option.some.injEq, false_or] at hcut
  have hb : border thresh p.rows p.cols (fun i j => isHole h (p.value i j)) n = some (.error .indexError) := by
    unfold border
    rw [h2 n hn, hcut]
  unfold fillHoles
  simp only [Surf.profile, Bool.false_eq_true, if_false, if_true, hb]
  refine ⟨_, rfl, fun i j hi hj => ?_⟩
  simp only [zeroed, hall i j hi hj, if_true]

omit [IsStrictOrderedRing K] in
/-- Not as documented: the holes of the surface itself are filled with zeros if a copy is asked for, so that they are no longer holes. -/
theorem C107_copy_wrong (inpaint : ℕ → ℕ → (ℕ → ℕ → Option K) → (ℕ → ℕ → Bool) → ℕ → ℕ → Option K) (h : HoleValue K) (removeBorder : Bool) (thresh : K) (n : ℕ) (p : Profile K)
    {after : Surf K} {r : Except PyErr (Option (Surf K))} (hrun : fillHoles inpaint h true removeBorder thresh n ⟨p, false⟩ = some (after, r)) :
    ∀ i j, isHole h (p.value i j) = true → after.profile.value i j = some 0 := by
  intro i j hij
  unfold fillHoles at hrun
  simp only [Surf.profile, Bool.false_eq_true, if_false, if_true] at hrun
  have : after = ⟨zeroed h p, false⟩ := by
    split at hrun
    · cases hrun
    · injection hrun with hrun
      injection hrun with hrun _
      exact hrun.symm
    · injection hrun with hrun
      injection hrun with hrun _
      exact hrun.symm
  subst this
  simp only [Surf.profile, Bool.false_eq_true, if_false, zeroed, hij, if_true]

omit [IsStrictOrderedRing K] in
/-- Not as documented: an inverted surface has minus the filled profile afterwards (and the copy has the filled profile). -/
theorem C107_inverted_wrong (inpaint : ℕ → ℕ → (ℕ → ℕ → Option K) → (ℕ → ℕ → Bool) → ℕ → ℕ → Option K) (h : HoleValue K) (removeBorder : Bool) (thresh : K) (n : ℕ) (p : Profile K)
    {after after' : Surf K} {copy : Surf K} (hrun : fillHoles inpaint h false removeBorder thresh n ⟨p, true⟩ = some (after, .ok none))
    (hcopy : fillHoles inpaint h true removeBorder thresh n ⟨p, true⟩ = some (after', .ok (some copy))) :
    ∀ i j, after.profile.value i j = (copy.profile.value i j).map (fun x => -x) := by
  intro i j
  unfold fillHoles at hrun hcopy
  simp only [Surf.profile, if_true] at hrun hcopy
  split at hrun
  · cases hrun
  · cases hrun
  · rename_i b hb
    rw [hb] at hcopy
    simp only [Option.some.injEq, Prod.mk.injEq, Except.ok.injEq, Bool.false_eq_true, if_false] at hrun hcopy
    rw [← hrun.1, ← hcopy.2]
    simp only [Surf.profile, Bool.false_eq_true, if_false, if_true, neg_one_mul]

/-- A profile from its rows: `true` is a hole. -/
def image (rows : List (List Bool)) (i j : ℕ) : Bool := (rows.getD i []).getD j true

/-- Not as documented: the threshold is compared with the proportion of holes, so that a border row with the proportion 1/100 of values is kept at the threshold 99/100, and one with the
proportion 2/3 of values is removed at the threshold 3/10. -/
theorem C107_threshold_wrong :
    (∀ R C : ℕ, 0 < R → 0 < C → C ≤ 100 → ∀ hole : ℕ → ℕ → Bool, (∃ j, j < C ∧ hole 0 j = false) → ∀ g, cutTop (99 / 100 : ℚ) R C hole ⟨0, 0, 0, 0⟩ g = .ok (⟨0, 0, 0, 0⟩, { g with top := true })) ∧
    border (3 / 10 : ℚ) 3 3 (image [[false, true, false], [false, false, false], [false, false, false]]) 13 = some (.ok ⟨1, 0, 0, 0⟩) := by
  refine ⟨?_, by decide +kernel⟩
  rintro R C hR hC hC' hole ⟨j, hj, hj'⟩ g
  unfold cutTop
  have hq : (C : ℚ) ≤ 100 := by exact_mod_cast hC'
  rw [if_neg (show ¬ R ≤ 0 by omega), if_neg]
  rw [mostly_few (by norm_num) (by simpa using hC) (fun j hj => by simp at hj) (fun j hj hj' => by dsimp only at hj; omega) (few_of_value (by linarith) hj hj')]
  simp

/-- Not as documented: with a smaller threshold there are profiles with values for which the loops end with `IndexError`, with nothing left, with a border column that has a larger proportion
of holes than the threshold, and with such a border column although values were removed. -/
theorem C107_small_threshold_wrong :
    border (3 / 5 : ℚ) 1 3 (image [[false, true, true]]) 9 = some (.error .indexError) ∧
    border (3 / 5 : ℚ) 3 3 (image [[true, false, true], [true, true, true], [true, false, true]]) 13 = some (.ok ⟨2, 2, 0, 0⟩) ∧
    border (3 / 5 : ℚ) 3 3 (image [[false, false, true], [false, true, true], [false, true, true]]) 13 = some (.ok ⟨0, 0, 0, 1⟩) ∧
    border (3 / 5 : ℚ) 3 4 (image [[false, false, false, true], [false, true, true, true], [false, true, true, false]]) 15 = some (.ok ⟨0, 1, 0, 1⟩) := by
  decide +kernel

/-! ## Examples -/

/-- The profile of the examples: a frame of holes and a hole inside. -/
def framedProfile : Profile ℚ := ⟨5, 5, fun i j => if i = 0 ∨ 4 ≤ i ∨ j = 0 ∨ 4 ≤ j ∨ (i = 2 ∧ j = 2) then none else some (i + 10 * j)⟩

theorem framedBounds : Bounds 5 5 (fun i j => isHole .auto (framedProfile.value i j)) 1 4 1 4 := by
  refine ⟨fun i j hi hj h => ?_, ⟨1, by decide, by decide, by decide⟩, ⟨1, by decide, by decide, by decide, by decide⟩, ⟨1, by decide, by decide, by decide⟩,
    ⟨1, by decide, by decide, by decide, by decide⟩⟩
  by_contra hne
  simp only [isHole, framedProfile] at h
  rw [if_pos (by omega)] at h
  cases h

/-- The frame is removed at the default threshold. -/
example (inpaint : ℕ → ℕ → (ℕ → ℕ → Option ℚ) → (ℕ → ℕ → Bool) → ℕ → ℕ → Option ℚ) : ∃ out, fillHoles inpaint .auto false true (99 / 100) 21 ⟨framedProfile, false⟩ = some (⟨out, false⟩, .ok none) ∧
    out.rows = 3 ∧ out.cols = 3 := by
  obtain ⟨out, h1, h2, h3, -⟩ := C107_bounds inpaint .auto (thresh := (99 / 100 : ℚ)) (by norm_num) framedProfile (by norm_num [framedProfile]) (by norm_num [framedProfile]) framedBounds (n := 21) (by decide)
  exact ⟨out, h1, h2, h3⟩

/-- The frame condition of `C107_frame_partial` with a threshold below one hole less than a line: every border line of the middle has 2 holes of 5. -/
example : Framed (1 / 2 : ℚ) 5 5 (fun i j => isHole .auto (framedProfile.value i j)) 1 4 1 4 := by
  refine ⟨by decide, by decide, fun i j hi hj h => ?_, ?_, ?_, ?_, ?_⟩
  · simp only [isHole, framedProfile]
    rw [if_pos (by omega)]
    rfl
  all_goals
    have : ∀ m : ℕ, m ≤ 2 → (m : ℚ) ≤ 1 / 2 * (5 : ℕ) := by
      intro m hm
      have : (m : ℚ) ≤ 2 := by exact_mod_cast hm
      norm_num
      linarith
    exact this _ (by decide)

/-- The whole run with the smallest number of passes. -/
example : ∃ r, fillHoles (fun _ _ f _ => f) (.value (0 : ℚ)) true true (99 / 100) 21 ⟨framedProfile, true⟩ = some r := by
  obtain ⟨r, h⟩ := C107_ends (fun _ _ f _ => f) (.value (0 : ℚ)) true true (99 / 100) ⟨framedProfile, true⟩
  exact ⟨r, h 21 (by decide)⟩

/-- A profile of holes only. -/
example : ∃ s, fillHoles (fun _ _ f _ => f) .auto false true (99 / 100 : ℚ) 13 ⟨⟨3, 3, fun _ _ => none⟩, false⟩ = some (s, .error .indexError) := by
  obtain ⟨s, h, -⟩ := C107_all_holes_wrong (fun _ _ f _ => f) .auto false (thresh := (99 / 100 : ℚ)) (by norm_num) ⟨3, 3, fun _ _ => none⟩ (by decide) (fun _ _ _ _ => rfl) (by decide) (n := 13) (by decide)
  exact ⟨s, h⟩

/-- The copy of the profile of the example, and the same without a copy for the inverted surface: both runs end. -/
example : ∃ after copy, fillHoles (fun _ _ f _ => f) .auto true false (99 / 100 : ℚ) 0 ⟨framedProfile, false⟩ = some (after, .ok (some copy)) ∧ after.profile.value 2 2 = some 0 :=
  ⟨_, _, rfl, C107_copy_wrong (fun _ _ f _ => f) .auto false (99 / 100) 0 framedProfile rfl 2 2 (by decide)⟩

/-- The two runs of `C107_inverted_wrong`. -/
example : ∃ after after' copy, fillHoles (fun _ _ f _ => f) .auto false false (99 / 100 : ℚ) 0 ⟨framedProfile, true⟩ = some (after, .ok none) ∧
    fillHoles (fun _ _ f _ => f) .auto true false (99 / 100 : ℚ) 0 ⟨framedProfile, true⟩ = some (after', .ok (some copy)) ∧ after.profile.value 1 1 = some 11 ∧ copy.profile.value 1 1 = some (-11) := by
  refine ⟨_, _, _, rfl, rfl, ?_, ?_⟩ <;> decide +kernel

end Verif.Holes
