import Verif.Contact.First

/-!
# C150: the contact problem has one solution, and what success of the contact solver says about it
-/

namespace Verif.Contact

open Verif Verif.Bccg Finset

variable {ι : Type} [Fintype ι]

/-- Two nodes that influence each other by `c` and themselves by one. -/
noncomputable def pair (c : ℝ) : (Bool → ℝ) →ₗ[ℝ] (Bool → ℝ) where
  toFun u i := u i + c * u (!i)
  map_add' u v := by funext i; simp only [Pi.add_apply]; ring
  map_smul' r u := by funext i; simp only [Pi.smul_apply, smul_eq_mul, RingHom.id_apply]; ring

theorem pair_definite {c : ℝ} (h0 : 0 ≤ c) (h1 : c < 1) : Definite (pair c) := by
  intro w hw
  have e : ∑ i, w i * pair c w i = c * (w true + w false) ^ 2 + (1 - c) * (w true ^ 2 + w false ^ 2) := by
    rw [Fintype.sum_bool]
    simp only [pair, LinearMap.coe_mk, AddHom.coe_mk, Bool.not_true, Bool.not_false]
    ring
  rw [e]
  have hp : 0 < w true ^ 2 + w false ^ 2 := by
    by_contra hn
    have a1 := sq_nonneg (w true)
    have a2 := sq_nonneg (w false)
    refine hw (funext fun i => ?_)
    cases i
    · exact pow_eq_zero_iff (two_ne_zero) |>.1 (by linarith)
    · exact pow_eq_zero_iff (two_ne_zero) |>.1 (by linarith)
  have : 0 ≤ c * (w true + w false) ^ 2 := by positivity
  have : 0 < (1 - c) * (w true ^ 2 + w false ^ 2) := mul_pos (by linarith) hp
  linarith

/-- C150: for bodies that resist every distribution of pressure (the matrix need not be symmetric) the contact problem on any set of nodes, with any overlap and any limits that are not negative, has exactly one solution. -/
theorem C150_one_solution (T : ι → Prop) {L : (ι → ℝ) →ₗ[ℝ] (ι → ℝ)} (hL : Definite L) (b : ι → ℝ) {M : ι → Option ℝ} (hM : ∀ i m, M i = some m → 0 ≤ m) : ∃! u, Solution T L b M u := by
  obtain ⟨u, hu⟩ := exists_solution T hL b hM
  exact ⟨u, hu, fun u' hu' => unique hL hu hu'⟩

/-- Two nodes under unequal overlap with an influence of one half on each other: the load is on the first, which settles by its overlap; the second is then clear of the other body. -/
example : Definite (pair (1 / 2)) ∧ Solution (fun _ => True) (pair (1 / 2)) (fun i => if i then 2 else 1 / 2) (fun _ => some 5) (fun i => if i then 2 else 0) := by
  refine ⟨pair_definite (by norm_num) (by norm_num), ⟨fun i h => absurd trivial h, fun i _ => by cases i <;> norm_num, fun i _ m hm => ?_, fun i _ h => ?_, fun i _ h => ?_⟩⟩
  · cases hm; cases i <;> norm_num
  · cases i
    · rfl
    · norm_num [pair] at h
  · cases i <;> norm_num [pair] at h

/-- The limit of the pressure as the solver is given it. -/
def limitOf : XR → Option ℝ
  | .fin m => some m
  | _ => none

/-- C150: how far the pressures of a success are from the solution is bounded by the residuals at the nodes that are not held on a bound, up to terms of the order `1e-14`. Missing: a bound for these residuals; the tolerance gives none,
`C150_tolerance_wrong`. -/
theorem C150_distance_partial (a : Args XR ι) (L : (ι → ℝ) →ₗ[ℝ] (ι → ℝ)) (hf : ActsAs a.f L) (b : ι → ℝ) (hb : a.b = fun i => .fin (b i)) (hm : PosMax a.maxP) (hmin : a.minP = .fin 0)
    (hsucc : (bccg exact a).failed = false) {c : ℝ} (hc : ∀ w : ι → ℝ, c * ∑ i, w i ^ 2 ≤ ∑ i, w i * L w i) {v : ι → ℝ} (hv : Solution (fun _ => True) L b (fun i => limitOf (a.maxP i)) v) :
    ∃ u : ι → ℝ, (bccg exact a).x = (fun i => .fin (u i)) ∧
      c * ∑ i, (u i - v i) ^ 2 ≤ (∑ i with (bccg exact a).msk0 i = false ∧ (bccg exact a).mskMax i = false, |u i - v i| * |L u i - b i|) +
        1 / 10 ^ 14 * ∑ i, (v i + |u i| + |L v i - b i| * (1 + v i)) := by
  obtain ⟨u, hu, -, h0, hM, hlow⟩ := C14_sign_conditions a L hf b hb hm hmin hsucc
  refine ⟨u, hu, ?_⟩
  have hup : ∀ i m, limitOf (a.maxP i) = some m → u i ≤ m * (1 + 1 / 10 ^ 14) := by
    intro i m hi
    have e : a.maxP i = .fin m := by
      cases hp : a.maxP i <;> rw [hp] at hi <;> cases hi
      rfl
    have hm' : ∀ j, a.maxP j = .pinf ∨ (a.maxP j = .fin ((limitOf (a.maxP j)).getD 0) ∧ 0 < (limitOf (a.maxP j)).getD 0) := by
      intro j
      rcases hm j with h | ⟨q, hq, h⟩
      · exact Or.inl h
      · right; rw [h]; exact ⟨rfl, hq⟩
    have := (C13_finite_pressures_admissible a _ hm' (Or.inr hsucc) i (u i) (by rw [hu])).2
    rw [e] at this
    exact this rfl
  have hε : (0 : ℝ) < 1 / 10 ^ 14 := by positivity
  generalize (1 : ℝ) / 10 ^ 14 = ε at *
  have hw := hc fun i => u i - v i
  refine hw.trans ?_
  rw [mul_sum, sum_filter, ← sum_add_distrib]
  refine sum_le_sum fun i _ => ?_
  have e : L (fun i => u i - v i) i = (L u i - b i) - (L v i - b i) := by
    have : (fun i => u i - v i) = u - v := rfl
    rw [this, map_sub, Pi.sub_apply]; ring
  rw [e]
  have n := hv.nonneg i trivial
  have part2 : -((u i - v i) * (L v i - b i)) ≤ ε * (|L v i - b i| * (1 + v i)) := by
    rcases lt_trichotomy (b i) (L v i) with hg | hg | hg
    · have z := hv.gap i trivial hg
      rw [z, abs_of_pos (sub_pos.2 hg)]
      nlinarith [hlow i]
    · rw [hg]; simp
    · have z := hup i _ (hv.overlap i trivial hg)
      rw [abs_of_neg (sub_neg.2 hg)]
      nlinarith [mul_nonneg hε.le (sub_pos.2 hg).le]
  have part1 : (u i - v i) * (L u i - b i) ≤ (if (bccg exact a).msk0 i = false ∧ (bccg exact a).mskMax i = false then |u i - v i| * |L u i - b i| else 0) + ε * (v i + |u i|) := by
    have ha : 0 ≤ |u i| := abs_nonneg _
    by_cases k0 : (bccg exact a).msk0 i = true
    · rw [if_neg (by simp [k0])]
      obtain ⟨z, hz⟩ := h0 i k0
      rw [z, abs_zero]
      nlinarith
    · by_cases kM : (bccg exact a).mskMax i = true
      · rw [if_neg (by simp [kM])]
        obtain ⟨z, hz⟩ := hM i kM
        have hlim := hv.limit i trivial (u i) (by rw [z]; rfl)
        have : u i ≤ |u i| := le_abs_self _
        nlinarith
      · rw [if_pos ⟨by simpa using k0, by simpa using kM⟩]
        have := le_abs_self ((u i - v i) * (L u i - b i))
        rw [abs_mul] at this
        nlinarith
  nlinarith [part1, part2]

/-- The spring of `Verif.Bccg.springArgs` succeeds, and its solution is the pressure one. -/
example : ActsAs springArgs.f LinearMap.id ∧ (∀ w : Unit → ℝ, 1 * ∑ i, w i ^ 2 ≤ ∑ i, w i * LinearMap.id (R := ℝ) w i) ∧
    Solution (fun _ => True) LinearMap.id (fun _ => 1) (fun i => limitOf (springArgs.maxP i)) (fun _ : Unit => 1) := by
  refine ⟨fun u => rfl, fun w => by simp [sq], ⟨fun i h => absurd trivial h, fun i _ => by norm_num, fun i _ m hm => ?_, fun i _ h => ?_, fun i _ h => ?_⟩⟩
  · simp [springArgs, limitOf] at hm
  · simp at h
  · simp at h

/-- C150: however small the tolerance, there are two equal nodes with positive influence on each other, an overlap and a positive start such that the solver reports success although the two pressures are nearly equal and in the
solution nearly all of the load is on one node: both pressures are off by at least 0.9. -/
theorem C150_tolerance_wrong {tol : ℝ} (ht : 0 < tol) : ∃ (c : ℝ) (a : Args XR Bool) (b v : Bool → ℝ), 0 < c ∧ c < 1 ∧ ActsAs a.f (pair c) ∧ (a.b = fun i => .fin (b i)) ∧ (∀ i, 0 < b i) ∧
    a.minP = .fin 0 ∧ (a.maxP = fun _ => .pinf) ∧ a.tol = .fin tol ∧ a.kInn = 1 ∧ (a.x0 = fun _ => .fin 1) ∧ Solution (fun _ => True) (pair c) b (fun _ => none) v ∧
    (bccg exact a).failed = false ∧ ∃ u : Bool → ℝ, (bccg exact a).x = (fun i => .fin (u i)) ∧ (∀ i, 9 / 10 ≤ |u i - v i|) ∧ v true = 2 + v false ∧ v false ≤ 1 / 100 := by
  obtain ⟨t, ht0, ht1, ht2⟩ : ∃ t : ℝ, 0 < t ∧ t ≤ 1 / 100 ∧ 8 * t ≤ tol := ⟨min (1 / 100) (tol / 8), by positivity, min_le_left _ _, by linarith [min_le_right (1 / 100) (tol / 8)]⟩
  obtain ⟨v, hv⟩ : ∃ v : Bool → ℝ, v = fun i => if i then 2 + t else t := ⟨_, rfl⟩
  obtain ⟨x, hx⟩ : ∃ x : Bool → ℝ, x = fun _ => 1 := ⟨_, rfl⟩
  obtain ⟨L, hL⟩ : ∃ L, L = pair (1 - t) := ⟨_, rfl⟩
  obtain ⟨r, hr⟩ : ∃ r : Bool → ℝ, r = fun i => L v i - L x i := ⟨_, rfl⟩
  have r1 : r true = t * (2 - t) + t := by simp [hr, hL, hv, hx, pair]; ring
  have r2 : r false = t * (2 - t) - t := by simp [hr, hL, hv, hx, pair]; ring
  have hr1 : 0 < r true := by rw [r1]; nlinarith
  have hr2 : 0 < r false := by rw [r2]; nlinarith
  have hb1 : r true ≤ 3 * t := by rw [r1]; nlinarith
  have hb2 : r false ≤ t := by rw [r2]; nlinarith
  have hLr : ∀ i, r i ≤ L r i := by
    intro i
    have : L r i = r i + (1 - t) * r (!i) := by rw [hL]; rfl
    rw [this]
    cases i
    · have : 0 ≤ (1 - t) * r true := mul_nonneg (by linarith) hr1.le
      simpa using this
    · have : 0 ≤ (1 - t) * r false := mul_nonneg (by linarith) hr2.le
      simpa using this
  have hrp : ∀ i, 0 < r i := fun i => by cases i <;> assumption
  have hss : 0 < ∑ i, r i * r i := sum_pos (fun i _ => mul_pos (hrp i) (hrp i)) univ_nonempty
  have hsq : ∑ i, r i * r i ≤ ∑ i, r i * L r i := sum_le_sum fun i _ => mul_le_mul_of_nonneg_left (hLr i) (hrp i).le
  have hα0 : 0 ≤ stepLength L r := div_nonneg hss.le (hss.le.trans hsq)
  have hα1 : stepLength L r ≤ 1 := div_le_one_of_le₀ hsq (hss.le.trans hsq)
  obtain ⟨y, hy⟩ : ∃ y : Bool → ℝ, y = fun i => x i + stepLength L r * r i := ⟨_, rfl⟩
  have hs0 : ∀ i, 0 ≤ stepLength L r * r i := fun i => mul_nonneg hα0 (hrp i).le
  have hs1 : ∀ i, stepLength L r * r i ≤ 3 * t := fun i => (mul_le_of_le_one_left (hrp i).le hα1).trans (by cases i <;> linarith)
  have hy1 : ∀ i, 1 ≤ y i := fun i => by rw [hy, hx]; simpa using hs0 i
  have hy2 : ∀ i, y i ≤ 1 + 3 * t := fun i => by rw [hy, hx]; simpa using hs1 i
  have htol : Real.sqrt (∑ i, (y i - x i) * (y i - x i)) / Real.sqrt (∑ i, y i * y i) < tol := by
    have k1 : Real.sqrt (∑ i, (y i - x i) * (y i - x i)) ≤ 6 * t := by
      rw [Real.sqrt_le_left (by linarith), Fintype.sum_bool]
      have a1 := hy1 true; have a2 := hy1 false; have a3 := hy2 true; have a4 := hy2 false
      rw [hx]
      nlinarith
    have k2 : 1 ≤ Real.sqrt (∑ i, y i * y i) := by
      rw [Real.one_le_sqrt, Fintype.sum_bool]
      nlinarith [hy1 true, hy1 false]
    rw [div_lt_iff₀ (by linarith)]
    nlinarith
  obtain ⟨a, ha⟩ : ∃ a : Args XR Bool, a = { f := fun p i => p i + .fin (1 - t) * p (!i), b := fun i => .fin (L v i), tol := .fin tol, maxIt := 100, x0 := fun _ => .fin 1, minP := .fin 0, maxP := fun _ => .pinf, kInn := 1 } := ⟨_, rfl⟩
  have hacts : ActsAs a.f L := by
    intro u
    subst ha hL
    funext i
    simp [pair]
  have hfree : Free a L (fun i => L v i) x := by
    subst ha hx
    exact ⟨hacts, rfl, rfl, rfl, rfl, fun _ => one_pos, rfl⟩
  obtain ⟨hs, hxx⟩ := free_step hfree hr (hss.trans_le hsq).ne' hy (fun i => one_pos.trans_le (hy1 i)) (by subst ha; norm_num) (by subst ha; simpa [XR.lt] using htol)
  have hvp : ∀ i, 0 < v i := fun i => by rw [hv]; cases i <;> simp <;> linarith
  refine ⟨1 - t, a, fun i => L v i, v, by linarith, by linarith, hL ▸ hacts, by subst ha; rfl, fun i => ?_, by subst ha; rfl, by subst ha; rfl, by subst ha; rfl, by subst ha; rfl, by subst ha; rfl, ?_, hs, y, hxx, fun i => ?_, ?_, ?_⟩
  · have : L v i = v i + (1 - t) * v (!i) := by rw [hL]; rfl
    show 0 < L v i
    rw [this]
    have := mul_pos (by linarith : (0 : ℝ) < 1 - t) (hvp (!i))
    linarith [hvp i]
  · rw [← hL]
    exact ⟨fun i h => absurd trivial h, fun i _ => (hvp i).le, fun i _ m hm => (by cases hm), fun i _ h => absurd h (lt_irrefl _), fun i _ h => absurd h (lt_irrefl _)⟩
  · cases i
    · have : v false = t := by rw [hv]; simp
      rw [this, abs_of_nonneg (by linarith [hy1 false])]
      linarith [hy1 false]
    · have : v true = 2 + t := by rw [hv]; simp
      rw [this, abs_of_nonpos (by linarith [hy2 true])]
      linarith [hy2 true]
  · rw [hv]; simp
  · rw [hv]; simpa using ht1

example := C150_tolerance_wrong (tol := 1e-9) (by norm_num)

end Verif.Contact
