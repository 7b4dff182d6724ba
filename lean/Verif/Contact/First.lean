import Verif.Contact.Lemmas
import Verif.Bccg.Props

/-!
# The first step of the contact solver from a positive start without limits
-/

namespace Verif.Contact

open Verif Verif.Bccg Finset

variable {ι : Type} [Fintype ι] [Nonempty ι]

/-- A call with positive pressures to start with, no largest pressure and the default number of inner iterations. -/
structure Free (a : Args XR ι) (L : (ι → ℝ) →ₗ[ℝ] (ι → ℝ)) (b x : ι → ℝ) : Prop where
  acts : ActsAs a.f L
  rhs : a.b = fun i => .fin (b i)
  max : a.maxP = fun _ => .pinf
  min : a.minP = .fin 0
  start : a.x0 = fun i => .fin (x i)
  positive : ∀ i, 0 < x i
  inner : a.kInn = 1

theorem free_init {a : Args XR ι} {L : (ι → ℝ) →ₗ[ℝ] (ι → ℝ)} {b x : ι → ℝ} (h : Free a L b x) :
    init exact a = ⟨fun i => .fin (x i), fun i => .fin (L x i - b i), fun _ => .fin 0, fun _ => .fin 0, .fin 0, fun _ => false, fun _ => false, Fintype.card ι, 0, 0⟩ := by
  have i1 : (init exact a).x = fun i => .fin (x i) := by
    show (fun i => (exact (ι := ι)).clip (a.x0 i) a.minP (a.maxP i)) = _
    funext i
    rw [h.start, h.min, h.max]
    simp [exact, XR.lt, (h.positive i).le]
  have i2 : (init exact a).g = fun i => .fin (L x i - b i) := by
    have : (init exact a).g = fun i => a.f (init exact a).x i - a.b i := rfl
    rw [this, i1, h.acts x, h.rhs]
    simp
  have i3 : (init exact a).msk0 = fun _ => false := by
    have : (init exact a).msk0 = fun i => XR.le ((init exact a).x i) (.fin 0) && XR.le (.fin 0) ((init exact a).g i) := rfl
    rw [this, i1]
    funext i
    simp [XR.le, h.positive i]
  have i4 : (init exact a).mskMax = fun _ => false := by
    have : (init exact a).mskMax = fun i => XR.le (a.maxP i) ((init exact a).x i) && XR.le ((init exact a).g i) (.fin 0) := rfl
    rw [this, i1, h.max]
    funext i
    simp [XR.le]
  have i5 : (init exact a).nFree = Fintype.card ι := by
    have : (init exact a).nFree = freeCount (init exact a).msk0 (init exact a).mskMax := rfl
    rw [this, i3, i4]
    simp [freeCount]
  have : init exact a = ⟨(init exact a).x, (init exact a).g, fun _ => .fin 0, fun _ => .fin 0, .fin 0, (init exact a).msk0, (init exact a).mskMax, (init exact a).nFree, 0, 0⟩ := rfl
  rw [this, i1, i2, i3, i4, i5]

/-- The length of the step of steepest descent. -/
noncomputable def stepLength (L : (ι → ℝ) →ₗ[ℝ] (ι → ℝ)) (r : ι → ℝ) : ℝ := (∑ i, r i * r i) / ∑ i, r i * L r i

theorem free_search {a : Args XR ι} {L : (ι → ℝ) →ₗ[ℝ] (ι → ℝ)} {b x r y : ι → ℝ} (h : Free a L b x) (hr : r = fun i => b i - L x i) (hq : ∑ i, r i * L r i ≠ 0)
    (hy : y = fun i => x i + stepLength L r * r i) (hpos : ∀ i, 0 < y i) :
    (search exact a (init exact a)).x = (fun i => .fin (y i)) ∧
      (search exact a (init exact a)).upd = XR.lt (.fin (Real.sqrt (∑ i, (y i - x i) * (y i - x i)) / Real.sqrt (∑ i, y i * y i))) a.tol := by
  obtain ⟨s, hs0⟩ : ∃ s, s = init exact a := ⟨_, rfl⟩
  have hs := hs0.trans (free_init h)
  rw [← hs0]
  have hr1 : (search exact a s).r = fun i => .fin (r i) := by
    subst hs hr
    funext i
    simp [search, exact]
  have hp : (search exact a s).p = fun i => .fin (r i) := by
    have : (search exact a s).p = fun i => if (s.msk0 i || s.mskMax i) = true then XR.fin 0 else (search exact a s).r i := by
      subst hs
      simp only [search, zero_add, lt_irrefl, if_false]
      rfl
    rw [this, hr1]
    subst hs
    simp
  have hq1 : (search exact a s).q = fun i => .fin (L r i) := by
    have : (search exact a s).q = fun i => if (decide (s.itInn + 1 < a.kInn) && (s.msk0 i || s.mskMax i)) = true then XR.nan else a.f (search exact a s).p i := rfl
    rw [this, hp, h.acts r]
    subst hs
    simp
  have ha : (search exact a s).alpha = .fin (stepLength L r) := by
    have : (search exact a s).alpha = (∑ i, (search exact a s).r i * (search exact a s).p i) / ∑ i, (search exact a s).p i * (search exact a s).q i := rfl
    rw [this, hr1, hp, hq1]
    simp only [XR.fin_mul, XR.sum_fin]
    rw [XR.fin_div _ hq]
    rfl
  have hx : (search exact a s).x = fun i => .fin (y i) := by
    have : (search exact a s).x = fun i => s.x i + (search exact a s).alpha * (search exact a s).p i := rfl
    rw [this, ha, hp]
    subst hs hy
    funext i
    simp only [XR.fin_mul, XR.fin_add]
  refine ⟨hx, ?_⟩
  have : (search exact a s).upd = XR.lt (XR.sqrt (∑ i, ((search exact a s).x i - s.x i) * ((search exact a s).x i - s.x i)) / XR.sqrt (.fin s.nFree) /
    (XR.sqrt (∑ i, (search exact a s).x i * (search exact a s).x i) / XR.sqrt (.fin s.nFree))) a.tol := rfl
  rw [this, hx]
  subst hs
  have hc : (0 : ℝ) < Fintype.card ι := by exact_mod_cast Fintype.card_pos
  have hn : (0 : ℝ) < Real.sqrt (Fintype.card ι) := Real.sqrt_pos.2 hc
  have h1 : ¬ ((∑ i, (y i - x i) * (y i - x i)) < 0) := not_lt.mpr (sum_nonneg fun i _ => mul_self_nonneg _)
  have h2 : ¬ ((∑ i, y i * y i) < 0) := not_lt.mpr (sum_nonneg fun i _ => mul_self_nonneg _)
  have h3 : 0 < ∑ i, y i * y i := sum_pos (fun i _ => mul_pos (hpos i) (hpos i)) univ_nonempty
  have h4 : 0 < Real.sqrt (∑ i, y i * y i) := Real.sqrt_pos.2 h3
  simp only [XR.fin_sub, XR.fin_mul, XR.sum_fin, XR.sqrt, if_neg h1, if_neg h2, Int.cast_natCast]
  rw [if_neg (not_lt.2 hc.le), XR.fin_div _ hn.ne', XR.fin_div _ hn.ne', XR.fin_div _ (by positivity), div_div_div_cancel_right₀ hn.ne']

/-- If the first step keeps the pressures positive and is below the tolerance, the solver reports success after it. -/
theorem free_step {a : Args XR ι} {L : (ι → ℝ) →ₗ[ℝ] (ι → ℝ)} {b x r y : ι → ℝ} (h : Free a L b x) (hr : r = fun i => b i - L x i) (hq : ∑ i, r i * L r i ≠ 0)
    (hy : y = fun i => x i + stepLength L r * r i) (hpos : ∀ i, 0 < y i) (hmax : 1 ≤ a.maxIt)
    (htol : XR.lt (.fin (Real.sqrt (∑ i, (y i - x i) * (y i - x i)) / Real.sqrt (∑ i, y i * y i))) a.tol = true) :
    (bccg exact a).failed = false ∧ (bccg exact a).x = fun i => .fin (y i) := by
  have hs := free_init h
  obtain ⟨c6, c7⟩ := free_search h hr hq hy hpos
  rw [htol] at c7
  have hp0' : ∀ i, (exact (ι := ι)).lt ((search exact a (init exact a)).x i) ((exact (ι := ι)).neg (exact (ι := ι)).small) = false := fun i => by
    show XR.lt _ (-.fin (1 / 10 ^ 14)) = false
    rw [c6]
    simp [XR.lt]
    have : (0 : ℝ) < (10 ^ 14)⁻¹ := by positivity
    linarith [hpos i]
  have hpM' : ∀ i, (exact (ι := ι)).le ((exact (ι := ι)).mul (a.maxP i) (exact (ι := ι)).onePlusSmall) ((search exact a (init exact a)).x i) = false := fun i => by
    show XR.le (a.maxP i * .fin (1 + 1 / 10 ^ 14)) _ = false
    have hp0 : (0 : ℝ) < 1 + 1 / 10 ^ 14 := by positivity
    rw [c6, h.max]
    simp only [XR.mul_def, XR.mul, XR.signInf, if_pos hp0]
    rfl
  have hm : (init exact a).msk0 = (fun _ => false) ∧ (init exact a).mskMax = (fun _ => false) ∧ (init exact a).nFree = Fintype.card ι := by rw [hs]; exact ⟨rfl, rfl, rfl⟩
  have hit : (iterate exact a (init exact a)).2 = ⟨true, false, true⟩ := by
    unfold iterate
    simp only [project, hp0', hpM', hm.1, hm.2.1, h.inner, Bool.and_false, Bool.or_false, Bool.false_and, Bool.false_eq_true, exists_const, decide_false, c7]
    simp
    exact ⟨hpM', fun i hi => absurd hi (by rw [hpM' i]; simp)⟩
  have hfree : (iterate exact a (init exact a)).1.nFree = Fintype.card ι := by
    have : (iterate exact a (init exact a)).1.nFree = if (iterate exact a (init exact a)).2.changed then
        freeCount (iterate exact a (init exact a)).1.msk0 (iterate exact a (init exact a)).1.mskMax else (init exact a).nFree := rfl
    rw [this, hit, hm.2.2]
    simp
  have hi1 : (iterate exact a (init exact a)).1.it = 1 := by
    have : (iterate exact a (init exact a)).1.it = (init exact a).it + 1 := rfl
    rw [this, hs]
    rfl
  have hx1 : (iterate exact a (init exact a)).1.x = fun i => .fin (y i) := by
    unfold iterate
    simp only [project, hp0', hpM', Bool.and_false, Bool.false_eq_true, if_false]
    exact c6
  unfold bccg
  rw [loop]
  simp only [hfree, hi1, hit]
  rw [if_neg (by exact_mod_cast Fintype.card_ne_zero), if_neg (by omega), if_pos (by rfl)]
  exact ⟨rfl, hx1⟩

end Verif.Contact
