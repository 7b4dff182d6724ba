import Verif.Bccg.Props

/-!
# C15, negation: one node

With one node the first step of the solver hits the solution exactly; unless that step is already below the tolerance, the next step divides zero by zero.
-/

namespace Verif.Bccg

open Verif

variable {ι : Type} [Fintype ι] [Unique ι]

/-- The problem for one spring of compliance `K`. -/
structure OneSpring (a : Args XR ι) (K b x : ℝ) : Prop where
  acts : ∀ u : ℝ, a.f (fun _ => .fin u) = fun _ => .fin (K * u)
  rhs : a.b = fun _ => .fin b
  max : a.maxP = fun _ => .pinf
  start : ∃ p y : ℝ, a.minP = .fin p ∧ (a.x0 = fun _ => .fin y) ∧ Max.max y p = x
  inner : a.kInn = 1

/-- With the minimum pressure zero and a start that is not negative. -/
theorem OneSpring.ofZero {a : Args XR ι} {K b x : ℝ} (hx : 0 ≤ x) (acts : ∀ u : ℝ, a.f (fun _ => .fin u) = fun _ => .fin (K * u)) (rhs : a.b = fun _ => .fin b) (hmin : a.minP = .fin 0)
    (hmax : a.maxP = fun _ => .pinf) (start : a.x0 = fun _ => .fin x) (inner : a.kInn = 1) : OneSpring a K b x :=
  ⟨acts, rhs, hmax, ⟨0, x, hmin, start, max_eq_left hx⟩, inner⟩

theorem one_init (a : Args XR ι) {K b x : ℝ} (h : OneSpring a K b x) (hx : 0 < x) :
    init exact a = ⟨fun _ => .fin x, fun _ => .fin (K * x - b), fun _ => .fin 0, fun _ => .fin 0, .fin 0, fun _ => false, fun _ => false, 1, 0, 0⟩ := by
  have e : (fun i => (exact (ι := ι)).clip (a.x0 i) a.minP (a.maxP i)) = fun _ : ι => XR.fin x := by
    funext i
    obtain ⟨p, y, h1, h2, h3⟩ := h.start
    rw [h2, h1, h.max, ← h3]
    by_cases hyp : y < p
    · simp [exact, XR.lt, hyp, max_eq_right hyp.le]
    · simp [exact, XR.lt, hyp, max_eq_left (not_lt.1 hyp)]
  have h1 : XR.le (.fin x) (.fin 0) = false := by simp [XR.le, hx]
  have h2 : XR.le .pinf (.fin x) = false := rfl
  have i1 : (init exact a).x = fun _ => .fin x := e
  have i2 : (init exact a).g = fun _ => .fin (K * x - b) := by
    have : (init exact a).g = fun i => a.f (init exact a).x i - a.b i := rfl
    rw [this, i1, h.acts, h.rhs]
    simp
  have i3 : (init exact a).msk0 = fun _ => false := by
    have : (init exact a).msk0 = fun i => XR.le ((init exact a).x i) (.fin 0) && XR.le (.fin 0) ((init exact a).g i) := rfl
    rw [this, i1]
    simp [h1]
  have i4 : (init exact a).mskMax = fun _ => false := by
    have : (init exact a).mskMax = fun i => XR.le (a.maxP i) ((init exact a).x i) && XR.le ((init exact a).g i) (.fin 0) := rfl
    rw [this, i1, h.max]
    simp [h2]
  have i5 : (init exact a).nFree = 1 := by
    have : (init exact a).nFree = freeCount (init exact a).msk0 (init exact a).mskMax := rfl
    rw [this, i3, i4]
    simp [freeCount]
  have : init exact a = ⟨(init exact a).x, (init exact a).g, fun _ => .fin 0, fun _ => .fin 0, .fin 0, (init exact a).msk0, (init exact a).mskMax, (init exact a).nFree, 0, 0⟩ := rfl
  rw [this, i1, i2, i3, i4, i5]

theorem one_search (a : Args XR ι) {K b x : ℝ} (h : OneSpring a K b x) (hK : 0 < K) (hb : 0 < b) (hne : K * x ≠ b) (s : St XR ι)
    (hs : s = ⟨fun _ => .fin x, fun _ => .fin (K * x - b), fun _ => .fin 0, fun _ => .fin 0, .fin 0, fun _ => false, fun _ => false, 1, 0, 0⟩) :
    (search exact a s).r = (fun _ => .fin (b - K * x)) ∧ (search exact a s).rho = .fin ((b - K * x) * (b - K * x)) ∧ (search exact a s).p = (fun _ => .fin (b - K * x)) ∧
      (search exact a s).q = (fun _ => .fin (K * (b - K * x))) ∧ (search exact a s).alpha = .fin (1 / K) ∧ (search exact a s).x = (fun _ => .fin (b / K)) ∧
      (search exact a s).upd = XR.lt (.fin (|b - K * x| / b)) a.tol := by
  have hne' : b - K * x ≠ 0 := fun h0 => hne (by linarith)
  have hr : (search exact a s).r = fun _ => .fin (b - K * x) := by
    subst hs
    funext i
    simp [search, exact]
  have hp : (search exact a s).p = fun _ => .fin (b - K * x) := by
    have : (search exact a s).p = fun i => if (s.msk0 i || s.mskMax i) = true then XR.fin 0 else (search exact a s).r i := by
      subst hs
      simp only [search, zero_add, lt_irrefl, if_false]
      rfl
    rw [this, hr]
    subst hs
    simp
  have hq : (search exact a s).q = fun _ => .fin (K * (b - K * x)) := by
    have : (search exact a s).q = fun i => if (decide (s.itInn + 1 < a.kInn) && (s.msk0 i || s.mskMax i)) = true then XR.nan else a.f (search exact a s).p i := rfl
    rw [this, hp, h.acts]
    subst hs
    simp
  have hrho : (search exact a s).rho = .fin ((b - K * x) * (b - K * x)) := by
    have : (search exact a s).rho = ∑ i, (search exact a s).r i * (search exact a s).r i := rfl
    rw [this, hr]
    simp
  have ha : (search exact a s).alpha = .fin (1 / K) := by
    have : (search exact a s).alpha = (∑ i, (search exact a s).r i * (search exact a s).p i) / ∑ i, (search exact a s).p i * (search exact a s).q i := rfl
    rw [this, hr, hp, hq]
    simp only [XR.fin_mul, Finset.univ_unique, Finset.sum_singleton]
    rw [XR.fin_div _ (by positivity)]
    congr 1
    field_simp
  have hx : (search exact a s).x = fun _ => .fin (b / K) := by
    have : (search exact a s).x = fun i => s.x i + (search exact a s).alpha * (search exact a s).p i := rfl
    rw [this, ha, hp]
    subst hs
    funext i
    simp only [XR.fin_mul, XR.fin_add, XR.fin_inj]
    field_simp
    ring
  refine ⟨hr, hrho, hp, hq, ha, hx, ?_⟩
  have : (search exact a s).upd = XR.lt (XR.sqrt (∑ i, ((search exact a s).x i - s.x i) * ((search exact a s).x i - s.x i)) / XR.sqrt (.fin s.nFree) /
    (XR.sqrt (∑ i, (search exact a s).x i * (search exact a s).x i) / XR.sqrt (.fin s.nFree))) a.tol := rfl
  rw [this, hx]
  subst hs
  have hd : (0 : ℝ) < b / K := by positivity
  have h1 : ¬ ((b / K - x) * (b / K - x) < 0) := not_lt.mpr (mul_self_nonneg _)
  have h2 : ¬ (b / K * (b / K) < 0) := not_lt.mpr (mul_self_nonneg _)
  have h3 : Real.sqrt (b / K * (b / K)) = b / K := Real.sqrt_mul_self hd.le
  have h4 : Real.sqrt ((b / K - x) * (b / K - x)) = |b / K - x| := Real.sqrt_mul_self_eq_abs _
  have e : |b / K - x| / (b / K) = |b - K * x| / b := by
    have : b - K * x = K * (b / K - x) := by field_simp
    rw [this, abs_mul, abs_of_pos hK]
    field_simp
  simp only [XR.fin_sub, XR.fin_mul, Finset.univ_unique, Finset.sum_singleton, XR.sqrt, if_neg h1, if_neg h2, h3, h4, Int.cast_one, Real.sqrt_one]
  rw [if_neg (by norm_num), XR.fin_div _ one_ne_zero, XR.fin_div _ one_ne_zero, XR.fin_div _ (by rw [div_one]; exact hd.ne'), div_one, div_one, e]

/-- The state after the step that hits the solution. -/
def Hit (s : St XR ι) : Prop :=
  (∀ i, s.g i = .fin 0) ∧ (∀ i, s.msk0 i = false) ∧ (∀ i, s.mskMax i = false) ∧ (∃ p : ℝ, s.p = fun _ => .fin p) ∧ (∃ r : ℝ, s.r = fun _ => .fin r) ∧
    (∃ rho : ℝ, rho ≠ 0 ∧ s.rho = .fin rho) ∧ 1 ≤ s.it

theorem hit_search (a : Args XR ι) (s : St XR ι) (h : Hit s) (hlin : a.f (fun _ => .fin 0) = fun _ => .fin 0) : ∀ i, (search exact a s).x i = .nan := by
  obtain ⟨hg, h0, hM, ⟨p, hp⟩, ⟨r, hr⟩, ⟨rho, hne, hrho⟩, hit⟩ := h
  have e1 : (search exact a s).r = fun _ => .fin 0 := by
    funext i
    have : (search exact a s).r i = if (s.msk0 i || s.mskMax i) = true then XR.fin 0 else -s.g i := rfl
    rw [this, h0, hM, hg]
    simp
  have e2 : (search exact a s).p = fun _ => .fin 0 := by
    have hlt : 1 < s.it + 1 := by omega
    have : (search exact a s).p = fun i => if (s.msk0 i || s.mskMax i) = true then XR.fin 0 else
        (search exact a s).r i + (exact (ι := ι)).maxZero (((∑ i, (search exact a s).r i * (search exact a s).r i) - ∑ i, (search exact a s).r i * s.r i) / s.rho) * s.p i := by
      simp only [search, if_pos hlt]
      rfl
    rw [this, e1, hr, hrho, hp]
    funext i
    rw [h0, hM]
    simp [XR.fin_div _ hne, exact]
  have ea : (search exact a s).alpha = .nan := by
    have : (search exact a s).alpha = (∑ i, (search exact a s).r i * (search exact a s).p i) / ∑ i, (search exact a s).p i * (search exact a s).q i := rfl
    have eq : (search exact a s).q = fun i => if (decide (s.itInn + 1 < a.kInn) && (s.msk0 i || s.mskMax i)) = true then XR.nan else a.f (search exact a s).p i := rfl
    rw [this, eq, e1, e2, hlin]
    simp [h0, hM, XR.div_def, XR.div, XR.signInf]
  intro i
  have : (search exact a s).x i = s.x i + (search exact a s).alpha * (search exact a s).p i := rfl
  rw [this, ea, XR.nan_mul, XR.add_nan]

theorem one_next (a : Args XR ι) {K b x : ℝ} (h : OneSpring a K b x) (hK : 0 < K) (hb : 0 < b) (hx : 0 < x) (hne : K * x ≠ b) : Hit (next exact a (init exact a)) := by
  have hs := one_init a h hx
  obtain ⟨c1, c2, c3, c4, c5, c6, c7⟩ := one_search a h hK hb hne (init exact a) hs
  have hd : (0 : ℝ) < b / K := by positivity
  have hn : next exact a (init exact a) = { (project exact a (init exact a) (search exact a (init exact a))).1 with
    itInn := if (iterate exact a (init exact a)).2.outer then 0 else (iterate exact a (init exact a)).1.itInn } := rfl
  have hprj0 : ∀ i, XR.lt ((search exact a (init exact a)).x i) (-.fin (1 / 10 ^ 14)) = false := fun i => by
    rw [c6]
    simp [XR.lt]
    have : (0 : ℝ) < (10 ^ 14)⁻¹ := by positivity
    linarith
  have hprjM : ∀ i, XR.le (a.maxP i * .fin (1 + 1 / 10 ^ 14)) ((search exact a (init exact a)).x i) = false := fun i => by
    have hp0 : (0 : ℝ) < 1 + 1 / 10 ^ 14 := by positivity
    rw [c6, h.max]
    simp only [XR.mul_def, XR.mul, XR.signInf, if_pos hp0]
    rfl
  rw [hn]
  generalize hc : search exact a (init exact a) = c at *
  have hne' : (b - K * x) * (b - K * x) ≠ 0 := mul_self_ne_zero.mpr fun h0 => hne (by linarith)
  have hp0' : ∀ i, (exact (ι := ι)).lt (c.x i) ((exact (ι := ι)).neg (exact (ι := ι)).small) = false := hprj0
  have hpM' : ∀ i, (exact (ι := ι)).le ((exact (ι := ι)).mul (a.maxP i) (exact (ι := ι)).onePlusSmall) (c.x i) = false := hprjM
  have hg : ∀ i, (project exact a (init exact a) c).1.g i = .fin 0 := fun i => by
    simp only [project, h.inner, hp0', hpM', Bool.and_false, Bool.false_eq_true, if_false, exists_false, decide_false, Bool.or_self, lt_irrefl]
    rw [hs, c5, c4]
    show XR.fin (K * x - b) + XR.fin (1 / K) * XR.fin (K * (b - K * x)) = XR.fin 0
    simp only [XR.fin_mul, XR.fin_add, XR.fin_inj]
    field_simp
    ring
  have hm0 : ∀ i, (project exact a (init exact a) c).1.msk0 i = false := fun i => by
    simp only [project, hp0', Bool.and_false, Bool.or_false]
    rw [hs]
    simp
  have hmM : ∀ i, (project exact a (init exact a) c).1.mskMax i = false := fun i => by
    simp only [project, hp0', hpM', Bool.and_false, Bool.or_false, Bool.false_eq_true, if_false]
    rw [hs]
    simp
  refine ⟨hg, hm0, hmM, ⟨b - K * x, c3⟩, ⟨b - K * x, c1⟩, ⟨_, hne', c2⟩, ?_⟩
  show 1 ≤ (init exact a).it + 1
  rw [hs]
  norm_num

/-- With no further iterations the result is the solution. -/
theorem one_first (a : Args XR ι) {K b x : ℝ} (h : OneSpring a K b x) (hK : 0 < K) (hb : 0 < b) (hx : 0 < x) (hne : K * x ≠ b) (hmax : a.maxIt < 1) :
    (bccg exact a).x = fun _ => .fin (b / K) := by
  have hs := one_init a h hx
  obtain ⟨c1, c2, c3, c4, c5, c6, c7⟩ := one_search a h hK hb hne (init exact a) hs
  have hd : (0 : ℝ) < b / K := by positivity
  have e : (bccg exact a).x = (iterate exact a (init exact a)).1.x := by
    unfold bccg
    rw [loop]
    have hit : (iterate exact a (init exact a)).1.it = 1 := rfl
    have : a.maxIt < (iterate exact a (init exact a)).1.it := by omega
    simp only [if_pos this]
    split_ifs <;> rfl
  rw [e]
  have h0 : ∀ i, XR.lt ((search exact a (init exact a)).x i) (-.fin (1 / 10 ^ 14)) = false := fun i => by
    rw [c6]
    simp [XR.lt]
    have : (0 : ℝ) < (10 ^ 14)⁻¹ := by positivity
    linarith
  have hM : ∀ i, XR.le (a.maxP i * .fin (1 + 1 / 10 ^ 14)) ((search exact a (init exact a)).x i) = false := fun i => by
    have hp0 : (0 : ℝ) < 1 + 1 / 10 ^ 14 := by positivity
    rw [c6, h.max]
    simp only [XR.mul_def, XR.mul, XR.signInf, if_pos hp0]
    rfl
  have hp0' : ∀ i, (exact (ι := ι)).lt ((search exact a (init exact a)).x i) ((exact (ι := ι)).neg (exact (ι := ι)).small) = false := h0
  have hpM' : ∀ i, (exact (ι := ι)).le ((exact (ι := ι)).mul (a.maxP i) (exact (ι := ι)).onePlusSmall) ((search exact a (init exact a)).x i) = false := hM
  unfold iterate
  simp only [project, hp0', hpM', Bool.and_false, Bool.false_eq_true, if_false]
  exact c6

/-- With one node the exact solution is found and reported if the first step is below the tolerance. -/
theorem C15_one_node_partial (a : Args XR ι) {K b x : ℝ} (h : OneSpring a K b x) (hK : 0 < K) (hb : 0 < b) (hx : 0 < x) (hne : K * x ≠ b) (htol : XR.lt (.fin (|b - K * x| / b)) a.tol = true)
    (hmax : 1 ≤ a.maxIt) : (bccg exact a).failed = false ∧ (bccg exact a).x = fun _ => .fin (b / K) := by
  have hs := one_init a h hx
  obtain ⟨c1, c2, c3, c4, c5, c6, c7⟩ := one_search a h hK hb hne (init exact a) hs
  have hd : (0 : ℝ) < b / K := by positivity
  have h0 : ∀ i, XR.lt ((search exact a (init exact a)).x i) (-.fin (1 / 10 ^ 14)) = false := fun i => by
    rw [c6]
    simp [XR.lt]
    have : (0 : ℝ) < (10 ^ 14)⁻¹ := by positivity
    linarith
  have hM : ∀ i, XR.le (a.maxP i * .fin (1 + 1 / 10 ^ 14)) ((search exact a (init exact a)).x i) = false := fun i => by
    have hp0 : (0 : ℝ) < 1 + 1 / 10 ^ 14 := by positivity
    rw [c6, h.max]
    simp only [XR.mul_def, XR.mul, XR.signInf, if_pos hp0]
    rfl
  have hp0' : ∀ i, (exact (ι := ι)).lt ((search exact a (init exact a)).x i) ((exact (ι := ι)).neg (exact (ι := ι)).small) = false := h0
  have hpM' : ∀ i, (exact (ι := ι)).le ((exact (ι := ι)).mul (a.maxP i) (exact (ι := ι)).onePlusSmall) ((search exact a (init exact a)).x i) = false := hM
  have hm : (init exact a).msk0 = (fun _ => false) ∧ (init exact a).mskMax = (fun _ => false) ∧ (init exact a).nFree = 1 := by rw [hs]; exact ⟨rfl, rfl, rfl⟩
  have hit : (iterate exact a (init exact a)).2 = ⟨true, false, true⟩ := by
    unfold iterate
    simp only [project, hp0', hpM', hm.1, hm.2.1, h.inner, Bool.and_false, Bool.or_false, Bool.false_and, Bool.false_eq_true, exists_const, decide_false, c7, htol]
    simp
    exact ⟨hpM', fun i hi => absurd hi (by rw [hpM' i]; simp)⟩
  have hfree : (iterate exact a (init exact a)).1.nFree = 1 := by
    have : (iterate exact a (init exact a)).1.nFree = if (iterate exact a (init exact a)).2.changed then
        freeCount (iterate exact a (init exact a)).1.msk0 (iterate exact a (init exact a)).1.mskMax else (init exact a).nFree := rfl
    rw [this, hit, hm.2.2]
    simp
  have hi1 : (iterate exact a (init exact a)).1.it = 1 := rfl
  have hx1 : (iterate exact a (init exact a)).1.x = fun _ => .fin (b / K) := by
    unfold iterate
    simp only [project, hp0', hpM', Bool.and_false, Bool.false_eq_true, if_false]
    exact c6
  unfold bccg
  rw [loop]
  simp only [hfree, hi1, hit]
  rw [if_neg (by norm_num), if_neg (by omega), if_pos (by rfl)]
  exact ⟨rfl, hx1⟩

/-- A spring of compliance one pressed by one, started at one half, with a tolerance of 0.9. -/
example : OneSpring springArgs 1 1 (1 / 2) ∧ XR.lt (.fin (|(1 : ℝ) - 1 * (1 / 2)| / 1)) springArgs.tol = true ∧ 1 ≤ springArgs.maxIt :=
  ⟨.ofZero (by norm_num) (fun u => by funext i; simp [springArgs]) rfl rfl rfl rfl rfl, by simp [XR.lt, springArgs]; norm_num [abs_of_pos], by simp [springArgs]⟩

/-- **C15, negation for one node.** In exact arithmetic a problem with a single node (compliance `K`, displacement `b`, no maximum pressure) ends with `nan` and is
reported as failed, unless the first step is already below the tolerance: the step that follows the exact solution divides zero by zero. -/
theorem C15_one_node_fails (a : Args XR ι) {K b x : ℝ} (h : OneSpring a K b x) (hK : 0 < K) (hb : 0 < b) (hx : 0 < x) (hne : K * x ≠ b)
    (htol : XR.lt (.fin (|b - K * x| / b)) a.tol = false) (hmax : 1 ≤ a.maxIt) :
    (bccg exact a).failed = true ∧ ∀ i, (bccg exact a).x i = .nan := by
  have hs := one_init a h hx
  obtain ⟨-, -, -, -, -, -, hupd⟩ := one_search a h hK hb hne (init exact a) hs
  have hlin : a.f (fun _ => .fin 0) = fun _ => .fin 0 := by rw [h.acts]; simp
  have hfree : (iterate exact a (init exact a)).1.nFree ≠ 0 := by
    have hh := one_next a h hK hb hx hne
    have hcount : ∀ s : St XR ι, s.nFree = freeCount s.msk0 s.mskMax → (iterate exact a s).1.nFree = freeCount (iterate exact a s).1.msk0 (iterate exact a s).1.mskMax := by
      intro s hs
      unfold iterate
      generalize search exact a s = c
      have hn : (project exact a s c).1.nFree = if (project exact a s c).2.changed then
          freeCount (project exact a s c).1.msk0 (project exact a s c).1.mskMax else s.nFree := rfl
      cases hch : (project exact a s c).2.changed with
      | true => rw [hn, hch]; rfl
      | false =>
        rw [hn, hch, hs]
        obtain ⟨h0, h1⟩ := project_masks_unchanged exact a s c hch
        rw [h0, h1]; rfl
    have e0 : (init exact a).nFree = freeCount (init exact a).msk0 (init exact a).mskMax := rfl
    rw [hcount _ e0]
    have m0 : (iterate exact a (init exact a)).1.msk0 = fun _ => false := funext hh.2.1
    have mM : (iterate exact a (init exact a)).1.mskMax = fun _ => false := funext hh.2.2.1
    rw [m0, mM]
    simp [freeCount]
  obtain ⟨t, failed, hinv, e, -, -, hend⟩ := loop_last exact a (fun s => s = init exact a ∨ Hit s ∨ AllNan s)
    (fun s hs => by
      rcases hs with rfl | hs | hs
      · exact Or.inr (Or.inl (one_next a h hK hb hx hne))
      · exact Or.inr (Or.inr (project_allNan a s _ (hit_search a s hs hlin)))
      · refine Or.inr (Or.inr (project_allNan a s _ fun i => ?_))
        have : (search exact a s).x i = s.x i + (search exact a s).alpha * (search exact a s).p i := rfl
        rw [this, hs i, XR.nan_add]) (init exact a) (Or.inl rfl)
  have hr : bccg exact a = stopped exact a t failed := e
  have hnan : t ≠ init exact a → ∀ i, (search exact a t).x i = .nan := by
    intro hne
    rcases hinv with h' | h' | h'
    · exact absurd h' hne
    · exact hit_search a t h' hlin
    · intro i
      have : (search exact a t).x i = t.x i + (search exact a t).alpha * (search exact a t).p i := rfl
      rw [this, h' i, XR.nan_add]
  have hti : t ≠ init exact a := by
    rintro rfl
    have hit : (init exact a).it = 0 := rfl
    rcases hend with ⟨-, h1 | h1⟩ | ⟨-, -, -, -, -, h2⟩
    · exact hfree h1
    · omega
    · have : (iterate exact a (init exact a)).2.small = (search exact a (init exact a)).upd := rfl
      rw [this, hupd, htol] at h2
      cases h2
  constructor
  · rcases hend with ⟨h, -⟩ | ⟨-, -, -, -, -, hsm⟩
    · rw [hr, h]; rfl
    · have : (iterate exact a t).2.small = (search exact a t).upd := rfl
      rw [this, upd_false_of_nan a t (hnan hti)] at hsm
      cases hsm
  · intro i
    rw [hr]
    exact project_allNan a t _ (hnan hti) i

/-- One spring of compliance 2 displaced by 1, started from 1/4, with the tolerance 1e-6. -/
example : OneSpring (ι := Unit) ⟨fun u _ => .fin 2 * u (), fun _ => .fin 1, .fin (1 / 10 ^ 6), 1, fun _ => .fin (1 / 4), .fin 0, fun _ => .pinf, 1⟩ 2 1 (1 / 4) ∧
    XR.lt (.fin (|(1 : ℝ) - 2 * (1 / 4)| / 1)) (.fin (1 / 10 ^ 6)) = false := by
  refine ⟨.ofZero (by norm_num) (fun u => by simp) rfl rfl rfl rfl rfl, ?_⟩
  simp [XR.lt]
  norm_num

end Verif.Bccg
