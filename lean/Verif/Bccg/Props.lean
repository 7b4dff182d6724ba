import Mathlib.Algebra.Module.LinearMap.Defs
import Mathlib.Algebra.Module.Pi
import Mathlib.Algebra.Module.LinearMap.End
import Verif.Bccg.Lemmas

/-!
# Properties C13-C15 of the bound constrained conjugate gradient solver
-/

namespace Verif.Bccg

open Verif

variable {F ι : Type} [Fintype ι]

/-! ## C15: it stops and reports honestly -/

/-- C15: whatever the arithmetic, the operator and the data are, the solver stops after at most `max_it + 1` iterations (one, if
`max_it` is not positive), and it reports failure exactly when no node is free at the end or the iteration limit is passed. -/
theorem C15_stops_and_reports (o : Ops F ι) (a : Args F ι) :
    1 ≤ (bccg o a).its ∧ (bccg o a).its ≤ max a.maxIt 0 + 1 ∧
      ((bccg o a).failed = true ↔ (bccg o a).nFree = 0 ∨ a.maxIt < (bccg o a).its) := by
  obtain ⟨t, failed, -, e, hle, hor, hend⟩ := loop_last o a (fun _ => True) (fun _ _ => trivial) (init o a) trivial
  have h0 : (init o a).it = 0 := rfl
  have hits : (bccg o a).its = t.it + 1 := by unfold bccg; rw [e]; rfl
  have hn : (bccg o a).nFree = (iterate o a t).1.nFree := by unfold bccg; rw [e]; rfl
  have hf : (bccg o a).failed = failed := by unfold bccg; rw [e]; rfl
  rw [hits, hn, hf]
  rw [h0] at hle hor
  refine ⟨by omega, by omega, ?_⟩
  rcases hend with ⟨rfl, h⟩ | ⟨rfl, h1, h2, -⟩
  · simpa using h
  · simp [h1]; omega

/-- C15: "no node is free" in the above: the number of nodes less those held at zero less those held at the maximum, for the sets
of held nodes at the end. -/
theorem C15_free_nodes_counted (o : Ops F ι) (a : Args F ι) : (bccg o a).nFree =
    (Fintype.card ι : ℤ) - (Finset.univ.filter (fun i => (bccg o a).msk0 i = true)).card -
      (Finset.univ.filter (fun i => (bccg o a).mskMax i = true)).card := by
  have hiter : ∀ s : St F ι, s.nFree = freeCount s.msk0 s.mskMax →
      (iterate o a s).1.nFree = freeCount (iterate o a s).1.msk0 (iterate o a s).1.mskMax := by
    intro s hs
    unfold iterate
    generalize search o a s = c
    have hn : (project o a s c).1.nFree = if (project o a s c).2.changed then
        freeCount (project o a s c).1.msk0 (project o a s c).1.mskMax else s.nFree := rfl
    cases hch : (project o a s c).2.changed with
    | true => rw [hn, hch]; rfl
    | false =>
      rw [hn, hch, hs]
      obtain ⟨h0, h1⟩ := project_masks_unchanged o a s c hch
      rw [h0, h1]; rfl
  obtain ⟨t, failed, ht, e, -⟩ := loop_last o a (fun s => s.nFree = freeCount s.msk0 s.mskMax) (fun s hs => hiter s hs) (init o a) rfl
  have h1 : (bccg o a).nFree = (iterate o a t).1.nFree := by unfold bccg; rw [e]; rfl
  have h2 : (bccg o a).msk0 = (iterate o a t).1.msk0 := by unfold bccg; rw [e]; rfl
  have h3 : (bccg o a).mskMax = (iterate o a t).1.mskMax := by unfold bccg; rw [e]; rfl
  rw [h1, h2, h3, hiter t ht]
  rfl

/-- C15: a reported success means that the last relative change of the pressures was below the tolerance and that no node
changed state in the last iteration. -/
theorem C15_success_means_converged (o : Ops F ι) (a : Args F ι) (h : (bccg o a).failed = false) :
    ∃ t : St F ι, (iterate o a t).1.x = (bccg o a).x ∧ (iterate o a t).2.changed = false ∧ (iterate o a t).2.small = true := by
  obtain ⟨t, failed, -, e, -, -, hend⟩ := loop_last o a (fun _ => True) (fun _ _ => trivial) (init o a) trivial
  have hx : (bccg o a).x = (iterate o a t).1.x := by unfold bccg; rw [e]; rfl
  have hf : (bccg o a).failed = failed := by unfold bccg; rw [e]; rfl
  rcases hend with ⟨h1, -⟩ | ⟨-, -, -, -, h2, h3⟩
  · rw [hf, h1] at h; cases h
  · exact ⟨t, hx.symm, h2, h3⟩

/-! ## C13: admissible pressures -/

/-- The projections of one outer iteration leave every node within the bounds. -/
lemma iterate_bounds (o : Ops F ι) (a : Args F ι) (s : St F ι) (hz : o.lt o.zero (o.neg o.small) = false)
    (hm : ∀ i, o.lt (a.maxP i) (o.neg o.small) = false) (hout : (iterate o a s).2.outer = true) (i : ι) :
    o.lt ((iterate o a s).1.x i) (o.neg o.small) = false ∧
      (o.le (o.mul (a.maxP i) o.onePlusSmall) ((iterate o a s).1.x i) = false ∨ (iterate o a s).1.x i = a.maxP i) := by
  unfold iterate at hout ⊢
  generalize search o a s = c at hout ⊢
  simp only [project] at hout ⊢
  rw [hout]
  simp only [Bool.true_and]
  split_ifs with h1 h2 h2
  · exact ⟨hm i, Or.inr rfl⟩
  · exact ⟨hz, Or.inl (by simpa using h2)⟩
  · exact ⟨hm i, Or.inr rfl⟩
  · exact ⟨by simpa using h1, Or.inl (by simpa using h2)⟩

/-- C13, for every arithmetic (in particular floating point numbers), operator and data: the result of the default one inner
iteration, and every result reported as a success, has no node below zero by more than `small` and no node above the maximum
pressure by more than the factor `1 + small`. The two hypotheses say that zero and the maximum pressure are themselves not
below `-small`. -/
theorem C13_pressures_admissible (o : Ops F ι) (a : Args F ι) (hz : o.lt o.zero (o.neg o.small) = false)
    (hm : ∀ i, o.lt (a.maxP i) (o.neg o.small) = false) (h : a.kInn ≤ 1 ∨ (bccg o a).failed = false) (i : ι) :
    o.lt ((bccg o a).x i) (o.neg o.small) = false ∧
      (o.le (o.mul (a.maxP i) o.onePlusSmall) ((bccg o a).x i) = false ∨ (bccg o a).x i = a.maxP i) := by
  have hstep : ∀ s : St F ι, 0 ≤ s.itInn → 0 ≤ (next o a s).itInn := by
    intro s hs
    simp only [next]
    split_ifs
    · exact le_rfl
    · show 0 ≤ s.itInn + 1
      omega
  obtain ⟨t, failed, hinn, e, -, -, hend⟩ := loop_last o a (fun s => 0 ≤ s.itInn) hstep (init o a) le_rfl
  have hx : (bccg o a).x = (iterate o a t).1.x := by unfold bccg; rw [e]; rfl
  have hf : (bccg o a).failed = failed := by unfold bccg; rw [e]; rfl
  have hout : (iterate o a t).2.outer = true := by
    rcases h with hk | hs
    · simp only [iterate, project, Bool.or_eq_true, decide_eq_true_eq]
      left; omega
    · rcases hend with ⟨h1, -⟩ | ⟨-, -, -, h2, -⟩
      · rw [hf, h1] at hs; cases hs
      · exact h2
  rw [hx]
  exact iterate_bounds o a t hz hm hout i

lemma exact_zero_ok : (exact (ι := ι)).lt (exact (ι := ι)).zero ((exact (ι := ι)).neg (exact (ι := ι)).small) = false := by
  simp [exact, XR.lt]

/-- C13 in exact arithmetic: a finite pressure lies between `-1e-14` and the maximum (1 + 1e-14). -/
theorem C13_finite_pressures_admissible (a : Args XR ι) (m : ι → ℝ) (hmax : ∀ i, a.maxP i = .pinf ∨ (a.maxP i = .fin (m i) ∧ 0 < m i))
    (h : a.kInn ≤ 1 ∨ (bccg exact a).failed = false) (i : ι) (v : ℝ) (hv : (bccg exact a).x i = .fin v) :
    -(1 / 10 ^ 14) ≤ v ∧ (a.maxP i = .fin (m i) → v ≤ m i * (1 + 1 / 10 ^ 14)) := by
  have hm : ∀ i, (exact (ι := ι)).lt (a.maxP i) ((exact (ι := ι)).neg (exact (ι := ι)).small) = false := by
    intro i
    rcases hmax i with h | ⟨h, hp⟩ <;> rw [h]
    · rfl
    · simp [exact, XR.lt]
      have : (0 : ℝ) ≤ (10 ^ 14)⁻¹ := by positivity
      linarith
  obtain ⟨h1, h2⟩ := C13_pressures_admissible exact a exact_zero_ok hm h i
  rw [hv] at h1 h2
  constructor
  · simpa [exact, XR.lt] using h1
  · intro hmi
    rw [hmi] at h2
    rcases h2 with h2 | h2
    · have : ¬ (m i * (1 + 1 / 10 ^ 14) ≤ v) := by simpa [exact, XR.le] using h2
      exact le_of_lt (not_le.mp this)
    · have hvm : v = m i := by simpa using h2
      rcases hmax i with h' | ⟨h', hp⟩
      · rw [hmi] at h'; cases h'
      · rw [hvm]
        have : (0 : ℝ) ≤ m i * (1 / 10 ^ 14) := by positivity
        linarith

/-! ## C14: sign conditions of a converged solution -/

/-- `f` acts on finite vectors as the linear map `L`. -/
def ActsAs (f : (ι → XR) → ι → XR) (L : (ι → ℝ) →ₗ[ℝ] (ι → ℝ)) : Prop := ∀ u : ι → ℝ, f (fun i => .fin (u i)) = fun i => .fin (L u i)

/-- Maximum pressures are positive numbers or infinity. -/
def PosMax (maxP : ι → XR) : Prop := ∀ i, maxP i = .pinf ∨ ∃ m : ℝ, 0 < m ∧ maxP i = .fin m

/-- What the loop keeps: the residual is that of the pressures if these are numbers, and nodes on a bound are on it (or `nan`). -/
structure Inv (L : (ι → ℝ) →ₗ[ℝ] (ι → ℝ)) (b : ι → ℝ) (maxP : ι → XR) (s : St XR ι) : Prop where
  res : ∀ u : ι → ℝ, (s.x = fun i => .fin (u i)) → s.g = fun i => .fin (L u i - b i)
  at0 : ∀ i, s.msk0 i = true → s.x i = .fin 0 ∨ s.x i = .nan
  atM : ∀ i, s.mskMax i = true → s.x i = maxP i ∨ s.x i = .nan

lemma mul_zero_cases (a : XR) : a * .fin 0 = .fin 0 ∨ a * .fin 0 = .nan := by
  cases a <;> simp [XR.mul_def, XR.mul, XR.signInf]

lemma add_mul_zero (y a : XR) : y + a * .fin 0 = y ∨ y + a * .fin 0 = .nan := by
  rcases mul_zero_cases a with h | h <;> rw [h]
  · left; exact add_zero y
  · right; exact XR.add_nan y

lemma posMax_not_le_zero {maxP : ι → XR} (hm : PosMax maxP) (i : ι) :
    XR.le (maxP i * .fin (1 + 1 / 10 ^ 14)) (.fin 0) = false := by
  have hp : (0 : ℝ) < 1 + 1 / 10 ^ 14 := by positivity
  rcases hm i with h | ⟨m, h1, h2⟩
  · rw [h]; simp only [XR.mul_def, XR.mul, XR.signInf, if_pos hp]; rfl
  · rw [h2, XR.fin_mul]
    have : 0 < m * (1 + 1 / 10 ^ 14) := mul_pos h1 hp
    simp only [XR.le, decide_eq_false_iff_not, not_le]; exact this

lemma posMax_not_lt {maxP : ι → XR} (hm : PosMax maxP) (i : ι) : XR.lt (maxP i) (-.fin (1 / 10 ^ 14)) = false := by
  rcases hm i with h | ⟨m, h1, h2⟩
  · rw [h]; rfl
  · rw [h2, XR.fin_neg]
    have : (0 : ℝ) ≤ 1 / 10 ^ 14 := by positivity
    simp only [XR.lt, decide_eq_false_iff_not, not_lt]; linarith

lemma bound_step (a : Args XR ι) (s : St XR ι) (i : ι) (h : (s.msk0 i || s.mskMax i) = true) :
    (search exact a s).x i = s.x i ∨ (search exact a s).x i = .nan := by
  have : (search exact a s).x i = s.x i + (search exact a s).alpha * .fin 0 := by
    simp only [search, h, if_true]; rfl
  rw [this]
  exact add_mul_zero _ _

lemma le_nan (a : XR) : XR.le a .nan = false := by cases a <;> rfl
lemma nan_lt (a : XR) : XR.lt .nan a = false := by cases a <;> rfl

lemma neg_small_zero : XR.lt (.fin 0) (-.fin (1 / 10 ^ 14)) = false := by
  rw [XR.fin_neg]
  have : (0 : ℝ) ≤ 1 / 10 ^ 14 := by positivity
  simp only [XR.lt, decide_eq_false_iff_not, not_lt]; linarith

/-- If the pressures after the search part are numbers, so are the step, the direction and `q`, and `q = f p`. -/
lemma search_fin (a : Args XR ι) (L : (ι → ℝ) →ₗ[ℝ] (ι → ℝ)) (hf : ActsAs a.f L) (s : St XR ι) [Nonempty ι]
    (h : ∀ i, XR.IsFin ((search exact a s).x i)) :
    ∃ (w e : ι → ℝ) (t : ℝ), s.x = (fun i => .fin (w i)) ∧ (search exact a s).alpha = .fin t ∧
      (search exact a s).q = (fun i => .fin (L e i)) ∧ (search exact a s).x = fun i => .fin (w i + t * e i) := by
  have hx : ∀ i, (search exact a s).x i = s.x i + (search exact a s).alpha * (search exact a s).p i := fun i => rfl
  have h3 : ∀ i, XR.IsFin (s.x i) ∧ XR.IsFin (search exact a s).alpha ∧ XR.IsFin ((search exact a s).p i) := by
    intro i
    have := h i
    rw [hx, XR.isFin_add, XR.isFin_mul] at this
    exact ⟨this.1, this.2.1, this.2.2⟩
  choose w hw using fun i => (h3 i).1
  choose e he using fun i => (h3 i).2.2
  obtain ⟨t, ht⟩ := (h3 (Classical.arbitrary ι)).2.1
  have hp : (search exact a s).p = fun i => .fin (e i) := funext he
  refine ⟨w, e, t, funext hw, ht, ?_, ?_⟩
  · have hq : ∀ i, (search exact a s).q i = if decide (s.itInn + 1 < a.kInn) && (s.msk0 i || s.mskMax i) then XR.nan
        else a.f (search exact a s).p i := fun i => rfl
    have halpha : (search exact a s).alpha = (∑ i, (search exact a s).r i * (search exact a s).p i) /
        ∑ i, (search exact a s).p i * (search exact a s).q i := rfl
    funext i
    rw [hq i]
    split_ifs with hb
    · exfalso
      have : (∑ i, (search exact a s).p i * (search exact a s).q i) = .nan := by
        refine XR.sum_eq_nan _ _ (Finset.mem_univ i) ?_
        rw [hq i, if_pos hb, XR.mul_nan]
      rw [this, XR.div_nan] at halpha
      rw [halpha] at ht
      cases ht
    · rw [hp, hf]
  · funext i
    rw [hx, hw, ht, he, XR.fin_mul, XR.fin_add]

lemma inv_step (a : Args XR ι) (L : (ι → ℝ) →ₗ[ℝ] (ι → ℝ)) (hf : ActsAs a.f L) (b : ι → ℝ) (hb : a.b = fun i => .fin (b i))
    (hm : PosMax a.maxP) (s : St XR ι) (hs : Inv L b a.maxP s) : Inv L b a.maxP (iterate exact a s).1 := by
  have hbs := bound_step a s
  have hsf : ∀ _ : Nonempty ι, _ := fun _ => search_fin a L hf s
  unfold iterate
  generalize search exact a s = c at hbs hsf ⊢
  refine ⟨?_, ?_, ?_⟩
  · intro u hu
    have hfx : ∀ i, a.f (fun i => .fin (u i)) i - a.b i = .fin (L u i - b i) := by
      intro i; rw [hf, hb]; exact XR.fin_sub _ _
    rcases project_g exact a s c with hg | ⟨hx, hg⟩
    · rw [hg, hu]
      funext i
      exact hfx i
    · rcases isEmpty_or_nonempty ι with hemp | hne
      · funext i; exact hemp.elim i
      · have hcx : c.x = fun i => .fin (u i) := hx ▸ hu
        obtain ⟨w, e, t, hw, ht, hq, hxx⟩ := hsf hne (fun i => ⟨u i, by rw [hcx]⟩)
        have hgs := hs.res w hw
        rw [hg, ht, hq, hgs]
        have huw : u = w + t • e := by
          funext i
          have := congrFun (hcx.symm.trans hxx) i
          simpa using this
        funext i
        show XR.fin (L w i - b i) + XR.fin t * XR.fin (L e i) = _
        rw [XR.fin_mul, XR.fin_add, huw, map_add, map_smul]
        simp; ring
  · intro i hi
    rw [project_x]
    have hcase : ∀ y : XR, (y = .fin 0 ∨ y = .nan) →
        XR.le (a.maxP i * .fin (1 + 1 / 10 ^ 14)) y = false := by
      rintro y (rfl | rfl)
      · exact posMax_not_le_zero hm i
      · exact le_nan _
    have hx2 : x2 exact a s c i = .fin 0 ∨ x2 exact a s c i = .nan := by
      unfold x2
      split_ifs with h0
      · left; rfl
      · have hm0 : s.msk0 i = true := (project_msk0 exact a s c i hi).1.resolve_right h0
        rcases hbs i (by simp [hm0]) with h | h <;> rw [h]
        · exact hs.at0 i hm0
        · exact Or.inr rfl
    have hhit : hitM exact a s c i = false := by
      unfold hitM
      rw [Bool.and_eq_false_iff]
      right
      exact hcase _ hx2
    rw [hhit]
    exact hx2
  · intro i hi
    rw [project_x]
    split_ifs with h1
    · left; rfl
    · have hmM : s.mskMax i = true := (project_mskM exact a s c i hi).1.resolve_right h1
      have hx : c.x i = a.maxP i ∨ c.x i = .nan := by
        rcases hbs i (by simp [hmM]) with h | h <;> rw [h]
        · exact hs.atM i hmM
        · exact Or.inr rfl
      have e1 : hit0 exact a s c i = false := by
        unfold hit0
        rw [Bool.and_eq_false_iff]
        right
        rcases hx with h | h <;> rw [h]
        · exact posMax_not_lt hm i
        · exact nan_lt (-.fin (1 / 10 ^ 14))
      rw [x2, e1]
      exact hx

/-- A norm of a vector with a value that is no number is infinite or `nan`. -/
lemma norm_not_fin (v : ι → XR) (i : ι) (h : ¬ XR.IsFin (v i)) :
    XR.sqrt (∑ i, v i * v i) = .pinf ∨ XR.sqrt (∑ i, v i * v i) = .nan := by
  have hsq : ∀ y : XR, y * y ≠ .ninf := by
    intro y; cases y <;> simp [XR.mul_def, XR.mul]
  have hadd : ∀ y z : XR, y ≠ .ninf → z ≠ .ninf → y + z ≠ .ninf := by
    intro y z; cases y <;> cases z <;> simp [XR.add_def, XR.add]
  have hn : (∑ i, v i * v i) ≠ .ninf := by
    refine Finset.sum_induction _ (fun y => y ≠ .ninf) (fun y z => hadd y z) ?_ (fun i _ => hsq _)
    simp [XR.zero_def]
  have hf : ¬ XR.IsFin (∑ i, v i * v i) := by
    rw [XR.isFin_sum]
    intro hall
    exact h (XR.isFin_mul.mp (hall i (Finset.mem_univ i))).1
  generalize (∑ i, v i * v i) = y at hn hf ⊢
  cases y with
  | fin x => exact absurd ⟨x, rfl⟩ hf
  | pinf => left; rfl
  | ninf => exact absurd rfl hn
  | nan => right; rfl

/-- The relative update is below the tolerance only if the pressures are numbers. -/
lemma upd_fin (a : Args XR ι) (s : St XR ι) (h : (search exact a s).upd = true) (i : ι) : XR.IsFin ((search exact a s).x i) := by
  by_contra hc
  have hu : (search exact a s).upd = XR.lt
      ((XR.sqrt (∑ i, ((search exact a s).x i - s.x i) * ((search exact a s).x i - s.x i)) / XR.sqrt (.fin s.nFree)) /
        (XR.sqrt (∑ i, (search exact a s).x i * (search exact a s).x i) / XR.sqrt (.fin s.nFree))) a.tol := rfl
  have hc' : ¬ XR.IsFin ((search exact a s).x i - s.x i) := by
    rw [XR.sub_def, ← XR.add_def, XR.isFin_add]
    exact fun h => hc h.1
  have n1 := norm_not_fin (search exact a s).x i hc
  have n2 := norm_not_fin (fun i => (search exact a s).x i - s.x i) i hc'
  have hs : XR.sqrt (.fin s.nFree) = .nan ∨ ∃ y : ℝ, 0 ≤ y ∧ XR.sqrt (.fin s.nFree) = .fin y := by
    simp only [XR.sqrt]
    split_ifs
    · left; rfl
    · right; exact ⟨_, Real.sqrt_nonneg _, rfl⟩
  have hdiv : ∀ y : XR, (y = .pinf ∨ y = .nan) → y / XR.sqrt (.fin s.nFree) = .pinf ∨ y / XR.sqrt (.fin s.nFree) = .nan := by
    rintro y (rfl | rfl)
    · rcases hs with h | ⟨z, hz, h⟩ <;> rw [h]
      · right; exact XR.div_nan _
      · left; simp [XR.div_def, XR.div, not_lt.mpr hz]
    · right; exact XR.nan_div _
  rw [hu] at h
  have hlt : ∀ y z : XR, (y = .pinf ∨ y = .nan) → (z = .pinf ∨ z = .nan) → XR.lt (y / z) a.tol = false := by
    have : ∀ t : XR, XR.lt .nan t = false := nan_lt
    rintro y z (rfl | rfl) (rfl | rfl) <;> simp only [XR.div_def, XR.div] <;> exact this _
  rw [hlt _ _ (hdiv _ n2) (hdiv _ n1)] at h
  cases h

lemma init_inv (a : Args XR ι) (L : (ι → ℝ) →ₗ[ℝ] (ι → ℝ)) (hf : ActsAs a.f L) (b : ι → ℝ) (hb : a.b = fun i => .fin (b i))
    (hm : PosMax a.maxP) (hmin : a.minP = .fin 0) : Inv L b a.maxP (init exact a) := by
  have hx : ∀ i, (init exact a).x i = (exact (ι := ι)).clip (a.x0 i) (.fin 0) (a.maxP i) := by
    intro i; rw [← hmin]; rfl
  have hclip : ∀ i, (init exact a).x i = .nan ∨
      ∃ y : XR, XR.lt y (.fin 0) = false ∧ y ≠ .nan ∧ (init exact a).x i = if XR.lt (a.maxP i) y then a.maxP i else y := by
    intro i
    rw [hx]
    simp only [exact]
    split_ifs with h1 h2 h3 h4
    · left; rfl
    · right
      refine ⟨.fin 0, by simp [XR.lt], by simp, ?_⟩
      rw [if_pos h3]
    · right
      refine ⟨.fin 0, by simp [XR.lt], by simp, ?_⟩
      rw [if_neg h3]
    · right
      refine ⟨a.x0 i, by simpa using h2, h1, ?_⟩
      rw [if_pos h4]
    · right
      refine ⟨a.x0 i, by simpa using h2, h1, ?_⟩
      rw [if_neg h4]
  refine ⟨?_, ?_, ?_⟩
  · intro u hu
    have : (init exact a).g = fun i => a.f (init exact a).x i - a.b i := rfl
    rw [this, hu, hf, hb]
    funext i
    exact XR.fin_sub _ _
  · intro i hi
    have hle : XR.le ((init exact a).x i) (.fin 0) = true := by
      have : (XR.le ((init exact a).x i) (.fin 0) && XR.le (.fin 0) ((init exact a).g i)) = true := hi
      rw [Bool.and_eq_true] at this
      exact this.1
    rcases hclip i with h | ⟨y, h1, h2, h3⟩
    · right; exact h
    · left
      rw [h3] at hle ⊢
      split_ifs at hle ⊢ with h4
      · rcases hm i with h | ⟨m, hp, h⟩
        · rw [h] at hle; simp [XR.le] at hle
        · rw [h] at hle; simp [XR.le] at hle; linarith
      · cases y with
        | fin v =>
          simp [XR.lt, XR.le] at h1 hle
          rw [le_antisymm hle h1]
        | pinf => simp [XR.le] at hle
        | ninf => simp [XR.lt] at h1
        | nan => exact absurd rfl h2
  · intro i hi
    have hle : XR.le (a.maxP i) ((init exact a).x i) = true := by
      have : (XR.le (a.maxP i) ((init exact a).x i) && XR.le ((init exact a).g i) (.fin 0)) = true := hi
      rw [Bool.and_eq_true] at this
      exact this.1
    rcases hclip i with h | ⟨y, h1, h2, h3⟩
    · right; exact h
    · left
      rw [h3] at hle ⊢
      split_ifs at hle ⊢ with h4
      · rfl
      · rcases hm i with h | ⟨m, hp, h⟩ <;> rw [h] at hle h4 ⊢ <;> cases y <;> simp [XR.lt, XR.le] at hle h4 h2 h1 ⊢
        linarith

/-- C14: when success is reported, the pressures are numbers; every node held at zero has pressure exactly zero and a residual
`L u - b` of at least `-1e-14`; every node held at the maximum has exactly that pressure and a residual of at most `1e-14`; the
other nodes lie between the bounds. The residual is the true one of the pressures returned. Any number of inner iterations. -/
theorem C14_sign_conditions (a : Args XR ι) (L : (ι → ℝ) →ₗ[ℝ] (ι → ℝ)) (hf : ActsAs a.f L) (b : ι → ℝ)
    (hb : a.b = fun i => .fin (b i)) (hm : PosMax a.maxP) (hmin : a.minP = .fin 0) (hsucc : (bccg exact a).failed = false) :
    ∃ u : ι → ℝ, (bccg exact a).x = (fun i => .fin (u i)) ∧ (bccg exact a).g = (fun i => .fin (L u i - b i)) ∧
      (∀ i, (bccg exact a).msk0 i = true → u i = 0 ∧ -(1 / 10 ^ 14) ≤ L u i - b i) ∧
      (∀ i, (bccg exact a).mskMax i = true → a.maxP i = .fin (u i) ∧ L u i - b i ≤ 1 / 10 ^ 14) ∧
      (∀ i, -(1 / 10 ^ 14) ≤ u i) := by
  obtain ⟨t, failed, hinv, e, -, -, hend⟩ := loop_last exact a (Inv L b a.maxP)
    (fun s hs => by
      obtain ⟨h1, h2, h3⟩ := inv_step a L hf b hb hm s hs
      exact ⟨h1, h2, h3⟩) (init exact a) (init_inv a L hf b hb hm hmin)
  have hr : bccg exact a = stopped exact a t failed := e
  have hF : failed = false := by rw [hr] at hsucc; exact hsucc
  rw [hF] at hend hr
  rcases hend with ⟨h, -⟩ | ⟨-, -, -, hout, hch, hsm⟩
  · cases h
  · have hx : (iterate exact a t).1.x = (search exact a t).x := project_unchanged exact a t _ hch
    have hfin : ∀ i, XR.IsFin ((search exact a t).x i) := upd_fin a t hsm
    choose u hu using hfin
    have hxu : (iterate exact a t).1.x = fun i => .fin (u i) := by rw [hx]; exact funext hu
    have hI := inv_step a L hf b hb hm t hinv
    have hg := hI.res u hxu
    have hg' : (project exact a t (search exact a t)).1.g = fun i => .fin (L u i - b i) := hg
    rw [hr]
    refine ⟨u, hxu, hg, ?_, ?_, ?_⟩
    · intro i hi
      have h1 := hI.at0 i hi
      have h2 := (project_msk0 exact a t (search exact a t) i hi).2 hout
      rw [hxu] at h1
      rw [hg'] at h2
      constructor
      · rcases h1 with h1 | h1
        · simpa using h1
        · cases h1
      · simpa [exact, XR.lt] using h2
    · intro i hi
      have h1 := hI.atM i hi
      have h2 := (project_mskM exact a t (search exact a t) i hi).2 hout
      rw [hxu] at h1
      rw [hg'] at h2
      constructor
      · rcases h1 with h1 | h1
        · exact h1.symm
        · cases h1
      · simpa [exact, XR.lt] using h2
    · intro i
      have hm' : ∀ i, (exact (ι := ι)).lt (a.maxP i) ((exact (ι := ι)).neg (exact (ι := ι)).small) = false := posMax_not_lt hm
      have := (iterate_bounds exact a t exact_zero_ok hm' hout i).1
      rw [hxu] at this
      simpa [exact, XR.lt] using this

/-- A run that succeeds: one spring of stiffness 1 pressed by 1, started at 1/2, with tolerance 0.9. -/
noncomputable def springArgs : Args XR Unit where
  f x := x
  b _ := .fin 1
  tol := .fin (9 / 10)
  maxIt := 10
  x0 _ := .fin (1 / 2)
  minP := .fin 0
  maxP _ := .pinf
  kInn := 1

/-- The hypotheses of `C14_sign_conditions`, of `C15_success_means_converged` and of the success case of `C13_pressures_admissible` and `C13_finite_pressures_admissible` hold for it. -/
example : ActsAs springArgs.f LinearMap.id ∧ (springArgs.b = fun _ => .fin 1) ∧ PosMax springArgs.maxP ∧
    springArgs.minP = .fin 0 ∧ (bccg exact springArgs).failed = false := by
  refine ⟨fun u => rfl, rfl, fun i => Or.inl rfl, rfl, ?_⟩
  have hx : (init exact springArgs).x = fun _ => .fin (1 / 2) := by
    funext i; simp [init, exact, springArgs, XR.lt]
  have hg : (init exact springArgs).g = fun _ => .fin (-(1 / 2)) := by
    funext i
    have : (init exact springArgs).g i = (init exact springArgs).x i - .fin 1 := rfl
    rw [this, hx]; simp; norm_num
  have hm0 : (init exact springArgs).msk0 = fun _ => false := by
    funext i
    have : (init exact springArgs).msk0 i = (XR.le ((init exact springArgs).x i) (.fin 0) && XR.le (.fin 0) ((init exact springArgs).g i)) := rfl
    rw [this, hx, hg]; simp [XR.le]
  have hmM : (init exact springArgs).mskMax = fun _ => false := by
    funext i
    have : (init exact springArgs).mskMax i = (XR.le .pinf ((init exact springArgs).x i) && XR.le ((init exact springArgs).g i) (.fin 0)) := rfl
    rw [this, hx, hg]; simp [XR.le]
  have hs : init exact springArgs = ⟨fun _ => .fin (1 / 2), fun _ => .fin (-(1 / 2)), fun _ => .fin 0, fun _ => .fin 0, .fin 0,
      fun _ => false, fun _ => false, 1, 0, 0⟩ := by
    have e : init exact springArgs = ⟨(init exact springArgs).x, (init exact springArgs).g, fun _ => .fin 0, fun _ => .fin 0, .fin 0,
      (init exact springArgs).msk0, (init exact springArgs).mskMax, freeCount (init exact springArgs).msk0 (init exact springArgs).mskMax, 0, 0⟩ := rfl
    rw [e, hx, hg, hm0, hmM]
    simp [freeCount]
  have hc : search exact springArgs (init exact springArgs) =
      ⟨fun _ => .fin (1 / 2), .fin (1 / 4), fun _ => .fin (1 / 2), fun _ => .fin (1 / 2), .fin 1, fun _ => .fin 1, true⟩ := by
    have h1 : ¬ (1 : ℝ) < 0 := by norm_num
    have h2 : Real.sqrt (2⁻¹ * 2⁻¹) = 2⁻¹ := Real.sqrt_mul_self (by norm_num)
    have h3 : ¬ ((2 : ℝ)⁻¹ * 2⁻¹ < 0) := by norm_num
    rw [hs]
    simp [search, exact, springArgs, XR.sqrt, XR.div_def, XR.div, XR.lt]
    norm_num [h2]
  have hp : project exact springArgs (init exact springArgs) ⟨fun _ => .fin (1 / 2), .fin (1 / 4), fun _ => .fin (1 / 2), fun _ => .fin (1 / 2), .fin 1, fun _ => .fin 1, true⟩ =
      (⟨fun _ => .fin 1, fun _ => .fin 0, fun _ => .fin (1 / 2), fun _ => .fin (1 / 2), .fin (1 / 4), fun _ => false, fun _ => false, 1, 1, 1⟩,
        ⟨true, false, true⟩) := by
    have hp0 : (0 : ℝ) < 1 + (10 ^ 14)⁻¹ := by positivity
    rw [hs]
    simp [project, exact, springArgs, XR.lt, XR.le, XR.mul_def, XR.mul, XR.signInf]
    norm_num
  unfold bccg
  rw [loop]
  simp only [iterate, hc, hp]
  simp [springArgs]

/-! ## C15, negation: starting from a solution -/

/-- All pressures are `nan`. -/
def AllNan (s : St XR ι) : Prop := ∀ i, s.x i = .nan

lemma project_allNan (a : Args XR ι) (s : St XR ι) (c : Search XR ι) (hc : ∀ i, c.x i = .nan) :
    ∀ i, (project exact a s c).1.x i = .nan := by
  intro i
  have h0 : hit0 exact a s c i = false := by
    unfold hit0
    rw [Bool.and_eq_false_iff, hc i]
    right
    exact nan_lt (-.fin (1 / 10 ^ 14))
  have h2 : x2 exact a s c i = .nan := by rw [x2, h0, hc i]; rfl
  have hM : hitM exact a s c i = false := by
    unfold hitM
    rw [Bool.and_eq_false_iff, h2]
    right
    exact le_nan _
  rw [project_x, hM, h2]; rfl

lemma upd_false_of_nan [Nonempty ι] (a : Args XR ι) (s : St XR ι) (h : ∀ i, (search exact a s).x i = .nan) :
    (search exact a s).upd = false := by
  by_contra hc
  rw [Bool.not_eq_false] at hc
  have := upd_fin a s hc (Classical.arbitrary ι)
  rw [h] at this
  obtain ⟨x, hx⟩ := this
  cases hx

/-- A first iteration in which every node is on a bound or has residual zero makes every pressure `nan`. -/
lemma search_nan_of_no_residual (a : Args XR ι) (s : St XR ι) (h0 : s.it = 0)
    (h : ∀ i, (s.msk0 i || s.mskMax i) = true ∨ s.g i = .fin 0) : ∀ i, (search exact a s).x i = .nan := by
  have hr : ∀ i, (search exact a s).r i = .fin 0 := by
    intro i
    have : (search exact a s).r i = if (s.msk0 i || s.mskMax i) = true then XR.fin 0 else -s.g i := rfl
    rw [this]
    split_ifs with hb
    · rfl
    · rcases h i with h | h
      · exact absurd h hb
      · rw [h, XR.fin_neg, neg_zero]
  have hp : ∀ i, (search exact a s).p i = .fin 0 := by
    intro i
    have : (search exact a s).p i = if (s.msk0 i || s.mskMax i) = true then XR.fin 0 else (search exact a s).r i := by
      simp only [search, h0, zero_add, lt_irrefl, if_false]; rfl
    rw [this, hr]; simp
  have ha : (search exact a s).alpha = .nan := by
    have : (search exact a s).alpha = (∑ i, (search exact a s).r i * (search exact a s).p i) /
        ∑ i, (search exact a s).p i * (search exact a s).q i := rfl
    rw [this]
    have hnum : (∑ i, (search exact a s).r i * (search exact a s).p i) = .fin 0 := by
      simp only [hr, hp, XR.fin_mul, XR.sum_fin]; simp
    have hden : (∑ i, (search exact a s).p i * (search exact a s).q i) = .fin 0 ∨
        (∑ i, (search exact a s).p i * (search exact a s).q i) = .nan := by
      refine Finset.sum_induction _ (fun y => y = XR.fin 0 ∨ y = XR.nan) ?_ (Or.inl rfl) ?_
      · rintro y z (rfl | rfl) (rfl | rfl) <;> simp
      · intro i _
        rw [hp]
        generalize (search exact a s).q i = y
        cases y <;> simp [XR.mul_def, XR.mul, XR.signInf]
    rw [hnum]
    rcases hden with h | h <;> rw [h]
    · simp [XR.div_def, XR.div, XR.signInf]
    · exact XR.div_nan _
  intro i
  have : (search exact a s).x i = s.x i + (search exact a s).alpha * (search exact a s).p i := rfl
  rw [this, ha, XR.nan_mul, XR.add_nan]

/-- A solution of the contact problem within the bounds: at every node the residual vanishes, or the node is at zero with a
non-negative residual, or at the maximum with a non-positive one. -/
def Solves (f : (ι → XR) → ι → XR) (b : ι → ℝ) (maxP : ι → XR) (x : ι → ℝ) : Prop :=
  ∀ i, (0 ≤ x i ∧ XR.lt (maxP i) (.fin (x i)) = false) ∧
    ∃ v : ℝ, f (fun i => .fin (x i)) i = .fin v ∧
      (v - b i = 0 ∨ (x i = 0 ∧ 0 ≤ v - b i) ∨ (maxP i = .fin (x i) ∧ v - b i ≤ 0))

/-- Started (after clipping) from a solution. -/
theorem start_fails [Nonempty ι] (a : Args XR ι) (x : ι → ℝ) (b : ι → ℝ) (hb : a.b = fun i => .fin (b i))
    (hx0 : (init exact a).x = fun i => .fin (x i)) (hsol : Solves a.f b a.maxP x) :
    (bccg exact a).failed = true ∧ ∀ i, (bccg exact a).x i = .nan := by
  have hg0 : ∀ i, (init exact a).g i = a.f (fun i => .fin (x i)) i - .fin (b i) := by
    intro i
    have : (init exact a).g i = a.f (init exact a).x i - a.b i := rfl
    rw [this, hx0, hb]
  have hinit : ∀ i, ((init exact a).msk0 i || (init exact a).mskMax i) = true ∨ (init exact a).g i = .fin 0 := by
    intro i
    obtain ⟨-, v, hv, h⟩ := hsol i
    have hg : (init exact a).g i = .fin (v - b i) := by rw [hg0, hv, XR.fin_sub]
    have hm0 : (init exact a).msk0 i = (XR.le ((init exact a).x i) (.fin 0) && XR.le (.fin 0) ((init exact a).g i)) := rfl
    have hmM : (init exact a).mskMax i = (XR.le (a.maxP i) ((init exact a).x i) && XR.le ((init exact a).g i) (.fin 0)) := rfl
    rcases h with h | ⟨h1, h2⟩ | ⟨h1, h2⟩
    · right; rw [hg, h]
    · left
      rw [hm0, hg, hx0]
      beta_reduce
      rw [h1]
      have e : XR.le (.fin 0) (.fin (v - b i)) = true := (XR.le_fin _ _).mpr h2
      have e' : XR.le (.fin 0) (.fin 0) = true := (XR.le_fin _ _).mpr le_rfl
      simp only [e, e', Bool.and_self, Bool.true_or]
    · left
      rw [hmM, hg, hx0, h1]
      have e : XR.le (.fin (v - b i)) (.fin 0) = true := (XR.le_fin _ _).mpr h2
      have e' : XR.le (.fin (x i)) (.fin (x i)) = true := (XR.le_fin _ _).mpr le_rfl
      simp only [e, e', Bool.and_self, Bool.or_true]
  have hsearch : ∀ s : St XR ι, (s = init exact a ∨ AllNan s) → ∀ i, (search exact a s).x i = .nan := by
    rintro s (rfl | hs)
    · exact search_nan_of_no_residual a _ rfl hinit
    · intro i
      have : (search exact a s).x i = s.x i + (search exact a s).alpha * (search exact a s).p i := rfl
      rw [this, hs i, XR.nan_add]
  obtain ⟨t, failed, hinv, e, -, -, hend⟩ := loop_last exact a (fun s => s = init exact a ∨ AllNan s)
    (fun s hs => Or.inr (project_allNan a s _ (hsearch s hs))) (init exact a) (Or.inl rfl)
  have hr : bccg exact a = stopped exact a t failed := e
  constructor
  · rcases hend with ⟨h, -⟩ | ⟨-, -, -, -, -, hsm⟩
    · rw [hr, h]; rfl
    · have : (iterate exact a t).2.small = (search exact a t).upd := rfl
      rw [this, upd_false_of_nan a t (hsearch t hinv)] at hsm
      cases hsm
  · intro i
    rw [hr]
    exact project_allNan a t _ (hsearch t hinv) i

/-- C15, negation of the last part: started from a solution of the contact problem (whatever the operator, the tolerance and
the number of inner iterations), the solver divides zero by zero, returns `nan` at every node and reports failure. This covers
the exact solution of `f(x) = b` and surfaces that do not touch (all nodes start, correctly, at zero pressure). -/
theorem C15_start_at_solution_fails [Nonempty ι] (a : Args XR ι) (x : ι → ℝ) (b : ι → ℝ) (hb : a.b = fun i => .fin (b i))
    (hmin : a.minP = .fin 0) (hx : a.x0 = fun i => .fin (x i)) (hsol : Solves a.f b a.maxP x) :
    (bccg exact a).failed = true ∧ ∀ i, (bccg exact a).x i = .nan := by
  refine start_fails a x b hb ?_ hsol
  funext i
  have : (init exact a).x i = (exact (ι := ι)).clip (a.x0 i) a.minP (a.maxP i) := rfl
  rw [this, hx, hmin]
  have h1 : XR.lt (.fin (x i)) (.fin 0) = false := by simp [XR.lt, (hsol i).1.1]
  simp [exact, h1, (hsol i).1.2]

/-- A single spring of stiffness 2 pressed by 4: the solution is 2, below the maximum 5; and two separated bodies. -/
example : Solves (ι := Unit) (fun x i => .fin 2 * x i) (fun _ => 4) (fun _ => .fin 5) (fun _ => 2) ∧
    Solves (ι := Unit) (fun x i => .fin 2 * x i) (fun _ => -1) (fun _ => .pinf) (fun _ => 0) := by
  constructor
  · intro i
    refine ⟨⟨by norm_num, by simp [XR.lt]; norm_num⟩, 4, by simp; norm_num, Or.inl (by norm_num)⟩
  · intro i
    refine ⟨⟨le_rfl, rfl⟩, 0, by simp, Or.inr (Or.inl ⟨rfl, by norm_num⟩)⟩

end Verif.Bccg
