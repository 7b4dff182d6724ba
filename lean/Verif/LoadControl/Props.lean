import Verif.Contact.Carried
import Verif.HeightResults.Rising
import Verif.Quasi.LoadProps

/-!
# C152: a set load belongs to one contact, and the static step finds it within its bracket
-/

namespace Verif.LoadControl

open Verif HeightCache HeightResults Finset

/-- The pressures `u` at height `h` carry the load `l`. -/
def Carries (S : Setup) (c0 c1 : Bool) (M : Option ℝ) (l h : ℝ) (u : Fin S.rows × Fin S.cols → ℝ) : Prop := Pressures S c0 c1 M h u ∧ (∑ q, u q) * S.spacing ^ 2 = l

variable {S : Setup} {c0 c1 : Bool} {M : Option ℝ}

/-- C152: the loads that are carried are those between zero and the largest pressure on every node. -/
theorem C152_carried (hS : Ideal S c0 c1 M) (hsp : S.spacing ≠ 0) (hr : 0 < S.rows) (hc : 0 < S.cols) (l : ℝ) :
    (∃ h u, Carries S c0 c1 M l h u) ↔ 0 ≤ l ∧ ∀ m, M = some m → l ≤ m * (S.rows * S.cols) * S.spacing ^ 2 := by
  have hpos : 0 < S.spacing ^ 2 := by positivity
  haveI : Nonempty (Fin S.rows × Fin S.cols) := ⟨(⟨0, hr⟩, ⟨0, hc⟩)⟩
  have key := Contact.load_carried hS.definite (fun q : Fin S.rows × Fin S.cols => S.gap q.1 q.2) hS.limit (l / S.spacing ^ 2)
  have e : (∃ h u, Carries S c0 c1 M l h u) ↔ ∃ h u, Contact.Solution (fun _ => True) (bodies S c0 c1) (fun q => h - S.gap q.1 q.2) (fun _ => M) u ∧ ∑ q, u q = l / S.spacing ^ 2 := by
    refine exists_congr fun h => exists_congr fun u => and_congr_right fun _ => ?_
    rw [eq_div_iff hpos.ne']
  rw [e, key, le_div_iff₀ hpos, zero_mul]
  refine and_congr_right fun _ => forall_congr' fun m => imp_congr_right fun _ => ?_
  rw [div_le_iff₀ hpos, Fintype.card_prod, Fintype.card_fin, Fintype.card_fin, Nat.cast_mul, mul_comm m]

/-- C152: the pressures are the same at all heights that carry the load. -/
theorem C152_one_contact (hS : Ideal S c0 c1 M) (hsp : S.spacing ≠ 0) {l h h' : ℝ} {u u' : Fin S.rows × Fin S.cols → ℝ} (hu : Carries S c0 c1 M l h u) (hu' : Carries S c0 c1 M l h' u') : u' = u :=
  Contact.same_load hS.definite hu.1 hu'.1 (mul_right_cancel₀ (pow_ne_zero 2 hsp) (hu.2.trans hu'.2.symm))

/-- C152: without a largest pressure there is one height for each positive load, above the height at which the surfaces touch. -/
theorem C152_one_height (hS : Ideal S c0 c1 none) (hsp : S.spacing ≠ 0) (hr : 0 < S.rows) (hc : 0 < S.cols) {l : ℝ} (hl : 0 < l) :
    (∃! h, ∃ u, Carries S c0 c1 none l h u) ∧ ∀ h u, Carries S c0 c1 none l h u → 0 < h := by
  obtain ⟨h, u, hu⟩ := (C152_carried hS hsp hr hc l).2 ⟨hl.le, fun m hm => by cases hm⟩
  have hnode : ∀ {h u}, Carries S c0 c1 none l h u → ∃ q, 0 < u q := by
    intro h u hu
    by_contra hn
    push Not at hn
    have : (∑ q, u q) ≤ 0 := sum_nonpos fun q _ => hn q
    have h2 := hu.2
    nlinarith [sq_nonneg S.spacing]
  have strict : ∀ {h h' u u'}, Carries S c0 c1 none l h u → Carries S c0 c1 none l h' u' → ¬ h < h' := by
    intro h h' u u' hu hu' hlt
    obtain ⟨q, hq⟩ := hnode hu
    have := Contact.load_strict hS.definite hu.1 hu'.1 hlt (i := q) trivial hq (by simp)
    rw [C152_one_contact hS hsp hu hu'] at this
    exact lt_irrefl _ this
  refine ⟨⟨h, ⟨u, hu⟩, fun h' ⟨u', hu'⟩ => le_antisymm (not_lt.1 (strict hu hu')) (not_lt.1 (strict hu' hu))⟩, fun h u hu => ?_⟩
  by_contra hn
  have h0 := hS.apart (h := h) fun i j hi hj => (not_lt.1 hn).trans (hS.touch i j hi hj)
  rw [hS.load_eq hu.1, hu.2] at h0
  exact hl.ne' h0

/-! ## The static step -/

/-- The nodes in contact at a positive height of surfaces that touch. -/
theorem touching (hg : ∃ i < S.rows, ∃ j < S.cols, S.gap i j ≤ 0) {x : ℝ} (hx : 0 < x) : S.problem.noNodes (S.problem.touching x) = false := by
  obtain ⟨i, hi, j, hj, hij⟩ := hg
  show (S.nodes _).isEmpty = false
  rw [List.isEmpty_eq_false_iff]
  intro he
  have : (i, j) ∈ S.nodes (S.problem.touching x) := mem_nodes.2 ⟨hi, hj, by simp only [Setup.problem, decide_eq_true_eq]; linarith⟩
  rw [he] at this
  cases this

/-- C152: a state of the static step holds the load of the contact at its height. If that is the set load, the pressures are those of the contact under the set load, and if the step reports convergence
they differ from them by no more than the distance of the heights and five percent of the load allow. -/
theorem C152_static (hS : Ideal S c0 c1 M) (hsp : S.spacing ≠ 0) (hg : ∃ i < S.rows, ∃ j < S.cols, S.gap i j ≤ 0) {st : Static.Step} {prev : Static.Previous Mask} (hu : st.unloading = false)
    {l : ℝ} (hl : st.normalLoad = some l) (hpos : 0 < l) (hr : st.relative = false) {upper : ℝ} {more : List ℝ} (hm : ∀ x ∈ upper :: more, 0 < x) {c : Static.Current}
    (hc : Static.solve S.problem st prev upper more = .ok c) :
    ∃ u, Carries S c0 c1 M c.totalLoad c.interference u ∧ c.interference ∈ upper :: more ∧ ∀ h v, Carries S c0 c1 M l h v → (c.totalLoad = l → u = v) ∧
      (c.converged = true → ∀ e, (∀ w : Fin S.rows × Fin S.cols → ℝ, e * ∑ q, w q ^ 2 ≤ ∑ q, w q * bodies S c0 c1 w q) →
        e * ∑ q, (u q - v q) ^ 2 * S.spacing ^ 2 ≤ |c.interference - h| * (5 / 100 * l)) := by
  have htouch : ∀ x ∈ upper :: more, S.problem.noNodes (S.problem.touching x) = false := fun x hx => touching hg (hm x hx)
  have ht : Static.wantedLoad st prev = some l := by simp [Static.wantedLoad, hl, hr]
  obtain ⟨-, -, hi, htot, -⟩ := Static.C93_load S.problem hS.matrices st prev (Or.inl hu) hl ht upper more htouch hc
  obtain ⟨u, hpu⟩ := hS.pressures c.interference
  have hload : (∑ q, u q) * S.spacing ^ 2 = c.totalLoad := by
    rw [htot, hS.loads.solved _ (htouch _ hi), hS.load_eq hpu]
  refine ⟨u, ⟨hpu, hload⟩, hi, fun h v hv => ⟨fun he => C152_one_contact hS hsp hv ⟨hpu, hload.trans he⟩, fun hconv e he => ?_⟩⟩
  obtain ⟨hd, -⟩ := Static.C93_converged_partial S.problem hS.matrices st prev (Or.inl hu) hl hpos hr upper more htouch hc hconv
  have h1 := (he (u - v)).trans (Contact.load_work hv.1 hpu)
  have h2 : (c.interference - h) * ((∑ q, u q) - ∑ q, v q) * S.spacing ^ 2 ≤ |c.interference - h| * (5 / 100 * l) := by
    have e1 : (c.interference - h) * ((∑ q, u q) - ∑ q, v q) * S.spacing ^ 2 = (c.interference - h) * (c.totalLoad - l) := by
      rw [← hload, ← hv.2]; ring
    rw [e1]
    refine (le_abs_self _).trans ?_
    rw [abs_mul]
    exact mul_le_mul_of_nonneg_left hd.le (abs_nonneg _)
  rw [← sum_mul, ← mul_assoc]
  exact (mul_le_mul_of_nonneg_right h1 (sq_nonneg _)).trans h2

/-- C152: the positive loads up to the load of the contact at the upper end of the bracket are accepted, whatever heights the root finder tries; larger ones are refused, although the contact may carry them. -/
theorem C152_reach (hS : Ideal S c0 c1 M) (hg : ∃ i < S.rows, ∃ j < S.cols, S.gap i j ≤ 0) {st : Static.Step} {prev : Static.Previous Mask} (hu : st.unloading = false)
    {l : ℝ} (hl : st.normalLoad = some l) (hpos : 0 < l) (hr : st.relative = false) {upper : ℝ} (hup : 0 < upper) (hf : ∀ x, S.maxEntry ≠ some (upper, x)) {u : Fin S.rows × Fin S.cols → ℝ}
    (hpu : Pressures S c0 c1 M upper u) (more : List ℝ) :
    (l ≤ (∑ q, u q) * S.spacing ^ 2 → ∃ c, Static.solve S.problem st prev upper more = .ok c) ∧
    ((∑ q, u q) * S.spacing ^ 2 < l → Static.solve S.problem st prev upper more = .error .valueError) := by
  have htouch := touching hg hup
  have ht : Static.wantedLoad st prev = some l := by simp [Static.wantedLoad, hl, hr]
  have hfresh : Static.Fresh S.problem upper := ⟨hup.ne', hf⟩
  have hload : (S.problem.bccg upper (S.problem.touching upper)).1 = (∑ q, u q) * S.spacing ^ 2 := by rw [hS.loads.solved _ htouch, hS.load_eq hpu]
  constructor
  · intro hle
    obtain ⟨s, k1, k2, k3, k4, k5, k6⟩ := Static.init_none S.problem l l
    obtain ⟨f1, f2, f3, f4, f5⟩ := Static.solve_fields S.problem k4 upper htouch
    have hl0 : (HeightCache.changeLoad s l none).heights.length = (HeightCache.changeLoad s l none).totals.length := by
      rcases k6 with ⟨h, h'⟩ | ⟨x, y, -, h, h'⟩ <;> rw [h, h'] <;> rfl
    have hcall := Static.call_fresh S.problem hS.matrices k6 hfresh
    obtain ⟨s', v, g1, g2, -⟩ := Quasi.call_ok S.problem hS.matrices hl0 upper
    rw [hcall] at g1
    injection g1 with g1 g1'
    rw [← g1] at g2
    obtain ⟨s2, t1, t2⟩ := Quasi.try_ok S.problem hS.matrices more _ g2 (by rw [f3]; rfl)
    have hroot : ∃ s3, Static.rootScalar S.problem (HeightCache.changeLoad s l none) upper more = (s3, .ok ()) ∧ s3.results.isSome = true := by
      unfold Static.rootScalar
      rw [Static.call_zero S.problem k6]
      dsimp only
      rw [hcall, f5, k5]
      dsimp only
      rw [if_neg (by linarith)]
      by_cases hz : (S.problem.bccg upper (S.problem.touching upper)).1 - l = 0
      · rw [if_pos hz]
        exact ⟨_, rfl, by rw [f3]; rfl⟩
      · have hne : ¬ ((0 : ℝ) - l < 0 ↔ (S.problem.bccg upper (S.problem.touching upper)).1 - l < 0) := by
          intro h
          have := h.mp (by linarith)
          linarith
        rw [if_neg hz, if_neg hne, t1]
        exact ⟨_, rfl, t2⟩
    obtain ⟨s3, hr1, hr2⟩ := hroot
    obtain ⟨x, hx⟩ := Option.isSome_iff_exists.mp hr2
    rw [Static.solve_load S.problem st prev (Or.inl hu) hl ht upper more k1, hr1]
    dsimp only
    unfold Static.results
    rw [hx]
    exact ⟨_, rfl⟩
  · intro hlt
    exact Static.C93_out_of_reach S.problem hS.matrices st prev (Or.inl hu) hl ht hfresh htouch (Or.inl ⟨hpos, hload.trans_lt hlt⟩) more

/-- C152: for all elastic surfaces without a largest pressure there are loads that the contact carries and the step refuses, whatever the upper end of the bracket. -/
theorem C152_refused (hS : Ideal S c0 c1 none) (hsp : S.spacing ≠ 0) (hr : 0 < S.rows) (hc : 0 < S.cols) (hg : ∃ i < S.rows, ∃ j < S.cols, S.gap i j ≤ 0) {upper : ℝ} (hup : 0 < upper) :
    ∃ l0, ∀ l, l0 < l → (∃ h u, Carries S c0 c1 none l h u) ∧ ∀ (period : ℝ) (prev : Static.Previous Mask) (more : List ℝ),
      Static.solve S.problem ⟨some l, none, false, false, period⟩ prev upper more = .error .valueError := by
  obtain ⟨u, hu⟩ := hS.pressures upper
  refine ⟨(∑ q, u q) * S.spacing ^ 2, fun l hl => ?_⟩
  have h0 : 0 ≤ (∑ q, u q) * S.spacing ^ 2 := mul_nonneg (sum_nonneg fun q _ => hu.nonneg q trivial) (sq_nonneg _)
  refine ⟨(C152_carried hS hsp hr hc l).2 ⟨by linarith, fun m hm => by cases hm⟩, fun period prev more => ?_⟩
  exact (C152_reach hS hg rfl rfl (by linarith) rfl hup (fun x hx => by obtain ⟨m, hm, -⟩ := hS.max _ _ hx; cases hm) hu more).2 hl

/-! ## Examples -/

/-- The two nodes of `soft` without a largest pressure. -/
noncomputable def free : Setup := { soft with bccg := fun h _ => (fun q => h - q.2, false), maxEntry := none }

theorem free_bodies (u : Fin free.rows × Fin free.cols → ℝ) : bodies free false false u = u := soft_bodies u

theorem free_ideal : Ideal free false false none where
  matrices := rfl
  definite := soft_ideal.definite
  settles := soft_ideal.settles
  limit m hm := by cases hm
  touch := soft_ideal.touch
  solves h L _ _ := by
    refine ⟨fun i hi => if_neg hi, fun i hi => ?_, fun i hi m hm => (by cases hm), fun i hi hlt => ?_, fun i hi hlt => ?_⟩
    · rw [if_pos hi]
      exact sub_nonneg.2 (le_of_lt hi)
    · rw [free_bodies, if_pos hi] at hlt
      exact absurd hlt (lt_irrefl _)
    · rw [free_bodies, if_pos hi] at hlt
      exact absurd hlt (lt_irrefl _)
  max h l hm := by cases hm

theorem free_touch : ∃ i < free.rows, ∃ j < free.cols, free.gap i j ≤ 0 := ⟨0, by norm_num [free, soft], 0, by norm_num [free, soft], by norm_num [free, soft]⟩

theorem soft_touch : ∃ i < soft.rows, ∃ j < soft.cols, soft.gap i j ≤ 0 := ⟨0, by norm_num [soft], 0, by norm_num [soft], by norm_num [soft]⟩

/-- Under the limit of 2 the two nodes carry 1 and no more; without it they carry any load. -/
example : (∃ h u, Carries soft false false (some 2) 1 h u) ∧ (¬ ∃ h u, Carries soft false false (some 2) 2 h u) ∧ ∃ h u, Carries free false false none 2 h u := by
  refine ⟨(C152_carried soft_ideal (by norm_num [soft]) (by norm_num [soft]) (by norm_num [soft]) 1).2 ⟨by norm_num, fun m hm => by cases hm; norm_num [soft]⟩, fun h => ?_,
    (C152_carried free_ideal (by norm_num [free, soft]) (by norm_num [free, soft]) (by norm_num [free, soft]) 2).2 ⟨by norm_num, fun m hm => by cases hm⟩⟩
  have := ((C152_carried soft_ideal (by norm_num [soft]) (by norm_num [soft]) (by norm_num [soft]) 2).1 h).2 2 rfl
  norm_num [soft] at this

/-- The load 1/2 is carried at height 3/2. -/
theorem soft_carries : Carries soft false false (some 2) (1 / 2) (3 / 2) fun q => 3 / 2 - ((q.2 : ℕ) : ℝ) := by
  refine ⟨soft_pressures, ?_⟩
  have hs : ∑ q : Fin 1 × Fin 2, (3 / 2 - ((q.2 : ℕ) : ℝ)) = 2 := by
    rw [Fintype.sum_prod_type]
    norm_num [Fin.sum_univ_succ]
  rw [show ∑ q : Fin soft.rows × Fin soft.cols, (3 / 2 - ((q.2 : ℕ) : ℝ)) = 2 from hs]
  norm_num [soft]

example := C152_one_contact soft_ideal (by norm_num [soft]) soft_carries soft_carries

example := C152_one_height free_ideal (by norm_num [free, soft]) (by norm_num [free, soft]) (by norm_num [free, soft]) (l := 5) (by norm_num)

/-- With the load 1/2 and the bracket up to 3/2, where it is reached, the step is accepted, and the pressures of the state are those of the load (`C152_static`, `C152_reach`). -/
example : ∃ c, Static.solve soft.problem ⟨some (1 / 2), none, false, false, 1⟩ ⟨0, none, none, none⟩ (3 / 2) [3 / 2, 1] = .ok c ∧ ∃ u, Carries soft false false (some 2) c.totalLoad c.interference u ∧
    (c.totalLoad = 1 / 2 → u = fun q => 3 / 2 - ((q.2 : ℕ) : ℝ)) := by
  have hs : (∑ q : Fin soft.rows × Fin soft.cols, (3 / 2 - ((q.2 : ℕ) : ℝ))) * soft.spacing ^ 2 = 1 / 2 := soft_carries.2
  obtain ⟨c, hc⟩ := (C152_reach soft_ideal soft_touch (st := ⟨some (1 / 2), none, false, false, 1⟩) (prev := ⟨0, none, none, none⟩) rfl rfl (by norm_num) rfl (by norm_num)
    (fun x hx => by have := congrArg (Option.map Prod.fst) hx; norm_num [soft] at this) soft_pressures [3 / 2, 1]).1 hs.ge
  obtain ⟨u, h1, -, h2⟩ := C152_static soft_ideal (by norm_num [soft]) soft_touch rfl rfl (by norm_num) rfl (by intro x hx; simp at hx; rcases hx with rfl | rfl | rfl <;> norm_num) hc
  exact ⟨c, hc, u, h1, fun he => (h2 _ _ soft_carries).1 he⟩

example := C152_refused free_ideal (by norm_num [free, soft]) (by norm_num [free, soft]) (by norm_num [free, soft]) free_touch (upper := 3) (by norm_num)

end Verif.LoadControl
