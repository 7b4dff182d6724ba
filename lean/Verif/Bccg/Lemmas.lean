import Mathlib.Tactic.Ring
import Mathlib.Tactic.Linarith
import Mathlib.Tactic.NormNum
import Mathlib.Tactic.Positivity
import Verif.Bccg.Model

/-!
# How a run of the solver ends
-/

namespace Verif.Bccg

open Verif

variable {F ι : Type} [Fintype ι]

/-- The state with which the loop is entered again. -/
def next (o : Ops F ι) (a : Args F ι) (s : St F ι) : St F ι :=
  { (iterate o a s).1 with itInn := if (iterate o a s).2.outer then 0 else (iterate o a s).1.itInn }

/-- The result if the loop is left after the iteration started in `s`. -/
def stopped (o : Ops F ι) (a : Args F ι) (s : St F ι) (failed : Bool) : Result F ι :=
  let s' := (iterate o a s).1
  ⟨s'.x, failed, s'.g, s'.msk0, s'.mskMax, s'.nFree, s'.it⟩

/-- The last iteration of a run: started in a state that satisfies every invariant, and left through one of the exits. -/
lemma loop_last (o : Ops F ι) (a : Args F ι) (Inv : St F ι → Prop) (hstep : ∀ s, Inv s → Inv (next o a s)) (s : St F ι) (hs : Inv s) :
    ∃ t failed, Inv t ∧ loop o a s = stopped o a t failed ∧ s.it ≤ t.it ∧ (t.it = s.it ∨ t.it ≤ a.maxIt) ∧
      ((failed = true ∧ ((iterate o a t).1.nFree = 0 ∨ a.maxIt < t.it + 1)) ∨
        (failed = false ∧ (iterate o a t).1.nFree ≠ 0 ∧ t.it + 1 ≤ a.maxIt ∧ (iterate o a t).2.outer = true ∧
          (iterate o a t).2.changed = false ∧ (iterate o a t).2.small = true)) := by
  fun_induction loop o a s with
  | case1 s n s' stop h => exact ⟨s, true, hs, rfl, le_rfl, Or.inl rfl, Or.inl ⟨rfl, Or.inl h⟩⟩
  | case2 s n s' stop h1 h2 => exact ⟨s, true, hs, rfl, le_rfl, Or.inl rfl, Or.inl ⟨rfl, Or.inr h2⟩⟩
  | case3 s n s' stop h1 h2 h3 =>
    refine ⟨s, false, hs, rfl, le_rfl, Or.inl rfl, Or.inr ⟨rfl, h1, not_lt.mp h2, ?_⟩⟩
    simp only [Bool.and_eq_true, Bool.not_eq_true'] at h3
    exact ⟨h3.1.1, h3.1.2, h3.2⟩
  | case4 s n s' h1 h2 h3 ih =>
    obtain ⟨t, failed, ht, e, hle, hor, hend⟩ := ih (hstep s hs)
    have hit : s'.it = s.it + 1 := rfl
    refine ⟨t, failed, ht, e, ?_, ?_, hend⟩
    · have : s'.it ≤ t.it := hle
      omega
    · have : t.it = s'.it ∨ t.it ≤ a.maxIt := hor
      omega

/-- The iteration is an outer one. -/
def outerB (a : Args F ι) (s : St F ι) (c : Search F ι) : Bool := decide (a.kInn ≤ s.itInn + 1) || c.upd

/-- The node is projected onto zero. -/
def hit0 (o : Ops F ι) (a : Args F ι) (s : St F ι) (c : Search F ι) (i : ι) : Bool := outerB a s c && o.lt (c.x i) (o.neg o.small)

/-- The pressure after the projection onto zero. -/
def x2 (o : Ops F ι) (a : Args F ι) (s : St F ι) (c : Search F ι) (i : ι) : F := if hit0 o a s c i then o.zero else c.x i

/-- The node is projected onto the maximum. -/
def hitM (o : Ops F ι) (a : Args F ι) (s : St F ι) (c : Search F ι) (i : ι) : Bool :=
  outerB a s c && o.le (o.mul (a.maxP i) o.onePlusSmall) (x2 o a s c i)

lemma project_x (o : Ops F ι) (a : Args F ι) (s : St F ι) (c : Search F ι) (i : ι) :
    (project o a s c).1.x i = if hitM o a s c i then a.maxP i else x2 o a s c i := rfl

lemma project_msk0 (o : Ops F ι) (a : Args F ι) (s : St F ι) (c : Search F ι) (i : ι) (h : (project o a s c).1.msk0 i = true) :
    (s.msk0 i = true ∨ hit0 o a s c i = true) ∧
      (outerB a s c = true → o.lt ((project o a s c).1.g i) (o.neg o.small) = false) := by
  have h' : ((s.msk0 i || hit0 o a s c i) && !(outerB a s c && (((s.msk0 i || hit0 o a s c i) &&
    o.lt ((project o a s c).1.g i) (o.neg o.small)) || ((s.mskMax i || hitM o a s c i) &&
      o.lt o.small ((project o a s c).1.g i))))) = true := h
  clear h
  revert h'
  generalize s.msk0 i = A, hit0 o a s c i = A', o.lt ((project o a s c).1.g i) (o.neg o.small) = B, outerB a s c = C,
    o.lt o.small ((project o a s c).1.g i) = D, s.mskMax i = E, hitM o a s c i = E'
  cases A <;> cases A' <;> cases B <;> cases C <;> simp

lemma project_mskM (o : Ops F ι) (a : Args F ι) (s : St F ι) (c : Search F ι) (i : ι) (h : (project o a s c).1.mskMax i = true) :
    (s.mskMax i = true ∨ hitM o a s c i = true) ∧
      (outerB a s c = true → o.lt o.small ((project o a s c).1.g i) = false) := by
  have h' : ((s.mskMax i || hitM o a s c i) && !(outerB a s c && (((s.msk0 i || hit0 o a s c i) &&
    o.lt ((project o a s c).1.g i) (o.neg o.small)) || ((s.mskMax i || hitM o a s c i) &&
      o.lt o.small ((project o a s c).1.g i))))) = true := h
  clear h
  revert h'
  generalize s.msk0 i = A, hit0 o a s c i = A', o.lt ((project o a s c).1.g i) (o.neg o.small) = B, outerB a s c = C,
    o.lt o.small ((project o a s c).1.g i) = D, s.mskMax i = E, hitM o a s c i = E'
  cases E <;> cases E' <;> cases D <;> cases C <;> simp

lemma project_outer (o : Ops F ι) (a : Args F ι) (s : St F ι) (c : Search F ι) : (project o a s c).2.outer = outerB a s c := rfl

/-- No node was projected if the iteration changed nothing. -/
lemma project_unchanged (o : Ops F ι) (a : Args F ι) (s : St F ι) (c : Search F ι) (h : (project o a s c).2.changed = false) :
    (project o a s c).1.x = c.x := by
  have h' : ((decide (∃ i, hit0 o a s c i = true) || decide (∃ i, hitM o a s c i = true)) || _) = false := h
  rw [Bool.or_eq_false_iff, Bool.or_eq_false_iff, decide_eq_false_iff_not, decide_eq_false_iff_not] at h'
  funext i
  rw [project_x, x2, if_neg (not_exists.mp h'.1.2 i), if_neg (not_exists.mp h'.1.1 i)]

/-- The sets of held nodes stay the same if the iteration changed nothing. -/
lemma project_masks_unchanged (o : Ops F ι) (a : Args F ι) (s : St F ι) (c : Search F ι) (h : (project o a s c).2.changed = false) :
    (project o a s c).1.msk0 = s.msk0 ∧ (project o a s c).1.mskMax = s.mskMax := by
  have h' : ((decide (∃ i, hit0 o a s c i = true) || decide (∃ i, hitM o a s c i = true)) ||
    decide (∃ i, (outerB a s c && (((s.msk0 i || hit0 o a s c i) &&
    o.lt ((project o a s c).1.g i) (o.neg o.small)) || ((s.mskMax i || hitM o a s c i) &&
      o.lt o.small ((project o a s c).1.g i)))) = true)) = false := h
  rw [Bool.or_eq_false_iff, Bool.or_eq_false_iff, decide_eq_false_iff_not, decide_eq_false_iff_not, decide_eq_false_iff_not] at h'
  obtain ⟨⟨h1, h2⟩, h3⟩ := h'
  rw [not_exists] at h1 h2 h3
  constructor
  · funext i
    have e : (project o a s c).1.msk0 i = ((s.msk0 i || hit0 o a s c i) && !(outerB a s c && (((s.msk0 i || hit0 o a s c i) &&
      o.lt ((project o a s c).1.g i) (o.neg o.small)) || ((s.mskMax i || hitM o a s c i) &&
        o.lt o.small ((project o a s c).1.g i))))) := rfl
    rw [e, Bool.eq_false_iff.mpr (h3 i), Bool.eq_false_iff.mpr (h1 i)]; simp
  · funext i
    have e : (project o a s c).1.mskMax i = ((s.mskMax i || hitM o a s c i) && !(outerB a s c && (((s.msk0 i || hit0 o a s c i) &&
      o.lt ((project o a s c).1.g i) (o.neg o.small)) || ((s.mskMax i || hitM o a s c i) &&
        o.lt o.small ((project o a s c).1.g i))))) := rfl
    rw [e, Bool.eq_false_iff.mpr (h3 i), Bool.eq_false_iff.mpr (h2 i)]; simp

/-- The residual after an iteration: recomputed, or updated without any projection. -/
lemma project_g (o : Ops F ι) (a : Args F ι) (s : St F ι) (c : Search F ι) :
    (project o a s c).1.g = (fun i => o.sub (a.f (project o a s c).1.x i) (a.b i)) ∨
      ((project o a s c).1.x = c.x ∧ (project o a s c).1.g = fun i => o.add (s.g i) (o.mul c.alpha (c.q i))) := by
  by_cases hc : (((decide (∃ i, hit0 o a s c i = true) || decide (∃ i, hitM o a s c i = true)) ||
      (outerB a s c && decide (1 < a.kInn))) = true)
  · left
    have : (project o a s c).1.g = if (((decide (∃ i, hit0 o a s c i = true) || decide (∃ i, hitM o a s c i = true)) ||
      (outerB a s c && decide (1 < a.kInn))) = true) then (fun i => o.sub (a.f (project o a s c).1.x i) (a.b i))
      else fun i => o.add (s.g i) (o.mul c.alpha (c.q i)) := rfl
    rw [this, if_pos hc]
  · right
    constructor
    · rw [Bool.not_eq_true, Bool.or_eq_false_iff, Bool.or_eq_false_iff, decide_eq_false_iff_not, decide_eq_false_iff_not] at hc
      funext i
      rw [project_x, x2, if_neg (not_exists.mp hc.1.2 i), if_neg (not_exists.mp hc.1.1 i)]
    · have : (project o a s c).1.g = if (((decide (∃ i, hit0 o a s c i = true) || decide (∃ i, hitM o a s c i = true)) ||
        (outerB a s c && decide (1 < a.kInn))) = true) then (fun i => o.sub (a.f (project o a s c).1.x i) (a.b i))
        else fun i => o.add (s.g i) (o.mul c.alpha (c.q i)) := rfl
      rw [this, if_neg hc]

end Verif.Bccg
