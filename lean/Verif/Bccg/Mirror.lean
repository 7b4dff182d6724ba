import Verif.Bccg.Similar2
import Verif.InfMat.Props
import Mathlib.Data.ZMod.Basic

/-!
# C165: mirrored, turned and moved contacts

Two calls of `_fftw_bccg` (`slippy/contact/influence_matrix_utils.py` l.738-891, model `Verif.Bccg.Model`) whose nodes correspond to each other. The influence coefficients are those of
`elastic_influence_matrix` (l.232-337, model `Verif.InfMat.coefficient`), the convolution is written as the sum it stands for (C06).
-/

namespace Verif.Bccg

open Verif

variable {ι κ : Type} [Fintype ι] [Fintype κ]

/-- The call `a'` is the call `a` with its nodes renamed: node `i` of the second is node `σ i` of the first. -/
structure Renamed (σ : κ ≃ ι) (a : Args XR ι) (a' : Args XR κ) : Prop where
  law : ∀ (u : ι → XR) (i : κ), a'.f (fun i => u (σ i)) i = a.f u (σ i)
  b : ∀ i, a'.b i = a.b (σ i)
  x0 : ∀ i, a'.x0 i = a.x0 (σ i)
  maxP : ∀ i, a'.maxP i = a.maxP (σ i)
  minP : a'.minP = a.minP
  tol : a'.tol = a.tol
  maxIt : a'.maxIt = a.maxIt
  kInn : a'.kInn = a.kInn

/-- The same state with the nodes renamed. -/
structure RenamedState (σ : κ ≃ ι) (s : St XR ι) (s' : St XR κ) : Prop where
  x : s'.x = fun i => s.x (σ i)
  g : s'.g = fun i => s.g (σ i)
  r : s'.r = fun i => s.r (σ i)
  p : s'.p = fun i => s.p (σ i)
  rho : s'.rho = s.rho
  msk0 : s'.msk0 = fun i => s.msk0 (σ i)
  mskMax : s'.mskMax = fun i => s.mskMax (σ i)
  nFree : s'.nFree = s.nFree
  it : s'.it = s.it
  itInn : s'.itInn = s.itInn

theorem freeCount_renamed (σ : κ ≃ ι) (m0 mM : ι → Bool) : freeCount (fun i => m0 (σ i)) (fun i => mM (σ i)) = freeCount m0 mM := by
  have h : ∀ m : ι → Bool, (Finset.univ.filter fun i => m (σ i) = true).card = (Finset.univ.filter fun i => m i = true).card := by
    intro m
    refine Finset.card_bij (fun i _ => σ i) ?_ ?_ ?_
    · intro i hi; simpa using hi
    · intro i _ j _ hij; exact σ.injective hij
    · intro i hi
      exact ⟨σ.symm i, by simpa using hi, by simp⟩
  unfold freeCount
  rw [h, h, Fintype.card_congr σ]

theorem renamed_init {σ : κ ≃ ι} {a : Args XR ι} {a' : Args XR κ} (h : Renamed σ a a') : RenamedState σ (init exact a) (init exact a') := by
  have ex : (init exact a').x = fun i => (init exact a).x (σ i) := by
    funext i
    show (exact (ι := κ)).clip (a'.x0 i) a'.minP (a'.maxP i) = (exact (ι := ι)).clip (a.x0 (σ i)) a.minP (a.maxP (σ i))
    rw [h.x0, h.minP, h.maxP]
    rfl
  have eg : (init exact a').g = fun i => (init exact a).g (σ i) := by
    funext i
    have e1 : (init exact a').g i = a'.f (init exact a').x i - a'.b i := rfl
    have e2 : (init exact a).g (σ i) = a.f (init exact a).x (σ i) - a.b (σ i) := rfl
    rw [e1, e2, ex, h.law, h.b]
  have e0 : (init exact a').msk0 = fun i => (init exact a).msk0 (σ i) := by
    funext i
    have e1 : (init exact a').msk0 i = (XR.le ((init exact a').x i) (.fin 0) && XR.le (.fin 0) ((init exact a').g i)) := rfl
    rw [e1, ex, eg]
    rfl
  have eM : (init exact a').mskMax = fun i => (init exact a).mskMax (σ i) := by
    funext i
    have e1 : (init exact a').mskMax i = (XR.le (a'.maxP i) ((init exact a').x i) && XR.le ((init exact a').g i) (.fin 0)) := rfl
    rw [e1, ex, eg, h.maxP]
    rfl
  refine ⟨ex, eg, rfl, rfl, rfl, e0, eM, ?_, rfl, rfl⟩
  show freeCount (init exact a').msk0 (init exact a').mskMax = freeCount (init exact a).msk0 (init exact a).mskMax
  rw [e0, eM, freeCount_renamed]

/-- The search part of an iteration with the nodes renamed. -/
structure RenamedSearch (σ : κ ≃ ι) (c : Search XR ι) (c' : Search XR κ) : Prop where
  r : c'.r = fun i => c.r (σ i)
  rho : c'.rho = c.rho
  p : c'.p = fun i => c.p (σ i)
  q : c'.q = fun i => c.q (σ i)
  alpha : c'.alpha = c.alpha
  x : c'.x = fun i => c.x (σ i)
  upd : c'.upd = c.upd

theorem renamed_search {σ : κ ≃ ι} {a : Args XR ι} {a' : Args XR κ} (h : Renamed σ a a') {s : St XR ι} {s' : St XR κ} (hs : RenamedState σ s s') :
    RenamedSearch σ (search exact a s) (search exact a' s') := by
  have er : (search exact a' s').r = fun i => (search exact a s).r (σ i) := by
    funext i
    have e1 : (search exact a' s').r i = if (s'.msk0 i || s'.mskMax i) = true then XR.fin 0 else -s'.g i := rfl
    rw [e1, hs.msk0, hs.mskMax, hs.g]
    rfl
  have erho : (search exact a' s').rho = (search exact a s).rho := by
    have e1 : (search exact a' s').rho = ∑ i, (search exact a' s').r i * (search exact a' s').r i := rfl
    rw [e1, er]
    exact Equiv.sum_comp σ fun i => (search exact a s).r i * (search exact a s).r i
  have ep : (search exact a' s').p = fun i => (search exact a s).p (σ i) := by
    funext i
    have e : ∀ {μ : Type} [Fintype μ] (a : Args XR μ) (s : St XR μ) (i : μ), (search exact a s).p i = if (s.msk0 i || s.mskMax i) = true then XR.fin 0 else
        if 1 < s.it + 1 then (search exact a s).r i + (exact (ι := μ)).maxZero (((search exact a s).rho - ∑ i, (search exact a s).r i * s.r i) / s.rho) * s.p i
        else (search exact a s).r i := by
      intro μ _ a s i
      by_cases h1 : 1 < s.it + 1
      · simp only [search, if_pos h1]; rfl
      · simp only [search, if_neg h1]; rfl
    have ed : ∑ i, (search exact a' s').r i * s'.r i = ∑ i, (search exact a s).r i * s.r i := by
      rw [er, hs.r]
      exact Equiv.sum_comp σ fun i => (search exact a s).r i * s.r i
    rw [e, e, ed, erho, hs.rho, hs.msk0, hs.mskMax, hs.it, er, hs.p]
    rfl
  have eq : (search exact a' s').q = fun i => (search exact a s).q (σ i) := by
    funext i
    have e1 : (search exact a' s').q i = if (decide (s'.itInn + 1 < a'.kInn) && (s'.msk0 i || s'.mskMax i)) = true then XR.nan else a'.f (search exact a' s').p i := rfl
    rw [e1, ep, h.law, hs.msk0, hs.mskMax, hs.itInn, h.kInn]
    rfl
  have ea : (search exact a' s').alpha = (search exact a s).alpha := by
    have e1 : (search exact a' s').alpha = (∑ i, (search exact a' s').r i * (search exact a' s').p i) / ∑ i, (search exact a' s').p i * (search exact a' s').q i := rfl
    have e2 : (search exact a s).alpha = (∑ i, (search exact a s).r i * (search exact a s).p i) / ∑ i, (search exact a s).p i * (search exact a s).q i := rfl
    rw [e1, e2, er, ep, eq]
    exact congrArg₂ (· / ·) (Equiv.sum_comp σ fun i => (search exact a s).r i * (search exact a s).p i) (Equiv.sum_comp σ fun i => (search exact a s).p i * (search exact a s).q i)
  have ex : (search exact a' s').x = fun i => (search exact a s).x (σ i) := by
    funext i
    have e1 : (search exact a' s').x i = s'.x i + (search exact a' s').alpha * (search exact a' s').p i := rfl
    rw [e1, hs.x, ea, ep]
    rfl
  have eu : (search exact a' s').upd = (search exact a s).upd := by
    have e : ∀ {μ : Type} [Fintype μ] (a : Args XR μ) (s : St XR μ), (search exact a s).upd =
        XR.lt ((XR.sqrt (∑ i, ((search exact a s).x i - s.x i) * ((search exact a s).x i - s.x i)) / XR.sqrt (.fin s.nFree)) /
          (XR.sqrt (∑ i, (search exact a s).x i * (search exact a s).x i) / XR.sqrt (.fin s.nFree))) a.tol := fun _ _ => rfl
    have e3 : ∑ i, ((search exact a' s').x i - s'.x i) * ((search exact a' s').x i - s'.x i) = ∑ i, ((search exact a s).x i - s.x i) * ((search exact a s).x i - s.x i) := by
      rw [ex, hs.x]
      exact Equiv.sum_comp σ fun i => ((search exact a s).x i - s.x i) * ((search exact a s).x i - s.x i)
    have e4 : ∑ i, (search exact a' s').x i * (search exact a' s').x i = ∑ i, (search exact a s).x i * (search exact a s).x i := by
      rw [ex]
      exact Equiv.sum_comp σ fun i => (search exact a s).x i * (search exact a s).x i
    rw [e a' s', e a s, e3, e4, hs.nFree, h.tol]
  exact ⟨er, erho, ep, eq, ea, ex, eu⟩

theorem exists_renamed (σ : κ ≃ ι) (P : ι → Prop) : (∃ i, P (σ i)) ↔ ∃ i, P i :=
  ⟨fun ⟨i, h⟩ => ⟨σ i, h⟩, fun ⟨i, h⟩ => ⟨σ.symm i, by rwa [Equiv.apply_symm_apply]⟩⟩

theorem renamed_iterate {σ : κ ≃ ι} {a : Args XR ι} {a' : Args XR κ} (h : Renamed σ a a') {s : St XR ι} {s' : St XR κ} (hs : RenamedState σ s s') :
    RenamedState σ (iterate exact a s).1 (iterate exact a' s').1 ∧ (iterate exact a' s').2 = (iterate exact a s).2 := by
  have sr := renamed_search h hs
  unfold iterate
  generalize search exact a s = c at *
  generalize search exact a' s' = c' at *
  have eo : outerB a' s' c' = outerB a s c := by
    unfold outerB
    rw [h.kInn, hs.itInn, sr.upd]
  have e0 : ∀ i, hit0 exact a' s' c' i = hit0 exact a s c (σ i) := by
    intro i
    have e : hit0 exact a' s' c' i = (outerB a' s' c' && XR.lt (c'.x i) (.fin (-(1 / 10 ^ 14)))) := rfl
    rw [e, eo, sr.x]
    rfl
  have e2 : ∀ i, x2 exact a' s' c' i = x2 exact a s c (σ i) := by
    intro i
    unfold x2
    rw [e0, sr.x]
    rfl
  have eM : ∀ i, hitM exact a' s' c' i = hitM exact a s c (σ i) := by
    intro i
    have e : hitM exact a' s' c' i = (outerB a' s' c' && XR.le (a'.maxP i * .fin (1 + 1 / 10 ^ 14)) (x2 exact a' s' c' i)) := rfl
    rw [e, eo, e2, h.maxP]
    rfl
  have ex : (project exact a' s' c').1.x = fun i => (project exact a s c).1.x (σ i) := by
    funext i
    rw [project_x, project_x, eM, e2, h.maxP]
  obtain ⟨ch, hch⟩ : ∃ ch : Bool, ch = true ↔ ∃ i, hit0 exact a s c i = true ∨ hitM exact a s c i = true := ⟨decide _, decide_eq_true_iff⟩
  have hch' : ch = true ↔ ∃ i, hit0 exact a' s' c' i = true ∨ hitM exact a' s' c' i = true := by
    rw [hch]
    simp only [e0, eM]
    exact (exists_renamed σ fun i => hit0 exact a s c i = true ∨ hitM exact a s c i = true).symm
  have eg : (project exact a' s' c').1.g = fun i => (project exact a s c).1.g (σ i) := by
    rw [residual_after a' s' c' ch hch', residual_after a s c ch hch, eo, h.kInn, ex]
    by_cases hb : (ch || (outerB a s c && decide (1 < a.kInn))) = true
    · rw [if_pos hb, if_pos hb]
      funext i
      rw [h.law, h.b]
    · rw [if_neg hb, if_neg hb, hs.g, sr.alpha, sr.q]
  let rel := fun {μ : Type} [Fintype μ] (a : Args XR μ) (s : St XR μ) (c : Search XR μ) (i : μ) => outerB a s c &&
    (((s.msk0 i || hit0 exact a s c i) && XR.lt ((project exact a s c).1.g i) (.fin (-(1 / 10 ^ 14)))) ||
      ((s.mskMax i || hitM exact a s c i) && XR.lt (.fin (1 / 10 ^ 14)) ((project exact a s c).1.g i)))
  have erel : ∀ i, rel a' s' c' i = rel a s c (σ i) := by
    intro i
    simp only [rel]
    rw [eo, e0, eM, hs.msk0, hs.mskMax, eg]
  have em0 : (project exact a' s' c').1.msk0 = fun i => (project exact a s c).1.msk0 (σ i) := by
    have e : ∀ {μ : Type} [Fintype μ] (a : Args XR μ) s c, (project exact a s c).1.msk0 = fun i => (s.msk0 i || hit0 exact a s c i) && !rel a s c i := fun _ _ _ => rfl
    rw [e, e]
    funext i
    rw [erel, hs.msk0, e0]
  have emM : (project exact a' s' c').1.mskMax = fun i => (project exact a s c).1.mskMax (σ i) := by
    have e : ∀ {μ : Type} [Fintype μ] (a : Args XR μ) s c, (project exact a s c).1.mskMax = fun i => (s.mskMax i || hitM exact a s c i) && !rel a s c i := fun _ _ _ => rfl
    rw [e, e]
    funext i
    rw [erel, hs.mskMax, eM]
  have echg : (project exact a' s' c').2.changed = (project exact a s c).2.changed := by
    have e : ∀ {μ : Type} [Fintype μ] (a : Args XR μ) s c, (project exact a s c).2.changed = true ↔
        ((∃ i, hit0 exact a s c i = true) ∨ (∃ i, hitM exact a s c i = true)) ∨ (∃ i, rel a s c i = true) := by
      intro μ _ a s c
      have : (project exact a s c).2.changed =
        (decide (∃ i, hit0 exact a s c i = true) || decide (∃ i, hitM exact a s c i = true) || decide (∃ i, rel a s c i = true)) := rfl
      rw [this, Bool.or_eq_true, Bool.or_eq_true, decide_eq_true_iff, decide_eq_true_iff, decide_eq_true_iff]
    rw [Bool.eq_iff_iff, e, e]
    simp only [e0, eM, erel]
    rw [exists_renamed σ fun i => hit0 exact a s c i = true, exists_renamed σ fun i => hitM exact a s c i = true, exists_renamed σ fun i => rel a s c i = true]
  have en : (project exact a' s' c').1.nFree = (project exact a s c).1.nFree := by
    have e : ∀ {μ : Type} [Fintype μ] (a : Args XR μ) s c, (project exact a s c).1.nFree = if (project exact a s c).2.changed then
        freeCount (project exact a s c).1.msk0 (project exact a s c).1.mskMax else s.nFree := fun _ _ _ => rfl
    rw [e, e, echg, em0, emM, hs.nFree, freeCount_renamed]
  refine ⟨⟨ex, eg, sr.r, sr.p, sr.rho, em0, emM, en, ?_, ?_⟩, ?_⟩
  · show s'.it + 1 = s.it + 1
    rw [hs.it]
  · show s'.itInn + 1 = s.itInn + 1
    rw [hs.itInn]
  · have e : ∀ {μ : Type} [Fintype μ] (a : Args XR μ) s c, (project exact a s c).2 = ⟨outerB a s c, (project exact a s c).2.changed, c.upd⟩ := fun _ _ _ => rfl
    rw [e a' s' c', e a s c, eo, echg, sr.upd]

/-- **C165, renamed nodes.** The order of the nodes plays no part: if the nodes of a contact are renamed, with the law, the displacements, the bounds and the start, then the solver makes
the same iterations, with the same verdict and count, and returns the same pressures, residuals and bound nodes under the new names. Exact arithmetic, where a sum does not depend on
the order of its terms. -/
theorem C165_renamed {σ : κ ≃ ι} {a : Args XR ι} {a' : Args XR κ} (h : Renamed σ a a') :
    (∀ i, (bccg exact a').x i = (bccg exact a).x (σ i)) ∧ (∀ i, (bccg exact a').g i = (bccg exact a).g (σ i)) ∧
      (bccg exact a').failed = (bccg exact a).failed ∧ (bccg exact a').its = (bccg exact a).its ∧
      (∀ i, (bccg exact a').msk0 i = (bccg exact a).msk0 (σ i)) ∧ ∀ i, (bccg exact a').mskMax i = (bccg exact a).mskMax (σ i) := by
  have main : ∀ (s : St XR ι) (s' : St XR κ), RenamedState σ s s' →
      (∀ i, (loop exact a' s').x i = (loop exact a s).x (σ i)) ∧ (∀ i, (loop exact a' s').g i = (loop exact a s).g (σ i)) ∧
      (loop exact a' s').failed = (loop exact a s).failed ∧ (loop exact a' s').its = (loop exact a s).its ∧
      (∀ i, (loop exact a' s').msk0 i = (loop exact a s).msk0 (σ i)) ∧ ∀ i, (loop exact a' s').mskMax i = (loop exact a s).mskMax (σ i) := by
    intro s
    fun_induction loop exact a s with
    | case1 s n t stop h1 =>
      intro s' hs
      obtain ⟨hi, hf⟩ := renamed_iterate h hs
      rw [loop]
      simp only [hi.nFree]
      rw [if_pos h1]
      exact ⟨fun i => congrFun hi.x i, fun i => congrFun hi.g i, rfl, hi.it, fun i => congrFun hi.msk0 i, fun i => congrFun hi.mskMax i⟩
    | case2 s n t stop h1 h2 =>
      intro s' hs
      obtain ⟨hi, hf⟩ := renamed_iterate h hs
      rw [loop]
      simp only [hi.nFree, hi.it, h.maxIt]
      rw [if_neg h1, if_pos h2]
      exact ⟨fun i => congrFun hi.x i, fun i => congrFun hi.g i, rfl, rfl, fun i => congrFun hi.msk0 i, fun i => congrFun hi.mskMax i⟩
    | case3 s n t stop h1 h2 h3 =>
      intro s' hs
      obtain ⟨hi, hf⟩ := renamed_iterate h hs
      rw [loop]
      simp only [hi.nFree, hi.it, h.maxIt, hf]
      rw [if_neg h1, if_neg h2, if_pos h3]
      exact ⟨fun i => congrFun hi.x i, fun i => congrFun hi.g i, rfl, rfl, fun i => congrFun hi.msk0 i, fun i => congrFun hi.mskMax i⟩
    | case4 s n t h1 h2 h3 ih =>
      intro s' hs
      obtain ⟨hi, hf⟩ := renamed_iterate h hs
      rw [loop]
      simp only [hi.nFree, hi.it, h.maxIt, hf]
      rw [if_neg h1, if_neg h2, if_neg h3]
      refine ih _ ⟨hi.x, hi.g, hi.r, hi.p, hi.rho, hi.msk0, hi.mskMax, rfl, rfl, ?_⟩
      simp only [hi.itInn]
      rfl
  exact main _ _ (renamed_init h)

/-- How the nodes of two grids correspond. -/
inductive Motion where
  /-- moved by whole cells -/
  | moved (dx dy : ℤ)
  /-- mirrored in x, and moved -/
  | mirroredX (dx dy : ℤ)
  /-- mirrored in y, and moved -/
  | mirroredY (dx dy : ℤ)
  /-- turned by half a turn, and moved -/
  | turned (dx dy : ℤ)

/-- Where a node goes. -/
def Motion.apply : Motion → ℤ → ℤ → ℤ × ℤ
  | .moved dx dy, x, y => (x + dx, y + dy)
  | .mirroredX dx dy, x, y => (dx - x, y + dy)
  | .mirroredY dx dy, x, y => (x + dx, dy - y)
  | .turned dx dy, x, y => (dx - x, dy - y)

theorem zz_even {hx hy G v : ℝ} {G2 v2 : Option ℝ} {K : ℤ → ℤ → ℝ} (hK : ∀ x y, InfMat.coefficient "zz" hx hy G v G2 v2 x y = some (K x y)) (x y : ℤ) :
    K (-x) y = K x y ∧ K x (-y) = K x y := by
  obtain ⟨h1, h2⟩ := InfMat.C11_reversal hx hy G v G2 v2 x y
  rw [hK, hK] at h1 h2
  exact ⟨Option.some.inj h1, Option.some.inj h2⟩

/-- **C165, mirrored and moved contacts.** Two contacts of the same elastic bodies whose nodes correspond under a translation by whole cells, a reflection in x or y, or half a turn, with the
same displacement, bound and start at corresponding nodes, have the same verdict and the same pressures at corresponding nodes. -/
theorem C165_moved (mo : Motion) {σ : κ ≃ ι} {a : Args XR ι} {a' : Args XR κ} {hx hy G v : ℝ} {G2 v2 : Option ℝ} {px py : ι → ℤ} {px' py' : κ → ℤ}
    (h : ElasticContact a hx hy G v G2 v2 px py) (h' : ElasticContact a' hx hy G v G2 v2 px' py')
    (hpos : ∀ i, (px (σ i), py (σ i)) = mo.apply (px' i) (py' i))
    (hb : ∀ i, a'.b i = a.b (σ i)) (hx0 : ∀ i, a'.x0 i = a.x0 (σ i)) (hmax : ∀ i, a'.maxP i = a.maxP (σ i)) (hmin : a'.minP = a.minP)
    (htol : a'.tol = a.tol) (hit : a'.maxIt = a.maxIt) (hk : a'.kInn = a.kInn) :
    (∀ i, (bccg exact a').x i = (bccg exact a).x (σ i)) ∧ (bccg exact a').failed = (bccg exact a).failed := by
  obtain ⟨K, hK, ef⟩ := h.law
  obtain ⟨K', hK', ef'⟩ := h'.law
  have eK : K' = K := by
    funext x y
    have := hK' x y
    rw [hK] at this
    exact (Option.some.inj this).symm
  have key : ∀ i j, K (px (σ j) - px (σ i)) (py (σ j) - py (σ i)) = K (px' j - px' i) (py' j - py' i) := by
    intro i j
    have e1 := hpos i
    have e2 := hpos j
    have ev := fun x y => (zz_even hK x y).1
    have ew := fun x y => (zz_even hK x y).2
    cases mo <;> simp only [Motion.apply, Prod.mk.injEq] at e1 e2 <;> rw [e1.1, e1.2, e2.1, e2.2]
    · congr 1 <;> ring
    · rename_i dx dy
      rw [show dx - px' j - (dx - px' i) = -(px' j - px' i) by ring, show py' j + dy - (py' i + dy) = py' j - py' i by ring, ev]
    · rename_i dx dy
      rw [show px' j + dx - (px' i + dx) = px' j - px' i by ring, show dy - py' j - (dy - py' i) = -(py' j - py' i) by ring, ew]
    · rename_i dx dy
      rw [show dx - px' j - (dx - px' i) = -(px' j - px' i) by ring, show dy - py' j - (dy - py' i) = -(py' j - py' i) by ring, ev, ew]
  have ren : Renamed σ a a' := by
    refine ⟨fun u i => ?_, hb, hx0, hmax, hmin, htol, hit, hk⟩
    rw [ef, ef', eK]
    beta_reduce
    have := Equiv.sum_comp σ fun j => XR.fin (K (px j - px (σ i)) (py j - py (σ i))) * u j
    rw [← this]
    exact Finset.sum_congr rfl fun j _ => by rw [key]
  obtain ⟨h1, -, h3, -⟩ := C165_renamed ren
  exact ⟨h1, h3⟩

/-- **C165, symmetric contacts.** If the displacements, bounds and start of a contact of elastic bodies are unchanged by a reflection or half a turn of its grid, then so are the pressures. -/
theorem C165_symmetric (mo : Motion) {σ : ι ≃ ι} {a : Args XR ι} {hx hy G v : ℝ} {G2 v2 : Option ℝ} {px py : ι → ℤ}
    (h : ElasticContact a hx hy G v G2 v2 px py) (hpos : ∀ i, (px (σ i), py (σ i)) = mo.apply (px i) (py i))
    (hb : ∀ i, a.b (σ i) = a.b i) (hx0 : ∀ i, a.x0 (σ i) = a.x0 i) (hmax : ∀ i, a.maxP (σ i) = a.maxP i) (i : ι) :
    (bccg exact a).x (σ i) = (bccg exact a).x i :=
  ((C165_moved mo h h hpos (fun i => (hb i).symm) (fun i => (hx0 i).symm) (fun i => (hmax i).symm) rfl rfl rfl rfl).1 i).symm

/-- **C165, exchanged axes.** The same for a grid whose axes are exchanged together with its spacings. -/
theorem C165_exchanged {σ : κ ≃ ι} {a : Args XR ι} {a' : Args XR κ} {hx hy G v : ℝ} {G2 v2 : Option ℝ} {px py : ι → ℤ} {px' py' : κ → ℤ}
    (h : ElasticContact a hx hy G v G2 v2 px py) (h' : ElasticContact a' hy hx G v G2 v2 px' py')
    (hpos : ∀ i, px (σ i) = py' i ∧ py (σ i) = px' i)
    (hb : ∀ i, a'.b i = a.b (σ i)) (hx0 : ∀ i, a'.x0 i = a.x0 (σ i)) (hmax : ∀ i, a'.maxP i = a.maxP (σ i)) (hmin : a'.minP = a.minP)
    (htol : a'.tol = a.tol) (hit : a'.maxIt = a.maxIt) (hk : a'.kInn = a.kInn) :
    (∀ i, (bccg exact a').x i = (bccg exact a).x (σ i)) ∧ (bccg exact a').failed = (bccg exact a).failed := by
  obtain ⟨K, hK, ef⟩ := h.law
  obtain ⟨K', hK', ef'⟩ := h'.law
  have eK : ∀ x y, K' x y = K y x := by
    intro x y
    have := InfMat.C11_exchange hx hy G v G2 v2 y x
    rw [hK, hK'] at this
    exact (Option.some.inj this).symm
  have ren : Renamed σ a a' := by
    refine ⟨fun u i => ?_, hb, hx0, hmax, hmin, htol, hit, hk⟩
    rw [ef, ef']
    beta_reduce
    have := Equiv.sum_comp σ fun j => XR.fin (K (px j - px (σ i)) (py j - py (σ i))) * u j
    rw [← this]
    exact Finset.sum_congr rfl fun j _ => by rw [eK, (hpos i).1, (hpos i).2, (hpos j).1, (hpos j).2]
  obtain ⟨h1, -, h3, -⟩ := C165_renamed ren
  exact ⟨h1, h3⟩

/-- **C165, periodic surfaces.** On a periodic grid (nodes of an abelian group, the law a convolution with any kernel) a contact moved by `t` has the same verdict, and its pressures are moved
by `t`. -/
theorem C165_periodic {Γ : Type} [AddCommGroup Γ] [Fintype Γ] (k : Γ → XR) (t : Γ) {a a' : Args XR Γ} (h : a.f = fun u i => ∑ j, k (j - i) * u j) (h' : a'.f = a.f)
    (hb : ∀ i, a'.b i = a.b (i + t)) (hx0 : ∀ i, a'.x0 i = a.x0 (i + t)) (hmax : ∀ i, a'.maxP i = a.maxP (i + t)) (hmin : a'.minP = a.minP)
    (htol : a'.tol = a.tol) (hit : a'.maxIt = a.maxIt) (hk : a'.kInn = a.kInn) :
    (∀ i, (bccg exact a').x i = (bccg exact a).x (i + t)) ∧ (bccg exact a').failed = (bccg exact a).failed := by
  have ren : Renamed (Equiv.addRight t) a a' := by
    refine ⟨fun u i => ?_, hb, hx0, hmax, hmin, htol, hit, hk⟩
    rw [h', h]
    beta_reduce
    have := Equiv.sum_comp (Equiv.addRight t) fun j => k (j - (Equiv.addRight t) i) * u j
    rw [← this]
    exact Finset.sum_congr rfl fun j _ => by simp
  obtain ⟨h1, -, h3, -⟩ := C165_renamed ren
  exact ⟨h1, h3⟩

/-- Three nodes in a row on a body of shear modulus one, pressed by 1 in the middle and by `l` and `r` at the ends. -/
noncomputable def row (l r : ℝ) : Args XR (Fin 3) where
  f u i := ∑ j, .fin (unitCoefficient ((j : ℤ) - (i : ℤ)) (0 - 0)) * u j
  b i := .fin (if i = 0 then l else if i = 1 then 1 else r)
  tol := .fin (1 / 10 ^ 6)
  maxIt := 100
  x0 _ := .fin 1
  minP := .fin 0
  maxP _ := .pinf
  kInn := 1

theorem row_elastic (l r : ℝ) : ElasticContact (row l r) 1 1 1 0 none none (fun i => ((i : Fin 3) : ℤ)) (fun _ => 0) :=
  ⟨⟨unitCoefficient, fun x y => by simp [InfMat.coefficient, unitCoefficient], rfl⟩⟩

theorem row_mirror (i : Fin 3) : ((((Fin.rev i : Fin 3) : ℕ) : ℤ), (0 : ℤ)) = (Motion.mirroredX 2 0).apply (((i : Fin 3) : ℕ) : ℤ) 0 := by
  revert i; decide

/-- Hypotheses of `C165_moved` and `C165_renamed`: the row with its ends exchanged; the pressures are those of the other row, read backwards. -/
example (l r : ℝ) (i : Fin 3) : (bccg exact (row r l)).x i = (bccg exact (row l r)).x (Fin.rev i) :=
  (C165_moved (.mirroredX 2 0) (σ := Fin.revPerm) (row_elastic l r) (row_elastic r l) row_mirror
    (fun i => by fin_cases i <;> simp [row, Fin.revPerm]) (fun _ => rfl) (fun _ => rfl) rfl rfl rfl rfl).1 i

/-- Hypotheses of `C165_symmetric`: the row pressed equally at both ends. -/
example (l : ℝ) : (bccg exact (row l l)).x 2 = (bccg exact (row l l)).x 0 :=
  C165_symmetric (.mirroredX 2 0) (σ := Fin.revPerm) (row_elastic l l) row_mirror (fun i => by fin_cases i <;> simp [row, Fin.revPerm]) (fun _ => rfl) (fun _ => rfl) 0

/-- The row laid along y. -/
noncomputable def column (l r : ℝ) : Args XR (Fin 3) := { row l r with f := fun u i => ∑ j, .fin (unitCoefficient (0 - 0) ((j : ℤ) - (i : ℤ))) * u j }

/-- Hypotheses of `C165_exchanged`. -/
example (l r : ℝ) (i : Fin 3) : (bccg exact (column l r)).x i = (bccg exact (row l r)).x i :=
  (C165_exchanged (σ := Equiv.refl _) (row_elastic l r)
    (⟨⟨unitCoefficient, fun x y => by simp [InfMat.coefficient, unitCoefficient], rfl⟩⟩ : ElasticContact (column l r) 1 1 1 0 none none (fun _ => 0) (fun i => ((i : Fin 3) : ℤ)))
    (fun _ => ⟨rfl, rfl⟩) (fun _ => rfl) (fun _ => rfl) (fun _ => rfl) rfl rfl rfl rfl).1 i

/-- Hypotheses of `C165_periodic`: five nodes around a ring, pressed at one of them. -/
example (k : ZMod 5 → XR) (t : ZMod 5) :
    let ring : ZMod 5 → Args XR (ZMod 5) := fun c => ⟨fun u i => ∑ j, k (j - i) * u j, fun i => .fin (if i = c then 1 else 0), .fin (1 / 10 ^ 6), 100, fun _ => .fin 1, .fin 0, fun _ => .pinf, 1⟩
    ∀ i, (bccg exact (ring (0 - t))).x i = (bccg exact (ring 0)).x (i + t) := by
  intro ring
  refine (C165_periodic k t (a := ring 0) (a' := ring (0 - t)) rfl rfl (fun i => ?_) (fun _ => rfl) (fun _ => rfl) rfl rfl rfl rfl).1
  show XR.fin (if i = 0 - t then 1 else 0) = .fin (if i + t = 0 then 1 else 0)
  simp only [eq_sub_iff_add_eq]

end Verif.Bccg
