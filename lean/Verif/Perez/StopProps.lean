import Verif.Perez.Props

/-!
# When the iteration for surfaces with given heights and spectrum stops, and which estimate is used (C117)
-/

namespace Verif.Perez

open Verif.Conv (Grid)

variable {m n : ℕ} [NeZero m] [NeZero n]

/-! ## Specification -/

/-- The estimates with the right heights: the start and one for each iteration. -/
noncomputable def iterate (o : Oracle m n) (ps : Grid m n → ℝ) (t : Fin (m * n) → ℝ) (h : Grid m n → ℝ) : ℕ → Grid m n → ℝ
  | 0 => h
  | k + 1 => rankStep o t (psdStep ps (iterate o ps t h k))

/-- The error of the heights of the estimate with the right spectrum in iteration `k`. -/
noncomputable def errorAt (o : Oracle m n) (ps : Grid m n → ℝ) (t : Fin (m * n) → ℝ) (h : Grid m n → ℝ) (k : ℕ) : Option ℝ := o.errH (psdStep ps (iterate o ps t h k))

/-- The estimate with the right spectrum has converged: its heights are right up to the accuracy. -/
def HeightsReached (cfg : Config) (o : Oracle m n) (g : Grid m n → ℝ) : Prop := ∃ e, o.errH g = some e ∧ e < cfg.accuracy

/-- The estimate with the right heights has converged: its spectrum is right up to the accuracy. -/
def SpectrumReached (cfg : Config) (o : Oracle m n) (h : Grid m n → ℝ) : Prop := ∃ e e0, o.errPS h = some e ∧ o.errPS0 h = some e0 ∧ e < cfg.accuracy ∧ e0 < cfg.accuracy

/-- There are two iterations before, and the error has changed by less than the minimum speed, relative to the error. -/
def IsSlow (cfg : Config) (e : ℕ → Option ℝ) (k : ℕ) : Prop := 2 ≤ k ∧ ∃ a b, e k = some a ∧ e (k - 1) = some b ∧ a ≠ 0 ∧ |a - b| / a < cfg.minSpeed

/-- There are two iterations before, and the error has grown. -/
def IsGrowing (e : ℕ → Option ℝ) (k : ℕ) : Prop := 2 ≤ k ∧ ∃ a b, e k = some a ∧ e (k - 1) = some b ∧ b < a

/-! ## The loop -/

/-- The errors after `k` iterations, the last one first. -/
noncomputable def errorsTo (o : Oracle m n) (ps : Grid m n → ℝ) (t : Fin (m * n) → ℝ) (h : Grid m n → ℝ) : ℕ → List (Option ℝ)
  | 0 => []
  | k + 1 => errorAt o ps t h k :: errorsTo o ps t h k

theorem errorsTo_length (o : Oracle m n) (ps : Grid m n → ℝ) (t : Fin (m * n) → ℝ) (h : Grid m n → ℝ) (k : ℕ) : (errorsTo o ps t h k).length = k := by
  induction k with
  | zero => rfl
  | succ k ih => rw [errorsTo, List.length_cons, ih]

/-- The loop from iteration `j` on ends in an iteration `k`. -/
theorem loop_first (cfg : Config) (o : Oracle m n) (ps : Grid m n → ℝ) (t : Fin (m * n) → ℝ) (h : Grid m n → ℝ) :
    ∀ (r j : ℕ), (cfg.maxIt - j).toNat = r → ∃ k v, j ≤ k ∧
      loop cfg o ps t (iterate o ps t h j) (errorsTo o ps t h j) = ⟨iterate o ps t h (k + 1), psdStep ps (iterate o ps t h k), errorsTo o ps t h (k + 1), v⟩ ∧
      stop cfg (errorsTo o ps t h (k + 1)) (o.errPS (iterate o ps t h (k + 1))) (o.errPS0 (iterate o ps t h (k + 1))) = some v ∧
      ∀ i, j ≤ i → i < k → stop cfg (errorsTo o ps t h (i + 1)) (o.errPS (iterate o ps t h (i + 1))) (o.errPS0 (iterate o ps t h (i + 1))) = none := by
  intro r
  induction r using Nat.strong_induction_on with
  | _ r ih =>
    intro j hr
    rw [loop]
    split
    · rename_i v hv
      exact ⟨j, v, le_rfl, rfl, hv, fun i h1 h2 => by omega⟩
    · rename_i hs
      have hlt : ¬cfg.maxIt ≤ ((errorsTo o ps t h (j + 1)).length : ℤ) := by
        intro hc
        unfold stop at hs
        rw [if_pos (show cfg.maxIt ≤ ((o.errH (psdStep ps (iterate o ps t h j)) :: errorsTo o ps t h j).length : ℤ) from hc)] at hs
        exact nomatch hs
      rw [errorsTo_length] at hlt
      push_cast at hlt
      obtain ⟨k, v, h1, h2, h3, h4⟩ := ih ((cfg.maxIt - (j + 1 : ℕ)).toNat) (by push_cast; omega) (j + 1) rfl
      refine ⟨k, v, by omega, h2, h3, fun i h5 h6 => ?_⟩
      rcases Nat.eq_or_lt_of_le h5 with h7 | h7
      · subst h7
        exact hs
      · exact h4 i h7 h6

/-- What each verdict means. -/
theorem stop_spec (cfg : Config) (o : Oracle m n) (ps : Grid m n → ℝ) (t : Fin (m * n) → ℝ) (h : Grid m n → ℝ) (k : ℕ) :
    stop cfg (errorsTo o ps t h (k + 1)) (o.errPS (iterate o ps t h (k + 1))) (o.errPS0 (iterate o ps t h (k + 1))) =
      open Classical in
      if cfg.maxIt ≤ k + 1 then some .tooMany
      else if IsSlow cfg (errorAt o ps t h) k then some .slow
      else if IsGrowing (errorAt o ps t h) k then some .diverging
      else if HeightsReached cfg o (psdStep ps (iterate o ps t h k)) then some .heights
      else if SpectrumReached cfg o (iterate o ps t h (k + 1)) then some .psd
      else none := by
  have hlen : (errorsTo o ps t h (k + 1)).length = k + 1 := errorsTo_length o ps t h (k + 1)
  have h0 : (errorsTo o ps t h (k + 1)).getD 0 none = errorAt o ps t h k := rfl
  have h1 : 2 ≤ k → (errorsTo o ps t h (k + 1)).getD 1 none = errorAt o ps t h (k - 1) := by
    intro hk
    obtain ⟨k', rfl⟩ : ∃ k', k = k' + 1 := ⟨k - 1, by omega⟩
    rfl
  have e1 : (2 < (errorsTo o ps t h (k + 1)).length ∧ tooSlow ((errorsTo o ps t h (k + 1)).getD 0 none) ((errorsTo o ps t h (k + 1)).getD 1 none) cfg.minSpeed) ↔ IsSlow cfg (errorAt o ps t h) k := by
    rw [hlen, h0]
    unfold IsSlow
    constructor
    · rintro ⟨hk, hs⟩
      have hk' : 2 ≤ k := by omega
      rw [h1 hk'] at hs
      refine ⟨hk', ?_⟩
      cases ha : errorAt o ps t h k with
      | none => rw [ha] at hs; exact hs.elim
      | some a =>
        cases hb : errorAt o ps t h (k - 1) with
        | none => rw [ha, hb] at hs; exact hs.elim
        | some b =>
          rw [ha, hb] at hs
          exact ⟨a, b, rfl, rfl, hs.1, hs.2⟩
    · rintro ⟨hk, a, b, ha, hb, hs⟩
      refine ⟨by omega, ?_⟩
      rw [h1 hk, ha, hb]
      exact hs
  have e2 : (2 < (errorsTo o ps t h (k + 1)).length ∧ grows ((errorsTo o ps t h (k + 1)).getD 0 none) ((errorsTo o ps t h (k + 1)).getD 1 none)) ↔ IsGrowing (errorAt o ps t h) k := by
    rw [hlen, h0]
    unfold IsGrowing
    constructor
    · rintro ⟨hk, hs⟩
      have hk' : 2 ≤ k := by omega
      rw [h1 hk'] at hs
      refine ⟨hk', ?_⟩
      cases ha : errorAt o ps t h k with
      | none => rw [ha] at hs; exact hs.elim
      | some a =>
        cases hb : errorAt o ps t h (k - 1) with
        | none => rw [ha, hb] at hs; exact hs.elim
        | some b =>
          rw [ha, hb] at hs
          exact ⟨a, b, rfl, rfl, sub_neg.1 hs⟩
    · rintro ⟨hk, a, b, ha, hb, hs⟩
      refine ⟨by omega, ?_⟩
      rw [h1 hk, ha, hb]
      exact sub_neg.2 hs
  have e3 : less ((errorsTo o ps t h (k + 1)).getD 0 none) cfg.accuracy ↔ HeightsReached cfg o (psdStep ps (iterate o ps t h k)) := by
    rw [h0]
    unfold HeightsReached errorAt
    cases o.errH (psdStep ps (iterate o ps t h k)) with
    | none => simp [less]
    | some a => simp [less]
  have e4 : (less (o.errPS (iterate o ps t h (k + 1))) cfg.accuracy ∧ less (o.errPS0 (iterate o ps t h (k + 1))) cfg.accuracy) ↔ SpectrumReached cfg o (iterate o ps t h (k + 1)) := by
    unfold SpectrumReached
    cases o.errPS (iterate o ps t h (k + 1)) with
    | none => simp [less]
    | some a =>
      cases o.errPS0 (iterate o ps t h (k + 1)) with
      | none => simp [less]
      | some b => simp [less]
  classical
  unfold stop
  refine if_congr (by rw [hlen]; push_cast; rfl) rfl ?_
  apply if_congr
  · exact e1
  · rfl
  apply if_congr
  · exact e2
  · rfl
  apply if_congr
  · exact e3
  · rfl
  apply if_congr
  · exact e4
  · rfl
  · rfl

/-- The estimate that is scaled back to the profile. -/
def Scaled (hs p x : Grid m n → ℝ) : Prop := ∀ a, p a = x a * sqRoughness hs + meanHeight hs

/-- **C117, the iteration.** The two estimates that are returned are those of the first iteration in which the iterations are used up, the error changes too slowly, the error grows, or one of the estimates has converged; the errors are those of all iterations. -/
theorem C117_first (cfg : Config) (o : Oracle m n) (exact : Exact) (psd : Grid m n → ℝ) (hs : Grid m n → ℝ) (rn se ro : Bool) (h g : Grid m n → ℝ) (errors : List (Option ℝ))
    (hok : (discretise cfg o exact psd (some hs) rn se ro).1 = .ok (.original h g errors)) :
    let it := iterate o (scalePsd psd) (sortedTargets o hs) (normalise hs)
    let e := errorAt o (scalePsd psd) (sortedTargets o hs) (normalise hs)
    let Ends := fun k : ℕ => cfg.maxIt ≤ k + 1 ∨ IsSlow cfg e k ∨ IsGrowing e k ∨ HeightsReached cfg o (psdStep (scalePsd psd) (it k)) ∨ SpectrumReached cfg o (it (k + 1))
    ∃ k, h = it (k + 1) ∧ g = psdStep (scalePsd psd) (it k) ∧ errors = ((List.range (k + 1)).map e).reverse ∧ Ends k ∧ ∀ i < k, ¬Ends i := by
  intro it e Ends
  obtain ⟨hs', f, h1, hsq, hf, -, hout⟩ := discretise_ok cfg o exact psd (some hs) rn se ro _ hok
  cases h1
  obtain ⟨k, v, -, hk, hst, hbefore⟩ := loop_first cfg o (scalePsd psd) (sortedTargets o hs) (normalise hs) _ 0 rfl
  have hloop : loop cfg o (scalePsd psd) (sortedTargets o hs) (normalise hs) [] = ⟨it (k + 1), psdStep (scalePsd psd) (it k), errorsTo o (scalePsd psd) (sortedTargets o hs) (normalise hs) (k + 1), v⟩ := hk
  rw [hloop] at hf
  have key : h = f.height_guess ∧ g = f.psd_guess ∧ errors = f.errors := by
    cases rn <;> cases ro <;> simp_all
  have herr : ∀ k, errorsTo o (scalePsd psd) (sortedTargets o hs) (normalise hs) k = ((List.range k).map e).reverse := by
    intro k
    induction k with
    | zero => rfl
    | succ k ih => rw [errorsTo, ih, List.range_succ, List.map_append, List.reverse_append]; rfl
  refine ⟨k, by rw [key.1, hf], by rw [key.2.1, hf], by rw [key.2.2, hf]; exact herr _, ?_, fun i hi => ?_⟩
  · rw [stop_spec] at hst
    by_contra hc
    have hc' : ¬(cfg.maxIt ≤ k + 1 ∨ IsSlow cfg e k ∨ IsGrowing e k ∨ HeightsReached cfg o (psdStep (scalePsd psd) (it k)) ∨ SpectrumReached cfg o (it (k + 1))) := hc
    simp only [not_or] at hc'
    rw [if_neg hc'.1, if_neg hc'.2.1, if_neg hc'.2.2.1, if_neg hc'.2.2.2.1, if_neg hc'.2.2.2.2] at hst
    exact nomatch hst
  · have := hbefore i (Nat.zero_le _) hi
    rw [stop_spec] at this
    rintro (hc | hc | hc | hc | hc)
    · rw [if_pos hc] at this
      exact nomatch this
    all_goals
      split_ifs at this

/-- **C117, accuracy.** Without suppressed errors there is a result only if one of the two estimates has converged, and the profile is one of the two. -/
theorem C117_converged_partial (cfg : Config) (o : Oracle m n) (exact : Exact) (psd : Grid m n → ℝ) (hs : Grid m n → ℝ) (rn ro : Bool) (out : Out m n)
    (hok : (discretise cfg o exact psd (some hs) rn false ro).1 = .ok out) (p : Grid m n → ℝ) (hp : out.profile? = some p) :
    ∃ h' g, g = psdStep (scalePsd psd) h' ∧ let h := rankStep o (sortedTargets o hs) g
      (HeightsReached cfg o g ∨ SpectrumReached cfg o h) ∧ (exact = .psd → Scaled hs p g) ∧ (exact = .heights → Scaled hs p h) ∧ (exact = .best → Scaled hs p g ∨ Scaled hs p h) := by
  obtain ⟨hs', f, h1, hsq, hf, hv, hout⟩ := discretise_ok cfg o exact psd (some hs) rn false ro _ hok
  cases h1
  obtain ⟨k, v, -, hk, hst, -⟩ := loop_first cfg o (scalePsd psd) (sortedTargets o hs) (normalise hs) _ 0 rfl
  have hloop : loop cfg o (scalePsd psd) (sortedTargets o hs) (normalise hs) [] = _ := hk
  rw [hloop] at hf
  have hpr : p = fun a => (if useHeights exact f.verdict then f.height_guess a else f.psd_guess a) * sqRoughness hs + meanHeight hs := by
    simp only at hout
    cases rn <;> cases ro <;> simp_all [Out.profile?]
  refine ⟨iterate o (scalePsd psd) (sortedTargets o hs) (normalise hs) k, _, rfl, ?_, ?_, ?_, ?_⟩
  · have hv' : failed v = false := by
      rcases hv with hv | hv
      · rw [hf] at hv; exact hv
      · exact nomatch hv
    rw [stop_spec] at hst
    split_ifs at hst with c1 c2 c3 c4 c5
    · injection hst with hst; rw [← hst] at hv'; exact nomatch hv'
    · injection hst with hst; rw [← hst] at hv'; exact nomatch hv'
    · injection hst with hst; rw [← hst] at hv'; exact nomatch hv'
    · exact .inl c4
    · exact .inr c5
  · rintro rfl a
    rw [hpr, hf]
    rfl
  · rintro rfl a
    rw [hpr, hf]
    rfl
  · rintro rfl
    by_cases hu : useHeights .best f.verdict = true
    · right
      intro a
      rw [hpr]
      simp only [hu, if_true]
      rw [hf]
      rfl
    · left
      intro a
      rw [hpr]
      simp only [hu]
      rw [hf]
      rfl

/-- **C117, the other estimate is used (not as documented).** With `best` the estimate that has converged is never the one that is used, unless both have: if the heights of the estimate with the right spectrum have converged, the profile is the other one; otherwise the
spectrum of the estimate with the right heights has converged, and the profile is the one whose heights have not. -/
theorem C117_best_wrong (cfg : Config) (o : Oracle m n) (psd : Grid m n → ℝ) (hs : Grid m n → ℝ) (rn ro : Bool) (out : Out m n)
    (hok : (discretise cfg o .best psd (some hs) rn false ro).1 = .ok out) (p : Grid m n → ℝ) (hp : out.profile? = some p) :
    ∃ h' g, g = psdStep (scalePsd psd) h' ∧ let h := rankStep o (sortedTargets o hs) g
      (HeightsReached cfg o g ∧ Scaled hs p h) ∨ (SpectrumReached cfg o h ∧ ¬HeightsReached cfg o g ∧ Scaled hs p g) := by
  obtain ⟨hs', f, h1, hsq, hf, hv, hout⟩ := discretise_ok cfg o .best psd (some hs) rn false ro _ hok
  cases h1
  obtain ⟨k, v, -, hk, hst, -⟩ := loop_first cfg o (scalePsd psd) (sortedTargets o hs) (normalise hs) _ 0 rfl
  have hloop : loop cfg o (scalePsd psd) (sortedTargets o hs) (normalise hs) [] = _ := hk
  rw [hloop] at hf
  have hpr : p = fun a => (if useHeights .best f.verdict then f.height_guess a else f.psd_guess a) * sqRoughness hs + meanHeight hs := by
    simp only at hout
    cases rn <;> cases ro <;> simp_all [Out.profile?]
  have hv' : failed v = false := by
    rcases hv with hv | hv
    · rw [hf] at hv; exact hv
    · exact nomatch hv
  refine ⟨iterate o (scalePsd psd) (sortedTargets o hs) (normalise hs) k, _, rfl, ?_⟩
  rw [stop_spec] at hst
  split_ifs at hst with c1 c2 c3 c4 c5
  · injection hst with hst; rw [← hst] at hv'; exact nomatch hv'
  · injection hst with hst; rw [← hst] at hv'; exact nomatch hv'
  · injection hst with hst; rw [← hst] at hv'; exact nomatch hv'
  · injection hst with hst
    refine .inl ⟨c4, fun a => ?_⟩
    rw [hpr, hf, ← hst]
    rfl
  · injection hst with hst
    refine .inr ⟨c5, c4, fun a => ?_⟩
    rw [hpr, hf, ← hst]
    rfl

/-- **C117, failure.** Without suppressed errors the call raises `StopIteration` exactly if the iteration ends in an iteration in which the iterations are used up, the error changes too slowly or grows (even if an estimate has converged). -/
theorem C117_fails (cfg : Config) (o : Oracle m n) (exact : Exact) (psd : Grid m n → ℝ) (hs : Grid m n → ℝ) (hq : sqRoughness hs ≠ 0) (rn ro : Bool) (hr : (ro && rn) = false) :
    let it := iterate o (scalePsd psd) (sortedTargets o hs) (normalise hs)
    let e := errorAt o (scalePsd psd) (sortedTargets o hs) (normalise hs)
    let Fails := fun k : ℕ => cfg.maxIt ≤ k + 1 ∨ IsSlow cfg e k ∨ IsGrowing e k
    let Good := fun k : ℕ => HeightsReached cfg o (psdStep (scalePsd psd) (it k)) ∨ SpectrumReached cfg o (it (k + 1))
    (discretise cfg o exact psd (some hs) rn false ro).1 = .error .stopIteration ↔ ∃ k, Fails k ∧ ∀ i < k, ¬Fails i ∧ ¬Good i := by
  intro it e Fails Good
  obtain ⟨k, v, -, hk, hst, hbefore⟩ := loop_first cfg o (scalePsd psd) (sortedTargets o hs) (normalise hs) _ 0 rfl
  have hloop : (loop cfg o (scalePsd psd) (sortedTargets o hs) (normalise hs) []).verdict = v := by
    have : loop cfg o (scalePsd psd) (sortedTargets o hs) (normalise hs) [] = _ := hk
    rw [this]
  have hcases : ∀ j, (Fails j ∨ Good j) ↔ stop cfg (errorsTo o (scalePsd psd) (sortedTargets o hs) (normalise hs) (j + 1)) (o.errPS (it (j + 1))) (o.errPS0 (it (j + 1))) ≠ none := by
    intro j
    rw [stop_spec]
    constructor
    · rintro ((h | h | h) | (h | h))
      · rw [if_pos h]; simp
      all_goals
        intro hc
        split_ifs at hc
    · intro h
      by_contra hc
      have hc' : ¬((cfg.maxIt ≤ j + 1 ∨ IsSlow cfg e j ∨ IsGrowing e j) ∨ (HeightsReached cfg o (psdStep (scalePsd psd) (it j)) ∨ SpectrumReached cfg o (it (j + 1)))) := hc
      simp only [not_or] at hc'
      rw [if_neg hc'.1.1, if_neg hc'.1.2.1, if_neg hc'.1.2.2, if_neg hc'.2.1, if_neg hc'.2.2] at h
      exact h rfl
  have hfail : Fails k ↔ failed v = true := by
    rw [stop_spec] at hst
    split_ifs at hst with c1 c2 c3 c4 c5
    · injection hst with hst; rw [← hst]; exact ⟨fun _ => rfl, fun _ => .inl c1⟩
    · injection hst with hst; rw [← hst]; exact ⟨fun _ => rfl, fun _ => .inr (.inl c2)⟩
    · injection hst with hst; rw [← hst]; exact ⟨fun _ => rfl, fun _ => .inr (.inr c3)⟩
    · injection hst with hst; rw [← hst]
      exact ⟨by rintro (h | h | h); exacts [absurd h c1, absurd h c2, absurd h c3], fun h => nomatch h⟩
    · injection hst with hst; rw [← hst]
      exact ⟨by rintro (h | h | h); exacts [absurd h c1, absurd h c2, absurd h c3], fun h => nomatch h⟩
  have hdisc : (discretise cfg o exact psd (some hs) rn false ro).1 = .error .stopIteration ↔ failed v = true := by
    unfold discretise
    rw [if_neg (by rw [hr]; simp)]
    dsimp only
    rw [if_neg hq, hloop]
    cases hv : failed v
    · rw [if_neg (by simp)]
      simp
    · rw [if_pos (by simp)]
      simp
  rw [hdisc, ← hfail]
  constructor
  · intro h
    refine ⟨k, h, fun i hi => ?_⟩
    have := (hcases i).not.2 (by rw [not_not]; exact hbefore i (Nat.zero_le _) hi)
    exact not_or.1 this
  · rintro ⟨j, hj, hlt⟩
    rcases Nat.lt_trichotomy j k with h | h | h
    · exact absurd (hbefore j (Nat.zero_le _) h) ((hcases j).1 (.inl hj))
    · exact h ▸ hj
    · have h1 := hlt k h
      have h2 := (hcases k).2 (by rw [hst]; simp)
      exact absurd h2 (not_or.2 h1)

/-! ## Examples -/

/-- Heights that are not all equal. -/
theorem sample_rough : sqRoughness (fun a : Grid 2 2 => if a = 0 then (1 : ℝ) else 0) ≠ 0 := by
  unfold sqRoughness
  apply (Real.sqrt_pos.2 _).ne'
  apply div_pos _ (by norm_num)
  apply Finset.sum_pos'
  · intro a _; positivity
  · refine ⟨0, Finset.mem_univ _, ?_⟩
    have : meanHeight (fun a : Grid 2 2 => if a = 0 then (1 : ℝ) else 0) = 1 / 4 := by
      unfold meanHeight
      rw [Finset.sum_ite_eq' Finset.univ (0 : Grid 2 2), if_pos (Finset.mem_univ _)]
      norm_num
    rw [this]
    norm_num

/-- A call in which the heights have converged in the first iteration and the spectrum has not (its error is 1): the result is the estimate with the wrong spectrum (`C117_converged_partial`, `C117_best_wrong`). -/
example (s : (Grid 2 2 → ℝ) → (Fin (2 * 2) ≃ Grid 2 2)) : ∃ out p, (discretise ⟨1 / 10, 10, 0⟩ ⟨s, fun _ => some 0, fun _ => some 1, fun _ => some 1⟩ .best (fun _ => 1) (some fun a => if a = 0 then 1 else 0) false false false).1 = .ok out ∧
    out.profile? = some p ∧ ¬SpectrumReached ⟨1 / 10, 10, 0⟩ (⟨s, fun _ => some 0, fun _ => some 1, fun _ => some 1⟩ : Oracle 2 2) p := by
  have hl : ∀ h, (loop ⟨1 / 10, 10, 0⟩ (⟨s, fun _ => some 0, fun _ => some 1, fun _ => some 1⟩ : Oracle 2 2) (scalePsd fun _ => 1) (sortedTargets ⟨s, fun _ => some 0, fun _ => some 1, fun _ => some 1⟩ fun a => if a = 0 then 1 else 0) h []).verdict = .heights := by
    intro h
    rw [loop]
    split
    · rename_i v hv
      unfold stop at hv
      rw [if_neg (by norm_num), if_neg (by simp), if_neg (by simp), if_pos (by simp [less])] at hv
      injection hv with hv
      exact hv.symm
    · rename_i hv
      unfold stop at hv
      rw [if_neg (by norm_num), if_neg (by simp), if_neg (by simp), if_pos (by simp [less])] at hv
      exact nomatch hv
  have hex : ∃ out p, (discretise ⟨1 / 10, 10, 0⟩ ⟨s, fun _ => some 0, fun _ => some 1, fun _ => some 1⟩ .best (fun _ => 1) (some fun a : Grid 2 2 => if a = 0 then 1 else 0) false false false).1 = .ok out ∧ out.profile? = some p := by
    unfold discretise
    rw [if_neg (by simp)]
    dsimp only
    rw [if_neg sample_rough, hl, if_neg (by simp [failed])]
    exact ⟨_, _, rfl, rfl⟩
  obtain ⟨out, p, h1, h2⟩ := hex
  refine ⟨out, p, h1, h2, ?_⟩
  rintro ⟨e, e0, he, -, hlt, -⟩
  simp only [Option.some.injEq] at he
  rw [← he] at hlt
  norm_num at hlt

end Verif.Perez
