import Verif.SurfaceGeo.Spec
import Mathlib.Tactic.FieldSimp
import Mathlib.Tactic.Ring
import Mathlib.Tactic.NormNum
import Mathlib.Tactic.Linarith

/-! # C38: the geometry of a surface stays consistent -/

namespace Verif.SurfaceGeo

open Spec

variable {K : Type} [Field K] [LinearOrder K] [IsStrictOrderedRing K] [FloorRing K]

theorem trunc_int (n : ℤ) : trunc (n : K) = n := by
  unfold trunc; split <;> simp

theorem spacingFrom_shape (s : Geo K) (e : List K) (sh : List ℤ) :
    (spacingFrom s e sh).1.shape = s.shape ∧ (spacingFrom s e sh).1.size = s.size ∧ (spacingFrom s e sh).1.prof = s.prof := by
  unfold spacingFrom
  split
  · simp
  · simp
  · split <;> simp

theorem spacingFrom_agrees (s : Geo K) (e : List K) (sh : List ℤ) (hs : s.shape = some sh) (h : (spacingFrom s e sh).2 = none) :
    ExtentAgrees (spacingFrom s e sh).1 := by
  unfold spacingFrom at h ⊢
  split at h
  · simp at h
  · simp at h
  · split at h
    · simp at h
    · rename_i h0
      simp only [h0, if_false]
      intro e' sh' g he hs' hg
      simp only [Option.some.injEq] at he hg hs'
      rw [hs] at hs'
      cases hs'
      rw [← he, ← hg]

theorem shapeAgrees_of_none (s : Geo K) (hp : s.prof = none) (hs : s.shape = none) (hz : s.size = none) : ShapeAgrees s := by
  refine ⟨fun sh h => ?_, fun _ => hz, fun p h => ?_⟩
  · rw [hs] at h; cases h
  · rw [hp] at h; cases h

theorem shapeAgrees_of_some (s : Geo K) (sh : List ℤ) (hp : ∀ p, s.prof = some p → p = sh) (hs : s.shape = some sh)
    (hz : s.size = some sh.prod) : ShapeAgrees s := by
  refine ⟨fun t h => ?_, fun h => ?_, fun p h => ?_⟩
  · rw [hs] at h; cases h; exact hz
  · rw [hs] at h; cases h
  · rw [hp p h, hs]

/-- Two states with the same shape, size and profile. -/
theorem shapeAgrees_congr {s t : Geo K} (h : ShapeAgrees s) (h1 : t.shape = s.shape) (h2 : t.size = s.size) (h3 : t.prof = s.prof) :
    ShapeAgrees t := by
  unfold ShapeAgrees; rw [h1, h2, h3]; exact h

theorem shape_step (s : Geo K) (o : Op K) (h : ShapeAgrees s) : ShapeAgrees (step s o).1 := by
  cases o with
  | setGs a =>
    cases a with
    | none => exact h
    | notANumber => exact h
    | infinite => exact h
    | value g =>
      simp only [step, setGs]
      split
      · rename_i hp
        split
        · split
          · exact shapeAgrees_congr h rfl rfl rfl
          · exact shapeAgrees_of_some _ _ (fun p hp' => by simp only at hp hp'; rw [hp] at hp'; cases hp') rfl rfl
        · exact shapeAgrees_congr h rfl rfl rfl
        · exact shapeAgrees_congr h rfl rfl rfl
      · exact shapeAgrees_congr h rfl rfl rfl
  | delGs =>
    simp only [step, delGs]
    split
    · rename_i hp
      have hp' : s.prof = none := hp
      simp only [delShape, hp']
      exact shapeAgrees_of_none _ rfl rfl rfl
    · exact shapeAgrees_congr h rfl rfl rfl
  | setExtent v =>
    simp only [step, setExtent]
    split
    · exact h
    · split
      · split
        · exact h
        · exact h
        · split
          · exact h
          · split
            · split <;> exact shapeAgrees_congr h rfl rfl rfl
            · exact h
      · rename_i hp
        split
        · split
          · exact shapeAgrees_congr h rfl rfl rfl
          · rename_i sh _
            have hk := spacingFrom_shape
              ({ s with extent := some v, shape := some sh, size := some sh.prod } : Geo K) v sh
            exact shapeAgrees_of_some _ sh (fun p hp' => by rw [hk.2.2] at hp'; simp only [hp] at hp'; cases hp')
              hk.1 hk.2.1
        · split
          · rename_i sh _
            have hk := spacingFrom_shape ({ s with extent := some v } : Geo K) v sh
            exact shapeAgrees_congr h hk.1 hk.2.1 hk.2.2
          · exact shapeAgrees_congr h rfl rfl rfl
  | delExtent =>
    simp only [step, delExtent]
    split
    · rename_i hp; exact shapeAgrees_of_none _ hp rfl rfl
    · exact shapeAgrees_congr h rfl rfl rfl
  | setShape v =>
    simp only [step, setShape]
    split
    · exact h
    · rename_i hp
      have hp' : ∀ p, s.prof = some p → p = v.map trunc := fun p h' => by rw [hp] at h'; cases h'
      split
      · exact shapeAgrees_of_some _ _ hp' rfl rfl
      · rename_i e _ _
        have hk := spacingFrom_shape
          ({ s with shape := some (v.map trunc), size := some (v.map trunc).prod } : Geo K) e (v.map trunc)
        exact shapeAgrees_of_some _ _ (by rw [hk.2.2]; exact hp') hk.1 hk.2.1
      · exact shapeAgrees_of_some _ _ hp' rfl rfl
  | delShape =>
    simp only [step, delShape]
    split
    · rename_i hp; exact shapeAgrees_of_none _ hp rfl rfl
    · exact h
  | setProfile sh =>
    have key : (step s (.setProfile sh)).1.prof = some (sh.map fun n : ℕ => (n : ℤ)) ∧
        (step s (.setProfile sh)).1.shape = some (sh.map fun n : ℕ => (n : ℤ)) ∧
        (step s (.setProfile sh)).1.size = some (sh.map fun n : ℕ => (n : ℤ)).prod := by
      simp only [step, setProfile]
      split
      · simp
      · split
        · rename_i hp
          split
          · exact ⟨rfl, rfl, rfl⟩
          · split <;> exact ⟨rfl, rfl, rfl⟩
        · split
          · exact ⟨rfl, rfl, rfl⟩
          · exact ⟨rfl, rfl, rfl⟩
          · split
            · split
              · exact ⟨rfl, rfl, rfl⟩
              · split <;> exact ⟨rfl, rfl, rfl⟩
            · exact ⟨rfl, rfl, rfl⟩
        · exact ⟨rfl, rfl, rfl⟩
      · simp
    exact shapeAgrees_of_some _ _ (fun p hp => by rw [key.1] at hp; cases hp; rfl) key.2.1 key.2.2
  | delProfile =>
    simp only [step, delProfile, delShape, delExtent]
    exact shapeAgrees_of_none _ rfl rfl rfl

/-- **C38, size and shape.** After any sequence of assignments and deletions of the grid spacing, the extent, the shape and the profile, with
any arguments, exceptions included, the size is the number of points in the shape and a profile has the recorded shape. -/
theorem C38_size_and_shape (ops : List (Op K)) : ShapeAgrees (run (Geo.new : Geo K) ops) := by
  have gen : ∀ (ops : List (Op K)) (s : Geo K), ShapeAgrees s → ShapeAgrees (run s ops) := by
    intro ops
    induction ops with
    | nil => exact fun s h => h
    | cons o os ih => exact fun s h => ih _ (shape_step s o h)
  exact gen ops _ (shapeAgrees_of_none _ rfl rfl rfl)

/-- The invariant of the first and the second version, as a statement about one call. -/
theorem mapComm (l : List ℤ) (g : K) : (l.map fun n : ℤ => g * (n : K)) = l.map fun n : ℤ => (n : K) * g :=
  List.map_congr_left fun n _ => mul_comm _ _

theorem agrees_of_no_gs (s : Geo K) (h : s.gs = none) : ExtentAgrees s := by
  intro e sh g _ _ hg; rw [h] at hg; cases hg

theorem agrees_of_no_extent (s : Geo K) (h : s.extent = none) : ExtentAgrees s := by
  intro e sh g he _ _; rw [h] at he; cases he

theorem agrees_of_no_shape (s : Geo K) (h : s.shape = none) : ExtentAgrees s := by
  intro e sh g _ hs _; rw [h] at hs; cases hs

theorem agrees_of_eq (s : Geo K) (sh : List ℤ) (g : K) (hs : s.shape = some sh) (hg : s.gs = some g)
    (he : s.extent = some (sh.map fun n : ℤ => (n : K) * g)) : ExtentAgrees s := by
  intro e sh' g' he' hs' hg'
  rw [hs] at hs'; rw [hg] at hg'; rw [he] at he'
  cases hs'; cases hg'; cases he'; rfl

theorem near_of_agrees {s : Geo K} (h : ExtentAgrees s) : NearlyAgrees s := fun e sh g he hs hg => Or.inl (h e sh g he hs hg)

/-- Assignments other than those of an extent to a profile or a profile to an extent give exact agreement. -/
theorem step_agrees (s : Geo K) (o : Op K) (h : ShapeAgrees s) (hok : (step s o).2 = none)
    (hsh : ∀ v, o = .setShape v → ∀ x ∈ v, ∃ n : ℤ, x = n) (h1 : ∀ v, o = .setExtent v → s.prof = none)
    (h2 : ∀ sh, o = .setProfile sh → s.extent = none ∨ s.gs ≠ none) (h3 : ∀ a, o = .setGs a → ∃ g, a = .value g)
    (h4 : o = .delShape → s.prof = none) : ExtentAgrees (step s o).1 := by
  cases o with
  | setGs a =>
    obtain ⟨g, rfl⟩ := h3 a rfl
    simp only [step, setGs] at hok ⊢
    split at hok
    · rename_i hp
      split at hok
      · split at hok
        · cases hok
        · exact agrees_of_eq _ _ g rfl rfl rfl
      · rename_i sh _ hs
        exact agrees_of_eq _ _ g hs rfl (by rw [← mapComm])
      · rename_i hs
        exact agrees_of_no_extent _ (by assumption)
    · rename_i p hp
      exact agrees_of_eq _ p g (h.2.2 p hp) rfl rfl
  | delGs =>
    simp only [step, delGs]
    split
    · rename_i hp
      have hp' : s.prof = none := hp
      simp only [delShape, hp']
      exact agrees_of_no_gs _ rfl
    · exact agrees_of_no_gs _ rfl
  | setExtent v =>
    have hp := h1 v rfl
    simp only [step, setExtent, hp] at hok ⊢
    split at hok
    · cases hok
    · rename_i hl
      simp only [hl, if_false]
      cases hg : s.gs with
      | some g =>
        simp only [hg] at hok ⊢
        cases hd : divide v g with
        | none => simp only [hd] at hok; cases hok
        | some sh => simp only [hd] at hok ⊢; exact spacingFrom_agrees _ _ _ rfl hok
      | none =>
        simp only [hg] at hok ⊢
        cases hs : s.shape with
        | some sh => simp only [hs] at hok ⊢; exact spacingFrom_agrees _ _ _ (by simp) hok
        | none => simp only [hs] at hok ⊢; exact agrees_of_no_gs _ (by simp)
  | delExtent =>
    simp only [step, delExtent]
    split <;> exact agrees_of_no_gs _ rfl
  | setShape v =>
    have hint := hsh v rfl
    have hv : v = (v.map trunc).map fun n : ℤ => (n : K) := by
      rw [List.map_map]
      conv_lhs => rw [← List.map_id v]
      refine List.map_congr_left fun x hx => ?_
      obtain ⟨n, rfl⟩ := hint x hx
      simp [trunc_int]
    simp only [step, setShape] at hok ⊢
    cases hp : s.prof with
    | some p => simp only [hp] at hok; cases hok
    | none =>
      simp only [hp] at hok ⊢
      cases hg : s.gs with
      | some g =>
        simp only [hg]
        refine agrees_of_eq _ (v.map trunc) g rfl (by simp) ?_
        simp only [Option.some.injEq]
        conv_lhs => rw [hv]
        rw [List.map_map]; rfl
      | none =>
        simp only [hg] at hok ⊢
        cases he : s.extent with
        | some e => simp only [he] at hok ⊢; exact spacingFrom_agrees _ _ _ rfl hok
        | none => simp only [he] at hok ⊢; exact agrees_of_no_gs _ (by simp)
  | delShape =>
    simp only [step, delShape, h4 rfl]
    exact agrees_of_no_gs _ rfl
  | setProfile sh =>
    simp only [step, setProfile]
    cases hg : s.gs with
    | some g => simp only; exact agrees_of_eq _ _ g rfl (by simp) (by rw [← mapComm])
    | none =>
      rcases h2 sh rfl with he | h'
      · simp only [he]; exact agrees_of_no_gs _ (by simp)
      · exact absurd hg h'
  | delProfile =>
    simp only [step, delProfile, delShape, delExtent]
    exact agrees_of_no_gs _ rfl

/-- The assignments left out by `step_agrees`. -/
theorem step_cases (s : Geo K) (o : Op K) (h : ShapeAgrees s) (hok : (step s o).2 = none)
    (hsh : ∀ v, o = .setShape v → ∀ x ∈ v, ∃ n : ℤ, x = n) :
    ExtentAgrees (step s o).1 ∨ (step s o).1 = s ∨
    (∃ v p v0 v1 p0 p1 pr, o = .setExtent v ∧ s.prof = some p ∧ v = [v0, v1] ∧ p = p0 :: p1 :: pr ∧ p0 ≠ 0 ∧
      |v0 / v1 - (p0 : K) / (p1 : K)| ≤ 1 / 10000 ∧ (step s o).1 = { s with extent := some v, gs := some (v0 / (p0 : K)) }) ∨
    (∃ sh e, o = .setProfile sh ∧ s.extent = some e ∧ s.gs = none ∧
      ((∃ e0 er p0, e = e0 :: er ∧ sh.map (fun n : ℕ => (n : ℤ)) = [p0] ∧ p0 ≠ 0 ∧
        (step s o).1.extent = some e ∧ (step s o).1.shape = some [p0] ∧ (step s o).1.gs = some (e0 / (p0 : K))) ∨
       (∃ e0 e1 er p0 p1, e = e0 :: e1 :: er ∧ sh.map (fun n : ℕ => (n : ℤ)) = [p0, p1] ∧ p0 ≠ 0 ∧ |e0 / e1 - (p0 : K) / (p1 : K)| ≤ 1 / 10000 ∧
        (step s o).1.extent = some e ∧ (step s o).1.shape = some [p0, p1] ∧ (step s o).1.gs = some (e0 / (p0 : K))))) := by
  have triv : ∀ (o' : Op K), o = o' → (∀ v, o' = .setExtent v → s.prof = none) → (∀ sh, o' = .setProfile sh → s.extent = none ∨ s.gs ≠ none) →
      (∀ a, o' = .setGs a → ∃ g, a = .value g) → (o' = .delShape → s.prof = none) → ExtentAgrees (step s o).1 := by
    intro o' ho a1 a2 a3 a4; subst ho
    exact step_agrees s o h hok hsh a1 a2 a3 a4
  cases o with
  | setGs a =>
    cases a with
    | none => exact .inr (.inl rfl)
    | notANumber => exact .inr (.inl rfl)
    | infinite => exact .inr (.inl rfl)
    | value g => exact .inl (triv _ rfl (fun v h => by cases h) (fun v h => by cases h) (fun a h => by cases h; exact ⟨_, rfl⟩) (fun h => by cases h))
  | delGs => exact .inl (triv _ rfl (fun v h => by cases h) (fun v h => by cases h) (fun a h => by cases h) (fun h => by cases h))
  | delExtent => exact .inl (triv _ rfl (fun v h => by cases h) (fun v h => by cases h) (fun a h => by cases h) (fun h => by cases h))
  | setShape v => exact .inl (triv _ rfl (fun v h => by cases h) (fun v h => by cases h) (fun a h => by cases h) (fun h => by cases h))
  | delProfile => exact .inl (triv _ rfl (fun v h => by cases h) (fun v h => by cases h) (fun a h => by cases h) (fun h => by cases h))
  | delShape =>
    refine .inl (triv _ rfl (fun v h => by cases h) (fun v h => by cases h) (fun a h => by cases h) (fun _ => ?_))
    simp only [step, delShape] at hok
    split at hok
    · assumption
    · cases hok
  | setExtent v =>
    cases hp : s.prof with
    | none => exact .inl (triv _ rfl (fun v h => hp) (fun v h => by cases h) (fun a h => by cases h) (fun h => by cases h))
    | some p =>
      refine .inr (.inr (.inl ?_))
      simp only [step, setExtent, hp] at hok ⊢
      split at hok
      · cases hok
      rename_i hl
      simp only [hl, if_false]
      match p, v, hp, hl, hok with
      | [], _, _, _, hok => simp [aspect] at hok
      | [_], _, _, _, hok => simp [aspect] at hok
      | p0 :: p1 :: pr, [], _, _, hok => simp only [aspect, List.map_cons] at hok; split at hok <;> simp_all
      | p0 :: p1 :: pr, [_], _, _, hok => simp only [aspect, List.map_cons] at hok; split at hok <;> simp_all
      | p0 :: p1 :: pr, a :: b :: c :: d, _, hl, _ => simp at hl
      | p0 :: p1 :: pr, [v0, v1], hp, hl, hok =>
        simp only [aspect, List.map_cons] at hok ⊢
        by_cases h1 : (p1 : K) = 0
        · simp [h1] at hok
        by_cases h2 : v1 = 0
        · simp [h1, h2] at hok
        simp only [h1, h2, if_false] at hok ⊢
        split at hok
        · cases hok
        rename_i h3
        simp only [h3, if_false] at hok ⊢
        split at hok
        · cases hok
        rename_i h4
        simp only [h4, if_false]
        exact ⟨[v0, v1], p0 :: p1 :: pr, v0, v1, p0, p1, pr, rfl, rfl, rfl, rfl, h4, not_lt.1 h3, rfl⟩
  | setProfile sh =>
    cases he : s.extent with
    | none => exact .inl (triv _ rfl (fun v h => by cases h) (fun v h => .inl he) (fun a h => by cases h) (fun h => by cases h))
    | some e =>
      cases hg : s.gs with
      | some g => exact .inl (triv _ rfl (fun v h => by cases h) (fun v h => .inr (by rw [hg]; simp)) (fun a h => by cases h) (fun h => by cases h))
      | none =>
        generalize hq : sh.map (fun n : ℕ => (n : ℤ)) = q
        simp only [step, setProfile, hg, he, hq] at hok ⊢
        match q, e with
        | [], _ => exact .inl (agrees_of_no_gs _ (by simp [hg]))
        | a :: b :: c :: d, _ => exact .inl (agrees_of_no_gs _ (by simp [hg]))
        | [p0], [] => simp at hok
        | [p0], e0 :: er =>
          simp only at hok ⊢
          split at hok
          · cases hok
          rename_i h0
          simp only [h0, if_false]
          exact .inr (.inr (.inr ⟨sh, _, rfl, rfl, trivial, .inl ⟨e0, er, p0, rfl, hq, h0, rfl, rfl, rfl⟩⟩))
        | [p0, p1], [] => simp [aspect] at hok
        | [p0, p1], [_] => simp [aspect] at hok
        | [p0, p1], e0 :: e1 :: er =>
          simp only [aspect, List.map_cons] at hok ⊢
          by_cases h2 : e1 = 0
          · simp [h2] at hok
          by_cases h1 : (p1 : K) = 0
          · simp [h1, h2] at hok
          simp only [h1, h2, if_false] at hok ⊢
          split at hok
          · rename_i h3
            simp only [h3, if_true] at hok ⊢
            split at hok
            · cases hok
            rename_i h4
            simp only [h4, if_false]
            exact .inr (.inr (.inr ⟨sh, _, rfl, rfl, trivial, .inr ⟨e0, e1, er, p0, p1, rfl, hq, h4, h3.le, rfl, rfl, rfl⟩⟩))
          · rename_i h3
            simp only [h3, if_false]
            exact .inl (agrees_of_no_gs _ (by simp [hg]))

theorem proportion_cons {e : List K} {e0 : K} {p0 : ℤ} {er : List K} {pr : List ℤ} (he : e = e0 :: er) (hp : p0 ≠ 0)
    (h : InProportion e (p0 :: pr)) : e = (p0 :: pr).map fun n : ℤ => (n : K) * (e0 / (p0 : K)) := by
  obtain ⟨d, hd⟩ := h
  have h0 : (p0 : K) ≠ 0 := Int.cast_ne_zero.2 hp
  have hd' := hd
  rw [he, List.map_cons, List.cons.injEq] at hd'
  have : e0 / (p0 : K) = d := by rw [hd'.1]; field_simp
  rw [this]; exact hd

theorem exact_step (s : Geo K) (o : Op K) (h : ShapeAgrees s) (ha : ExtentAgrees s) (hok : (step s o).2 = none) (hx : Exact s o) :
    ExtentAgrees (step s o).1 := by
  rcases step_cases s o h hok (fun v hv => by subst hv; exact hx) with h' | h' | ⟨v, p, v0, v1, p0, p1, pr, ho, hp, hv, hpp, h0, -, hst⟩ | ⟨sh, e, ho, he, hg, h'⟩
  · exact h'
  · rw [h']; exact ha
  · subst ho
    rw [hst]
    have hprop : InProportion v (p0 :: p1 :: pr) := hpp ▸ hx p hp
    refine agrees_of_eq _ p _ (h.2.2 p hp) rfl ?_
    simp only [Option.some.injEq]
    rw [hpp]
    exact proportion_cons hv h0 hprop
  · subst ho
    have hprop := hx e he hg
    rcases h' with ⟨e0, er, p0, hee, hq, h0, h1, h2, h3⟩ | ⟨e0, e1, er, p0, p1, hee, hq, h0, -, h1, h2, h3⟩
    · rw [hq] at hprop
      refine agrees_of_eq _ _ _ h2 h3 (h1.trans ?_)
      rw [Option.some.injEq]; exact proportion_cons hee h0 hprop
    · rw [hq] at hprop
      refine agrees_of_eq _ _ _ h2 h3 (h1.trans ?_)
      rw [Option.some.injEq]; exact proportion_cons hee h0 hprop

theorem near_step (s : Geo K) (o : Op K) (h : ShapeAgrees s) (ha : NearlyAgrees s) (hok : (step s o).2 = none) (hx : Sensible s o) :
    NearlyAgrees (step s o).1 := by
  rcases step_cases s o h hok (fun v hv => by subst hv; exact hx) with h' | h' | ⟨v, p, v0, v1, p0, p1, pr, ho, hp, hv, hpp, h0, hn, hst⟩ | ⟨sh, e, ho, he, hg, h'⟩
  · exact near_of_agrees h'
  · rw [h']; exact ha
  · subst ho
    rw [hst]
    have hl := hx p hp
    have hs := h.2.2 p hp
    intro e' sh' g' he' hs' hg'
    simp only [Option.some.injEq] at he' hg' hs'
    rw [hs] at hs'; cases hs'
    rw [hv, hpp] at hl
    have : pr = [] := by
      cases pr with
      | nil => rfl
      | cons a b => simp at hl
    subst this
    have h0' : (p0 : K) ≠ 0 := Int.cast_ne_zero.2 h0
    refine .inr ⟨v0, v1, p0, p1, by rw [← he', hv], hpp, ?_, hn⟩
    rw [← hg']; field_simp
  · subst ho
    have hl := hx e he hg
    rcases h' with ⟨e0, er, p0, hee, hq, h0, h1, h2, h3⟩ | ⟨e0, e1, er, p0, p1, hee, hq, h0, hn, h1, h2, h3⟩
    · intro e' sh' g' he' hs' hg'
      rw [h1] at he'; rw [h2] at hs'; rw [h3] at hg'
      cases he'; cases hs'; cases hg'
      have hl2 := congrArg List.length hq
      rw [List.length_map] at hl2
      have h0' : (p0 : K) ≠ 0 := Int.cast_ne_zero.2 h0
      rw [hee, hl2] at hl
      have : er = [] := by
        cases er with
        | nil => rfl
        | cons a b => simp at hl
      left
      rw [hee, this]
      simp only [List.map_cons, List.map_nil, List.cons.injEq, and_true]
      field_simp
    · intro e' sh' g' he' hs' hg'
      rw [h1] at he'; rw [h2] at hs'; rw [h3] at hg'
      cases he'; cases hs'; cases hg'
      have hl2 := congrArg List.length hq
      rw [List.length_map] at hl2
      have h0' : (p0 : K) ≠ 0 := Int.cast_ne_zero.2 h0
      rw [hee, hl2] at hl
      have : er = [] := by
        cases er with
        | nil => rfl
        | cons a b => simp at hl
      refine .inr ⟨e0, e1, p0, p1, by rw [hee, this], rfl, ?_, hn⟩
      field_simp

/-- **C38, extent (partial).** After any history of assignments and deletions the extent is the shape times the grid spacing, provided no call
raised an exception, shapes are given as whole numbers, and an extent assigned to a profile (or a profile assigned to an extent) has
exactly the proportions of the profile. Missing: the other histories, for which the claim is false, see `C38_extent_can_disagree`. -/
theorem C38_extent_partial (ops : List (Op K)) (h : All Exact (Geo.new : Geo K) ops) : ExtentAgrees (run Geo.new ops) := by
  have gen : ∀ (ops : List (Op K)) (s : Geo K), ShapeAgrees s → ExtentAgrees s → All Exact s ops → ExtentAgrees (run s ops) := by
    intro ops
    induction ops with
    | nil => exact fun s _ h _ => h
    | cons o os ih => exact fun s h1 h2 h3 => ih _ (shape_step s o h1) (exact_step s o h1 h2 h3.2.1 h3.1) h3.2.2
  exact gen ops _ (shapeAgrees_of_none _ rfl rfl rfl) (agrees_of_no_gs _ rfl) h

/-- **C38, extent with the tolerance of the code (partial).** If no call raised an exception, shapes are whole numbers and extents and profiles
have the same number of dimensions, then the extent is the shape times the grid spacing, up to the tolerance of 0.0001 on the quotient of the two
directions. Missing: as above. -/
theorem C38_extent_within_tolerance_partial (ops : List (Op K)) (h : All Sensible (Geo.new : Geo K) ops) : NearlyAgrees (run Geo.new ops) := by
  have gen : ∀ (ops : List (Op K)) (s : Geo K), ShapeAgrees s → NearlyAgrees s → All Sensible s ops → NearlyAgrees (run s ops) := by
    intro ops
    induction ops with
    | nil => exact fun s _ h _ => h
    | cons o os ih => exact fun s h1 h2 h3 => ih _ (shape_step s o h1) (near_step s o h1 h2 h3.2.1 h3.1) h3.2.2
  exact gen ops _ (shapeAgrees_of_none _ rfl rfl rfl) (near_of_agrees (agrees_of_no_gs _ rfl)) h

/-- **C38, new surfaces.** If the constructor does not raise an exception and the shape is given in whole numbers, the attributes of the new
surface agree. -/
theorem C38_new_surface (gs : Option K) (extent shape : Option (List K)) (hok : (construct gs extent shape).2 = none)
    (hsh : ∀ v, shape = some v → ∀ x ∈ v, ∃ n : ℤ, x = n) : ExtentAgrees (construct gs extent shape).1 ∧ ShapeAgrees (construct gs extent shape).1 := by
  have seq : ∀ (r : Out K) (f : Geo K → Out K), (andThen r f).2 = none → r.2 = none ∧ andThen r f = f r.1 ∧ (f r.1).2 = none := by
    intro r f h
    unfold andThen at h ⊢
    split at h
    · cases h
    · rename_i h'; exact ⟨h', by simp [h'], h⟩
  have h0 : ShapeAgrees (Geo.new : Geo K) ∧ ExtentAgrees (Geo.new : Geo K) ∧ (Geo.new : Geo K).prof = none :=
    ⟨shapeAgrees_of_none _ rfl rfl rfl, agrees_of_no_gs _ rfl, rfl⟩
  unfold construct at hok ⊢
  split at hok
  · cases hok
  rename_i hall
  rw [if_neg hall]
  obtain ⟨hk2, he2, hk3⟩ := seq _ _ hok
  obtain ⟨hk1, he1, -⟩ := seq _ _ hk2
  rw [he2]
  generalize hr1 : ifGiven gs (fun s g => setGs s (.value g)) (Geo.new : Geo K) = r1 at *
  have i1 : ShapeAgrees r1.1 ∧ ExtentAgrees r1.1 ∧ r1.1.prof = none := by
    subst hr1
    cases gs with
    | none => exact h0
    | some g => exact ⟨shape_step _ (.setGs (.value g)) h0.1, exact_step _ (.setGs (.value g)) h0.1 h0.2.1 hk1 trivial, rfl⟩
  generalize hr2 : andThen r1 (ifGiven extent setExtent) = r2 at *
  have i2 : ShapeAgrees r2.1 ∧ ExtentAgrees r2.1 ∧ r2.1.prof = none := by
    rw [he1] at hk2 ⊢
    cases extent with
    | none => exact i1
    | some v =>
      have hx : Exact r1.1 (.setExtent v) := fun p hp => by rw [i1.2.2] at hp; cases hp
      refine ⟨shape_step _ (.setExtent v) i1.1, exact_step _ (.setExtent v) i1.1 i1.2.1 hk2 hx, ?_⟩
      show (setExtent r1.1 v).1.prof = none
      simp only [setExtent, i1.2.2]
      split
      · exact i1.2.2
      · split
        · split
          · rfl
          · rw [(spacingFrom_shape _ _ _).2.2]
        · split
          · rw [(spacingFrom_shape _ _ _).2.2]
          · rfl
  cases shape with
  | none => exact ⟨i2.2.1, i2.1⟩
  | some v => exact ⟨exact_step _ (.setShape v) i2.1 i2.2.1 hk3 (hsh v rfl), shape_step _ (.setShape v) i2.1⟩

/-- The hypotheses can be met. -/
example : (construct (some (1 / 2 : ℚ)) (some [3, 4]) none).2 = none ∧ (construct (none : Option ℚ) (some [3, 4]) (some [6, 8])).2 = none := by
  norm_num [construct, andThen, ifGiven, setGs, setExtent, setShape, Geo.new, divide, trunc, spacingFrom]

/-- **C38 is false as stated.** Four histories after which all attributes are set and the extent is not the shape times the grid spacing: an
extent of slightly different proportions given to a square profile; an extent smaller than the grid spacing (`ZeroDivisionError`, but the attributes
have already been changed); a shape that is not a whole number; a one-dimensional profile given to a two-dimensional extent. -/
theorem C38_extent_can_disagree :
    (¬ ExtentAgrees (run (Geo.new : Geo ℚ) [.setProfile [2, 2], .setExtent [1, 100005 / 100000]]) ∧
      (step (step (Geo.new : Geo ℚ) (.setProfile [2, 2])).1 (.setExtent [1, 100005 / 100000])).2 = none) ∧
    (¬ ExtentAgrees (run (Geo.new : Geo ℚ) [.setGs (.value 2), .setExtent [1, 1]]) ∧
      (step (step (Geo.new : Geo ℚ) (.setGs (.value 2))).1 (.setExtent [1, 1])).2 = some .zeroDivisionError) ∧
    ¬ ExtentAgrees (run (Geo.new : Geo ℚ) [.setGs (.value 1), .setShape [37 / 10]]) ∧
    ¬ ExtentAgrees (run (Geo.new : Geo ℚ) [.setExtent [1, 2], .setProfile [4]]) := by
  refine ⟨⟨fun h => ?_, ?_⟩, ⟨fun h => ?_, ?_⟩, fun h => ?_, fun h => ?_⟩
  · have := h [1, 100005 / 100000] [2, 2] (1 / 2)
    norm_num [run, step, setProfile, setExtent, Geo.new, aspect, abs_le] at this
  · norm_num [step, setProfile, setExtent, Geo.new, aspect, abs_le]
  · have := h [1, 1] [0, 0] 2
    norm_num [run, step, setGs, setExtent, Geo.new, divide, trunc, spacingFrom] at this
  · norm_num [run, step, setGs, setExtent, Geo.new, divide, trunc, spacingFrom]
  · have := h [37 / 10] [3] 1
    norm_num [run, step, setGs, setShape, Geo.new, trunc] at this
  · have := h [1, 2] [4] (1 / 4)
    norm_num [run, step, setProfile, setExtent, Geo.new] at this

/-- The hypotheses of `C38_extent_partial` can be met: a history with all kinds of calls. -/
example : All Exact (Geo.new : Geo ℚ)
    [.setGs (.value (1 / 2)), .setExtent [3, 4], .setShape [5, 6], .delGs, .setProfile [3, 4], .setExtent [6, 8], .setGs .none, .delProfile,
      .setExtent [1, 2], .setProfile [10, 20]] := by
  have e1 : InProportion ([6, 8] : List ℚ) [3, 4] := ⟨2, by norm_num⟩
  have e2 : InProportion ([1, 2] : List ℚ) [10, 20] := ⟨1 / 10, by norm_num⟩
  norm_num [All, Exact, step, setGs, setExtent, setShape, delGs, setProfile, delProfile, delShape, delExtent, Geo.new, divide, trunc,
    spacingFrom, aspect, e1, e2]
  exact ⟨fun _ h => (nomatch h), ⟨⟨5, by norm_num⟩, ⟨6, by norm_num⟩⟩, fun _ h => (nomatch h), fun _ h => (nomatch h)⟩

/-- The hypotheses of the version with the tolerance, `C38_extent_within_tolerance_partial`, can be met where those of the exact version are not. -/
example : All Sensible (Geo.new : Geo ℚ) [.setProfile [2, 2], .setExtent [1, 100005 / 100000]] ∧
    ¬ All Exact (Geo.new : Geo ℚ) [.setProfile [2, 2], .setExtent [1, 100005 / 100000]] := by
  constructor
  · norm_num [All, Sensible, step, setExtent, setProfile, Geo.new, aspect, abs_le]
    exact fun _ h => nomatch h
  · intro h
    have h1 : InProportion ([1, 100005 / 100000] : List ℚ) [2, 2] := by
      norm_num [All, Exact, step, setExtent, setProfile, Geo.new, aspect, abs_le] at h ⊢
      exact h.2
    obtain ⟨d, hd⟩ := h1
    norm_num at hd
    linarith [hd.1, hd.2]

/-! ## The values that are assigned -/

/-- **C38, first length.** Without a profile and a spacing, the spacing found from an extent and a shape divides the first length into the first number of
points, whichever of the two is assigned last; the first length is kept. -/
theorem C38_first_length (s : Geo K) (v0 : K) (vr : List K) (s0 : ℤ) (sr : List ℤ) (h0 : s0 ≠ 0) (hp : s.prof = none) (hg : s.gs = none) (hv : vr.length ≤ 1) :
    (s.shape = some (s0 :: sr) → ∃ t g er, setExtent s (v0 :: vr) = (t, none) ∧ t.gs = some g ∧ g * (s0 : K) = v0 ∧ t.extent = some (v0 :: er)) ∧
    (s.extent = some (v0 :: vr) → ∃ t g er, setShape s ((s0 : K) :: sr.map fun n : ℤ => (n : K)) = (t, none) ∧ t.gs = some g ∧ g * (s0 : K) = v0 ∧
      t.extent = some (v0 :: er)) := by
  have hk : (s0 : K) ≠ 0 := Int.cast_ne_zero.mpr h0
  have hc : (s0 : K) * (v0 / (s0 : K)) = v0 := by field_simp
  have hl : ¬ 2 < (v0 :: vr).length := by simp; omega
  have he : ((s0 : K) :: sr.map fun n : ℤ => (n : K)).map trunc = s0 :: sr := by
    rw [List.map_cons, trunc_int, List.map_map]
    congr 1
    conv_rhs => rw [← List.map_id sr]
    exact List.map_congr_left fun n _ => trunc_int n
  constructor
  · intro hs
    refine ⟨_, v0 / (s0 : K), sr.map fun n : ℤ => (n : K) * (v0 / (s0 : K)), by simp only [setExtent, hp, hg, hs, spacingFrom, if_neg h0, if_neg hl]; rfl, rfl, by rw [mul_comm]; exact hc, ?_⟩
    simp [hc]
  · intro hx
    refine ⟨_, v0 / (s0 : K), sr.map fun n : ℤ => (n : K) * (v0 / (s0 : K)), by simp only [setShape, hp, hg, hx, he, spacingFrom, if_neg h0]; rfl, rfl, by rw [mul_comm]; exact hc, ?_⟩
    simp [hc]

example : (setExtent ({ (Geo.new : Geo ℚ) with shape := some [4, 2], size := some 8 }) [2, 1]).1.gs = some (1 / 2) := by
  norm_num [setExtent, spacingFrom, Geo.new]

/-- **C38, deletions.** Without a profile, deleting the extent, the shape, the spacing or the profile deletes everything; with a profile only the deletion of the
profile does so, the deletion of the extent or the spacing keeps the profile, its shape and its size. -/
theorem C38_deletions (s : Geo K) :
    delProfile s = (Geo.new, none) ∧
    (s.prof = none → delExtent s = (Geo.new, none) ∧ delShape s = (Geo.new, none) ∧ delGs s = (Geo.new, none)) ∧
    (s.prof ≠ none → delExtent s = (⟨none, none, s.shape, s.size, s.prof⟩, none) ∧ delGs s = (⟨none, none, s.shape, s.size, s.prof⟩, none) ∧
      delShape s = (s, some .valueError)) := by
  obtain ⟨g, e, sh, z, p⟩ := s
  cases p <;> simp [delProfile, delExtent, delShape, delGs, Geo.new]

/-- **C38, refused assignments.** A spacing that is infinite or not a number, an extent of more than two lengths, and a shape for a surface with a profile
raise `ValueError` and change nothing. -/
theorem C38_refused (s : Geo K) :
    setGs s .infinite = (s, some .valueError) ∧ setGs s .notANumber = (s, some .valueError) ∧
    (∀ v : List K, 2 < v.length → setExtent s v = (s, some .valueError)) ∧
    (∀ v : List K, s.prof ≠ none → setShape s v = (s, some .valueError)) := by
  refine ⟨rfl, rfl, fun v hv => by simp [setExtent, hv], fun v hp => ?_⟩
  unfold setShape
  cases h : s.prof with
  | none => exact absurd h hp
  | some p => rfl

example : (2 : ℕ) < ([1, 1, 1] : List ℚ).length := by simp

end Verif.SurfaceGeo
