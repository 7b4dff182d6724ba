import Mathlib.Order.Basic
import Mathlib.Order.Lattice
import Mathlib.Data.Rat.Defs
import Mathlib.Algebra.Order.Ring.Rat
import Mathlib.Tactic.NormNum
import Verif.Common

/-!
# C47: summits. Model of `find_summits`, `slippy/surface/roughness_funcs.py` l.627-701

Heights are `Option H`: `none` is `nan`, all comparisons with it are False. The low pass filter is an arbitrary function of the profile that keeps its shape. The profile is given as an array of floats, which numpy does not copy (l.666, `_check_surface`
l.18-29), so the function works on the array of the caller.
-/

namespace Verif.Rough

/-- A two dimensional array. -/
structure Arr (α : Type) where
  rows : ℕ
  cols : ℕ
  val : ℕ → ℕ → α

/-- The argument `mask`: `None`, a float (`none` is `nan`) or an array. -/
inductive MaskArg (H : Type) where
  | none
  | float (v : Option H)
  | array (m : Arr Bool)

variable {H : Type} [LinearOrder H]

/-- `a > b`. -/
def gt : Option H → Option H → Bool
  | some a, some b => decide (b < a)
  | _, _ => false

/-- The array made from the mask in `roughness` l.179-190, `get_mat_vr` l.518-529 and `find_summits` l.668-678: `~profile` raises `TypeError` for floats. -/
def maskArray (p : Arr (Option H)) : MaskArg H → Except PyErr (Option (Arr Bool))
  | .none => .ok Option.none
  | .float Option.none => .ok (some ⟨p.rows, p.cols, fun i j => (p.val i j).isSome⟩)
  | .float (some _) => .error .typeError
  | .array m => if m.rows = p.rows ∧ m.cols = p.cols then .ok (some m) else .error .typeError

/-- The offsets, l.688-693. -/
def offsets (four : Bool) : List (ℤ × ℤ) :=
  if four then [(-1, 0), (1, 0), (0, -1), (0, 1)]
  else [(-1, 0), (1, 0), (0, -1), (0, 1), (-1, -1), (-1, 1), (1, -1), (1, 1)]

/-- `f[1 + x : …, 1 + y : …][i, j]`. -/
def shifted (f : Arr (Option H)) (x y : ℤ) (i j : ℕ) : Option H := f.val (1 + x + i).toNat (1 + y + j).toNat

/-- The loop l.695-697 on the inner points, then the padding l.700: the result has two rows more than the inner part. -/
def markSummits (f : Arr (Option H)) (four : Bool) : Arr Bool :=
  let r := f.rows - 2
  let c := f.cols - 2
  let inner := fun i j => (offsets four).all fun o => gt (shifted f 0 0 i j) (shifted f o.1 o.2 i j)
  ⟨r + 2, c + 2, fun i j => if 1 ≤ i ∧ i ≤ r ∧ 1 ≤ j ∧ j ≤ c then inner (i - 1) (j - 1) else false⟩

/-- `find_summits(profile, mask=mask, four_nearest=four, filter_cut_off=…)`: the summits, and the caller's profile afterwards. -/
def findSummits (p : Arr (Option H)) (mask : MaskArg H) (four : Bool) (filter : Option (Arr (Option H) → Arr (Option H))) : Except PyErr (Arr Bool × Arr (Option H)) :=
  match maskArray p mask with
  | .error e => .error e
  | .ok m =>
    let p := match m with
      | some m => { p with val := fun i j => if m.val i j then Option.none else p.val i j }
      | Option.none => p
    let f := match filter with
      | some g => g p
      | Option.none => p
    .ok (markSummits f four, p)

/-! ## Specification -/

/-- The four nearest neighbours. -/
def Next4 (i j k l : ℕ) : Prop := (i = k ∧ (j = l + 1 ∨ l = j + 1)) ∨ (j = l ∧ (i = k + 1 ∨ k = i + 1))

/-- The eight nearest neighbours. -/
def Next8 (i j k l : ℕ) : Prop := ¬ (i = k ∧ j = l) ∧ i ≤ k + 1 ∧ k ≤ i + 1 ∧ j ≤ l + 1 ∧ l ≤ j + 1

/-- The neighbours meant by `four_nearest`. -/
def Next (four : Bool) (i j k l : ℕ) : Prop := if four then Next4 i j k l else Next8 i j k l

/-- Both heights are numbers and the second is the larger one. -/
def Lower (a b : Option H) : Prop := ∃ x y, a = some x ∧ b = some y ∧ x < y

/-- A strict local maximum in the interior. -/
def IsSummit (f : Arr (Option H)) (four : Bool) (i j : ℕ) : Prop :=
  0 < i ∧ i + 1 < f.rows ∧ 0 < j ∧ j + 1 < f.cols ∧ ∀ k l, Next four i j k l → Lower (f.val k l) (f.val i j)

theorem gt_iff (a b : Option H) : gt a b = true ↔ Lower b a := by
  cases a <;> cases b <;> simp [gt, Lower]

theorem mark_iff (f : Arr (Option H)) (four : Bool) (i j : ℕ) : (markSummits f four).val i j = true ↔ IsSummit f four i j := by
  unfold markSummits IsSummit
  simp only
  by_cases hin : 1 ≤ i ∧ i ≤ f.rows - 2 ∧ 1 ≤ j ∧ j ≤ f.cols - 2
  · rw [if_pos hin]
    obtain ⟨hi1, hi2, hj1, hj2⟩ := hin
    obtain ⟨i, rfl⟩ : ∃ i', i = i' + 1 := ⟨i - 1, by omega⟩
    obtain ⟨j, rfl⟩ : ∃ j', j = j' + 1 := ⟨j - 1, by omega⟩
    have hgeo : (0 < i + 1 ∧ i + 1 + 1 < f.rows ∧ 0 < j + 1 ∧ j + 1 + 1 < f.cols) := by omega
    rw [List.all_eq_true]
    constructor
    · intro h
      refine ⟨hgeo.1, hgeo.2.1, hgeo.2.2.1, hgeo.2.2.2, fun k l hn => ?_⟩
      have key : ((((k : ℤ) - (i + 1 : ℕ)), ((l : ℤ) - (j + 1 : ℕ))) : ℤ × ℤ) ∈ offsets four := by
        unfold Next at hn
        cases four
        · simp only [Bool.false_eq_true, if_false] at hn
          obtain ⟨h1, h2, h3, h4, h5⟩ := hn
          simp only [offsets, Bool.false_eq_true, if_false, List.mem_cons, List.not_mem_nil, or_false, Prod.mk.injEq]
          omega
        · simp only [if_true] at hn
          simp only [offsets, if_true, List.mem_cons, List.not_mem_nil, or_false, Prod.mk.injEq]
          unfold Next4 at hn
          omega
      have := h _ key
      rw [gt_iff] at this
      simp only [shifted, Nat.add_sub_cancel] at this
      have e1 : (1 + ((k : ℤ) - (i + 1 : ℕ)) + (i : ℕ)).toNat = k := by omega
      have e2 : (1 + ((l : ℤ) - (j + 1 : ℕ)) + (j : ℕ)).toNat = l := by omega
      have e3 : (1 + (0 : ℤ) + (i : ℕ)).toNat = i + 1 := by omega
      have e4 : (1 + (0 : ℤ) + (j : ℕ)).toNat = j + 1 := by omega
      rw [e1, e2, e3, e4] at this
      exact this
    · rintro ⟨-, -, -, -, h⟩ ⟨x, y⟩ hm
      rw [gt_iff]
      simp only [shifted, Nat.add_sub_cancel]
      have e3 : (1 + (0 : ℤ) + (i : ℕ)).toNat = i + 1 := by omega
      have e4 : (1 + (0 : ℤ) + (j : ℕ)).toNat = j + 1 := by omega
      rw [e3, e4]
      apply h
      unfold Next
      cases four
      · simp only [offsets, Bool.false_eq_true, if_false, List.mem_cons, List.not_mem_nil, or_false, Prod.mk.injEq] at hm ⊢
        unfold Next8
        omega
      · simp only [offsets, if_true, List.mem_cons, List.not_mem_nil, or_false, Prod.mk.injEq] at hm ⊢
        unfold Next4
        omega
  · rw [if_neg hin]
    constructor
    · intro h; cases h
    · rintro ⟨h1, h2, h3, h4, -⟩; exact absurd ⟨by omega, by omega, by omega, by omega⟩ hin

/-- **C47, summits.** Without a mask, the points marked are exactly the interior points that are higher than all four (eight) neighbours (a neighbour that is `nan` is not lower), in the filtered profile if a filter is used; the result has the
shape of the profile if it has at least two rows and columns; the caller's profile is unchanged. -/
theorem C47_summits (p : Arr (Option H)) (four : Bool) (filter : Option (Arr (Option H) → Arr (Option H))) (hr : 2 ≤ p.rows) (hc : 2 ≤ p.cols)
    (hf : ∀ g, filter = some g → (g p).rows = p.rows ∧ (g p).cols = p.cols) :
    ∃ s, findSummits p .none four filter = .ok (s, p) ∧ s.rows = p.rows ∧ s.cols = p.cols ∧
      ∀ i j, s.val i j = true ↔ IsSummit ((filter.map fun g => g p).getD p) four i j := by
  unfold findSummits maskArray
  cases filter with
  | none => exact ⟨_, rfl, by simp only [markSummits]; omega, by simp only [markSummits]; omega, fun i j => mark_iff _ _ _ _⟩
  | some g =>
    have := hf g rfl
    exact ⟨_, rfl, by simp only [markSummits, this.1]; omega, by simp only [markSummits, this.2]; omega, fun i j => mark_iff _ _ _ _⟩

/-- The hypotheses can be met, and there are summits: a single peak. -/
example : ∃ p : Arr (Option ℚ), 2 ≤ p.rows ∧ 2 ≤ p.cols ∧ IsSummit p false 1 1 := by
  refine ⟨⟨3, 3, fun i j => some (if i = 1 ∧ j = 1 then 1 else 0)⟩, by norm_num, by norm_num, by norm_num, by norm_num, by norm_num, by norm_num, ?_⟩
  intro k l h
  have : ¬ (k = 1 ∧ l = 1) := fun e => h.1 ⟨e.1.symm, e.2.symm⟩
  exact ⟨0, 1, by simp [this], by simp, by norm_num⟩

/-- **C47, borders.** Points of the border are never marked, whatever the arguments are. -/
theorem C47_border (p : Arr (Option H)) (mask : MaskArg H) (four : Bool) (filter : Option (Arr (Option H) → Arr (Option H))) (s : Arr Bool) (p' : Arr (Option H))
    (h : findSummits p mask four filter = .ok (s, p')) (i j : ℕ) (hb : i = 0 ∨ i + 1 = s.rows ∨ j = 0 ∨ j + 1 = s.cols) : s.val i j = false := by
  unfold findSummits at h
  split at h
  · cases h
  · simp only [Except.ok.injEq, Prod.mk.injEq] at h
    obtain ⟨rfl, -⟩ := h
    simp only [markSummits] at hb ⊢
    rw [if_neg]
    omega

/-- **C47, neighbours.** No two neighbouring points are both summits. -/
theorem C47_no_neighbours (f : Arr (Option H)) (four : Bool) (i j k l : ℕ) (hn : Next four i j k l) (h1 : IsSummit f four i j) (h2 : IsSummit f four k l) : False := by
  have hsym : Next four k l i j := by
    unfold Next at hn ⊢
    cases four
    · simp only [Bool.false_eq_true, if_false] at hn ⊢
      unfold Next8 at hn ⊢
      omega
    · simp only [if_true] at hn ⊢
      unfold Next4 at hn ⊢
      omega
  obtain ⟨x, y, e1, e2, e3⟩ := h1.2.2.2.2 k l hn
  obtain ⟨x', y', d1, d2, d3⟩ := h2.2.2.2.2 i j hsym
  rw [e2] at d1; rw [e1] at d2
  cases d1; cases d2
  exact lt_asymm e3 d3

/-- Neighbours exist. -/
example : Next false 1 1 2 2 ∧ Next true 1 1 1 2 := by simp [Next, Next4, Next8]

/-- **C47, eight and four.** A summit of eight neighbours is a summit of four, for the same arguments. -/
theorem C47_eight_is_four (p : Arr (Option H)) (mask : MaskArg H) (filter : Option (Arr (Option H) → Arr (Option H))) (s t : Arr Bool) (p1 p2 : Arr (Option H))
    (h8 : findSummits p mask false filter = .ok (s, p1)) (h4 : findSummits p mask true filter = .ok (t, p2)) (i j : ℕ) (h : s.val i j = true) : t.val i j = true := by
  unfold findSummits at h8 h4
  split at h8
  · cases h8
  · rename_i m hm
    rw [hm] at h4
    simp only [Except.ok.injEq, Prod.mk.injEq] at h8 h4
    obtain ⟨rfl, -⟩ := h8
    obtain ⟨rfl, -⟩ := h4
    rw [mark_iff] at h ⊢
    refine ⟨h.1, h.2.1, h.2.2.1, h.2.2.2.1, fun k l hn => h.2.2.2.2 k l ?_⟩
    simp only [Next, if_true, Bool.false_eq_true, if_false] at hn ⊢
    unfold Next4 at hn
    unfold Next8
    omega

/-- Both kinds of summits are found without failure, as in `C47_border` and `C47_eight_is_four`. -/
example (p : Arr (Option ℚ)) (four : Bool) : ∃ s p', findSummits p .none four none = .ok (s, p') := ⟨_, _, rfl⟩

/-- **C47 is false with a mask.** The points of the mask become `nan` in the caller's own profile, and are kept out of the search: these are the True points of an array, though elsewhere (`roughness` l.206) the True points are the ones that are used. With the mask `nan`, meant to
exclude the missing points, all others are overwritten and no summit is found. -/
theorem C47_mask_overwrites (p : Arr (Option H)) (four : Bool) (m : Arr Bool) (hm : m.rows = p.rows ∧ m.cols = p.cols) :
    (∃ s p', findSummits p (.array m) four none = .ok (s, p') ∧ ∀ i j, p'.val i j = if m.val i j then none else p.val i j) ∧
    ∃ s p', findSummits p (.float none) four none = .ok (s, p') ∧ (∀ i j, p'.val i j = none) ∧ ∀ i j, s.val i j = false := by
  constructor
  · have hmask : maskArray p (.array m) = .ok (some m) := by simp only [maskArray]; rw [if_pos hm]
    unfold findSummits
    rw [hmask]
    exact ⟨_, _, rfl, fun _ _ => rfl⟩
  · unfold findSummits maskArray
    have hnone : ∀ i j, (if (p.val i j).isSome = true then none else p.val i j) = none := by
      intro i j; cases p.val i j <;> simp
    refine ⟨_, _, rfl, hnone, fun i j => ?_⟩
    rw [Bool.eq_false_iff]
    intro h
    rw [mark_iff] at h
    obtain ⟨x, y, -, e2, -⟩ := h.2.2.2.2 (i + 1) j (by unfold Next; cases four <;> simp [Next4, Next8] <;> omega)
    simp only [hnone] at e2
    cases e2

/-- The hypothesis can be met. -/
example : ∃ (p : Arr (Option ℚ)) (m : Arr Bool), m.rows = p.rows ∧ m.cols = p.cols ∧ m.val 1 1 = true ∧ p.val 1 1 ≠ none :=
  ⟨⟨3, 3, fun _ _ => some 0⟩, ⟨3, 3, fun _ _ => true⟩, rfl, rfl, rfl, by simp⟩

/-- **C47, very small profiles.** A profile with fewer than two rows gives a result with two rows. -/
theorem C47_small (p : Arr (Option H)) (four : Bool) (h : p.rows < 2) : ∃ s, findSummits p .none four none = .ok (s, p) ∧ s.rows = 2 :=
  ⟨_, rfl, by simp only [markSummits]; omega⟩

/-- There are such profiles. -/
example : (⟨1, 5, fun _ _ => none⟩ : Arr (Option ℚ)).rows < 2 := by norm_num

end Verif.Rough
