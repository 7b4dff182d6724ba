import Verif.Analytic.Model
import Mathlib.Tactic.FieldSimp
import Mathlib.Tactic.Ring
import Mathlib.Tactic.NormNum
import Mathlib.Tactic.Linarith
import Mathlib.Tactic.LinearCombination
import Mathlib.Analysis.SpecialFunctions.Trigonometric.Basic

/-! # C43, C44, C72: rotating, shifting, adding and discretising analytic surfaces -/

namespace Verif.Analytic

/-! ## C43 -/

/-- A call on a surface. -/
inductive Call where
  | rotate (a : ℝ)
  | shift (s : ShiftArg)

/-- One call; after an exception (a tuple of wrong length) the object is unchanged. -/
noncomputable def call (o : Obj) : Call → Obj
  | .rotate a => rotate a o
  | .shift s => match shiftBy s o with | .ok o' => o' | .error _ => o

/-! The specification: the total angle and the total shift of a list of calls. -/

/-- The angle of a call. -/
def angleOf : Call → ℝ
  | .rotate a => a
  | .shift _ => 0

/-- The shift of a call on a surface with the given extent: the default is minus half of the extent. -/
noncomputable def shiftOf (extent : Option (ℝ × ℝ)) : Call → ℝ × ℝ
  | .rotate _ => (0, 0)
  | .shift none => match extent with | some e => (-(e.1 / 2), -(e.2 / 2)) | none => (0, 0)
  | .shift (some [a, b]) => (a, b)
  | .shift (some _) => (0, 0)

/-- The point `p`, moved by `s`, turned about the origin by the angle `a`, as a complex number. -/
noncomputable def turned (a : ℝ) (s p : ℂ) : ℂ := Complex.exp (a * Complex.I) * (p + s)

theorem call_fields (o : Obj) (c : Call) : (call o c).kind = o.kind ∧ (call o c).extent = o.extent ∧ (call o c).gs = o.gs ∧
    (call o c).rot = o.rot + angleOf c ∧ (call o c).shift = o.shift + shiftOf o.extent c := by
  cases c with
  | rotate a => simp [call, rotate, angleOf, shiftOf]
  | shift s =>
    rcases s with _ | s
    · cases he : o.extent with
      | none => simp [call, shiftBy, he, angleOf, shiftOf]
      | some e =>
        simp only [call, shiftBy, he, angleOf, shiftOf, add_zero, true_and]
        ext <;> simp <;> ring
    · rcases s with _ | ⟨a, _ | ⟨b, _ | ⟨c, s⟩⟩⟩ <;> simp [call, shiftBy, angleOf, shiftOf, Prod.ext_iff]

theorem calls_fields (cs : List Call) (o : Obj) : (cs.foldl call o).kind = o.kind ∧ (cs.foldl call o).extent = o.extent ∧
    (cs.foldl call o).rot = o.rot + (cs.map angleOf).sum ∧ (cs.foldl call o).shift = o.shift + (cs.map (shiftOf o.extent)).sum := by
  induction cs generalizing o with
  | nil => simp
  | cons c cs ih =>
    obtain ⟨h1, h2, -, h4, h5⟩ := call_fields o c
    obtain ⟨i1, i2, i4, i5⟩ := ih (call o c)
    simp only [List.foldl_cons, List.map_cons, List.sum_cons]
    refine ⟨i1.trans h1, i2.trans h2, ?_, ?_⟩
    · rw [i4, h4, add_assoc]
    · rw [i5, h5, h2, add_assoc]

theorem move_eq (o : Obj) (x y : ℝ) :
    o.move x y = ((turned o.rot ⟨o.shift.1, o.shift.2⟩ ⟨x, y⟩).re, (turned o.rot ⟨o.shift.1, o.shift.2⟩ ⟨x, y⟩).im) := by
  have hr : (Complex.exp ((o.rot : ℂ) * Complex.I)).re = Real.cos o.rot := Complex.exp_ofReal_mul_I_re _
  have hi : (Complex.exp ((o.rot : ℂ) * Complex.I)).im = Real.sin o.rot := Complex.exp_ofReal_mul_I_im _
  unfold Obj.move turned
  simp only [Complex.mul_re, Complex.mul_im, Complex.add_re, Complex.add_im, hr, hi, Prod.mk.injEq]
  constructor <;> ring

/-- **C43.** After any sequence of rotations and shifts of a newly made surface, its height at a point is the height of the base shape at the point moved by the total shift and turned about the origin by the total
angle. -/
theorem C43_totals (f : ℝ → ℝ → ℝ) (extent : Option (ℝ × ℝ)) (gs : Option ℝ) (cs : List Call) (h : Heap) (i : ℕ)
    (hi : h i = cs.foldl call ⟨.base f, 0, (0, 0), extent, gs⟩) (x y : ℝ) :
    let q := turned (cs.map angleOf).sum ⟨((cs.map (shiftOf extent)).sum).1, ((cs.map (shiftOf extent)).sum).2⟩ ⟨x, y⟩
    height h i x y = f q.re q.im := by
  obtain ⟨h1, -, h3, h4⟩ := calls_fields cs ⟨.base f, 0, (0, 0), extent, gs⟩
  have hz : ((0 : ℝ), (0 : ℝ)) = 0 := rfl
  simp only [hz, zero_add] at h1 h3 h4
  unfold height
  rw [move_eq, hi, hz]
  simp only [h1, h3, h4]

example := C43_totals (fun x y => x * y) (some (2, 4)) none [.rotate 1, .shift none, .shift (some [1, 2])]
  (fun _ => [Call.rotate 1, .shift none, .shift (some [1, 2])].foldl call ⟨.base fun x y => x * y, 0, (0, 0), some (2, 4), none⟩) 0 rfl 3 5

/-- **C43, only the totals matter.** Two sequences of calls with the same total angle and the same total shift give the same surface; in particular the order of the calls does not matter. -/
theorem C43_order (o : Obj) (cs ds : List Call) (ha : (cs.map angleOf).sum = (ds.map angleOf).sum)
    (hs : (cs.map (shiftOf o.extent)).sum = (ds.map (shiftOf o.extent)).sum) : cs.foldl call o = ds.foldl call o := by
  have key : ∀ (cs : List Call) (o : Obj), (cs.foldl call o).gs = o.gs := by
    intro cs
    induction cs with
    | nil => exact fun o => rfl
    | cons c cs ih => intro o; rw [List.foldl_cons, ih, (call_fields o c).2.2.1]
  obtain ⟨h1, h2, h3, h4⟩ := calls_fields cs o
  obtain ⟨i1, i2, i3, i4⟩ := calls_fields ds o
  have hk := key cs o
  have ik := key ds o
  generalize cs.foldl call o = a at *
  generalize ds.foldl call o = b at *
  obtain ⟨a1, a2, a3, a4, a5⟩ := a
  obtain ⟨b1, b2, b3, b4, b5⟩ := b
  simp only at *
  rw [h1, h2, h3, h4, hk, i1, i2, i3, i4, ik, ha, hs]

/-- The hypotheses can be met by different sequences. -/
example : ∃ (o : Obj) (cs ds : List Call), cs ≠ ds ∧ (cs.map angleOf).sum = (ds.map angleOf).sum ∧
    (cs.map (shiftOf o.extent)).sum = (ds.map (shiftOf o.extent)).sum :=
  ⟨⟨.base fun _ _ => 0, 0, (0, 0), some (2, 4), none⟩, [.rotate 1, .shift none], [.shift (some [-1, -2]), .rotate 1], by simp,
    by simp [angleOf], by simp [shiftOf]; norm_num⟩

/-- **C43, distances.** Moving and turning preserves distances. -/
theorem C43_distance (o : Obj) (x y x' y' : ℝ) :
    ((o.move x y).1 - (o.move x' y').1) ^ 2 + ((o.move x y).2 - (o.move x' y').2) ^ 2 = (x - x') ^ 2 + (y - y') ^ 2 := by
  unfold Obj.move
  have h := Real.sin_sq_add_cos_sq o.rot
  simp only
  linear_combination ((x - x') ^ 2 + (y - y') ^ 2) * h

/-- **C43, the default shift.** A surface made with an extent and no shift has its origin in the middle of the extent, whatever the rotation. -/
theorem C43_default_shift (f : ℝ → ℝ → ℝ) (rotation : Option ℝ) (e : ℝ × ℝ) (gs : Option ℝ) :
    ∃ o, construct f rotation none (some e) gs = .ok o ∧ ∀ (h : Heap) (i : ℕ), h i = o → height h i (e.1 / 2) (e.2 / 2) = f 0 0 := by
  unfold construct shiftBy
  cases rotation with
  | none =>
    refine ⟨_, rfl, fun h i hi => ?_⟩
    unfold height
    rw [hi]
    simp only [Obj.move]
    congr 1 <;> ring
  | some r =>
    refine ⟨_, rfl, fun h i hi => ?_⟩
    unfold height
    rw [hi]
    simp only [Obj.move, rotate]
    congr 1 <;> ring

/-- **C43, direction of a shift.** After a shift by `(a, b)` the height at a point is the one that was found before at the point plus `(a, b)` (for a surface that has not been
rotated): the shape moves by `(-a, -b)`. -/
theorem C43_shift_direction (f : ℝ → ℝ → ℝ) (a b : ℝ) (h h' : Heap) (i : ℕ) (s : ℝ × ℝ) (extent : Option (ℝ × ℝ)) (gs : Option ℝ)
    (hi : h i = ⟨.base f, 0, s, extent, gs⟩) (hi' : h' i = call (h i) (.shift (some [a, b]))) (x y : ℝ) : height h' i x y = height h i (x + a) (y + b) := by
  unfold height
  rw [hi', hi]
  simp only [call, shiftBy, Obj.move, Real.cos_zero, Real.sin_zero]
  congr 1 <;> ring

/-- The hypotheses can be met. -/
example : ∃ (h h' : Heap), h 0 = ⟨.base fun x _ => x, 0, (0, 0), none, none⟩ ∧ h' 0 = call (h 0) (.shift (some [1, 2])) :=
  ⟨fun _ => ⟨.base fun x _ => x, 0, (0, 0), none, none⟩, fun _ => call ⟨.base fun x _ => x, 0, (0, 0), none, none⟩ (.shift (some [1, 2])), rfl, rfl⟩

/-! ## C44 -/

theorem linspace_eq (g : ℝ) (n i : ℕ) (h : i < n) : linspace (g * ((n : ℝ) - 1)) n i = (i : ℝ) * g := by
  unfold linspace
  split
  · have : i = 0 := by omega
    simp [this]
  · rename_i h1
    have h2 : ((n : ℝ) - 1) ≠ 0 := by
      intro e
      have : (n : ℝ) = 1 := by linarith
      exact h1 (by exact_mod_cast this)
    field_simp

/-- **C44.** Discretising a surface with a grid spacing and an extent gives a profile of the requested shape whose entry in row `i` and column `j` is the height at `(i * spacing, j * spacing)`. -/
theorem C44_samples (h : Heap) (k rows cols : ℕ) (g : ℝ) (hg : (h k).gs = some g) (he : (h k).extent ≠ none) :
    ∃ p, discretise h k rows cols = .ok p ∧ p.rows = rows ∧ p.cols = cols ∧
      ∀ i j, i < rows → j < cols → p.val i j = height h k ((i : ℝ) * g) ((j : ℝ) * g) := by
  unfold discretise
  cases hx : (h k).extent with
  | none => exact absurd hx he
  | some e =>
    rw [hg]
    exact ⟨_, rfl, rfl, rfl, fun i j hi hj => by simp only [sample, linspace_eq g _ _ hi, linspace_eq g _ _ hj]⟩

/-- The hypotheses can be met. -/
example : ∃ h : Heap, (h 0).gs = some 2 ∧ (h 0).extent ≠ none :=
  ⟨fun _ => ⟨.base fun x y => x * y, 0, (0, 0), some (4, 6), some 2⟩, rfl, by simp⟩

/-- **C44, missing data.** Without a grid spacing or an extent `AttributeError` is raised. -/
theorem C44_missing (h : Heap) (k rows cols : ℕ) (hm : (h k).gs = none ∨ (h k).extent = none) : discretise h k rows cols = .error .attributeError := by
  unfold discretise
  cases hg : (h k).gs <;> cases he : (h k).extent <;> simp_all

example : ∃ h : Heap, (h 0).gs = none ∨ (h 0).extent = none := ⟨fun _ => ⟨.base fun x y => x * y, 0, (0, 0), none, some 2⟩, Or.inr rfl⟩

/-- **C44, combinations.** The discretised sum (difference) of two surfaces is the sum (difference) of the discretised surfaces. -/
theorem C44_combination (h : Heap) (a b k rows cols : ℕ) (g : ℝ) (minus : Bool) (o : Obj) (ho : combine h a b minus = .ok o) (hk : h k = o) (ha : a < k) (hb : b < k)
    (hga : (h a).gs = some g) (hgb : (h b).gs = some g) (hea : (h a).extent ≠ none) (heb : (h b).extent ≠ none) :
    ∃ p q r, discretise h a rows cols = .ok p ∧ discretise h b rows cols = .ok q ∧ discretise h k rows cols = .ok r ∧
      ∀ i j, i < rows → j < cols → r.val i j = if minus then p.val i j - q.val i j else p.val i j + q.val i j := by
  have hk' : (h k) = ⟨.comb a b minus, 0, (0, 0), (h a).extent.or (h b).extent, (h a).gs.or (h b).gs⟩ := by
    rw [hk]
    unfold combine at ho
    split at ho
    · cases ho
    split at ho
    · cases ho
    cases ho; rfl
  have hgk : (h k).gs = some g := by rw [hk', hga]; rfl
  have hek : (h k).extent ≠ none := by
    rw [hk']
    cases hx : (h a).extent with
    | none => exact absurd hx hea
    | some e => simp
  obtain ⟨p, hp, -, -, p4⟩ := C44_samples h a rows cols g hga hea
  obtain ⟨q, hq, -, -, q4⟩ := C44_samples h b rows cols g hgb heb
  obtain ⟨r, hr, -, -, r4⟩ := C44_samples h k rows cols g hgk hek
  refine ⟨p, q, r, hp, hq, hr, fun i j hi hj => ?_⟩
  rw [r4 i j hi hj, p4 i j hi hj, q4 i j hi hj]
  conv_lhs => unfold height
  have hm : (h k).move ((i : ℝ) * g) ((j : ℝ) * g) = ((i : ℝ) * g, (j : ℝ) * g) := by
    rw [hk']; simp [Obj.move]
  have hkind : (h k).kind = .comb a b minus := by rw [hk']
  simp only [hkind, hm, ha, hb, if_true]

/-- The hypotheses can be met. -/
example : ∃ (h : Heap) (o : Obj), combine h 0 1 true = .ok o ∧ h 2 = o ∧ (h 0).gs = some 1 ∧ (h 1).gs = some 1 ∧ (h 0).extent ≠ none ∧ (h 1).extent ≠ none := by
  refine ⟨fun i => if i = 2 then ⟨.comb 0 1 true, 0, (0, 0), some (4, 6), some 1⟩ else ⟨.base fun x y => x * y, 0, (0, 0), some (4, 6), some 1⟩, _, ?_, rfl, by simp, by simp, by simp, by simp⟩
  simp [combine]

/-! ## C72 -/

/-- **C72, at the time of the operation.** A surface plus, minus or times a number, and the sum or difference of two surfaces, have the heights one expects, at every point. -/
theorem C72_heights (h : Heap) (a b k : ℕ) (c : ℝ) (ha : a < k) (hb : b < k) (x y : ℝ) :
    (h k = plusNumber h a c → height h k x y = height h a x y + c) ∧ (h k = minusNumber h a c → height h k x y = height h a x y - c) ∧
    (h k = timesNumber h a c → height h k x y = height h a x y * c) ∧
    (combine h a b false = .ok (h k) → height h k x y = height h a x y + height h b x y) ∧
    (combine h a b true = .ok (h k) → height h k x y = height h a x y - height h b x y) := by
  have hcomb : ∀ m, combine h a b m = .ok (h k) → (h k).kind = .comb a b m ∧ (h k).move x y = (x, y) := by
    intro m hm
    unfold combine at hm
    split at hm
    · cases hm
    split at hm
    · cases hm
    rw [Except.ok.injEq] at hm
    rw [← hm]; simp [Obj.move]
  refine ⟨fun e => ?_, fun e => ?_, fun e => ?_, fun e => ?_, fun e => ?_⟩
  · conv_lhs => unfold height
    have : (h k).kind = .plus a c := by rw [e]; rfl
    simp [this, ha]
  · conv_lhs => unfold height
    have : (h k).kind = .plus a (-c) := by rw [e]; rfl
    simp [this, ha]; ring
  · conv_lhs => unfold height
    have : (h k).kind = .times a c := by rw [e]; rfl
    simp [this, ha]
  · obtain ⟨h1, h2⟩ := hcomb _ e
    conv_lhs => unfold height
    simp [h1, h2, ha, hb]
  · obtain ⟨h1, h2⟩ := hcomb _ e
    conv_lhs => unfold height
    simp [h1, h2, ha, hb]

/-- The hypotheses can be met. -/
example : ∃ h : Heap, h 1 = plusNumber h 0 3 ∧ combine h 0 1 false = .ok (h 2) := by
  refine ⟨fun i => if i = 2 then ⟨.comb 0 1 false, 0, (0, 0), none, none⟩ else if i = 1 then ⟨.plus 0 3, 0, (0, 0), none, none⟩ else ⟨.base fun x y => x * y, 0, (0, 0), none, none⟩, ?_, ?_⟩
  · simp [plusNumber]
  · simp [combine]

theorem height_update_lt (h : Heap) (k : ℕ) (f : Obj → Obj) (i : ℕ) (hi : i < k) (x y : ℝ) : height (h.update k f) i x y = height h i x y := by
  induction i using Nat.strong_induction_on generalizing x y with
  | _ i ih =>
    have e : h.update k f i = h i := by simp [Heap.update, Nat.ne_of_lt hi]
    conv_lhs => unfold height
    conv_rhs => unfold height
    rw [e]
    cases (h i).kind with
    | base f => rfl
    | plus a c =>
      simp only
      split
      · rw [ih a (by assumption) (by omega)]
      · rfl
    | times a c =>
      simp only
      split
      · rw [ih a (by assumption) (by omega)]
      · rfl
    | comb a b m =>
      simp only
      have h1 : ∀ u v, (if a < i then height (h.update k f) a u v else 0) = if a < i then height h a u v else 0 := by
        intro u v; split
        · rw [ih a (by assumption) (by omega)]
        · rfl
      have h2 : ∀ u v, (if b < i then height (h.update k f) b u v else 0) = if b < i then height h b u v else 0 := by
        intro u v; split
        · rw [ih b (by assumption) (by omega)]
        · rfl
      rw [h1, h2]

/-- **C72, combinations turn.** Rotating or shifting the sum or difference of two surfaces moves it like any other surface: its height is the sum or difference of the heights of its parts at the moved point. -/
theorem C72_combination_moves (h : Heap) (a b k : ℕ) (m : Bool) (ha : a < k) (hb : b < k) (hk : combine h a b m = .ok (h k)) (cs : List Call) (x y : ℝ) :
    let h' := h.update k fun o => cs.foldl call o
    let q := turned (cs.map angleOf).sum ⟨((cs.map (shiftOf (h k).extent)).sum).1, ((cs.map (shiftOf (h k).extent)).sum).2⟩ ⟨x, y⟩
    height h' k x y = if m then height h a q.re q.im - height h b q.re q.im else height h a q.re q.im + height h b q.re q.im := by
  have hk0 : (h k).kind = .comb a b m ∧ (h k).rot = 0 ∧ (h k).shift = 0 := by
    unfold combine at hk
    split at hk
    · cases hk
    split at hk
    · cases hk
    rw [Except.ok.injEq] at hk
    rw [← hk]; exact ⟨rfl, rfl, rfl⟩
  obtain ⟨h1, -, h3, h4⟩ := calls_fields cs (h k)
  rw [hk0.2.1, zero_add] at h3
  rw [hk0.2.2, zero_add] at h4
  rw [hk0.1] at h1
  intro h' q
  have e : h' k = cs.foldl call (h k) := by simp [h', Heap.update]
  have hm : (h' k).move x y = (q.re, q.im) := by
    rw [move_eq, e, h3, h4]
  conv_lhs => unfold height
  rw [e, h1, ← e, hm]
  simp only [ha, hb, if_true]
  rw [height_update_lt h k _ a ha, height_update_lt h k _ b hb]

/-- A sum that is turned and shifted. -/
example (x y : ℝ) := C72_combination_moves (fun i => if i = 2 then ⟨.comb 0 1 false, 0, (0, 0), none, none⟩ else ⟨.base fun x y => x * y, 0, (0, 0), none, none⟩) 0 1 2 false (by norm_num) (by norm_num)
  (by simp [combine]) [.rotate 1, .shift (some [1, 2])] x y

/-- **C72 is false: a surface plus or times a number cannot be moved.** Rotating or shifting the result of adding, subtracting or multiplying a number has no effect on its heights. -/
theorem C72_number_result_does_not_move (h : Heap) (a k : ℕ) (c : ℝ) (ha : a < k) (hk : h k = plusNumber h a c ∨ h k = minusNumber h a c ∨ h k = timesNumber h a c)
    (cs : List Call) (x y : ℝ) : height (h.update k fun o => cs.foldl call o) k x y = height h k x y := by
  have e : (h.update k fun o => cs.foldl call o) k = cs.foldl call (h k) := by simp [Heap.update]
  have h1 := (calls_fields cs (h k)).1
  rcases hk with hk | hk | hk
  all_goals
    conv_lhs => unfold height
    conv_rhs => unfold height
    rw [e, h1, hk]
    simp only [plusNumber, minusNumber, timesNumber, ha, if_true]
    rw [height_update_lt h k _ a ha]

/-- A case where the heights should change: the plane `x` plus 3, shifted by 1. -/
example : ∃ h : Heap, h 1 = plusNumber h 0 3 ∧ (∀ x y, height h 1 x y = x + 3) ∧
    ∀ x y, height (h.update 1 fun o => [Call.shift (some [1, 0])].foldl call o) 1 x y = x + 3 := by
  have h0 : ∃ h : Heap, h 1 = plusNumber h 0 3 ∧ ∀ x y, height h 1 x y = x + 3 := by
    refine ⟨fun i => if i = 1 then ⟨.plus 0 3, 0, (0, 0), none, none⟩ else ⟨.base fun x _ => x, 0, (0, 0), none, none⟩, by simp [plusNumber], fun x y => ?_⟩
    unfold height
    simp only [one_ne_zero, if_false, if_true, Nat.zero_lt_one]
    unfold height
    simp [Obj.move]
  obtain ⟨h, h1, h2⟩ := h0
  exact ⟨h, h1, h2, fun x y => by rw [C72_number_result_does_not_move h 0 1 3 (by norm_num) (.inl h1), h2]⟩

/-- **C72 is false: the operands stay connected.** Moving a surface after a number was added to it, or after it was made part of a sum, moves the result, too: shifting by `s` shifts the result by `s`. -/
theorem C72_operands_stay_connected (f : ℝ → ℝ → ℝ) (s t : ℝ) :
    ∃ h : Heap, h 0 = ⟨.base f, 0, (0, 0), none, none⟩ ∧ h 1 = plusNumber h 0 3 ∧
      ∀ x y, height (h.update 0 fun o => call o (.shift (some [s, t]))) 1 x y = f (x + s) (y + t) + 3 ∧ height h 1 x y = f x y + 3 := by
  refine ⟨fun i => if i = 1 then ⟨.plus 0 3, 0, (0, 0), none, none⟩ else ⟨.base f, 0, (0, 0), none, none⟩, by simp, by simp [plusNumber], fun x y => ⟨?_, ?_⟩⟩
  · unfold height
    simp only [Heap.update]
    simp only [one_ne_zero, if_false, if_true, Nat.zero_lt_one]
    unfold height
    simp [call, shiftBy, Obj.move, Heap.update]
  · unfold height
    simp only [one_ne_zero, if_false, if_true, Nat.zero_lt_one]
    unfold height
    simp [Obj.move]

/-- **C44, conflicts.** Combining two surfaces raises `ValueError` exactly if both have a grid spacing or both have an extent and they differ; otherwise the result
has the spacing and the extent of whichever surface has one. -/
theorem C44_conflict (h : Heap) (a b : ℕ) (minus : Bool) :
    (combine h a b minus = .error .valueError ↔
      (∃ g g', (h a).gs = some g ∧ (h b).gs = some g' ∧ g ≠ g') ∨ ∃ e e', (h a).extent = some e ∧ (h b).extent = some e' ∧ e ≠ e') ∧
    ∀ o, combine h a b minus = .ok o →
      (∀ g, (h a).gs = some g ∨ (h b).gs = some g → o.gs = some g) ∧ ∀ e, (h a).extent = some e ∨ (h b).extent = some e → o.extent = some e := by
  unfold combine
  cases h1 : (h a).gs <;> cases h2 : (h b).gs <;> cases h3 : (h a).extent <;> cases h4 : (h b).extent <;> simp <;> (try split_ifs) <;> simp_all <;> aesop

/-- Two surfaces with different spacings. -/
example : ∃ h : Heap, (∃ g g', (h 0).gs = some g ∧ (h 1).gs = some g' ∧ g ≠ g') :=
  ⟨fun n => ⟨.base fun x y => x * y, 0, (0, 0), none, some (n : ℝ)⟩, 0, 1, by simp, by simp, by norm_num⟩

end Verif.Analytic
