import Verif.Mask.Model

/-! # C41: masks exclude exactly the requested points -/

namespace Verif.Mask

variable {H : Type} [DecidableEq H]

/-- The specification: the mask has the shape of the profile and is True exactly at the points whose height (a number or `nan`) is among the given ones. -/
def MasksExactly (p : Prof H) (values : List (Option H)) (m : Option M) : Prop :=
  ∃ k, m = some k ∧ k.rows = p.rows ∧ k.cols = p.cols ∧ ∀ i j, k.val i j = true ↔ p.val i j ∈ values

/-- **C41, one value.** Setting the mask to a number of type `float`, or to `nan`, masks exactly the points of that height. -/
theorem C41_value (p : Prof H) (old : Option M) (v : Option H) :
    MasksExactly p [v] (setMask p old (.float v)).1 ∧ (setMask p old (.float v)).2 = none := by
  cases v with
  | none => exact ⟨⟨_, by rw [setMask], rfl, rfl, by simp⟩, by rw [setMask]⟩
  | some v => exact ⟨⟨_, by rw [setMask], rfl, rfl, by simp⟩, by rw [setMask]⟩

/-- **C41, array.** Setting the mask to an array of the shape of the profile masks exactly the True points; an array of another shape gives an exception and leaves the
mask as it was. -/
theorem C41_array (p : Prof H) (old : Option M) (m : M) :
    (m.rows = p.rows ∧ m.cols = p.cols → setMask p old (.array m) = (some m, none)) ∧
    (¬ (m.rows = p.rows ∧ m.cols = p.cols) → (setMask p old (.array m)).1 = old ∧ (setMask p old (.array m)).2 ≠ none) := by
  constructor
  · intro h; rw [setMask, if_pos h]
  · intro h; rw [setMask, if_neg h]; simp

/-- Both cases occur. -/
example : (∃ (p : Prof Nat) (m : M), m.rows = p.rows ∧ m.cols = p.cols) ∧ ∃ (p : Prof Nat) (m : M), ¬ (m.rows = p.rows ∧ m.cols = p.cols) :=
  ⟨⟨⟨2, 3, fun _ _ => none⟩, ⟨2, 3, fun _ _ => true⟩, rfl, rfl⟩, ⟨⟨2, 3, fun _ _ => none⟩, ⟨3, 2, fun _ _ => true⟩, by decide⟩⟩

theorem setItems_false (p : Prof H) (items : List (Arg H)) (old : Option M) (mask : M) (h : ∀ i j, mask.val i j = false)
    (hok : (setItems p old mask items).2 = none) :
    ∃ k, (setItems p old mask items).1 = some k ∧ k.rows = mask.rows ∧ k.cols = mask.cols ∧ ∀ i j, k.val i j = false := by
  induction items generalizing old mask with
  | nil => rw [setItems]; exact ⟨_, rfl, rfl, rfl, h⟩
  | cons a as ih =>
    rw [setItems] at hok ⊢
    rcases hs : setMask p old a with ⟨_ | m, _ | e⟩
    · rw [hs] at hok; simp at hok
    · rw [hs] at hok; simp at hok
    · rw [hs] at hok
      simp only at hok ⊢
      obtain ⟨k, h1, h2, h3, h4⟩ := ih (some m) ⟨mask.rows, mask.cols, fun i j => m.val i j && mask.val i j⟩ (fun i j => by simp [h]) hok
      exact ⟨k, h1, h2, h3, h4⟩
    · rw [hs] at hok; simp at hok

/-- **C41, lists: nothing is masked.** Whatever the list contains, if there is no exception the mask is False everywhere. -/
theorem C41_list_masks_nothing (p : Prof H) (old : Option M) (items : List (Arg H)) (hok : (setMask p old (.seq items)).2 = none) :
    MasksExactly p [] (setMask p old (.seq items)).1 := by
  rw [setMask] at hok ⊢
  obtain ⟨k, h1, h2, h3, h4⟩ := setItems_false p items old _ (fun _ _ => rfl) hok
  exact ⟨k, h1, h2, h3, by simp [h4]⟩

theorem setItems_floats (p : Prof H) (values : List (Option H)) (old : Option M) (mask : M) :
    (setItems p old mask (values.map .float)).2 = none := by
  induction values generalizing old mask with
  | nil => rw [List.map_nil, setItems]
  | cons v vs ih =>
    rw [List.map_cons, setItems]
    cases v with
    | none => rw [setMask]; exact ih _ _
    | some v => rw [setMask]; exact ih _ _

/-- **C41 is false for lists of values.** A list of values is accepted, and masks the right points only when no point has one of the values. -/
theorem C41_list_right_iff (p : Prof H) (old : Option M) (values : List (Option H)) :
    (setMask p old (.seq (values.map .float))).2 = none ∧
    (MasksExactly p values (setMask p old (.seq (values.map .float))).1 ↔ ∀ i j, p.val i j ∉ values) := by
  have hok : (setMask p old (.seq (values.map .float))).2 = none := by rw [setMask]; exact setItems_floats _ _ _ _
  refine ⟨hok, ?_⟩
  obtain ⟨k, h1, h2, h3, h4⟩ := C41_list_masks_nothing p old _ hok
  constructor
  · rintro ⟨k', e1, -, -, e4⟩ i j hm
    rw [h1, Option.some.injEq] at e1
    subst e1
    have := (h4 i j).1 ((e4 i j).2 hm)
    simp at this
  · intro h
    exact ⟨k, h1, h2, h3, fun i j => ⟨fun e => absurd ((h4 i j).1 e) (by simp), fun e => absurd e (h i j)⟩⟩

/-- A profile with the height 0 at one point: the list `[0.0]` does not mask it (`C41_list_masks_nothing`). -/
example : ¬ MasksExactly (⟨2, 2, fun i j => some (i + j)⟩ : Prof Nat) [some 0] (setMask ⟨2, 2, fun i j => some (i + j)⟩ none (.seq [.float (some 0)])).1 :=
  fun h => ((C41_list_right_iff ⟨2, 2, fun i j => some (i + j)⟩ none [some 0]).2.1 h) 0 0 (by simp)

/-- **C41, other values.** A whole number (not of type `float`) or a string is refused and the mask stays; inside a list such an item leaves the surface with the
mask of the item before it. -/
theorem C41_other_types (p : Prof H) (old : Option M) (v : H) :
    setMask p old .other = (old, some .typeError) ∧ setMask p old .str = (old, some .typeError) ∧
    (setMask p old (.seq [.float (some v), .other])).2 = some .typeError ∧
    MasksExactly p [some v] (setMask p old (.seq [.float (some v), .other])).1 := by
  refine ⟨by rw [setMask], by rw [setMask], ?_, ?_⟩
  · rw [setMask, setItems, setMask]; simp only; rw [setItems, setMask]
  · refine ⟨⟨p.rows, p.cols, fun i j => decide (p.val i j = some v)⟩, ?_, rfl, rfl, by simp⟩
    rw [setMask, setItems, setMask]; simp only; rw [setItems, setMask]

end Verif.Mask
