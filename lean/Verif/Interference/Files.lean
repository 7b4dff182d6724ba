import Mathlib.Order.Basic
import Mathlib.Tactic.Linarith

/-!
# C99: the number of the next output file, `get_next_file_num`, `slippy/contact/_step_utils.py` l.633-646

An entry of the folder is the number that `int` makes of its name without the extension (`none` if that is a `ValueError`) and whether it is a file.
-/

namespace Verif.Files

/-- An entry of the folder. -/
structure Entry where
  number : Option ℤ
  isFile : Bool

/-- The body of the loop, l.636-643. -/
def highest (h : ℤ) (e : Entry) : ℤ :=
  if e.isFile then
    match e.number with
    | some k => if h < k then k else h
    | none => h
  else h

/-- `get_next_file_num`, l.633-646; the code returns the number as text. -/
def next (folder : List Entry) : ℤ := folder.foldl highest 0 + 1

theorem fold_spec (folder : List Entry) (h : ℤ) : h ≤ folder.foldl highest h ∧ (∀ e ∈ folder, e.isFile = true → ∀ k, e.number = some k → k ≤ folder.foldl highest h) ∧
    (folder.foldl highest h = h ∨ ∃ e ∈ folder, e.isFile = true ∧ e.number = some (folder.foldl highest h)) := by
  induction folder generalizing h with
  | nil => exact ⟨le_rfl, by simp, .inl rfl⟩
  | cons e l ih =>
    obtain ⟨i1, i2, i3⟩ := ih (highest h e)
    have hge : h ≤ highest h e := by
      unfold highest
      split_ifs
      · split
        · split_ifs <;> omega
        · exact le_rfl
      · exact le_rfl
    rw [List.foldl_cons]
    refine ⟨hge.trans i1, fun e' he' hf k hk => ?_, ?_⟩
    · rcases List.mem_cons.mp he' with rfl | he'
      · refine le_trans ?_ i1
        unfold highest
        rw [if_pos hf, hk]
        simp only
        split_ifs <;> omega
      · exact i2 e' he' hf k hk
    · rcases i3 with i3 | ⟨e', he', hf, hk⟩
      · rw [i3]
        by_cases hf : e.isFile = true
        · cases hk : e.number with
          | none => left; simp [highest, hf, hk]
          | some k =>
            by_cases hlt : h < k
            · right
              refine ⟨e, List.mem_cons_self, hf, ?_⟩
              simp [highest, hf, hk, hlt]
            · left; simp [highest, hf, hk, hlt]
        · left; simp [highest, hf]
      · exact .inr ⟨e', List.mem_cons_of_mem _ he', hf, hk⟩

/-- **C99.** The number is positive and larger than that of every file whose name is a number, so no such file has it; and it is the smallest such number: it is one, or its predecessor is the number of a
file. The order of the entries does not matter for this. -/
theorem C99_fresh (folder : List Entry) : 1 ≤ next folder ∧ (∀ e ∈ folder, e.isFile = true → ∀ k, e.number = some k → k < next folder) ∧
    (next folder = 1 ∨ ∃ e ∈ folder, e.isFile = true ∧ e.number = some (next folder - 1)) := by
  obtain ⟨h1, h2, h3⟩ := fold_spec folder 0
  unfold next
  refine ⟨by omega, fun e he hf k hk => by have := h2 e he hf k hk; omega, ?_⟩
  rcases h3 with h3 | h3
  · exact .inl (by omega)
  · exact .inr (by simpa using h3)

/-- **C99, folders do not count.** The number may be the name of a folder. -/
theorem C99_folder_wrong : ∃ folder : List Entry, ∃ e ∈ folder, e.number = some (next folder) := ⟨[⟨some 1, false⟩], _, List.mem_cons_self, rfl⟩

example : next [⟨some 3, true⟩, ⟨none, true⟩, ⟨some 7, false⟩, ⟨some (-2), true⟩] = 4 := by decide

end Verif.Files
