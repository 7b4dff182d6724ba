import Mathlib.Data.List.Forall2
import Verif.Csv.Model

/-! # What reading a delimited file should give -/

namespace Verif.Csv.Spec

variable {V : Type}

/-- `ws` are the words of the text: they are without white space and not empty, separated by white space, which may also stand before and after. -/
inductive Words (sp : Char → Bool) : Txt → List Txt → Prop where
  | blank (s : Txt) (h : ∀ c ∈ s, sp c = true) : Words sp s []
  | last (s w t : Txt) (hs : ∀ c ∈ s, sp c = true) (hw : ∀ c ∈ w, sp c = false) (hne : w ≠ []) (ht : ∀ c ∈ t, sp c = true) : Words sp (s ++ w ++ t) [w]
  | more (s w : Txt) (c : Char) (t : Txt) (ws : List Txt) (hs : ∀ c ∈ s, sp c = true) (hw : ∀ c ∈ w, sp c = false) (hne : w ≠ []) (hc : sp c = true)
      (h : Words sp t ws) : Words sp (s ++ w ++ c :: t) (w :: ws)

/-- The cell is the number `v`. -/
def IsNumber (num : Txt → Option V) (c : Cell V) (v : V) : Prop := c = .flt v ∨ ∃ s, c = .txt s ∧ num s = some v

/-- The cells of a row: those separated by the delimiter, or, if there is just one and it is a text, its words. -/
inductive Fields (sp : Char → Bool) : List (Cell V) → List (Cell V) → Prop where
  | one (s : Txt) (ws : List Txt) (h : Words sp s ws) : Fields sp [.txt s] (ws.map .txt)
  | number (v : V) : Fields sp [.flt v] [.flt v]
  | several (a b : Cell V) (l : List (Cell V)) : Fields sp (a :: b :: l) (a :: b :: l)

/-- All cells of the row are numbers, namely `vs`, and there is one at least. -/
def NumericRow (sp : Char → Bool) (num : Txt → Option V) (row : List (Cell V)) (vs : List V) : Prop :=
  ∃ fs, Fields sp row fs ∧ fs ≠ [] ∧ List.Forall₂ (IsNumber num) fs vs

/-- `out` are the rows of numbers of the file, in their order. -/
inductive Kept (sp : Char → Bool) (num : Txt → Option V) : List (List (Cell V)) → List (List V) → Prop where
  | nil : Kept sp num [] []
  | keep (r : List (Cell V)) (vs : List V) (rows : List (List (Cell V))) (out : List (List V)) (h : NumericRow sp num r vs) (hr : Kept sp num rows out) :
      Kept sp num (r :: rows) (vs :: out)
  | skip (r : List (Cell V)) (rows : List (List (Cell V))) (out : List (List V)) (h : ∀ vs, ¬ NumericRow sp num r vs) (hr : Kept sp num rows out) :
      Kept sp num (r :: rows) out

/-- All rows have the same length. -/
def Rectangular (m : List (List V)) : Prop := ∀ r ∈ m, ∀ q ∈ m, r.length = q.length

/-- No row has an empty cell beside others, no row is one blank cell, and a row beginning with a number has nothing but numbers. -/
def Clean (sp : Char → Bool) (row : List (Cell V)) : Prop :=
  (∀ s, row = [.txt s] → ∃ c ∈ s, sp c = false) ∧ (2 ≤ row.length → .txt [] ∉ row) ∧ (∀ v l, row = .flt v :: l → ∀ c ∈ l, ∃ w, c = .flt w)

end Verif.Csv.Spec
