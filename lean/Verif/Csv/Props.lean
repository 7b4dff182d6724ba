import Mathlib.Tactic.Common
import Mathlib.Data.List.Forall2
import Verif.Csv.Spec

/-! # C57 and C83: reading csv and mat files -/

namespace Verif.Csv

open Spec

variable {V : Type}

/-! ## Splitting at white space -/

theorem splitFrom_blank (sp : Char → Bool) (s : Txt) (h : ∀ c ∈ s, sp c = true) (cur : Txt) : splitFrom sp cur s = flush cur [] := by
  induction s generalizing cur with
  | nil => rfl
  | cons c s ih =>
    have hc := h c (by simp)
    simp only [splitFrom, hc, if_true]
    rw [ih (fun c hc => h c (by simp [hc]))]
    simp [flush]

theorem splitFrom_space (sp : Char → Bool) (s t : Txt) (h : ∀ c ∈ s, sp c = true) : splitFrom sp [] (s ++ t) = splitFrom sp [] t := by
  induction s with
  | nil => rfl
  | cons c s ih =>
    have hc := h c (by simp)
    simp only [List.cons_append, splitFrom, hc, if_true]
    rw [ih (fun c hc => h c (by simp [hc]))]
    simp [flush]

theorem splitFrom_word (sp : Char → Bool) (w t cur : Txt) (h : ∀ c ∈ w, sp c = false) : splitFrom sp cur (w ++ t) = splitFrom sp (cur ++ w) t := by
  induction w generalizing cur with
  | nil => simp
  | cons c w ih =>
    have hc := h c (by simp)
    simp only [List.cons_append, splitFrom, hc, Bool.false_eq_true, if_false]
    rw [ih _ (fun c hc => h c (by simp [hc]))]
    simp

/-- The words of a text are unique: they are what `split` gives. -/
theorem words_split (sp : Char → Bool) (s : Txt) (ws : List Txt) (h : Words sp s ws) : split sp s = ws := by
  unfold split
  induction h with
  | blank s h => rw [splitFrom_blank sp s h]; rfl
  | last s w t hs hw hne ht =>
    rw [List.append_assoc, splitFrom_space sp s _ hs, splitFrom_word sp w t [] hw, splitFrom_blank sp t ht]
    simp [flush, hne]
  | more s w c t ws hs hw hne hc h ih =>
    rw [List.append_assoc, splitFrom_space sp s _ hs, splitFrom_word sp w _ [] hw]
    simp only [List.nil_append, splitFrom, hc, if_true, ih]
    simp [flush, hne]

theorem words_cons_space (sp : Char → Bool) (c : Char) (s : Txt) (ws : List Txt) (hc : sp c = true) (h : Words sp s ws) : Words sp (c :: s) ws := by
  cases h with
  | blank s h => exact .blank _ (by simpa [hc] using h)
  | last s w t hs hw hne ht => exact .last (c :: s) w t (by simpa [hc] using hs) hw hne ht
  | more s w d t ws hs hw hne hd h => exact .more (c :: s) w d t ws (by simpa [hc] using hs) hw hne hd h

theorem splitFrom_words (sp : Char → Bool) (s : Txt) :
    Words sp s (splitFrom sp [] s) ∧ ∀ cur : Txt, cur ≠ [] → (∀ c ∈ cur, sp c = false) → Words sp (cur ++ s) (splitFrom sp cur s) := by
  induction s with
  | nil =>
    refine ⟨.blank _ (by simp), fun cur hne hcur => ?_⟩
    simpa [splitFrom, flush, hne] using Words.last (sp := sp) [] cur [] (by simp) hcur hne (by simp)
  | cons c s ih =>
    by_cases hc : sp c = true
    · simp only [splitFrom, hc, if_true]
      refine ⟨by simpa [flush] using words_cons_space sp c s _ hc ih.1, fun cur hne hcur => ?_⟩
      simpa [flush, hne] using Words.more (sp := sp) [] cur c s _ (by simp) hcur hne hc ih.1
    · have hc' : sp c = false := by simpa using hc
      simp only [splitFrom, hc', Bool.false_eq_true, if_false]
      refine ⟨by simpa using ih.2 [c] (by simp) (by simpa using hc'), fun cur hne hcur => ?_⟩
      have := ih.2 (cur ++ [c]) (by simp) (by
        intro d hd
        rcases List.mem_append.mp hd with h | h
        · exact hcur d h
        · simp only [List.mem_singleton] at h; rw [h]; exact hc')
      simpa using this

/-- **C57, words.** The text of a row of one cell is cut into exactly its words. -/
theorem C57_words (sp : Char → Bool) (s : Txt) (ws : List Txt) : split sp s = ws ↔ Words sp s ws :=
  ⟨fun h => h ▸ (splitFrom_words sp s).1, words_split sp s ws⟩

example : split (fun c => c = ' ') " 1 23  4".toList = ["1".toList, "23".toList, "4".toList] := by decide

/-! ## One row -/

theorem floats_some (num : Txt → Option V) (ws : List Txt) (h : ∀ w ∈ ws, w ≠ []) (vs : List V) :
    floats num ws = some vs ↔ List.Forall₂ (IsNumber num) (ws.map .txt) vs := by
  induction ws generalizing vs with
  | nil => simp [floats, eq_comm]
  | cons w ws ih =>
    have hw := h w (by simp)
    have ih := ih (fun w hw => h w (by simp [hw]))
    simp only [floats, if_neg hw, List.map_cons, List.forall₂_cons_left_iff]
    cases hn : num w with
    | none => simp [IsNumber, hn]
    | some v =>
      simp only [Option.map_eq_some_iff, ih]
      constructor
      · rintro ⟨us, hus, rfl⟩; exact ⟨v, us, .inr ⟨w, rfl, hn⟩, hus, rfl⟩
      · rintro ⟨u, us, hu, hus, rfl⟩
        rcases hu with hu | ⟨t, ht, hu⟩
        · cases hu
        · cases ht; rw [hn] at hu; cases hu; exact ⟨us, hus, rfl⟩

theorem floatCells_some (num : Txt → Option V) (row : List (Cell V)) (h : .txt [] ∉ row) (vs : List V) :
    floatCells num row = some vs ↔ List.Forall₂ (IsNumber num) row vs := by
  induction row generalizing vs with
  | nil => simp [floatCells, eq_comm]
  | cons c row ih =>
    have ih := ih (fun hm => h (by simp [hm]))
    cases c with
    | flt v =>
      simp only [floatCells, List.forall₂_cons_left_iff, Option.map_eq_some_iff, ih]
      constructor
      · rintro ⟨us, hus, rfl⟩; exact ⟨v, us, .inl rfl, hus, rfl⟩
      · rintro ⟨u, us, hu, hus, rfl⟩
        rcases hu with hu | ⟨t, ht, hu⟩
        · cases hu; exact ⟨us, hus, rfl⟩
        · cases ht
    | txt w =>
      have hw : w ≠ [] := fun e => h (by simp [e])
      simp only [floatCells, if_neg hw, List.forall₂_cons_left_iff]
      cases hn : num w with
      | none => simp [IsNumber, hn]
      | some v =>
        simp only [Option.map_eq_some_iff, ih]
        constructor
        · rintro ⟨us, hus, rfl⟩; exact ⟨v, us, .inr ⟨w, rfl, hn⟩, hus, rfl⟩
        · rintro ⟨u, us, hu, hus, rfl⟩
          rcases hu with hu | ⟨t, ht, hu⟩
          · cases hu
          · cases ht; rw [hn] at hu; cases hu; exact ⟨us, hus, rfl⟩

theorem words_ne (sp : Char → Bool) (s : Txt) (ws : List Txt) (h : Words sp s ws) : ∀ w ∈ ws, w ≠ [] := by
  induction h with
  | blank => simp
  | last s w t hs hw hne ht => simpa using hne
  | more s w c t ws hs hw hne hc h ih => simpa [hne] using ih

theorem words_nil (sp : Char → Bool) (s : Txt) (h : Words sp s []) : ∀ c ∈ s, sp c = true := by
  cases h; assumption

theorem forall₂_flt (num : Txt → Option V) (l : List V) (vs : List V) : List.Forall₂ (IsNumber num) (cells l) vs ↔ l = vs := by
  induction l generalizing vs with
  | nil => simp [cells, eq_comm]
  | cons v l ih =>
    simp only [cells, List.map_cons, List.forall₂_cons_left_iff] at ih ⊢
    constructor
    · rintro ⟨u, us, hu, hus, rfl⟩
      rcases hu with hu | ⟨t, ht, hu⟩
      · cases hu; rw [(ih us).mp hus]
      · cases ht
    · rintro rfl; exact ⟨v, l, .inl rfl, (ih l).mpr rfl, rfl⟩

theorem all_flt (l : List (Cell V)) (h : ∀ c ∈ l, ∃ w, c = .flt w) : ∃ vs : List V, l = cells vs := by
  induction l with
  | nil => exact ⟨[], rfl⟩
  | cons c l ih =>
    obtain ⟨w, rfl⟩ := h c (by simp)
    obtain ⟨vs, rfl⟩ := ih (fun c hc => h c (by simp [hc]))
    exact ⟨w :: vs, rfl⟩

theorem fields_unique (sp : Char → Bool) (row fs gs : List (Cell V)) (h : Fields sp row fs) (h' : Fields sp row gs) : fs = gs := by
  cases h with
  | one s ws h => cases h' with
    | one _ us h' => rw [← words_split sp s ws h, ← words_split sp s us h']
  | number v => cases h'; rfl
  | several a b l => cases h'; rfl

/-- What is read of a clean row: its numbers if all cells are numbers, nothing otherwise. -/
theorem readRow_clean (sp : Char → Bool) (num : Txt → Option V) (row : List (Cell V)) (h : Clean sp row) :
    (∃ vs, NumericRow sp num row vs ∧ readRow sp num row = some (cells vs)) ∨ ((∀ vs, ¬ NumericRow sp num row vs) ∧ readRow sp num row = none) := by
  obtain ⟨h1, h2, h3⟩ := h
  match row with
  | [] => exact .inr ⟨(by rintro vs ⟨fs, hf, -, -⟩; cases hf), rfl⟩
  | .flt v :: l =>
    obtain ⟨vs, rfl⟩ := all_flt l (h3 v l rfl)
    refine .inl ⟨v :: vs, ⟨cells (v :: vs), ?_, by simp [cells], (forall₂_flt num _ _).mpr rfl⟩, rfl⟩
    cases vs with
    | nil => exact .number v
    | cons u us => exact .several _ _ _
  | [.txt s] =>
    have hw := (C57_words sp s (split sp s)).mp rfl
    have hne : split sp s ≠ [] := by
      intro e
      obtain ⟨c, hc, hs⟩ := h1 s rfl
      rw [e] at hw
      rw [words_nil sp s hw c hc] at hs; cases hs
    cases hf : floats num (split sp s) with
    | some vs =>
      refine .inl ⟨vs, ⟨_, .one s _ hw, by simpa using hne, ?_⟩, by simp [readRow, hf]⟩
      exact (floats_some num _ (words_ne sp s _ hw) vs).mp hf
    | none =>
      refine .inr ⟨?_, by simp [readRow, hf]⟩
      rintro vs ⟨fs, hfs, -, hn⟩
      rw [fields_unique sp _ _ _ hfs (.one s _ hw)] at hn
      rw [(floats_some num _ (words_ne sp s _ hw) vs).mpr hn] at hf; cases hf
  | .txt s :: c :: l =>
    have hm : .txt [] ∉ (.txt s :: c :: l : List (Cell V)) := h2 (by simp)
    cases hf : floatCells num (.txt s :: c :: l) with
    | some vs =>
      exact .inl ⟨vs, ⟨_, .several _ _ _, by simp, (floatCells_some num _ hm vs).mp hf⟩, by simp [readRow, hf]⟩
    | none =>
      refine .inr ⟨?_, by simp [readRow, hf]⟩
      rintro vs ⟨fs, hfs, -, hn⟩
      rw [fields_unique sp _ _ _ hfs (.several _ _ _)] at hn
      rw [(floatCells_some num _ hm vs).mpr hn] at hf; cases hf

theorem readRows_clean (sp : Char → Bool) (num : Txt → Option V) (rows : List (List (Cell V))) (h : ∀ r ∈ rows, Clean sp r) :
    ∃ out, Kept sp num rows out ∧ readRows sp num rows = out.map cells := by
  induction rows with
  | nil => exact ⟨[], .nil, rfl⟩
  | cons r rows ih =>
    obtain ⟨out, hk, hr⟩ := ih (fun r hr => h r (by simp [hr]))
    rcases readRow_clean sp num r (h r (by simp)) with ⟨vs, hn, e⟩ | ⟨hn, e⟩
    · refine ⟨vs :: out, .keep r vs rows out hn hk, ?_⟩
      simp only [readRows] at hr ⊢
      rw [List.filterMap_cons_some e, hr]; rfl
    · refine ⟨out, .skip r rows out hn hk, ?_⟩
      simp only [readRows] at hr ⊢
      rw [List.filterMap_cons_none e, hr]

theorem numericRow_unique (sp : Char → Bool) (num : Txt → Option V) (r : List (Cell V)) (vs us : List V) (h : NumericRow sp num r vs)
    (h' : NumericRow sp num r us) : vs = us := by
  obtain ⟨fs, hf, -, hn⟩ := h
  obtain ⟨gs, hg, -, hn'⟩ := h'
  rw [fields_unique sp r gs fs hg hf] at hn'
  clear hf hg
  induction hn generalizing us with
  | nil => cases hn'; rfl
  | cons h _ ih =>
    cases hn' with
    | cons h' t' =>
      rw [ih _ t']
      congr 1
      rcases h with h | ⟨s, h, e⟩ <;> rcases h' with h' | ⟨s', h', e'⟩
      · rw [h] at h'; cases h'; rfl
      · rw [h] at h'; cases h'
      · rw [h] at h'; cases h'
      · rw [h] at h'; cases h'; rw [e] at e'; cases e'; rfl

theorem kept_unique (sp : Char → Bool) (num : Txt → Option V) (rows : List (List (Cell V))) (out out' : List (List V)) (h : Kept sp num rows out)
    (h' : Kept sp num rows out') : out = out' := by
  induction h generalizing out' with
  | nil => cases h'; rfl
  | keep r vs rows out hn hk ih =>
    cases h' with
    | keep _ us _ out' hn' hk' => rw [numericRow_unique sp num r vs us hn hn', ih _ hk']
    | skip _ _ _ hn' hk' => exact absurd hn (hn' vs)
  | skip r rows out hn hk ih =>
    cases h' with
    | keep _ us _ out' hn' hk' => exact absurd hn' (hn us)
    | skip _ _ _ hn' hk' => exact ih _ hk'

/-! ## The array -/

theorem rowVals_cells (num : Txt → Option V) (l : List V) : rowVals num (cells l) = some l := by
  induction l with
  | nil => rfl
  | cons v l ih =>
    change (match cellVal num (.flt v) with | none => none | some v => (rowVals num (cells l)).map (v :: ·)) = _
    rw [ih]; rfl

theorem allVals_cells (num : Txt → Option V) (l : List (List V)) : allVals num (l.map cells) = some l := by
  induction l with
  | nil => rfl
  | cons v l ih => simp only [List.map_cons, allVals, rowVals_cells, ih]; rfl

theorem asarray_cells (num : Txt → Option V) (out : List (List V)) (hne : out ≠ []) :
    (Rectangular out → asarray num (out.map cells) = .ok (.mat out)) ∧ (¬ Rectangular out → asarray num (out.map cells) = .error .valueError) := by
  cases out with
  | nil => exact absurd rfl hne
  | cons r l =>
    unfold asarray
    rw [allVals_cells]
    constructor
    · intro h
      have : (l.all fun q => decide (q.length = r.length)) = true := by
        rw [List.all_eq_true]; intro q hq; simpa using h q (by simp [hq]) r (by simp)
      simp only [this, if_true]
    · intro h
      have : (l.all fun q => decide (q.length = r.length)) = false := by
        rw [Bool.eq_false_iff]; intro ht; apply h
        rw [List.all_eq_true] at ht
        have e : ∀ q ∈ r :: l, q.length = r.length := by
          intro q hq; rcases List.mem_cons.mp hq with h | h
          · rw [h]
          · simpa using ht q h
        intro a ha b hb; rw [e a ha, e b hb]
      simp [this]

/-- **C57, partial.** If no row has an empty cell beside others or consists of one blank cell, and rows that begin with a number already converted have nothing else, then:
the array is made of exactly the rows all of whose cells are numbers, in the order of the file; there is a `ValueError` if these have different lengths.
Missing: the other files, and files without any row of numbers, which are accepted. -/
theorem C57_numeric_rows_partial (sp : Char → Bool) (num : Txt → Option V) (rows : List (List (Cell V))) (out : List (List V))
    (hc : ∀ r ∈ rows, Clean sp r) (hk : Kept sp num rows out) (hne : out ≠ []) :
    (Rectangular out → readCsv sp num rows = .ok (.mat out)) ∧ (¬ Rectangular out → readCsv sp num rows = .error .valueError) := by
  obtain ⟨out', hk', e⟩ := readRows_clean sp num rows hc
  rw [kept_unique sp num rows out' out hk' hk] at e
  unfold readCsv
  rw [e]
  exact asarray_cells num out hne

/-- Digits as numbers. -/
def digit : Txt → Option ℕ
  | [c] => if '0' ≤ c ∧ c ≤ '9' then some (c.toNat - '0'.toNat) else none
  | _ => none

/-- A text cell, for the examples. -/
def t (s : String) : Cell ℕ := .txt s.toList

/-- The header is skipped. -/
example : readCsv (· = ' ') digit [[t "a", t "b"], [t "1", t "2"], [], [t "3", t "x"], [t "3", t "4"]] = .ok (.mat [[1, 2], [3, 4]]) := rfl

example : (∀ r ∈ [[t "a", t "b"], [t "1", t "2"], [t "3 4"]], Clean (· = ' ') r) ∧
    Kept (· = ' ') digit [[t "a", t "b"], [t "1", t "2"], [t "3 4"]] [[1, 2], [3, 4]] ∧ Rectangular [[1, 2], [3, 4]] := by
  have hc : ∀ r ∈ [[t "a", t "b"], [t "1", t "2"], [t "3 4"]], Clean (· = ' ') r := by
    intro r hr
    simp only [List.mem_cons, List.not_mem_nil, or_false] at hr
    rcases hr with rfl | rfl | rfl
    · refine ⟨by simp [t], fun _ => by simp [t], by simp [t]⟩
    · refine ⟨by simp [t], fun _ => by simp [t], by simp [t]⟩
    · refine ⟨?_, by simp [t], by simp [t]⟩
      intro s hs
      simp only [t, List.cons.injEq, Cell.txt.injEq, and_true] at hs
      subst hs
      exact ⟨'3', by decide, by decide⟩
  refine ⟨hc, ?_, by simp [Rectangular]⟩
  obtain ⟨out, hk, e⟩ := readRows_clean (· = ' ') digit _ hc
  have : out.map cells = [[1, 2], [3, 4]].map cells := by rw [← e]; rfl
  have inj : Function.Injective (cells : List ℕ → List (Cell ℕ)) := by
    apply List.map_injective_iff.mpr; intro a b h; cases h; rfl
  rw [List.map_injective_iff.mpr inj this] at hk
  exact hk

/-- **C57, no row is lost or invented.** Whatever the file, each entry of the list read comes from a row of the file, and the entries come in the order of their rows: the list read
of a file cut in two is the list of the first part followed by that of the second. -/
theorem C57_order (sp : Char → Bool) (num : Txt → Option V) (rows : List (List (Cell V))) :
    ∃ kept : List (List (Cell V) × List (Cell V)), (kept.map Prod.fst).Sublist rows ∧ (∀ e ∈ kept, readRow sp num e.1 = some e.2) ∧ readRows sp num rows = kept.map Prod.snd ∧
      ∀ r ∈ rows, (readRow sp num r).isSome → r ∈ kept.map Prod.fst := by
  induction rows with
  | nil => exact ⟨[], .slnil, by simp, rfl, by simp⟩
  | cons r rows ih =>
    obtain ⟨k, h1, h2, h3, h4⟩ := ih
    simp only [readRows] at h3 ⊢
    cases e : readRow sp num r with
    | none =>
      refine ⟨k, h1.cons r, h2, by rw [List.filterMap_cons_none e, h3], ?_⟩
      intro q hq hs
      rcases List.mem_cons.mp hq with h | h
      · rw [h, e] at hs; cases hs
      · exact h4 q h hs
    | some v =>
      refine ⟨(r, v) :: k, by simpa using h1, ?_, by rw [List.filterMap_cons_some e, h3]; rfl, ?_⟩
      · intro x hx; rcases List.mem_cons.mp hx with h | h
        · rw [h]; exact e
        · exact h2 x h
      · intro q hq hs
        rcases List.mem_cons.mp hq with h | h
        · simp [h]
        · exact List.mem_cons_of_mem _ (h4 q h hs)

/-- Rows of at least two cells written by a printer. -/
def written (print : V → Txt) (m : List (List V)) : List (List (Cell V)) := m.map fun r => r.map fun v => .txt (print v)

/-- **C57, round trip.** A matrix of at least one row and two columns, each number written as a text that is read as this number, is read back as it was. -/
theorem C57_round_trip (sp : Char → Bool) (num : Txt → Option V) (print : V → Txt) (hp : ∀ v, num (print v) = some v) (he : ∀ v, print v ≠ [])
    (m : List (List V)) (n : ℕ) (hn : 2 ≤ n) (hm : m ≠ []) (hl : ∀ r ∈ m, r.length = n) : readCsv sp num (written print m) = .ok (.mat m) := by
  have hnum : ∀ r : List V, List.Forall₂ (IsNumber num) (r.map fun v => .txt (print v)) r := by
    intro r
    induction r with
    | nil => exact .nil
    | cons v r ih => exact .cons (.inr ⟨_, rfl, hp v⟩) ih
  have hkept : ∀ m : List (List V), (∀ r ∈ m, r.length = n) → Kept sp num (written print m) m := by
    intro m hl
    induction m with
    | nil => exact .nil
    | cons r m ih =>
      refine .keep _ r _ m ?_ (ih fun r hr => hl r (by simp [hr]))
      have hr := hl r (by simp)
      match r, hr with
      | a :: b :: l, hr => exact ⟨_, .several _ _ _, by simp, hnum (a :: b :: l)⟩
      | [a], hr => simp at hr; omega
      | [], hr => simp at hr; omega
  refine (C57_numeric_rows_partial sp num _ m ?_ (hkept m hl) hm).1 ?_
  · intro r hr
    simp only [written, List.mem_map] at hr
    obtain ⟨q, hq, rfl⟩ := hr
    have hlen := hl q hq
    refine ⟨?_, ?_, ?_⟩
    · intro s hs
      have := congrArg List.length hs
      simp only [List.length_map, List.length_singleton] at this
      omega
    · intro _ hmem
      simp only [List.mem_map, Cell.txt.injEq] at hmem
      obtain ⟨v, _, hv⟩ := hmem
      exact he v hv
    · intro v l hvl
      cases q with
      | nil => simp at hvl
      | cons a q => simp at hvl
  · intro a ha b hb; rw [hl a ha, hl b hb]

/-- The printer that writes `true` and `false` as `1` and `0`, with a reader. -/
example : let num : Txt → Option Bool := fun s => if s = ['1'] then some true else if s = ['0'] then some false else none
    let print : Bool → Txt := fun b => if b then ['1'] else ['0']
    (∀ v, num (print v) = some v) ∧ (∀ v, print v ≠ []) := by decide

/-- **C57 does not hold.** An empty cell is left out, so that the numbers after it move by one column, and the row is kept; a row of empty cells, or of one blank cell, makes the whole file
be rejected, or gives rows without entries; a file without any number is accepted as an empty profile;
a row with a text is skipped if it begins with the text, but makes the file be rejected if it begins with a number. -/
theorem C57_fails :
    (∀ vs, ¬ NumericRow (· = ' ') digit [t "1", t "", t "2"] vs) ∧
    readCsv (· = ' ') digit [[t "1", t "", t "2"], [t "3", t "4"]] = .ok (.mat [[1, 2], [3, 4]]) ∧
    readCsv (· = ' ') digit [[t "1", t "2"], [t "", t ""]] = .error .valueError ∧
    readCsv (· = ' ') digit [[t "1", t "2"], [t " "]] = .error .valueError ∧
    readCsv (· = ' ') digit [[t "x"], [t " "]] = .ok (.mat [[]]) ∧
    readCsv (· = ' ') digit [[t "x", t "y"]] = .ok .empty ∧
    readCsv (· = ' ') digit [[t "x", .flt 1], [.flt 1, .flt 2]] = .ok (.mat [[1, 2]]) ∧
    readCsv (· = ' ') digit [[.flt 1, t "x"], [.flt 1, .flt 2]] = .error .valueError := by
  refine ⟨?_, rfl, rfl, rfl, rfl, rfl, rfl, rfl⟩
  rintro vs ⟨fs, hf, -, hn⟩
  rw [fields_unique _ _ _ _ hf (.several _ _ _)] at hn
  cases hn with
  | cons h1 h2 =>
    cases h2 with
    | cons h2 _ =>
      rcases h2 with h | ⟨s, h, e⟩
      · simp [t] at h
      · simp only [t, Cell.txt.injEq] at h
        subst h
        cases e

/-- **C57, files without numbers.** Such a file is never rejected: the result is an empty profile. -/
theorem C57_no_numbers_accepted (sp : Char → Bool) (num : Txt → Option V) (rows : List (List (Cell V))) (hc : ∀ r ∈ rows, Clean sp r)
    (hk : Kept sp num rows []) : readCsv sp num rows = .ok .empty := by
  obtain ⟨out', hk', e⟩ := readRows_clean sp num rows hc
  rw [kept_unique sp num rows out' [] hk' hk] at e
  unfold readCsv
  rw [e]; rfl

example : Kept (V := ℕ) (· = ' ') digit [[]] [] := .skip _ _ _ (by rintro vs ⟨fs, hf, -, -⟩; cases hf) .nil

/-! ## C83: `.mat` files -/

/-- **C83, names found.** If the names asked for are in the file, the profile is the variable of that name (`profile` if no name is given), and the grid spacing is the variable of the name
given for it, or unchanged if none is given. -/
theorem C83_names_found (mat : Dict V) (pn gn : Option String) (s : Surf V) (v : V) (hv : (pn.getD "profile", v) ∈ mat) (hk : mat.keys.Nodup)
    (hg : ∀ g, gn = some g → g ∈ mat.keys) :
    (readMat mat pn gn s).2 = none ∧ (readMat mat pn gn s).1.prof = some v ∧
      (gn = none → (readMat mat pn gn s).1.gs = s.gs) ∧ ∀ g u, gn = some g → (g, u) ∈ mat → (readMat mat pn gn s).1.gs = some u := by
  have get : ∀ (k : String) (v : V), (k, v) ∈ mat → mat.get? k = some v := by
    intro k v h
    clear hv hg
    induction mat with
    | nil => simp at h
    | cons a d ih =>
      obtain ⟨k', v'⟩ := a
      simp only [Dict.keys, List.map_cons, List.nodup_cons] at hk
      rcases List.mem_cons.mp h with h | h
      · cases h; simp [Dict.get?]
      · have : k' ≠ k := by rintro rfl; exact hk.1 (List.mem_map.mpr ⟨_, h, rfl⟩)
        simp only [Dict.get?, if_neg this]
        exact ih hk.2 h
  have ev := get _ _ hv
  cases gn with
  | none => simp [readMat, ev]
  | some g =>
    obtain ⟨u, hu⟩ := (Dict.mem_keys_iff mat g).mp (hg g rfl)
    simp only [readMat, hu, ev, reduceCtorEq, false_implies, true_and, Option.some.injEq]
    rintro _ w rfl hw
    rw [get _ _ hw] at hu
    exact (Option.some.inj hu).symm

example : let mat : Dict ℕ := [("__header__", 0), ("profile", 1), ("gs", 2)]
    ((none : Option String).getD "profile", 1) ∈ mat ∧ mat.keys.Nodup ∧ ∀ g, some "gs" = some g → g ∈ mat.keys := by
  refine ⟨by decide, by decide, ?_⟩
  intro g hg; cases hg; decide

/-- **C83, names not found.** If one of the names asked for is not in the file there is a `ValueError` and the profile is unchanged. -/
theorem C83_names_missing (mat : Dict V) (pn gn : Option String) (s : Surf V) (h : pn.getD "profile" ∉ mat.keys ∨ ∃ g, gn = some g ∧ g ∉ mat.keys) :
    (readMat mat pn gn s).2 = some .valueError ∧ (readMat mat pn gn s).1.prof = s.prof := by
  have none_of : ∀ k, k ∉ mat.keys → mat.get? k = none := by
    intro k hk
    cases e : mat.get? k with
    | none => rfl
    | some v => exact absurd ((Dict.mem_keys_iff mat k).mpr ⟨v, e⟩) hk
  rcases h with h | ⟨g, rfl, h⟩
  · cases gn with
    | none => simp [readMat, none_of _ h]
    | some g => cases e : mat.get? g <;> simp [readMat, none_of _ h, e]
  · simp [readMat, none_of _ h]

example : (none : Option String).getD "profile" ∉ Dict.keys ([("z", 1)] : Dict ℕ) := by decide

/-- **C83 does not hold.** A file with a single variable of another name is rejected; a variable `grid_spacing` is not used unless it is named; and a call that fails may have set the grid spacing. -/
theorem C83_fails :
    (∀ v : ℕ, readMat [("z", v)] none none ⟨none, none⟩ = (⟨none, none⟩, some .valueError)) ∧
    (∀ v g : ℕ, readMat [("profile", v), ("grid_spacing", g)] none none ⟨none, none⟩ = (⟨none, some v⟩, none)) ∧
    (∀ g : ℕ, readMat [("gs", g)] none (some "gs") ⟨none, none⟩ = (⟨some g, none⟩, some .valueError)) :=
  ⟨fun _ => rfl, fun _ _ => rfl, fun _ => rfl⟩

end Verif.Csv
