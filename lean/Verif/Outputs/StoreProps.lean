import Mathlib.Tactic.Linarith
import Mathlib.Tactic.NormNum
import Mathlib.Data.List.Forall2
import Verif.Outputs.Store

/-!
# Properties C18, C19: what is written is what is read
-/

namespace Verif.Outputs

open Verif

/-! ## The codes of arrays -/

lemma beforeHash_append (u v : Str) (hu : '#' ∉ u) : beforeHash (u ++ '#' :: v) = u := by
  unfold beforeHash
  induction u with
  | nil => simp
  | cons c u ih =>
    simp only [List.mem_cons, not_or] at hu
    have : c ≠ '#' := fun h => hu.1 h.symm
    simp only [List.cons_append, List.takeWhile_cons, decide_eq_true_eq, ne_eq, this, not_false_eq_true, if_true]
    rw [ih hu.2]

lemma afterHash_append (u v : Str) (hu : '#' ∉ u) : afterHash (u ++ '#' :: v) = v := by
  unfold afterHash
  induction u with
  | nil => simp
  | cons c u ih =>
    simp only [List.mem_cons, not_or] at hu
    have : c ≠ '#' := fun h => hu.1 h.symm
    simp only [List.cons_append, List.dropWhile_cons, decide_eq_true_eq, ne_eq, this, not_false_eq_true, if_true]
    exact ih hu.2

lemma showNat_digit (n : ℕ) (c : Char) (h : c ∈ showNat n) : c.isDigit = true :=
  Nat.isDigit_of_mem_toDigits (by norm_num) (by norm_num) h

lemma showNat_inj {m n : ℕ} (h : showNat m = showNat n) : m = n := by
  have := congrArg (fun l => Nat.ofDigitChars 10 l 0) h
  simpa [showNat, Nat.ofDigitChars_ten_toDigits] using this

lemma showNat_ne_nil (n : ℕ) : showNat n ≠ [] := Nat.toDigits_ne_nil

/-- The characters of a shape. -/
lemma showShape_chars (l : List ℕ) (c : Char) (h : c ∈ showShape l) : c.isDigit = true ∨ c = '(' ∨ c = ')' ∨ c = ',' ∨ c = ' ' := by
  have hint : ∀ l : List ℕ, ∀ c ∈ [',', ' '].intercalate (l.map showNat), c.isDigit = true ∨ c = ',' ∨ c = ' ' := by
    intro l
    induction l with
    | nil => intro c hc; simp [List.intercalate] at hc
    | cons n l ih =>
      intro c hc
      cases l with
      | nil => simp [List.intercalate] at hc; exact Or.inl (showNat_digit n c hc)
      | cons m l =>
        simp only [List.map_cons, List.intercalate, List.intersperse_cons₂, List.flatten_cons, List.mem_append] at hc
        rcases hc with hc | hc | hc
        · exact Or.inl (showNat_digit n c hc)
        · simp at hc; tauto
        · exact ih c (by simpa [List.intercalate] using hc)
  simp only [showShape, List.mem_append, List.mem_singleton] at h
  rcases h with (h | h) | h
  · tauto
  · split at h
    · rename_i n
      simp only [List.mem_append, List.mem_singleton] at h
      rcases h with h | h
      · exact Or.inl (showNat_digit n c h)
      · tauto
    · have := hint _ c h; tauto
  · tauto

lemma evalShapeAux_digits (u : Str) (hu : ∀ c ∈ u, c.isDigit = true) : ∀ cur rest : Str,
    evalShapeAux cur (u ++ rest) = evalShapeAux (cur ++ u) rest := by
  induction u with
  | nil => intro cur rest; simp
  | cons c u ih =>
    intro cur rest
    rw [List.cons_append, evalShapeAux, if_pos (hu c (by simp)), ih (fun x hx => hu x (by simp [hx]))]
    simp

lemma evalShapeAux_nondigit (cur : Str) (c : Char) (hc : c.isDigit = false) (rest : Str) :
    evalShapeAux cur (c :: rest) = flushDigits cur ++ evalShapeAux [] rest := by
  rw [evalShapeAux, if_neg (by simp [hc])]

lemma flush_showNat (n : ℕ) : flushDigits (showNat n) = [n] := by
  unfold flushDigits
  rw [if_neg (showNat_ne_nil n)]
  simp [showNat, Nat.ofDigitChars_ten_toDigits]

lemma evalShape_showShape (l : List ℕ) : evalShape (showShape l) = l := by
  have hbody : ∀ l : List ℕ, evalShapeAux [] ([',', ' '].intercalate (l.map showNat) ++ [')']) = l := by
    intro l
    induction l with
    | nil => simp [List.intercalate, evalShapeAux, flushDigits]
    | cons n l ih =>
      cases l with
      | nil =>
        simp only [List.map_cons, List.map_nil, List.intercalate, List.intersperse_single, List.flatten_cons, List.flatten_nil,
          List.append_nil]
        rw [evalShapeAux_digits _ (showNat_digit n), List.nil_append, evalShapeAux_nondigit _ _ (by decide), flush_showNat]
        simp [evalShapeAux, flushDigits]
      | cons m l =>
        have e : [',', ' '].intercalate ((n :: m :: l).map showNat) ++ [')'] =
            showNat n ++ (',' :: ' ' :: ([',', ' '].intercalate ((m :: l).map showNat) ++ [')'])) := by
          simp [List.intercalate, List.intersperse_cons₂]
        rw [e, evalShapeAux_digits _ (showNat_digit n), List.nil_append, evalShapeAux_nondigit _ _ (by decide), flush_showNat,
          evalShapeAux_nondigit _ _ (by decide), ih]
        simp [flushDigits]
  unfold evalShape showShape
  rw [List.append_assoc, List.singleton_append, evalShapeAux_nondigit _ _ (by decide)]
  simp only [flushDigits, if_true, List.nil_append]
  match l with
  | [n] =>
    simp only [List.append_assoc]
    rw [evalShapeAux_digits _ (showNat_digit n), List.nil_append, List.singleton_append, evalShapeAux_nondigit _ _ (by decide),
      flush_showNat, evalShapeAux_nondigit _ _ (by decide)]
    simp [flushDigits, evalShapeAux]
  | [] => exact hbody []
  | n :: m :: l => exact hbody (n :: m :: l)

lemma not_hash_digit (c : Char) (h : c.isDigit = true) : c ≠ '#' := by rintro rfl; revert h; decide

/-- A data type that numpy finds under its name, and the right number of bytes. -/
def Arr.WF (a : Arr) : Prop := ∃ k, itemSize a.dtype = some k ∧ a.bytes.length = a.shape.prod * k

lemma isDigit_cases (c : Char) (h : c.isDigit = true) : c ∈ "1234567890".toList := by
  have h1 : 48 ≤ c.toNat ∧ c.toNat ≤ 57 := by
    simp only [Char.isDigit, Bool.and_eq_true, decide_eq_true_eq, ge_iff_le] at h
    exact ⟨by simpa [UInt32.le_iff_toNat_le] using h.1, by simpa [UInt32.le_iff_toNat_le] using h.2⟩
  have h2 : c = Char.ofNat c.toNat := by simp
  rw [h2]
  obtain ⟨a, b⟩ := h1
  generalize c.toNat = n at a b
  have : n = 48 ∨ n = 49 ∨ n = 50 ∨ n = 51 ∨ n = 52 ∨ n = 53 ∨ n = 54 ∨ n = 55 ∨ n = 56 ∨ n = 57 := by omega
  rcases this with rfl | rfl | rfl | rfl | rfl | rfl | rfl | rfl | rfl | rfl <;> decide

lemma arrayGen_code (n : ℕ) (a : Arr) (ha : a.WF) : arrayGen (.str (code n a)) = .ok (.lazy (showNat n) a.shape a.dtype) := by
  obtain ⟨k, hk, -⟩ := ha
  have hnum : '#' ∉ showNat n := fun h => not_hash_digit _ (showNat_digit n _ h) rfl
  have hshape : '#' ∉ showShape a.shape := fun h => by
    rcases showShape_chars _ _ h with h | h | h | h | h
    · exact not_hash_digit _ h rfl
    all_goals revert h; decide
  have e1 : code n a = "**array**".toList ++ '#' :: (showNat n ++ '#' :: (showShape a.shape ++ '#' :: a.dtype)) := by
    unfold code
    have : "**array**#".toList = "**array**".toList ++ ['#'] := by decide
    rw [this]; simp
  have hpre : "**array**".toList.isPrefixOf (code n a) = true := by
    rw [List.isPrefixOf_iff_prefix, e1]; exact List.prefix_append _ _
  have h0 : '#' ∉ "**array**".toList := by decide
  have hcount : ¬ (code n a).count '#' < 3 := by
    rw [e1]; simp only [List.count_append, List.count_cons_self]; omega
  have a1 : afterHash (code n a) = showNat n ++ '#' :: (showShape a.shape ++ '#' :: a.dtype) := by rw [e1]; exact afterHash_append _ _ h0
  have a2 : afterHash (afterHash (code n a)) = showShape a.shape ++ '#' :: a.dtype := by rw [a1]; exact afterHash_append _ _ hnum
  have a3 : afterHash (afterHash (afterHash (code n a))) = a.dtype := by rw [a2]; exact afterHash_append _ _ hshape
  have hany : ((showShape a.shape).any fun c => !"1234567890 ,()".toList.elem c) = false := by
    rw [List.any_eq_false]
    intro c hc
    rcases showShape_chars _ _ hc with h | h | h | h | h
    · have := isDigit_cases c h
      simp only [Bool.not_eq_true, Bool.not_eq_false', List.elem_eq_mem, decide_eq_true_eq]
      have e : "1234567890 ,()".toList = "1234567890".toList ++ " ,()".toList := by decide
      rw [e, List.mem_append]; exact Or.inl this
    all_goals subst h; decide
  have b1 : beforeHash (afterHash (code n a)) = showNat n := by rw [a1]; exact beforeHash_append _ _ hnum
  have b2 : beforeHash (afterHash (afterHash (code n a))) = showShape a.shape := by rw [a2]; exact beforeHash_append _ _ hshape
  simp only [arrayGen, hpre, if_true, arrayReader, hcount, if_false, a3, b1, b2, hany, hk, evalShape_showShape]
  rfl

/-! ## Round trip -/

section
variable (toFloat : Arr → Option ℚ)

/-- Values that the files can hold: strings that are no codes of arrays, arrays of a data type known by its name. -/
def Ordinary : Val → Prop
  | .num _ => True
  | .str s => ¬ "**array**".toList <+: s
  | .arr a => a.WF

/-- What should be read for a value: the same, but arrays with one element are numbers if they can be. -/
def expect : Val → Got
  | .num x => .num x
  | .str s => .str s
  | .arr a => match (if a.shape.prod = 1 then toFloat a else none) with
    | some x => .num x
    | none => .arr a

def expectRec (r : Rec Val) : Rec Got := r.map fun e => (e.1, expect toFloat e.2)

/-- `Z` holds the arrays that the saver has written. -/
def Holds (Z : List (Str × List ℕ)) (s : Saver) : Prop :=
  ∀ n < s.arrayNumber, Z.reverse.lookup (entryName n) = s.zip.reverse.lookup (entryName n)

lemma entryName_inj {m n : ℕ} (h : entryName m = entryName n) : m = n := by
  unfold entryName at h
  simp at h
  exact showNat_inj h

/-- Reading of one stored value. -/
def loadOne (Z : List (Str × List ℕ)) (v : Stored) : Except PyErr Got := do fill Z (← arrayGen v)

lemma writeValue_spec (s : Saver) (v : Val) (hv : Ordinary v) :
    s.arrayNumber ≤ (writeValue toFloat s v).2.arrayNumber ∧ (writeValue toFloat s v).2.inContext = s.inContext ∧
    (writeValue toFloat s v).2.db = s.db ∧ (∀ Z, Holds Z (writeValue toFloat s v).2 → Holds Z s) ∧
    (∀ Z, Holds Z (writeValue toFloat s v).2 → loadOne Z (writeValue toFloat s v).1 = .ok (expect toFloat v)) := by
  cases v with
  | num x => exact ⟨le_rfl, rfl, rfl, fun _ h => h, fun _ _ => rfl⟩
  | str t =>
    refine ⟨le_rfl, rfl, rfl, fun _ h => h, fun _ _ => ?_⟩
    have : "**array**".toList.isPrefixOf t = false := by
      rw [Bool.eq_false_iff]; intro h; exact hv (List.isPrefixOf_iff_prefix.mp h)
    simp only [writeValue, loadOne, arrayGen, this, expect]
    rfl
  | arr a =>
    have hw : writeValue toFloat s (.arr a) = match (if a.shape.prod = 1 then toFloat a else none) with
      | some x => (.num x, s)
      | none => (.str (code s.arrayNumber a),
        { s with zip := s.zip ++ [(entryName s.arrayNumber, a.bytes)], arrayNumber := s.arrayNumber + 1 }) := rfl
    simp only [hw, expect]
    cases hf : (if a.shape.prod = 1 then toFloat a else none) with
    | some x => exact ⟨le_rfl, rfl, rfl, fun _ h => h, fun _ _ => rfl⟩
    | none =>
      simp only
      refine ⟨Nat.le_succ _, trivial, trivial, ?_, ?_⟩
      · intro Z hZ n hn
        have := hZ n (by simp; omega)
        rw [this]
        simp only [List.reverse_append, List.reverse_cons, List.reverse_nil, List.nil_append, List.singleton_append, List.lookup_cons]
        have hne : (entryName n == entryName s.arrayNumber) = false := by
          rw [beq_eq_false_iff_ne]; intro h; have := entryName_inj h; omega
        rw [hne]
      · intro Z hZ
        have hl := hZ s.arrayNumber (by simp)
        simp only [List.reverse_append, List.reverse_cons, List.reverse_nil, List.nil_append, List.singleton_append,
          List.lookup_cons, beq_self_eq_true] at hl
        obtain ⟨k, hk, hlen⟩ := id hv
        simp only [loadOne, arrayGen_code _ a hv]
        show fill Z (.lazy (showNat s.arrayNumber) a.shape a.dtype) = _
        unfold entryName at hl
        simp only [fill, hl, hk, hlen, if_true]

lemma load_some {κ : Type} (Z : List (Str × List ℕ)) (k : κ) (v : Stored) (rest : List (κ × Option Stored)) (g : Got)
    (gs : List (κ × Got)) (h1 : loadOne Z v = .ok g) (h2 : load Z rest = .ok gs) : load Z ((k, some v) :: rest) = .ok ((k, g) :: gs) := by
  unfold load
  unfold loadOne at h1
  cases h : arrayGen v with
  | error e => rw [h] at h1; cases h1
  | ok r =>
    rw [h] at h1
    have h1' : fill Z r = .ok g := h1
    simp only [h, h2]
    show (do let g ← fill Z r; let rest ← Except.ok gs; pure ((k, g) :: rest)) = _
    rw [h1']; rfl

lemma load_none {κ : Type} (Z : List (Str × List ℕ)) (k : κ) (rest : List (κ × Option Stored))
    (gs : List (κ × Got)) (h2 : load Z rest = .ok gs) : load Z ((k, none) :: rest) = .ok ((k, .none) :: gs) := by
  unfold load
  simp only [h2]; rfl

/-- Two records with the same keys whose values are related. -/
def Matches (Z : List (Str × List ℕ)) (st : Rec Stored) (r : Rec Val) : Prop :=
  List.Forall₂ (fun a b => a.1 = b.1 ∧ loadOne Z a.2 = .ok (expect toFloat b.2) ∧ (∀ x, b.2 = .num x → a.2 = .num x)) st r

lemma writeItems_spec (r : Rec Val) : ∀ s : Saver, (∀ e ∈ r, Ordinary e.2) →
    s.arrayNumber ≤ (writeItems toFloat s r).2.arrayNumber ∧ (writeItems toFloat s r).2.inContext = s.inContext ∧
    (writeItems toFloat s r).2.db = s.db ∧ (∀ Z, Holds Z (writeItems toFloat s r).2 → Holds Z s) ∧
    (∀ Z, Holds Z (writeItems toFloat s r).2 → Matches toFloat Z (writeItems toFloat s r).1 r) := by
  induction r with
  | nil => intro s _; exact ⟨le_rfl, rfl, rfl, fun _ h => h, fun _ _ => List.Forall₂.nil⟩
  | cons e r ih =>
    intro s hr
    obtain ⟨k, v⟩ := e
    have h1 := writeValue_spec toFloat s v (hr (k, v) (by simp))
    have h2 := ih (writeValue toFloat s v).2 (fun e he => hr e (by simp [he]))
    simp only [writeItems]
    refine ⟨h1.1.trans h2.1, h2.2.1.trans h1.2.1, h2.2.2.1.trans h1.2.2.1, fun Z hZ => h1.2.2.2.1 Z (h2.2.2.2.1 Z hZ), fun Z hZ => ?_⟩
    refine List.Forall₂.cons ⟨rfl, h1.2.2.2.2 Z (h2.2.2.2.1 Z hZ), ?_⟩ (h2.2.2.2.2 Z hZ)
    rintro x rfl
    rfl

lemma writeAll_spec (rs : List (Rec Val)) : ∀ s s' : Saver, (∀ r ∈ rs, ∀ e ∈ r, Ordinary e.2) → writeAll toFloat s rs = .ok s' →
    (∀ Z, Holds Z s' → Holds Z s) ∧ ∃ new, s'.db = s.db ++ new ∧ ∀ Z, Holds Z s' → List.Forall₂ (Matches toFloat Z) new rs := by
  induction rs with
  | nil =>
    intro s s' _ h
    simp only [writeAll, Except.ok.injEq] at h
    subst h
    exact ⟨fun _ h => h, [], by simp, fun _ _ => List.Forall₂.nil⟩
  | cons r rs ih =>
    intro s s' hr h
    simp only [writeAll, write] at h
    by_cases hc : s.inContext
    · rw [if_pos hc] at h
      have h1 := writeItems_spec toFloat r s (hr r (by simp))
      obtain ⟨hh, new, hdb, hnew⟩ := ih _ s' (fun r hr' => hr r (by simp [hr'])) h
      refine ⟨fun Z hZ => h1.2.2.2.1 Z (hh Z hZ), (writeItems toFloat s r).1 :: new, ?_, ?_⟩
      · rw [hdb]; simp [h1.2.2.1]
      · intro Z hZ
        exact List.Forall₂.cons (h1.2.2.2.2 Z (hh Z hZ)) (hnew Z hZ)
    · rw [if_neg hc] at h; cases h

lemma writeAll_ok (rs : List (Rec Val)) (hr : ∀ r ∈ rs, ∀ e ∈ r, Ordinary e.2) : ∀ s : Saver, s.inContext = true →
    ∃ s', writeAll toFloat s rs = .ok s' := by
  induction rs with
  | nil => intro s _; exact ⟨s, rfl⟩
  | cons r rs ih =>
    intro s hs
    simp only [writeAll, write, hs, if_true]
    exact ih (fun r h => hr r (by simp [h])) _ (by
      simpa [hs] using (writeItems_spec toFloat r s (hr r (by simp))).2.1)

lemma load_matches (Z : List (Str × List ℕ)) (st : Rec Stored) (r : Rec Val) (h : Matches toFloat Z st r) :
    load Z (st.map fun e => (e.1, some e.2)) = .ok (expectRec toFloat r) := by
  induction h with
  | nil => rfl
  | cons h _ ih =>
    rename_i a b la lb _
    simp only [List.map_cons, expectRec]
    rw [h.1]
    exact load_some Z _ _ _ _ _ h.2.1 ih

lemma lookup_matches (Z : List (Str × List ℕ)) (st : Rec Stored) (r : Rec Val) (h : Matches toFloat Z st r) (k : Str) :
    (st.lookup k = none ∧ r.lookup k = none) ∨
    ∃ a b, st.lookup k = some a ∧ r.lookup k = some b ∧ loadOne Z a = .ok (expect toFloat b) ∧ (∀ x, b = .num x → a = .num x) := by
  induction h with
  | nil => left; simp
  | cons h _ ih =>
    rename_i a b la lb _
    obtain ⟨ka, va⟩ := a
    obtain ⟨kb, vb⟩ := b
    simp only at h
    obtain ⟨rfl, h2, h3⟩ := h
    simp only [List.lookup_cons]
    cases hk : k == ka with
    | true => right; exact ⟨va, vb, rfl, rfl, h2, h3⟩
    | false => exact ih

/-- The time of a record as it is given to `write`. -/
def timeVal (r : Rec Val) : Option Val := r.lookup "time".toList

/-- Every record has a time `≥ 0`. -/
def Timed (rs : List (Rec Val)) (ts : List ℚ) : Prop := List.Forall₂ (fun r t => timeVal r = some (.num t) ∧ 0 ≤ t) rs ts

lemma timeOf_matches (Z : List (Str × List ℕ)) (st : Rec Stored) (r : Rec Val) (h : Matches toFloat Z st r) (t : ℚ)
    (ht : timeVal r = some (.num t)) : timeOf st = some (.num t) := by
  rcases lookup_matches toFloat Z st r h "time".toList with ⟨-, h2⟩ | ⟨a, b, h1, h2, -, h4⟩
  · unfold timeVal at ht; rw [h2] at ht; cases ht
  · unfold timeVal at ht; rw [h2] at ht
    simp only [Option.some.injEq] at ht
    unfold timeOf
    rw [h1, h4 t ht]

lemma openEntries_timed (Z : List (Str × List ℕ)) (db : List (Rec Stored)) : ∀ (rs : List (Rec Val)) (ts : List ℚ),
    List.Forall₂ (Matches toFloat Z) db rs → Timed rs ts → openEntries db = .ok (db.zip ts) ∧ db.length = ts.length := by
  induction db with
  | nil =>
    intro rs ts h1 h2
    cases h1; cases h2; exact ⟨rfl, rfl⟩
  | cons d db ih =>
    intro rs ts h1 h2
    cases h1 with
    | cons hm hrest =>
      cases h2 with
      | cons ht hts =>
        rename_i r rs t ts
        have h := ih _ _ hrest hts
        simp only [openEntries, h.1, timeOf_matches toFloat Z d r hm t ht.1]
        refine ⟨?_, by simp [h.2]⟩
        show (if 0 ≤ t then _ else _) = _
        rw [if_pos ht.2]; rfl

lemma openReader_timed (Z : List (Str × List ℕ)) (db : List (Rec Stored)) (rs : List (Rec Val)) (ts : List ℚ)
    (h1 : List.Forall₂ (Matches toFloat Z) db rs) (h2 : Timed rs ts) : openReader db = .ok ⟨db, ts⟩ := by
  have h := openEntries_timed toFloat Z db rs ts h1 h2
  simp only [openReader, h.1]
  show Except.ok _ = _
  rw [List.map_fst_zip (by omega), List.map_snd_zip (by omega)]

/-- Session with a saver: the saver, in whatever state, is entered, the records are written, and it is left. -/
def session (s0 : Saver) (rs : List (Rec Val)) : Except PyErr Saver := do
  let s ← writeAll toFloat (enter s0) rs
  pure (exit s)

/-- What a session leaves in the files. -/
lemma session_spec (s0 : Saver) (rs : List (Rec Val)) (hr : ∀ r ∈ rs, ∀ e ∈ r, Ordinary e.2) :
    ∃ s, session toFloat s0 rs = .ok s ∧ List.Forall₂ (Matches toFloat s.zip) s.db rs := by
  obtain ⟨s', hs'⟩ := writeAll_ok toFloat rs hr (enter s0) rfl
  obtain ⟨-, new, hdb, hnew⟩ := writeAll_spec toFloat rs _ s' hr hs'
  refine ⟨exit s', by simp only [session, hs']; rfl, ?_⟩
  have := hnew s'.zip (fun n _ => rfl)
  have e : (exit s').db = new := by simp [exit, hdb, enter]
  rw [e]; exact this

/-- C18: every record written in a session can be read back: the same keys in the same order, and for each value the value itself
with arrays of the same shape, data type and contents. Arrays with one element come back as numbers. (Strings that begin like the
code of an array are excluded, and data types that numpy does not know by name.) -/
theorem C18_records_read_back (s0 : Saver) (rs : List (Rec Val)) (hr : ∀ r ∈ rs, ∀ e ∈ r, Ordinary e.2) :
    ∃ s, session toFloat s0 rs = .ok s ∧
      s.db.map (fun d => load s.zip (d.map fun e => (e.1, some e.2))) = rs.map (fun r => .ok (expectRec toFloat r)) := by
  obtain ⟨s, hs, hm⟩ := session_spec toFloat s0 rs hr
  refine ⟨s, hs, ?_⟩
  clear hs
  generalize s.zip = Z at hm ⊢
  generalize s.db = db at hm ⊢
  induction hm with
  | nil => rfl
  | cons h _ ih =>
    rw [List.map_cons, List.map_cons, load_matches toFloat Z _ _ h]
    rw [ih (fun r h => hr r (by simp [h]))]

lemma getTime_first (Z : List (Str × List ℕ)) (db : List (Rec Stored)) : ∀ (rs : List (Rec Val)) (ts : List ℚ),
    List.Forall₂ (Matches toFloat Z) db rs → Timed rs ts → ∀ (t : ℚ) (i : ℕ), ts.idxOf t = i → i < ts.length →
    ∃ d r, rs[i]? = some r ∧ (db.filter (fun r => timeOf r = some (.num t))).head? = some d ∧ Matches toFloat Z d r := by
  induction db with
  | nil =>
    intro rs ts h1 h2 t i _ hi
    cases h1; cases h2; simp at hi
  | cons d db ih =>
    intro rs ts h1 h2 t i hidx hi
    cases h1 with
    | cons hm hrest =>
      cases h2 with
      | cons ht hts =>
        rename_i r rs t0 ts
        have htd := timeOf_matches toFloat Z d r hm t0 ht.1
        by_cases h : t0 = t
        · subst h
          have : i = 0 := by rw [← hidx]; simp
          subst this
          exact ⟨d, r, rfl, by simp [htd], hm⟩
        · rw [List.idxOf_cons_ne _ h] at hidx
          obtain ⟨d', r', h1, h2, h3⟩ := ih _ _ hrest hts t (ts.idxOf t) rfl (by simp at hi; omega)
          refine ⟨d', r', ?_, ?_, h3⟩
          · rw [← hidx]; simpa using h1
          · rw [List.filter_cons, if_neg (by simp [htd, h])]; exact h2

/-- C19: indexing with a recorded time gives the first record with this time; with any other number it raises `IndexError`. -/
theorem C19_index_by_time (s0 : Saver) (rs : List (Rec Val)) (ts : List ℚ) (hr : ∀ r ∈ rs, ∀ e ∈ r, Ordinary e.2)
    (ht : Timed rs ts) : ∃ s rd, session toFloat s0 rs = .ok s ∧ openReader s.db = .ok rd ∧ rd.timePoints = ts ∧
      (∀ t ∉ ts, getTime s.db s.zip rd t = .error .indexError) ∧
      ∀ t ∈ ts, ∃ r ∈ rs, rs[ts.idxOf t]? = some r ∧ getTime s.db s.zip rd t = .ok (expectRec toFloat r) := by
  obtain ⟨s, hs, hm⟩ := session_spec toFloat s0 rs hr
  refine ⟨s, ⟨s.db, ts⟩, hs, openReader_timed toFloat s.zip s.db rs ts hm ht, rfl, ?_, ?_⟩
  · intro t htn; simp [getTime, htn]
  · intro t htm
    obtain ⟨d, r, h1, h2, h3⟩ := getTime_first toFloat s.zip s.db rs ts hm ht t _ rfl (List.idxOf_lt_length_of_mem htm)
    refine ⟨r, List.mem_of_getElem? h1, h1, ?_⟩
    simp only [getTime, List.elem_eq_mem, htm, decide_true, if_true]
    cases hf : s.db.filter (fun r => timeOf r = some (.num t)) with
    | nil => rw [hf] at h2; simp at h2
    | cons d' l =>
      rw [hf] at h2
      simp only [List.head?_cons, Option.some.injEq] at h2
      subst h2
      exact load_matches toFloat s.zip _ r h3

/-- C18: with distinct times, iterating over a reader gives the records that were written, in order. -/
theorem C18_iteration_round_trip (s0 : Saver) (rs : List (Rec Val)) (ts : List ℚ) (hr : ∀ r ∈ rs, ∀ e ∈ r, Ordinary e.2)
    (ht : Timed rs ts) (hd : ts.Nodup) : ∃ s rd, session toFloat s0 rs = .ok s ∧ openReader s.db = .ok rd ∧
      iterAll s.db s.zip rd = .ok (rs.map (expectRec toFloat)) := by
  obtain ⟨s, rd, hs, hrd, htp, -, hget⟩ := C19_index_by_time toFloat s0 rs ts hr ht
  refine ⟨s, rd, hs, hrd, ?_⟩
  have hlen : rs.length = ts.length := ht.length_eq
  have key : ∀ (l : List ℚ) (m : List (Rec Val)), l.length = m.length →
      (∀ i (h : i < l.length), getTime s.db s.zip rd l[i] = .ok (expectRec toFloat (m[i]?.getD []))) →
      l.mapM (getTime s.db s.zip rd) = .ok (m.map (expectRec toFloat)) := by
    intro l
    induction l with
    | nil => intro m hm _; cases m with
      | nil => rfl
      | cons _ _ => simp at hm
    | cons t l ih =>
      intro m hm h
      cases m with
      | nil => simp at hm
      | cons r m =>
        have h0 := h 0 (by simp)
        simp only [List.getElem_cons_zero, List.getElem?_cons_zero, Option.getD_some] at h0
        have := ih m (by simpa using hm) (fun i hi => by
          have := h (i + 1) (by simpa using hi)
          simpa using this)
        rw [List.mapM_cons, h0, this]; rfl
  unfold iterAll
  rw [htp]
  refine key ts rs hlen.symm (fun i hi => ?_)
  obtain ⟨r, -, h1, h2⟩ := hget ts[i] (List.getElem_mem hi)
  rw [hd.idxOf_getElem i hi] at h1
  rw [h2, h1]; rfl

/-- C18: writing outside the context raises `ValueError`, also after the saver has been left. -/
theorem C18_needs_context (s : Saver) (r : Rec Val) : write toFloat (exit s) r = .error .valueError ∧
    write toFloat Saver.init r = .error .valueError := ⟨rfl, rfl⟩

lemma dictOf_nodup {α : Type} (l : List (ℚ × α)) (h : (l.map Prod.fst).Nodup) : dictOf l = l := by
  have key : ∀ (l d : List (ℚ × α)), ((d ++ l).map Prod.fst).Nodup →
      l.foldl (fun d e => dictInsert d e.1 e.2) d = d ++ l := by
    intro l
    induction l with
    | nil => intro d _; simp
    | cons e l ih =>
      intro d hd
      have hn : d.any (fun x => x.1 == e.1) = false := by
        rw [List.any_eq_false]
        intro x hx hxe
        simp only [beq_iff_eq] at hxe
        rw [List.map_append, List.nodup_append] at hd
        exact hd.2.2 x.1 (List.mem_map_of_mem hx) e.1 (by simp) hxe
      rw [List.foldl_cons, dictInsert, hn]
      simp only [Bool.false_eq_true, if_false]
      rw [ih (d ++ [(e.1, e.2)]) (by simpa using hd)]
      simp
  simpa [dictOf] using key l [] (by simpa using h)

/-- What should be read for a field of a record. -/
def expectField (f : Str) (r : Rec Val) : Got := match r.lookup f with
  | some v => expect toFloat v
  | none => .none

lemma load_field (Z : List (Str × List ℕ)) (f : Str) (db : List (Rec Stored)) : ∀ (rs : List (Rec Val)) (ts : List ℚ),
    List.Forall₂ (Matches toFloat Z) db rs → db.length = ts.length →
    load Z ((ts.zip db).map fun e => (e.1, e.2.lookup f)) = .ok (ts.zip (rs.map (expectField toFloat f))) := by
  induction db with
  | nil => intro rs ts h1 h2; cases h1; cases ts <;> simp at h2; rfl
  | cons d db ih =>
    intro rs ts h1 h2
    cases h1 with
    | cons hm hrest =>
      rename_i r rs
      cases ts with
      | nil => simp at h2
      | cons t ts =>
        have h := ih rs ts hrest (by simpa using h2)
        simp only [List.zip_cons_cons, List.map_cons]
        rcases lookup_matches toFloat Z d r hm f with ⟨h1, h2⟩ | ⟨a, b, h1, h2, h3, -⟩
        · simp only [h1, expectField, h2]; exact load_none Z _ _ _ h
        · simp only [h1, expectField, h2]; exact load_some Z _ _ _ _ _ h3 h

lemma keys_matches (Z : List (Str × List ℕ)) (st : Rec Stored) (r : Rec Val) (h : Matches toFloat Z st r) :
    st.map Prod.fst = r.map Prod.fst := by
  induction h with
  | nil => rfl
  | cons h _ ih => simp [h.1, ih]

/-- C19: indexing with a field gives for every recorded time (all distinct) the value of this field, `None` where the record does
not have it; a name that no record has raises `IndexError`. -/
theorem C19_index_by_field (s0 : Saver) (rs : List (Rec Val)) (ts : List ℚ) (hr : ∀ r ∈ rs, ∀ e ∈ r, Ordinary e.2)
    (ht : Timed rs ts) (hd : ts.Nodup) : ∃ s rd, session toFloat s0 rs = .ok s ∧ openReader s.db = .ok rd ∧
      ∀ f, if ∃ r ∈ rs, ∃ e ∈ r, e.1 = f then getField s.zip rd f = .ok (ts.zip (rs.map (expectField toFloat f)))
        else getField s.zip rd f = .error .indexError := by
  obtain ⟨s, hs, hm⟩ := session_spec toFloat s0 rs hr
  refine ⟨s, ⟨s.db, ts⟩, hs, openReader_timed toFloat s.zip s.db rs ts hm ht, fun f => ?_⟩
  have hlen : s.db.length = ts.length := (openEntries_timed toFloat s.zip s.db rs ts hm ht).2
  have hkeys : ∀ db rs, List.Forall₂ (Matches toFloat s.zip) db rs → db.map (List.map Prod.fst) = rs.map (List.map Prod.fst) := by
    intro db rs h
    induction h with
    | nil => rfl
    | cons h _ ih => rw [List.map_cons, List.map_cons, keys_matches toFloat _ _ _ h, ih]
  have hf : f ∈ Reader.fields ⟨s.db, ts⟩ ↔ ∃ r ∈ rs, ∃ e ∈ r, e.1 = f := by
    unfold Reader.fields
    rw [List.flatMap_def, hkeys _ _ hm, List.mem_flatten]
    simp
  split_ifs with h
  · have := hf.mpr h
    simp only [getField, List.elem_eq_mem, this, decide_true, if_true]
    rw [dictOf_nodup]
    · exact load_field toFloat s.zip f s.db rs ts hm hlen
    · rw [List.map_map]
      have : (Prod.fst ∘ fun e : ℚ × Rec Stored => (e.1, e.2.lookup f)) = Prod.fst := rfl
      rw [this, List.map_fst_zip (by omega)]
      exact hd
  · have : f ∉ Reader.fields ⟨s.db, ts⟩ := fun h' => h (hf.mp h')
    simp [getField, this]

end

/-! ### Concrete cases -/

/-- Two records, one with an array of four 16 bit integers. -/
def exRecs : List (Rec Val) :=
  [[("time".toList, .num 0), ("a".toList, .num 5), ("b".toList, .arr ⟨[2, 2], "int16".toList, [1, 0, 2, 0, 3, 0, 4, 0]⟩)],
   [("time".toList, .num 1), ("c".toList, .str "text".toList)]]

/-- The hypotheses of `C18_records_read_back`, `C19_index_by_time` and `C18_iteration_round_trip`. -/
example : (∀ r ∈ exRecs, ∀ e ∈ r, Ordinary e.2) ∧ Timed exRecs [0, 1] ∧ ([0, 1] : List ℚ).Nodup := by
  refine ⟨?_, ?_, by decide⟩
  · simp only [exRecs, List.mem_cons, List.not_mem_nil, or_false, forall_eq_or_imp, forall_eq, Ordinary, true_and, and_true]
    exact ⟨⟨2, by decide, by decide⟩, by decide⟩
  · refine .cons ⟨by decide, by decide⟩ (.cons ⟨by decide, by decide⟩ .nil)

/-- The code of an array with three columns, written and read. -/
example : code 12 ⟨[3], "float32".toList, []⟩ = "**array**#12#(3,)#float32".toList ∧
    arrayReader "**array**#12#(3,)#float32".toList = .ok (.lazy "12".toList [3] "float32".toList) := by
  constructor <;> decide

/-- C18, negation: two records with the same time. Iterating gives the first one twice and the second never. -/
theorem C18_duplicate_time_loses_record : ∃ (r1 r2 : Rec Val) (s : Saver) (rd : Reader),
    (∀ e ∈ r1, Ordinary e.2) ∧ (∀ e ∈ r2, Ordinary e.2) ∧ r1 ≠ r2 ∧
    session (fun _ => none) Saver.init [r1, r2] = .ok s ∧ openReader s.db = .ok rd ∧
    iterAll s.db s.zip rd = .ok [expectRec (fun _ => none) r1, expectRec (fun _ => none) r1] := by
  refine ⟨[("time".toList, .num 1), ("a".toList, .num 5)], [("time".toList, .num 1), ("a".toList, .num 6)],
    ⟨false, 0, [], [[("time".toList, .num 1), ("a".toList, .num 5)], [("time".toList, .num 1), ("a".toList, .num 6)]]⟩,
    ⟨[[("time".toList, .num 1), ("a".toList, .num 5)], [("time".toList, .num 1), ("a".toList, .num 6)]], [1, 1]⟩, ?_, ?_, ?_, ?_, ?_, ?_⟩
  · simp [Ordinary]
  · simp [Ordinary]
  · decide
  · rfl
  · rfl
  · rfl

/-- C18, negation: a string that begins like the code of an array is not read back: here reading raises `IndexError`. -/
theorem C18_code_like_string_lost : ∃ (r : Rec Val) (s : Saver), timeVal r = some (.num 0) ∧ session (fun _ => none) Saver.init [r] = .ok s ∧
    s.db.map (fun d => load s.zip (d.map fun e => (e.1, some e.2))) = [.error .indexError] := by
  refine ⟨[("time".toList, .num 0), ("note".toList, .str "**array**".toList)],
    ⟨false, 0, [], [[("time".toList, .num 0), ("note".toList, .str "**array**".toList)]]⟩, by decide, rfl, ?_⟩
  decide

/-- C19, negation: with a repeated time, indexing by the time and then the field is not the same as by the field and then the
time (the documentation says it is): the first gives 5, the second 6. -/
theorem C19_index_orders_differ : ∃ (rs : List (Rec Val)) (s : Saver) (rd : Reader) (d : Rec Got) (e : List (ℚ × Got)),
    session (fun _ => none) Saver.init rs = .ok s ∧ openReader s.db = .ok rd ∧ getTime s.db s.zip rd 1 = .ok d ∧
    getField s.zip rd "a".toList = .ok e ∧ d.lookup "a".toList = some (.num 5) ∧ e.lookup 1 = some (.num 6) := by
  refine ⟨[[("time".toList, .num 1), ("a".toList, .num 5)], [("time".toList, .num 1), ("a".toList, .num 6)]],
    ⟨false, 0, [], [[("time".toList, .num 1), ("a".toList, .num 5)], [("time".toList, .num 1), ("a".toList, .num 6)]]⟩,
    ⟨[[("time".toList, .num 1), ("a".toList, .num 5)], [("time".toList, .num 1), ("a".toList, .num 6)]], [1, 1]⟩,
    [("time".toList, .num 1), ("a".toList, .num 5)], [(1, .num 6)], rfl, rfl, rfl, rfl, ?_, ?_⟩
  · rfl
  · rfl

/-- C19: a record with a negative time cannot be found: neither by its time nor by its fields. -/
theorem C19_negative_time_invisible (t : ℚ) (ht : t < 0) (f : Str) : ∃ s rd,
    session (fun _ => none) Saver.init [[("time".toList, .num t)]] = .ok s ∧ openReader s.db = .ok rd ∧
    getTime s.db s.zip rd t = .error .indexError ∧ getField s.zip rd f = .error .indexError := by
  refine ⟨⟨false, 0, [], [[("time".toList, .num t)]]⟩, ⟨[], []⟩, rfl, ?_, rfl, rfl⟩
  have : ¬ (0 ≤ t) := not_le.mpr ht
  have h2 : timeOf [("time".toList, .num t)] = some (.num t) := by simp [timeOf]
  simp only [openReader, openEntries, h2]
  have h3 : openEntries [[("time".toList, Stored.num t)]] = .ok [] := by
    simp only [openEntries, h2, pure_bind, this, if_false]
    rfl
  simp only [openEntries, h2] at h3
  rw [h3]
  rfl

example : (-1 : ℚ) < 0 := by norm_num

/-- The sizes of items: eight bytes for each number of the array that is read back here, and none for a type that numpy does not have. -/
example : (∀ s ∈ ["float64", "int64", "uint64", "complex64"], itemSize s.toList = some 8) ∧ (∀ s ∈ ["float32", "int32", "uint32"], itemSize s.toList = some 4) ∧
    (∀ s ∈ ["float16", "int16", "uint16"], itemSize s.toList = some 2) ∧ (∀ s ∈ ["int8", "uint8", "bool"], itemSize s.toList = some 1) ∧ itemSize "complex128".toList = some 16 ∧ itemSize "float7".toList = none ∧
    fill [(entryName 0, List.replicate 16 7)] (.lazy ['0'] [2] "float64".toList) = .ok (.arr ⟨[2], "float64".toList, List.replicate 16 7⟩) := by decide

end Verif.Outputs
