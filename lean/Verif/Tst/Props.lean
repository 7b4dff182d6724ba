import Verif.Tst.Model
import Verif.Alicona.Props
import Mathlib.Tactic.Common
import Mathlib.Tactic.Linarith
import Mathlib.Data.List.Basic
import Mathlib.Data.List.TakeWhile

/-!
# Reading tst files (C113-C115)
-/

namespace Verif.Tst

open Verif

variable {F : Type}

/-! ## Specification: how a file is written -/

/-- How text is written: the characters `A` can be read back, and line feeds are bytes 10 and nothing else is. -/
structure Encoding (c : Conv F) (enc : List Char → List UInt8) (A : Char → Prop) : Prop where
  dec : ∀ s, (∀ x ∈ s, A x) → c.dec (enc s) = some s
  line : ∀ s, (∀ x ∈ s, A x) → '\n' ∉ s → enc (s ++ ['\n']) = enc s ++ [10] ∧ ∀ b ∈ enc s, b ≠ 10
  feed : A '\n'

/-- A text with blanks around it. -/
structure Field where
  left : ℕ
  text : List Char
  right : ℕ

def Field.chars (f : Field) : List Char := List.replicate f.left ' ' ++ f.text ++ List.replicate f.right ' '

/-- The text has no blanks at its ends. -/
def Field.Trim (f : Field) : Prop := f.text.head? ≠ some ' ' ∧ f.text.getLast? ≠ some ' '

/-- What a value means, depending on the number in front of the name. -/
inductive Means (c : Conv F) : List Char → List Char → Val F → Prop
  | blank (number : List Char) : Means c number [] .none
  | int {number value : List Char} {z : ℤ} (h : number ∈ ["28".toList, "31".toList]) (hv : value ≠ []) (hz : c.int value = some z) : Means c number value (.int z)
  | flt {number value : List Char} {x : F} (h : number ∈ ["33".toList, "37".toList, "38".toList]) (hv : value ≠ []) (hx : c.flt value = some x) : Means c number value (.flt x)
  | str {number value : List Char} (h : number ∉ ["28".toList, "31".toList, "33".toList, "37".toList, "38".toList]) (hv : value ≠ []) : Means c number value (.str value)

/-- A line: anything, `#`, number, `#`, name, `$`, value, `$`, anything. -/
structure Entry (F : Type) where
  pre : List Char
  number : Field
  name : Field
  value : Field
  post : List Char
  /-- The value of the number. -/
  n : ℤ
  /-- The value. -/
  val : Val F

def Entry.chars (e : Entry F) : List Char := e.pre ++ '#' :: (e.number.chars ++ '#' :: (e.name.chars ++ '$' :: (e.value.chars ++ '$' :: e.post)))

/-- The line with its end. -/
def Entry.bytes (enc : List Char → List UInt8) (e : Entry F) : List UInt8 := enc (e.chars ++ ['\n'])

/-- The name in lower case. -/
def Entry.key (c : Conv F) (e : Entry F) : String := String.ofList (c.lower e.name.text)

structure Entry.Line (c : Conv F) (A : Char → Prop) (e : Entry F) : Prop where
  chars : ∀ x ∈ e.chars, A x
  feed : '\n' ∉ e.chars
  pre : '#' ∉ e.pre
  number : e.number.Trim
  numberHash : '#' ∉ e.number.text
  name : e.name.Trim
  nameHash : '#' ∉ e.name.text
  nameDollar : '$' ∉ e.name.text
  value : e.value.Trim
  valueHash : '#' ∉ e.value.text
  valueDollar : '$' ∉ e.value.text
  isNumber : c.int e.number.text = some e.n
  means : Means c e.number.text e.value.text e.val

/-- A line with a name. -/
structure Entry.Ok (c : Conv F) (A : Char → Prop) (e : Entry F) : Prop extends Entry.Line c A e where
  named : ∃ x ∈ e.name.text, x ≠ '*'

/-- A line of stars. -/
structure Entry.Star (c : Conv F) (A : Char → Prop) (e : Entry F) : Prop extends Entry.Line c A e where
  stars : ∀ x ∈ e.name.text, x = '*'

/-! ## C113: lines -/

theorem split_append (a : Char) : ∀ {xs : List Char}, a ∉ xs → ∀ ys, split a (xs ++ a :: ys) = xs :: split a ys := by
  intro xs
  induction xs with
  | nil => intro _ ys; simp [split]
  | cons x xs ih =>
    intro h ys
    rw [List.mem_cons, not_or] at h
    rw [List.cons_append, split, if_neg (fun e => h.1 e.symm), ih h.2]

theorem flatten_split (a : Char) : ∀ xs : List Char, (split a xs).flatten = xs.filter (fun x => x ≠ a) := by
  intro xs
  induction xs with
  | nil => simp [split]
  | cons x xs ih =>
    rw [split]
    by_cases hx : x = a
    · rw [if_pos hx]
      simpa [hx] using ih
    · rw [if_neg hx, List.filter_cons_of_pos (by simpa using hx), ← ih]
      cases split a xs <;> simp

theorem dropWhile_replicate (a : Char) (n : ℕ) (s : List Char) : (List.replicate n a ++ s).dropWhile (fun x => x == a) = s.dropWhile (fun x => x == a) := by
  induction n with
  | zero => simp
  | succ n ih => simpa [List.replicate_succ] using ih

theorem dropWhile_head {a : Char} {s : List Char} (h : s.head? ≠ some a) : s.dropWhile (fun x => x == a) = s := by
  cases s with
  | nil => rfl
  | cons x s => rw [List.dropWhile_cons_of_neg]; simpa using h

theorem strip_chars {f : Field} (h : f.Trim) : strip ' ' f.chars = f.text := by
  obtain ⟨h1, h2⟩ := h
  unfold strip Field.chars
  rw [List.append_assoc, dropWhile_replicate]
  cases ht : f.text with
  | nil =>
    have := dropWhile_replicate ' ' f.right []
    rw [List.append_nil] at this
    rw [List.nil_append, this]
    rfl
  | cons x xs =>
    rw [dropWhile_head (s := (x :: xs) ++ List.replicate f.right ' ') (by rw [List.cons_append, List.head?_cons]; rw [ht, List.head?_cons] at h1; exact h1), List.reverse_append, List.reverse_replicate, dropWhile_replicate, dropWhile_head, List.reverse_reverse]
    rw [List.head?_reverse, ← ht]
    exact h2

theorem not_mem_chars {a : Char} {f : Field} (ha : a ≠ ' ') (h : a ∉ f.text) : a ∉ f.chars := by
  unfold Field.chars
  simp [List.mem_replicate, h, ha]

theorem strip_stars {s : List Char} : strip '*' s = [] ↔ ∀ x ∈ s, x = '*' := by
  unfold strip
  rw [List.reverse_eq_nil_iff, List.dropWhile_eq_nil_iff]
  simp only [List.mem_reverse, beq_iff_eq]
  constructor
  · intro h
    have h1 : s.dropWhile (fun x => x == '*') = [] := by
      cases hs : s.dropWhile (fun x => x == '*') with
      | nil => rfl
      | cons y ys =>
        exfalso
        have hy := h y (by rw [hs]; simp)
        have := List.head?_dropWhile_not (fun x => x == '*') s
        rw [hs] at this
        simp [hy] at this
    rw [List.dropWhile_eq_nil_iff] at h1
    simpa using h1
  · intro h x hx
    exact h x ((List.dropWhile_sublist _).subset hx)

theorem convert_means {c : Conv F} {number value : List Char} {v : Val F} (h : Means c number value v) : convert c number value = .ok v := by
  have e1 : "28".toList = ['2', '8'] := by decide +kernel
  have e2 : "31".toList = ['3', '1'] := by decide +kernel
  have e3 : "33".toList = ['3', '3'] := by decide +kernel
  have e4 : "37".toList = ['3', '7'] := by decide +kernel
  have e5 : "38".toList = ['3', '8'] := by decide +kernel
  unfold convert
  cases h with
  | blank => rw [if_pos rfl]
  | int h hv hz =>
    simp only [e1, e2, List.mem_cons, List.not_mem_nil, or_false] at h
    rw [if_neg hv, if_pos h, hz]
  | flt h hv hx =>
    simp only [e3, e4, e5, List.mem_cons, List.not_mem_nil, or_false] at h
    rw [if_neg hv, if_neg (by rcases h with rfl | rfl | rfl <;> decide), if_pos h, hx]
  | str h hv =>
    simp only [e1, e2, e3, e4, e5, List.mem_cons, List.not_mem_nil, or_false, not_or] at h
    rw [if_neg hv, if_neg (by tauto), if_neg (by tauto)]

/-- The text of a line with any value: `#` is taken out of it. -/
theorem parseLine_text (c : Conv F) {pre number name value post : List Char} (h1 : '#' ∉ pre) (h2 : '#' ∉ number) (h4 : '$' ∉ name) (h5 : '$' ∉ value) {v : Val F}
    (hv : convert c (strip ' ' number) (strip ' ' (value.filter (fun x => x ≠ '#'))) = .ok v) {n : ℤ} (hn : c.int (strip ' ' number) = some n) :
    parseLine c (pre ++ '#' :: (number ++ '#' :: (name ++ '$' :: (value ++ '$' :: post)))) =
      .ok ⟨n, if strip '*' (strip ' ' (name.filter (fun x => x ≠ '#'))) = [] then none else some (String.ofList (c.lower (strip ' ' (name.filter (fun x => x ≠ '#'))))), v⟩ := by
  unfold parseLine
  rw [split_append '#' h1, split_append '#' h2]
  simp only [List.drop_succ_cons, List.drop_zero]
  rw [flatten_split]
  have e : (name ++ '$' :: (value ++ '$' :: post)).filter (fun x => x ≠ '#') =
      name.filter (fun x => x ≠ '#') ++ '$' :: (value.filter (fun x => x ≠ '#') ++ '$' :: post.filter (fun x => x ≠ '#')) := by
    simp [List.filter_append, List.filter_cons]
  rw [e, split_append '$' (fun h => h4 (List.mem_of_mem_filter h)), split_append '$' (fun h => h5 (List.mem_of_mem_filter h))]
  simp only [hv, hn]

theorem parseLine_error (c : Conv F) {pre number name value post : List Char} (h1 : '#' ∉ pre) (h2 : '#' ∉ number) (h4 : '$' ∉ name) (h5 : '$' ∉ value) {e : Err}
    (hv : convert c (strip ' ' number) (strip ' ' (value.filter (fun x => x ≠ '#'))) = .error e) :
    parseLine c (pre ++ '#' :: (number ++ '#' :: (name ++ '$' :: (value ++ '$' :: post)))) = .error e := by
  unfold parseLine
  rw [split_append '#' h1, split_append '#' h2]
  simp only [List.drop_succ_cons, List.drop_zero]
  rw [flatten_split]
  have e : (name ++ '$' :: (value ++ '$' :: post)).filter (fun x => x ≠ '#') =
      name.filter (fun x => x ≠ '#') ++ '$' :: (value.filter (fun x => x ≠ '#') ++ '$' :: post.filter (fun x => x ≠ '#')) := by
    simp [List.filter_append, List.filter_cons]
  rw [e, split_append '$' (fun h => h4 (List.mem_of_mem_filter h)), split_append '$' (fun h => h5 (List.mem_of_mem_filter h))]
  simp only [hv]

theorem filter_chars {f : Field} (h : '#' ∉ f.text) : f.chars.filter (fun x => x ≠ '#') = f.chars := by
  rw [List.filter_eq_self]
  intro x hx
  have : '#' ∉ f.chars := not_mem_chars (by decide) h
  simp only [decide_eq_true_eq]
  rintro rfl
  exact this hx

theorem parseLine_line {c : Conv F} {A : Char → Prop} {e : Entry F} (h : e.Line c A) (post : List Char) :
    parseLine c (e.pre ++ '#' :: (e.number.chars ++ '#' :: (e.name.chars ++ '$' :: (e.value.chars ++ '$' :: post)))) =
      .ok ⟨e.n, if strip '*' e.name.text = [] then none else some (e.key c), e.val⟩ := by
  rw [parseLine_text c (v := e.val) (n := e.n) h.pre (not_mem_chars (by decide) h.numberHash) (not_mem_chars (by decide) h.nameDollar) (not_mem_chars (by decide) h.valueDollar)
    (by rw [filter_chars h.valueHash, strip_chars h.number, strip_chars h.value]; exact convert_means h.means) (by rw [strip_chars h.number]; exact h.isNumber),
    filter_chars h.nameHash, strip_chars h.name]
  rfl

theorem splitLine_line {c : Conv F} {enc : List Char → List UInt8} {A : Char → Prop} (hc : Encoding c enc A) {e : Entry F} (h : e.Line c A) (rest : List UInt8) :
    splitLine c (e.bytes enc ++ rest) = .ok (⟨e.n, if strip '*' e.name.text = [] then none else some (e.key c), e.val⟩, rest) := by
  obtain ⟨h1, h2⟩ := hc.line e.chars h.chars h.feed
  have h3 : Alicona.readLine (e.bytes enc ++ rest) = (e.bytes enc, rest) := by
    unfold Entry.bytes
    rw [h1, List.append_assoc]
    exact Alicona.readLine_append h2 rest
  have h4 : c.dec (e.bytes enc) = some (e.chars ++ ['\n']) := hc.dec _ (by
    intro x hx
    rcases List.mem_append.1 hx with hx | hx
    · exact h.chars x hx
    · rw [List.mem_singleton.1 hx]; exact hc.feed)
  have h5 : e.chars ++ ['\n'] = e.pre ++ '#' :: (e.number.chars ++ '#' :: (e.name.chars ++ '$' :: (e.value.chars ++ '$' :: (e.post ++ ['\n'])))) := by simp [Entry.chars]
  unfold splitLine
  rw [h3]
  simp only
  rw [h4]
  simp only
  rw [h5, parseLine_line h]

/-- A line gives its number, its name in lower case and its value, and exactly the line is read. -/
theorem C113_line {c : Conv F} {enc : List Char → List UInt8} {A : Char → Prop} (hc : Encoding c enc A) {e : Entry F} (h : e.Ok c A) (rest : List UInt8) :
    splitLine c (e.bytes enc ++ rest) = .ok (⟨e.n, some (e.key c), e.val⟩, rest) := by
  rw [splitLine_line hc h.toLine, if_neg]
  rw [strip_stars]
  obtain ⟨x, hx, hne⟩ := h.named
  exact fun h => hne (h x hx)

/-- A line of stars (or blanks) is the end of a section. -/
theorem C113_stars {c : Conv F} {enc : List Char → List UInt8} {A : Char → Prop} (hc : Encoding c enc A) {e : Entry F} (h : e.Star c A) (rest : List UInt8) :
    splitLine c (e.bytes enc ++ rest) = .ok (⟨e.n, none, e.val⟩, rest) := by
  rw [splitLine_line hc h.toLine, if_pos (strip_stars.2 h.stars)]

/-- A line without a number between `#`, and the end of the file, are a `ValueError`. -/
theorem C113_no_hash (c : Conv F) {s : List Char} (h : '#' ∉ s) : parseLine c s = .error (.py .valueError) := by
  have : split '#' s = [s] := by
    clear * - h
    induction s with
    | nil => rfl
    | cons x s ih =>
      rw [List.mem_cons, not_or] at h
      rw [split, if_neg (fun e => h.1 e.symm), ih h.2]
  unfold parseLine
  rw [this]
  rfl

example (c : Conv F) := C113_no_hash c (s := "33 a $ x $".toList) (by decide)

/-- A value that is not a number, in a line that has to have one, is a `ValueError`. -/
theorem C113_not_a_number (c : Conv F) {pre number name a post : List Char} (h1 : '#' ∉ pre) (h2 : '#' ∉ number) (h4 : '$' ∉ name) (ha : '$' ∉ a) (hv : strip ' ' (a.filter (fun x => x ≠ '#')) ≠ [])
    (h : ((strip ' ' number = ['2', '8'] ∨ strip ' ' number = ['3', '1']) ∧ c.int (strip ' ' (a.filter (fun x => x ≠ '#'))) = none) ∨
      ((strip ' ' number = ['3', '3'] ∨ strip ' ' number = ['3', '7'] ∨ strip ' ' number = ['3', '8']) ∧ c.flt (strip ' ' (a.filter (fun x => x ≠ '#'))) = none)) :
    parseLine c (pre ++ '#' :: (number ++ '#' :: (name ++ '$' :: (a ++ '$' :: post)))) = .error (.py .valueError) := by
  have hconv : convert c (strip ' ' number) (strip ' ' (a.filter (fun x => x ≠ '#'))) = .error (.py .valueError) := by
    unfold convert
    rw [if_neg hv]
    rcases h with ⟨h, hn⟩ | ⟨h, hn⟩
    · rw [if_pos h, hn]
    · rw [if_neg (by rcases h with h | h | h <;> rw [h] <;> decide), if_pos h, hn]
  exact parseLine_error c h1 h2 h4 ha hconv

/-- A line with the number 33 and the value `x`, when no text is a number. -/
example : parseLine (F := ℕ) ⟨fun _ => none, fun _ => none, fun _ => none, id, fun _ => 0, fun _ => false, fun _ => .ok 0⟩ "# 33 # a $ x $".toList = .error (.py .valueError) :=
  C113_not_a_number _ (pre := []) (number := " 33 ".toList) (name := " a ".toList) (a := " x ".toList) (post := []) (by decide) (by decide) (by decide) (by decide) (by decide) (Or.inr ⟨Or.inl (by decide), rfl⟩)

/-- Not as documented: `#` is taken out of text values. -/
theorem C113_hash_wrong (c : Conv F) {pre number name a b post : List Char} (h1 : '#' ∉ pre) (h2 : '#' ∉ number) (h4 : '$' ∉ name) (ha : '$' ∉ a) (hb : '$' ∉ b)
    {n : ℤ} (hn : c.int (strip ' ' number) = some n) {v : Val F} (hv : convert c (strip ' ' number) (strip ' ' ((a ++ b).filter (fun x => x ≠ '#'))) = .ok v) :
    (parseLine c (pre ++ '#' :: (number ++ '#' :: (name ++ '$' :: ((a ++ '#' :: b) ++ '$' :: post))))).map Line.value = .ok v := by
  rw [parseLine_text c (v := v) (n := n) h1 h2 h4 (by simp [ha, hb]) (by simpa [List.filter_append, List.filter_cons] using hv) hn]
  rfl

/-- Not as documented: what comes after a `$` in a text value is lost. -/
theorem C113_dollar_wrong (c : Conv F) {pre number name a b post : List Char} (h1 : '#' ∉ pre) (h2 : '#' ∉ number) (h4 : '$' ∉ name) (ha : '$' ∉ a)
    {n : ℤ} (hn : c.int (strip ' ' number) = some n) {v : Val F} (hv : convert c (strip ' ' number) (strip ' ' (a.filter (fun x => x ≠ '#'))) = .ok v) :
    (parseLine c (pre ++ '#' :: (number ++ '#' :: (name ++ '$' :: ((a ++ '$' :: b) ++ '$' :: post))))).map Line.value = .ok v := by
  have e : (a ++ '$' :: b) ++ '$' :: post = a ++ '$' :: (b ++ '$' :: post) := by simp
  rw [e, parseLine_text c (v := v) (n := n) h1 h2 h4 ha hv hn]
  rfl

end Verif.Tst
