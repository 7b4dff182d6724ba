import Verif.Outputs.Search
import Verif.Outputs.StoreProps

/-!
# C146: searching in results, and when their arrays are read
-/

namespace Verif.Outputs

open Verif

/-! ## Specification -/

/-- The value of a field as a query should see it: numbers and strings; arrays with one element are numbers if they can be. -/
def seen (toFloat : Arr → Option ℚ) : Val → Option Stored
  | .num x => some (.num x)
  | .str s => some (.str s)
  | .arr a => if a.shape.prod = 1 then (toFloat a).map .num else none

/-- The fields that a query looks at. -/
def Query.fields : Query → List Str
  | .test f _ => [f]
  | .and p q => p.fields ++ q.fields
  | .or p q => p.fields ++ q.fields
  | .not p => p.fields

/-- The record satisfies the query. -/
def Satisfies (toFloat : Arr → Option ℚ) (r : Rec Val) : Query → Prop
  | .test f t => ∃ v, (r.lookup f).bind (seen toFloat) = some v ∧ t v = true
  | .and p q => Satisfies toFloat r p ∧ Satisfies toFloat r q
  | .or p q => Satisfies toFloat r p ∨ Satisfies toFloat r q
  | .not p => ¬Satisfies toFloat r p

section
variable (toFloat : Arr → Option ℚ)

lemma stored_of_loadOne (Z : List (Str × List ℕ)) (a : Stored) (b : Val) (h : loadOne Z a = .ok (expect toFloat b)) (v : Stored) (hv : seen toFloat b = some v) : a = v := by
  have key : ∀ g : Got, loadOne Z a = .ok g → (∀ x, g = .num x → a = .num x) ∧ (∀ s, g = .str s → a = .str s) := by
    intro g hg
    cases a with
    | num y =>
      have : g = .num y := by
        simp only [loadOne, arrayGen] at hg
        have h' : Except.ok (Got.num y) = (Except.ok g : Except PyErr Got) := hg
        simpa using h'.symm
      subst this
      exact ⟨fun x hx => by simpa using hx, fun s hs => by simp at hs⟩
    | str t =>
      simp only [loadOne, arrayGen] at hg
      by_cases hp : "**array**".toList.isPrefixOf t = true
      · rw [if_pos hp] at hg
        unfold arrayReader at hg
        split at hg
        · simp [bind, Except.bind] at hg
        · simp only [] at hg
          split at hg
          · simp [bind, Except.bind] at hg
          · split at hg
            · simp only [bind, Except.bind, fill] at hg
              split at hg
              · split at hg
                · simp only [Except.ok.injEq] at hg
                  subst hg
                  exact ⟨fun x hx => by simp at hx, fun s hs => by simp at hs⟩
                · simp at hg
              · simp at hg
              · simp at hg
            · simp [bind, Except.bind] at hg
      · rw [if_neg hp] at hg
        have h' : Except.ok (Got.str t) = (Except.ok g : Except PyErr Got) := hg
        have : g = .str t := by simpa using h'.symm
        subst this
        exact ⟨fun x hx => by simp at hx, fun s hs => by simpa using hs⟩
  cases b with
  | num x =>
    simp only [seen, Option.some.injEq] at hv
    subst hv
    exact (key _ h).1 x rfl
  | str s =>
    simp only [seen, Option.some.injEq] at hv
    subst hv
    exact (key _ h).2 s rfl
  | arr c =>
    simp only [seen] at hv
    split at hv
    · rename_i h1
      cases hf : toFloat c with
      | none => simp [hf] at hv
      | some x =>
        simp only [hf, Option.map_some, Option.some.injEq] at hv
        subst hv
        refine (key _ h).1 x ?_
        simp [expect, h1, hf]
    · simp at hv

lemma eval_matches (Z : List (Str × List ℕ)) (d : Rec Stored) (r : Rec Val) (h : Matches toFloat Z d r) (q : Query)
    (hq : ∀ f ∈ q.fields, ∀ v, r.lookup f = some v → (seen toFloat v).isSome) : q.eval (fun f => d.lookup f) = true ↔ Satisfies toFloat r q := by
  induction q with
  | test f t =>
    unfold Query.eval Satisfies
    rcases lookup_matches toFloat Z d r h f with ⟨h1, h2⟩ | ⟨a, b, h1, h2, h3, -⟩
    · rw [h1, h2]
      simp
    · obtain ⟨v, hv⟩ := Option.isSome_iff_exists.mp (hq f (by simp [Query.fields]) b h2)
      rw [h1, h2]
      simp only [Option.bind_some, hv]
      rw [stored_of_loadOne toFloat Z a b h3 v hv]
      simp
  | and p q ihp ihq =>
    simp only [Query.eval, Satisfies, Bool.and_eq_true]
    rw [ihp fun f hf => hq f (by simp [Query.fields, hf]), ihq fun f hf => hq f (by simp [Query.fields, hf])]
  | or p q ihp ihq =>
    simp only [Query.eval, Satisfies, Bool.or_eq_true]
    rw [ihp fun f hf => hq f (by simp [Query.fields, hf]), ihq fun f hf => hq f (by simp [Query.fields, hf])]
  | not p ih =>
    simp only [Query.eval, Satisfies, Bool.not_eq_true']
    rw [← ih fun f hf => hq f (by simpa [Query.fields] using hf), Bool.not_eq_true]

open Classical in
/-- **C146, searching.** After a session a search finds exactly the records that satisfy the query, in the order in which they were written, with all their arrays; times play no role, so that records with the same, a negative or no time
are found, too. The query may look at fields with numbers and strings (arrays with one element count as numbers), present or absent. -/
theorem C146_search (s0 : Saver) (rs : List (Rec Val)) (hr : ∀ r ∈ rs, ∀ e ∈ r, Ordinary e.2) (q : Query)
    (hq : ∀ r ∈ rs, ∀ f ∈ q.fields, ∀ v, r.lookup f = some v → (seen toFloat v).isSome) :
    ∃ s, session toFloat s0 rs = .ok s ∧ search s.db s.zip q = .ok ((rs.filter fun r => Satisfies toFloat r q).map (expectRec toFloat)) := by
  obtain ⟨s, hs, hm⟩ := session_spec toFloat s0 rs hr
  refine ⟨s, hs, ?_⟩
  clear hs
  unfold search
  generalize s.zip = Z at hm ⊢
  generalize s.db = db at hm ⊢
  induction hm with
  | nil => rfl
  | cons h _ ih =>
    rename_i d r db rs hm
    have ih := ih (fun r h => hr r (by simp [h])) (fun r h => hq r (by simp [h]))
    have he := eval_matches toFloat Z d r h q (hq r (by simp))
    rw [List.filter_cons, List.filter_cons]
    by_cases hs : Satisfies toFloat r q
    · rw [if_pos (he.2 hs), if_pos (by simpa using hs), List.mapM_cons, load_matches toFloat Z d r h, ih]
      rfl
    · rw [if_neg (fun h => hs (he.1 h)), if_neg (by simpa using hs)]
      exact ih

end

open Classical in

/-- The hypotheses can be met: of three records, two with the same time and one without, those with `a` greater than 4 or without `a`. -/
example : ∃ (rs : List (Rec Val)) (q : Query), (∀ r ∈ rs, ∀ e ∈ r, Ordinary e.2) ∧ (∀ r ∈ rs, ∀ f ∈ q.fields, ∀ v, r.lookup f = some v → (seen (fun _ => none) v).isSome) ∧
    rs.length = 3 ∧ (rs.filter fun r => Satisfies (fun _ => none) r q).length = 2 := by
  refine ⟨[[("time".toList, .num 1), ("a".toList, .num 5), ("b".toList, .arr ⟨[2], "int8".toList, [1, 2]⟩)], [("time".toList, .num 1), ("a".toList, .num 3)], [("c".toList, .num 1)]],
    .or (.test "a".toList fun v => match v with | .num x => decide (4 < x) | _ => false) (.not (.test "a".toList fun _ => true)), ?_, ?_, rfl, ?_⟩
  · simp only [List.mem_cons, List.not_mem_nil, or_false, forall_eq_or_imp, forall_eq, Ordinary, true_and, and_true]
    exact ⟨1, by decide, by decide⟩
  · intro r hr f hf v hv
    have hf : f = "a".toList := by simpa [Query.fields] using hf
    subst hf
    simp only [List.mem_cons, List.not_mem_nil, or_false] at hr
    rcases hr with rfl | rfl | rfl
    · have e : some (Val.num 5) = some v := hv
      simp only [Option.some.injEq] at e
      subst e
      rfl
    · have e : some (Val.num 3) = some v := hv
      simp only [Option.some.injEq] at e
      subst e
      rfl
    · have e : none = some v := hv
      simp at e
  · rw [List.filter_cons_of_pos, List.filter_cons_of_neg, List.filter_cons_of_pos]
    · rfl
    · rw [decide_eq_true_eq]
      refine Or.inr fun h => ?_
      obtain ⟨v, hv, -⟩ := h
      exact absurd (show (none : Option Stored) = some v from hv) (by simp)
    · rw [decide_eq_true_eq]
      rintro (⟨v, hv, ht⟩ | h)
      · have e : some (Stored.num 3) = some v := hv
        simp only [Option.some.injEq] at e
        subst e
        exact absurd ht (by decide)
      · exact h ⟨.num 3, rfl, rfl⟩
    · rw [decide_eq_true_eq]
      exact Or.inl ⟨.num 5, rfl, by decide⟩

/-! ## Arrays -/

/-- **C146, arrays do not match.** A field that holds an array is stored as a string, so a test that is False for all strings never finds it; the documentation says that arrays cannot be searched. -/
theorem C146_arrays (toFloat : Arr → Option ℚ) (f : Str) (t : Stored → Bool) (ht : ∀ s, t (.str s) = false) (s : Saver) (a : Arr) (ha : ¬ (a.shape.prod = 1 ∧ (toFloat a).isSome)) :
    (Query.test f t).eval (fun k => ([(f, (writeValue toFloat s (.arr a)).1)] : Rec Stored).lookup k) = false := by
  have h : (writeValue toFloat s (.arr a)).1 = .str (code s.arrayNumber a) := by
    unfold writeValue
    have : (if a.size = 1 then toFloat a else none) = none := by
      split
      · rename_i h1
        by_contra hne
        exact ha ⟨h1, Option.isSome_iff_ne_none.mpr hne⟩
      · rfl
    simp only [this]
  simp [Query.eval, h, ht]

/-- Such an array and test. -/
example : ∃ (a : Arr) (t : Stored → Bool), a.shape.prod = 2 ∧ (∀ s, t (.str s) = false) ∧ t (.num 1) = true :=
  ⟨⟨[2], "int8".toList, [1, 2]⟩, fun v => match v with | .num _ => true | _ => false, rfl, fun _ => rfl, rfl⟩

/-- **C146, arrays are read once.** An array that has been read keeps its values, whatever happens to the file; reading the file gives the bytes that are there at this time. -/
theorem C146_read_once (a b : LazyArray) (zip : List (Str × List ℕ)) (x : Arr) (h : a.get zip = (.ok x, b)) :
    (∀ zip', b.get zip' = (.ok x, b)) ∧ (a.cache = none → x.shape = a.shape ∧ x.dtype = a.dtype ∧ zip.reverse.lookup (['a'] ++ a.fileNum) = some x.bytes) := by
  unfold LazyArray.get at h
  cases hc : a.cache with
  | some y =>
    rw [hc] at h
    simp only [Prod.mk.injEq, Except.ok.injEq] at h
    obtain ⟨rfl, rfl⟩ := h
    exact ⟨fun zip' => by simp [LazyArray.get, hc], fun h => by simp at h⟩
  | none =>
    rw [hc] at h
    simp only [fill] at h
    split at h
    · rename_i y he
      split at he
      · rename_i bytes k hl hk
        split at he
        · simp only [Except.ok.injEq, Got.arr.injEq] at he
          simp only [Prod.mk.injEq, Except.ok.injEq] at h
          obtain ⟨rfl, rfl⟩ := h
          subst he
          exact ⟨fun zip' => rfl, fun _ => ⟨rfl, rfl, hl⟩⟩
        · simp at he
      · simp at he
      · simp at he
    · simp at h
    · simp at h

/-- An array of two bytes is read. -/
example : ∃ (a b : LazyArray) (zip : List (Str × List ℕ)) (x : Arr), a.cache = none ∧ a.get zip = (.ok x, b) ∧ x.bytes = [1, 2] :=
  ⟨⟨"0".toList, [2], "int8".toList, none⟩, ⟨"0".toList, [2], "int8".toList, some ⟨[2], "int8".toList, [1, 2]⟩⟩, [("a0".toList, [1, 2])], ⟨[2], "int8".toList, [1, 2]⟩, rfl, by decide, rfl⟩

/-- **C146 is false: results change with the files.** For any two arrays of the same shape and type (not single numbers), a result whose array has not been read yet when a model of the same name is solved again (a new `OutputSaver` writes
the same files) gives the array of the second run; had it been read, it would be the first one. -/
theorem C146_lazy_wrong (toFloat : Arr → Option ℚ) (f : Str) (x y : Arr) (hx : x.WF) (hy : y.WF) (hs : x.shape = y.shape) (hd : x.dtype = y.dtype) (h1 : x.shape.prod ≠ 1) :
    ∃ (s1 s2 : Saver) (c : Str) (l l' : LazyArray), session toFloat Saver.init [[(f, .arr x)]] = .ok s1 ∧ session toFloat Saver.init [[(f, .arr y)]] = .ok s2 ∧
      s1.db = [[(f, .str c)]] ∧ LazyArray.new c = .ok l ∧ l.get s1.zip = (.ok x, l') ∧ (l.get s2.zip).1 = .ok y ∧ (l'.get s2.zip).1 = .ok x := by
  have hw : ∀ z : Arr, z.shape.prod ≠ 1 → session toFloat Saver.init [[(f, .arr z)]] = .ok ⟨false, 1, [(entryName 0, z.bytes)], [[(f, .str (code 0 z))]]⟩ := by
    intro z hz
    have hn : ¬ z.size = 1 := hz
    simp only [session, writeAll, write, enter, if_true, writeItems, writeValue, if_neg hn]
    rfl
  have hcode := arrayGen_code 0 x hx
  have hread : arrayReader (code 0 x) = .ok (.lazy (showNat 0) x.shape x.dtype) := by
    have e1 : code 0 x = "**array**".toList ++ '#' :: (showNat 0 ++ '#' :: (showShape x.shape ++ '#' :: x.dtype)) := by
      unfold code
      have : "**array**#".toList = "**array**".toList ++ ['#'] := by decide
      rw [this]
      simp
    have hp : "**array**".toList.isPrefixOf (code 0 x) = true := by
      rw [List.isPrefixOf_iff_prefix, e1]
      exact List.prefix_append _ _
    simp only [arrayGen] at hcode
    rwa [if_pos hp] at hcode
  have hf : ∀ z : Arr, z.WF → fill [(entryName 0, z.bytes)] (.lazy (showNat 0) z.shape z.dtype) = .ok (.arr z) := by
    rintro z ⟨k, hk, hl⟩
    have hlook : List.lookup (['a'] ++ showNat 0) [(entryName 0, z.bytes)].reverse = some z.bytes := by
      rw [List.reverse_singleton, List.lookup_cons, show (['a'] ++ showNat 0 == entryName 0) = true from beq_self_eq_true _]
    unfold fill
    simp only [hlook, hk]
    rw [if_pos hl]
  refine ⟨_, _, code 0 x, ⟨showNat 0, x.shape, x.dtype, none⟩, ⟨showNat 0, x.shape, x.dtype, some x⟩, hw x h1, hw y (by rwa [← hs]), rfl, ?_, ?_, ?_, ?_⟩
  · unfold LazyArray.new
    rw [hread]
  · unfold LazyArray.get
    simp only [hf x hx]
  · unfold LazyArray.get
    simp only
    rw [hs, hd, hf y hy]
  · rfl

/-- Two such arrays with different contents. -/
example : ∃ x y : Arr, x.WF ∧ y.WF ∧ x.shape = y.shape ∧ x.dtype = y.dtype ∧ x.shape.prod ≠ 1 ∧ x ≠ y :=
  ⟨⟨[2], "int8".toList, [1, 2]⟩, ⟨[2], "int8".toList, [3, 4]⟩, ⟨1, by decide, by decide⟩, ⟨1, by decide, by decide⟩, rfl, rfl, by decide, by decide⟩

end Verif.Outputs
