import Verif.Equal.Model

/-!
# Property C121: equality of surfaces
-/

namespace Verif.Equal

open Verif

variable {K : Type} [DecidableEq K]

/-- No height is `nan`. -/
def NoNan (p : Option (Arr K)) : Prop := ∀ a, p = some a → (none : Option K) ∉ a.data

lemma feq_iff (a b : Option K) : feq a b = true ↔ a = b ∧ a ≠ none := by
  cases a <;> cases b <;> simp [feq]

lemma allEq_iff (l m : List (Option K)) : allEq l m = true ↔ l = m ∧ (none : Option K) ∉ l := by
  induction l generalizing m with
  | nil => cases m <;> simp [allEq]
  | cons a as ih =>
    cases m with
    | nil => simp [allEq]
    | cons b bs =>
      simp only [allEq, Bool.and_eq_true, feq_iff, ih, List.cons.injEq, List.mem_cons, not_or]
      constructor
      · rintro ⟨⟨h1, h2⟩, h3, h4⟩; exact ⟨⟨h1, h3⟩, fun e => h2 e.symm, h4⟩
      · rintro ⟨⟨h1, h3⟩, h2, h4⟩; exact ⟨⟨h1, fun e => h2 e.symm⟩, h3, h4⟩

lemma arrayEqual_iff (p q : Option (Arr K)) : arrayEqual p q = true ↔ p = q ∧ NoNan p := by
  unfold NoNan
  cases p with
  | none => cases q <;> simp [arrayEqual]
  | some a =>
    cases q with
    | none => simp [arrayEqual]
    | some b =>
      obtain ⟨sa, da⟩ := a
      obtain ⟨sb, db⟩ := b
      simp only [arrayEqual, Bool.and_eq_true, decide_eq_true_eq, allEq_iff, Option.some.injEq, Arr.mk.injEq, forall_eq']
      tauto

lemma gsEqual_iff (a b : Option (Option K)) : gsEqual a b = true ↔ a = b ∧ a ≠ some none := by
  cases a with
  | none => cases b <;> simp [gsEqual]
  | some x => cases b with
    | none => simp [gsEqual]
    | some y => simp [gsEqual, feq_iff]

/-- The result as a condition. -/
lemma both_iff (p q : Option (Arr K)) (a b : Option (Option K)) :
    (arrayEqual p q && gsEqual a b) = true ↔ (p = q ∧ a = b) ∧ NoNan p ∧ a ≠ some none := by
  rw [Bool.and_eq_true, arrayEqual_iff, gsEqual_iff]; tauto

lemma both_comm (p q : Option (Arr K)) (a b : Option (Option K)) :
    (arrayEqual p q && gsEqual a b) = (arrayEqual q p && gsEqual b a) := by
  rw [Bool.eq_iff_iff, both_iff, both_iff]
  constructor <;> rintro ⟨⟨rfl, rfl⟩, h⟩ <;> exact ⟨⟨rfl, rfl⟩, h⟩

variable [Neg K]

lemma getProfile_error (s : Surf K) (e : Err) (h : s.getProfile = .error e) : e = .py .typeError := by
  unfold Surf.getProfile at h
  split at h
  · split at h
    · injection h with h; exact h.symm
    · cases h
  · cases h

lemma baseEq_discrete (s t : Surf K) (hs : s.isDiscrete = true) (ht : t.isDiscrete = true) (p q : Option (Arr K)) (hp : s.getProfile = .ok p) (hq : t.getProfile = .ok q) :
    baseEq s t = .ok (arrayEqual p q && gsEqual s.gs t.gs) := by
  unfold baseEq
  rw [hs, ht, hp, hq]; rfl

lemma baseEq_comm (s t : Surf K) (hs : s.isDiscrete = true) (ht : t.isDiscrete = true) : baseEq s t = baseEq t s := by
  unfold baseEq
  rw [hs, ht]
  simp only [ne_eq, not_true_eq_false, ite_false, ite_true]
  cases h1 : s.getProfile with
  | error e1 =>
    cases h2 : t.getProfile with
    | error e2 => rw [getProfile_error s e1 h1, getProfile_error t e2 h2]
    | ok q => rfl
  | ok p =>
    cases h2 : t.getProfile with
    | error e2 => rfl
    | ok q => simp only [both_comm p q]

/-- Surfaces with the method of the base class, or of one class. -/
def Comparable (s t : Surf K) : Prop := s.cls.analytic = false ∨ s.cls = t.cls

lemma isInstance_refl (c : Cls) : c.isInstance c = true := by cases c <;> rfl

lemma eq_discrete (cmp : ℕ → ℕ → Except Err Bool) (s t : Surf K) (hc : Comparable s t) (hs : s.isDiscrete = true) (ht : t.isDiscrete = true) :
    eq cmp s t = baseEq s t := by
  unfold eq
  split_ifs with h
  · obtain ⟨h1, h2⟩ := h
    have : t.cls = .hurst ∧ s.cls = .surface := by
      unfold Cls.isInstance at h2
      rw [decide_eq_true_eq] at h2
      exact h2.resolve_left h1
    unfold method
    rw [this.1]
    exact baseEq_comm t s ht hs
  · unfold method
    rcases hc with hc | hc
    · rw [hc]; rfl
    · split_ifs
      · unfold analyticEq
        rw [← hc, isInstance_refl, hs, ht]; rfl
      · rfl

/-- C121, for discrete surfaces of one class, or with one of the classes that are not analytical on the left: two surfaces are equal if and only if heights and grid spacing are the same; `nan` is not equal to itself. -/
theorem C121_heights_partial (cmp : ℕ → ℕ → Except Err Bool) (s t : Surf K) (hc : Comparable s t) (hs : s.isDiscrete = true) (ht : t.isDiscrete = true)
    (p q : Option (Arr K)) (hp : s.getProfile = .ok p) (hq : t.getProfile = .ok q) :
    ∃ b, eq cmp s t = .ok b ∧ (b = true ↔ (p = q ∧ s.gs = t.gs) ∧ NoNan p ∧ s.gs ≠ some none) :=
  ⟨_, by rw [eq_discrete cmp s t hc hs ht, baseEq_discrete s t hs ht p q hp hq], both_iff _ _ _ _⟩

/-- C121: the order of the operands does not matter for such surfaces. -/
theorem C121_symmetric_partial (cmp : ℕ → ℕ → Except Err Bool) (s t : Surf K) (hc : Comparable s t) (hc' : Comparable t s) (hs : s.isDiscrete = true) (ht : t.isDiscrete = true) :
    eq cmp s t = eq cmp t s := by
  rw [eq_discrete cmp s t hc hs ht, eq_discrete cmp t s hc' ht hs, baseEq_comm s t hs ht]

/-- C121: equality of discrete surfaces is transitive. -/
theorem C121_transitive_partial (cmp : ℕ → ℕ → Except Err Bool) (s t u : Surf K) (hs : s.isDiscrete = true) (ht : t.isDiscrete = true) (hu : u.isDiscrete = true)
    (h1 : eq cmp s t = .ok true) (h2 : eq cmp t u = .ok true) : eq cmp s u = .ok true := by
  have key : ∀ a b : Surf K, a.isDiscrete = true → b.isDiscrete = true → eq cmp a b = .ok true → Comparable a b := by
    intro a b ha hb h
    by_contra hn
    unfold Comparable at hn
    push Not at hn
    obtain ⟨n1, n2⟩ := hn
    rw [ne_eq, Bool.not_eq_false] at n1
    have hi : b.cls.isInstance a.cls = false := by
      by_contra hi
      rw [Bool.not_eq_false] at hi
      unfold Cls.isInstance at hi
      rw [decide_eq_true_eq] at hi
      rcases hi with e | ⟨-, e⟩
      · exact n2 e.symm
      · rw [e] at n1; cases n1
    unfold eq method analyticEq at h
    rw [hi, n1] at h
    simp at h
  have d1 := key s t hs ht h1
  have d2 := key t u ht hu h2
  have d3 : Comparable s u := by
    rcases d1 with e | e
    · exact .inl e
    · rcases d2 with e' | e'
      · exact .inl (e ▸ e')
      · exact .inr (e.trans e')
  rw [eq_discrete cmp _ _ d1 hs ht] at h1
  rw [eq_discrete cmp _ _ d2 ht hu] at h2
  rw [eq_discrete cmp _ _ d3 hs hu]
  unfold baseEq at h1 h2
  rw [hs, ht] at h1
  rw [ht, hu] at h2
  simp only [ne_eq, not_true_eq_false, ite_false, ite_true] at h1 h2
  cases e1 : s.getProfile with
  | error e => rw [e1] at h1; cases h1
  | ok p =>
    cases e2 : t.getProfile with
    | error e => rw [e2] at h2; cases h2
    | ok q =>
      cases e3 : u.getProfile with
      | error e => rw [e2, e3] at h2; cases h2
      | ok r =>
        rw [e1, e2] at h1
        rw [e2, e3] at h2
        rw [baseEq_discrete s u hs hu p r e1 e3]
        have h1 := Except.ok.inj h1
        have h2 := Except.ok.inj h2
        rw [both_iff] at h1 h2
        have : (arrayEqual p r && gsEqual s.gs u.gs) = true := by
          rw [both_iff]
          exact ⟨⟨h1.1.1.trans h2.1.1, h1.1.2.trans h2.1.2⟩, h1.2⟩
        rw [this]

/-- C121: the order of the operands matters for a `Surface` and the discretised analytical surface with the same heights: one order gives True, the other False. -/
theorem C121_symmetric_wrong (cmp : ℕ → ℕ → Except Err Bool) (s t : Surf K) (hs : s.isDiscrete = true) (ht : t.isDiscrete = true) (hcs : s.cls = .surface) (hct : t.cls.analytic = true)
    (p : Option (Arr K)) (hp : s.getProfile = .ok p) (hq : t.getProfile = .ok p) (hg : s.gs = t.gs) (hn : NoNan p) (hg' : s.gs ≠ some none) :
    eq cmp s t = .ok true ∧ eq cmp t s = .ok false := by
  constructor
  · obtain ⟨b, h, hb⟩ := C121_heights_partial cmp s t (.inl (by rw [hcs]; rfl)) hs ht p p hp hq
    rw [h, hb.2 ⟨⟨rfl, hg⟩, hn, hg'⟩]
  · unfold eq method analyticEq
    rw [hcs, hct]
    generalize t.cls = c at *
    cases c <;> first | (cases hct; done) | rfl

/-- C121: a discrete surface with a height that is `nan` is not equal to itself. -/
theorem C121_nan_wrong (cmp : ℕ → ℕ → Except Err Bool) (s : Surf K) (hs : s.isDiscrete = true) (a : Arr K) (hp : s.getProfile = .ok (some a)) (hn : (none : Option K) ∈ a.data) :
    eq cmp s s = .ok false := by
  obtain ⟨b, h, hb⟩ := C121_heights_partial cmp s s (.inr rfl) hs hs (some a) (some a) hp hp
  rw [h]
  cases b with
  | false => rfl
  | true => exact absurd hn ((hb.1 rfl).2.1 a rfl)

/-- C121: surfaces of the class `RandomPerezSurface` that are not discretised can not be compared with other surfaces that are not discretised, not even with themselves. -/
theorem C121_perez_wrong (cmp : ℕ → ℕ → Except Err Bool) (s t : Surf K) (hs : s.isDiscrete = false) (ht : t.isDiscrete = false) (hc : s.cls = .perez) :
    eq cmp s t = .error (.py .typeError) := by
  unfold eq method baseEq Surf.repr
  rw [hc, hs, ht]
  generalize t.cls = c at *
  cases c <;> rfl

lemma find_append (d e : List (String × Val K)) (k : String) (h : ∀ x ∈ d, x.1 ≠ k) : find (d ++ e) k = find e k := by
  unfold find
  rw [List.find?_append, List.find?_eq_none.2 (by simpa using h)]
  rfl

lemma itemsEq_mem (cmp : ℕ → ℕ → Except Err Bool) (d l : List (String × Val K)) (k : String) (v : Val K) (h : (k, v) ∈ l) (he : itemsEq cmp d l = .ok true) :
    ∃ w, find d k = some w ∧ valEq cmp v w = .ok true := by
  induction l with
  | nil => cases h
  | cons e rest ih =>
    obtain ⟨k', v'⟩ := e
    unfold itemsEq at he
    split at he
    · cases he
    · rename_i w hw
      split at he
      · cases he
      · cases he
      · rename_i hv
        rcases List.mem_cons.1 h with e | e
        · obtain ⟨rfl, rfl⟩ := Prod.mk.inj e
          exact ⟨w, hw, hv⟩
        · exact ih e he

/-- C121: two sums (or differences) of analytical surfaces made by two calls are not equal, whatever they are made of, because each has its own function for the heights. -/
theorem C121_combination_wrong (cmp : ℕ → ℕ → Except Err Bool) (base base' : List (String × Val K)) (gs gs' : Option (Option K)) (mode mode' : String) (pair pair' fn fn' : ℕ)
    (hm : mode = "+" ∨ mode = "-") (hm' : mode' = "+" ∨ mode' = "-") (hb : ∀ x ∈ base', x.1 ≠ "_height") (hf : fn ≠ fn') :
    eq cmp (combination base gs mode pair fn) (combination base' gs' mode' pair' fn') ≠ .ok true := by
  intro h
  have h1 : eq cmp (combination base gs mode pair fn) (combination base' gs' mode' pair' fn') = dictEq cmp (combination base gs mode pair fn).attrs (combination base' gs' mode' pair' fn').attrs := rfl
  rw [h1] at h
  unfold dictEq at h
  split_ifs at h
  · simp at h
  obtain ⟨w, hw, hv⟩ := itemsEq_mem cmp _ _ "_height" (.func fn) (by unfold combination; dsimp only; rw [if_pos hm]; simp) h
  have : find (combination base' gs' mode' pair' fn').attrs "_height" = some (.func fn') := by
    unfold combination
    dsimp only
    rw [if_pos hm', List.append_assoc, find_append _ _ _ hb]
    rfl
  rw [this] at hw
  injection hw with hw
  subst hw
  unfold valEq at hv
  exact hf (by simpa using hv)

/-- C121: two surfaces of the class `DiscFreqSurface` made from two arrays of at least two frequencies are a `ValueError`, also when all values are the same. -/
theorem C121_frequencies_wrong (cmp : ℕ → ℕ → Except Err Bool) (i j : ℕ) (hij : i ≠ j) (f f' : Arr K) (n : ℕ) (hn : 2 ≤ n) (hf : f.shape = [n]) (hf' : f'.shape = [n])
    (a a' : Val K) (rest rest' : List (String × Val K)) (hr : rest.length = rest'.length) (gs gs' : Option (Option K)) :
    eq cmp (discFreq i f a rest gs) (discFreq j f' a' rest' gs') = .error (.py .valueError) := by
  have h1 : eq cmp (discFreq i f a rest gs) (discFreq j f' a' rest' gs') = dictEq cmp (discFreq i f a rest gs).attrs (discFreq j f' a' rest' gs').attrs := rfl
  rw [h1]
  unfold dictEq discFreq
  dsimp only
  rw [if_neg (by simp [hr])]
  unfold itemsEq
  have : find (("frequencies", Val.array j f') :: ("amplitudes", a') :: rest') "frequencies" = some (.array j f') := rfl
  rw [this]
  dsimp only
  unfold valEq
  dsimp only
  rw [if_neg hij, if_pos (by rw [hf, hf']; simpa using hn)]

/-- C121: two surfaces of the class `RandomFilterSurface` without target are equal although their grid spacings and filter coefficients differ. -/
theorem C121_filter_wrong (cmp : ℕ → ℕ → Except Err Bool) (gs gs' : Option (Option K)) (g g' : String) (moments shape : Option String) (c c' : List (String × Val K)) :
    eq cmp (filterSurface none gs g moments shape c) (filterSurface none gs' g' moments shape c') = .ok true := by
  have h1 : eq cmp (filterSurface none gs g moments shape c) (filterSurface none gs' g' moments shape c') =
    .ok (decide (filterText none g moments shape = filterText none g' moments shape)) := rfl
  rw [h1]
  congr 1
  exact decide_eq_true rfl

lemma ofList_take (a b : String) (h : b.toList.length = 2) : String.ofList ((a ++ b).toList.take ((a ++ b).toList.length - 2)) = a := by
  rw [String.toList_append, List.length_append, h, Nat.add_sub_cancel, List.take_left, String.ofList_toList]

lemma string_append_cancel {a b c : String} : (a ++ b = a ++ c ↔ b = c) ∧ (b ++ a = c ++ a ↔ b = c) := by
  constructor <;> (constructor; swap; · rintro rfl; rfl) <;> intro h <;> have h := congrArg String.toList h <;> rw [String.toList_append, String.toList_append] at h
  · exact String.toList_inj.1 (List.append_cancel_left h)
  · exact String.toList_inj.1 (List.append_cancel_right h)

/-- C121: two surfaces of the class `RandomFilterSurface` that are not discretised, with the same target, grid spacing and shape, are equal if and only if the texts of their moments are. -/
theorem C121_moments_partial (cmp : ℕ → ℕ → Except Err Bool) (target shape : Option String) (gs : Option (Option K)) (g m m' : String) (c c' : List (String × Val K)) :
    eq cmp (filterSurface target gs g (some m) shape c) (filterSurface target gs g (some m') shape c') = .ok (decide (m = m')) := by
  have h1 : eq cmp (filterSurface target gs g (some m) shape c) (filterSurface target gs g (some m') shape c') =
    .ok (decide (filterText target g (some m) shape = filterText target g (some m') shape)) := rfl
  rw [h1]
  congr 2
  cases shape with
  | none =>
    simp only [filterText]
    rw [ofList_take _ ", " rfl, ofList_take _ ", " rfl, eq_iff_iff, string_append_cancel.2, string_append_cancel.1]
  | some t =>
    simp only [filterText]
    rw [ofList_take _ ", " rfl, ofList_take _ ", " rfl, eq_iff_iff, string_append_cancel.2, string_append_cancel.2, string_append_cancel.2, string_append_cancel.2, string_append_cancel.1]

/-! ## Concrete cases -/

/-- A `Surface` of one row and two columns. -/
def surf : Surf ℤ := { cls := .surface, isDiscrete := true, profile := some ⟨[1, 2], [some 3, some 4]⟩, gs := some (some 1), attrs := [], text := "" }

/-- The same heights from a `FlatSurface`. -/
def flat : Surf ℤ := { surf with cls := .flat }

/-- The negative heights, inverted. -/
def inv : Surf ℤ := { surf with cls := .hurst, inverted := true, profile := some ⟨[1, 2], [some (-3), some (-4)]⟩ }

/-- Comparison of other objects: never equal. -/
def noCmp : ℕ → ℕ → Except Err Bool := fun _ _ => .ok false

/-- `C121_symmetric_wrong` and `C121_transitive_partial`. -/
example : eq noCmp surf flat = .ok true ∧ eq noCmp flat surf = .ok false ∧ eq noCmp surf inv = .ok true ∧ eq noCmp inv surf = .ok true ∧ eq noCmp flat flat = .ok true ∧ eq noCmp inv flat = .ok true := by
  decide +kernel

/-- The hypotheses of `C121_heights_partial` and `C121_symmetric_partial`. -/
example : Comparable surf inv ∧ Comparable inv surf ∧ surf.getProfile = .ok surf.profile ∧ NoNan surf.profile := by
  refine ⟨.inl rfl, .inl rfl, rfl, fun a h => ?_⟩
  injection h with h
  subst h
  decide

/-- With `nan` (`C121_nan_wrong`). -/
example : eq noCmp { surf with profile := some ⟨[1, 2], [none, some 4]⟩ } { surf with profile := some ⟨[1, 2], [none, some 4]⟩ } = .ok false := by decide +kernel

/-- Two sums of the same two surfaces (`C121_combination_wrong`); the comparison of a sum with itself. -/
example : eq noCmp (combination (K := ℤ) [("is_discrete", .plain "False")] none "+" 0 1) (combination [("is_discrete", .plain "False")] none "+" 2 3) = .ok false ∧
    eq noCmp (combination (K := ℤ) [("is_discrete", .plain "False")] none "+" 0 1) (combination [("is_discrete", .plain "False")] none "+" 0 1) = .ok true := by decide +kernel

/-- `C121_filter_wrong`: the text of a filter surface without anything loses the bracket and a letter. -/
example : filterText none "None" none none = "RandomFilterSurfac)" ∧ filterText none "None" none (some "(2, 2)") = "RandomFilterSurface(shape = (2, 2))" := by decide +kernel

/-- `C121_perez_wrong`. -/
example : eq noCmp { surf with isDiscrete := false, cls := .perez } { surf with isDiscrete := false } = .error (.py .typeError) := C121_perez_wrong _ _ _ rfl rfl rfl

/-- `C121_frequencies_wrong`. -/
example := C121_frequencies_wrong (K := ℤ) noCmp 0 1 (by decide) ⟨[2], [some 1, some 2]⟩ ⟨[2], [some 1, some 2]⟩ 2 (Nat.le_refl 2) rfl rfl (.plain "1") (.plain "1") [] [] rfl none none

end Verif.Equal
