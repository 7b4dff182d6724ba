import Mathlib.Tactic.Linarith
import Verif.SlipMemo.Model

/-!
# C147: the partial slip model uses the influence matrices of the surfaces
-/

namespace Verif.SlipMemo

/-! ## Specification -/

/-- `t` is the sum of the influence matrices of both materials for this span, each with the spacing of its own surface. -/
def Right (s : Surfaces) (component : String) (span : Span) (t : Matrix) : Prop :=
  ∃ f1 f2 a b, s.material1 = some f1 ∧ s.material2 = some f2 ∧ f1 span s.spacing1 component = .ok a ∧ f2 span s.spacing2 component = .ok b ∧ ∀ i j, t i j = a i j + b i j

/-- Both materials can give their matrices for the span. -/
def Possible (s : Surfaces) (component : String) (span : Span) : Prop := ∃ t, Right s component span t

/-! ## What holds -/

theorem check_right (s : Surfaces) (hs : s.spacing1 = s.spacing2) (component : String) (span : Span) (m m' : Memo) (h : check s component span m = .ok m') :
    ∃ t, m'.total = some t ∧ m'.checked = true ∧ Right s component span t := by
  unfold check at h
  split at h
  · rename_i f1 f2 h1 h2
    split at h
    · simp at h
    · rename_i a ha
      split at h
      · simp at h
      · rename_i b hb
        simp only [Except.ok.injEq] at h
        subst h
        exact ⟨_, rfl, rfl, f1, f2, a, b, h1, h2, ha, by rw [← hs]; exact hb, fun i j => rfl⟩
  · simp at h

theorem check_possible (s : Surfaces) (hs : s.spacing1 = s.spacing2) (component : String) (span : Span) (m : Memo) (h : Possible s component span) : ∃ m', check s component span m = .ok m' := by
  obtain ⟨t, f1, f2, a, b, h1, h2, ha, hb, -⟩ := h
  unfold check
  rw [h1, h2]
  dsimp only
  rw [ha]
  dsimp only
  rw [hs, hb]
  exact ⟨_, rfl⟩

/-- The memory is that of the surfaces `s`, or empty. -/
def Faithful (s : Surfaces) (component : String) (m : Memo) : Prop :=
  m.checked = false ∨ m.lastSpan = none ∨ ∃ span t, m.lastSpan = some span ∧ m.total = some t ∧ Right s component span t

theorem prepare_faithful (s : Surfaces) (hs : s.spacing1 = s.spacing2) (component : String) (span : Span) (m : Memo) (hm : Faithful s component m) :
    Faithful s component (prepare s component span m).2 ∧ (∀ t, (prepare s component span m).1 = .ok t → Right s component span t) ∧
      (Possible s component span → ∃ t, (prepare s component span m).1 = .ok t) := by
  unfold prepare
  dsimp only
  split
  · cases h : check s component span m with
    | error e =>
      refine ⟨hm, fun t ht => by simp at ht, fun hp => ?_⟩
      obtain ⟨m', h'⟩ := check_possible s hs component span m hp
      rw [h] at h'
      simp at h'
    | ok m' =>
      obtain ⟨t, h1, h2, h3⟩ := check_right s hs component span m m' h
      dsimp only
      rw [h1]
      refine ⟨Or.inr (Or.inr ⟨span, t, rfl, rfl, h3⟩), fun u hu => ?_, fun _ => ⟨t, rfl⟩⟩
      simp only [Except.ok.injEq] at hu
      subst hu
      exact h3
  · rename_i hc
    simp only [Bool.or_eq_true, Bool.not_eq_true', decide_eq_true_eq, not_or, Bool.not_eq_false, not_not] at hc
    rcases hm with h | h | ⟨sp, t, h1, h2, h3⟩
    · rw [h] at hc
      simp at hc
    · rw [h] at hc
      simp at hc
    · rw [h2]
      have : sp = span := by
        have := hc.2.trans h1
        simpa using this.symm
      subst this
      refine ⟨Or.inr (Or.inr ⟨sp, t, h1, h2, h3⟩), fun u hu => ?_, fun _ => ⟨t, rfl⟩⟩
      simp only [Except.ok.injEq] at hu
      subst hu
      exact h3

/-- **C147, surfaces that stay the same (partial).** For two surfaces of the same spacing, after any number of calls with any spans (also failing ones), a call uses the sum of the influence matrices of both materials for its
span, and it succeeds whenever the materials can give them. Missing: surfaces that change, and different spacings, where it is false, see below. -/
theorem C147_unchanged_partial (s : Surfaces) (hs : s.spacing1 = s.spacing2) (component : String) (spans : List Span) (span : Span) :
    (∀ t, (prepare s component span (after component Memo.new (spans.map fun x => (s, x)))).1 = .ok t → Right s component span t) ∧
    (Possible s component span → ∃ t, (prepare s component span (after component Memo.new (spans.map fun x => (s, x)))).1 = .ok t) := by
  have h : ∀ (l : List Span) (m : Memo), Faithful s component m → Faithful s component (after component m (l.map fun x => (s, x))) := by
    intro l
    induction l with
    | nil => intro m hm; exact hm
    | cons x l ih => intro m hm; exact ih _ (prepare_faithful s hs component x m hm).1
  exact (prepare_faithful s hs component span _ (h spans _ (Or.inl rfl))).2

example := C147_unchanged_partial ⟨some fun _ gs _ => .ok fun _ _ => gs, some fun _ gs _ => .ok fun _ _ => gs, 1, 1⟩ rfl "xx" [(2, 2), (3, 3)] (2, 2)

/-- **C147, refused.** If one of the materials is no influence matrix material, a new sub model raises `ValueError` for every span, and after this it is as new. -/
theorem C147_refused (s : Surfaces) (h : s.material1 = none ∨ s.material2 = none) (component : String) (spans : List Span) (span : Span) :
    prepare s component span (after component Memo.new (spans.map fun x => (s, x))) = (.error .valueError, Memo.new) := by
  have hc : ∀ (x : Span) (m : Memo), check s component x m = .error .valueError := by
    intro x m
    unfold check
    rcases h with h | h
    · rw [h]
    · rw [h]
      cases s.material1 <;> rfl
  have hp : ∀ x : Span, prepare s component x Memo.new = (.error .valueError, Memo.new) := by
    intro x
    unfold prepare
    simp only [hc]
    simp [Memo.new]
  have ha : ∀ l : List Span, after component Memo.new (l.map fun x => (s, x)) = Memo.new := by
    intro l
    induction l with
    | nil => rfl
    | cons x l ih =>
      simp only [List.map_cons, after, hp]
      exact ih
  rw [ha, hp]

/-- Such surfaces: the second one has no influence matrix material. -/
example : ∃ s : Surfaces, (s.material1 = none ∨ s.material2 = none) ∧ s.material1.isSome := ⟨⟨some fun _ gs _ => .ok fun _ _ => gs, none, 1, 1⟩, Or.inr rfl, rfl⟩

/-! ## What is false -/

/-- **C147 is false: changed surfaces.** If the surfaces of the model change between two calls with the same span (another material, another grid spacing), the second call uses the matrices of the first one, whatever the new ones are;
it does not even fail if the new material is no influence matrix material. -/
theorem C147_changed_wrong (s s' : Surfaces) (hs : s.spacing1 = s.spacing2) (component : String) (span : Span) (hp : Possible s component span) :
    ∃ t, Right s component span t ∧ (prepare s' component span (after component Memo.new [(s, span)])).1 = .ok t := by
  obtain ⟨m, hm⟩ := check_possible s hs component span Memo.new hp
  obtain ⟨t, h1, h2, h3⟩ := check_right s hs component span _ m hm
  refine ⟨t, h3, ?_⟩
  have e : (prepare s component span Memo.new).2 = { m with lastSpan := some span } := by
    unfold prepare
    dsimp only
    rw [if_pos (by simp [Memo.new]), hm]
    dsimp only
    rw [h1]
  simp only [after, e]
  unfold prepare
  dsimp only
  rw [if_neg (by simp [h2]), h1]

/-- A material whose matrix is its spacing everywhere. -/
def flatMaterial : Influence := fun _ gs _ => .ok fun _ _ => gs

/-- The right matrix after halving the spacing is not the one that is used. -/
example : ∃ (s s' : Surfaces) (t : Matrix), s.spacing1 = s.spacing2 ∧ s'.spacing1 = s'.spacing2 ∧ Possible s "xx" (2, 2) ∧ Possible s' "xx" (2, 2) ∧
    (prepare s' "xx" (2, 2) (after "xx" Memo.new [(s, (2, 2))])).1 = .ok t ∧ ¬ Right s' "xx" (2, 2) t := by
  let s : Surfaces := ⟨some flatMaterial, some flatMaterial, 2, 2⟩
  let s' : Surfaces := ⟨some flatMaterial, some flatMaterial, 1, 1⟩
  have hs : Possible s "xx" (2, 2) := ⟨fun _ _ => 2 + 2, _, _, _, _, rfl, rfl, rfl, rfl, fun _ _ => rfl⟩
  have hs' : Possible s' "xx" (2, 2) := ⟨fun _ _ => 1 + 1, _, _, _, _, rfl, rfl, rfl, rfl, fun _ _ => rfl⟩
  obtain ⟨t, ⟨f1, f2, a, b, h1, h2, ha, hb, ht⟩, h⟩ := C147_changed_wrong s s' rfl "xx" (2, 2) hs
  refine ⟨s, s', t, rfl, rfl, hs, hs', h, ?_⟩
  rintro ⟨g1, g2, c, d, k1, k2, hc, hd, hcd⟩
  simp only [s, Option.some.injEq] at h1 h2
  simp only [s', Option.some.injEq] at k1 k2
  subst h1 h2 k1 k2
  simp only [flatMaterial, Except.ok.injEq] at ha hb hc hd
  subst ha hb hc hd
  have e1 := ht 0 0
  have e2 := hcd 0 0
  simp only [s, s'] at e1 e2
  linarith

/-- **C147 is false: different spacings.** For surfaces of different spacings the matrix of the second material is made with the spacing of the first surface: the sum is that for two surfaces with the spacing of the first, and it is
right exactly if the second material gives the same for both spacings. -/
theorem C147_spacing_wrong (s : Surfaces) (component : String) (span : Span) (t : Matrix) (ht : (prepare s component span Memo.new).1 = .ok t) :
    Right { s with spacing2 := s.spacing1 } component span t ∧
    ∀ f2 b b', s.material2 = some f2 → f2 span s.spacing1 component = .ok b → f2 span s.spacing2 component = .ok b' → (Right s component span t ↔ ∀ i j, b i j = b' i j) := by
  have hr : Right { s with spacing2 := s.spacing1 } component span t := by
    refine (prepare_faithful { s with spacing2 := s.spacing1 } rfl component span Memo.new (Or.inl rfl)).2.1 t ?_
    rw [← ht]
    rfl
  refine ⟨hr, fun f2 b b' h2 hb hb' => ?_⟩
  obtain ⟨f1, f2', a, c, h1, h2', ha, hc, hac⟩ := hr
  dsimp only at h1 h2' ha hc
  rw [h2] at h2'
  simp only [Option.some.injEq] at h2'
  subst h2'
  rw [hb] at hc
  simp only [Except.ok.injEq] at hc
  subst hc
  constructor
  · rintro ⟨g1, g2, c, d, k1, k2, hc, hd, hcd⟩ i j
    rw [h1] at k1
    rw [h2] at k2
    simp only [Option.some.injEq] at k1 k2
    subst k1 k2
    rw [ha] at hc
    rw [hb'] at hd
    simp only [Except.ok.injEq] at hc hd
    subst hc hd
    linarith [hac i j, hcd i j]
  · intro h
    exact ⟨f1, f2, a, b', h1, h2, ha, hb', fun i j => by rw [hac, h]⟩

/-- The hypotheses can be met with different spacings and different matrices. -/
example : ∃ (s : Surfaces) (t : Matrix) (b b' : Matrix), s.spacing1 ≠ s.spacing2 ∧ (prepare s "xx" (2, 2) Memo.new).1 = .ok t ∧ s.material2 = some flatMaterial ∧
    flatMaterial (2, 2) s.spacing1 "xx" = .ok b ∧ flatMaterial (2, 2) s.spacing2 "xx" = .ok b' ∧ b 0 0 ≠ b' 0 0 :=
  ⟨⟨some flatMaterial, some flatMaterial, 1, 2⟩, _, _, _, by norm_num, rfl, rfl, rfl, rfl, by norm_num⟩

end Verif.SlipMemo
