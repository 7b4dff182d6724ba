import Verif.Holes.Model
import Mathlib.Algebra.Order.Ring.Cast
import Mathlib.Tactic.Linarith
import Mathlib.Tactic.FieldSimp
import Mathlib.Tactic.Ring
import Mathlib.Data.List.Range

/-!
# The loops of `fill_holes` (lemmas for C107)
-/

namespace Verif.Holes

open Verif

variable {K : Type} [Field K] [LinearOrder K]

/-- The number of holes in a line of `n` entries. -/
def holesIn (line : ℕ → Bool) (n : ℕ) : ℕ := (List.range n).countP line

section mostly

variable [IsStrictOrderedRing K]

theorem mostly_empty (thresh : K) (line : ℕ → Bool) {n start e : ℕ} (h : n - e ≤ start) : mostly thresh line n start e = false := by
  unfold mostly
  rw [decide_eq_false_iff_not]
  rintro ⟨h1, -⟩
  omega

/-- A line of holes. -/
theorem mostly_all {thresh : K} (ht : thresh < 1) {line : ℕ → Bool} {n start e : ℕ} (hne : start < n - e) (h : ∀ j, start ≤ j → j < n - e → line j = true) :
    mostly thresh line n start e = true := by
  unfold mostly
  rw [decide_eq_true_eq]
  refine ⟨hne, ?_⟩
  have hf : (List.range' start (n - e - start)).filter line = List.range' start (n - e - start) := by
    rw [List.filter_eq_self]
    intro j hj
    rw [List.mem_range'_1] at hj
    exact h j hj.1 (by omega)
  rw [hf, List.length_range', div_self]
  · exact ht
  · rw [Nat.cast_ne_zero]
    omega

/-- A line without too many holes, of which only holes were cut off. -/
theorem mostly_few {thresh : K} (ht : thresh ≤ 1) {line : ℕ → Bool} {n start e : ℕ} (he : e ≤ n) (h1 : ∀ j, j < start → line j = true) (h2 : ∀ j, n - e ≤ j → j < n → line j = true)
    (hc : ((holesIn line n : ℕ) : K) ≤ thresh * n) : mostly thresh line n start e = false := by
  unfold mostly
  rw [decide_eq_false_iff_not]
  rintro ⟨hne, hlt⟩
  have hsplit : holesIn line n = start + ((List.range' start (n - e - start)).filter line).length + e := by
    unfold holesIn
    have hr : List.range n = List.range' 0 start ++ (List.range' start (n - e - start) ++ List.range' (n - e) e) := by
      rw [List.range_eq_range']
      have e1 : List.range' start (n - e - start) ++ List.range' (n - e) e = List.range' start (n - start) := by
        have := List.range'_append_1 (s := start) (m := n - e - start) (n := e)
        rw [show start + (n - e - start) = n - e by omega] at this
        rw [this]
        congr 1
        omega
      rw [e1]
      have := List.range'_append_1 (s := 0) (m := start) (n := n - start)
      rw [Nat.zero_add] at this
      rw [this]
      congr 1
      omega
    rw [hr, List.countP_append, List.countP_append]
    have c1 : (List.range' 0 start).countP line = start := by
      rw [List.countP_eq_length.2, List.length_range']
      intro j hj
      rw [List.mem_range'_1] at hj
      exact h1 j (by omega)
    have c2 : (List.range' (n - e) e).countP line = e := by
      rw [List.countP_eq_length.2, List.length_range']
      intro j hj
      rw [List.mem_range'_1] at hj
      exact h2 j hj.1 (by omega)
    rw [c1, c2, List.countP_eq_length_filter]
    omega
  have hpos : (0 : K) < ((n - e - start : ℕ) : K) := by
    rw [Nat.cast_pos]
    omega
  rw [lt_div_iff₀ hpos] at hlt
  have hn : (n : K) = ((n - e - start : ℕ) : K) + start + e := by
    have : n = n - e - start + start + e := by omega
    calc (n : K) = ((n - e - start + start + e : ℕ) : K) := by rw [← this]
      _ = _ := by push_cast; ring
  rw [hsplit] at hc
  push_cast at hc
  rw [hn] at hc
  have hs : (0 : K) ≤ start := Nat.cast_nonneg _
  have he' : (0 : K) ≤ e := Nat.cast_nonneg _
  have : 0 ≤ (1 - thresh) * ((start : K) + e) := mul_nonneg (by linarith) (by linarith)
  nlinarith

end mostly

/-! ## The loops end -/

/-- The part of the profile that is left. -/
def left (R C : ℕ) (b : Box) : ℕ := (R - b.startR) + (R - b.endR) + (C - b.startC) + (C - b.endC)

/-- No more was cut off than there is. -/
def Within (R C : ℕ) (b : Box) : Prop := b.startR ≤ R ∧ b.endR ≤ R ∧ b.startC ≤ C ∧ b.endC ≤ C

variable {thresh : K} {R C : ℕ} {hole : ℕ → ℕ → Bool} {b : Box} {g : Good}

theorem cutTop_ok {s : Box × Good} (h : cutTop thresh R C hole b g = .ok s) :
    (s = ({ b with startR := b.startR + 1 }, g) ∧ b.startR < R) ∨ s = (b, { g with top := true }) := by
  unfold cutTop at h
  split_ifs at h with h1 h2
  · injection h with h
    exact Or.inl ⟨h.symm, by omega⟩
  · injection h with h
    exact Or.inr h.symm

theorem cutBottom_ok {s : Box × Good} (h : cutBottom thresh R C hole b g = .ok s) :
    (s = ({ b with endR := b.endR + 1 }, g) ∧ b.endR < R) ∨ s = (b, { g with bottom := true }) := by
  unfold cutBottom at h
  split_ifs at h with h1 h2
  · injection h with h
    exact Or.inl ⟨h.symm, by omega⟩
  · injection h with h
    exact Or.inr h.symm

theorem cutLeft_ok {s : Box × Good} (h : cutLeft thresh R C hole b g = .ok s) :
    (s = ({ b with startC := b.startC + 1 }, g) ∧ b.startC < C) ∨ s = (b, { g with left := true }) := by
  unfold cutLeft at h
  split_ifs at h with h1 h2
  · injection h with h
    exact Or.inl ⟨h.symm, by omega⟩
  · injection h with h
    exact Or.inr h.symm

theorem cutRight_ok {s : Box × Good} (h : cutRight thresh R C hole b g = .ok s) :
    (s = ({ b with endC := b.endC + 1 }, g) ∧ b.endC < C) ∨ s = (b, { g with right := true }) := by
  unfold cutRight at h
  split_ifs at h with h1 h2
  · injection h with h
    exact Or.inl ⟨h.symm, by omega⟩
  · injection h with h
    exact Or.inr h.symm

/-- The statements of a pass. -/
theorem cutPass_ok {s : Box × Good} (h : cutPass thresh R C hole b g = .ok s) :
    ∃ s1 s2 s3, cutTop thresh R C hole b g = .ok s1 ∧ cutBottom thresh R C hole s1.1 s1.2 = .ok s2 ∧ cutLeft thresh R C hole s2.1 s2.2 = .ok s3 ∧ cutRight thresh R C hole s3.1 s3.2 = .ok s := by
  unfold cutPass at h
  cases h1 : cutTop thresh R C hole b g with
  | error e => rw [h1] at h; cases h
  | ok s1 =>
    rw [h1] at h
    simp only [bind, Except.bind] at h
    cases h2 : cutBottom thresh R C hole s1.1 s1.2 with
    | error e => rw [h2] at h; cases h
    | ok s2 =>
      rw [h2] at h
      simp only at h
      cases h3 : cutLeft thresh R C hole s2.1 s2.2 with
      | error e => rw [h3] at h; cases h
      | ok s3 =>
        rw [h3] at h
        exact ⟨s1, s2, s3, rfl, h2, h3, h⟩

/-- A pass cuts something off or is the last one. -/
theorem cutPass_left {s : Box × Good} (h : cutPass thresh R C hole b g = .ok s) (hw : Within R C b) : Within R C s.1 ∧ (left R C s.1 < left R C b ∨ s.2.all = true) := by
  obtain ⟨s1, s2, s3, h1, h2, h3, h4⟩ := cutPass_ok h
  obtain ⟨w1, w2, w3, w4⟩ := hw
  rcases cutTop_ok h1 with ⟨rfl, q1⟩ | rfl <;> rcases cutBottom_ok h2 with ⟨rfl, q2⟩ | rfl <;> rcases cutLeft_ok h3 with ⟨rfl, q3⟩ | rfl <;> rcases cutRight_ok h4 with ⟨rfl, q4⟩ | rfl <;>
    simp only [Within, left, Good.all] at * <;> first | (refine ⟨by omega, Or.inl ?_⟩; omega) | (refine ⟨by omega, Or.inr ?_⟩; rfl)

theorem cut_all (hg : g.all = true) (n : ℕ) : cut thresh R C hole n b g = some (.ok b) := by
  cases n <;> rw [cut, if_pos hg]

theorem addBack_none (hg : g.any = false) (n : ℕ) : addBack thresh R C hole n b g = some b := by
  cases n <;> rw [addBack, if_pos hg]

theorem cut_ends : ∀ (n : ℕ) (b : Box) (g : Good), Within R C b → left R C b < n → ∃ r, cut thresh R C hole n b g = some r ∧ (∀ m, n ≤ m → cut thresh R C hole m b g = some r) ∧
    ∀ b', r = .ok b' → Within R C b' := by
  intro n
  induction n with
  | zero => intro b g _ h; omega
  | succ n ih =>
    intro b g hw hl
    by_cases hg : g.all = true
    · refine ⟨.ok b, ?_, ?_, ?_⟩
      · exact cut_all hg _
      · intro m _
        exact cut_all hg _
      · intro b' hb
        injection hb with hb
        rwa [← hb]
    · have hmm : ∀ m, n + 1 ≤ m → ∃ m', m = m' + 1 ∧ n ≤ m' := fun m hm => ⟨m - 1, by omega, by omega⟩
      cases hp : cutPass thresh R C hole b g with
      | error e =>
        refine ⟨.error e, ?_, ?_, by rintro b' ⟨⟩⟩
        · rw [cut, if_neg hg]
          simp only [hp]
        · intro m hm
          obtain ⟨m', rfl, -⟩ := hmm m hm
          rw [cut, if_neg hg]
          simp only [hp]
      | ok s =>
        obtain ⟨hw', hlt⟩ := cutPass_left hp hw
        have key : ∃ r, cut thresh R C hole n s.1 s.2 = some r ∧ (∀ m, n ≤ m → cut thresh R C hole m s.1 s.2 = some r) ∧ ∀ b', r = .ok b' → Within R C b' := by
          rcases hlt with hlt | hall
          · exact ih s.1 s.2 hw' (by omega)
          · refine ⟨.ok s.1, ?_, ?_, ?_⟩
            · exact cut_all hall _
            · intro m _
              exact cut_all hall _
            · intro b' hb
              injection hb with hb
              rwa [← hb]
        obtain ⟨r, k1, k2, k3⟩ := key
        refine ⟨r, ?_, ?_, k3⟩
        · rw [cut, if_neg hg]
          simp only [hp]
          exact k1
        · intro m hm
          obtain ⟨m', rfl, hm'⟩ := hmm m hm
          rw [cut, if_neg hg]
          simp only [hp]
          exact k2 m' hm'

theorem addTop_eq : addTop thresh C hole b g = ({ b with startR := b.startR - 1 }, g) ∧ 0 < b.startR ∨ addTop thresh C hole b g = (b, { g with top := false }) := by
  unfold addTop
  split_ifs with h
  · exact Or.inl ⟨rfl, h.1⟩
  · exact Or.inr rfl

theorem addBottom_eq : addBottom thresh R C hole b g = ({ b with endR := b.endR - 1 }, g) ∧ 0 < b.endR ∨ addBottom thresh R C hole b g = (b, { g with bottom := false }) := by
  unfold addBottom
  split_ifs with h
  · exact Or.inl ⟨rfl, h.1⟩
  · exact Or.inr rfl

theorem addLeft_eq : addLeft thresh R hole b g = ({ b with startC := b.startC - 1 }, g) ∧ 0 < b.startC ∨ addLeft thresh R hole b g = (b, { g with left := false }) := by
  unfold addLeft
  split_ifs with h
  · exact Or.inl ⟨rfl, h.1⟩
  · exact Or.inr rfl

theorem addRight_eq : addRight thresh R C hole b g = ({ b with endC := b.endC - 1 }, g) ∧ 0 < b.endC ∨ addRight thresh R C hole b g = (b, { g with right := false }) := by
  unfold addRight
  split_ifs with h
  · exact Or.inl ⟨rfl, h.1⟩
  · exact Or.inr rfl

/-- What was cut off. -/
def removed (b : Box) : ℕ := b.startR + b.endR + b.startC + b.endC

theorem addPass_removed (thresh : K) (R C : ℕ) (hole : ℕ → ℕ → Bool) (b : Box) (g : Good) :
    removed (addPass thresh R C hole b g).1 < removed b ∨ (addPass thresh R C hole b g).2.any = false := by
  unfold addPass
  dsimp only
  rcases addTop_eq (thresh := thresh) (C := C) (hole := hole) (b := b) (g := g) with ⟨h1, q1⟩ | h1 <;> rw [h1] <;> dsimp only <;>
    [rcases addBottom_eq (thresh := thresh) (R := R) (C := C) (hole := hole) (b := { b with startR := b.startR - 1 }) (g := g) with ⟨h2, q2⟩ | h2;
     rcases addBottom_eq (thresh := thresh) (R := R) (C := C) (hole := hole) (b := b) (g := { g with top := false }) with ⟨h2, q2⟩ | h2] <;> rw [h2] <;> dsimp only <;>
    generalize hb : addLeft thresh R hole _ _ = s <;>
    rcases addLeft_eq (thresh := thresh) (R := R) (hole := hole) with ⟨h3, q3⟩ | h3 <;> rw [hb] at h3 <;> subst h3 <;> dsimp only <;>
    generalize hc : addRight thresh R C hole _ _ = t <;>
    rcases addRight_eq (thresh := thresh) (R := R) (C := C) (hole := hole) with ⟨h4, q4⟩ | h4 <;> rw [hc] at h4 <;> subst h4 <;>
    simp only [removed, Good.any] at * <;> first | (left; omega) | (right; rfl)

theorem addBack_ends : ∀ (n : ℕ) (b : Box) (g : Good), removed b < n → ∃ r, addBack thresh R C hole n b g = some r ∧ ∀ m, n ≤ m → addBack thresh R C hole m b g = some r := by
  intro n
  induction n with
  | zero => intro b g h; omega
  | succ n ih =>
    intro b g hl
    by_cases hg : g.any = false
    · refine ⟨b, ?_, ?_⟩
      · exact addBack_none hg _
      · intro m _
        exact addBack_none hg _
    · have hmm : ∀ m, n + 1 ≤ m → ∃ m', m = m' + 1 ∧ n ≤ m' := fun m hm => ⟨m - 1, by omega, by omega⟩
      have key : ∃ r, addBack thresh R C hole n (addPass thresh R C hole b g).1 (addPass thresh R C hole b g).2 = some r ∧
          ∀ m, n ≤ m → addBack thresh R C hole m (addPass thresh R C hole b g).1 (addPass thresh R C hole b g).2 = some r := by
        rcases addPass_removed thresh R C hole b g with hlt | hall
        · exact ih _ _ (by omega)
        · refine ⟨(addPass thresh R C hole b g).1, ?_, ?_⟩
          · exact addBack_none hall _
          · intro m _
            exact addBack_none hall _
      obtain ⟨r, k1, k2⟩ := key
      refine ⟨r, ?_, ?_⟩
      · rw [addBack, if_neg hg]
        exact k1
      · intro m hm
        obtain ⟨m', rfl, hm'⟩ := hmm m hm
        rw [addBack, if_neg hg]
        exact k2 m' hm'

end Verif.Holes
