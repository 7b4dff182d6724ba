import Verif.Gap.Model
import Mathlib.Algebra.Order.Floor.Ring
import Mathlib.Tactic.Linarith
import Mathlib.Tactic.NormNum
import Mathlib.Tactic.Ring
import Mathlib.Tactic.FieldSimp
import Mathlib.Tactic.Positivity
import Mathlib.Data.List.GetD

/-!
# C26: the undeformed gap has the prescribed interference
-/

namespace Verif.Gap

open Verif

/-! ## The minimum -/

theorem foldl_min_spec (l : List ℝ) (x : ℝ) : (l.foldl min x ≤ x) ∧ (∀ y ∈ l, l.foldl min x ≤ y) ∧ (l.foldl min x = x ∨ l.foldl min x ∈ l) := by
  induction l generalizing x with
  | nil => simp
  | cons a l ih =>
    obtain ⟨h1, h2, h3⟩ := ih (min x a)
    rw [List.foldl_cons]
    refine ⟨h1.trans (min_le_left _ _), ?_, ?_⟩
    · intro y hy
      rcases List.mem_cons.1 hy with rfl | hy
      · exact h1.trans (min_le_right _ _)
      · exact h2 y hy
    · rcases h3 with h3 | h3
      · rw [h3]
        rcases min_choice x a with h | h
        · exact Or.inl h
        · right; rw [h]; exact List.mem_cons_self
      · exact Or.inr (List.mem_cons_of_mem _ h3)

theorem pyMin_spec (l : List ℝ) (m : ℝ) (h : pyMin l = .ok m) : m ∈ l ∧ ∀ y ∈ l, m ≤ y := by
  cases l with
  | nil => cases h
  | cons x rest =>
    cases h
    obtain ⟨h1, h2, h3⟩ := foldl_min_spec rest x
    refine ⟨?_, ?_⟩
    · rcases h3 with h3 | h3
      · rw [h3]; exact List.mem_cons_self
      · exact List.mem_cons_of_mem _ h3
    · intro y hy
      rcases List.mem_cons.1 hy with rfl | hy
      · exact h1
      · exact h2 y hy

theorem mem_flatten (a : Arr) (y : ℝ) : y ∈ a.flatten ↔ ∃ i < a.rows, ∃ j < a.cols, a.z i j = y := by
  unfold Arr.flatten
  simp only [List.mem_flatMap, List.mem_range, List.mem_map]

/-- What `shiftToTouch` does. -/
theorem shift_spec (p g : Arr) (d : ℝ) (h : shiftToTouch p d = .ok g) :
    g.rows = p.rows ∧ g.cols = p.cols ∧ (∃ c, ∀ i j, g.z i j = p.z i j - c) ∧
    (∀ i < g.rows, ∀ j < g.cols, -d ≤ g.z i j) ∧ ∃ i < g.rows, ∃ j < g.cols, g.z i j = -d := by
  unfold shiftToTouch at h
  split at h
  · cases h
  rename_i m hm
  cases h
  obtain ⟨h1, h2⟩ := pyMin_spec _ _ hm
  refine ⟨rfl, rfl, ⟨m + d, fun _ _ => rfl⟩, ?_, ?_⟩
  · intro i hi j hj
    have := h2 (p.z i j) ((mem_flatten p _).2 ⟨i, hi, j, hj, rfl⟩)
    show -d ≤ p.z i j - (m + d)
    linarith
  · obtain ⟨i, hi, j, hj, he⟩ := (mem_flatten p m).1 h1
    refine ⟨i, hi, j, hj, ?_⟩
    show p.z i j - (m + d) = -d
    linarith

theorem shift_ok (p : Arr) (d : ℝ) (hr : 0 < p.rows) (hc : 0 < p.cols) : ∃ g, shiftToTouch p d = .ok g := by
  have hm : p.z 0 0 ∈ p.flatten := (mem_flatten p _).2 ⟨0, hr, 0, hc, rfl⟩
  unfold shiftToTouch
  cases hf : p.flatten with
  | nil => rw [hf] at hm; cases hm
  | cons x rest => exact ⟨_, rfl⟩

/-- **C26**: whenever the gap is found, it is at least minus the interference everywhere and equal to it somewhere: the minimum is minus the
interference. -/
theorem C26_minimum_is_minus_interference (s1 : Option Disc) (s2 : Second) (d offY offX : ℝ) (periodic : Bool) (g : Arr)
    (h : getGap s1 s2 d offY offX periodic = .ok g) :
    (∀ i < g.rows, ∀ j < g.cols, -d ≤ g.z i j) ∧ ∃ i < g.rows, ∃ j < g.cols, g.z i j = -d := by
  unfold getGap at h
  split at h
  · cases h
  · cases h
  · cases h
  · exact (shift_spec _ _ _ h).2.2.2
  · split at h
    · dsimp only at h
      split at h
      · cases h
      split at h
      · cases h
      split at h
      · cases h
      · exact (shift_spec _ _ _ h).2.2.2
    · split at h
      · cases h
      dsimp only at h
      split at h
      · cases h
      split at h
      · cases h
      split at h
      · cases h
      · exact (shift_spec _ _ _ h).2.2.2

/-- **C26**: at interference zero the bodies touch in some point and are apart (or touch) in all others. -/
theorem C26_first_touch_at_zero (s1 : Option Disc) (s2 : Second) (offY offX : ℝ) (periodic : Bool) (g : Arr)
    (h : getGap s1 s2 0 offY offX periodic = .ok g) :
    (∀ i < g.rows, ∀ j < g.cols, 0 ≤ g.z i j) ∧ ∃ i < g.rows, ∃ j < g.cols, g.z i j = 0 := by
  obtain ⟨h1, i, hi, j, hj, h2⟩ := C26_minimum_is_minus_interference s1 s2 0 offY offX periodic g h
  refine ⟨fun i hi j hj => by simpa using h1 i hi j hj, i, hi, j, hj, by simpa using h2⟩

/-! ## The difference of the surfaces -/

/-- **C26**: against an analytic surface the gap is the difference of the surfaces at the grid points of the first one, shifted by the off
set, up to a constant. -/
theorem C26_difference_analytic (s1 : Disc) (height : ℝ → ℝ → ℝ) (d offY offX : ℝ) (periodic : Bool)
    (hr : 0 < s1.profile.rows) (hc : 0 < s1.profile.cols) :
    ∃ g, getGap (some s1) (.analytic height) d offY offX periodic = .ok g ∧ g.rows = s1.profile.rows ∧ g.cols = s1.profile.cols ∧
      ∃ c, ∀ i j, g.z i j = -height (i * s1.gs - offY) (j * s1.gs - offX) - s1.profile.z i j - c := by
  obtain ⟨g, hg⟩ := shift_ok ⟨s1.profile.rows, s1.profile.cols,
    fun i j => -height (i * s1.gs - offY) (j * s1.gs - offX) - s1.profile.z i j⟩ d hr hc
  obtain ⟨h1, h2, h3, -⟩ := shift_spec _ _ _ hg
  exact ⟨g, hg, h1, h2, h3⟩

theorem collect_ok {α : Type} (f : Nat → Except PyErr α) (n : Nat) (v : Nat → α) (h : ∀ i < n, f i = .ok (v i)) :
    collect f n = .ok ((List.range n).map v) := by
  induction n with
  | zero => rfl
  | succ n ih =>
    unfold collect
    rw [ih (fun i hi => h i (by omega))]
    dsimp only
    rw [h n (by omega)]
    dsimp only
    rw [List.range_succ, List.map_append]
    rfl

/-- The index of the cell of a point inside of the surface. -/
theorem index_ok (n : Nat) (gs p : ℝ) (hgs : 0 < gs) (h0 : 0 ≤ p) (h1 : p < gs * n) :
    ∃ k, pyIndex n (trunc (p / gs)) = .ok k ∧ k < n ∧ k * gs ≤ p ∧ p < (k + 1) * gs := by
  have hq : 0 ≤ p / gs := div_nonneg h0 hgs.le
  have hlt : p / gs < n := by rw [div_lt_iff₀ hgs]; linarith
  have hf0 : 0 ≤ ⌊p / gs⌋ := Int.floor_nonneg.2 hq
  have hfn : ⌊p / gs⌋ < n := by
    rw [Int.floor_lt]
    exact_mod_cast hlt
  refine ⟨⌊p / gs⌋.toNat, ?_, by omega, ?_, ?_⟩
  · unfold pyIndex trunc
    rw [if_pos hq, if_pos ⟨hf0, hfn⟩]
  · have : ((⌊p / gs⌋.toNat : ℕ) : ℝ) = (⌊p / gs⌋ : ℝ) := by
      have := Int.toNat_of_nonneg hf0
      exact_mod_cast congrArg (fun z : ℤ => (z : ℝ)) this
    rw [this]
    have := Int.floor_le (p / gs)
    rwa [le_div_iff₀ hgs] at this
  · have : ((⌊p / gs⌋.toNat : ℕ) : ℝ) = (⌊p / gs⌋ : ℝ) := by
      have := Int.toNat_of_nonneg hf0
      exact_mod_cast congrArg (fun z : ℤ => (z : ℝ)) this
    rw [this]
    have := Int.lt_floor_add_one (p / gs)
    rwa [div_lt_iff₀ hgs] at this

/-- Nearest interpolation for points inside of the surface. -/
theorem interpolate_nearest (s : Disc) (hgs : 0 < s.gs) (rows cols : Nat) (hr : 0 < rows) (hc : 0 < cols) (y x : Nat → ℝ)
    (hy : ∀ i < rows, 0 ≤ y i ∧ y i < s.extentY) (hx : ∀ j < cols, 0 ≤ x j ∧ x j < s.extentX) :
    ∃ a, interpolate s .nearest rows cols y x = .ok a ∧ a.rows = rows ∧ a.cols = cols ∧
      ∀ i < rows, ∀ j < cols, ∃ k < s.profile.rows, ∃ l < s.profile.cols,
        (k * s.gs ≤ y i ∧ y i < (k + 1) * s.gs) ∧ (l * s.gs ≤ x j ∧ x j < (l + 1) * s.gs) ∧ a.z i j = s.profile.z k l := by
  have h1 : ∀ i, ∃ k, i < rows → pyIndex s.profile.rows (trunc (y i / s.gs)) = .ok k ∧ k < s.profile.rows ∧
      k * s.gs ≤ y i ∧ y i < (k + 1) * s.gs := by
    intro i
    by_cases hi : i < rows
    · obtain ⟨k, hk⟩ := index_ok s.profile.rows s.gs (y i) hgs (hy i hi).1 (hy i hi).2
      exact ⟨k, fun _ => hk⟩
    · exact ⟨0, fun h => absurd h hi⟩
  have h2 : ∀ j, ∃ k, j < cols → pyIndex s.profile.cols (trunc (x j / s.gs)) = .ok k ∧ k < s.profile.cols ∧
      k * s.gs ≤ x j ∧ x j < (k + 1) * s.gs := by
    intro j
    by_cases hj : j < cols
    · obtain ⟨k, hk⟩ := index_ok s.profile.cols s.gs (x j) hgs (hx j hj).1 (hx j hj).2
      exact ⟨k, fun _ => hk⟩
    · exact ⟨0, fun h => absurd h hj⟩
  choose ky hky using h1
  choose kx hkx using h2
  have e1 := collect_ok (fun i => pyIndex s.profile.rows (trunc (y i / s.gs))) rows ky (fun i hi => (hky i hi).1)
  have e2 := collect_ok (fun j => pyIndex s.profile.cols (trunc (x j / s.gs))) cols kx (fun j hj => (hkx j hj).1)
  refine ⟨⟨rows, cols, fun i j => s.profile.z (((List.range rows).map ky).getD i 0) (((List.range cols).map kx).getD j 0)⟩,
    ?_, rfl, rfl, ?_⟩
  · unfold interpolate
    dsimp only
    rw [if_neg (by omega), e1, e2]
  · intro i hi j hj
    refine ⟨ky i, (hky i hi).2.1, kx j, (hkx j hj).2.1, (hky i hi).2.2, (hkx j hj).2.2, ?_⟩
    dsimp only
    rw [List.getD_eq_getElem _ _ (by simpa using hi), List.getD_eq_getElem _ _ (by simpa using hj)]
    simp

theorem negSub_same (a b : Arr) (hr : a.rows = b.rows) (hc : a.cols = b.cols) :
    ∃ p, negSub a b = .ok p ∧ p.rows = b.rows ∧ p.cols = b.cols ∧ ∀ i < b.rows, ∀ j < b.cols, p.z i j = -a.z i j - b.z i j := by
  refine ⟨⟨a.rows, a.cols, fun i j => -a.z (sel a.rows i) (sel a.cols j) - b.z (sel b.rows i) (sel b.cols j)⟩,
    by simp only [negSub, broadcast, if_pos hr, if_pos hc], hr, hc, ?_⟩
  intro i hi j hj
  have e : ∀ n k, k < n → sel n k = k := by
    intro n k hk
    unfold sel
    split <;> omega
  dsimp only
  rw [hr, hc, e _ _ hi, e _ _ hj]

theorem remainder_mem (x e : ℝ) (he : 0 < e) : 0 ≤ remainder x e ∧ remainder x e < e := by
  unfold remainder
  have h1 := Int.floor_le (x / e)
  have h2 := Int.lt_floor_add_one (x / e)
  rw [le_div_iff₀ he] at h1
  rw [div_lt_iff₀ he] at h2
  constructor <;> nlinarith

/-- **C26**: for periodic surfaces the gap is found for every off set; it has the shape of the first surface, and is the difference of the
first surface at its grid points and the second surface at the same points minus the off set, moved back by a whole number of
periods, up to a constant. The value of the second surface at a point is the one of the cell that the point is in (up to the small
constant that is added to the points). -/
theorem C26_difference_periodic (s1 s2 : Disc) (d offY offX : ℝ) (h1 : 0 < s1.gs) (h2 : 0 < s2.gs) (hr1 : 0 < s1.profile.rows)
    (hc1 : 0 < s1.profile.cols) (hr2 : 0 < s2.profile.rows) (hc2 : 0 < s2.profile.cols) :
    ∃ g, getGap (some s1) (.discrete s2 .nearest) d offY offX true = .ok g ∧ g.rows = s1.profile.rows ∧ g.cols = s1.profile.cols ∧
      ∃ c, ∀ i < g.rows, ∀ j < g.cols, ∃ k < s2.profile.rows, ∃ l < s2.profile.cols, ∃ m n : ℤ,
        (k * s2.gs ≤ i * s1.gs - offY + eps * s1.extentY + m * s2.extentY ∧
          i * s1.gs - offY + eps * s1.extentY + m * s2.extentY < (k + 1) * s2.gs) ∧
        (l * s2.gs ≤ j * s1.gs - offX + eps * s1.extentX + n * s2.extentX ∧
          j * s1.gs - offX + eps * s1.extentX + n * s2.extentX < (l + 1) * s2.gs) ∧
        g.z i j = -s2.profile.z k l - s1.profile.z i j - c := by
  have hE2 : 0 < s2.extentY := mul_pos h2 (by exact_mod_cast hr2)
  have hE2' : 0 < s2.extentX := mul_pos h2 (by exact_mod_cast hc2)
  obtain ⟨a, ha, har, hac, hval⟩ := interpolate_nearest s2 h2 s1.profile.rows s1.profile.cols hr1 hc1
    (fun i => remainder (i * s1.gs - offY + eps * s1.extentY) s2.extentY)
    (fun j => remainder (j * s1.gs - offX + eps * s1.extentX) s2.extentX)
    (fun i _ => remainder_mem _ _ hE2) (fun j _ => remainder_mem _ _ hE2')
  obtain ⟨p, hp, hpr, hpc, hpv⟩ := negSub_same a s1.profile har hac
  obtain ⟨g, hg⟩ := shift_ok p d (by omega) (by omega)
  obtain ⟨g1, g2, ⟨c, g3⟩, -⟩ := shift_spec _ _ _ hg
  refine ⟨g, ?_, by omega, by omega, c, ?_⟩
  · unfold getGap
    dsimp only
    rw [if_pos rfl, ha]
    dsimp only
    rw [hp]
    dsimp only
    rw [if_neg ?_, hg]
    have : 0 < p.rows * p.cols := Nat.mul_pos (by omega) (by omega)
    omega
  · intro i hi j hj
    obtain ⟨k, hk, l, hl, hky, hlx, hz⟩ := hval i (by omega) j (by omega)
    refine ⟨k, hk, l, hl, -⌊(i * s1.gs - offY + eps * s1.extentY) / s2.extentY⌋,
      -⌊(j * s1.gs - offX + eps * s1.extentX) / s2.extentX⌋, ?_, ?_, ?_⟩
    · unfold remainder at hky
      push_cast
      constructor <;> linarith [hky.1, hky.2]
    · unfold remainder at hlx
      push_cast
      constructor <;> linarith [hlx.1, hlx.2]
    · rw [g3, hpv i (by omega) j (by omega), hz]

theorem trunc_int (n : ℤ) : trunc (n : ℝ) = n := by
  unfold trunc
  split <;> simp

/-- Everything about one direction of the overlap, for an off set of `a` and a second surface of `m` grid spacings. -/
theorem overlap (n : Nat) (a m : ℤ) (gs : ℝ) (hgs : 0 < gs) (hn : 0 < n) (hm : (n : ℤ) ≤ m) (h1 : -a < n) (h2 : a < m) :
    let p0 : ℝ := max (-((a : ℝ) * gs)) 0
    let p1 : ℝ := min (gs * n) ((m : ℝ) * gs - a * gs)
    let i0 : Nat := (-a).toNat
    let len : Nat := (min (n : ℤ) (m - a)).toNat - i0
    0 < len ∧ p0 = i0 * gs ∧ arangeLength p0 p1 gs = len ∧ pySlice n (trunc (p0 / gs)) (trunc (p1 / gs)) = (i0, len) ∧
      i0 + len ≤ n ∧ ∀ i < len, 0 ≤ p0 + i * gs + a * gs ∧ p0 + i * gs + a * gs < m * gs := by
  intro p0 p1 i0 len
  have e0 : p0 = ((i0 : ℕ) : ℝ) * gs := by
    show max (-((a : ℝ) * gs)) 0 = _
    rcases le_total 0 a with ha | ha
    · have : i0 = 0 := by show (-a).toNat = 0; omega
      rw [this]
      have ha' : (0 : ℝ) ≤ a := by exact_mod_cast ha
      rw [max_eq_right (by nlinarith)]
      simp
    · have h : ((i0 : ℕ) : ℝ) = -(a : ℝ) := by
        have : ((i0 : ℕ) : ℤ) = -a := by show (((-a).toNat : ℕ) : ℤ) = -a; omega
        exact_mod_cast congrArg (fun z : ℤ => (z : ℝ)) this
      rw [h]
      have ha' : (a : ℝ) ≤ 0 := by exact_mod_cast ha
      rw [max_eq_left (by nlinarith)]
      ring
  have e1 : p1 = ((min (n : ℤ) (m - a) : ℤ) : ℝ) * gs := by
    show min (gs * n) ((m : ℝ) * gs - a * gs) = _
    rw [Int.cast_min]
    push_cast
    rw [min_mul_of_nonneg _ _ hgs.le]
    congr 1 <;> ring
  have hM : 0 ≤ min (n : ℤ) (m - a) := by omega
  have hlen : 0 < len := by
    show 0 < (min (n : ℤ) (m - a)).toNat - (-a).toNat
    omega
  have hlenZ : ((len : ℕ) : ℤ) = min (n : ℤ) (m - a) - i0 := by
    show (((min (n : ℤ) (m - a)).toNat - (-a).toNat : ℕ) : ℤ) = min (n : ℤ) (m - a) - ((-a).toNat : ℤ)
    omega
  have hlenR : ((len : ℕ) : ℝ) = ((min (n : ℤ) (m - a) : ℤ) : ℝ) - ((i0 : ℕ) : ℝ) := by
    exact_mod_cast congrArg (fun z : ℤ => (z : ℝ)) hlenZ
  have hi0n : i0 + len ≤ n := by
    show (-a).toNat + ((min (n : ℤ) (m - a)).toNat - (-a).toNat) ≤ n
    omega
  refine ⟨hlen, e0, ?_, ?_, hi0n, ?_⟩
  · unfold arangeLength
    rw [e0, e1]
    have : (((min (n : ℤ) (m - a) : ℤ) : ℝ) * gs - ((i0 : ℕ) : ℝ) * gs) / gs = ((len : ℤ) : ℝ) := by
      rw [show ((len : ℤ) : ℝ) = ((len : ℕ) : ℝ) by norm_cast, hlenR]
      field_simp
    rw [this, Int.ceil_intCast]
    simp
  · have t0 : trunc (p0 / gs) = (i0 : ℤ) := by
      rw [e0, mul_div_assoc, div_self hgs.ne', mul_one]
      exact_mod_cast trunc_int (i0 : ℤ)
    have t1 : trunc (p1 / gs) = min (n : ℤ) (m - a) := by
      rw [e1, mul_div_assoc, div_self hgs.ne', mul_one, trunc_int]
    rw [t0, t1]
    unfold pySlice
    dsimp only
    have f0 : (if (i0 : ℤ) < 0 then ((i0 : ℤ) + n).toNat else min (i0 : ℤ).toNat n) = i0 := by
      rw [if_neg (by omega)]
      simp only [Int.toNat_natCast]
      omega
    have f1 : (if min (n : ℤ) (m - a) < 0 then (min (n : ℤ) (m - a) + n).toNat else min (min (n : ℤ) (m - a)).toNat n) =
        (min (n : ℤ) (m - a)).toNat := by
      rw [if_neg (by omega)]
      omega
    rw [f0, f1]
  · intro i hi
    have hi' : ((i : ℕ) : ℝ) + 1 ≤ ((len : ℕ) : ℝ) := by exact_mod_cast hi
    have hi0 : (0 : ℝ) ≤ ((i : ℕ) : ℝ) := Nat.cast_nonneg i
    have hma : ((min (n : ℤ) (m - a) : ℤ) : ℝ) ≤ (m : ℝ) - a := by
      have : min (n : ℤ) (m - a) ≤ m - a := min_le_right _ _
      exact_mod_cast this
    have hi0a : -(a : ℝ) ≤ ((i0 : ℕ) : ℝ) := by
      have : -a ≤ ((i0 : ℕ) : ℤ) := by show -a ≤ ((-a).toNat : ℤ); omega
      exact_mod_cast this
    rw [e0]
    constructor
    · nlinarith
    · rw [hlenR] at hi'
      nlinarith

/-- **C26**: without periodicity, if the off set and the extent of the second surface are whole numbers of grid spacings of the first one,
which is not larger, and the surfaces overlap, the gap is found on the overlap. It is the difference of the first surface at its grid
points and the second surface at the same points **plus** the off set, up to a constant. -/
theorem C26_difference_overlap (s1 s2 : Disc) (d : ℝ) (a b m n : ℤ) (h1 : 0 < s1.gs) (h2 : 0 < s2.gs)
    (hr1 : 0 < s1.profile.rows) (hc1 : 0 < s1.profile.cols) (hm : s2.extentY = m * s1.gs) (hn : s2.extentX = n * s1.gs) (hmr : (s1.profile.rows : ℤ) ≤ m) (hnc : (s1.profile.cols : ℤ) ≤ n)
    (ha1 : -a < s1.profile.rows) (ha2 : a < m) (hb1 : -b < s1.profile.cols) (hb2 : b < n) :
    ∃ g, getGap (some s1) (.discrete s2 .nearest) d (a * s1.gs) (b * s1.gs) false = .ok g ∧
      g.rows = (min (s1.profile.rows : ℤ) (m - a)).toNat - (-a).toNat ∧ g.cols = (min (s1.profile.cols : ℤ) (n - b)).toNat - (-b).toNat ∧
      ∃ c, ∀ i < g.rows, ∀ j < g.cols, ∃ k < s2.profile.rows, ∃ l < s2.profile.cols,
        (k * s2.gs ≤ (((-a).toNat + i : ℕ) : ℝ) * s1.gs + a * s1.gs ∧ (((-a).toNat + i : ℕ) : ℝ) * s1.gs + a * s1.gs < (k + 1) * s2.gs) ∧
        (l * s2.gs ≤ (((-b).toNat + j : ℕ) : ℝ) * s1.gs + b * s1.gs ∧ (((-b).toNat + j : ℕ) : ℝ) * s1.gs + b * s1.gs < (l + 1) * s2.gs) ∧
        g.z i j = -s2.profile.z k l - s1.profile.z ((-a).toNat + i) ((-b).toNat + j) - c := by
  obtain ⟨y1, y2, y3, y4, y5, y6⟩ := overlap s1.profile.rows a m s1.gs h1 hr1 hmr ha1 ha2
  obtain ⟨x1, x2, x3, x4, x5, x6⟩ := overlap s1.profile.cols b n s1.gs h1 hc1 hnc hb1 hb2
  have hcond : ¬ (s2.extentY < s1.extentY ∨ s2.extentX < s1.extentX) := by
    have e1 : ((s1.profile.rows : ℕ) : ℝ) ≤ (m : ℝ) := by exact_mod_cast hmr
    have e2 : ((s1.profile.cols : ℕ) : ℝ) ≤ (n : ℝ) := by exact_mod_cast hnc
    rw [hm, hn, not_or, not_lt, not_lt]
    unfold Disc.extentY Disc.extentX
    constructor <;> nlinarith
  have hE : s1.extentY = s1.gs * s1.profile.rows := rfl
  have hE' : s1.extentX = s1.gs * s1.profile.cols := rfl
  unfold getGap
  dsimp only
  rw [if_neg (by simp), if_neg hcond, hE, hE', hm, hn, y3, x3, y4, x4]
  generalize hR : (min (s1.profile.rows : ℤ) (m - a)).toNat - (-a).toNat = R at *
  generalize hC : (min (s1.profile.cols : ℤ) (n - b)).toNat - (-b).toNat = C at *
  obtain ⟨q, hq, hqr, hqc, hval⟩ := interpolate_nearest s2 h2 R C y1 x1
    (fun i => max (-((a : ℝ) * s1.gs)) 0 + i * s1.gs + a * s1.gs) (fun j => max (-((b : ℝ) * s1.gs)) 0 + j * s1.gs + b * s1.gs)
    (by intro i hi; rw [hm]; exact y6 i hi) (by intro j hj; rw [hn]; exact x6 j hj)
  rw [hq]
  dsimp only
  obtain ⟨p, hp, hpr, hpc, hpv⟩ := negSub_same q ⟨R, C, fun i j => s1.profile.z ((-a).toNat + i) ((-b).toNat + j)⟩ hqr hqc
  rw [hp]
  dsimp only at hpr hpc hpv ⊢
  obtain ⟨g, hg⟩ := shift_ok p d (by omega) (by omega)
  obtain ⟨g1, g2, ⟨c, g3⟩, -⟩ := shift_spec _ _ _ hg
  refine ⟨g, ?_, by omega, by omega, c, ?_⟩
  · rw [if_neg ?_, hg]
    have : 0 < p.rows * p.cols := Nat.mul_pos (by omega) (by omega)
    omega
  · intro i hi j hj
    obtain ⟨k, hk, l, hl, hky, hlx, hz⟩ := hval i (by omega) j (by omega)
    refine ⟨k, hk, l, hl, ?_, ?_, ?_⟩
    · rw [y2] at hky
      push_cast
      constructor <;> linarith [hky.1, hky.2]
    · rw [x2] at hlx
      push_cast
      constructor <;> linarith [hlx.1, hlx.2]
    · rw [g3, hpv i (by omega) j (by omega), hz]

/-- A surface of four by four points, one apart, of any heights. -/
def exampleDisc (z : Nat → Nat → ℝ) : Disc := ⟨⟨4, 4, z⟩, 1⟩

example (z : Nat → Nat → ℝ) : (0 : ℝ) < (exampleDisc z).gs ∧ 0 < (exampleDisc z).profile.rows ∧ 0 < (exampleDisc z).profile.cols ∧
    (exampleDisc z).extentY = (4 : ℤ) * (exampleDisc z).gs ∧ ((exampleDisc z).profile.rows : ℤ) ≤ 4 ∧
    -(1 : ℤ) < (exampleDisc z).profile.rows ∧ (1 : ℤ) < 4 := by
  simp [exampleDisc, Disc.extentY]

/-- **C26, negation**: the two ways to find the gap disagree on the direction of the off set. With an off set of one grid spacing, point
`i` of the first surface is opposite point `i + 1` of the second one without periodicity and opposite point `i - 1` with periodicity. -/
theorem C26_off_set_sign_differs (N : Nat) (hN : 2 ≤ N) (hN' : N < 2 ^ 52) (z1 z2 : Nat → Nat → ℝ) (d : ℝ) :
    (∃ g c, getGap (some ⟨⟨N, N, z1⟩, 1⟩) (.discrete ⟨⟨N, N, z2⟩, 1⟩ .nearest) d 1 0 false = .ok g ∧
      ∀ i < N - 1, ∀ j < N, g.z i j = -z2 (i + 1) j - z1 i j - c) ∧
    (∃ g c, getGap (some ⟨⟨N, N, z1⟩, 1⟩) (.discrete ⟨⟨N, N, z2⟩, 1⟩ .nearest) d 1 0 true = .ok g ∧
      ∀ i < N - 1, ∀ j < N, g.z (i + 1) j = -z2 i j - z1 (i + 1) j - c) := by
  constructor
  · obtain ⟨g, hg, hr, hc, c, hv⟩ := C26_difference_overlap ⟨⟨N, N, z1⟩, 1⟩ ⟨⟨N, N, z2⟩, 1⟩ d 1 0 N N one_pos one_pos
      (by dsimp only; omega) (by dsimp only; omega) (by simp [Disc.extentY]) (by simp [Disc.extentX]) le_rfl le_rfl (by simp; omega) (by omega) (by simp; omega) (by omega)
    refine ⟨g, c, by simpa using hg, ?_⟩
    intro i hi j hj
    dsimp only at hr hc hv
    obtain ⟨k, hk, l, hl, hky, hlx, hz⟩ := hv i (by omega) j (by omega)
    simp only [Int.reduceNeg, Int.toNat_of_nonpos (by omega : (-1 : ℤ) ≤ 0), Nat.zero_add, mul_one, Int.cast_one, neg_zero, Int.toNat_zero,
      Int.cast_zero, add_zero] at hky hlx hz
    have ek : k = i + 1 := by
      have e1 : k ≤ i + 1 := by exact_mod_cast hky.1
      have e2 : i + 1 < k + 1 := by exact_mod_cast hky.2
      omega
    have el : l = j := by
      have e1 : l ≤ j := by exact_mod_cast hlx.1
      have e2 : j < l + 1 := by exact_mod_cast hlx.2
      omega
    rw [hz, ek, el]
  · obtain ⟨g, hg, hr, hc, c, hv⟩ := C26_difference_periodic ⟨⟨N, N, z1⟩, 1⟩ ⟨⟨N, N, z2⟩, 1⟩ d 1 0 one_pos one_pos
      (by dsimp only; omega) (by dsimp only; omega) (by dsimp only; omega) (by dsimp only; omega)
    refine ⟨g, c, hg, ?_⟩
    intro i hi j hj
    dsimp only at hr hc hv
    obtain ⟨k, hk, l, hl, m, n, hky, hlx, hz⟩ := hv (i + 1) (by omega) j (by omega)
    simp only [Disc.extentY, Disc.extentX, mul_one, one_mul, sub_zero] at hky hlx
    have he : 0 ≤ eps * N ∧ eps * N < 1 := by
      unfold eps
      have h52 : (N : ℝ) < 2 ^ 52 := by exact_mod_cast hN'
      have h0 : (0 : ℝ) ≤ N := Nat.cast_nonneg N
      constructor
      · positivity
      · rw [zpow_neg, inv_mul_lt_iff₀ (by positivity)]
        simpa using h52
    have ek : k = i := by
      push_cast at hky
      have e1 : (k : ℝ) < ((i + m * N + 1 : ℤ) : ℝ) := by push_cast; linarith [hky.1, he.2]
      have e2 : ((i + m * N : ℤ) : ℝ) < ((k + 1 : ℤ) : ℝ) := by push_cast; linarith [hky.2, he.1]
      have e1' : (k : ℤ) < i + m * N + 1 := by exact_mod_cast e1
      have e2' : (i : ℤ) + m * N < k + 1 := by exact_mod_cast e2
      have hm0 : m = 0 := by
        have hNp : (0 : ℤ) < N := by omega
        rcases lt_trichotomy m 0 with h | h | h
        · have : m * (N : ℤ) ≤ -1 * N := mul_le_mul_of_nonneg_right (by omega) hNp.le
          omega
        · exact h
        · have : 1 * (N : ℤ) ≤ m * N := mul_le_mul_of_nonneg_right (by omega) hNp.le
          omega
      rw [hm0] at e1' e2'
      omega
    have el : l = j := by
      have e1 : (l : ℝ) < ((j + n * N + 1 : ℤ) : ℝ) := by push_cast; linarith [hlx.1, he.2]
      have e2 : ((j + n * N : ℤ) : ℝ) < ((l + 1 : ℤ) : ℝ) := by push_cast; linarith [hlx.2, he.1]
      have e1' : (l : ℤ) < j + n * N + 1 := by exact_mod_cast e1
      have e2' : (j : ℤ) + n * N < l + 1 := by exact_mod_cast e2
      have hn0 : n = 0 := by
        have hNp : (0 : ℤ) < N := by omega
        rcases lt_trichotomy n 0 with h | h | h
        · have : n * (N : ℤ) ≤ -1 * N := mul_le_mul_of_nonneg_right (by omega) hNp.le
          omega
        · exact h
        · have : 1 * (N : ℤ) ≤ n * N := mul_le_mul_of_nonneg_right (by omega) hNp.le
          omega
      rw [hn0] at e1' e2'
      omega
    rw [hz, ek, el]

example := C26_off_set_sign_differs 4 (by norm_num) (by norm_num) (fun i j => i + j) (fun i j => i * j) 1

/-- A gap is returned, as assumed in `C26_minimum_is_minus_interference` and `C26_first_touch_at_zero`; the hypotheses of `C26_difference_analytic`
and `C26_difference_periodic`. -/
example : (∃ g, getGap (some ⟨⟨3, 4, fun i j => i * j⟩, 1⟩) (.analytic fun y x => y + x) 0 1 2 false = .ok g) ∧
    ∃ g, getGap (some ⟨⟨3, 4, fun i j => i * j⟩, 1⟩) (.discrete ⟨⟨2, 2, fun i j => i + j⟩, 2⟩ .nearest) 0 1 2 true = .ok g := by
  obtain ⟨g, h, -⟩ := C26_difference_analytic ⟨⟨3, 4, fun i j => i * j⟩, 1⟩ (fun y x => y + x) 0 1 2 false (by norm_num) (by norm_num)
  obtain ⟨g', h', -⟩ := C26_difference_periodic ⟨⟨3, 4, fun i j => i * j⟩, 1⟩ ⟨⟨2, 2, fun i j => i + j⟩, 2⟩ 0 1 2 (by norm_num) (by norm_num) (by norm_num)
    (by norm_num) (by norm_num) (by norm_num)
  exact ⟨⟨g, h⟩, g', h'⟩

/-- **C26, negation**: without periodicity an off set of half a grid spacing makes the shapes differ, although the surfaces overlap. -/
theorem C26_fractional_off_set_fails (z1 z2 : Nat → Nat → ℝ) (d : ℝ) :
    getGap (some (exampleDisc z1)) (.discrete (exampleDisc z2) .nearest) d (1 / 2) 0 false = .error .valueError := by
  have hy : arangeLength (max (-(1 / 2)) 0) (min (4 : ℝ) (4 - 1 / 2)) 1 = 4 := by
    have : (⌈(7 / 2 : ℝ)⌉) = 4 := by rw [Int.ceil_eq_iff]; norm_num
    norm_num [arangeLength, this]
    rfl
  have hx : arangeLength (max (-0) 0) (min (4 : ℝ) (4 - 0)) 1 = 4 := by
    norm_num [arangeLength]
    rfl
  have ty : pySlice 4 (trunc (max (-(1 / 2)) 0 / 1)) (trunc (min (4 : ℝ) (4 - 1 / 2) / 1)) = (0, 3) := by
    have h3 : trunc (min (4 : ℝ) (4 - 1 / 2) / 1) = 3 := by
      have : (⌊(7 / 2 : ℝ)⌋) = 3 := by rw [Int.floor_eq_iff]; norm_num
      unfold trunc
      norm_num [this]
    have h0 : trunc (max (-(1 / 2) : ℝ) 0 / 1) = 0 := by unfold trunc; norm_num
    rw [h0, h3]
    rfl
  have hE : ∀ z, (exampleDisc z).extentY = 4 ∧ (exampleDisc z).extentX = 4 := by
    intro z; simp [exampleDisc, Disc.extentY, Disc.extentX]
  obtain ⟨q, hq, hqr, hqc, -⟩ := interpolate_nearest (exampleDisc z2) one_pos 4 4 (by norm_num) (by norm_num)
    (fun i => max (-(1 / 2)) 0 + i * 1 + 1 / 2) (fun j => max (-0) 0 + j * 1 + 0)
    (by
      intro i hi
      have : (i : ℝ) ≤ 3 := by exact_mod_cast (by omega : i ≤ 3)
      have h0 : (0 : ℝ) ≤ i := Nat.cast_nonneg i
      rw [(hE z2).1, max_eq_right (by norm_num)]
      constructor <;> linarith)
    (by
      intro i hi
      have : (i : ℝ) ≤ 3 := by exact_mod_cast (by omega : i ≤ 3)
      have h0 : (0 : ℝ) ≤ i := Nat.cast_nonneg i
      rw [(hE z2).2]
      simp only [neg_zero, max_self]
      constructor <;> linarith)
  have ty' : pySlice (exampleDisc z1).profile.rows (trunc (max (-(1 / 2)) 0 / (exampleDisc z1).gs))
    (trunc (min (4 : ℝ) (4 - 1 / 2) / (exampleDisc z1).gs)) = (0, 3) := ty
  have hy' : arangeLength (max (-(1 / 2)) 0) (min (4 : ℝ) (4 - 1 / 2)) (exampleDisc z1).gs = 4 := hy
  have hx' : arangeLength (max (-0) 0) (min (4 : ℝ) (4 - 0)) (exampleDisc z1).gs = 4 := hx
  have hq' : interpolate (exampleDisc z2) .nearest 4 4 (fun i => max (-(1 / 2)) 0 + i * (exampleDisc z1).gs + 1 / 2)
    (fun j => max (-0) 0 + j * (exampleDisc z1).gs + 0) = .ok q := hq
  unfold getGap
  dsimp only
  rw [if_neg (by simp), if_neg (by rw [(hE z1).1, (hE z1).2, (hE z2).1, (hE z2).2]; norm_num), (hE z1).1, (hE z1).2, (hE z2).1, (hE z2).2,
    hy', hx', hq', ty']
  dsimp only
  unfold negSub
  simp [hqr, broadcast]

end Verif.Gap
