import Mathlib.Algebra.BigOperators.Ring.Finset
import Mathlib.Tactic.Ring
import Mathlib.Tactic.NormNum
import Verif.Jacobian.Model

/-!
# Property C124: influence matrices and Jacobian of a material
-/

namespace Verif.Jacobian

open Verif

variable {K : Type}

/-! ## Specification -/

/-- The influence coefficient of an offset: the entry that many places from the middle, zero outside. -/
def coeff [Zero K] (a : Mat K) (d0 d1 : ℤ) : K :=
  if 0 ≤ (a.rows / 2 : ℕ) + d0 ∧ (a.rows / 2 : ℕ) + d0 < a.rows ∧ 0 ≤ (a.cols / 2 : ℕ) + d1 ∧ (a.cols / 2 : ℕ) + d1 < a.cols then
    a.val ((a.rows / 2 : ℕ) + d0).toNat ((a.cols / 2 : ℕ) + d1).toNat
  else 0

/-- The offset of least size that is the same on a periodic axis of `s` points. -/
def wrap (s : ℕ) (d : ℤ) : ℤ := if d % s ≤ (s / 2 : ℕ) then d % s else d % s - s

/-! ## The Jacobian -/

/-- C124: the entries of the Jacobian of a surface that is not periodic, for influence matrices of all sizes: row `(n, m)` holds the coefficients of the offsets from `(n, m)`. -/
theorem C124_plain [Zero K] (a : Mat K) (s0 s1 n m k l : ℕ) (hn : n < s0) (hm : m < s1) (hk : k < s0) (hl : l < s1) :
    plain a s0 s1 n m k l = coeff a ((k : ℤ) - n) ((l : ℤ) - m) := by
  have key : ∀ (s i n k : ℕ), n < s → k < s →
      ((padOf s i).2 ≤ s - n + k ∧ s - n + k < (padOf s i).2 + (i - 2 * (padOf s i).1) ↔ 0 ≤ ((i / 2 : ℕ) : ℤ) + ((k : ℤ) - n) ∧ ((i / 2 : ℕ) : ℤ) + ((k : ℤ) - n) < i) ∧
      ((padOf s i).2 ≤ s - n + k → s - n + k - (padOf s i).2 + (padOf s i).1 = (((i / 2 : ℕ) : ℤ) + ((k : ℤ) - n)).toNat) := by
    intro s i n k hn hk
    unfold padOf
    dsimp only
    split_ifs with h
    · dsimp only
      refine ⟨⟨fun h' => by omega, fun h' => by omega⟩, fun h' => by omega⟩
    · dsimp only
      refine ⟨⟨fun h' => by omega, fun h' => by omega⟩, fun h' => by omega⟩
  obtain ⟨a1, a2⟩ := key s0 a.rows n k hn hk
  obtain ⟨b1, b2⟩ := key s1 a.cols m l hm hl
  unfold plain coeff pad trim
  dsimp only
  by_cases h : (0 ≤ ((a.rows / 2 : ℕ) : ℤ) + ((k : ℤ) - n) ∧ ((a.rows / 2 : ℕ) : ℤ) + ((k : ℤ) - n) < a.rows) ∧
      (0 ≤ ((a.cols / 2 : ℕ) : ℤ) + ((l : ℤ) - m) ∧ ((a.cols / 2 : ℕ) : ℤ) + ((l : ℤ) - m) < a.cols)
  · have ha := a1.2 h.1
    have hb := b1.2 h.2
    rw [if_pos ⟨ha.1, ha.2, hb.1, hb.2⟩, if_pos ⟨h.1.1, h.1.2, h.2.1, h.2.2⟩, a2 ha.1, b2 hb.1]
  · rw [if_neg (fun h' => h ⟨a1.1 ⟨h'.1, h'.2.1⟩, b1.1 h'.2.2⟩), if_neg (fun h' => h ⟨⟨h'.1, h'.2.1⟩, h'.2.2⟩)]

example := C124_plain (⟨3, 3, fun i j => (10 * i + j : ℤ)⟩) 2 3 0 1 1 2 (by decide) (by decide) (by decide) (by decide)

/-- C124: for a component that is the same for opposite offsets (`xx`, `yy`, `zz`, `xy`) the product of the Jacobian with the loads is the convolution with the influence matrix. -/
theorem C124_product_partial [CommRing K] (a : Mat K) (s0 s1 n m : ℕ) (hn : n < s0) (hm : m < s1) (hs : ∀ d0 d1, coeff a (-d0) (-d1) = coeff a d0 d1) (load : ℕ → ℕ → K) :
    ∑ k ∈ Finset.range s0, ∑ l ∈ Finset.range s1, plain a s0 s1 n m k l * load k l =
      ∑ k ∈ Finset.range s0, ∑ l ∈ Finset.range s1, coeff a ((n : ℤ) - k) ((m : ℤ) - l) * load k l := by
  refine Finset.sum_congr rfl fun k hk => Finset.sum_congr rfl fun l hl => ?_
  rw [C124_plain a s0 s1 n m k l hn hm (Finset.mem_range.1 hk) (Finset.mem_range.1 hl), ← hs, neg_sub, neg_sub]

/-- C124: for a component that changes sign for opposite offsets (`xz`, `yz`) it is minus the convolution. -/
theorem C124_sign_wrong [CommRing K] (a : Mat K) (s0 s1 n m : ℕ) (hn : n < s0) (hm : m < s1) (hs : ∀ d0 d1, coeff a (-d0) (-d1) = -coeff a d0 d1) (load : ℕ → ℕ → K) :
    ∑ k ∈ Finset.range s0, ∑ l ∈ Finset.range s1, plain a s0 s1 n m k l * load k l =
      -∑ k ∈ Finset.range s0, ∑ l ∈ Finset.range s1, coeff a ((n : ℤ) - k) ((m : ℤ) - l) * load k l := by
  rw [← Finset.sum_neg_distrib]
  refine Finset.sum_congr rfl fun k hk => ?_
  rw [← Finset.sum_neg_distrib]
  refine Finset.sum_congr rfl fun l hl => ?_
  rw [C124_plain a s0 s1 n m k l hn hm (Finset.mem_range.1 hk) (Finset.mem_range.1 hl), ← neg_mul, ← hs, neg_sub, neg_sub]

/-- C124: for periodic surfaces an even number of points in a direction is a `ValueError`, and so is an even size of an influence matrix larger than the surface. -/
theorem C124_periodic_refused [Zero K] (a : Mat K) (s0 s1 : ℕ) (h : s0 % 2 = 0 ∨ s1 % 2 = 0 ∨ (a.rows % 2 = 0 ∧ s0 < a.rows) ∨ (a.cols % 2 = 0 ∧ s1 < a.cols)) :
    periodic a s0 s1 = .error .valueError := by
  unfold periodic trim
  dsimp only
  split_ifs with h1 h2
  · rfl
  · exfalso; omega
  · rfl

/-- An even grid, and an even matrix larger than the grid. -/
example := And.intro (C124_periodic_refused (⟨3, 3, fun i j => (10 * i + j : ℤ)⟩) 4 3 (by decide)) (C124_periodic_refused (⟨6, 3, fun i j => (10 * i + j : ℤ)⟩) 5 3 (by decide))

lemma entry_periodic [Zero K] (a : Mat K) (s0 s1 : ℕ) (h0 : s0 % 2 = 1) (h1 : s1 % 2 = 1) (ha0 : a.rows % 2 = 1 ∨ a.rows ≤ s0) (ha1 : a.cols % 2 = 1 ∨ a.cols ≤ s1) (i j : ℕ) (hi : i < s0) (hj : j < s1) :
    (roll (pad (trim a ((a.rows - s0) / 2) ((a.cols - s1) / 2)) 0 (s0 - (a.rows - 2 * ((a.rows - s0) / 2))) 0 (s1 - (a.cols - 2 * ((a.cols - s1) / 2))))
      ((a.rows - 2 * ((a.rows - s0) / 2)) / 2) ((a.cols - 2 * ((a.cols - s1) / 2)) / 2)).val i j = coeff a (wrap s0 i) (wrap s1 j) := by
  have key : ∀ (s r i : ℕ), s % 2 = 1 → (r % 2 = 1 ∨ r ≤ s) → i < s →
      ((i + (r - 2 * ((r - s) / 2)) / 2) % (0 + (r - 2 * ((r - s) / 2)) + (s - (r - 2 * ((r - s) / 2)))) < r - 2 * ((r - s) / 2) ↔ 0 ≤ ((r / 2 : ℕ) : ℤ) + wrap s i ∧ ((r / 2 : ℕ) : ℤ) + wrap s i < r) ∧
      ((i + (r - 2 * ((r - s) / 2)) / 2) % (0 + (r - 2 * ((r - s) / 2)) + (s - (r - 2 * ((r - s) / 2)))) < r - 2 * ((r - s) / 2) →
        (i + (r - 2 * ((r - s) / 2)) / 2) % (0 + (r - 2 * ((r - s) / 2)) + (s - (r - 2 * ((r - s) / 2)))) + (r - s) / 2 = (((r / 2 : ℕ) : ℤ) + wrap s i).toNat) := by
    intro s r i hs hr hi
    have hw : wrap s i = if (i : ℤ) ≤ (s / 2 : ℕ) then (i : ℤ) else i - s := by
      unfold wrap
      rw [Int.emod_eq_of_lt (by omega) (by omega)]
    have hT : 0 + (r - 2 * ((r - s) / 2)) + (s - (r - 2 * ((r - s) / 2))) = s := by omega
    rw [hT, hw]
    generalize hTT : r - 2 * ((r - s) / 2) = T at *
    have hmod : (i + T / 2) % s = if i + T / 2 < s then i + T / 2 else i + T / 2 - s := by
      split_ifs with h
      · exact Nat.mod_eq_of_lt h
      · rw [Nat.mod_eq_sub_mod (by omega), Nat.mod_eq_of_lt (by omega)]
    rw [hmod]
    split_ifs <;> refine ⟨⟨fun h' => by omega, fun h' => by omega⟩, fun h' => by omega⟩
  obtain ⟨a1, a2⟩ := key s0 a.rows i h0 ha0 hi
  obtain ⟨b1, b2⟩ := key s1 a.cols j h1 ha1 hj
  unfold roll pad trim coeff
  dsimp only
  generalize e0 : (i + (a.rows - 2 * ((a.rows - s0) / 2)) / 2) % (0 + (a.rows - 2 * ((a.rows - s0) / 2)) + (s0 - (a.rows - 2 * ((a.rows - s0) / 2)))) = x at *
  generalize e1 : (j + (a.cols - 2 * ((a.cols - s1) / 2)) / 2) % (0 + (a.cols - 2 * ((a.cols - s1) / 2)) + (s1 - (a.cols - 2 * ((a.cols - s1) / 2)))) = y at *
  by_cases h : x < a.rows - 2 * ((a.rows - s0) / 2) ∧ y < a.cols - 2 * ((a.cols - s1) / 2)
  · have ha := a1.1 h.1
    have hb := b1.1 h.2
    rw [if_pos ⟨by omega, by omega, by omega, by omega⟩, if_pos ⟨ha.1, ha.2, hb.1, hb.2⟩, ← a2 h.1, ← b2 h.2]
    simp
  · rw [if_neg (fun h' => h ⟨by omega, by omega⟩), if_neg (fun h' => h ⟨a1.2 ⟨h'.1, h'.2.1⟩, b1.2 h'.2.2⟩)]

lemma wrap_mod (s : ℕ) (d : ℤ) : wrap s (d % s) = wrap s d := by
  unfold wrap
  rw [Int.emod_emod_of_dvd _ (dvd_refl _)]

/-- C124: the entries of the Jacobian of a periodic surface. A row is made by rolling the flattened matrix, so that where the second offset is negative the coefficient is that of the row before. -/
theorem C124_periodic [Zero K] (a : Mat K) (s0 s1 : ℕ) (h0 : s0 % 2 = 1) (h1 : s1 % 2 = 1) (ha0 : a.rows % 2 = 1 ∨ a.rows ≤ s0) (ha1 : a.cols % 2 = 1 ∨ a.cols ≤ s1) :
    ∃ J, periodic a s0 s1 = .ok J ∧ ∀ n m k l, n < s0 → m < s1 → k < s0 → l < s1 →
      J (n * s1 + m) (k * s1 + l) = coeff a (wrap s0 (if m ≤ l then (k : ℤ) - n else (k : ℤ) - n - 1)) (wrap s1 ((l : ℤ) - m)) := by
  refine ⟨fun p q => coeff a (wrap s0 (((q + (s0 * s1 - p)) % (s0 * s1)) / s1 : ℕ)) (wrap s1 (((q + (s0 * s1 - p)) % (s0 * s1)) % s1 : ℕ)), ?_, ?_⟩
  · unfold periodic
    rw [if_neg (by simp [h0, h1])]
    dsimp only
    have hr : (trim a ((a.rows - s0) / 2) ((a.cols - s1) / 2)).rows = a.rows - 2 * ((a.rows - s0) / 2) := rfl
    have hc : (trim a ((a.rows - s0) / 2) ((a.cols - s1) / 2)).cols = a.cols - 2 * ((a.cols - s1) / 2) := rfl
    rw [hr, hc, if_neg (by omega)]
    congr 1
    funext p q
    have hN : 0 < s0 * s1 := Nat.mul_pos (by omega) (by omega)
    have hx : (q + (s0 * s1 - p)) % (s0 * s1) < s0 * s1 := Nat.mod_lt _ hN
    exact entry_periodic a s0 s1 h0 h1 ha0 ha1 _ _ (Nat.div_lt_of_lt_mul (lt_of_lt_of_eq hx (mul_comm _ _))) (Nat.mod_lt _ (by omega))
  · intro n m k l hn hm hk hl
    dsimp only
    have hp : n * s1 + m < s0 * s1 := by
      calc n * s1 + m < n * s1 + s1 := by omega
        _ = (n + 1) * s1 := by ring
        _ ≤ s0 * s1 := Nat.mul_le_mul_right _ hn
    have hs1 : 0 < s1 := by omega
    have hs0 : 0 < s0 := by omega
    set d0 : ℤ := if m ≤ l then (k : ℤ) - n else (k : ℤ) - n - 1 with hd0
    set x : ℕ := (d0 % s0).toNat with hx
    set y : ℕ := (((l : ℤ) - m) % s1).toNat with hy
    have hx' : (x : ℤ) = d0 % s0 := Int.toNat_of_nonneg (Int.emod_nonneg _ (by omega))
    have hy' : (y : ℤ) = ((l : ℤ) - m) % s1 := Int.toNat_of_nonneg (Int.emod_nonneg _ (by omega))
    have hxl : x < s0 := by have := Int.emod_lt_of_pos d0 (show (0 : ℤ) < s0 by omega); omega
    have hyl : y < s1 := by have := Int.emod_lt_of_pos ((l : ℤ) - m) (show (0 : ℤ) < s1 by omega); omega
    have hyv : (y : ℤ) = if m ≤ l then (l : ℤ) - m else (l : ℤ) - m + s1 := by
      rw [hy']
      split_ifs with h
      · exact Int.emod_eq_of_lt (by omega) (by omega)
      · rw [← Int.add_emod_right, Int.emod_eq_of_lt (by omega) (by omega)]
    have hidx : (k * s1 + l + (s0 * s1 - (n * s1 + m))) % (s0 * s1) = x * s1 + y := by
      have hlt : x * s1 + y < s0 * s1 := by
        calc x * s1 + y < x * s1 + s1 := by omega
          _ = (x + 1) * s1 := by ring
          _ ≤ s0 * s1 := Nat.mul_le_mul_right _ hxl
      have hA : ((k * s1 + l + (s0 * s1 - (n * s1 + m)) : ℕ) : ℤ) = ((x * s1 + y : ℕ) : ℤ) + ((s0 * s1 : ℕ) : ℤ) * (d0 / s0 + 1) := by
        have hd : d0 = x + s0 * (d0 / s0) := by rw [hx']; exact (Int.emod_add_mul_ediv d0 s0).symm
        have hq : ((k : ℤ) - n) * s1 + (l - m) = d0 * s1 + y := by
          rw [hyv, hd0]
          split_ifs <;> ring
        rw [Nat.cast_add, Nat.cast_sub hp.le]
        push_cast
        calc (k : ℤ) * s1 + l + (s0 * s1 - (n * s1 + m)) = (((k : ℤ) - n) * s1 + (l - m)) + s0 * s1 := by ring
          _ = d0 * s1 + y + s0 * s1 := by rw [hq]
          _ = (x + s0 * (d0 / s0)) * s1 + y + s0 * s1 := by rw [← hd]
          _ = _ := by ring
      have : ((k * s1 + l + (s0 * s1 - (n * s1 + m)) : ℕ) : ℤ) % ((s0 * s1 : ℕ) : ℤ) = ((x * s1 + y : ℕ) : ℤ) := by
        rw [hA, Int.add_mul_emod_self_left]
        exact Int.emod_eq_of_lt (by omega) (by exact_mod_cast hlt)
      exact_mod_cast this
    have hdiv : (x * s1 + y) / s1 = x := by
      rw [mul_comm, Nat.mul_add_div hs1, Nat.div_eq_of_lt hyl, add_zero]
    have hmod : (x * s1 + y) % s1 = y := by
      rw [mul_comm, Nat.mul_add_mod, Nat.mod_eq_of_lt hyl]
    rw [hidx, hdiv, hmod, hx', hy', wrap_mod, wrap_mod]

/-- C124: for a column that is not before that of the row this is the coefficient of the periodic surface. -/
theorem C124_periodic_partial [Zero K] (a : Mat K) (s0 s1 : ℕ) (h0 : s0 % 2 = 1) (h1 : s1 % 2 = 1) (ha0 : a.rows % 2 = 1 ∨ a.rows ≤ s0) (ha1 : a.cols % 2 = 1 ∨ a.cols ≤ s1) :
    ∃ J, periodic a s0 s1 = .ok J ∧ ∀ n m k l, n < s0 → m ≤ l → k < s0 → l < s1 → J (n * s1 + m) (k * s1 + l) = coeff a (wrap s0 ((k : ℤ) - n)) (wrap s1 ((l : ℤ) - m)) := by
  obtain ⟨J, hJ, h⟩ := C124_periodic a s0 s1 h0 h1 ha0 ha1
  refine ⟨J, hJ, fun n m k l hn hm hk hl => ?_⟩
  rw [h n m k l hn (by omega) hk hl, if_pos hm]

example := C124_periodic_partial (⟨3, 4, fun i j => (10 * i + j : ℤ)⟩) 3 5 rfl rfl (by decide) (by decide)

/-- An influence matrix with a single coefficient, for the offset to the left. -/
def left : Mat ℤ := ⟨3, 3, fun i j => if i = 1 ∧ j = 0 then 1 else 0⟩

/-- C124: for the others it is not: with a single coefficient, for the offset `(0, -1)`, the point `(0, 0)` on the left of `(0, 1)` has the entry zero, and the point in the next row has the coefficient, on every periodic surface of at least 3 x 3 points. -/
theorem C124_periodic_wrong (s0 s1 : ℕ) (h0 : s0 % 2 = 1) (h1 : s1 % 2 = 1) (g0 : 3 ≤ s0) (g1 : 3 ≤ s1) :
    ∃ J, periodic left s0 s1 = .ok J ∧ J (0 * s1 + 1) (0 * s1 + 0) = 0 ∧ J (0 * s1 + 1) (1 * s1 + 0) = 1 ∧ coeff left (wrap s0 0) (wrap s1 (-1)) = 1 ∧ coeff left (wrap s0 1) (wrap s1 (-1)) = 0 := by
  obtain ⟨J, hJ, h⟩ := C124_periodic left s0 s1 h0 h1 (.inl rfl) (.inl rfl)
  have w : ∀ s : ℕ, 3 ≤ s → s % 2 = 1 → wrap s 0 = 0 ∧ wrap s 1 = 1 ∧ wrap s (-1) = -1 := by
    intro s hs ho
    refine ⟨?_, ?_, ?_⟩
    · unfold wrap; rw [Int.zero_emod, if_pos (by omega)]
    · unfold wrap; rw [Int.emod_eq_of_lt (by omega) (by omega), if_pos (by omega)]
    · have : (-1 : ℤ) % s = s - 1 := by rw [← Int.add_emod_right, Int.emod_eq_of_lt (by omega) (by omega)]; ring
      unfold wrap; rw [this, if_neg (by omega)]; ring
  obtain ⟨a0, a1, a2⟩ := w s0 g0 h0
  obtain ⟨-, -, b2⟩ := w s1 g1 h1
  refine ⟨J, hJ, ?_, ?_, ?_, ?_⟩
  · rw [h 0 1 0 0 (by omega) (by omega) (by omega) (by omega)]
    have e : (((0 : ℕ) : ℤ) - ((0 : ℕ) : ℤ) - 1) = -1 := by norm_num
    have e' : (((0 : ℕ) : ℤ) - ((1 : ℕ) : ℤ)) = -1 := by norm_num
    rw [if_neg (by omega), e, e', a2, b2]
    decide
  · rw [h 0 1 1 0 (by omega) (by omega) (by omega) (by omega)]
    have e : (((1 : ℕ) : ℤ) - ((0 : ℕ) : ℤ) - 1) = 0 := by norm_num
    have e' : (((0 : ℕ) : ℤ) - ((1 : ℕ) : ℤ)) = -1 := by norm_num
    rw [if_neg (by omega), e, e', a0, b2]
    decide
  · rw [a0, b2]; decide
  · rw [a1, b2]; decide

example := C124_periodic_wrong 3 5 rfl rfl (by decide) (by decide)

/-! ## The influence matrices -/

lemma mem_toDict {M : Type} (f : String → M) (l : List String) (c : String) (v : M) : (c, v) ∈ toDict f l ↔ c ∈ l ∧ v = f c := by
  induction l with
  | nil => simp [toDict]
  | cons d ds ih =>
    simp only [toDict, List.mem_cons, Prod.mk.injEq, List.mem_filter, ih, ne_eq, decide_eq_true_eq]
    constructor
    · rintro (⟨rfl, rfl⟩ | ⟨⟨h1, h2⟩, h3⟩)
      · exact ⟨.inl rfl, rfl⟩
      · exact ⟨.inr h1, h2⟩
    · rintro ⟨h | h, rfl⟩
      · subst h; exact .inl ⟨rfl, rfl⟩
      · by_cases e : c = d
        · subst e; exact .inl ⟨rfl, rfl⟩
        · exact .inr ⟨⟨h, rfl⟩, e⟩

/-- C124: for a sequence of names of components, or 'all', the influence matrices of an elastic material are those of the names, each once; a second material must be elastic or rigid. -/
theorem C124_elastic {M : Type} (im : String → M) (other : Other) (ho : other ≠ .unknown) :
    (∀ l : List String, (∀ c ∈ l, c ∈ nine) → ∃ d, elasticInfluence im other (.names l) = .ok d ∧ ∀ c v, (c, v) ∈ d ↔ c ∈ l ∧ v = some (im c)) ∧
    (∃ d, elasticInfluence im other (.text "all") = .ok d ∧ ∀ c v, (c, v) ∈ d ↔ c ∈ nine ∧ v = some (im c)) ∧
    (∀ c, elasticInfluence im .unknown c = .error .notImplementedError) := by
  have key : ∀ l : List String, (∀ c ∈ l, c ∈ nine) → ∀ c v, (c, v) ∈ toDict (elasticComp im) l ↔ c ∈ l ∧ v = some (im c) := by
    intro l hl c v
    rw [mem_toDict]
    constructor
    · rintro ⟨h, rfl⟩; exact ⟨h, by unfold elasticComp; rw [if_pos (hl c h)]⟩
    · rintro ⟨h, rfl⟩; exact ⟨h, by unfold elasticComp; rw [if_pos (hl c h)]⟩
  refine ⟨fun l hl => ⟨toDict (elasticComp im) l, by cases other <;> first | rfl | exact absurd rfl ho, key l hl⟩,
    ⟨toDict (elasticComp im) nine, by cases other <;> first | rfl | exact absurd rfl ho, key nine fun _ h => h⟩, fun c => rfl⟩

example := C124_elastic String.length .rigid (by simp)

/-- C124: one component given as a text, as the documentation allows, gives entries for its letters only, all of them `None`. -/
theorem C124_text_wrong {M : Type} (im : String → M) (other : Other) (ho : other ≠ .unknown) (s : String) (hs : s ≠ "all") :
    ∃ d, elasticInfluence im other (.text s) = .ok d ∧ (∀ c v, (c, v) ∈ d → v = none ∧ c.length = 1) := by
  refine ⟨toDict (elasticComp im) (Comps.text s).items, ?_, ?_⟩
  · unfold elasticInfluence
    cases other with
    | unknown => exact absurd rfl ho
    | absent => dsimp only; split <;> [skip; rfl]; rename_i h; injection h with h; exact absurd h hs
    | elastic => dsimp only; split <;> [skip; rfl]; rename_i h; injection h with h; exact absurd h hs
    | rigid => dsimp only; split <;> [skip; rfl]; rename_i h; injection h with h; exact absurd h hs
  · intro c v h
    rw [mem_toDict] at h
    obtain ⟨h, rfl⟩ := h
    obtain ⟨x, -, rfl⟩ := List.mem_map.1 h
    have hl : (String.ofList [x]).length = 1 := by simp
    refine ⟨?_, hl⟩
    unfold elasticComp
    rw [if_neg]
    intro hm
    have : ∀ c ∈ nine, c.length = 2 := by decide +kernel
    rw [this _ hm] at hl
    omega

example := C124_text_wrong String.length .rigid (by simp) "zz" (by decide)

/-- C124: for a rigid material 'all' gives entries for the letters of the word, and for no component. -/
theorem C124_rigid_wrong {M : Type} (zeros : M) : (rigidInfluence zeros (.text "all")).map Prod.fst = ["a", "l"] ∧ ∀ l : List String, ∀ c v, (c, v) ∈ rigidInfluence zeros (.names l) ↔ c ∈ l ∧ v = zeros := by
  refine ⟨?_, fun l c v => mem_toDict _ _ _ _⟩
  have : (Comps.text "all").items = ["a", "l", "l"] := by decide +kernel
  unfold rigidInfluence
  rw [this]
  have h1 : ("l" : String) ≠ "a" := by decide +kernel
  simp [toDict, h1]

/-- Concrete cases: a symmetric and an antisymmetric matrix, of which the entries are used. -/
example : (plain (⟨3, 3, fun i j => (10 * i + j : ℤ)⟩) 2 2 0 0 1 1, plain (⟨3, 3, fun i j => (10 * i + j : ℤ)⟩) 2 2 1 1 0 0) = (22, 0) := by decide

/-- The symmetry of `C124_product_partial`. -/
example : ∀ d0 d1 : ℤ, coeff (⟨1, 1, fun _ _ => (5 : ℤ)⟩ : Mat ℤ) (-d0) (-d1) = coeff ⟨1, 1, fun _ _ => 5⟩ d0 d1 := by
  intro d0 d1
  unfold coeff
  dsimp only
  apply if_congr _ rfl rfl
  omega

/-- The antisymmetry of `C124_sign_wrong`. -/
example : ∀ d0 d1 : ℤ, coeff (⟨1, 3, fun _ j => (j : ℤ) - 1⟩ : Mat ℤ) (-d0) (-d1) = -coeff ⟨1, 3, fun _ j => (j : ℤ) - 1⟩ d0 d1 := by
  intro d0 d1
  unfold coeff
  dsimp only
  split_ifs <;> omega

end Verif.Jacobian
