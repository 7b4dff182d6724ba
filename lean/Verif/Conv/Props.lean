import Mathlib.Data.Int.ModEq
import Verif.Conv.Lemmas

/-!
# Properties C06-C09: planned convolution
-/

namespace Verif.Conv

open Finset

/-- The contract of `pyfftw.next_fast_len`: at least the argument. -/
def FastLen (nfl : ℕ → ℕ) : Prop := ∀ n, n ≤ nfl n

lemma axisLen_ok (nfl : ℕ → ℕ) (hn : FastLen nfl) (c : Bool) (L S : ℕ) (hL : 0 < L) (hc : c = true → L = S) :
    ∃ N, axisLen nfl c L S = .ok N ∧ LenOk c L S N ∧ N ≠ 0 := by
  cases c
  · refine ⟨2 * nfl (max L S), by simp [axisLen], ?_, ?_⟩
    · have := hn (max L S); simp only [LenOk, Bool.false_eq_true, if_false]; omega
    · have := hn (max L S); omega
  · have := hc rfl
    exact ⟨L, by simp [axisLen, this], by simp [LenOk, this], by omega⟩

lemma Means.flags {c : Circular} {c0 c1 : Bool} (h : Means c c0 c1) : c.flags = .ok (c0, c1) := by cases h <;> rfl

/-- C06/C07: for every way of giving the periodicity flags, all (non-empty) shapes, all loads and influence matrices, the
planned convolution succeeds and every entry is the superposition of all loads. -/
theorem C06_plan_is_superposition (nfl : ℕ → ℕ) (hn : FastLen nfl) (c : Circular) (c0 c1 : Bool) (hc : Means c c0 c1)
    (L0 L1 S0 S1 : ℕ) (hL0 : 0 < L0) (hL1 : 0 < L1) (hs0 : c0 = true → L0 = S0) (hs1 : c1 = true → L1 = S1)
    (im loads : ℕ → ℕ → ℝ) :
    ∃ out, planConvolve nfl c L0 L1 S0 S1 im loads = .ok out ∧
      ∀ i j, i < L0 → j < L1 → out i j = superpose c0 c1 L0 L1 S0 S1 im loads i j := by
  replace hc := hc.flags
  obtain ⟨N0, e0, k0, z0⟩ := axisLen_ok nfl hn c0 L0 S0 hL0 hs0
  obtain ⟨N1, e1, k1, z1⟩ := axisLen_ok nfl hn c1 L1 S1 hL1 hs1
  haveI : NeZero N0 := ⟨z0⟩
  haveI : NeZero N1 := ⟨z1⟩
  refine ⟨inner N0 N1 L0 L1 S0 S1 im loads, ?_, ?_⟩
  · simp [planConvolve, hc, e0, e1, z0, z1]
  · intro i j hi hj
    exact inner_eq_superpose c0 c1 L0 L1 S0 S1 N0 N1 k0 k1 im loads i j hi hj

/-- C06: on non-periodic axes every entry is the finite sum of load times coefficient; nothing wraps around. -/
theorem C06_no_wrap_around (nfl : ℕ → ℕ) (hn : FastLen nfl) (L0 L1 S0 S1 : ℕ) (hL0 : 0 < L0) (hL1 : 0 < L1)
    (im loads : ℕ → ℕ → ℝ) :
    ∃ out, planConvolve nfl (.int false) L0 L1 S0 S1 im loads = .ok out ∧
      ∀ i j, i < L0 → j < L1 → out i j = ∑ a ∈ range L0, ∑ b ∈ range L1, loads a b *
        readAt S0 S1 im ((i : ℤ) - a + ((S0 - 1) / 2 : ℕ)) ((j : ℤ) - b + ((S1 - 1) / 2 : ℕ)) := by
  obtain ⟨out, h1, h2⟩ := C06_plan_is_superposition nfl hn (.int false) false false (.same _) L0 L1 S0 S1 hL0 hL1
    (by simp) (by simp) im loads
  exact ⟨out, h1, fun i j hi hj => by rw [h2 i j hi hj]; rfl⟩

/-- Concrete instance of `C06_plan_is_superposition`: shapes (3, 2) and (4, 5) with the identity as `next_fast_len`; the hypotheses hold and a value is
computed: a single load of 2 at node (0, 1) acts on node (2, 0) with the coefficient at index (3, 1). -/
example : FastLen id ∧ superpose false false 3 2 4 5 (fun u v => 10 * u + v)
    (fun a b => if a = 0 ∧ b = 1 then 2 else 0) 2 0 = 2 * 31 := by
  refine ⟨fun n => le_rfl, ?_⟩
  have : Int.toNat 3 = 3 := rfl
  norm_num [superpose, position, readAt, sum_range_succ, this]

/-- C06: the two ways of writing the flags agree and anything else is rejected. -/
theorem C06_flags_checked (nfl : ℕ → ℕ) (L0 L1 S0 S1 : ℕ) (im loads : ℕ → ℕ → ℝ) :
    (∀ b, planConvolve nfl (.int b) L0 L1 S0 S1 im loads = planConvolve nfl (.seq [b, b]) L0 L1 S0 S1 im loads) ∧
    (∀ l : List Bool, l.length ≠ 2 → Raises (planConvolve nfl (.seq l) L0 L1 S0 S1 im loads) .valueError) ∧
    Raises (planConvolve nfl .other L0 L1 S0 S1 im loads) .typeError := by
  refine ⟨fun b => rfl, ?_, rfl⟩
  intro l hl
  match l, hl with
  | [], _ => rfl
  | [_], _ => rfl
  | [_, _], h => exact absurd rfl h
  | _ :: _ :: _ :: _, _ => rfl

/-- C07: a periodic axis with different sizes of loads and influence matrix is rejected. -/
theorem C07_unequal_sizes_rejected (nfl : ℕ → ℕ) (c : Circular) (c0 c1 : Bool) (hc : Means c c0 c1)
    (L0 L1 S0 S1 : ℕ) (im loads : ℕ → ℕ → ℝ) (h : (c0 = true ∧ L0 ≠ S0) ∨ (c1 = true ∧ L1 ≠ S1)) :
    Raises (planConvolve nfl c L0 L1 S0 S1 im loads) .assertionError := by
  replace hc := hc.flags
  unfold planConvolve Raises
  rw [hc]
  by_cases hfirst : c0 = true ∧ L0 ≠ S0
  · simp [axisLen, hfirst]
  · obtain ⟨rfl, h1⟩ := h.resolve_left hfirst
    cases c0
    · simp [axisLen, h1]
    · have : L0 = S0 := by by_contra h'; exact hfirst ⟨rfl, h'⟩
      simp [axisLen, h1, this]

example (im loads : ℕ → ℕ → ℝ) : Raises (planConvolve id (.seq [true, false]) 3 2 4 5 im loads) .assertionError :=
  C07_unequal_sizes_rejected id _ true false (.pair _ _) 3 2 4 5 im loads (Or.inl ⟨rfl, by decide⟩)

/-- C07: on two periodic axes every entry is the cyclic superposition. -/
theorem C07_cyclic_superposition (nfl : ℕ → ℕ) (hn : FastLen nfl) (n0 n1 : ℕ) (h0 : 0 < n0) (h1 : 0 < n1)
    (im loads : ℕ → ℕ → ℝ) :
    ∃ out, planConvolve nfl (.int true) n0 n1 n0 n1 im loads = .ok out ∧
      ∀ i j, i < n0 → j < n1 → out i j = ∑ a ∈ range n0, ∑ b ∈ range n1, loads a b *
        im (((i : ℤ) - a + ((n0 - 1) / 2 : ℕ)) % n0).toNat (((j : ℤ) - b + ((n1 - 1) / 2 : ℕ)) % n1).toNat := by
  obtain ⟨out, e1, e2⟩ := C06_plan_is_superposition nfl hn (.int true) true true (.same _) n0 n1 n0 n1 h0 h1
    (by simp) (by simp) im loads
  refine ⟨out, e1, fun i j hi hj => ?_⟩
  rw [e2 i j hi hj]
  unfold superpose
  refine sum_congr rfl fun a _ => sum_congr rfl fun b _ => ?_
  have p0 : (0 : ℤ) < n0 := by exact_mod_cast h0
  have p1 : (0 : ℤ) < n1 := by exact_mod_cast h1
  simp only [position, if_true, readAt]
  rw [if_pos ⟨Int.emod_nonneg _ p0.ne', Int.emod_lt_of_pos _ p0, Int.emod_nonneg _ p1.ne', Int.emod_lt_of_pos _ p1⟩]

example := C07_cyclic_superposition id (fun _ => le_rfl) 5 3 (by norm_num) (by norm_num) (fun u v => 10 * u + v) (fun a b => if a = 0 ∧ b = 1 then 2 else 0)

/-- Re-indexing a cyclic sum. -/
lemma sum_range_shift (n t : ℕ) (hn : 0 < n) (F : ℕ → ℝ) :
    ∑ a ∈ range n, F ((a + t) % n) = ∑ a ∈ range n, F a := by
  apply sum_bij (fun a _ => (a + t) % n)
  · intro a _; simp [Nat.mod_lt _ hn]
  · intro a ha b hb h
    simp only [mem_range] at ha hb
    have hmod : a ≡ b [MOD n] := Nat.ModEq.add_right_cancel' t h
    have := hmod
    unfold Nat.ModEq at this
    rwa [Nat.mod_eq_of_lt ha, Nat.mod_eq_of_lt hb] at this
  · intro b hb
    simp only [mem_range] at hb
    refine ⟨(b + (n - t % n)) % n, by simp [Nat.mod_lt _ hn], ?_⟩
    have ht : t % n < n := Nat.mod_lt _ hn
    rw [Nat.mod_add_mod, ← Nat.add_mod_mod]
    rw [show b + (n - t % n) + t % n = b + n by omega, Nat.add_mod_right, Nat.mod_eq_of_lt hb]
  · intro a _; rfl

/-- C07: shifting the loads cyclically along the first and second axis shifts the result by the same amounts. -/
theorem C07_shift_equivariant (nfl : ℕ → ℕ) (hn : FastLen nfl) (n0 n1 : ℕ) (h0 : 0 < n0) (h1 : 0 < n1) (t0 t1 : ℕ)
    (im loads : ℕ → ℕ → ℝ) :
    ∃ out out', planConvolve nfl (.int true) n0 n1 n0 n1 im loads = .ok out ∧
      planConvolve nfl (.int true) n0 n1 n0 n1 im (fun a b => loads ((a + t0) % n0) ((b + t1) % n1)) = .ok out' ∧
      ∀ i j, i < n0 → j < n1 → out' i j = out ((i + t0) % n0) ((j + t1) % n1) := by
  obtain ⟨out, e1, e2⟩ := C07_cyclic_superposition nfl hn n0 n1 h0 h1 im loads
  obtain ⟨out', f1, f2⟩ := C07_cyclic_superposition nfl hn n0 n1 h0 h1 im
    (fun a b => loads ((a + t0) % n0) ((b + t1) % n1))
  refine ⟨out, out', e1, f1, fun i j hi hj => ?_⟩
  rw [f2 i j hi hj, e2 _ _ (Nat.mod_lt _ h0) (Nat.mod_lt _ h1)]
  have key : ∀ (n t i a : ℕ) (s : ℤ), 0 < n →
      (((i : ℤ) - a + s) % n) = ((((i + t) % n : ℕ) : ℤ) - ((a + t) % n : ℕ) + s) % n := by
    intro n t i a s _
    push_cast
    have e1 : ((i : ℤ) + t) % n ≡ (i : ℤ) + t [ZMOD n] := Int.mod_modEq _ _
    have e2 : ((a : ℤ) + t) % n ≡ (a : ℤ) + t [ZMOD n] := Int.mod_modEq _ _
    have e3 := (e1.sub e2).add_right s
    have e4 : (i : ℤ) + t - (a + t) + s = i - a + s := by ring
    rw [e4] at e3
    exact e3.symm
  symm
  rw [← sum_range_shift n0 t0 h0]
  refine sum_congr rfl fun a _ => ?_
  rw [← sum_range_shift n1 t1 h1]
  refine sum_congr rfl fun b _ => ?_
  rw [key n0 t0 i a _ h0, key n1 t1 j b _ h1]

example : ((3 + 4) % 5, (0 + 2) % 3) = (2, 2) := rfl

/-- The position of a stored coefficient and the offset it was computed for differ by exactly the centring. -/
lemma offset_position (S : ℕ) (hS : 0 < S) (u : ℕ) : offset S u = (u : ℤ) - ((S - 1) / 2 : ℕ) := by
  unfold offset
  omega

/-- C08: with the matrix filled by `elastic_influence_matrix` for span `(S0, S1)`, a unit load at node `(a, b)` gives at
node `(i, j)` the coefficient of the offset `(j - b, i - a)` if that offset is stored, and zero otherwise. -/
theorem C08_unit_load (nfl : ℕ → ℕ) (hn : FastLen nfl) (L0 L1 S0 S1 : ℕ) (hS0 : 0 < S0) (hS1 : 0 < S1)
    (coef : ℤ → ℤ → ℝ) (a b : ℕ) (ha : a < L0) (hb : b < L1) :
    ∃ out, planConvolve nfl (.int false) L0 L1 S0 S1 (fillMatrix S0 S1 coef)
        (fun i j => if i = a ∧ j = b then 1 else 0) = .ok out ∧
      ∀ i j, i < L0 → j < L1 →
        out i j = if (∃ u < S0, offset S0 u = (i : ℤ) - a) ∧ (∃ v < S1, offset S1 v = (j : ℤ) - b)
          then coef ((j : ℤ) - b) ((i : ℤ) - a) else 0 := by
  obtain ⟨out, e1, e2⟩ := C06_no_wrap_around nfl hn L0 L1 S0 S1 (by omega) (by omega) (fillMatrix S0 S1 coef)
    (fun i j => if i = a ∧ j = b then 1 else 0)
  refine ⟨out, e1, fun i j hi hj => ?_⟩
  rw [e2 i j hi hj, sum_eq_single a, sum_eq_single b]
  · simp only [and_self, if_true, one_mul]
    have iff0 : ∀ (S i a : ℕ), 0 < S → ((∃ u < S, offset S u = (i : ℤ) - a) ↔
        (0 ≤ (i : ℤ) - a + ((S - 1) / 2 : ℕ) ∧ (i : ℤ) - a + ((S - 1) / 2 : ℕ) < S)) := by
      intro S i a hS
      constructor
      · rintro ⟨u, hu, h⟩; rw [offset_position S hS] at h; omega
      · rintro ⟨h1, h2⟩
        refine ⟨((i : ℤ) - a + ((S - 1) / 2 : ℕ)).toNat, by omega, ?_⟩
        rw [offset_position S hS]; omega
    unfold readAt
    by_cases hin : (∃ u < S0, offset S0 u = (i : ℤ) - a) ∧ (∃ v < S1, offset S1 v = (j : ℤ) - b)
    · rw [if_pos hin]
      have g0 := (iff0 S0 i a hS0).mp hin.1
      have g1 := (iff0 S1 j b hS1).mp hin.2
      rw [if_pos ⟨g0.1, g0.2, g1.1, g1.2⟩]
      unfold fillMatrix
      rw [offset_position S0 hS0, offset_position S1 hS1]
      congr 1 <;> omega
    · rw [if_neg hin, if_neg]
      rintro ⟨g1, g2, g3, g4⟩
      exact hin ⟨(iff0 S0 i a hS0).mpr ⟨g1, g2⟩, (iff0 S1 j b hS1).mpr ⟨g3, g4⟩⟩
  · intro b' _ hb'; simp [hb']
  · intro h; simp at h; omega
  · intro a' _ ha'
    apply sum_eq_zero
    intro b' _; simp [ha']
  · intro h; simp at h; omega

example := C08_unit_load id (fun _ => le_rfl) 4 4 8 7 (by norm_num) (by norm_num) (fun x y => 10 * x + y) 1 2 (by norm_num) (by norm_num)

/-- C08: with the span the steps use for non-periodic axes (at least twice the shape minus one) no offset is missing: the
response to a unit load is the coefficient of the offset for every pair of nodes. -/
theorem C08_unit_load_full_span (nfl : ℕ → ℕ) (hn : FastLen nfl) (L0 L1 S0 S1 : ℕ) (hS0 : 2 * L0 ≤ S0 + 1)
    (hS1 : 2 * L1 ≤ S1 + 1) (coef : ℤ → ℤ → ℝ) (a b : ℕ) (ha : a < L0) (hb : b < L1) :
    ∃ out, planConvolve nfl (.int false) L0 L1 S0 S1 (fillMatrix S0 S1 coef)
        (fun i j => if i = a ∧ j = b then 1 else 0) = .ok out ∧
      ∀ i j, i < L0 → j < L1 → out i j = coef ((j : ℤ) - b) ((i : ℤ) - a) := by
  obtain ⟨out, e1, e2⟩ := C08_unit_load nfl hn L0 L1 S0 S1 (by omega) (by omega) coef a b ha hb
  refine ⟨out, e1, fun i j hi hj => ?_⟩
  rw [e2 i j hi hj, if_pos]
  refine ⟨⟨((i : ℤ) - a + ((S0 - 1) / 2 : ℕ)).toNat, by omega, ?_⟩,
    ⟨((j : ℤ) - b + ((S1 - 1) / 2 : ℕ)).toNat, by omega, ?_⟩⟩
  · rw [offset_position S0 (by omega)]; omega
  · rw [offset_position S1 (by omega)]; omega

/-- Concrete instances for an even and an odd span: shape 4 with spans 8 and 7. -/
example : 2 * 4 ≤ 8 + 1 ∧ 2 * 4 ≤ 7 + 1 ∧ offset 8 3 = 0 ∧ offset 7 3 = 0 ∧ offset 8 7 = 4 ∧ offset 7 0 = -3 := by
  decide

/-- C08: the direct route (`fftconvolve(..., mode='same')`) and the planned route give the same displacements for every
influence matrix and every load field. -/
theorem C08_routes_agree (nfl : ℕ → ℕ) (hn : FastLen nfl) (L0 L1 S0 S1 : ℕ) (hL0 : 0 < L0) (hL1 : 0 < L1)
    (im loads : ℕ → ℕ → ℝ) :
    ∃ out, planConvolve nfl (.int false) L0 L1 S0 S1 im loads = .ok out ∧
      ∀ i j, i < L0 → j < L1 → out i j = sameConvolve L0 L1 S0 S1 im loads i j := by
  obtain ⟨out, e1, e2⟩ := C06_no_wrap_around nfl hn L0 L1 S0 S1 hL0 hL1 im loads
  refine ⟨out, e1, fun i j hi hj => ?_⟩
  rw [e2 i j hi hj, sameConvolve]
  refine sum_congr rfl fun a _ => sum_congr rfl fun b _ => ?_
  congr 1
  unfold readAt
  by_cases h : a ≤ i + (S0 - 1) / 2 ∧ i + (S0 - 1) / 2 - a < S0 ∧ b ≤ j + (S1 - 1) / 2 ∧ j + (S1 - 1) / 2 - b < S1
  · rw [if_pos h, if_pos (by omega)]
    congr 1 <;> omega
  · rw [if_neg h, if_neg (by omega)]

example := C08_routes_agree id (fun _ => le_rfl) 3 2 4 5 (by norm_num) (by norm_num) (fun u v => 10 * u + v) (fun a b => a + b)

/-- C09: with a domain, the result at every node is the superposition of the loads on the domain only. -/
theorem C09_domain_superposition (c0 c1 : Bool) (L0 L1 S0 S1 N0 N1 : ℕ) [NeZero N0] [NeZero N1] (h0 : LenOk c0 L0 S0 N0)
    (h1 : LenOk c1 L1 S1 N1) (im : ℕ → ℕ → ℝ) (domain : ℕ → ℕ → Bool) (sub : ℕ → ℕ → ℝ) (i j : ℕ) (hi : i < L0)
    (hj : j < L1) :
    innerDomain N0 N1 L0 L1 S0 S1 im domain sub i j =
      ∑ p ∈ (range L0 ×ˢ range L1).filter (fun p => domain p.1 p.2),
        sub p.1 p.2 * readAt S0 S1 im (position c0 S0 i p.1) (position c1 S1 j p.2) := by
  rw [innerDomain, inner_eq_superpose c0 c1 L0 L1 S0 S1 N0 N1 h0 h1 im _ i j hi hj, superpose, sum_filter, sum_product]
  refine sum_congr rfl fun a _ => sum_congr rfl fun b _ => ?_
  unfold scatter
  split <;> simp

/-- C09: restricting loads that vanish outside the domain to the domain and convolving there gives the values of the full
convolution. -/
theorem C09_restriction_exact (N0 N1 : ℕ) [NeZero N0] [NeZero N1] (L0 L1 S0 S1 : ℕ) (im loads : ℕ → ℕ → ℝ)
    (domain : ℕ → ℕ → Bool) (hz : ∀ i j, domain i j = false → loads i j = 0) (i j : ℕ) :
    innerDomain N0 N1 L0 L1 S0 S1 im domain loads i j = inner N0 N1 L0 L1 S0 S1 im loads i j := by
  have : scatter domain loads = loads := by
    funext a b
    unfold scatter
    cases h : domain a b
    · simp [hz a b h]
    · simp
  rw [innerDomain, this]

example := C09_restriction_exact 10 10 3 2 4 5 (fun u v => 10 * u + v) (fun a b => if a = b then 1 else 0) (fun a b => a == b) (fun i j h => if_neg (by simpa using h)) 2 1

/-- C09: the planned convolution is linear in the loads. -/
theorem C09_linear (c0 c1 : Bool) (L0 L1 S0 S1 N0 N1 : ℕ) [NeZero N0] [NeZero N1] (h0 : LenOk c0 L0 S0 N0)
    (h1 : LenOk c1 L1 S1 N1) (im x y : ℕ → ℕ → ℝ) (s t : ℝ) (i j : ℕ) (hi : i < L0) (hj : j < L1) :
    inner N0 N1 L0 L1 S0 S1 im (fun a b => s * x a b + t * y a b) i j =
      s * inner N0 N1 L0 L1 S0 S1 im x i j + t * inner N0 N1 L0 L1 S0 S1 im y i j := by
  simp only [inner_eq_superpose c0 c1 L0 L1 S0 S1 N0 N1 h0 h1 im _ i j hi hj, superpose, mul_sum, ← sum_add_distrib]
  refine sum_congr rfl fun a _ => sum_congr rfl fun b _ => ?_
  ring

/-- The hypotheses of `C09_domain_superposition`: the planned lengths are admissible: shape 3, matrix 5, length 10, and periodic 4. -/
example : LenOk false 3 5 10 ∧ LenOk true 4 4 4 := by simp [LenOk]

end Verif.Conv
