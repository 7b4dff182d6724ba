import Verif.Conv.Backends
import Verif.Conv.Props

/-!
# Property C118: the implementations of the planned convolution agree
-/

namespace Verif.Conv

open Finset

section half

variable {N0 N1 : ℕ} [NeZero N0] [NeZero N1]

lemma conj_chi (k a : Grid N0 N1) : (starRingEnd ℂ) (chi k a) = chi (-k) a := by
  unfold chi
  rw [map_mul]
  congr 1
  · rw [Prod.fst_neg, neg_mul, AddChar.map_neg_eq_conj]
  · rw [Prod.snd_neg, neg_mul, AddChar.map_neg_eq_conj]

lemma conj_forward (w : Grid N0 N1 → ℂ) (hw : ∀ a, (starRingEnd ℂ) (w a) = w a) (k : Grid N0 N1) :
    (starRingEnd ℂ) (forward w (-k)) = forward w k := by
  unfold forward
  rw [map_sum]
  refine sum_congr rfl fun a _ => ?_
  rw [map_mul, hw, conj_chi, neg_neg]

lemma conj_pad (n0 n1 : ℕ) (x : ℕ → ℕ → ℝ) (a : Grid N0 N1) : (starRingEnd ℂ) (pad N0 N1 n0 n1 x a) = pad N0 N1 n0 n1 x a := by
  unfold pad; split_ifs <;> simp

lemma neg_cast (k : ZMod N1) (h : k ≠ 0) : (((N1 - k.val : ℕ) : ℕ) : ZMod N1) = -k := by
  rw [Nat.cast_sub (ZMod.val_lt k).le, ZMod.natCast_self, ZMod.natCast_val, ZMod.cast_id', id_eq, zero_sub]

/-- For a spectrum with the symmetry of real data the stored half is enough. -/
lemma extend_half (F : Grid N0 N1 → ℂ) (hF : ∀ k, (starRingEnd ℂ) (F (-k)) = F k) :
    extend (fun k0 (k1 : Fin (N1 / 2 + 1)) => F (k0, ((k1 : ℕ) : ZMod N1))) = F := by
  funext k
  unfold extend
  split_ifs with hk
  · simp
  · have h0 : k.2 ≠ 0 := by intro e; rw [e, ZMod.val_zero] at hk; omega
    dsimp only
    rw [neg_cast k.2 h0]
    exact hF k

lemma innerFftw_eq (L0 L1 S0 S1 : ℕ) (im loads : ℕ → ℕ → ℝ) (i j : ℕ) :
    innerFftw N0 N1 L0 L1 S0 S1 im loads i j = innerCuda N0 N1 L0 L1 S0 S1 im loads i j := by
  unfold innerFftw innerCuda rbackward
  congr 3
  exact extend_half (fun k => forward (pad N0 N1 L0 L1 loads) k *
    (forward (roll N0 N1 ((S0 - 1) / 2) ((S1 - 1) / 2) (pad N0 N1 S0 S1 im)) k * (1 / normInv N0 N1))) (by
      intro k
      rw [map_mul, map_mul, conj_forward _ (conj_pad _ _ _), conj_forward _ (fun a => by unfold roll; exact conj_pad _ _ _ _)]
      congr 2
      unfold normInv
      rw [map_div₀, map_one, Complex.conj_ofReal])

lemma innerCuda_eq (L0 L1 S0 S1 : ℕ) (im loads : ℕ → ℕ → ℝ) (i j : ℕ) :
    innerCuda N0 N1 L0 L1 S0 S1 im loads i j = inner N0 N1 L0 L1 S0 S1 im loads i j := by
  unfold innerCuda inner normInv fftIm
  rw [Complex.re_ofReal_mul]
  rfl

end half

lemma nPow2_ge (n : ℕ) : n ≤ nPow2 n := by
  unfold nPow2
  rcases Nat.eq_zero_or_pos n with rfl | hn
  · exact Nat.zero_le _
  have h1 : (1 : ℝ) ≤ n := by exact_mod_cast hn
  have h2 : (n : ℝ) ≤ ((2 ^ ⌈Real.logb 2 n⌉.toNat : ℕ) : ℝ) := by
    rw [Nat.cast_pow, Nat.cast_ofNat, ← Real.rpow_natCast]
    have h3 : Real.logb 2 n ≤ ((⌈Real.logb 2 n⌉.toNat : ℕ) : ℝ) :=
      (Int.le_ceil _).trans (by exact_mod_cast Int.self_le_toNat _)
    calc (n : ℝ) = (2 : ℝ) ^ Real.logb 2 n := (Real.rpow_logb (by norm_num) (by norm_num) (by linarith)).symm
      _ ≤ _ := Real.rpow_le_rpow_of_exponent_le (by norm_num) h3
  exact_mod_cast h2

/-- The contract of `next_fast_len`, where it is used. -/
def Backend.Ok : Backend → Prop
  | .cuda => True
  | .fftw nfl => FastLen nfl

lemma Backend.Ok.len {be : Backend} (h : be.Ok) : FastLen be.len := by
  cases be
  · exact nPow2_ge
  · exact h

lemma fn_eq (be : Backend) (N0 N1 : ℕ) [NeZero N0] [NeZero N1] (L0 L1 S0 S1 : ℕ) (im loads : ℕ → ℕ → ℝ) (i j : ℕ) :
    be.fn N0 N1 L0 L1 S0 S1 im loads i j = inner N0 N1 L0 L1 S0 S1 im loads i j := by
  cases be
  · exact innerCuda_eq ..
  · exact (innerFftw_eq ..).trans (innerCuda_eq ..)

/-- C118: whichever implementation is chosen, for arrays that are not empty and whose sizes agree on the periodic axes the plan succeeds and gives the superposition of all loads. -/
theorem C118_superposition (be : Backend) (hbe : be.Ok) (c : Circular) (c0 c1 : Bool) (hc : Means c c0 c1) (L0 L1 S0 S1 : ℕ) (hL0 : 0 < L0) (hL1 : 0 < L1)
    (hs0 : c0 = true → L0 = S0) (hs1 : c1 = true → L1 = S1) (im : ℕ → ℕ → ℝ) :
    ∃ f, plan be c L0 L1 S0 S1 im = .ok f ∧ ∀ loads i j, i < L0 → j < L1 → f loads i j = superpose c0 c1 L0 L1 S0 S1 im loads i j := by
  replace hc := hc.flags
  obtain ⟨N0, e0, k0, z0⟩ := axisLen_ok be.len hbe.len c0 L0 S0 hL0 hs0
  obtain ⟨N1, e1, k1, z1⟩ := axisLen_ok be.len hbe.len c1 L1 S1 hL1 hs1
  haveI : NeZero N0 := ⟨z0⟩
  haveI : NeZero N1 := ⟨z1⟩
  refine ⟨be.fn N0 N1 L0 L1 S0 S1 im, ?_, fun loads i j hi hj => ?_⟩
  · simp [plan, hc, e0, e1, z0, z1]
  · rw [fn_eq]
    exact inner_eq_superpose c0 c1 L0 L1 S0 S1 N0 N1 k0 k1 im loads i j hi hj

lemma axisLen_error (len : ℕ → ℕ) (c : Bool) (L S : ℕ) : (c = true ∧ L ≠ S) ∨ ∃ N, axisLen len c L S = .ok N ∧ (c = true → L = S) := by
  cases c
  · exact .inr ⟨_, by simp [axisLen]; rfl, by simp⟩
  · by_cases h : L = S
    · exact .inr ⟨L, by simp [axisLen, h], fun _ => h⟩
    · exact .inl ⟨rfl, h⟩

lemma flags_cases (c : Circular) : (∃ c0 c1, Means c c0 c1) ∨ ∃ e, c.flags = .error e := by
  match c with
  | .int b => exact .inl ⟨b, b, .same b⟩
  | .seq [a, b] => exact .inl ⟨a, b, .pair a b⟩
  | .seq [] => exact .inr ⟨_, rfl⟩
  | .seq [_] => exact .inr ⟨_, rfl⟩
  | .seq (_ :: _ :: _ :: _) => exact .inr ⟨_, rfl⟩
  | .other => exact .inr ⟨_, rfl⟩

lemma plan_error (be : Backend) (c : Circular) (c0 c1 : Bool) (hc : Means c c0 c1) (L0 L1 S0 S1 : ℕ) (im : ℕ → ℕ → ℝ)
    (h : (c0 = true ∧ L0 ≠ S0) ∨ (c1 = true ∧ L1 ≠ S1)) : plan be c L0 L1 S0 S1 im = .error .assertionError := by
  replace hc := hc.flags
  unfold plan
  rw [hc]
  by_cases hfirst : c0 = true ∧ L0 ≠ S0
  · simp [axisLen, hfirst]
  · obtain ⟨rfl, h1⟩ := h.resolve_left hfirst
    cases c0
    · simp [axisLen, h1]
    · have : L0 = S0 := by by_contra h'; exact hfirst ⟨rfl, h'⟩
      simp [axisLen, h1, this]

/-- The same exception, or functions that agree on all loads, at all nodes. -/
def Agree (L0 L1 : ℕ) (a b : Except PyErr ((ℕ → ℕ → ℝ) → ℕ → ℕ → ℝ)) : Prop :=
  (∃ e, a = .error e ∧ b = .error e) ∨ ∃ f g, a = .ok f ∧ b = .ok g ∧ ∀ loads i j, i < L0 → j < L1 → f loads i j = g loads i j

/-- C118: two implementations give the same function or the same exception, whatever is given for the periodicity and whatever the shapes are. -/
theorem C118_agree (be be' : Backend) (h : be.Ok) (h' : be'.Ok) (c : Circular) (L0 L1 S0 S1 : ℕ) (hL0 : 0 < L0) (hL1 : 0 < L1) (im : ℕ → ℕ → ℝ) :
    Agree L0 L1 (plan be c L0 L1 S0 S1 im) (plan be' c L0 L1 S0 S1 im) := by
  rcases flags_cases c with ⟨c0, c1, hc⟩ | ⟨e, he⟩
  · by_cases hs : (c0 = true → L0 = S0) ∧ (c1 = true → L1 = S1)
    · obtain ⟨f, hf, hf'⟩ := C118_superposition be h c c0 c1 hc L0 L1 S0 S1 hL0 hL1 hs.1 hs.2 im
      obtain ⟨g, hg, hg'⟩ := C118_superposition be' h' c c0 c1 hc L0 L1 S0 S1 hL0 hL1 hs.1 hs.2 im
      exact .inr ⟨f, g, hf, hg, fun l i j hi hj => (hf' l i j hi hj).trans (hg' l i j hi hj).symm⟩
    · have hs' : (c0 = true ∧ L0 ≠ S0) ∨ (c1 = true ∧ L1 ≠ S1) := by
        by_contra hn
        push Not at hn
        exact hs ⟨hn.1, hn.2⟩
      exact .inl ⟨_, plan_error be c c0 c1 hc L0 L1 S0 S1 im hs', plan_error be' c c0 c1 hc L0 L1 S0 S1 im hs'⟩
  · exact .inl ⟨e, by simp [plan, he], by simp [plan, he]⟩

/-! ## Flat inputs -/

lemma mem_indices {L0 L1 : ℕ} {p : ℕ × ℕ} : p ∈ indices L0 L1 ↔ p.1 < L0 ∧ p.2 < L1 := by
  simp only [indices, List.mem_flatMap, List.mem_range, List.mem_map]
  constructor
  · rintro ⟨i, hi, j, hj, rfl⟩; exact ⟨hi, hj⟩
  · rintro ⟨h0, h1⟩; exact ⟨p.1, h0, p.2, h1, rfl⟩

lemma toData_congr {L0 L1 : ℕ} {f g : ℕ → ℕ → ℝ} (h : ∀ i j, i < L0 → j < L1 → f i j = g i j) : toData L0 L1 f = toData L0 L1 g :=
  List.map_congr_left fun p hp => h p.1 p.2 (mem_indices.1 hp).1 (mem_indices.1 hp).2

/-- C118: the function of a plan accepts exactly the inputs with the right number of entries; an input of the planned shape gives an array of that shape and any other a flat one, whose entries are in both cases, row by row, the superposition. -/
theorem C118_calls (be : Backend) (hbe : be.Ok) (c : Circular) (c0 c1 : Bool) (hc : Means c c0 c1) (L0 L1 S0 S1 : ℕ) (hL0 : 0 < L0) (hL1 : 0 < L1)
    (hs0 : c0 = true → L0 = S0) (hs1 : c1 = true → L1 = S1) (im : ℕ → ℕ → ℝ) :
    ∃ f, plan be c L0 L1 S0 S1 im = .ok f ∧ ∀ x : Arr, x.data.length = x.shape.prod →
      (x.data.length ≠ L0 * L1 → innerNoDomain f L0 L1 x = .error .valueError) ∧
      (x.data.length = L0 * L1 → ∃ y, innerNoDomain f L0 L1 x = .ok y ∧ y.shape = (if x.shape = [L0, L1] then [L0, L1] else [L0 * L1]) ∧
        y.data = (indices L0 L1).map fun p => superpose c0 c1 L0 L1 S0 S1 im (fun a b => x.data.getD (a * L1 + b) 0) p.1 p.2) := by
  obtain ⟨f, hf, hf'⟩ := C118_superposition be hbe c c0 c1 hc L0 L1 S0 S1 hL0 hL1 hs0 hs1 im
  have key : ∀ d : List ℝ, toData L0 L1 (f (ofData L1 d)) = (indices L0 L1).map fun p => superpose c0 c1 L0 L1 S0 S1 im (fun a b => d.getD (a * L1 + b) 0) p.1 p.2 :=
    fun d => toData_congr (g := fun i j => superpose c0 c1 L0 L1 S0 S1 im (fun a b => d.getD (a * L1 + b) 0) i j) fun i j hi hj => hf' _ i j hi hj
  refine ⟨f, hf, fun x hx => ⟨fun hn => ?_, fun hn => ?_⟩⟩
  · have : x.shape ≠ [L0, L1] := by intro e; rw [e] at hx; simp at hx; exact hn hx
    simp [innerNoDomain, this, hn]
  · unfold innerNoDomain
    by_cases hsh : x.shape = [L0, L1]
    · rw [if_pos hsh, if_pos hsh]; exact ⟨_, rfl, rfl, key _⟩
    · rw [if_neg hsh, if_pos hn, if_neg hsh]; exact ⟨_, rfl, rfl, key _⟩

/-! ## Domains -/

lemma nodup_indices (L0 L1 : ℕ) : (indices L0 L1).Nodup := by
  unfold indices
  refine List.nodup_flatMap.2 ⟨fun i _ => List.nodup_range.map fun a b h => (Prod.mk.inj h).2, ?_⟩
  refine List.nodup_range.pairwise_of_forall_ne fun i _ i' _ hne => ?_
  intro p h1 h2
  simp only [List.mem_map] at h1 h2
  obtain ⟨a, _, rfl⟩ := h1
  obtain ⟨b, _, e⟩ := h2
  exact hne (Prod.mk.inj e).1.symm

lemma nodup_nodes (L0 L1 : ℕ) (domain : ℕ → ℕ → Bool) : (nodes L0 L1 domain).Nodup := (nodup_indices L0 L1).filter _

lemma sum_indices (L0 L1 : ℕ) (F : ℕ → ℕ → ℝ) : ∑ a ∈ range L0, ∑ b ∈ range L1, F a b = ((indices L0 L1).map fun p => F p.1 p.2).sum := by
  unfold indices
  induction L0 with
  | zero => simp
  | succ n ih =>
    rw [sum_range_succ, ih, List.range_succ, List.flatMap_append, List.map_append, List.sum_append]
    congr 1
    simp only [List.flatMap_cons, List.flatMap_nil, List.append_nil, List.map_map]
    rw [Finset.sum_range]
    rw [← List.sum_ofFn]
    congr 1
    rw [List.ofFn_eq_map, ← List.map_coe_finRange_eq_range, List.map_map]
    rfl

/-- C118: with a domain, the function takes the loads of its nodes and returns the displacements of its nodes, in the same order: the `k`-th one is the sum over all nodes `l` of the domain of the `l`-th load times the coefficient of the offset from node `l` to node `k`. -/
theorem C118_domain (be : Backend) (hbe : be.Ok) (c : Circular) (c0 c1 : Bool) (hc : Means c c0 c1) (L0 L1 S0 S1 : ℕ) (hL0 : 0 < L0) (hL1 : 0 < L1)
    (hs0 : c0 = true → L0 = S0) (hs1 : c1 = true → L1 = S1) (im : ℕ → ℕ → ℝ) (domain : ℕ → ℕ → Bool) :
    ∃ f, plan be c L0 L1 S0 S1 im = .ok f ∧ ∀ v : List ℝ, v.length = (nodes L0 L1 domain).length →
      (innerWithDomain f L0 L1 domain v).length = v.length ∧
      ∀ k (hk : k < (nodes L0 L1 domain).length), (innerWithDomain f L0 L1 domain v)[k]? = some (∑ l : Fin (nodes L0 L1 domain).length, v.getD l 0 *
        readAt S0 S1 im (position c0 S0 (nodes L0 L1 domain)[k].1 (nodes L0 L1 domain)[l].1) (position c1 S1 (nodes L0 L1 domain)[k].2 (nodes L0 L1 domain)[l].2)) := by
  obtain ⟨f, hf, hf'⟩ := C118_superposition be hbe c c0 c1 hc L0 L1 S0 S1 hL0 hL1 hs0 hs1 im
  refine ⟨f, hf, fun v hv => ⟨by simp [innerWithDomain, hv], fun k hk => ?_⟩⟩
  have hin : (nodes L0 L1 domain)[k] ∈ indices L0 L1 := List.mem_of_mem_filter (List.getElem_mem hk)
  unfold innerWithDomain
  rw [List.getElem?_map, List.getElem?_eq_getElem hk, Option.map_some, hf' _ _ _ (mem_indices.1 hin).1 (mem_indices.1 hin).2]
  congr 1
  unfold superpose
  generalize (nodes L0 L1 domain)[k] = q at hin ⊢
  rw [sum_indices L0 L1 (fun a b => fill L0 L1 domain v a b * readAt S0 S1 im (position c0 S0 q.1 a) (position c1 S1 q.2 b))]
  have hsplit : ∀ l : List (ℕ × ℕ), (l.map fun p => fill L0 L1 domain v p.1 p.2 * readAt S0 S1 im (position c0 S0 q.1 p.1) (position c1 S1 q.2 p.2)).sum =
      ((l.filter fun p => domain p.1 p.2).map fun p => fill L0 L1 domain v p.1 p.2 * readAt S0 S1 im (position c0 S0 q.1 p.1) (position c1 S1 q.2 p.2)).sum := by
    intro l
    induction l with
    | nil => rfl
    | cons p l ih =>
      rw [List.map_cons, List.sum_cons, ih]
      by_cases hp : domain p.1 p.2 = true
      · rw [List.filter_cons_of_pos (p := fun p : ℕ × ℕ => domain p.1 p.2) hp, List.map_cons, List.sum_cons]
      · rw [List.filter_cons_of_neg (p := fun p : ℕ × ℕ => domain p.1 p.2) hp]
        have : fill L0 L1 domain v p.1 p.2 = 0 := by
          unfold fill
          rw [if_neg]
          intro hm
          exact hp (List.mem_filter.1 hm).2
        rw [this, zero_mul, zero_add]
  rw [hsplit]
  change ((nodes L0 L1 domain).map _).sum = _
  rw [← List.sum_ofFn]
  congr 1
  apply List.ext_getElem
  · simp
  · intro n h1 h2
    have hn : n < (nodes L0 L1 domain).length := by simpa using h1
    rw [List.getElem_map, List.getElem_ofFn]
    congr 1
    unfold fill
    rw [if_pos (List.getElem_mem hn)]
    congr 1
    exact (nodup_nodes L0 L1 domain).idxOf_getElem n hn

/-- C118: the nodes of a domain are its entries inside of the array, each once, row by row. -/
theorem C118_nodes (L0 L1 : ℕ) (domain : ℕ → ℕ → Bool) :
    (∀ p, p ∈ nodes L0 L1 domain ↔ p.1 < L0 ∧ p.2 < L1 ∧ domain p.1 p.2 = true) ∧
    (nodes L0 L1 domain).Pairwise fun p q => p.1 < q.1 ∨ p.1 = q.1 ∧ p.2 < q.2 := by
  refine ⟨fun p => ?_, ?_⟩
  · unfold nodes; rw [List.mem_filter, mem_indices, and_assoc]
  · refine List.Pairwise.filter _ ?_
    unfold indices
    rw [List.pairwise_flatMap]
    refine ⟨fun i _ => List.pairwise_map.2 (List.pairwise_lt_range.imp fun h => .inr ⟨rfl, h⟩), List.pairwise_lt_range.imp fun h p hp q hq => ?_⟩
    rw [List.mem_map] at hp hq
    obtain ⟨_, _, rfl⟩ := hp
    obtain ⟨_, _, rfl⟩ := hq
    exact .inl h

/-- C118: with the domain ignored for the result, the array of all displacements is returned; loads outside of the domain are zero. -/
theorem C118_ignore_domain (be : Backend) (hbe : be.Ok) (c : Circular) (c0 c1 : Bool) (hc : Means c c0 c1) (L0 L1 S0 S1 : ℕ) (hL0 : 0 < L0) (hL1 : 0 < L1)
    (hs0 : c0 = true → L0 = S0) (hs1 : c1 = true → L1 = S1) (im : ℕ → ℕ → ℝ) (domain : ℕ → ℕ → Bool) (loads : ℕ → ℕ → ℝ) :
    ∃ f, plan be c L0 L1 S0 S1 im = .ok f ∧
      innerIgnoreDomain f L0 L1 domain ((nodes L0 L1 domain).map fun p => loads p.1 p.2) = ⟨[L0, L1], (indices L0 L1).map fun p =>
        superpose c0 c1 L0 L1 S0 S1 im (fun a b => if domain a b then loads a b else 0) p.1 p.2⟩ := by
  obtain ⟨f, hf, hf'⟩ := C118_superposition be hbe c c0 c1 hc L0 L1 S0 S1 hL0 hL1 hs0 hs1 im
  refine ⟨f, hf, ?_⟩
  unfold innerIgnoreDomain
  congr 1
  refine toData_congr (g := fun i j => superpose c0 c1 L0 L1 S0 S1 im (fun a b => if domain a b then loads a b else 0) i j) fun i j hi hj => ?_
  rw [hf' _ i j hi hj]
  unfold superpose
  refine sum_congr rfl fun a ha => sum_congr rfl fun b hb => ?_
  congr 1
  unfold fill
  have hm : (a, b) ∈ nodes L0 L1 domain ↔ domain a b = true := by
    rw [(C118_nodes L0 L1 domain).1]
    exact ⟨fun h => h.2.2, fun h => ⟨mem_range.1 ha, mem_range.1 hb, h⟩⟩
  dsimp only
  by_cases hd : domain a b = true
  · rw [if_pos (hm.2 hd), if_pos hd]
    have hlt := List.idxOf_lt_length_of_mem (hm.2 hd)
    rw [List.getD_eq_getElem?_getD, List.getElem?_map, List.getElem?_eq_getElem hlt, Option.map_some, Option.getD_some, List.getElem_idxOf hlt]
  · rw [if_neg (fun h => hd (hm.1 h)), if_neg hd]

/-- Concrete cases of the hypotheses of `C118_agree`, `C118_calls` and `C118_domain`: both implementations, a periodic and a plain axis, a matrix larger than the loads on the plain one; a domain of three of the six nodes of a (2, 3) grid. -/
example : Backend.cuda.Ok ∧ (Backend.fftw id).Ok ∧ Means (.seq [true, false]) true false ∧ (true = true → 2 = 2) ∧ (false = true → 3 = 7) ∧
    nodes 2 3 (fun i j => i == 1 && j != 0 || i == 0 && j == 2) = [(0, 2), (1, 1), (1, 2)] :=
  ⟨trivial, fun _ => le_rfl, .pair _ _, fun _ => rfl, (fun h => by cases h), by decide⟩

/-- The length that the CUDA version uses: 5 is padded to 8, the double of which is the length of the transform. -/
example : nPow2 5 = 8 := by
  have : ⌈Real.logb 2 (5 : ℕ)⌉ = 3 := by
    rw [Int.ceil_eq_iff]
    constructor
    · rw [Real.lt_logb_iff_rpow_lt (by norm_num) (by norm_num)]
      have : (((3 : ℤ) : ℝ) - 1) = ((2 : ℕ) : ℝ) := by norm_num
      rw [this, Real.rpow_natCast]
      norm_num
    · rw [Real.logb_le_iff_le_rpow (by norm_num) (by norm_num)]
      have : ((3 : ℤ) : ℝ) = ((3 : ℕ) : ℝ) := by norm_num
      rw [this, Real.rpow_natCast]
      norm_num
  unfold nPow2
  rw [this]
  rfl

/-- A value: one load of 2 at node (0, 1) of a (2, 2) grid, on the CPU and on the GPU: node (1, 0) gets the coefficient at index (2, 1) of a (3, 4) matrix. -/
example (be : Backend) (hbe : be.Ok) : ∃ f, plan be (.int false) 2 2 3 4 (fun u v => 10 * u + v) = .ok f ∧ f (fun a b => if a = 0 ∧ b = 1 then 2 else 0) 1 0 = 40 := by
  obtain ⟨f, h1, h2⟩ := C118_superposition be hbe (.int false) false false (.same _) 2 2 3 4 (by norm_num) (by norm_num) (by simp) (by simp) (fun u v => 10 * u + v)
  refine ⟨f, h1, ?_⟩
  rw [h2 _ 1 0 (by norm_num) (by norm_num)]
  have : Int.toNat 2 = 2 := rfl
  norm_num [superpose, position, readAt, sum_range_succ, this]

end Verif.Conv
