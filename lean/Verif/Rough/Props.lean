import Mathlib.Data.Sign.Basic
import Mathlib.Algebra.Order.BigOperators.Ring.Finset
import Mathlib.Algebra.Order.BigOperators.Group.Finset
import Verif.Rough.Params

/-!
# C48, C49, C73, C74, C75
-/

namespace Verif.Rough

/-! ## Values without `nan` -/

theorem mapM_some {α : Type} (l : List α) : (l.map some).mapM id = some l := by
  induction l with
  | nil => rfl
  | cons a l ih => simp [List.mapM_cons, ih]

theorem mean_some {l : List ℝ} (h : l ≠ []) : mean (l.map some) = some (l.sum / l.length) := by
  unfold mean
  rw [mapM_some]
  simp [h]

theorem power_some (l : List ℝ) (n : ℕ) : power (l.map some) n = (l.map fun v => v ^ n).map some := by
  simp [power, Function.comp_def]

/-- The mean of the `n`th powers. -/
noncomputable def moment (l : List ℝ) (n : ℕ) : ℝ := (l.map fun v => v ^ n).sum / l.length

theorem mean_power {l : List ℝ} (h : l ≠ []) (n : ℕ) : mean (power (l.map some) n) = some (moment l n) := by
  rw [power_some, mean_some (by simpa using h)]
  simp [moment]

theorem sq_some {l : List ℝ} (h : l ≠ []) : sq (l.map some) = some (Real.sqrt (moment l 2)) := by
  simp [sq, mean_power h]

theorem sa_some {l : List ℝ} (h : l ≠ []) : sa (l.map some) = some ((l.map fun v => |v|).sum / l.length) := by
  unfold sa
  rw [show ((l.map some).map fun h => h.map fun v : ℝ => |v|) = (l.map fun v => |v|).map some by simp [Function.comp_def], mean_some (by simpa using h)]
  simp

theorem len_pos {l : List ℝ} (h : l ≠ []) : (0 : ℝ) < l.length := by exact_mod_cast List.length_pos_of_ne_nil h

theorem sum_nonneg' {α : Type} (l : List α) (f : α → ℝ) (h : ∀ a ∈ l, 0 ≤ f a) : 0 ≤ (l.map f).sum :=
  List.sum_nonneg (by simp only [List.mem_map, forall_exists_index, and_imp]; rintro _ q hq rfl; exact h q hq)

theorem sum_zero_iff (l : List ℝ) (f : ℝ → ℝ) (hf : ∀ v, 0 ≤ f v) (h0 : ∀ v, f v = 0 ↔ v = 0) : (l.map f).sum = 0 ↔ ∀ v ∈ l, v = 0 := by
  induction l with
  | nil => simp
  | cons a l ih =>
    have h1 := sum_nonneg' l f fun v _ => hf v
    simp only [List.map_cons, List.sum_cons, List.mem_cons, forall_eq_or_imp]
    rw [← ih, ← h0 a]
    have h2 := hf a
    constructor
    · intro h; exact ⟨by linarith, by linarith⟩
    · rintro ⟨h3, h4⟩; rw [h3, h4, add_zero]

/-- Cauchy-Schwarz for lists. -/
theorem cauchy (l : List ℝ) (f g : ℝ → ℝ) : (l.map fun v => f v * g v).sum ^ 2 ≤ (l.map fun v => f v ^ 2).sum * (l.map fun v => g v ^ 2).sum := by
  have := Finset.sum_mul_sq_le_sq_mul_sq (Finset.univ : Finset (Fin l.length)) (fun i => f (l.get i)) (fun i => g (l.get i))
  have e : ∀ F : ℝ → ℝ, (l.map F).sum = ∑ i : Fin l.length, F (l.get i) := by
    intro F
    rw [← List.sum_ofFn]
    congr 1
    apply List.ext_getElem <;> simp
  rw [e, e, e]
  exact this

theorem cauchy_one (l : List ℝ) (f : ℝ → ℝ) : (l.map f).sum ^ 2 ≤ l.length * (l.map fun v => f v ^ 2).sum := by
  have := cauchy l (fun _ => 1) f
  simpa using this

theorem moment_scale (l : List ℝ) (k : ℝ) (n : ℕ) : moment (l.map fun v => k * v) n = k ^ n * moment l n := by
  unfold moment
  rw [List.length_map, List.map_map, mul_div_assoc']
  congr 1
  induction l with
  | nil => simp
  | cons a l ih => simp only [List.map_cons, List.sum_cons, ih, Function.comp_apply]; ring

theorem moment_even_nonneg (l : List ℝ) (n : ℕ) (h : Even n) : 0 ≤ moment l n :=
  div_nonneg (sum_nonneg' _ _ fun v _ => h.pow_nonneg v) (Nat.cast_nonneg _)

/-! ## C48: the laws -/

/-- **C48, Sq and Sa.** For heights that are numbers, Sq and Sa are non-negative, zero exactly if all heights are zero, and Sa is at most Sq. -/
theorem C48_sq_sa {l : List ℝ} (h : l ≠ []) : ∃ q a, sq (l.map some) = some q ∧ sa (l.map some) = some a ∧ 0 ≤ q ∧ 0 ≤ a ∧ a ≤ q ∧
    (q = 0 ↔ ∀ v ∈ l, v = 0) ∧ (a = 0 ↔ ∀ v ∈ l, v = 0) := by
  have hn := len_pos h
  refine ⟨_, _, sq_some h, sa_some h, Real.sqrt_nonneg _, div_nonneg (sum_nonneg' _ _ fun v _ => abs_nonneg v) hn.le, ?_, ?_, ?_⟩
  · apply Real.le_sqrt_of_sq_le
    unfold moment
    rw [div_pow, div_le_div_iff₀ (by positivity) hn]
    have := cauchy_one l fun v => |v|
    simp only [sq_abs] at this
    nlinarith
  · rw [Real.sqrt_eq_zero (moment_even_nonneg l 2 (by decide)), moment, div_eq_zero_iff, or_iff_left hn.ne']
    exact sum_zero_iff l (fun v => v ^ 2) (fun v => by positivity) fun v => by simp
  · rw [div_eq_zero_iff, or_iff_left hn.ne']
    exact sum_zero_iff l (fun v => |v|) (fun v => abs_nonneg v) fun v => by simp

example := C48_sq_sa (l := [1, -2]) (by simp)

theorem sq_pos {l : List ℝ} (h : ∃ v ∈ l, v ≠ 0) : 0 < moment l 2 := by
  obtain ⟨v, hv, h0⟩ := h
  refine lt_of_le_of_ne (moment_even_nonneg l 2 (by decide)) fun e => ?_
  have hn := len_pos (List.ne_nil_of_mem hv)
  rw [moment, eq_comm, div_eq_zero_iff, or_iff_left hn.ne', sum_zero_iff l (fun v => v ^ 2) (fun v => by positivity) fun v => by simp] at e
  exact h0 (e v hv)

theorem ssk_some {l : List ℝ} (h : ∃ v ∈ l, v ≠ 0) : ssk (l.map some) = some (moment l 3 / Real.sqrt (moment l 2) ^ 3) := by
  have hne : l ≠ [] := List.ne_nil_of_mem h.choose_spec.1
  simp only [ssk, mean_power hne, sq_some hne]
  rw [if_neg (Real.sqrt_pos.2 (sq_pos h)).ne']

theorem sku_some {l : List ℝ} (h : ∃ v ∈ l, v ≠ 0) : sku (l.map some) = some (moment l 4 / Real.sqrt (moment l 2) ^ 4) := by
  have hne : l ≠ [] := List.ne_nil_of_mem h.choose_spec.1
  simp only [sku, mean_power hne, sq_some hne]
  rw [if_neg (Real.sqrt_pos.2 (sq_pos h)).ne']

/-- **C48, Ssk and Sku.** For heights that are not all zero Ssk and Sku are numbers, Sku is at least 1 and at least Ssk squared. -/
theorem C48_ssk_sku {l : List ℝ} (h : ∃ v ∈ l, v ≠ 0) : ∃ s k, ssk (l.map some) = some s ∧ sku (l.map some) = some k ∧ 1 ≤ k ∧ s ^ 2 ≤ k := by
  have hne : l ≠ [] := List.ne_nil_of_mem h.choose_spec.1
  have hn := len_pos hne
  have hq := sq_pos h
  refine ⟨_, _, ssk_some h, sku_some h, ?_, ?_⟩
  · rw [show Real.sqrt (moment l 2) ^ 4 = (Real.sqrt (moment l 2) ^ 2) ^ 2 by ring, Real.sq_sqrt hq.le, one_le_div (by positivity)]
    unfold moment
    rw [div_pow, div_le_div_iff₀ (by positivity) hn]
    have := cauchy_one l fun v => v ^ 2
    simp only [← pow_mul] at this
    norm_num at this
    nlinarith
  · rw [div_pow, show (Real.sqrt (moment l 2) ^ 3) ^ 2 = (Real.sqrt (moment l 2) ^ 2) ^ 3 by ring, show Real.sqrt (moment l 2) ^ 4 = (Real.sqrt (moment l 2) ^ 2) ^ 2 by ring, Real.sq_sqrt hq.le,
      div_le_div_iff₀ (by positivity) (by positivity)]
    have key : moment l 3 ^ 2 ≤ moment l 2 * moment l 4 := by
      unfold moment
      rw [div_pow, div_mul_div_comm, ← pow_two]
      apply div_le_div_of_nonneg_right _ (by positivity)
      have := cauchy l (fun v => v) fun v => v ^ 2
      simp only [← pow_mul] at this
      norm_num at this
      rw [show (fun v : ℝ => v ^ 3) = fun v => v * v ^ 2 by funext v; ring]
      exact this
    have : moment l 3 ^ 2 * moment l 2 ^ 2 ≤ moment l 2 * moment l 4 * moment l 2 ^ 2 := mul_le_mul_of_nonneg_right key (by positivity)
    nlinarith

example := C48_ssk_sku (l := [1, -2]) ⟨1, by simp, one_ne_zero⟩

/-- **C48, the zero profile and no points.** Ssk and Sku of the zero profile are `nan`; without points all are `nan`. -/
theorem C48_not_a_number (l : List ℝ) (h : ∀ v ∈ l, v = 0) :
    ssk (l.map some) = none ∧ sku (l.map some) = none ∧ sq [] = none ∧ sa [] = none := by
  refine ⟨?_, ?_, rfl, rfl⟩ <;>
  · by_cases hne : l = []
    · subst hne; rfl
    · have h0 : moment l 2 = 0 := by
        rw [moment, div_eq_zero_iff]; left
        exact (sum_zero_iff l (fun v => v ^ 2) (fun v => by positivity) fun v => by simp).2 h
      simp [ssk, sku, mean_power hne, sq_some hne, h0]

/-- The hypotheses can be met. -/
example : ([1, -2] : List ℝ) ≠ [] ∧ (∃ v ∈ ([1, -2] : List ℝ), v ≠ 0) ∧ ∀ v ∈ ([0, 0] : List ℝ), v = 0 := by simp

theorem sum_abs_scale (l : List ℝ) (k : ℝ) : ((l.map fun v => k * v).map fun v => |v|).sum = |k| * (l.map fun v => |v|).sum := by
  induction l with
  | nil => simp
  | cons a l ih => simp only [List.map_cons, List.sum_cons, ih, abs_mul]; ring

/-- The laws of scaling for the values. -/
theorem scale_values {l : List ℝ} (h : l ≠ []) (k : ℝ) :
    sq ((l.map fun v => k * v).map some) = (sq (l.map some)).map (|k| * ·) ∧ sa ((l.map fun v => k * v).map some) = (sa (l.map some)).map (|k| * ·) ∧
    (k ≠ 0 → ssk ((l.map fun v => k * v).map some) = (ssk (l.map some)).map ((k / |k|) * ·) ∧ sku ((l.map fun v => k * v).map some) = sku (l.map some)) := by
  have hne : (l.map fun v => k * v) ≠ [] := by simpa using h
  have hsq : Real.sqrt (moment (l.map fun v => k * v) 2) = |k| * Real.sqrt (moment l 2) := by
    rw [moment_scale, Real.sqrt_mul (sq_nonneg k), Real.sqrt_sq_eq_abs]
  refine ⟨?_, ?_, fun hk => ?_⟩
  · rw [sq_some hne, sq_some h, hsq]; rfl
  · rw [sa_some hne, sa_some h, sum_abs_scale, List.length_map, Option.map_some, mul_div_assoc]
  · have hk' : |k| ≠ 0 := abs_ne_zero.2 hk
    simp only [ssk, sku, mean_power hne, mean_power h, sq_some hne, sq_some h, hsq]
    simp only [moment_scale]
    by_cases h0 : Real.sqrt (moment l 2) = 0
    · simp [h0]
    · rw [if_neg (mul_ne_zero hk' h0), if_neg h0, if_neg (mul_ne_zero hk' h0), if_neg h0, Option.map_some]
      have e4 : k ^ 4 = |k| ^ 4 := by rw [show k ^ 4 = (k ^ 2) ^ 2 by ring, ← sq_abs k]; ring
      have e3 : k ^ 3 * |k| = k * |k| ^ 3 := by rw [show k ^ 3 = k * k ^ 2 by ring, ← sq_abs k]; ring
      refine ⟨?_, ?_⟩
      · congr 1
        rw [mul_pow, div_mul_div_comm, div_eq_div_iff (by positivity) (by positivity)]
        linear_combination (moment l 3 * Real.sqrt (moment l 2) ^ 3) * e3
      · congr 1
        rw [e4, mul_pow, mul_div_mul_left _ _ (by positivity)]

/-! ## Scaling a profile, also with flattening -/

/-- What the flattened profile is at the points used. -/
theorem flatten_values {lstsq : List (List ℝ) → List (Option ℝ) → Option (List ℝ)} (hl : LeastSquares lstsq) {p eta : Arr (Option ℝ)} {m : Option (Arr Bool)} {curved noFlat : Bool}
    (hs : ∀ a, m = some a → a.rows = p.rows ∧ a.cols = p.cols) (hf : flatten lstsq p m curved noFlat = .ok eta) {h : ℕ → ℕ → ℝ}
    (hh : ∀ i j, i < p.rows → j < p.cols → used m i j = true → p.val i j = some (h i j)) (hne : selected p.rows p.cols m ≠ []) :
    eta.rows = p.rows ∧ eta.cols = p.cols ∧ ∃ r : ℕ → ℕ → ℝ, (∀ i j, i < p.rows → j < p.cols → used m i j = true → eta.val i j = some (r i j)) ∧
      ((noFlat = true ∧ r = h) ∨ (noFlat = false ∧ ∃ c : ℕ → ℕ → ℝ, (∀ i j : ℕ, r i j = h i j - evalPoly (if curved then 2 else 1) c j i) ∧
        ∀ d : ℕ → ℕ → ℝ, ((selected p.rows p.cols m).map fun q => r q.1 q.2 * evalPoly (if curved then 2 else 1) d q.2 q.1).sum = 0)) := by
  unfold flatten at hf
  cases noFlat
  · simp only [Bool.false_eq_true, if_false] at hf
    have hm : polyMask p (toMask m) = .ok m := by
      cases m with
      | none => rfl
      | some a => simp only [toMask, polyMask]; rw [if_pos (hs a rfl)]
    generalize hcall : subtractPolynomial lstsq false p (if curved = true then 2 else 1) (toMask m) = res at hf
    cases res with
    | error e => cases hf
    | ok res =>
      obtain ⟨adj, coefs⟩ := res
      cases hf
      obtain ⟨h1, h2, c, h3, -, h4⟩ := call_fit hl hm hcall hh hne
      refine ⟨h1, h2, fun i j => h i j - evalPoly (if curved then 2 else 1) c j i, fun i j hi hj hu => ?_, Or.inr ⟨rfl, c, fun _ _ => rfl, fun d => fit_orthogonal _ _ h c h4 d⟩⟩
      rw [h3 i j hi hj, if_pos hu]
  · simp only [if_true, Except.ok.injEq] at hf
    subst hf
    exact ⟨rfl, rfl, h, hh, Or.inl ⟨rfl, rfl⟩⟩

theorem values_eq {eta : Arr (Option ℝ)} {m : Option (Arr Bool)} {r : ℕ → ℕ → ℝ} (h : ∀ i j, i < eta.rows → j < eta.cols → used m i j = true → eta.val i j = some (r i j)) :
    valuesAt eta (selected eta.rows eta.cols m) = ((selected eta.rows eta.cols m).map fun q => r q.1 q.2).map some := by
  unfold valuesAt
  rw [List.map_map]
  apply List.map_congr_left
  rintro ⟨i, j⟩ hq
  rw [mem_selected] at hq
  exact h i j hq.1 hq.2.1 hq.2.2

theorem mask_shape {p : Arr (Option ℝ)} {mask : MaskArg ℝ} {m : Option (Arr Bool)} (hm : maskArray p mask = .ok m) : ∀ a, m = some a → a.rows = p.rows ∧ a.cols = p.cols := by
  rintro a rfl
  unfold maskArray at hm
  split at hm
  · cases hm
  · cases hm; exact ⟨rfl, rfl⟩
  · cases hm
  · split at hm
    · rename_i h; cases hm; exact h
    · cases hm

/-- **C48, scaling.** If all heights of a profile are multiplied by `k`, Sq and Sa are multiplied by the absolute value of `k`; for `k` not zero Sku stays the same and Ssk is multiplied by the sign of `k`. This holds with and without flattening, for every mask, as long as the
fits succeed and the points used are numbers. -/
theorem C48_scaling {lstsq : List (List ℝ) → List (Option ℝ) → Option (List ℝ)} (hl : LeastSquares lstsq) (st : Settings) {p p' eta eta' : Arr (Option ℝ)} {mask mask' : MaskArg ℝ} {m : Option (Arr Bool)} {curved noFlat : Bool}
    (hm : maskArray p mask = .ok m) (hm' : maskArray p' mask' = .ok m) (hr : p'.rows = p.rows) (hc : p'.cols = p.cols)
    (hf : flatten lstsq p m curved noFlat = .ok eta) (hf' : flatten lstsq p' m curved noFlat = .ok eta') (k : ℝ) {h : ℕ → ℕ → ℝ}
    (hh : ∀ i j, i < p.rows → j < p.cols → used m i j = true → p.val i j = some (h i j)) (hh' : ∀ i j, i < p.rows → j < p.cols → used m i j = true → p'.val i j = some (k * h i j))
    (hne : ∃ i j, i < p.rows ∧ j < p.cols ∧ used m i j = true) :
    let R := fun n => roughness lstsq st p mask curved noFlat n
    let R' := fun n => roughness lstsq st p' mask' curved noFlat n
    (∃ q, R .sq = .ok (.num (some q)) ∧ R' .sq = .ok (.num (some (|k| * q)))) ∧ (∃ a, R .sa = .ok (.num (some a)) ∧ R' .sa = .ok (.num (some (|k| * a)))) ∧
    (k ≠ 0 → (∃ s, R .ssk = .ok (.num s) ∧ R' .ssk = .ok (.num (s.map ((k / |k|) * ·)))) ∧ R' .sku = R .sku) := by
  obtain ⟨i0, j0, hi0, hj0, hu0⟩ := hne
  have hsel : selected p.rows p.cols m ≠ [] := List.ne_nil_of_mem ((mem_selected _ _ _ i0 j0).2 ⟨hi0, hj0, hu0⟩)
  obtain ⟨e1, e2, r, hr1, hr2⟩ := flatten_values hl (mask_shape hm) hf hh hsel
  obtain ⟨e1', e2', r', hr1', hr2'⟩ := flatten_values (h := fun i j => k * h i j) hl (mask_shape hm') hf' (by rw [hr, hc]; exact hh') (by rw [hr, hc]; exact hsel)
  rw [hr, hc] at hr1' hr2'
  rw [hr] at e1'
  rw [hc] at e2'
  have hscale : ∀ q ∈ selected p.rows p.cols m, r' q.1 q.2 = k * r q.1 q.2 := by
    rcases hr2 with ⟨hn, rfl⟩ | ⟨hn, c, hc1, hc2⟩
    · rcases hr2' with ⟨-, rfl⟩ | ⟨hn', -⟩
      · intro q _; rfl
      · rw [hn] at hn'; cases hn'
    · rcases hr2' with ⟨hn', -⟩ | ⟨-, c', hc1', hc2'⟩
      · rw [hn] at hn'; cases hn'
      · generalize (if curved = true then 2 else 1) = n at hc1 hc2 hc1' hc2'
        -- the polynomial by which the residuals differ
        have he : ∀ x y, evalPoly n (fun i j => (-1) * c' i j + k * c i j) x y = k * evalPoly n c x y - evalPoly n c' x y := by
          intro x y
          rw [eval_linear n (fun i j => (-1) * c' i j) c]
          have h0 := eval_linear n (fun _ _ => 0) c' (-1) x y
          have h00 : evalPoly n (fun _ _ => 0) x y = 0 := by simp [evalPoly]
          rw [h00] at h0
          simp only [zero_add] at h0
          rw [h0]; ring
        have o1 := hc2 fun i j => (-1) * c' i j + k * c i j
        have o2 := hc2' fun i j => (-1) * c' i j + k * c i j
        have hsum : ((selected p.rows p.cols m).map fun q => (r' q.1 q.2 - k * r q.1 q.2) ^ 2).sum = 0 := by
          have : ∀ L : List (ℕ × ℕ), (L.map fun q => (r' q.1 q.2 - k * r q.1 q.2) ^ 2).sum =
              (L.map fun q => r' q.1 q.2 * evalPoly n (fun i j => (-1) * c' i j + k * c i j) q.2 q.1).sum -
              k * (L.map fun q => r q.1 q.2 * evalPoly n (fun i j => (-1) * c' i j + k * c i j) q.2 q.1).sum := by
            intro L
            induction L with
            | nil => simp
            | cons a L ih =>
              simp only [List.map_cons, List.sum_cons, ih, he]
              have hd : r' a.1 a.2 - k * r a.1 a.2 = k * evalPoly n c a.2 a.1 - evalPoly n c' a.2 a.1 := by rw [hc1, hc1']; ring
              linear_combination (r' a.1 a.2 - k * r a.1 a.2) * hd
          rw [this, o1, o2]; simp
        intro q hq
        have := all_zero (f := fun q => r' q.1 q.2 - k * r q.1 q.2) hsum.le hq
        linarith
  have v1 := values_eq (eta := eta) (m := m) (r := r) (by rw [e1, e2]; exact hr1)
  have v2 := values_eq (eta := eta') (m := m) (r := r') (by rw [e1', e2']; exact hr1')
  rw [e1, e2] at v1
  rw [e1', e2'] at v2
  have v3 : ((selected p.rows p.cols m).map fun q => r' q.1 q.2) = ((selected p.rows p.cols m).map fun q => r q.1 q.2).map fun v => k * v := by
    rw [List.map_map]
    exact List.map_congr_left hscale
  have hl0 : ((selected p.rows p.cols m).map fun q => r q.1 q.2) ≠ [] := by simpa using hsel
  obtain ⟨s1, s2, s3⟩ := scale_values hl0 k
  simp only [roughness, hm, hm', hf, hf', single, e1, e2, e1', e2', v1, v2, v3]
  obtain ⟨q, a, hq, ha, -⟩ := C48_sq_sa hl0
  rw [s1, s2, hq, ha]
  refine ⟨⟨q, rfl, rfl⟩, ⟨a, rfl, rfl⟩, fun hk => ?_⟩
  rw [(s3 hk).1, (s3 hk).2]
  exact ⟨⟨_, rfl, rfl⟩, rfl⟩

/-- The hypotheses can be met, with a fit. -/
example : LeastSquares bestFit ∧ (∃ adj coefs, subtractPolynomial bestFit false twoHeights 0 .none = .ok (adj, coefs)) ∧ maskArray twoHeights .none = .ok none ∧
    flatten bestFit twoHeights none false true = .ok twoHeights ∧ ∃ i j, i < twoHeights.rows ∧ j < twoHeights.cols ∧ used none i j = true :=
  ⟨bestFit_leastSquares, twoHeights_call, rfl, rfl, 0, 0, by decide, by decide, rfl⟩

/-! ## C48: lists of names -/

theorem single_keeps (st : Settings) (eta : Arr (Option ℝ)) (m : Option (Arr Bool)) (n : Param) (h : m = none ∨ (n ≠ .sds ∧ n ≠ .sz ∧ n ≠ .ssc)) : (single st eta m n).2 = eta := by
  rcases h with rfl | ⟨h1, h2, h3⟩
  · cases n <;> simp only [single, findSummits, maskArray, toMask]
    case sdr => split <;> [rfl; split <;> [rfl; split <;> rfl]]
    case ssc => split <;> rfl
  · cases n <;> simp only [single]
    case sds => exact absurd rfl h1
    case sz => exact absurd rfl h2
    case ssc => exact absurd rfl h3
    case sdr => split <;> [rfl; split <;> [rfl; split <;> rfl]]

theorem several_eq (st : Settings) (eta : Arr (Option ℝ)) (m : Option (Arr Bool)) (names : List Param) (h : ∀ n ∈ names, m = none ∨ (n ≠ .sds ∧ n ≠ .sz ∧ n ≠ .ssc)) :
    (several st eta m names).1 = names.mapM fun n => (single st eta m n).1 := by
  induction names with
  | nil => rfl
  | cons n ns ih =>
    have hk := single_keeps st eta m n (h n List.mem_cons_self)
    have ih := ih fun n hn => h n (List.mem_cons_of_mem _ hn)
    rw [List.mapM_cons, ← ih]
    show (match single st eta m n with
      | (.error e, eta) => ((.error e : Except PyErr (List Out)), eta)
      | (.ok o, eta) =>
        match several st eta m ns with
        | (.error e, eta) => (.error e, eta)
        | (.ok os, eta) => (.ok (o :: os), eta)).1 = _
    generalize single st eta m n = x at hk
    obtain ⟨o, eta2⟩ := x
    simp only at hk
    subst hk
    cases o with
    | error e => rfl
    | ok o =>
      simp only
      generalize several st eta2 m ns = y
      obtain ⟨os, eta3⟩ := y
      cases os <;> rfl

/-- **C48, lists of names.** Without a mask, asking for a list of parameters gives the values that asking for each alone gives (and the first error, if there is one). With a mask this holds for lists without sds, sz and ssc. -/
theorem C48_list_partial (lstsq : List (List ℝ) → List (Option ℝ) → Option (List ℝ)) (st : Settings) (p : Arr (Option ℝ)) (mask : MaskArg ℝ) (curved noFlat : Bool) (names : List Param) (hne : names ≠ [])
    (h : (∀ i, mask ≠ .array i) ∧ (∀ v, mask ≠ .float v) ∨ ∀ n ∈ names, n ≠ .sds ∧ n ≠ .sz ∧ n ≠ .ssc) :
    roughnessList lstsq st p mask curved noFlat names = names.mapM fun n => roughness lstsq st p mask curved noFlat n := by
  unfold roughnessList roughness
  cases hm : maskArray p mask with
  | error e =>
    cases names with
    | nil => exact absurd rfl hne
    | cons n ns => rfl
  | ok m =>
    simp only
    cases hfl : flatten lstsq p m curved noFlat with
    | error e =>
      cases names with
      | nil => exact absurd rfl hne
      | cons n ns => rfl
    | ok eta =>
      simp only
      apply several_eq
      rcases h with ⟨h1, h2⟩ | h
      · intro n _
        left
        cases mask with
        | none => cases hm; rfl
        | float v => exact absurd rfl (h2 v)
        | array a => exact absurd rfl (h1 a)
      · intro n hn; right; exact h n hn

/-- The hypotheses can be met. -/
example : (∀ i, (MaskArg.none : MaskArg ℝ) ≠ .array i) ∧ (∀ v, (MaskArg.none : MaskArg ℝ) ≠ .float v) ∧ [Param.sds, .sq] ≠ [] := by simp

/-- Nine heights of 1. -/
noncomputable def ones : Arr (Option ℝ) := ⟨3, 3, fun _ _ => some 1⟩

/-- A mask that uses all points. -/
def allTrue : Arr Bool := ⟨3, 3, fun _ _ => true⟩

theorem all_selected : selected 3 3 (some allTrue) = [(0, 0), (0, 1), (0, 2), (1, 0), (1, 1), (1, 2), (2, 0), (2, 1), (2, 2)] := by decide

/-- **C48 is false for lists with a mask.** Asked for the density of summits and Sq at once, with a mask that uses all points of a profile of ones, Sq is `nan`; alone it is 1. -/
theorem C48_list_fails (lstsq : List (List ℝ) → List (Option ℝ) → Option (List ℝ)) (st : Settings) (hf : st.filter = none) :
    roughness lstsq st ones (.array allTrue) false true .sq = .ok (.num (some 1)) ∧
    ∃ d, roughnessList lstsq st ones (.array allTrue) false true [.sds, .sq] = .ok [d, .num none] := by
  have hm : maskArray ones (.array allTrue) = .ok (some allTrue) := by simp [maskArray, ones, allTrue]
  have hv : valuesAt ones (selected ones.rows ones.cols (some allTrue)) = [(1 : ℝ), 1, 1, 1, 1, 1, 1, 1, 1].map some := by
    show valuesAt ones (selected 3 3 (some allTrue)) = _
    rw [all_selected]; simp [valuesAt, ones]
  constructor
  · simp only [roughness, hm, flatten, if_true, single, hv]
    rw [sq_some (by simp), show moment [1, 1, 1, 1, 1, 1, 1, 1, 1] 2 = 1 by simp [moment]; norm_num]
    simp
  · have hfs : ∃ s, findSummits ones (.array allTrue) st.four st.filter = .ok (s, ⟨3, 3, fun _ _ => none⟩) := by
      unfold findSummits
      rw [hm, hf]
      exact ⟨markSummits ⟨3, 3, fun _ _ => none⟩ st.four, by simp [ones, allTrue] <;> rfl⟩
    obtain ⟨s, hs⟩ := hfs
    simp only [roughnessList, hm, flatten, if_true, several, single, toMask, hs]
    have hn : sq (valuesAt (⟨3, 3, fun _ _ => none⟩ : Arr (Option ℝ)) (selected 3 3 (some allTrue))) = none := by
      rw [all_selected]
      simp [valuesAt, sq, mean, power, List.mapM_cons]
    rw [hn]
    exact ⟨_, rfl⟩

/-- The hypothesis can be met. -/
example : (⟨none, false, none⟩ : Settings).filter = none := rfl

/-! ## C49 -/

theorem cellArea_le (gs a b c d : ℝ) : gs ^ 2 ≤ cellArea (gs ^ 2) a b c d := by
  have hs : ∀ x : ℝ, |gs| ≤ Real.sqrt (gs ^ 2 + x ^ 2) := fun x => Real.abs_le_sqrt (by nlinarith [sq_nonneg x])
  have h1 := hs (a - b)
  have h2 := hs (d - c)
  have h3 := hs (a - c)
  have h4 := hs (b - d)
  unfold cellArea
  have hg : gs ^ 2 = |gs| * |gs| := by rw [← pow_two, sq_abs]
  have h0 := abs_nonneg gs
  have : (2 * |gs|) * (2 * |gs|) ≤ (Real.sqrt (gs ^ 2 + (a - b) ^ 2) + Real.sqrt (gs ^ 2 + (d - c) ^ 2)) * (Real.sqrt (gs ^ 2 + (a - c) ^ 2) + Real.sqrt (gs ^ 2 + (b - d) ^ 2)) :=
    mul_le_mul (by linarith) (by linarith) (by linarith) (by linarith)
  rw [hg] at *
  linarith

theorem cellArea_flat (gs a : ℝ) : cellArea (gs ^ 2) a a a a = gs ^ 2 := by
  unfold cellArea
  simp only [sub_self]
  rw [show gs ^ 2 + (0 : ℝ) ^ 2 = gs ^ 2 by ring, Real.sqrt_sq_eq_abs]
  have : |gs| * |gs| = gs ^ 2 := by rw [← pow_two, sq_abs]
  linarith

theorem product_map_const (n m : ℕ) (x : ℝ) : (((List.range n).product (List.range m)).map fun _ => x).sum = n * m * x := by
  rw [product_sum]; simp; ring

/-- The call for a profile of numbers. -/
theorem sdr_call (lstsq : List (List ℝ) → List (Option ℝ) → Option (List ℝ)) (four : Bool) (filter) (rows cols : ℕ) (h : ℕ → ℕ → ℝ) (gs : ℝ) (curved : Bool) :
    roughness lstsq ⟨some gs, four, filter⟩ ⟨rows, cols, fun i j => some (h i j)⟩ .none curved true .sdr = (sdr rows cols h gs).map .num := by
  simp only [roughness, maskArray, flatten, if_true, single]
  rw [values_eq (r := h) fun _ _ _ _ _ => rfl, mapM_some]
  simp

/-- **C49 is false.** For a flat surface the developed area ratio is a negative number: the area is summed over the `(rows - 1) * (columns - 1)` cells, but compared with the area of `rows * columns` cells. -/
theorem C49_flat_is_negative (lstsq : List (List ℝ) → List (Option ℝ) → Option (List ℝ)) (four : Bool) (filter) (rows cols : ℕ) (hr : 2 ≤ rows) (hc : 2 ≤ cols) (z gs : ℝ) (hg : gs ≠ 0) (curved : Bool) :
    ∃ v, roughness lstsq ⟨some gs, four, filter⟩ ⟨rows, cols, fun _ _ => some z⟩ .none curved true .sdr = .ok (.num (some v)) ∧ v < 0 ∧
      v = -((rows : ℝ) + cols - 1) / ((rows - 1) * (cols - 1)) := by
  rw [sdr_call _ _ _ _ _ (fun _ _ => z)]
  have hr' : (2 : ℝ) ≤ rows := by exact_mod_cast hr
  have hc' : (2 : ℝ) ≤ cols := by exact_mod_cast hc
  have hA : (((List.range (rows - 1)).product (List.range (cols - 1))).map fun _ => cellArea (gs ^ 2) z z z z).sum = ((rows : ℝ) - 1) * (cols - 1) * gs ^ 2 := by
    rw [product_map_const, cellArea_flat, Nat.cast_sub (by omega), Nat.cast_sub (by omega)]; simp
  have hg2 : 0 < gs ^ 2 := by positivity
  have hpos : 0 < ((rows : ℝ) - 1) * (cols - 1) := mul_pos (by linarith) (by linarith)
  refine ⟨-((rows : ℝ) + cols - 1) / ((rows - 1) * (cols - 1)), ?_, div_neg_of_neg_of_pos (by linarith) hpos, rfl⟩
  unfold sdr
  simp only [hA]
  rw [if_neg (by omega), if_neg (mul_pos hpos hg2).ne']
  simp only [Except.map, Except.ok.injEq, Out.num.injEq, Option.some.injEq]
  have h1 : (rows : ℝ) - 1 ≠ 0 := by linarith
  have h2 : (cols : ℝ) - 1 ≠ 0 := by linarith
  push_cast
  field_simp
  ring

example := C49_flat_is_negative (fun _ _ => none) true none 3 4 (by norm_num) (by norm_num) 5 1 one_ne_zero true

/-- **C49, what holds.** No surface has a smaller ratio than a flat one of the same size, the ratio is below 1, and it is what it should be if the area of the grid were counted in cells: `1 - A / area` with the area of the grid plus the excess `rows + cols - 1` cells. Missing from C49: the ratio of a flat
surface is not zero. -/
theorem C49_least_for_flat_partial (lstsq : List (List ℝ) → List (Option ℝ) → Option (List ℝ)) (four : Bool) (filter) (rows cols : ℕ) (hr : 2 ≤ rows) (hc : 2 ≤ cols) (h : ℕ → ℕ → ℝ) (gs : ℝ) (hg : gs ≠ 0) (curved : Bool) :
    ∃ v, roughness lstsq ⟨some gs, four, filter⟩ ⟨rows, cols, fun i j => some (h i j)⟩ .none curved true .sdr = .ok (.num (some v)) ∧
      -((rows : ℝ) + cols - 1) / ((rows - 1) * (cols - 1)) ≤ v ∧ v < 1 := by
  rw [sdr_call]
  have hr' : (2 : ℝ) ≤ rows := by exact_mod_cast hr
  have hc' : (2 : ℝ) ≤ cols := by exact_mod_cast hc
  have hg2 : 0 < gs ^ 2 := by positivity
  have hpos : 0 < ((rows : ℝ) - 1) * (cols - 1) := mul_pos (by linarith) (by linarith)
  have hle : ((rows : ℝ) - 1) * (cols - 1) * gs ^ 2 ≤
      (((List.range (rows - 1)).product (List.range (cols - 1))).map fun q => cellArea (gs ^ 2) (h q.1 q.2) (h q.1 (q.2 + 1)) (h (q.1 + 1) q.2) (h (q.1 + 1) (q.2 + 1))).sum := by
    have := product_map_const (rows - 1) (cols - 1) (gs ^ 2)
    rw [Nat.cast_sub (by omega), Nat.cast_sub (by omega)] at this
    simp only [Nat.cast_one] at this
    rw [← this]
    exact List.sum_le_sum fun q _ => cellArea_le gs _ _ _ _
  unfold sdr
  simp only
  generalize (((List.range (rows - 1)).product (List.range (cols - 1))).map fun q => cellArea (gs ^ 2) (h q.1 q.2) (h q.1 (q.2 + 1)) (h (q.1 + 1) q.2) (h (q.1 + 1) (q.2 + 1))).sum = A at hle
  have hA : 0 < A := lt_of_lt_of_le (mul_pos hpos hg2) hle
  rw [if_neg (by omega), if_neg hA.ne']
  refine ⟨_, rfl, ?_, ?_⟩
  · push_cast
    rw [div_le_div_iff₀ hpos hA]
    nlinarith [mul_nonneg (by linarith : (0 : ℝ) ≤ rows) (by linarith : (0 : ℝ) ≤ cols)]
  · rw [div_lt_one hA]
    push_cast
    have : 0 < (rows : ℝ) * cols * gs ^ 2 := mul_pos (mul_pos (by linarith) (by linarith)) hg2
    linarith

/-- The hypotheses can be met. -/
example : 2 ≤ 3 ∧ (1 : ℝ) ≠ 0 := by norm_num

/-! ## C73: the ten point height -/

/-- The ten point height: the mean height of the five highest summits and the five lowest valleys above the mean plane. -/
noncomputable def tenPoint (valleys summits : List ℝ) : ℝ := ((valleys.map fun v => |v|).sum + (summits.map fun s => |s|).sum) / 5

/-- **C73 is false.** The result for sz is never a number: it is an array, one entry for each of the valleys. -/
theorem C73_never_a_number (lstsq : List (List ℝ) → List (Option ℝ) → Option (List ℝ)) (st : Settings) (p : Arr (Option ℝ)) (mask : MaskArg ℝ) (curved noFlat : Bool) (v : Option ℝ) :
    roughness lstsq st p mask curved noFlat .sz ≠ .ok (.num v) := by
  unfold roughness
  split
  · intro h; cases h
  · split
    · intro h; cases h
    · rename_i m _ eta _
      simp only [single]
      split
      · intro h; cases h
      · split
        · intro h; cases h
        · generalize ten _ _ = t
          cases t <;> intro h <;> cases h

/-- **C73, five summits and valleys.** With five summits and valleys of heights given, each entry is one valley plus a fifth of one summit; with all valleys at -1 and all summits at 1 every entry is 1.2 though the ten point height is 2. -/
theorem C73_entries_wrong : ten (List.replicate 5 (some (-1))) (List.replicate 5 (some 1)) = .ok (List.replicate 5 (some 1.2)) ∧ tenPoint (List.replicate 5 (-1)) (List.replicate 5 1) = 2 := by
  constructor
  · have h : ∀ x : ℝ, sortNan (List.replicate 5 (some x)) = List.replicate 5 (some x) := by
      intro x
      simp [sortNan, List.replicate, List.insertionSort, List.orderedInsert, List.filterMap]
    unfold ten
    rw [h, h]
    simp [broadcast, List.replicate]
    norm_num
  · simp [tenPoint, List.replicate]; norm_num

/-! ## C74: material ratio -/

/-- The part of the material above a height: each point is a column. -/
noncomputable def materialRatio (height lowest : ℝ) (p : List ℝ) : ℝ := (p.map fun x => max (x - height) 0).sum / (p.map fun x => x - lowest).sum

theorem foldl_min_le (vs : List ℝ) (v : ℝ) : vs.foldl min v ≤ v ∧ ∀ x ∈ vs, vs.foldl min v ≤ x := by
  induction vs generalizing v with
  | nil => simp
  | cons a l ih =>
    obtain ⟨h1, h2⟩ := ih (min v a)
    refine ⟨h1.trans (min_le_left _ _), fun x hx => ?_⟩
    rcases List.mem_cons.1 hx with rfl | hx
    · exact h1.trans (min_le_right _ _)
    · exact h2 x hx

/-- **C74, shape.** The result has an entry for every point. -/
theorem C74_array (height : ℝ) (p : List ℝ) (void : Bool) (hp : p ≠ []) : ∃ l, matVr height p void = .ok l ∧ l.length = p.length := by
  cases p with
  | nil => exact absurd rfl hp
  | cons v vs => cases void <;> exact ⟨_, rfl, by simp⟩

example := C74_array 1 [10, 50] true (by simp)

/-- **C74 is false.** Of the heights 0, 1 and 2 a third of the material is above the height 1, but all entries of the result are 0: the points below take material away. -/
theorem C74_wrong : matVr 1 [0, 1, 2] false = .ok [some 0, some 0, some 0] ∧ materialRatio 1 0 [0, 1, 2] = 1 / 3 := by
  constructor
  · simp [matVr]; norm_num
  · simp [materialRatio]; norm_num

/-- **C74, what holds.** For a height below all points every entry is the material ratio. Missing from C74: the same for other heights, and one number as result. -/
theorem C74_below_all_partial (height : ℝ) (v : ℝ) (vs : List ℝ) (hb : ∀ x ∈ v :: vs, height < x) (hne : ∃ x ∈ v :: vs, x ≠ vs.foldl min v) :
    matVr height (v :: vs) false = .ok (List.replicate (v :: vs).length (some (materialRatio height (vs.foldl min v) (v :: vs)))) := by
  have hmin : ∀ x ∈ v :: vs, vs.foldl min v ≤ x := by
    intro x hx
    rcases List.mem_cons.1 hx with rfl | hx
    · exact (foldl_min_le vs x).1
    · exact (foldl_min_le vs v).2 x hx
  have hpos : 0 < ((v :: vs).map fun x => x - vs.foldl min v).sum := by
    obtain ⟨x, hx, hxne⟩ := hne
    have h1 : x - vs.foldl min v ≤ ((v :: vs).map fun x => x - vs.foldl min v).sum :=
      List.single_le_sum (by simp only [List.mem_map, forall_exists_index, and_imp]; rintro _ y hy rfl; exact sub_nonneg.2 (hmin y hy)) _ (List.mem_map_of_mem hx)
    have h2 : 0 < x - vs.foldl min v := sub_pos.2 (lt_of_le_of_ne (hmin x hx) (Ne.symm hxne))
    linarith
  have hmax : ((v :: vs).map fun x => max (x - height) 0) = (v :: vs).map fun x => x - height :=
    List.map_congr_left fun x hx => max_eq_left (sub_nonneg.2 (hb x hx).le)
  unfold matVr materialRatio
  simp only [Bool.false_eq_true, if_false, List.map_map, Except.ok.injEq]
  rw [hmax]
  rw [← List.map_const']
  apply List.map_congr_left
  intro x hx
  simp only [Function.comp_apply, if_pos (hb x hx), mul_one]
  rw [if_neg hpos.ne']

/-- The hypotheses can be met. -/
example : (∀ x ∈ (1 : ℝ) :: [2, 3], 0 < x) ∧ ∃ x ∈ (1 : ℝ) :: [2, 3], x ≠ [2, 3].foldl min (1 : ℝ) := by
  refine ⟨by simp, 3, by simp, ?_⟩
  norm_num

/-! ## C75: what a mask means -/

/-- **C75 is false: the mask `nan`.** The fit and the statistics use the points that are numbers; the search for summits hides exactly these, and the material ratio uses exactly the points that are `nan`. -/
theorem C75_nan (p : Arr (Option ℝ)) (four : Bool) (i j : ℕ) (hi : i < p.rows) (hj : j < p.cols) :
    (∃ m, polyMask p (.float none) = .ok m ∧ ((i, j) ∈ selected p.rows p.cols m ↔ p.val i j ≠ none)) ∧
    (∃ m, maskArray p (.float none) = .ok m ∧ ((i, j) ∈ selected p.rows p.cols m ↔ p.val i j ≠ none)) ∧
    (∃ s p', findSummits p (.float none) four none = .ok (s, p') ∧ p'.val i j = none) ∧
    ∃ l, matSelection p (.float none) = .ok l ∧ ((i, j) ∈ l ↔ p.val i j = none) := by
  refine ⟨⟨_, rfl, ?_⟩, ⟨_, rfl, ?_⟩, ⟨_, _, rfl, ?_⟩, ⟨_, rfl, ?_⟩⟩
  · rw [mem_selected]; simp [used, hi, hj, Option.isSome_iff_ne_none]
  · rw [mem_selected]; simp [used, hi, hj, Option.isSome_iff_ne_none]
  · by_cases h : (p.val i j).isSome = true
    · simp [h]
    · simp only; rw [if_neg h]; simpa using h
  · rw [mem_selected]; simp [used, hi, hj]

example := C75_nan ⟨2, 3, fun i _ => if i = 0 then none else some 1⟩ true 0 1 (by norm_num) (by norm_num)

/-- **C75 is false: arrays.** The fit and the statistics use the True points; the search for summits hides these, and the material ratio uses the others. -/
theorem C75_array (p : Arr (Option ℝ)) (a : Arr Bool) (ha : a.rows = p.rows ∧ a.cols = p.cols) (four : Bool) (i j : ℕ) (hi : i < p.rows) (hj : j < p.cols) :
    (∃ m, polyMask p (.array a) = .ok m ∧ ((i, j) ∈ selected p.rows p.cols m ↔ a.val i j = true)) ∧
    (∃ m, maskArray p (.array a) = .ok m ∧ ((i, j) ∈ selected p.rows p.cols m ↔ a.val i j = true)) ∧
    (∃ s p', findSummits p (.array a) four none = .ok (s, p') ∧ (a.val i j = true → p'.val i j = none) ∧ (a.val i j = false → p'.val i j = p.val i j)) ∧
    ∃ l, matSelection p (.array a) = .ok l ∧ ((i, j) ∈ l ↔ a.val i j = false) := by
  have h1 : polyMask p (.array a) = .ok (some a) := by simp only [polyMask]; rw [if_pos ha]
  have h2 : maskArray p (.array a) = .ok (some a) := by simp only [maskArray]; rw [if_pos ha]
  refine ⟨⟨_, h1, ?_⟩, ⟨_, h2, ?_⟩, ?_, ?_⟩
  · rw [mem_selected]; simp [used, hi, hj]
  · rw [mem_selected]; simp [used, hi, hj]
  · unfold findSummits
    rw [h2]
    refine ⟨_, _, rfl, fun h => by simp [h], fun h => by simp [h]⟩
  · unfold matSelection
    rw [h2]
    refine ⟨_, rfl, ?_⟩
    rw [mem_selected]; simp [used, hi, hj]

example := C75_array ⟨2, 3, fun i _ => if i = 0 then none else some 1⟩ ⟨2, 3, fun i j => i == j⟩ ⟨rfl, rfl⟩ true 0 1 (by norm_num) (by norm_num)

/-- **C75 is false: numbers.** A number leaves out the points of that height in the fit, and raises `TypeError` everywhere else. -/
theorem C75_number (lstsq : List (List ℝ) → List (Option ℝ) → Option (List ℝ)) (st : Settings) (p : Arr (Option ℝ)) (v : ℝ) (four curved noFlat : Bool) (name : Param) :
    (∃ m, polyMask p (.float (some v)) = .ok m ∧ ∀ i j, used m i j = true ↔ p.val i j ≠ some v) ∧
    roughness lstsq st p (.float (some v)) curved noFlat name = .error .typeError ∧ findSummits p (.float (some v)) four none = .error .typeError ∧
    matSelection p (.float (some v)) = .error .typeError :=
  ⟨⟨_, rfl, fun i j => by simp [used]⟩, rfl, rfl, rfl⟩

/-- The hypotheses can be met. -/
example : 1 < ones.rows ∧ 1 < ones.cols ∧ allTrue.rows = ones.rows ∧ allTrue.cols = ones.cols := by decide

end Verif.Rough
