import Mathlib.Data.Real.Basic
import Mathlib.Algebra.BigOperators.Group.List.Basic
import Mathlib.Algebra.Order.BigOperators.Group.List
import Mathlib.Algebra.BigOperators.Fin
import Mathlib.Algebra.BigOperators.Ring.Finset
import Mathlib.Tactic.FieldSimp
import Mathlib.Data.List.ProdSigma
import Mathlib.Data.List.Nodup
import Mathlib.Tactic.Linarith
import Mathlib.Tactic.Ring
import Mathlib.Tactic.LinearCombination
import Mathlib.Tactic.Positivity
import Verif.Rough.Summits

/-!
# C50: `subtract_polynomial`, `slippy/surface/roughness_funcs.py` l.759-880

Heights are `Option ℝ` (`none` is `nan`). `numpy.linalg.lstsq` is an arbitrary function of the matrix and the heights; `none` stands for a failure or for coefficients that are `nan` or infinite, both of which become `ValueError` (l.855-866).
-/

namespace Verif.Rough

open Classical in
/-- The mask, l.826-837 (`isinstance(mask, Number)`, and here the brackets are right): True for the points used. -/
noncomputable def polyMask (p : Arr (Option ℝ)) : MaskArg ℝ → Except PyErr (Option (Arr Bool))
  | .none => .ok Option.none
  | .float Option.none => .ok (some ⟨p.rows, p.cols, fun i j => (p.val i j).isSome⟩)
  | .float (some v) => .ok (some ⟨p.rows, p.cols, fun i j => !decide (p.val i j = some v)⟩)
  | .array m => if m.rows = p.rows ∧ m.cols = p.cols then .ok (some m) else .error .typeError

/-- The points used: all without a mask. -/
def used (m : Option (Arr Bool)) (i j : ℕ) : Bool :=
  match m with
  | some m => m.val i j
  | Option.none => true

/-- `arr[mask]` keeps the points in the order of the rows; `flatten` keeps all. -/
def selected (rows cols : ℕ) (m : Option (Arr Bool)) : List (ℕ × ℕ) :=
  ((List.range rows).product (List.range cols)).filter fun q => used m q.1 q.2

/-- `itertools.product(range(order + 1), range(order + 1))`, l.850 and l.870. -/
def terms (order : ℕ) : List (ℕ × ℕ) := (List.range (order + 1)).product (List.range (order + 1))

/-- `x ** i * y ** j`, where `x` is the number of the column and `y` the number of the row (l.821-823). -/
noncomputable def monomial (t q : ℕ × ℕ) : ℝ := (q.2 : ℝ) ^ t.1 * (q.1 : ℝ) ^ t.2

/-- A row of the matrix `g`, l.852-853. -/
noncomputable def gRow (order : ℕ) (q : ℕ × ℕ) : List ℝ := (terms order).map fun t => monomial t q

/-- The loop l.872-873. -/
noncomputable def polyAt (order : ℕ) (coefs : List ℝ) (q : ℕ × ℕ) : ℝ :=
  ((coefs.zip (terms order)).map fun at' => at'.1 * monomial at'.2 q).sum

/-- `subtract_polynomial(profile, order, mask)`; `isInt` says that the profile has integers, into which l.873 cannot add (`TypeError`). -/
noncomputable def subtractPolynomial (lstsq : List (List ℝ) → List (Option ℝ) → Option (List ℝ)) (isInt : Bool) (p : Arr (Option ℝ)) (order : ℕ) (mask : MaskArg ℝ) :
    Except PyErr (Arr (Option ℝ) × List ℝ) :=
  match polyMask p mask with
  | .error e => .error e
  | .ok m =>
    let pts := selected p.rows p.cols m
    match lstsq (pts.map (gRow order)) (pts.map fun q => p.val q.1 q.2) with
    | Option.none => .error .valueError
    | some coefs =>
      if isInt = true ∧ coefs ≠ [] then .error .typeError
      else .ok (⟨p.rows, p.cols, fun i j =>
        if used m i j = true then (p.val i j).map fun v => v - polyAt order coefs (i, j)
        else p.val i j⟩, coefs)

/-! ## Specification -/

/-- The value of the polynomial with coefficient `c i j` of `x ^ i * y ^ j`, `i` and `j` at most `n`. -/
noncomputable def evalPoly (n : ℕ) (c : ℕ → ℕ → ℝ) (x y : ℝ) : ℝ := ∑ i ∈ Finset.range (n + 1), ∑ j ∈ Finset.range (n + 1), c i j * x ^ i * y ^ j

/-- What `lstsq` promises: for real data a result has one coefficient for each column and the sum of squares is as small as possible. -/
def LeastSquares (lstsq : List (List ℝ) → List (Option ℝ) → Option (List ℝ)) : Prop :=
  ∀ (g : List (List ℝ)) (z : List ℝ) (c : List ℝ) (n : ℕ), (∀ r ∈ g, r.length = n) → g.length = z.length → g ≠ [] → lstsq g (z.map some) = some c → c.length = n ∧
    ∀ d : List ℝ, d.length = n →
      ((g.zip z).map fun rz => (rz.2 - (List.zipWith (· * ·) c rz.1).sum) ^ 2).sum ≤ ((g.zip z).map fun rz => (rz.2 - (List.zipWith (· * ·) d rz.1).sum) ^ 2).sum

/-! ## Lemmas -/

theorem dot_eq (order : ℕ) (c : List ℝ) (q : ℕ × ℕ) : (List.zipWith (· * ·) c (gRow order q)).sum = polyAt order c q := by
  unfold gRow polyAt
  generalize terms order = L
  induction L generalizing c with
  | nil => cases c <;> simp
  | cons a L ih => cases c with
    | nil => simp
    | cons x c => simp [ih]

theorem polyAt_map (order : ℕ) (f : ℕ × ℕ → ℝ) (q : ℕ × ℕ) : polyAt order ((terms order).map f) q = ((terms order).map fun t => f t * monomial t q).sum := by
  unfold polyAt
  generalize terms order = L
  induction L with
  | nil => simp
  | cons a L ih => simp [ih]

theorem product_sum (n m : ℕ) (f : ℕ × ℕ → ℝ) : (((List.range n).product (List.range m)).map f).sum = ∑ i ∈ Finset.range n, ∑ j ∈ Finset.range m, f (i, j) := by
  induction n with
  | zero => simp [List.product]
  | succ n ih =>
    rw [Finset.sum_range_succ, ← ih, List.range_succ]
    simp only [List.product, List.flatMap_append, List.map_append, List.sum_append, List.flatMap_cons, List.flatMap_nil, List.append_nil, List.map_map, add_right_inj]
    rw [Finset.sum_range fun j => f (n, j), ← List.sum_ofFn]
    congr 1
    apply List.ext_getElem <;> simp

theorem polyAt_eval (order : ℕ) (c : ℕ → ℕ → ℝ) (q : ℕ × ℕ) : polyAt order ((terms order).map fun t => c t.1 t.2) q = evalPoly order c q.2 q.1 := by
  rw [polyAt_map, terms, product_sum]
  unfold evalPoly
  exact Finset.sum_congr rfl fun i _ => Finset.sum_congr rfl fun j _ => by simp only [monomial]; ring

theorem terms_nodup (n : ℕ) : (terms n).Nodup := List.Nodup.product List.nodup_range List.nodup_range

theorem exists_fun {α : Type} [DecidableEq α] (L : List α) (hL : L.Nodup) (c : List ℝ) (hc : c.length = L.length) : ∃ f : α → ℝ, c = L.map f := by
  refine ⟨fun t => c.getD (L.idxOf t) 0, ?_⟩
  apply List.ext_getElem (by simp [hc])
  intro i h1 h2
  simp only [List.getElem_map]
  have h3 : i < L.length := by omega
  rw [hL.idxOf_getElem i h3]
  simp [h1]

theorem orthogonal (pts : List (ℕ × ℕ)) (r s : ℕ × ℕ → ℝ) (h : ∀ t : ℝ, (pts.map fun q => r q ^ 2).sum ≤ (pts.map fun q => (r q - t * s q) ^ 2).sum) :
    (pts.map fun q => r q * s q).sum = 0 := by
  have expand : ∀ t : ℝ, (pts.map fun q => (r q - t * s q) ^ 2).sum = (pts.map fun q => r q ^ 2).sum - 2 * t * (pts.map fun q => r q * s q).sum + t ^ 2 * (pts.map fun q => s q ^ 2).sum := by
    intro t
    clear h
    induction pts with
    | nil => simp
    | cons a l ih => simp only [List.map_cons, List.sum_cons, ih]; ring
  have hS : 0 ≤ (pts.map fun q => s q ^ 2).sum := List.sum_nonneg (by simp only [List.mem_map, forall_exists_index, and_imp]; rintro _ q _ rfl; positivity)
  generalize (pts.map fun q => s q ^ 2).sum = S at expand hS
  generalize (pts.map fun q => r q * s q).sum = B at expand
  have h1 := h (B / (S + 1))
  rw [expand] at h1
  have hpos : 0 < S + 1 := by linarith
  have h2 : B ^ 2 * (S + 2) ≤ 0 := by
    have h3 : 0 ≤ -(2 * (B / (S + 1)) * B) + (B / (S + 1)) ^ 2 * S := by linarith
    have h4 : (-(2 * (B / (S + 1)) * B) + (B / (S + 1)) ^ 2 * S) * (S + 1) ^ 2 = -(B ^ 2 * (S + 2)) := by field_simp; ring
    have h5 : 0 ≤ (-(2 * (B / (S + 1)) * B) + (B / (S + 1)) ^ 2 * S) * (S + 1) ^ 2 := mul_nonneg h3 (by positivity)
    linarith
  have h3 : B ^ 2 = 0 := by nlinarith [sq_nonneg B]
  exact pow_eq_zero_iff (by norm_num) |>.1 h3

theorem sum_used (rows cols : ℕ) (m : Option (Arr Bool)) (f : ℕ × ℕ → ℝ) :
    ((selected rows cols m).map f).sum = ∑ i ∈ Finset.range rows, ∑ j ∈ Finset.range cols, if used m i j = true then f (i, j) else 0 := by
  have : ∀ L : List (ℕ × ℕ), ((L.filter fun q => used m q.1 q.2).map f).sum = (L.map fun q => if used m q.1 q.2 = true then f q else 0).sum := by
    intro L
    induction L with
    | nil => rfl
    | cons a L ih => by_cases h : used m a.1 a.2 = true <;> simp [h, ih]
  rw [selected, this, product_sum]

theorem mem_selected (rows cols : ℕ) (m : Option (Arr Bool)) (i j : ℕ) : (i, j) ∈ selected rows cols m ↔ i < rows ∧ j < cols ∧ used m i j = true := by
  simp [selected, List.product, and_assoc]

/-- The fit of a call that succeeds. -/
theorem call_fit {lstsq : List (List ℝ) → List (Option ℝ) → Option (List ℝ)} (hl : LeastSquares lstsq) {isInt : Bool} {p : Arr (Option ℝ)} {order : ℕ} {mask : MaskArg ℝ} {m : Option (Arr Bool)}
    (hm : polyMask p mask = .ok m) {adj : Arr (Option ℝ)} {coefs : List ℝ} (hcall : subtractPolynomial lstsq isInt p order mask = .ok (adj, coefs)) {h : ℕ → ℕ → ℝ}
    (hh : ∀ i j, i < p.rows → j < p.cols → used m i j = true → p.val i j = some (h i j)) (hne : selected p.rows p.cols m ≠ []) :
    adj.rows = p.rows ∧ adj.cols = p.cols ∧
    ∃ c, (∀ i j, i < p.rows → j < p.cols → adj.val i j = if used m i j = true then some (h i j - evalPoly order c j i) else p.val i j) ∧
      coefs = (terms order).map (fun t => c t.1 t.2) ∧
      ∀ d : ℕ → ℕ → ℝ, ((selected p.rows p.cols m).map fun q => (h q.1 q.2 - evalPoly order c q.2 q.1) ^ 2).sum ≤
        ((selected p.rows p.cols m).map fun q => (h q.1 q.2 - evalPoly order d q.2 q.1) ^ 2).sum := by
  unfold subtractPolynomial at hcall
  rw [hm] at hcall
  simp only at hcall
  split at hcall
  · cases hcall
  · rename_i cf hcf
    split at hcall
    · cases hcall
    · simp only [Except.ok.injEq, Prod.mk.injEq] at hcall
      obtain ⟨rfl, rfl⟩ := hcall
      have hz : ((selected p.rows p.cols m).map fun q => p.val q.1 q.2) = ((selected p.rows p.cols m).map fun q => h q.1 q.2).map some := by
        rw [List.map_map]
        apply List.map_congr_left
        rintro ⟨i, j⟩ hq
        rw [mem_selected] at hq
        exact hh i j hq.1 hq.2.1 hq.2.2
      rw [hz] at hcf
      obtain ⟨hlen, hmin⟩ := hl _ _ _ (terms order).length (by simp only [List.mem_map, forall_exists_index, and_imp]; rintro _ q _ rfl; simp [gRow]) (by simp) (by simpa using hne) hcf
      obtain ⟨c, rfl⟩ := exists_fun (terms order) (terms_nodup order) cf hlen
      have key : ∀ q, polyAt order ((terms order).map c) q = evalPoly order (fun i j => c (i, j)) q.2 q.1 := fun q => polyAt_eval order (fun i j => c (i, j)) q
      refine ⟨rfl, rfl, fun i j => c (i, j), ?_, rfl, ?_⟩
      · intro i j hi hj
        simp only
        split
        · rename_i hu
          rw [hh i j hi hj hu]
          simp only [Option.map_some]
          rw [key]
        · rfl
      · intro d
        have := hmin ((terms order).map fun t => d t.1 t.2) (by simp)
        simp only [List.zip_map', List.map_map, Function.comp_def, dot_eq, polyAt_eval, key] at this
        exact this

theorem eval_linear (n : ℕ) (c d : ℕ → ℕ → ℝ) (t x y : ℝ) : evalPoly n (fun i j => c i j + t * d i j) x y = evalPoly n c x y + t * evalPoly n d x y := by
  unfold evalPoly
  rw [Finset.mul_sum, ← Finset.sum_add_distrib]
  refine Finset.sum_congr rfl fun i _ => ?_
  rw [Finset.mul_sum, ← Finset.sum_add_distrib]
  exact Finset.sum_congr rfl fun j _ => by ring

theorem eval_single (n a b : ℕ) (ha : a ≤ n) (hb : b ≤ n) (x y : ℝ) : evalPoly n (fun i j => if i = a ∧ j = b then 1 else 0) x y = x ^ a * y ^ b := by
  unfold evalPoly
  rw [Finset.sum_eq_single a, Finset.sum_eq_single b]
  · simp
  · intro j _ hj; simp [hj]
  · intro h; exact absurd (Finset.mem_range.2 (by omega)) h
  · intro i _ hi; exact Finset.sum_eq_zero fun j _ => by simp [hi]
  · intro h; exact absurd (Finset.mem_range.2 (by omega)) h

theorem fit_orthogonal (n : ℕ) (pts : List (ℕ × ℕ)) (h : ℕ → ℕ → ℝ) (c : ℕ → ℕ → ℝ)
    (hmin : ∀ d : ℕ → ℕ → ℝ, (pts.map fun q => (h q.1 q.2 - evalPoly n c q.2 q.1) ^ 2).sum ≤ (pts.map fun q => (h q.1 q.2 - evalPoly n d q.2 q.1) ^ 2).sum) (d : ℕ → ℕ → ℝ) :
    (pts.map fun q => (h q.1 q.2 - evalPoly n c q.2 q.1) * evalPoly n d q.2 q.1).sum = 0 := by
  apply orthogonal pts (fun q => h q.1 q.2 - evalPoly n c q.2 q.1) (fun q => evalPoly n d q.2 q.1)
  intro t
  have := hmin fun i j => c i j + t * d i j
  simp only [eval_linear] at this
  simpa only [sub_sub] using this

theorem all_zero {pts : List (ℕ × ℕ)} {f : ℕ × ℕ → ℝ} (h : (pts.map fun q => f q ^ 2).sum ≤ 0) {q : ℕ × ℕ} (hq : q ∈ pts) : f q = 0 := by
  have h1 : f q ^ 2 ≤ (pts.map fun q => f q ^ 2).sum :=
    List.single_le_sum (by simp only [List.mem_map, forall_exists_index, and_imp]; rintro _ q _ rfl; positivity) _ (List.mem_map_of_mem hq)
  have h2 : f q ^ 2 = 0 := le_antisymm (by linarith) (by positivity)
  exact pow_eq_zero_iff (by norm_num) |>.1 h2

/-! ## C50 -/

/-- **C50, residual.** A call that succeeds takes away a polynomial with powers up to the order; over the points used, what remains is orthogonal to every term that was fitted; the other points keep their heights. -/
theorem C50_orthogonal {lstsq : List (List ℝ) → List (Option ℝ) → Option (List ℝ)} (hl : LeastSquares lstsq) {isInt : Bool} {p : Arr (Option ℝ)} {order : ℕ} {mask : MaskArg ℝ} {m : Option (Arr Bool)}
    (hm : polyMask p mask = .ok m) {adj : Arr (Option ℝ)} {coefs : List ℝ} (hcall : subtractPolynomial lstsq isInt p order mask = .ok (adj, coefs)) {h : ℕ → ℕ → ℝ}
    (hh : ∀ i j, i < p.rows → j < p.cols → used m i j = true → p.val i j = some (h i j)) (hne : ∃ i j, i < p.rows ∧ j < p.cols ∧ used m i j = true) :
    adj.rows = p.rows ∧ adj.cols = p.cols ∧ ∃ (c : ℕ → ℕ → ℝ) (res : ℕ → ℕ → ℝ),
      (∀ i j, i < p.rows → j < p.cols → adj.val i j = if used m i j = true then some (res i j) else p.val i j) ∧
      (∀ i j : ℕ, res i j = h i j - evalPoly order c j i) ∧
      ∀ a b : ℕ, a ≤ order → b ≤ order → (∑ i ∈ Finset.range p.rows, ∑ j ∈ Finset.range p.cols, if used m i j = true then res i j * ((j : ℝ) ^ a * (i : ℝ) ^ b) else 0) = 0 := by
  obtain ⟨i0, j0, hi0, hj0, hu0⟩ := hne
  obtain ⟨h1, h2, c, h3, -, h4⟩ := call_fit hl hm hcall hh (List.ne_nil_of_mem ((mem_selected _ _ _ i0 j0).2 ⟨hi0, hj0, hu0⟩))
  refine ⟨h1, h2, c, fun i j => h i j - evalPoly order c j i, h3, fun _ _ => rfl, fun a b ha hb => ?_⟩
  have := fit_orthogonal order _ h c h4 fun i j => if i = a ∧ j = b then 1 else 0
  simp only [eval_single _ _ _ ha hb] at this
  rw [sum_used] at this
  exact this

/-- **C50, polynomials.** If the heights used are a polynomial with powers up to the order, what remains there is zero. -/
theorem C50_polynomial {lstsq : List (List ℝ) → List (Option ℝ) → Option (List ℝ)} (hl : LeastSquares lstsq) {isInt : Bool} {p : Arr (Option ℝ)} {order : ℕ} {mask : MaskArg ℝ} {m : Option (Arr Bool)}
    (hm : polyMask p mask = .ok m) {adj : Arr (Option ℝ)} {coefs : List ℝ} (hcall : subtractPolynomial lstsq isInt p order mask = .ok (adj, coefs)) (d : ℕ → ℕ → ℝ)
    (hh : ∀ i j : ℕ, i < p.rows → j < p.cols → used m i j = true → p.val i j = some (evalPoly order d j i)) :
    ∀ i j, i < p.rows → j < p.cols → used m i j = true → adj.val i j = some 0 := by
  intro i j hi hj hu
  have hmem := (mem_selected p.rows p.cols m i j).2 ⟨hi, hj, hu⟩
  obtain ⟨-, -, c, h3, -, h4⟩ := call_fit (h := fun i j => evalPoly order d j i) hl hm hcall hh (List.ne_nil_of_mem hmem)
  rw [h3 i j hi hj, if_pos hu]
  have := h4 d
  simp only [sub_self] at this
  rw [show ((selected p.rows p.cols m).map fun _ => (0 : ℝ) ^ 2).sum = 0 by simp] at this
  have := all_zero (f := fun q => evalPoly order d q.2 q.1 - evalPoly order c q.2 q.1) this hmem
  simp only at this
  rw [this]

/-- **C50, adding a polynomial.** Adding a polynomial with powers up to the order does not change what remains. -/
theorem C50_polynomial_added {lstsq : List (List ℝ) → List (Option ℝ) → Option (List ℝ)} (hl : LeastSquares lstsq) {isInt isInt' : Bool} {p p' : Arr (Option ℝ)} {order : ℕ} {mask mask' : MaskArg ℝ}
    {m : Option (Arr Bool)} (hm : polyMask p mask = .ok m) (hm' : polyMask p' mask' = .ok m) (hr : p'.rows = p.rows) (hc : p'.cols = p.cols) {adj adj' : Arr (Option ℝ)} {coefs coefs' : List ℝ}
    (hcall : subtractPolynomial lstsq isInt p order mask = .ok (adj, coefs)) (hcall' : subtractPolynomial lstsq isInt' p' order mask' = .ok (adj', coefs')) (h : ℕ → ℕ → ℝ) (d : ℕ → ℕ → ℝ)
    (hh : ∀ i j, i < p.rows → j < p.cols → used m i j = true → p.val i j = some (h i j))
    (hh' : ∀ i j : ℕ, i < p.rows → j < p.cols → used m i j = true → p'.val i j = some (h i j + evalPoly order d j i)) :
    ∀ i j, i < p.rows → j < p.cols → used m i j = true → adj'.val i j = adj.val i j := by
  intro i j hi hj hu
  have hmem := (mem_selected p.rows p.cols m i j).2 ⟨hi, hj, hu⟩
  obtain ⟨-, -, c, h3, -, h4⟩ := call_fit (h := h) hl hm hcall hh (List.ne_nil_of_mem hmem)
  obtain ⟨-, -, c', h3', -, h4'⟩ := call_fit (h := fun i j => h i j + evalPoly order d j i) hl hm' hcall' (by rw [hr, hc]; exact hh') (by rw [hr, hc]; exact List.ne_nil_of_mem hmem)
  rw [hr, hc] at h3' h4'
  rw [h3 i j hi hj, h3' i j hi hj, if_pos hu, if_pos hu, Option.some.injEq]
  -- the difference of the two residuals is a polynomial, and orthogonal to all polynomials
  let e : ℕ → ℕ → ℝ := fun i j => (c i j + 1 * d i j) + (-1) * c' i j
  have he : ∀ x y, evalPoly order e x y = evalPoly order c x y + evalPoly order d x y - evalPoly order c' x y := by
    intro x y
    show evalPoly order (fun i j => (fun i j => c i j + 1 * d i j) i j + (-1) * c' i j) x y = _
    rw [eval_linear, eval_linear]
    ring
  have o1 := fit_orthogonal order _ h c h4 e
  have o2 := fit_orthogonal order _ (fun i j => h i j + evalPoly order d j i) c' h4' e
  have hsq : ((selected p.rows p.cols m).map fun q => evalPoly order e q.2 q.1 ^ 2).sum = 0 := by
    have : ∀ L : List (ℕ × ℕ), (L.map fun q => evalPoly order e q.2 q.1 ^ 2).sum =
        (L.map fun q => (h q.1 q.2 + evalPoly order d q.2 q.1 - evalPoly order c' q.2 q.1) * evalPoly order e q.2 q.1).sum -
        (L.map fun q => (h q.1 q.2 - evalPoly order c q.2 q.1) * evalPoly order e q.2 q.1).sum := by
      intro L
      induction L with
      | nil => simp
      | cons a L ih => simp only [List.map_cons, List.sum_cons, ih]; linear_combination (evalPoly order e a.2 a.1) * he a.2 a.1
    rw [this, o1]
    simpa using o2
  have hz := all_zero (f := fun q => evalPoly order e q.2 q.1) hsq.le hmem
  simp only [he] at hz
  linarith

/-- **C50, masks.** The mask `nan` leaves out the points that are `nan`, a number leaves out the points with that height, an array the points that are False. -/
theorem C50_mask_meaning (p : Arr (Option ℝ)) (v : ℝ) (a : Arr Bool) (ha : a.rows = p.rows ∧ a.cols = p.cols) :
    (∃ m, polyMask p (.float none) = .ok m ∧ ∀ i j, used m i j = true ↔ p.val i j ≠ none) ∧
    (∃ m, polyMask p (.float (some v)) = .ok m ∧ ∀ i j, used m i j = true ↔ p.val i j ≠ some v) ∧
    (∃ m, polyMask p (.array a) = .ok m ∧ ∀ i j, used m i j = true ↔ a.val i j = true) ∧
    ∃ m, polyMask p .none = .ok m ∧ ∀ i j, used m i j = true := by
  refine ⟨⟨_, rfl, fun i j => ?_⟩, ⟨_, rfl, fun i j => ?_⟩, ⟨some a, ?_, fun i j => Iff.rfl⟩, ⟨_, rfl, fun i j => rfl⟩⟩
  · simp [used, Option.isSome_iff_ne_none]
  · simp [used]
  · simp only [polyMask]; rw [if_pos ha]

/-- **C50, excluded points.** Points left out by the mask do not influence the polynomial, nor what remains at the other points. -/
theorem C50_excluded_do_not_matter (lstsq : List (List ℝ) → List (Option ℝ) → Option (List ℝ)) (isInt : Bool) {p p' : Arr (Option ℝ)} {order : ℕ} {mask mask' : MaskArg ℝ}
    {m : Option (Arr Bool)} (hm : polyMask p mask = .ok m) (hm' : polyMask p' mask' = .ok m) (hr : p'.rows = p.rows) (hc : p'.cols = p.cols)
    (hh : ∀ i j, i < p.rows → j < p.cols → used m i j = true → p'.val i j = p.val i j) :
    match subtractPolynomial lstsq isInt p order mask, subtractPolynomial lstsq isInt p' order mask' with
    | .ok (adj, coefs), .ok (adj', coefs') => coefs' = coefs ∧ ∀ i j, i < p.rows → j < p.cols → used m i j = true → adj'.val i j = adj.val i j
    | .error e, .error e' => e = e'
    | _, _ => False := by
  unfold subtractPolynomial
  rw [hm, hm']
  simp only [hr, hc]
  have : ((selected p.rows p.cols m).map fun q => p'.val q.1 q.2) = ((selected p.rows p.cols m).map fun q => p.val q.1 q.2) := by
    apply List.map_congr_left
    rintro ⟨i, j⟩ hq
    rw [mem_selected] at hq
    exact hh i j hq.1 hq.2.1 hq.2.2
  rw [this]
  cases lstsq ((selected p.rows p.cols m).map (gRow order)) ((selected p.rows p.cols m).map fun q => p.val q.1 q.2) with
  | none => rfl
  | some coefs =>
    simp only
    split
    · rename_i h1 h2; split at h1 <;> [cases h1; skip]; rename_i hi; rw [if_neg hi] at h2; cases h1; cases h2
      refine ⟨rfl, fun i j hi hj hu => ?_⟩
      simp only [hu, if_true, hh i j hi hj hu]
    · rename_i h1 h2; split at h1 <;> [skip; cases h1]; rename_i hi; rw [if_pos hi] at h2; cases h1; cases h2; rfl
    · rename_i h1 h2
      by_cases hi : isInt = true ∧ coefs ≠ []
      · rw [if_pos hi, if_pos hi] at *
        exact h2 _ _ rfl rfl
      · rw [if_neg hi, if_neg hi] at *
        exact h1 _ _ _ _ rfl rfl

/-- **C50 is false for integers.** A profile of integers is refused with `TypeError` once the coefficients are found. -/
theorem C50_integers_refused (lstsq : List (List ℝ) → List (Option ℝ) → Option (List ℝ)) {p : Arr (Option ℝ)} {order : ℕ} (coefs : List ℝ) (hne : coefs ≠ [])
    (hl : lstsq ((selected p.rows p.cols none).map (gRow order)) ((selected p.rows p.cols none).map fun q => p.val q.1 q.2) = some coefs) :
    subtractPolynomial lstsq true p order .none = .error .typeError := by
  unfold subtractPolynomial
  simp only [polyMask, hl, hne, ne_eq, not_false_eq_true, and_self, if_true]

/-! ## The hypotheses can be met -/

/-- `c` is a least squares solution. -/
def GoodFit (g : List (List ℝ)) (z c : List ℝ) : Prop :=
  (∀ r ∈ g, r.length = c.length) ∧ ∀ d : List ℝ, d.length = c.length →
    ((g.zip z).map fun rz => (rz.2 - (List.zipWith (· * ·) c rz.1).sum) ^ 2).sum ≤ ((g.zip z).map fun rz => (rz.2 - (List.zipWith (· * ·) d rz.1).sum) ^ 2).sum

open Classical in
/-- A least squares solution, if there is one. -/
noncomputable def bestFit (g : List (List ℝ)) (z : List (Option ℝ)) : Option (List ℝ) :=
  if h : ∃ c : List ℝ, ∃ zr : List ℝ, z = zr.map some ∧ GoodFit g zr c then some h.choose else none

theorem bestFit_leastSquares : LeastSquares bestFit := by
  intro g z c n hg _ hne hc
  unfold bestFit at hc
  split at hc
  · rename_i h
    cases hc
    obtain ⟨zr, hz, h1, h2⟩ := h.choose_spec
    have : zr = z := by
      have := List.map_injective_iff.2 (Option.some_injective ℝ) hz
      exact this.symm
    subst this
    obtain ⟨r, hr⟩ := List.exists_mem_of_ne_nil g hne
    have hn : h.choose.length = n := (h1 r hr).symm.trans (hg r hr)
    exact ⟨hn, fun d hd => h2 d (hd.trans hn.symm)⟩
  · cases hc

/-- Two heights 0 and 2, and the order 0. -/
def twoHeights : Arr (Option ℝ) := ⟨1, 2, fun _ j => some (2 * (j : ℝ))⟩

theorem twoHeights_call : ∃ adj coefs, subtractPolynomial bestFit false twoHeights 0 .none = .ok (adj, coefs) := by
  have hs : selected 1 2 none = [(0, 0), (0, 1)] := by decide
  have ht : terms 0 = [(0, 0)] := by decide
  have hgood : GoodFit ((selected twoHeights.rows twoHeights.cols none).map (gRow 0)) [0, 2] [1] := by
    show GoodFit ((selected 1 2 none).map (gRow 0)) [0, 2] [1]
    rw [hs]
    refine ⟨by simp [gRow, ht], ?_⟩
    intro d hd
    obtain ⟨x, rfl⟩ := List.length_eq_one_iff.1 hd
    simp [gRow, ht, monomial]
    nlinarith [sq_nonneg (x - 1)]
  have hz : ((selected twoHeights.rows twoHeights.cols none).map fun q => twoHeights.val q.1 q.2) = [0, 2].map some := by
    show ((selected 1 2 none).map fun q => twoHeights.val q.1 q.2) = _
    rw [hs]; simp [twoHeights]
  unfold subtractPolynomial
  simp only [polyMask]
  rw [hz]
  unfold bestFit
  rw [dif_pos ⟨[1], [0, 2], rfl, hgood⟩]
  simp

/-- The hypotheses of `C50_orthogonal` and `C50_polynomial_added` can be met; what remains is not zero, since no constant has the heights 0 and 2. -/
example : ∃ lstsq, LeastSquares lstsq ∧ ∃ adj coefs, subtractPolynomial lstsq false twoHeights 0 .none = .ok (adj, coefs) ∧ polyMask twoHeights .none = .ok none ∧
    ∀ i j, i < twoHeights.rows → j < twoHeights.cols → used none i j = true → twoHeights.val i j = some (2 * (j : ℝ)) := by
  obtain ⟨adj, coefs, h⟩ := twoHeights_call
  exact ⟨bestFit, bestFit_leastSquares, adj, coefs, h, rfl, fun _ _ _ _ _ => rfl⟩

/-- The hypotheses of `C50_polynomial` can be met: every profile that is a polynomial has a fit. -/
example (n : ℕ) (d : ℕ → ℕ → ℝ) : ∃ adj coefs, subtractPolynomial bestFit false ⟨3, 3, fun i j => some (evalPoly n d j i)⟩ n .none = .ok (adj, coefs) := by
  unfold subtractPolynomial
  simp only [polyMask]
  unfold bestFit
  rw [dif_pos]
  · simp
  · refine ⟨(terms n).map fun t => d t.1 t.2, (selected 3 3 none).map fun q => evalPoly n d q.2 q.1, by simp, by simp only [List.mem_map]; rintro _ ⟨q, _, rfl⟩; simp [gRow], fun e _ => ?_⟩
    simp only [List.zip_map', List.map_map, Function.comp_def, dot_eq, polyAt_eval, sub_self]
    rw [show ((selected 3 3 none).map fun _ => (0 : ℝ) ^ 2).sum = 0 by simp]
    exact List.sum_nonneg (by simp only [List.mem_map, forall_exists_index, and_imp]; rintro _ q _ rfl; positivity)

/-- The hypotheses of `C50_mask_meaning`, `C50_excluded_do_not_matter` and `C50_integers_refused` can be met. -/
example : ∃ (p p' : Arr (Option ℝ)) (a : Arr Bool), a.rows = p.rows ∧ a.cols = p.cols ∧ polyMask p (.array a) = .ok (some a) ∧ polyMask p' (.array a) = .ok (some a) ∧ p'.val 0 0 ≠ p.val 0 0 ∧
    ∀ i j, i < p.rows → j < p.cols → used (some a) i j = true → p'.val i j = p.val i j := by
  refine ⟨⟨2, 2, fun _ _ => some 0⟩, ⟨2, 2, fun i _ => if i = 0 then none else some 0⟩, ⟨2, 2, fun i _ => !(i == 0)⟩, rfl, rfl, by simp [polyMask], by simp [polyMask], by simp, ?_⟩
  intro i j _ _ hu
  have : i ≠ 0 := by simpa [used] using hu
  simp [this]

example : bestFit ((selected twoHeights.rows twoHeights.cols none).map (gRow 0)) ((selected twoHeights.rows twoHeights.cols none).map fun q => twoHeights.val q.1 q.2) ≠ none := by
  obtain ⟨adj, coefs, h⟩ := twoHeights_call
  intro hn
  unfold subtractPolynomial at h
  simp only [polyMask] at h
  rw [hn] at h
  cases h

end Verif.Rough
