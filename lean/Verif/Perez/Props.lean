import Mathlib.Tactic.Linarith
import Mathlib.Tactic.FieldSimp
import Mathlib.Tactic.Positivity
import Mathlib.Order.Fin.Basic
import Mathlib.Data.Fintype.Prod
import Mathlib.Data.Fin.Tuple.Sort
import Verif.Fractal.Lemmas
import Verif.Perez.Model

/-!
# C53, C79: surfaces with given heights and spectrum
-/

namespace Verif.Perez

open Verif.Conv (Grid forward backward chi)

variable {m n : ℕ} [NeZero m] [NeZero n]

/-! ## The loop -/

/-- Induction over the iterations: a fact that holds after each iteration (of any heights) for the estimates and the errors, holds for the final variables. -/
theorem loop_spec (cfg : Config) (o : Oracle m n) (ps : Grid m n → ℝ) (t : Fin (m * n) → ℝ) :
    ∀ (k : ℕ) (h : Grid m n → ℝ) (errors : List (Option ℝ)), (cfg.maxIt - errors.length).toNat = k →
      ∃ h', (loop cfg o ps t h errors).psd_guess = psdStep ps h' ∧ (loop cfg o ps t h errors).height_guess = rankStep o t (psdStep ps h') ∧
        errors.length < (loop cfg o ps t h errors).errors.length ∧
        ((loop cfg o ps t h errors).errors.length = errors.length + 1 ∨ ((loop cfg o ps t h errors).errors.length : ℤ) ≤ cfg.maxIt) ∧
        stop cfg (loop cfg o ps t h errors).errors (o.errPS (loop cfg o ps t h errors).height_guess) (o.errPS0 (loop cfg o ps t h errors).height_guess) = some (loop cfg o ps t h errors).verdict := by
  intro k
  induction k using Nat.strong_induction_on with
  | _ k ih =>
    intro h errors hk
    rw [loop]
    split
    · rename_i v hv
      exact ⟨h, rfl, rfl, by simp, .inl (by simp), hv⟩
    · rename_i hs
      have hlt : ¬cfg.maxIt ≤ (o.errH (psdStep ps h) :: errors).length := by
        intro hc
        unfold stop at hs
        rw [if_pos hc] at hs
        exact nomatch hs
      simp only [List.length_cons, Nat.cast_add, Nat.cast_one] at hlt
      obtain ⟨h', h1, h2, h3, h4, h5⟩ := ih ((cfg.maxIt - (o.errH (psdStep ps h) :: errors).length).toNat) (by simp only [List.length_cons, Nat.cast_add, Nat.cast_one]; omega)
        (rankStep o t (psdStep ps h)) (o.errH (psdStep ps h) :: errors) rfl
      simp only [List.length_cons] at h3 h4
      refine ⟨h', h1, h2, by omega, .inr ?_, h5⟩
      rcases h4 with h4 | h4
      · rw [h4]; push_cast; omega
      · exact h4

/-- What is known about a call that gives something. -/
theorem discretise_ok (cfg : Config) (o : Oracle m n) (exact : Exact) (psd : Grid m n → ℝ) (heights : Option (Grid m n → ℝ)) (rn se ro : Bool) (out : Out m n)
    (hok : (discretise cfg o exact psd heights rn se ro).1 = .ok out) :
    ∃ hs f, heights = some hs ∧ sqRoughness hs ≠ 0 ∧ f = loop cfg o (scalePsd psd) (sortedTargets o hs) (normalise hs) [] ∧ (failed f.verdict = false ∨ se = true) ∧
      (let profile := fun a => (if useHeights exact f.verdict then f.height_guess a else f.psd_guess a) * sqRoughness hs + meanHeight hs
       out = if rn then .newSurface profile else if ro then .original f.height_guess f.psd_guess f.errors else .setProfile profile) := by
  unfold discretise at hok
  split at hok
  · exact nomatch hok
  · cases heights with
    | none => exact nomatch hok
    | some hs =>
      simp only at hok
      split at hok
      · exact nomatch hok
      · rename_i hsq
        split at hok
        · exact nomatch hok
        · rename_i hf
          refine ⟨hs, _, rfl, hsq, rfl, ?_, ?_⟩
          · revert hf
            cases failed (loop cfg o (scalePsd psd) (sortedTargets o hs) (normalise hs) []).verdict <;> cases se <;> simp
          · simp only [Except.ok.injEq] at hok
            exact hok.symm

/-! ## C53 -/

/-- The profile in the output, if the call sets or returns one. -/
def Out.profile? : Out m n → Option (Grid m n → ℝ)
  | .setProfile p => some p
  | .newSurface p => some p
  | .original _ _ _ => none

/-- **C53, heights.** With exact heights requested, the profile is a rearrangement of the prescribed heights, whatever the spectrum, the settings and the errors. -/
theorem C53_rearrangement (cfg : Config) (o : Oracle m n) (psd : Grid m n → ℝ) (hs : Grid m n → ℝ) (rn se ro : Bool) (out : Out m n)
    (hok : (discretise cfg o .heights psd (some hs) rn se ro).1 = .ok out) (p : Grid m n → ℝ) (hp : out.profile? = some p) :
    ∃ e : Equiv.Perm (Grid m n), ∀ a, p a = hs (e a) := by
  obtain ⟨hs', f, h1, hsq, hf, -, hout⟩ := discretise_ok cfg o .heights psd (some hs) rn se ro out hok
  cases h1
  obtain ⟨h', -, hh, -⟩ := loop_spec cfg o (scalePsd psd) (sortedTargets o hs) _ (normalise hs) [] rfl
  rw [← hf] at hh
  have key : p = fun a => f.height_guess a * sqRoughness hs + meanHeight hs := by
    simp only [useHeights, if_true] at hout
    cases rn <;> cases ro <;> simp_all [Out.profile?]
  refine ⟨(o.argsort (psdStep (scalePsd psd) h')).symm.trans (o.argsort (normalise hs)), fun a => ?_⟩
  rw [key, hh]
  simp only [rankStep, sortedTargets, Equiv.trans_apply, normalise]
  field_simp
  ring

/-- **C53, order.** The two estimates returned with `return_original`: the heights are a rearrangement of the normalised prescribed heights, and are ordered like the estimate with the right spectrum. -/
theorem C53_ordered (cfg : Config) (o : Oracle m n) (ho : o.Sorts) (exact : Exact) (psd : Grid m n → ℝ) (hs : Grid m n → ℝ) (rn se ro : Bool) (h g : Grid m n → ℝ) (errors : List (Option ℝ))
    (hok : (discretise cfg o exact psd (some hs) rn se ro).1 = .ok (.original h g errors)) :
    (∃ e : Equiv.Perm (Grid m n), ∀ a, h a = normalise hs (e a)) ∧ ∀ a b, g a < g b → h a ≤ h b := by
  obtain ⟨hs', f, h1, hsq, hf, -, hout⟩ := discretise_ok cfg o exact psd (some hs) rn se ro _ hok
  cases h1
  obtain ⟨h', hg, hh, -⟩ := loop_spec cfg o (scalePsd psd) (sortedTargets o hs) _ (normalise hs) [] rfl
  rw [← hf] at hh hg
  have key : h = f.height_guess ∧ g = f.psd_guess := by
    cases rn <;> cases ro <;> simp_all
  rw [key.1, key.2, hh, hg]
  refine ⟨⟨(o.argsort (psdStep (scalePsd psd) h')).symm.trans (o.argsort (normalise hs)), fun a => rfl⟩, fun a b hab => ?_⟩
  apply ho (normalise hs)
  by_contra hc
  rw [not_le] at hc
  have := ho (psdStep (scalePsd psd) h') hc.le
  simp only [Equiv.apply_symm_apply] at this
  linarith

/-- **C53, number of iterations.** The loop ends after at least one and at most the allowed number of iterations (or one, if none is allowed). -/
theorem C53_iterations (cfg : Config) (o : Oracle m n) (exact : Exact) (psd : Grid m n → ℝ) (hs : Grid m n → ℝ) (rn se ro : Bool) (h g : Grid m n → ℝ) (errors : List (Option ℝ))
    (hok : (discretise cfg o exact psd (some hs) rn se ro).1 = .ok (.original h g errors)) : 1 ≤ errors.length ∧ (errors.length : ℤ) ≤ max 1 cfg.maxIt := by
  obtain ⟨hs', f, h1, hsq, hf, -, hout⟩ := discretise_ok cfg o exact psd (some hs) rn se ro _ hok
  cases h1
  obtain ⟨h', -, -, h3, h4, -⟩ := loop_spec cfg o (scalePsd psd) (sortedTargets o hs) _ (normalise hs) [] rfl
  rw [← hf] at h3 h4
  have key : errors = f.errors := by
    cases rn <;> cases ro <;> simp_all
  rw [key]
  simp only [List.length_nil, zero_add] at h3 h4
  refine ⟨h3, ?_⟩
  rcases h4 with h4 | h4
  · rw [h4]; exact le_max_left _ _
  · exact h4.trans (le_max_right _ _)

/-- **C53, the last allowed iteration counts as failure.** Without suppressed errors a result needs fewer iterations than allowed; so with at most one iteration allowed the call always raises. -/
theorem C53_last_iteration (cfg : Config) (o : Oracle m n) (exact : Exact) (psd : Grid m n → ℝ) (heights : Option (Grid m n → ℝ)) (rn ro : Bool) (hmax : cfg.maxIt ≤ 1) (out : Out m n) :
    (discretise cfg o exact psd heights rn false ro).1 ≠ .ok out := by
  intro hok
  obtain ⟨hs, f, h1, hsq, hf, hv, hout⟩ := discretise_ok cfg o exact psd heights rn false ro _ hok
  obtain ⟨h', -, -, h3, -, h5⟩ := loop_spec cfg o (scalePsd psd) (sortedTargets o hs) _ (normalise hs) [] rfl
  rw [← hf] at h3 h5
  simp only [List.length_nil] at h3
  unfold stop at h5
  rw [if_pos (by omega)] at h5
  simp only [Option.some.injEq] at h5
  rw [← h5] at hv
  simp [failed] at hv

example (o : Oracle 2 2) := C53_last_iteration ⟨1, 1, 0⟩ o .best (fun _ => 1) none false false (by norm_num)

/-- **C53, the caller's spectrum.** Of the caller's array exactly the entry at frequency zero is changed (to zero), in every call that gets that far, also one that then fails. -/
theorem C53_psd_after (cfg : Config) (o : Oracle m n) (exact : Exact) (psd : Grid m n → ℝ) (heights : Option (Grid m n → ℝ)) (rn se ro : Bool) (h : (ro && rn) = false) (k : Grid m n) :
    (discretise cfg o exact psd heights rn se ro).2 k = if k = 0 then 0 else psd k := by
  unfold discretise
  rw [if_neg (by simp [h])]
  cases heights with
  | none => rfl
  | some hs =>
    simp only
    split
    · rfl
    · split <;> rfl

example (o : Oracle 2 2) := C53_psd_after ⟨1, 10, 0⟩ o .best (fun _ => 1) none false true false rfl

/-- **C53 is false for the caller's arrays.** The array given as the target spectrum is changed whenever its entry at frequency zero is not zero. -/
theorem C53_psd_changed (cfg : Config) (o : Oracle m n) (exact : Exact) (psd : Grid m n → ℝ) (heights : Option (Grid m n → ℝ)) (rn se ro : Bool) (h : (ro && rn) = false) (h0 : psd 0 ≠ 0) :
    (discretise cfg o exact psd heights rn se ro).2 ≠ psd := by
  intro hc
  apply h0
  have := C53_psd_after cfg o exact psd heights rn se ro h 0
  rw [hc, if_pos rfl] at this
  exact this

example (o : Oracle 2 2) := C53_psd_changed ⟨1, 10, 0⟩ o .best (fun _ => 1) none false true false rfl one_ne_zero

/-- **C53, the caller's arrays.** With a zero there, nothing of the caller is changed. Missing: other spectra, see above. -/
theorem C53_psd_unchanged_partial (cfg : Config) (o : Oracle m n) (exact : Exact) (psd : Grid m n → ℝ) (heights : Option (Grid m n → ℝ)) (rn se ro : Bool) (h0 : psd 0 = 0) :
    (discretise cfg o exact psd heights rn se ro).2 = psd := by
  by_cases h : (ro && rn) = true
  · unfold discretise
    rw [if_pos h]
  · funext k
    rw [C53_psd_after cfg o exact psd heights rn se ro (by simpa using h) k]
    split
    · rename_i hk; rw [hk, h0]
    · rfl

example (o : Oracle 2 2) := C53_psd_unchanged_partial ⟨1, 10, 0⟩ o .best (fun k => if k = 0 then 0 else 1) none false true false (if_pos rfl)

/-- **C53, refusals.** Both kinds of result at once, no heights, or equal heights: ValueError. -/
theorem C53_errors (cfg : Config) (o : Oracle m n) (exact : Exact) (psd : Grid m n → ℝ) (heights : Option (Grid m n → ℝ)) (rn se ro : Bool) (c : ℝ) :
    (discretise cfg o exact psd heights true se true).1 = .error .valueError ∧ (discretise cfg o exact psd none rn se ro).1 = .error .valueError ∧
    (discretise cfg o exact psd (some fun _ => c) rn se ro).1 = .error .valueError := by
  refine ⟨rfl, ?_, ?_⟩
  · unfold discretise; split <;> rfl
  · have hN : ((m * n : ℕ) : ℝ) ≠ 0 := by exact_mod_cast Nat.mul_ne_zero (NeZero.ne m) (NeZero.ne n)
    have hmean : meanHeight (fun _ : Grid m n => c) = c := by
      unfold meanHeight
      rw [Finset.sum_const, Finset.card_univ, Fintype.card_prod, ZMod.card, ZMod.card, nsmul_eq_mul, mul_div_cancel_left₀ _ hN]
    have hz : sqRoughness (fun _ : Grid m n => c) = 0 := by
      unfold sqRoughness
      rw [hmean]
      simp
    unfold discretise
    split
    · rfl
    · simp only
      rw [if_pos hz]

/-- A way to sort. -/
theorem exists_argsort (m n : ℕ) [NeZero m] [NeZero n] : ∃ s : (Grid m n → ℝ) → (Fin (m * n) ≃ Grid m n), ∀ g : Grid m n → ℝ, Monotone fun k => g (s g k) := by
  have e : Fin (m * n) ≃ Grid m n := by
    refine (Fintype.equivFinOfCardEq ?_).symm
    rw [Fintype.card_prod, ZMod.card, ZMod.card]
  refine ⟨fun g => (Tuple.sort (g ∘ e)).trans e, fun g => ?_⟩
  exact Tuple.monotone_sort (g ∘ e)

/-- The hypotheses of `C53_rearrangement`, `C53_ordered` and `C53_iterations` can be met: a sorting oracle and a call that gives something. -/
example : ∃ (o : Oracle 2 2) (hs : Grid 2 2 → ℝ) (out : Out 2 2), o.Sorts ∧ (discretise ⟨1, 10, 0⟩ o .heights (fun _ => 1) (some hs) false true true).1 = .ok out := by
  obtain ⟨s, hs⟩ := exists_argsort 2 2
  let heights : Grid 2 2 → ℝ := fun a => if a = 0 then 1 else 0
  have hq : sqRoughness heights ≠ 0 := by
    unfold sqRoughness
    apply (Real.sqrt_pos.2 _).ne'
    apply div_pos _ (by norm_num)
    apply Finset.sum_pos'
    · intro a _; positivity
    · refine ⟨0, Finset.mem_univ _, ?_⟩
      have : meanHeight heights = 1 / 4 := by
        unfold meanHeight
        rw [Finset.sum_ite_eq' Finset.univ (0 : Grid 2 2), if_pos (Finset.mem_univ _)]
        norm_num
      rw [this]
      norm_num [heights]
  have hex : ∃ out, (discretise ⟨1, 10, 0⟩ ⟨s, fun _ => some 0, fun _ => none, fun _ => none⟩ .heights (fun _ => 1) (some heights) false true true).1 = .ok out := by
    unfold discretise
    rw [if_neg (by simp)]
    simp only
    rw [if_neg hq, if_neg (by simp)]
    exact ⟨_, rfl⟩
  obtain ⟨out, hout⟩ := hex
  exact ⟨⟨s, fun _ => some 0, fun _ => none, fun _ => none⟩, heights, out, hs, hout⟩

/-! ## C79 -/

/-- The phases of the transform of real numbers are opposite at opposite frequencies. -/
theorem forward_conj (h : Grid m n → ℝ) (k : Grid m n) : forward (fun a => (h a : ℂ)) (-k) = (starRingEnd ℂ) (forward (fun a => (h a : ℂ)) k) := by
  unfold forward
  rw [map_sum]
  refine Finset.sum_congr rfl fun a _ => ?_
  rw [map_mul, Verif.Fractal.conj_chi, Complex.conj_ofReal]

theorem unit_conj (z : ℂ) : Complex.exp (Complex.I * (Complex.arg ((starRingEnd ℂ) z) : ℂ)) = (starRingEnd ℂ) (Complex.exp (Complex.I * (Complex.arg z : ℂ))) := by
  rw [← Complex.exp_conj, map_mul, Complex.conj_I, Complex.conj_ofReal, Complex.arg_conj]
  split
  · rename_i h
    rw [h, neg_mul, mul_comm, Complex.exp_neg, Complex.exp_pi_mul_I]
    norm_num
  · push_cast
    congr 1
    ring

/-- Transforming back and forth gives the same. -/
theorem forward_backward (w : Grid m n → ℂ) (k : Grid m n) : forward (backward w) k = w k := by
  have hN : ((m * n : ℕ) : ℂ) ≠ 0 := by
    exact_mod_cast Nat.mul_ne_zero (NeZero.ne m) (NeZero.ne n)
  unfold forward backward
  have h1 : ∀ a : Grid m n, chi k (-a) * (((m * n : ℕ) : ℂ)⁻¹ * ∑ l, chi l a * w l) = ((m * n : ℕ) : ℂ)⁻¹ * ∑ l, chi (l - k) a * w l := by
    intro a
    rw [← mul_assoc, mul_comm (chi k (-a)), mul_assoc, Finset.mul_sum]
    congr 1
    refine Finset.sum_congr rfl fun l _ => ?_
    rw [← mul_assoc, Verif.Fractal.chi_comm (l - k), sub_eq_add_neg, Verif.Conv.chi_add, Verif.Fractal.chi_comm a l, Verif.Fractal.chi_comm a (-k)]
    have : chi k (-a) = chi (-k) a := by
      unfold chi
      simp
    rw [this]
    ring
  rw [Finset.sum_congr rfl fun a _ => h1 a, ← Finset.mul_sum, Finset.sum_comm, Finset.sum_eq_single k]
  · rw [← Finset.sum_mul, Verif.Fractal.sum_chi', if_pos (sub_self k), ← mul_assoc, inv_mul_cancel₀ hN, one_mul]
  · intro l _ hl
    rw [← Finset.sum_mul, Verif.Fractal.sum_chi', if_neg (fun h => hl (sub_eq_zero.1 h)), zero_mul]
  · intro h; exact absurd (Finset.mem_univ _) h

theorem backward_conj (w : Grid m n → ℂ) (a : Grid m n) : (starRingEnd ℂ) (backward w a) = backward (fun k => (starRingEnd ℂ) (w (-k))) a := by
  unfold backward
  rw [map_mul, map_sum, map_inv₀, map_natCast]
  congr 1
  rw [← Equiv.sum_comp (Equiv.neg (Grid m n)) fun k => chi k a * (starRingEnd ℂ) (w (-k))]
  refine Finset.sum_congr rfl fun k _ => ?_
  rw [map_mul, Verif.Fractal.conj_chi, Equiv.neg_apply, neg_neg]

/-- The transform of the estimate: the mean of the prescribed magnitudes at the frequency and its opposite, with the phase. -/
theorem forward_psdStep (ps h : Grid m n → ℝ) (k : Grid m n) :
    forward (fun a => (psdStep ps h a : ℂ)) k = (((ps k + ps (-k)) / 2 : ℝ) : ℂ) * Complex.exp (Complex.I * (Complex.arg (forward (fun a => (h a : ℂ)) k) : ℂ)) := by
  set w : Grid m n → ℂ := fun k => (ps k : ℂ) * Complex.exp (Complex.I * (Complex.arg (forward (fun a => (h a : ℂ)) k) : ℂ)) with hw
  have hre : (fun a => (psdStep ps h a : ℂ)) = backward fun k => (w k + (starRingEnd ℂ) (w (-k))) / 2 := by
    funext a
    have : (psdStep ps h a : ℂ) = (backward w a + (starRingEnd ℂ) (backward w a)) / 2 := by
      rw [Complex.add_conj]
      unfold psdStep
      push_cast
      ring
    rw [this, backward_conj]
    unfold backward
    rw [← mul_add, ← Finset.sum_add_distrib, mul_div_assoc, Finset.sum_div]
    congr 1
    refine Finset.sum_congr rfl fun l _ => ?_
    ring
  rw [hre, forward_backward, hw]
  simp only
  rw [forward_conj, unit_conj, map_mul, Complex.conj_ofReal, Complex.conj_conj]
  push_cast
  ring

theorem scalePsd_nonneg (psd : Grid m n → ℝ) (hp : ∀ k, 0 ≤ psd k) (k : Grid m n) : 0 ≤ scalePsd psd k := by
  unfold scalePsd clearZero
  have : 0 ≤ if k = 0 then (0 : ℝ) else psd k := by
    split
    · exact le_rfl
    · exact hp k
  positivity

/-- **C79, spectrum of the estimate.** In every call that returns the two estimates, the estimate with the prescribed spectrum has at every frequency the mean of the scaled target there and at the opposite frequency as magnitude of its transform; so exactly the scaled target where the target is even. -/
theorem C79_spectrum (cfg : Config) (o : Oracle m n) (exact : Exact) (psd : Grid m n → ℝ) (hp : ∀ k, 0 ≤ psd k) (hs : Grid m n → ℝ) (rn se ro : Bool) (h g : Grid m n → ℝ) (errors : List (Option ℝ))
    (hok : (discretise cfg o exact psd (some hs) rn se ro).1 = .ok (.original h g errors)) (k : Grid m n) :
    ‖forward (fun a => (g a : ℂ)) k‖ = (scalePsd psd k + scalePsd psd (-k)) / 2 ∧ (psd (-k) = psd k → ‖forward (fun a => (g a : ℂ)) k‖ = scalePsd psd k) := by
  obtain ⟨hs', f, h1, hsq, hf, -, hout⟩ := discretise_ok cfg o exact psd (some hs) rn se ro _ hok
  cases h1
  obtain ⟨h', hg, -⟩ := loop_spec cfg o (scalePsd psd) (sortedTargets o hs) _ (normalise hs) [] rfl
  rw [← hf] at hg
  have key : g = psdStep (scalePsd psd) h' := by
    rw [← hg]
    cases rn <;> cases ro <;> simp_all
  have hmag : ‖forward (fun a => (g a : ℂ)) k‖ = (scalePsd psd k + scalePsd psd (-k)) / 2 := by
    rw [key, forward_psdStep, norm_mul, mul_comm Complex.I, Complex.norm_exp_ofReal_mul_I, mul_one, Complex.norm_real, Real.norm_of_nonneg]
    have := scalePsd_nonneg psd hp k
    have := scalePsd_nonneg psd hp (-k)
    positivity
  refine ⟨hmag, fun heven => ?_⟩
  have : scalePsd psd (-k) = scalePsd psd k := by
    unfold scalePsd clearZero
    rw [heven]
    by_cases hk : k = 0
    · rw [if_pos (by rw [hk, neg_zero]), if_pos hk]
    · rw [if_neg (by rwa [neg_eq_zero]), if_neg hk]
  rw [hmag, this]
  ring

/-- **C79 is false for targets that are not even.** If the target differs at two opposite frequencies, the transform of the estimate has the wrong magnitude there. -/
theorem C79_odd_fails (cfg : Config) (o : Oracle m n) (exact : Exact) (psd : Grid m n → ℝ) (hp : ∀ k, 0 ≤ psd k) (hs : Grid m n → ℝ) (rn se ro : Bool) (h g : Grid m n → ℝ) (errors : List (Option ℝ))
    (hok : (discretise cfg o exact psd (some hs) rn se ro).1 = .ok (.original h g errors)) (k : Grid m n) (hk : psd (-k) ≠ psd k) :
    ‖forward (fun a => (g a : ℂ)) k‖ ≠ scalePsd psd k := by
  rw [(C79_spectrum cfg o exact psd hp hs rn se ro h g errors hok k).1]
  intro hc
  have heq : scalePsd psd (-k) = scalePsd psd k := by linarith
  apply hk
  have hk0 : k ≠ 0 := by
    rintro rfl
    rw [neg_zero] at hk
    exact hk rfl
  have hm : (m : ℝ) ≠ 0 := by exact_mod_cast NeZero.ne m
  have hn : (n : ℝ) ≠ 0 := by exact_mod_cast NeZero.ne n
  have hroot : Real.sqrt (∑ k, clearZero psd k ^ 2) ≠ 0 := by
    apply (Real.sqrt_pos.2 _).ne'
    apply Finset.sum_pos'
    · intro l _; positivity
    · by_cases h1 : psd k = 0
      · refine ⟨-k, Finset.mem_univ _, ?_⟩
        unfold clearZero
        rw [if_neg (by rwa [neg_eq_zero])]
        have : psd (-k) ≠ 0 := fun h2 => hk (by rw [h1, h2])
        positivity
      · refine ⟨k, Finset.mem_univ _, ?_⟩
        unfold clearZero
        rw [if_neg hk0]
        positivity
  unfold scalePsd clearZero at heq
  rw [if_neg (by rwa [neg_eq_zero]), if_neg hk0] at heq
  unfold clearZero at hroot
  field_simp at heq
  exact heq

/-- **C79, mean and roughness.** With the exact spectrum requested, the profile has the mean of the prescribed heights, and for an even target also their RMS roughness, whatever the heights. -/
theorem C79_roughness (cfg : Config) (o : Oracle m n) (psd : Grid m n → ℝ) (hp : ∀ k, 0 ≤ psd k) (hpos : ∃ k, k ≠ 0 ∧ psd k ≠ 0) (heven : ∀ k, psd (-k) = psd k) (hs : Grid m n → ℝ) (rn se ro : Bool) (out : Out m n)
    (hok : (discretise cfg o .psd psd (some hs) rn se ro).1 = .ok out) (p : Grid m n → ℝ) (hpr : out.profile? = some p) :
    meanHeight p = meanHeight hs ∧ sqRoughness p = sqRoughness hs := by
  obtain ⟨hs', f, h1, hsq, hf, -, hout⟩ := discretise_ok cfg o .psd psd (some hs) rn se ro out hok
  cases h1
  obtain ⟨h', hg, -⟩ := loop_spec cfg o (scalePsd psd) (sortedTargets o hs) _ (normalise hs) [] rfl
  rw [← hf] at hg
  have key : p = fun a => psdStep (scalePsd psd) h' a * sqRoughness hs + meanHeight hs := by
    rw [← hg]
    simp only [useHeights] at hout
    cases rn <;> cases ro <;> simp_all [Out.profile?]
  have hN : ((m * n : ℕ) : ℝ) ≠ 0 := by exact_mod_cast Nat.mul_ne_zero (NeZero.ne m) (NeZero.ne n)
  have hN0 : (0 : ℝ) < ((m * n : ℕ) : ℝ) := by exact_mod_cast Nat.mul_pos (NeZero.pos m) (NeZero.pos n)
  have hevenS : ∀ k, scalePsd psd (-k) = scalePsd psd k := by
    intro k
    unfold scalePsd clearZero
    rw [heven]
    by_cases hk : k = 0
    · rw [if_pos (by rw [hk, neg_zero]), if_pos hk]
    · rw [if_neg (by rwa [neg_eq_zero]), if_neg hk]
  have h0 : scalePsd psd 0 = 0 := by
    unfold scalePsd clearZero
    simp
  -- the estimate as a transform
  set w : Grid m n → ℂ := fun k => (scalePsd psd k : ℂ) * Complex.exp (Complex.I * (Complex.arg (forward (fun a => (h' a : ℂ)) k) : ℂ)) with hw
  have hconj : ∀ k, w (-k) = (starRingEnd ℂ) (w k) := by
    intro k
    rw [hw]
    simp only
    rw [hevenS, forward_conj, unit_conj, map_mul, Complex.conj_ofReal]
  have him : ∀ a, (backward w a).im = 0 := Verif.Fractal.backward_real w hconj
  have hsum : ∑ a, psdStep (scalePsd psd) h' a = 0 := by
    have := Verif.Fractal.sum_backward w
    have h2 : ∑ a, psdStep (scalePsd psd) h' a = (∑ a, backward w a).re := by
      rw [Complex.re_sum]
      rfl
    rw [h2, this, hw]
    simp [h0]
  have hroot : 0 < ∑ k, clearZero psd k ^ 2 := by
    obtain ⟨k, hk, hk2⟩ := hpos
    apply Finset.sum_pos'
    · intro l _; positivity
    · refine ⟨k, Finset.mem_univ _, ?_⟩
      unfold clearZero
      rw [if_neg hk]
      positivity
  have hsq1 : ∑ a, psdStep (scalePsd psd) h' a ^ 2 = ((m * n : ℕ) : ℝ) := by
    have h2 : ∑ a, psdStep (scalePsd psd) h' a ^ 2 = ∑ a, Complex.normSq (backward w a) := by
      refine Finset.sum_congr rfl fun a _ => ?_
      rw [Complex.normSq_apply, him a]
      have : psdStep (scalePsd psd) h' a = (backward w a).re := rfl
      rw [this]
      ring
    have h3 : ∀ k, Complex.normSq (w k) = clearZero psd k ^ 2 / (∑ k, clearZero psd k ^ 2) * ((m * n : ℕ) : ℝ) ^ 2 := by
      intro k
      rw [hw]
      simp only
      rw [Complex.normSq_mul, Complex.normSq_ofReal, Complex.normSq_eq_norm_sq, mul_comm Complex.I, Complex.norm_exp_ofReal_mul_I]
      unfold scalePsd
      push_cast
      have hs := Real.sq_sqrt hroot.le
      rw [one_pow, mul_one, div_mul_eq_mul_div, div_mul_eq_mul_div, div_mul_div_comm, ← sq (Real.sqrt _), hs]
      ring
    rw [h2, Verif.Fractal.parseval, Finset.sum_congr rfl fun k _ => h3 k, ← Finset.sum_mul, ← Finset.sum_div, div_self hroot.ne']
    field_simp
  have hmean : meanHeight p = meanHeight hs := by
    rw [key]
    unfold meanHeight
    rw [Finset.sum_add_distrib, ← Finset.sum_mul, hsum, zero_mul, zero_add, Finset.sum_const, Finset.card_univ, Fintype.card_prod, ZMod.card, ZMod.card, nsmul_eq_mul, mul_div_cancel_left₀ _ hN]
  refine ⟨hmean, ?_⟩
  have hdev : ∑ a, (p a - meanHeight p) ^ 2 = sqRoughness hs ^ 2 * ((m * n : ℕ) : ℝ) := by
    rw [hmean, key]
    simp only [add_sub_cancel_right, mul_pow]
    rw [← Finset.sum_mul, hsq1]
    ring
  have hnn : 0 ≤ sqRoughness hs := Real.sqrt_nonneg _
  conv_lhs => unfold sqRoughness
  rw [hdev, mul_div_cancel_right₀ _ hN, Real.sqrt_sq hnn]

/-- The hypotheses can be met. -/
example : (∀ k : Grid 3 3, (0 : ℝ) ≤ (fun _ => 1 : Grid 3 3 → ℝ) k) ∧ (∃ k : Grid 3 3, k ≠ 0 ∧ (fun _ => 1 : Grid 3 3 → ℝ) k ≠ 0) ∧ ∃ psd : Grid 3 3 → ℝ, (∀ k, 0 ≤ psd k) ∧ ∃ k, psd (-k) ≠ psd k :=
  ⟨fun _ => zero_le_one, ⟨(1, 0), by decide, one_ne_zero⟩, ⟨fun k => if k = (1, 0) then 1 else 0, fun k => by dsimp only; split <;> norm_num, (1, 0), by
    beta_reduce
    rw [if_neg (by decide), if_pos rfl]; norm_num⟩⟩

/-- A call that returns the estimate (`C53_ordered`, `C53_iterations`, `C79_spectrum`, `C79_odd_fails`, `C117_first`), for all spectra and for all heights that are not
all equal. -/
example (s : (Grid 2 2 → ℝ) → (Fin (2 * 2) ≃ Grid 2 2)) (psd heights : Grid 2 2 → ℝ) (hq : sqRoughness heights ≠ 0) :
    ∃ h g errors, (discretise ⟨1, 10, 0⟩ ⟨s, fun _ => some 0, fun _ => some 0, fun _ => none⟩ .best psd (some heights) false true true).1 = .ok (.original h g errors) := by
  unfold discretise
  simp [hq]

end Verif.Perez
