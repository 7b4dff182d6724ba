import Mathlib.Tactic.Ring
import Mathlib.Tactic.Linarith
import Mathlib.Algebra.BigOperators.Group.List.Basic
import Verif.DiscFreq.Model

/-! # C58: surfaces of discrete frequencies are sums of their components -/

namespace Verif.DiscFreq

/-! ## Specification -/

/-- A wave: amplitude, frequency and phase. -/
structure Wave where
  a : ℝ
  f : ℝ
  p : ℝ

/-- Its height at `x`. -/
noncomputable def Wave.at (w : Wave) (x : ℝ) : ℝ := w.a * Real.cos (2 * Real.pi * w.f * x - w.p)

/-- The sum of waves at `x`. -/
noncomputable def total (l : List Wave) (x : ℝ) : ℝ := (l.map fun w => w.at x).sum

/-! ## Lemmas -/

theorem loop_eq (f : List ℝ) (a : List ℂ) (x acc : ℝ) : loop f a x acc = acc + (List.zipWith (fun f a => component f a x) f a).sum := by
  induction f generalizing a acc with
  | nil => simp [loop]
  | cons f fs ih =>
    cases a with
    | nil => simp [loop]
    | cons a as => simp only [loop, ih, List.zipWith_cons_cons, List.sum_cons]; ring

theorem component_polar (f r p x : ℝ) : component f (r * Complex.exp (Complex.I * p)) x = r * Real.cos (2 * Real.pi * f * x - p) := by
  unfold component
  rw [mul_assoc, ← Complex.exp_add, show Complex.I * (p : ℂ) + -Complex.I * f * x * 2 * Real.pi = ((p - 2 * Real.pi * f * x : ℝ) : ℂ) * Complex.I by push_cast; ring,
    Complex.re_ofReal_mul, Complex.exp_ofReal_mul_I_re, ← Real.cos_neg, neg_sub]

theorem component_cart (f x : ℝ) (z : ℂ) :
    component f z x = z.re * Real.cos (2 * Real.pi * f * x) + z.im * Real.sin (2 * Real.pi * f * x) := by
  unfold component
  rw [show -Complex.I * (f : ℂ) * x * 2 * Real.pi = ((-(2 * Real.pi * f * x) : ℝ) : ℂ) * Complex.I by push_cast; ring, Complex.mul_re,
    Complex.exp_ofReal_mul_I_re, Complex.exp_ofReal_mul_I_im, Real.cos_neg, Real.sin_neg]
  ring

/-- The arguments for a list of waves: real amplitudes. -/
def ampsOf (l : List Wave) : List Amp := l.map fun w => .other w.a

theorem withPhases_eq (l : List Wave) : withPhases (ampsOf l) (l.map Wave.p) = l.map fun w => (w.a : ℂ) * Complex.exp (Complex.I * w.p) := by
  induction l with
  | nil => rfl
  | cons w l ih => simp only [ampsOf, List.map_cons, withPhases, Amp.val] at ih ⊢; rw [ih]

theorem none_complex (l : List Wave) : (ampsOf l).any Amp.isComplex = false := by
  induction l with
  | nil => rfl
  | cons w l ih => simp only [ampsOf, List.map_cons, List.any_cons, Amp.isComplex, Bool.false_or] at ih ⊢; exact ih

theorem zip_waves (l : List Wave) (x : ℝ) :
    (List.zipWith (fun f a => component f a x) (l.map Wave.f) (l.map fun w => (w.a : ℂ) * Complex.exp (Complex.I * w.p))).sum = total l x := by
  induction l with
  | nil => rfl
  | cons w l ih => simp only [List.map_cons, List.zipWith_cons_cons, List.sum_cons, ih, component_polar, total]; rfl

/-! ## C58 -/

/-- **C58, real amplitudes.** Given frequencies (as a list or an array), real amplitudes and phases, the surface is made and its height at every point is the sum of the waves
`a cos (2 π f x - p)`, whatever the second coordinate. -/
theorem C58_sum_of_waves (l : List Wave) :
    ∃ s, init (.list (l.map Wave.f)) (ampsOf l) (l.map Wave.p) = .ok s ∧ init (.array (l.map Wave.f)) (ampsOf l) (l.map Wave.p) = .ok s ∧ ∀ x y, height s x y = total l x := by
  have e : initWith (l.map Wave.f) (ampsOf l) (l.map Wave.p) = .ok ⟨l.map Wave.f, withPhases (ampsOf l) (l.map Wave.p)⟩ := by
    unfold initWith
    rw [if_neg (by simp [none_complex l]), if_neg (by simp [ampsOf])]
  refine ⟨_, e, e, fun x y => ?_⟩
  simp only [height, loop_eq, withPhases_eq, zero_add, zip_waves]

/-- **C58, complex amplitudes.** If the amplitudes are Python complex numbers `z` the height is the sum of `Re z cos (2 π f x) + Im z sin (2 π f x)`, whatever the phases and the second coordinate. -/
theorem C58_complex_amplitudes (l : List (ℝ × ℂ)) (hne : l ≠ []) (phases : List ℝ) :
    ∃ s, init (.list (l.map Prod.fst)) (l.map fun e => .cplx e.2) phases = .ok s ∧
      ∀ x y, height s x y = (l.map fun e => e.2.re * Real.cos (2 * Real.pi * e.1 * x) + e.2.im * Real.sin (2 * Real.pi * e.1 * x)).sum := by
  have hany : (l.map fun e => Amp.cplx e.2).any Amp.isComplex = true := by
    cases l with
    | nil => exact absurd rfl hne
    | cons e l => simp [Amp.isComplex]
  have e : init (.list (l.map Prod.fst)) (l.map fun e => .cplx e.2) phases = .ok ⟨l.map Prod.fst, (l.map fun e => Amp.cplx e.2).map Amp.val⟩ := by
    simp only [init, initWith]
    rw [if_pos hany, if_neg (by simp)]
  refine ⟨_, e, fun x y => ?_⟩
  simp only [height, loop_eq, zero_add]
  clear hne hany e
  induction l with
  | nil => rfl
  | cons e l ih => simp only [component_cart] at ih ⊢; simp only [List.map_cons, List.zipWith_cons_cons, List.sum_cons, ih, Amp.val]

example : ([(1, Complex.I)] : List (ℝ × ℂ)) ≠ [] := by simp

/-- **C58, periodic.** If `T` holds a whole number of periods of every frequency, the height repeats after `T`; it never depends on the second coordinate. -/
theorem C58_periodic (s : Surf) (T : ℝ) (h : ∀ f ∈ s.freqs, ∃ k : ℤ, f * T = k) (x y y' : ℝ) : height s (x + T) y = height s x y' := by
  simp only [height, loop_eq]
  congr 2
  obtain ⟨fs, as⟩ := s
  simp only at h ⊢
  induction fs generalizing as with
  | nil => simp
  | cons f fs ih =>
    cases as with
    | nil => simp
    | cons a as =>
      simp only [List.zipWith_cons_cons]
      rw [ih _ (fun f hf => h f (by simp [hf]))]
      congr 1
      obtain ⟨k, hk⟩ := h f (by simp)
      rw [component_cart, component_cart, show 2 * Real.pi * f * (x + T) = 2 * Real.pi * f * x + k * (2 * Real.pi) by rw [← hk]; ring,
        Real.cos_add_int_mul_two_pi, Real.sin_add_int_mul_two_pi]

example : ∀ f ∈ (⟨[1 / 2, 3], [1, 1]⟩ : Surf).freqs, ∃ k : ℤ, f * 2 = k := by
  intro f hf
  simp only [List.mem_cons, List.not_mem_nil, or_false] at hf
  rcases hf with rfl | rfl
  · exact ⟨1, by norm_num⟩
  · exact ⟨6, by norm_num⟩

/-- **C58, additive in the components.** The surface of two lists of waves together is the sum of the surfaces of each. -/
theorem C58_additive (l m : List Wave) (s t u : Surf) (hs : init (.list (l.map Wave.f)) (ampsOf l) (l.map Wave.p) = .ok s)
    (ht : init (.list (m.map Wave.f)) (ampsOf m) (m.map Wave.p) = .ok t)
    (hu : init (.list ((l ++ m).map Wave.f)) (ampsOf (l ++ m)) ((l ++ m).map Wave.p) = .ok u) (x y : ℝ) : height u x y = height s x y + height t x y := by
  obtain ⟨s', es, -, hs'⟩ := C58_sum_of_waves l
  obtain ⟨t', et, -, ht'⟩ := C58_sum_of_waves m
  obtain ⟨u', eu, -, hu'⟩ := C58_sum_of_waves (l ++ m)
  rw [es] at hs; rw [et] at ht; rw [eu] at hu
  cases hs; cases ht; cases hu
  rw [hs', ht', hu']
  simp [total]

example : ∃ s, init (.list ([⟨1, 2, 3⟩].map Wave.f)) (ampsOf [⟨1, 2, 3⟩]) ([⟨1, 2, 3⟩].map Wave.p) = .ok s :=
  (C58_sum_of_waves [⟨1, 2, 3⟩]).imp fun _ h => h.1

/-- **C58, additive in the amplitudes.** For the same frequencies, adding the complex amplitudes adds the heights. -/
theorem C58_additive_in_amplitudes (f : List ℝ) (a b : List ℂ) (ha : a.length = f.length) (hb : b.length = f.length) (x y : ℝ) :
    height ⟨f, List.zipWith (· + ·) a b⟩ x y = height ⟨f, a⟩ x y + height ⟨f, b⟩ x y := by
  simp only [height, loop_eq, zero_add]
  induction f generalizing a b with
  | nil => simp
  | cons f fs ih =>
    match a, b, ha, hb with
    | a :: as, b :: bs, ha, hb =>
      simp only [List.zipWith_cons_cons, List.sum_cons]
      rw [ih as bs (by simpa using ha) (by simpa using hb), component_cart, component_cart, component_cart, Complex.add_re, Complex.add_im]
      ring

example : ([1, 2] : List ℂ).length = ([3, 4] : List ℝ).length := rfl

/-- **C58, mismatched lists.** If there are not as many amplitudes as frequencies, or the frequencies are neither a list nor an array, there is a `ValueError`;
also if there are not as many phases, unless some amplitude is a Python complex number. Missing: a number of phases that differs, with such an amplitude, see `C58_fails`. -/
theorem C58_mismatch_partial (f : List ℝ) (amps : List Amp) (phases : List ℝ) :
    init (.other f) amps phases = .error .valueError ∧
    (amps.length ≠ f.length → init (.list f) amps phases = .error .valueError ∧ init (.array f) amps phases = .error .valueError) ∧
    (phases.length ≠ f.length → (∀ a ∈ amps, a.isComplex = false) → init (.list f) amps phases = .error .valueError ∧ init (.array f) amps phases = .error .valueError) := by
  refine ⟨rfl, fun h => ?_, fun h hc => ?_⟩
  · have : initWith f amps phases = .error .valueError := by
      unfold initWith
      split
      · rw [if_pos (Ne.symm h)]
      · rw [if_pos (fun e => h e.1.symm)]
    exact ⟨this, this⟩
  · have hany : ¬ amps.any Amp.isComplex = true := by
      rw [List.any_eq_true]; rintro ⟨a, ha, e⟩; rw [hc a ha] at e; cases e
    have : initWith f amps phases = .error .valueError := by
      unfold initWith
      rw [if_neg hany, if_pos (fun e => h (e.2.symm.trans e.1.symm))]
    exact ⟨this, this⟩

example : ([] : List ℝ).length ≠ ([1] : List ℝ).length ∧ ∀ a ∈ [Amp.other 1], a.isComplex = false := by
  refine ⟨by simp, by simp [Amp.isComplex]⟩

/-- **C58 does not hold.** With one Python complex amplitude any list of phases is accepted, of any length, and it is not used: two calls that differ in the phases only give the same surface,
although with the same amplitudes given as other numbers they would be rejected, or give different ones. -/
theorem C58_fails (p : List ℝ) :
    (∃ s, init (.list [1]) [.cplx 1] p = .ok s ∧ init (.list [1]) [.cplx 1] [Real.pi] = .ok s ∧ height s 0 0 = 1) ∧
    (∃ s, init (.list [1]) [.other 1] [Real.pi] = .ok s ∧ height s 0 0 = -1) := by
  constructor
  · refine ⟨⟨[1], [1]⟩, by simp [init, initWith, Amp.isComplex, Amp.val], by simp [init, initWith, Amp.isComplex, Amp.val], ?_⟩
    simp [height, loop, component]
  · obtain ⟨s, h, -, hs⟩ := C58_sum_of_waves [⟨1, 1, Real.pi⟩]
    refine ⟨s, by simpa [ampsOf] using h, ?_⟩
    rw [hs]
    simp [total, Wave.at]

end Verif.DiscFreq
