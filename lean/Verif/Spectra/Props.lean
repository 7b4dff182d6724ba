import Mathlib.Analysis.SpecialFunctions.Trigonometric.Basic
import Verif.Spectra.Model
import Verif.Acf.Props

/-!
# Property C119: the transforms of a surface
-/

namespace Verif.Spectra

open Verif

/-! ## Specification -/

/-- The discrete Fourier transform of an array. -/
def Transform (x : Arr ℝ) (t : Arr ℂ) : Prop :=
  t.n = x.n ∧ t.m = x.m ∧ ∀ k l, t.val k l = ∑ a ∈ Finset.range x.n, ∑ b ∈ Finset.range x.m, (x.val a b : ℂ) * Complex.exp (-2 * Real.pi * Complex.I * ((k * a : ℂ) / x.n + (l * b : ℂ) / x.m))

/-- The heights of a surface as the user sees them. -/
def Heights (s : State) (p : Arr ℝ) : Prop := ∃ q, s.raw = some q ∧ p = ⟨q.n, q.m, fun i j => if s.invert then -q.val i j else q.val i j⟩

/-- The autocorrelation of a profile (its properties are C51). -/
noncomputable def acfOf (p : Arr ℝ) : Arr ℝ := ⟨p.n, p.m, Acf.original p.n p.m p.val⟩

/-- The autocorrelation of a profile can be found. -/
def Large (p : Arr ℝ) : Prop := 4 ≤ p.n ∧ 4 ≤ p.m

/-! ## What is stored -/

lemma Heights.profile {s : State} {p : Arr ℝ} (h : Heights s p) : s.profile = .ok (some p) := by
  obtain ⟨q, hq, rfl⟩ := h
  unfold State.profile
  rcases s with ⟨raw, inv, gs, acf, psd, fft⟩
  dsimp only at hq ⊢
  subst hq
  cases inv
  · simp
  · simp

/-- C119: `get_fft()` stores the Fourier transform of the heights at the time of the call and changes nothing else. -/
theorem C119_fft (s : State) (p : Arr ℝ) (hp : Heights s p) (hn : 0 < p.n) (hm : 0 < p.m) :
    ∃ t, getFft s .none = (.ok none, { s with fft := some t }) ∧ Transform p t := by
  refine ⟨⟨p.n, p.m, dft p.n p.m fun a b => p.val a b⟩, ?_, rfl, rfl, fun _ _ => rfl⟩
  unfold getFft
  rw [hp.profile]
  dsimp only
  unfold fft2
  rw [if_neg (by omega)]

/-- C119: `get_fft(array)` returns the transform of the array and changes nothing; a list of lists is an `AttributeError`, and so is a surface without profile. -/
theorem C119_fft_argument (s : State) (x : Arr ℝ) (hn : 0 < x.n) (hm : 0 < x.m) :
    (∃ t, getFft s (.array x) = (.ok (some t), s) ∧ Transform x t) ∧ getFft s (.list x) = (.error (.py .attributeError), s) ∧
    (s.raw = none → s.invert = false → getFft s .none = (.error (.py .attributeError), s)) := by
  refine ⟨⟨⟨x.n, x.m, dft x.n x.m fun a b => x.val a b⟩, ?_, rfl, rfl, fun _ _ => rfl⟩, rfl, fun h1 h2 => ?_⟩
  · unfold getFft fft2
    dsimp only
    rw [if_neg (by omega)]
  · unfold getFft State.profile
    simp [h1, h2]

/-- C119: `get_acf()` stores the autocorrelation of the heights at the time of the call and changes nothing else, if the grid spacing is set and positive and there are at least four points on both axes; otherwise it raises an exception and changes nothing. -/
theorem C119_acf (s : State) (p : Arr ℝ) (hp : Heights s p) :
    (∀ g, s.gs = some g → 0 < g → Large p → getAcf s .none = (.ok none, { s with acf := some (acfOf p) })) ∧
    ((s.gs = none ∨ (∃ g, s.gs = some g ∧ g ≤ 0) ∨ ¬ Large p) → ∃ e, getAcf s .none = (.error e, s)) := by
  unfold getAcf
  rw [hp.profile]
  dsimp only
  refine ⟨fun g hg h0 hl => ?_, fun h => ?_⟩
  · rw [hg]
    unfold makeAcf
    dsimp only
    rw [if_neg (by have := hl.1; have := hl.2; push Not; exact ⟨by omega, by omega, h0⟩)]
    rfl
  · rcases hg : s.gs with _ | g
    · exact ⟨_, rfl⟩
    · unfold makeAcf
      dsimp only
      rw [if_pos]
      · exact ⟨_, rfl⟩
      · rcases h with h | ⟨g', h, h0⟩ | h
        · rw [hg] at h; cases h
        · rw [hg] at h; cases h; exact .inr (.inr h0)
        · unfold Large at h; omega

/-- C119: `get_acf(profile)` returns the autocorrelation of the given heights and changes nothing; it needs no grid spacing of the surface. With fewer than four points on an axis it raises an exception. -/
theorem C119_acf_argument (s : State) (x : Arr ℝ) :
    (Large x → getAcf s (.array x) = (.ok (some (acfOf x)), s) ∧ getAcf s (.list x) = (.ok (some (acfOf x)), s)) ∧
    (¬ Large x → (∃ e, getAcf s (.array x) = (.error e, s)) ∧ ∃ e, getAcf s (.list x) = (.error e, s)) := by
  have h1 : Large x → makeAcf x (some 1) = .ok (acfOf x) := by
    intro h
    unfold makeAcf
    dsimp only
    rw [if_neg (by have := h.1; have := h.2; push Not; exact ⟨by omega, by omega, one_pos⟩)]
    rfl
  have h2 : ¬ Large x → makeAcf x (some 1) = .error .spline := by
    intro h
    unfold makeAcf
    dsimp only
    rw [if_pos (by unfold Large at h; omega)]
  unfold getAcf
  dsimp only
  refine ⟨fun h => ?_, fun h => ?_⟩
  · rw [h1 h]; exact ⟨rfl, rfl⟩
  · rw [h2 h]; exact ⟨⟨_, rfl⟩, _, rfl⟩

/-- C119: if the autocorrelation has just been found, `get_psd()` stores its transform, which is then that of the present heights. -/
theorem C119_psd_partial (s : State) (p : Arr ℝ) (hp : Heights s p) (g : ℝ) (hg : s.gs = some g) (h0 : 0 < g) (hl : Large p) :
    (s.acf = none → ∃ t, getPsd s = (.ok (), { s with acf := some (acfOf p), psd := some t }) ∧ Transform (acfOf p) t) ∧
    ∃ t, run s [.getAcf .none, .getPsd] = { s with acf := some (acfOf p), psd := some t } ∧ Transform (acfOf p) t := by
  have h1 := (C119_acf s p hp).1 g hg h0 hl
  have h2 : fft2 (acfOf p) = .ok ⟨p.n, p.m, dft p.n p.m fun a b => (acfOf p).val a b⟩ := by
    unfold fft2
    rw [if_neg (by have := hl.1; have := hl.2; unfold acfOf; dsimp only; omega)]
    rfl
  refine ⟨fun hn => ⟨⟨p.n, p.m, dft p.n p.m fun a b => (acfOf p).val a b⟩, ?_, rfl, rfl, fun _ _ => rfl⟩, ⟨p.n, p.m, dft p.n p.m fun a b => (acfOf p).val a b⟩, ?_, rfl, rfl, fun _ _ => rfl⟩
  · unfold getPsd
    rw [hn, h1]
    dsimp only
    unfold psdOf
    rw [h2]
  · unfold run
    simp only [List.foldl_cons, List.foldl_nil, step]
    rw [h1]
    dsimp only
    unfold getPsd
    dsimp only
    unfold psdOf
    rw [h2]

/-! ## What becomes of it -/

/-- The call stores an autocorrelation. -/
def Op.Renews : Op → Prop
  | .getAcf .none => True
  | _ => False

lemma step_acf (s : State) (o : Op) (a : Arr ℝ) (h : s.acf = some a) (ho : ¬ o.Renews) : (step s o).acf = some a := by
  cases o with
  | setProfile p => exact h
  | delProfile => exact h
  | setGs g => exact h
  | setInvert b => exact h
  | getFft x =>
    unfold step getFft
    cases x with
    | none => dsimp only; split <;> (try split) <;> exact h
    | array x => dsimp only; split <;> exact h
    | list x => exact h
  | getAcf x =>
    unfold step getAcf
    cases x with
    | none => exact absurd trivial ho
    | array x => dsimp only; split <;> exact h
    | list x => dsimp only; split <;> exact h
  | getPsd =>
    unfold step getPsd
    rw [h]
    dsimp only
    unfold psdOf
    split <;> exact h

/-- C119: once an autocorrelation is stored, nothing but `get_acf()` replaces it: after any history of other calls, with any new profiles, `get_psd()` stores the transform of the old autocorrelation. -/
theorem C119_stale_wrong (s : State) (a : Arr ℝ) (ha : s.acf = some a) (hn : 0 < a.n) (hm : 0 < a.m) (ops : List Op) (h : ∀ o ∈ ops, ¬ o.Renews) :
    ∃ t, (run s (ops ++ [.getPsd])).psd = some t ∧ Transform a t := by
  have key : (run s ops).acf = some a := by
    unfold run
    induction ops generalizing s with
    | nil => exact ha
    | cons o ops ih => exact ih (step s o) (step_acf s o a ha (h o (List.mem_cons_self ..))) (fun o' h' => h o' (List.mem_cons_of_mem _ h'))
  refine ⟨⟨a.n, a.m, dft a.n a.m fun i j => a.val i j⟩, ?_, rfl, rfl, fun _ _ => rfl⟩
  unfold run at key ⊢
  rw [List.foldl_append, List.foldl_cons, List.foldl_nil]
  change (getPsd (ops.foldl step s)).2.psd = _
  unfold getPsd
  rw [key]
  dsimp only
  unfold psdOf fft2
  rw [if_neg (by omega)]

lemma psdOf_keeps (s : State) (a : Arr ℝ) : (psdOf s a).2.raw = s.raw ∧ (psdOf s a).2.invert = s.invert := by
  unfold psdOf; split <;> exact ⟨rfl, rfl⟩

lemma getAcf_keeps (s : State) (x : Arg) : (getAcf s x).2.raw = s.raw ∧ (getAcf s x).2.invert = s.invert := by
  unfold getAcf
  split
  · split
    · exact ⟨rfl, rfl⟩
    · exact ⟨rfl, rfl⟩
    · split <;> exact ⟨rfl, rfl⟩
  · split <;> exact ⟨rfl, rfl⟩
  · split <;> exact ⟨rfl, rfl⟩

lemma getPsd_keeps (s : State) : (getPsd s).2.raw = s.raw ∧ (getPsd s).2.invert = s.invert := by
  unfold getPsd
  have := getAcf_keeps s .none
  split
  · exact psdOf_keeps s _
  · rcases hx : getAcf s .none with ⟨r, s'⟩
    rw [hx] at this
    cases r with
    | error e => exact this
    | ok r =>
      dsimp only
      split
      · exact this
      · exact ⟨(psdOf_keeps s' _).1.trans this.1, (psdOf_keeps s' _).2.trans this.2⟩

/-- C119: so the spectrum of a surface whose profile was replaced is that of the profile before: here for all profiles. -/
theorem C119_replaced_wrong (g : ℝ) (hg : 0 < g) (p q : Arr ℝ) (hp : Large p) :
    ∃ t, (run State.new [.setGs g, .setProfile p, .getPsd, .setProfile q, .getPsd]).psd = some t ∧ Transform (acfOf p) t ∧
      Heights (run State.new [.setGs g, .setProfile p, .getPsd, .setProfile q, .getPsd]) q := by
  let s0 : State := { State.new with gs := some g, raw := some p }
  have hH : Heights s0 p := ⟨p, rfl, by cases p; rfl⟩
  obtain ⟨t, h1, -⟩ := (C119_psd_partial s0 p hH g rfl hg hp).1 rfl
  have e0 : run State.new [.setGs g, .setProfile p] = s0 := rfl
  have e1 : run State.new [.setGs g, .setProfile p, .getPsd] = { s0 with acf := some (acfOf p), psd := some t } := by
    change (getPsd s0).2 = _
    rw [h1]
  have hp1 := hp.1
  have hp2 := hp.2
  obtain ⟨t', h2, h3⟩ := C119_stale_wrong { s0 with acf := some (acfOf p), psd := some t } (acfOf p) rfl (by unfold acfOf; dsimp only; omega) (by unfold acfOf; dsimp only; omega)
    [.setProfile q] (by intro o ho; rw [List.mem_singleton] at ho; subst ho; exact id)
  have e2 : run State.new [.setGs g, .setProfile p, .getPsd, .setProfile q, .getPsd] = run { s0 with acf := some (acfOf p), psd := some t } ([.setProfile q] ++ [.getPsd]) := by
    change run (run State.new [.setGs g, .setProfile p, .getPsd]) [.setProfile q, .getPsd] = _
    rw [e1]
    rfl
  rw [e2]
  obtain ⟨k1, k2⟩ := getPsd_keeps (step { s0 with acf := some (acfOf p), psd := some t } (.setProfile q))
  refine ⟨t', h2, h3, q, k1, ?_⟩
  change q = ⟨q.n, q.m, fun i j => if (getPsd (step { s0 with acf := some (acfOf p), psd := some t } (.setProfile q))).2.invert then -q.val i j else q.val i j⟩
  rw [k2]
  cases q
  rfl

/-! ## The values -/

/-- The impulse response of the whole chain. -/
lemma acf_impulse (n m : ℕ) (hn : 0 < n) (hm : 0 < m) (i j : ℕ) :
    Acf.original n m (fun a b => if a = 0 ∧ b = 0 then 1 else 0) i j = if i = n / 2 ∧ j = m / 2 then 1 / (n * m : ℝ) else 0 := by
  unfold Acf.original Acf.correlateSame Acf.correlateFull
  rw [Finset.sum_eq_single 0, Finset.sum_eq_single 0]
  · unfold Acf.padded
    dsimp only
    rw [if_pos (show (0 : ℕ) = 0 ∧ (0 : ℕ) = 0 from ⟨rfl, rfl⟩), one_mul]
    by_cases h : i = n / 2 ∧ j = m / 2
    · rw [if_pos (by omega), if_pos (by omega), if_pos h]
    · rw [if_neg h]
      split_ifs
      · omega
      · exact zero_div _
      · exact zero_div _
  · intro b _ hb; dsimp only; rw [if_neg (by omega), zero_mul]
  · intro h; rw [Finset.mem_range] at h; omega
  · intro a _ ha; apply Finset.sum_eq_zero; intro b _; dsimp only; rw [if_neg (by omega), zero_mul]
  · intro h; rw [Finset.mem_range] at h; omega

/-- The spectrum of an impulse. -/
lemma psd_impulse (n m : ℕ) (hn : 0 < n) (hm : 0 < m) (t : Arr ℂ) (ht : Transform (acfOf ⟨n, m, fun a b => if a = 0 ∧ b = 0 then 1 else 0⟩) t) (k l : ℕ) :
    t.val k l = ((1 / (n * m) : ℝ) : ℂ) * Complex.exp (-2 * Real.pi * Complex.I * ((k * (n / 2 : ℕ) : ℂ) / n + (l * (m / 2 : ℕ) : ℂ) / m)) := by
  rw [ht.2.2 k l]
  unfold acfOf
  dsimp only
  rw [Finset.sum_eq_single (n / 2), Finset.sum_eq_single (m / 2)]
  · rw [acf_impulse n m hn hm, if_pos ⟨rfl, rfl⟩]
  · intro b _ hb; rw [acf_impulse n m hn hm, if_neg (by omega)]; simp
  · intro h; rw [Finset.mem_range] at h; omega
  · intro a _ ha; apply Finset.sum_eq_zero; intro b _; rw [acf_impulse n m hn hm, if_neg (by omega)]; simp
  · intro h; rw [Finset.mem_range] at h; omega

/-- C119: a power spectral density is real and never negative, the stored one is not. For a single high point on a surface with an even number of rows the entry `(1, 0)` is negative; for an odd number of rows (more than one) it is not real. The spectrum of such a surface is constant. -/
theorem C119_sign_wrong (n m : ℕ) (hm : 0 < m) (t : Arr ℂ) (ht : Transform (acfOf ⟨n, m, fun a b => if a = 0 ∧ b = 0 then 1 else 0⟩) t) (hn : 1 < n) :
    (n % 2 = 0 → t.val 1 0 = ((-(1 / (n * m)) : ℝ) : ℂ)) ∧ (n % 2 = 1 → (t.val 1 0).im < 0) := by
  have hn0 : (0 : ℝ) < n := by exact_mod_cast (by omega : 0 < n)
  have hm0 : (0 : ℝ) < m := by exact_mod_cast hm
  have hnC : (n : ℂ) ≠ 0 := by exact_mod_cast (by omega : n ≠ 0)
  rw [psd_impulse n m (by omega) hm t ht 1 0]
  refine ⟨fun h => ?_, fun h => ?_⟩
  · have e : ((n / 2 : ℕ) : ℂ) = n / 2 := by
      have : (n : ℂ) = 2 * ((n / 2 : ℕ) : ℂ) := by exact_mod_cast (by omega : n = 2 * (n / 2))
      rw [this]; simp
    rw [e]
    have : (-2 * Real.pi * Complex.I * (((1 : ℕ) * (n / 2) : ℂ) / n + ((0 : ℕ) * ((m / 2 : ℕ) : ℂ)) / m)) = -(Real.pi * Complex.I) := by
      push_cast
      field_simp
      simp
    rw [this, Complex.exp_neg, Complex.exp_pi_mul_I]
    push_cast
    norm_num
  · have e : ((n / 2 : ℕ) : ℝ) = (n - 1) / 2 := by
      have : (n : ℝ) = 2 * ((n / 2 : ℕ) : ℝ) + 1 := by exact_mod_cast (by omega : n = 2 * (n / 2) + 1)
      linarith
    have : (-2 * Real.pi * Complex.I * (((1 : ℕ) * ((n / 2 : ℕ) : ℂ)) / n + ((0 : ℕ) * ((m / 2 : ℕ) : ℂ)) / m)) = ((-(Real.pi * (n - 1) / n) : ℝ) : ℂ) * Complex.I := by
      have e' : ((n / 2 : ℕ) : ℂ) = (n - 1) / 2 := by exact_mod_cast congrArg (Complex.ofReal) e
      rw [e']
      push_cast
      field_simp
      ring
    rw [this, Complex.im_ofReal_mul, Complex.exp_ofReal_mul_I_im, Real.sin_neg]
    have h1 : 0 < Real.sin (Real.pi * (n - 1) / n) := by
      apply Real.sin_pos_of_pos_of_lt_pi
      · have : (1 : ℝ) < n := by exact_mod_cast hn
        have := Real.pi_pos
        apply div_pos (mul_pos this (by linarith)) hn0
      · rw [div_lt_iff₀ hn0]
        have := Real.pi_pos
        nlinarith
    have h2 : 0 < 1 / ((n : ℝ) * m) := by positivity
    nlinarith

/-- The heights 1, 0, -2, 0, 1 along one line of a surface of 5 x 5 points. -/
noncomputable def ridge : Arr ℝ := ⟨5, 5, fun a b => if b = 0 then if a = 0 ∨ a = 4 then 1 else if a = 2 then -2 else 0 else 0⟩

lemma acf_ridge (i j : ℕ) (hj : j < 5) : (acfOf ridge).val i j = if j = 2 then
    (∑ a ∈ Finset.range 5, ridge.val a 0 * (if (0 : ℤ) ≤ a - i + 2 ∧ (a - i + 2 : ℤ) < 5 then ridge.val ((a : ℤ) - i + 2).toNat 0 else 0)) / 25 else 0 := by
  change Acf.original 5 5 ridge.val i j = _
  unfold Acf.original Acf.correlateSame Acf.correlateFull
  have h1 : ∀ a : ℕ, (∑ b ∈ Finset.range 5, ridge.val a b * Acf.padded 5 5 ridge.val ((a : ℤ) - (i + (2 * 5 - 1 - 5) / 2 : ℕ) + (5 : ℕ) - 1) ((b : ℤ) - (j + (2 * 5 - 1 - 5) / 2 : ℕ) + (5 : ℕ) - 1)) =
      ridge.val a 0 * (if j = 2 then if (0 : ℤ) ≤ a - i + 2 ∧ (a - i + 2 : ℤ) < 5 then ridge.val ((a : ℤ) - i + 2).toNat 0 else 0 else 0) := by
    intro a
    rw [Finset.sum_eq_single 0]
    · congr 1
      unfold Acf.padded
      have e : ((a : ℤ) - (i + (2 * 5 - 1 - 5) / 2 : ℕ) + (5 : ℕ) - 1) = (a : ℤ) - i + 2 := by omega
      rw [e]
      by_cases h2 : j = 2
      · subst h2
        rw [if_pos rfl]
        by_cases h : (0 : ℤ) ≤ a - i + 2 ∧ (a - i + 2 : ℤ) < 5
        · rw [if_pos (by omega), if_pos h]; rfl
        · rw [if_neg (by omega), if_neg h]
      · rw [if_neg h2]
        by_cases h : (0 : ℤ) ≤ (a : ℤ) - i + 2 ∧ (a : ℤ) - i + 2 < (5 : ℕ) ∧ (0 : ℤ) ≤ ((0 : ℕ) : ℤ) - (j + (2 * 5 - 1 - 5) / 2 : ℕ) + (5 : ℕ) - 1 ∧
            ((0 : ℕ) : ℤ) - (j + (2 * 5 - 1 - 5) / 2 : ℕ) + (5 : ℕ) - 1 < (5 : ℕ)
        · rw [if_pos h]
          unfold ridge
          dsimp only
          rw [if_neg (by omega)]
        · rw [if_neg h]
    · intro b _ hb
      have : ridge.val a b = 0 := by unfold ridge; dsimp only; rw [if_neg hb]
      rw [this, zero_mul]
    · intro h; exact absurd (Finset.mem_range.2 (by norm_num)) h
  simp only [h1]
  by_cases h2 : j = 2
  · simp only [h2, if_true]; norm_num
  · simp only [h2, if_false, mul_zero, Finset.sum_const_zero, zero_div]

/-- C119: even the entry of the mean height, to which no position can contribute a phase, can be negative: the autocorrelation is cut off at half of the size. -/
theorem C119_mean_wrong (t : Arr ℂ) (ht : Transform (acfOf ridge) t) : t.val 0 0 = ((-2 / 25 : ℝ) : ℂ) := by
  rw [ht.2.2 0 0]
  have h1 : ∀ a b : ℕ, (((0 : ℕ) * a : ℂ) / (acfOf ridge).n + ((0 : ℕ) * b : ℂ) / (acfOf ridge).m) = 0 := by intro a b; simp
  simp only [h1, mul_zero, Complex.exp_zero, mul_one]
  change ∑ a ∈ Finset.range 5, ∑ b ∈ Finset.range 5, ((acfOf ridge).val a b : ℂ) = _
  rw [← Complex.ofReal_inj.2 (show ∑ a ∈ Finset.range 5, ∑ b ∈ Finset.range 5, (acfOf ridge).val a b = -2 / 25 from ?_)]
  · push_cast; rfl
  · have h2 : ∀ a, ∑ b ∈ Finset.range 5, (acfOf ridge).val a b = (acfOf ridge).val a 2 := by
      intro a
      rw [Finset.sum_eq_single 2]
      · intro b hb h; rw [acf_ridge a b (Finset.mem_range.1 hb), if_neg h]
      · intro h; exact absurd (Finset.mem_range.2 (by norm_num)) h
    simp only [h2]
    simp only [acf_ridge _ 2 (by norm_num), if_true]
    have e3 : Int.toNat 3 = 3 := rfl
    have e2 : Int.toNat 2 = 2 := rfl
    have e4 : Int.toNat 4 = 4 := rfl
    simp only [Finset.sum_range_succ, Finset.sum_range_zero, ridge]
    norm_num [e2, e3, e4]

/-- C119: what is true. For odd numbers of points on both axes the stored entries are real up to the phase of the centre of the array, for all profiles. -/
theorem C119_phase_partial (p : Arr ℝ) (t : Arr ℂ) (ht : Transform (acfOf p) t) (hn : p.n % 2 = 1) (hm : p.m % 2 = 1) (k l : ℕ) :
    (t.val k l * Complex.exp (2 * Real.pi * Complex.I * ((k * (p.n / 2 : ℕ) : ℂ) / p.n + (l * (p.m / 2 : ℕ) : ℂ) / p.m))).im = 0 := by
  rw [← Complex.conj_eq_iff_im]
  have hnC : (p.n : ℂ) ≠ 0 := by exact_mod_cast (by omega : p.n ≠ 0)
  have hmC : (p.m : ℂ) ≠ 0 := by exact_mod_cast (by omega : p.m ≠ 0)
  have key : t.val k l * Complex.exp (2 * Real.pi * Complex.I * ((k * (p.n / 2 : ℕ) : ℂ) / p.n + (l * (p.m / 2 : ℕ) : ℂ) / p.m)) =
      ∑ a ∈ Finset.range p.n, ∑ b ∈ Finset.range p.m, (Acf.original p.n p.m p.val a b : ℂ) *
        Complex.exp (((2 * Real.pi * (k * ((p.n / 2 : ℕ) - a : ℝ) / p.n + l * ((p.m / 2 : ℕ) - b : ℝ) / p.m) : ℝ) : ℂ) * Complex.I) := by
    rw [ht.2.2 k l]
    unfold acfOf
    dsimp only
    rw [Finset.sum_mul]
    refine Finset.sum_congr rfl fun a _ => ?_
    rw [Finset.sum_mul]
    refine Finset.sum_congr rfl fun b _ => ?_
    rw [mul_assoc, ← Complex.exp_add]
    congr 2
    push_cast
    field_simp
    ring
  rw [key, map_sum]
  rw [← Finset.sum_range_reflect]
  refine Finset.sum_congr rfl fun a ha => ?_
  rw [Finset.mem_range] at ha
  rw [map_sum, ← Finset.sum_range_reflect]
  refine Finset.sum_congr rfl fun b hb => ?_
  rw [Finset.mem_range] at hb
  rw [map_mul, Complex.conj_ofReal, ← Complex.exp_conj, map_mul, Complex.conj_ofReal, Complex.conj_I,
    Acf.C51_symmetric p.n p.m p.val a b (p.n - 1 - a) (p.m - 1 - b) ha hb (by omega) (by omega)]
  congr 2
  have e1 : ((p.n - 1 - a : ℕ) : ℝ) = 2 * (p.n / 2 : ℕ) - a := by
    have : (p.n - 1 - a) + a = 2 * (p.n / 2) := by omega
    have : ((p.n - 1 - a : ℕ) : ℝ) + a = 2 * (p.n / 2 : ℕ) := by exact_mod_cast this
    linarith
  have e2 : ((p.m - 1 - b : ℕ) : ℝ) = 2 * (p.m / 2 : ℕ) - b := by
    have : (p.m - 1 - b) + b = 2 * (p.m / 2) := by omega
    have : ((p.m - 1 - b : ℕ) : ℝ) + b = 2 * (p.m / 2 : ℕ) := by exact_mod_cast this
    linarith
  rw [e1, e2]
  push_cast
  ring

/-! ## Concrete cases -/

/-- A surface of 5 x 5 points with a grid spacing meets the hypotheses of `C119_fft`, `C119_fft_argument`, `C119_acf` and `C119_psd_partial`. -/
example : Heights { State.new with raw := some ridge, gs := some 1 } ridge ∧ Large ridge ∧ (0 : ℝ) < 1 ∧ ridge.n % 2 = 1 ∧ ridge.m % 2 = 1 :=
  ⟨⟨ridge, rfl, rfl⟩, ⟨by decide, by decide⟩, one_pos, rfl, rfl⟩

/-- An inverted surface. -/
example : Heights { State.new with raw := some ridge, invert := true } ⟨5, 5, fun i j => -ridge.val i j⟩ := ⟨ridge, rfl, rfl⟩

/-- A history in which the old autocorrelation survives (`C119_stale_wrong`): new profiles, a deleted one, the transform, other spectra. -/
example (q : Arr ℝ) : ∀ o ∈ [Op.setProfile q, .getFft .none, .getPsd, .delProfile, .getAcf (.array q), .setProfile q], ¬ o.Renews := by
  intro o ho
  simp only [List.mem_cons, List.not_mem_nil, or_false] at ho
  rcases ho with rfl | rfl | rfl | rfl | rfl | rfl <;> exact id

/-- The spectrum exists for all profiles with at least four points on each axis (`C119_sign_wrong`, `C119_mean_wrong`). -/
example (p : Arr ℝ) (hp : Large p) : ∃ t, Transform (acfOf p) t := by
  obtain ⟨t, -, h, -⟩ := C119_replaced_wrong 1 one_pos p p hp
  exact ⟨t, h⟩

end Verif.Spectra
