import Mathlib.Tactic.IntervalCases
import Verif.Johnson.Iterations
import Verif.Johnson.Moments

/-!
# C136: the iteration of the unbounded fit

`w` is `exp(delta^-2)`, `m` is `w sinh^2(gamma/delta)`.
-/

namespace Verif.Johnson

open Real MeasureTheory ProbabilityTheory

/-- The kurtosis of an unbounded Johnson distribution (`C136_shape`). -/
noncomputable def kurtOf (w m : ℝ) : ℝ :=
  3 + (w - 1) * (8 * (w ^ 3 + 3 * w ^ 2 + 6 * w + 6) * m ^ 2 + 8 * (w ^ 4 + 3 * w ^ 3 + 6 * w ^ 2 + 7 * w + 3) * m + (w + 1) ^ 3 * (w ^ 2 + 3)) / (2 * (2 * m + w + 1) ^ 2)

/-- Its squared skewness. -/
noncomputable def skewSqOf (w m : ℝ) : ℝ := m * (w - 1) * (4 * (w + 2) * m + 3 * (w + 1) ^ 2) ^ 2 / (2 * (2 * m + w + 1) ^ 3)

set_option maxHeartbeats 1000000 in
/-- Moments of all unbounded distributions that `su_fit` makes, whatever its iteration ends with. -/
theorem su_moments (mean sd w y : ℝ) (hsd : 0 < sd) (hw : 1 < w) :
    ∃ m3, HasMoments (suEnd mean sd w y) mean (sd ^ 2) m3 (kurtOf w (w * sinh y ^ 2) * sd ^ 4) ∧ m3 ^ 2 = skewSqOf w (w * sinh y ^ 2) * sd ^ 6 ∧
      (0 < y → m3 < 0) ∧ (y < 0 → 0 < m3) := by
  have hlog : 0 < log w := log_pos hw
  set s := √(log w) with hs
  have hspos : 0 < s := sqrt_pos.2 hlog
  have hs2 : s ^ 2 = log w := sq_sqrt hlog.le
  have hdelta : √(1 / log w) = 1 / s := by rw [sqrt_div zero_le_one, sqrt_one]
  set E := exp y with hE
  have hEpos : 0 < E := exp_pos y
  set P := 1 / (2 * E) with hP
  set Q := -E / 2 with hQ
  have hPQ : P * Q = -1 / 4 := by rw [hP, hQ]; field_simp; norm_num
  have hsinh : sinh y = -(P + Q) := by rw [sinh_eq, exp_neg, ← hE, hP, hQ]; field_simp; ring
  set g := P + Q with hg
  have hV' : 0.5 * (w - 1) * (0.5 * w * (E ^ 2 + 1 / E ^ 2) + 1) = (w - 1) * (2 * (w * g ^ 2) + w + 1) / 2 := by
    have : E ^ 2 + 1 / E ^ 2 = 4 * g ^ 2 + 2 := by rw [hg, hP, hQ]; field_simp; ring
    rw [this]; ring
  set V := (w - 1) * (2 * (w * g ^ 2) + w + 1) / 2 with hV
  have hm0 : 0 ≤ w * g ^ 2 := by positivity
  have hVpos : 0 < V := by
    have : 0 < w - 1 := by linarith
    have : 0 < 2 * (w * g ^ 2) + w + 1 := by linarith
    rw [hV]; positivity
  set L := sd / √V with hL
  have hLpos : 0 < L := div_pos hsd (sqrt_pos.2 hVpos)
  have hL2 : L ^ 2 * V = sd ^ 2 := by rw [hL, div_pow, sq_sqrt hVpos.le]; field_simp
  set h := exp (s ^ 2 / 2) with hh
  have hhpos : 0 < h := exp_pos _
  have hwh : w = h ^ 2 := by
    rw [hh, ← exp_nat_mul, hs2, show ((2 : ℕ) : ℝ) * (log w / 2) = log w by push_cast; ring, exp_log (by linarith)]
  set k := -(h * g) with hk
  have hval : ∀ z, (suEnd mean sd w y).quantile z = some (mean + L * (P * exp (s * z) + Q * exp (-s * z) + k)) := by
    intro z
    unfold suEnd
    dsimp only
    rw [hdelta, ← hE, hV', ← hL]
    simp only [Dist.quantile]
    rw [if_pos ⟨by positivity, hLpos⟩]
    have e1 : y * (1 / s) / (1 / s) = y := by field_simp
    have e2 : (z - y * (1 / s)) / (1 / s) = s * z - y := by field_simp
    have e3 : ((1 / s) ^ 2)⁻¹ / 2 = s ^ 2 / 2 := by field_simp
    rw [e1, e2, e3, ← hh, hsinh, sinh_eq, exp_sub, show -(s * z - y) = -s * z + y by ring, exp_add, ← hE, hk, hP, hQ]
    congr 1
    field_simp
    ring
  have einv : ∀ z, exp (s * z) * exp (-s * z) = 1 := by intro z; rw [← exp_add]; norm_num
  have e0 : ∀ z, exp (0 * z) = 1 := fun z => by rw [zero_mul, exp_zero]
  have ek : ∀ (k : ℕ) (z : ℝ), exp ((k * s) * z) = exp (s * z) ^ k := by
    intro k z; rw [← exp_nat_mul]; congr 1; ring
  have ek' : ∀ (k : ℕ) (z : ℝ), exp ((-k * s) * z) = exp (-s * z) ^ k := by
    intro k z; rw [← exp_nat_mul]; congr 1; ring
  have e2 := ek 2; have e3 := ek 3; have e4 := ek 4; have e2' := ek' 2; have e3' := ek' 3; have e4' := ek' 4
  have hk1 : ∀ k : ℕ, exp ((k * s) ^ 2 / 2) = h ^ (k ^ 2) := by
    intro k; rw [hh, ← exp_nat_mul]; congr 1; push_cast; ring
  have hk' : ∀ k : ℕ, exp ((-k * s) ^ 2 / 2) = h ^ (k ^ 2) := by
    intro k; rw [hh, ← exp_nat_mul]; congr 1; push_cast; ring
  have h2 := hk1 2; have h3 := hk1 3; have h4 := hk1 4; have h2' := hk' 2; have h3' := hk' 3; have h4' := hk' 4
  push_cast at e2 e3 e4 h2 h3 h4 e2' e3' e4' h2' h3' h4'
  have h0 : exp ((0 : ℝ) ^ 2 / 2) = 1 := by norm_num
  have h1' : exp ((-s) ^ 2 / 2) = h := by rw [hh, neg_sq]
  have M0 := expect_of_eq (f := fun z => mean + L * (P * exp (s * z) + Q * exp (-s * z) + k)) [(mean + L * k, 0), (L * P, s), (L * Q, -s)]
    (by intro z; simp only [expSum, List.map_cons, List.map_nil, List.sum_cons, List.sum_nil, e0]; ring)
  have M1 := expect_of_eq (f := fun z => mean + L * (P * exp (s * z) + Q * exp (-s * z) + k) - mean) [(L * k, 0), (L * P, s), (L * Q, -s)]
    (by intro z; simp only [expSum, List.map_cons, List.map_nil, List.sum_cons, List.sum_nil, e0]; ring)
  have M2 := expect_of_eq (f := fun z => (mean + L * (P * exp (s * z) + Q * exp (-s * z) + k) - mean) ^ 2)
    [(L ^ 2 * (k ^ 2 + 2 * P * Q), 0), (L ^ 2 * (2 * k * P), s), (L ^ 2 * (2 * k * Q), -s), (L ^ 2 * P ^ 2, 2 * s), (L ^ 2 * Q ^ 2, -2 * s)]
    (by
      intro z
      simp only [expSum, List.map_cons, List.map_nil, List.sum_cons, List.sum_nil, e0, e2, e2']
      linear_combination (2 * L ^ 2 * P * Q) * einv z)
  have M3 := expect_of_eq (f := fun z => (mean + L * (P * exp (s * z) + Q * exp (-s * z) + k) - mean) ^ 3)
    [(L ^ 3 * P ^ 3, 3 * s), (L ^ 3 * Q ^ 3, -3 * s), (L ^ 3 * (3 * k * P ^ 2), 2 * s), (L ^ 3 * (3 * k * Q ^ 2), -2 * s), (L ^ 3 * (3 * P ^ 2 * Q + 3 * k ^ 2 * P), s),
      (L ^ 3 * (3 * P * Q ^ 2 + 3 * k ^ 2 * Q), -s), (L ^ 3 * (k ^ 3 + 6 * k * P * Q), 0)]
    (by
      intro z
      simp only [expSum, List.map_cons, List.map_nil, List.sum_cons, List.sum_nil, e0, e2, e2', e3, e3']
      linear_combination (L ^ 3 * (6 * k * P * Q + 3 * P ^ 2 * Q * exp (s * z) + 3 * P * Q ^ 2 * exp (-s * z))) * einv z)
  have M4 := expect_of_eq (f := fun z => (mean + L * (P * exp (s * z) + Q * exp (-s * z) + k) - mean) ^ 4)
    [(L ^ 4 * P ^ 4, 4 * s), (L ^ 4 * Q ^ 4, -4 * s), (L ^ 4 * (4 * k * P ^ 3), 3 * s), (L ^ 4 * (4 * k * Q ^ 3), -3 * s), (L ^ 4 * (4 * P ^ 3 * Q + 6 * k ^ 2 * P ^ 2), 2 * s),
      (L ^ 4 * (4 * P * Q ^ 3 + 6 * k ^ 2 * Q ^ 2), -2 * s), (L ^ 4 * (12 * k * P ^ 2 * Q + 4 * k ^ 3 * P), s), (L ^ 4 * (12 * k * P * Q ^ 2 + 4 * k ^ 3 * Q), -s),
      (L ^ 4 * (k ^ 4 + 12 * k ^ 2 * P * Q + 6 * P ^ 2 * Q ^ 2), 0)]
    (by
      intro z
      simp only [expSum, List.map_cons, List.map_nil, List.sum_cons, List.sum_nil, e0, e2, e2', e3, e3', e4, e4']
      linear_combination (L ^ 4 * (12 * k ^ 2 * P * Q + 12 * k * P ^ 2 * Q * exp (s * z) + 12 * k * P * Q ^ 2 * exp (-s * z) + 4 * P ^ 3 * Q * exp (s * z) ^ 2 +
        4 * P * Q ^ 3 * exp (-s * z) ^ 2 + 6 * P ^ 2 * Q ^ 2 * (exp (s * z) * exp (-s * z) + 1))) * einv z)
  simp only [List.map_cons, List.map_nil, List.sum_cons, List.sum_nil, h0, h1', h2, h2', h3, h3', h4, h4', ← hh] at M0 M2 M3 M4
  have p2 : P ^ 2 + Q ^ 2 = g ^ 2 + 1 / 2 := by rw [hg]; linear_combination (-2 : ℝ) * hPQ
  have p3 : P ^ 3 + Q ^ 3 = g ^ 3 + 3 / 4 * g := by rw [hg]; linear_combination (-3 * (P + Q)) * hPQ
  have p4 : P ^ 4 + Q ^ 4 = g ^ 4 + g ^ 2 + 1 / 8 := by rw [hg]; linear_combination (-4 * (P + Q) ^ 2 + 2 * P * Q - 1 / 2) * hPQ
  set third := L ^ 3 * (g * h * (w - 1) ^ 2 * (w * g ^ 2 * (w + 2) + 3 / 4 * (w + 1) ^ 2)) with hthird
  have v2 : expect (fun z => (mean + L * (P * exp (s * z) + Q * exp (-s * z) + k) - mean) ^ 2) = sd ^ 2 := by
    rw [M2.2, ← hL2, hV, hwh, hk]
    linear_combination (L ^ 2 * h ^ 4) * p2 + (2 * L ^ 2) * hPQ - 2 * L ^ 2 * h ^ 2 * g * hg
  have v3 : expect (fun z => (mean + L * (P * exp (s * z) + Q * exp (-s * z) + k) - mean) ^ 3) = third := by
    rw [M3.2, hthird, hwh, hk]
    linear_combination (L ^ 3 * h ^ 9) * p3 - (3 * L ^ 3 * h ^ 5 * g) * p2 + (3 * L ^ 3 * h * (P + Q) - 6 * L ^ 3 * h * g) * hPQ - (3 * L ^ 3 * h ^ 3 * g ^ 2) * hg + (3 / 4 * L ^ 3 * h) * hg
  have v4 : expect (fun z => (mean + L * (P * exp (s * z) + Q * exp (-s * z) + k) - mean) ^ 4) = kurtOf w (w * sinh y ^ 2) * sd ^ 4 := by
    have hD : 2 * (w * g ^ 2) + w + 1 ≠ 0 := by linarith
    have e : kurtOf w (w * sinh y ^ 2) * sd ^ 4 = L ^ 4 * ((w - 1) ^ 2 * (6 * (2 * (w * g ^ 2) + w + 1) ^ 2 + (w - 1) * (8 * (w ^ 3 + 3 * w ^ 2 + 6 * w + 6) * (w * g ^ 2) ^ 2 +
        8 * (w ^ 4 + 3 * w ^ 3 + 6 * w ^ 2 + 7 * w + 3) * (w * g ^ 2) + (w + 1) ^ 3 * (w ^ 2 + 3))) / 8) := by
      rw [show sd ^ 4 = (sd ^ 2) ^ 2 by ring, ← hL2, hV, hsinh]
      unfold kurtOf
      rw [show (-g) ^ 2 = g ^ 2 by ring]
      field_simp
      ring
    rw [M4.2, e, hwh, hk]
    have hPQ2 : P ^ 2 * Q ^ 2 = 1 / 16 := by linear_combination (P * Q - 1 / 4) * hPQ
    linear_combination (L ^ 4 * h ^ 16) * p4 - (4 * L ^ 4 * h ^ 10 * g) * p3 + (6 * L ^ 4 * h ^ 6 * g ^ 2 - L ^ 4 * h ^ 4) * p2 + (4 * L ^ 4 * h ^ 4 * (P ^ 2 + Q ^ 2)) * hPQ -
      (4 * L ^ 4 * h ^ 4 * g ^ 3 - 3 * L ^ 4 * h ^ 2 * g) * hg * 1 + (12 * L ^ 4 * h ^ 2 * g ^ 2 - 12 * L ^ 4 * h ^ 2 * g * (P + Q)) * hPQ + 6 * L ^ 4 * hPQ2
  refine ⟨third, ⟨_, hval, fun k hk => ?_, ?_, v2, v3, v4⟩, ?_, ?_, ?_⟩
  · interval_cases k
    · simpa using (integrable_const (1 : ℝ) : Integrable (fun _ : ℝ => (1 : ℝ)) std)
    · simpa using M1.1
    · exact M2.1
    · exact M3.1
    · exact M4.1
  · rw [M0.2, hk, hg]; ring
  · have hD : 2 * (w * g ^ 2) + w + 1 ≠ 0 := by linarith
    rw [show sd ^ 6 = (sd ^ 2) ^ 3 by ring, ← hL2, hV, hsinh, hthird]
    unfold skewSqOf
    rw [show (-g) ^ 2 = g ^ 2 by ring, mul_pow, show (g * h * (w - 1) ^ 2 * (w * g ^ 2 * (w + 2) + 3 / 4 * (w + 1) ^ 2)) ^ 2 =
      w * g ^ 2 * (w - 1) ^ 4 * (w * g ^ 2 * (w + 2) + 3 / 4 * (w + 1) ^ 2) ^ 2 by rw [hwh]; ring]
    field_simp
    ring
  · intro hy
    have : g < 0 := by have := sinh_pos_iff.2 hy; linarith
    have h5 : 0 < L ^ 3 * (h * (w - 1) ^ 2 * (w * g ^ 2 * (w + 2) + 3 / 4 * (w + 1) ^ 2)) := by
      have : 0 < (w - 1) ^ 2 := by have : 0 < w - 1 := by linarith
                                   positivity
      positivity
    rw [hthird, show L ^ 3 * (g * h * (w - 1) ^ 2 * (w * g ^ 2 * (w + 2) + 3 / 4 * (w + 1) ^ 2)) =
      g * (L ^ 3 * (h * (w - 1) ^ 2 * (w * g ^ 2 * (w + 2) + 3 / 4 * (w + 1) ^ 2))) by ring]
    exact mul_neg_of_neg_of_pos ‹_› h5
  · intro hy
    have : 0 < g := by have := sinh_neg_iff.2 hy; linarith
    have : 0 < (w - 1) ^ 2 := by have : 0 < w - 1 := by linarith
                                 positivity
    rw [hthird]
    positivity

/-! ## The passes -/

theorem bind_ok {α β : Type} {x : Except PyErr α} {f : α → Except PyErr β} {b : β} (h : (x >>= f) = .ok b) : ∃ a, x = .ok a ∧ f a = .ok b := by
  cases x with
  | error e => cases h
  | ok a => exact ⟨a, rfl, h⟩

theorem msqrt_ok {x y : ℝ} (h : msqrt x = .ok y) : 0 ≤ x ∧ y = √x := by
  unfold msqrt at h
  split_ifs at h with h0
  exact ⟨not_lt.1 h0, (Except.ok.inj h).symm⟩

theorem mdiv_ok {x y z : ℝ} (h : mdiv x y = .ok z) : y ≠ 0 ∧ z = x / y := by
  unfold mdiv at h
  split_ifs at h with h0
  exact ⟨h0, (Except.ok.inj h).symm⟩

/-- What a pass does: for the present `w` it finds the `m` with the kurtosis asked for, and the squared skewness of this distribution; then it changes `w`. -/
theorem suStep_spec {beta1 beta2 w : ℝ} (hw : 0 ≤ w) {s : SuPass} (h : suStep beta1 beta2 w = .ok s) (hm : 0 ≤ s.m) :
    kurtOf w s.m = beta2 ∧ s.z = skewSqOf w s.m ∧ s.z ≠ 0 ∧ 0 ≤ s.w ∧
      (s.w ^ 2 + 1) ^ 2 = (w ^ 2 + 1) ^ 2 + 2 * (1 - beta1 / s.z) * (beta2 - (w ^ 4 + 2 * w ^ 2 + 3) / 2) := by
  unfold suStep at h
  dsimp only at h
  obtain ⟨r, hr, h⟩ := bind_ok h
  obtain ⟨m, hm', h⟩ := bind_ok h
  obtain ⟨z, hz, h⟩ := bind_ok h
  obtain ⟨q, hq, h⟩ := bind_ok h
  obtain ⟨r2, hr2, h⟩ := bind_ok h
  obtain ⟨w', hw', h⟩ := bind_ok h
  obtain rfl := Except.ok.inj h
  dsimp only at hm ⊢
  obtain ⟨d0, rfl⟩ := msqrt_ok hr
  obtain ⟨b0, hmv⟩ := mdiv_ok hm'
  obtain ⟨z0, rfl⟩ := mdiv_ok hz
  obtain ⟨q0, rfl⟩ := mdiv_ok hq
  obtain ⟨x0, rfl⟩ := msqrt_ok hr2
  obtain ⟨y0, rfl⟩ := msqrt_ok hw'
  clear hr hm' hz hq hr2 hw' h
  have hD : 0 < 2 * m + w + 1 := by linarith
  have hz' : m * (w - 1) * (4 * (w + 2) * m + 3 * (w + 1) ^ 2) ^ 2 / (2 * (2 * m + (w + 1)) ^ 3) = skewSqOf w m := by
    unfold skewSqOf; rw [add_assoc]
  rw [hz'] at q0 x0 y0 ⊢
  refine ⟨?_, rfl, q0, sqrt_nonneg _, ?_⟩
  · set a := 8 * ((w - 1) * (3 + w * (7 + w * (6 + w * (3 + w)))) - (w + 1) * (beta2 - 3)) with ha
    set b := 16 * ((w - 1) * (6 + w * (6 + w * (3 + w))) - (beta2 - 3)) with hb
    set c := (w - 1) * (3 + w * (9 + w * (10 + w * (6 + w * (3 + w))))) - 2 * (w + 1) * ((w + 1) * (beta2 - 3)) with hc
    have hroot : √(a ^ 2 - 2 * b * c) = b * m + a := by rw [hmv]; field_simp; ring
    have hsq : (b * m + a) ^ 2 = a ^ 2 - 2 * b * c := by rw [← hroot, sq_sqrt d0]
    have hquad : b * m ^ 2 + 2 * a * m + 2 * c = 0 := by
      have : b * (b * m ^ 2 + 2 * a * m + 2 * c) = 0 := by linear_combination hsq
      exact (mul_eq_zero.1 this).resolve_left b0
    unfold kurtOf
    rw [← sub_eq_zero, show 3 + (w - 1) * (8 * (w ^ 3 + 3 * w ^ 2 + 6 * w + 6) * m ^ 2 + 8 * (w ^ 4 + 3 * w ^ 3 + 6 * w ^ 2 + 7 * w + 3) * m + (w + 1) ^ 3 * (w ^ 2 + 3)) / (2 * (2 * m + w + 1) ^ 2) - beta2 =
      (b * m ^ 2 + 2 * a * m + 2 * c) / (4 * (2 * m + w + 1) ^ 2) by rw [ha, hb, hc]; field_simp; ring, hquad, zero_div]
  · rw [sq_sqrt y0, sub_add_cancel, sq_sqrt x0]
    field_simp
    ring

/-- The skewness is zero only without `m`. -/
theorem kurtOf_zero (w : ℝ) (hw : 0 ≤ w) : kurtOf w 0 = (w ^ 4 + 2 * w ^ 2 + 3) / 2 := by
  unfold kurtOf
  field_simp
  ring

theorem kurtOf_m (w m : ℝ) (hw : 1 < w) (hm : 0 < m) : (w ^ 4 + 2 * w ^ 2 + 3) / 2 < kurtOf w m := by
  rw [← kurtOf_zero w (by linarith), ← sub_pos]
  have h0 : kurtOf w m - kurtOf w 0 = (w - 1) * (m * (4 * (w + 1) ^ 2 * (w ^ 3 + 5 * w ^ 2 + 9 * w + 9) * m + 4 * (w + 1) ^ 2 * (w ^ 4 + 4 * w ^ 3 + 8 * w ^ 2 + 8 * w + 3))) /
      (2 * (2 * m + w + 1) ^ 2 * (w + 1) ^ 2) := by
    unfold kurtOf
    field_simp
    ring
  rw [h0]
  have : 0 < w - 1 := by linarith
  positivity

/-- The kurtosis increases with `w`. -/
theorem kurtOf_w {w w' m : ℝ} (hw : 0 ≤ w) (hm : 0 ≤ m) (hlt : w < w') (h1 : 1 < w') : kurtOf w m < kurtOf w' m := by
  obtain ⟨t, ht, rfl⟩ : ∃ t, 0 < t ∧ w' = w + t := ⟨w' - w, by linarith, by ring⟩
  rcases le_or_gt w 1 with h | h
  · have e1 : kurtOf w m ≤ 3 := by
      unfold kurtOf
      have : (w - 1) * (8 * (w ^ 3 + 3 * w ^ 2 + 6 * w + 6) * m ^ 2 + 8 * (w ^ 4 + 3 * w ^ 3 + 6 * w ^ 2 + 7 * w + 3) * m + (w + 1) ^ 3 * (w ^ 2 + 3)) / (2 * (2 * m + w + 1) ^ 2) ≤ 0 := by
        apply div_nonpos_of_nonpos_of_nonneg
        · apply mul_nonpos_of_nonpos_of_nonneg (by linarith)
          positivity
        · positivity
      linarith
    have e2 : 3 < kurtOf (w + t) m := by
      unfold kurtOf
      have : 0 < w + t - 1 := by linarith
      have hp : 0 < w + t := by linarith
      generalize w + t = u at *
      have : 0 < (u - 1) * (8 * (u ^ 3 + 3 * u ^ 2 + 6 * u + 6) * m ^ 2 + 8 * (u ^ 4 + 3 * u ^ 3 + 6 * u ^ 2 + 7 * u + 3) * m + (u + 1) ^ 3 * (u ^ 2 + 3)) / (2 * (2 * m + u + 1) ^ 2) := by positivity
      linarith
    linarith
  · unfold kurtOf
    have hN : (8 * (w ^ 3 + 3 * w ^ 2 + 6 * w + 6) * m ^ 2 + 8 * (w ^ 4 + 3 * w ^ 3 + 6 * w ^ 2 + 7 * w + 3) * m + (w + 1) ^ 3 * (w ^ 2 + 3)) / (2 * (2 * m + w + 1) ^ 2) ≤
        (8 * ((w + t) ^ 3 + 3 * (w + t) ^ 2 + 6 * (w + t) + 6) * m ^ 2 + 8 * ((w + t) ^ 4 + 3 * (w + t) ^ 3 + 6 * (w + t) ^ 2 + 7 * (w + t) + 3) * m + (w + t + 1) ^ 3 * ((w + t) ^ 2 + 3)) /
          (2 * (2 * m + (w + t) + 1) ^ 2) := by
      rw [div_le_div_iff₀ (by positivity) (by positivity), ← sub_nonneg]
      ring_nf
      positivity
    have hNpos : 0 < (8 * (w ^ 3 + 3 * w ^ 2 + 6 * w + 6) * m ^ 2 + 8 * (w ^ 4 + 3 * w ^ 3 + 6 * w ^ 2 + 7 * w + 3) * m + (w + 1) ^ 3 * (w ^ 2 + 3)) / (2 * (2 * m + w + 1) ^ 2) := by positivity
    rw [mul_div_assoc, mul_div_assoc]
    have : (w - 1) * ((8 * (w ^ 3 + 3 * w ^ 2 + 6 * w + 6) * m ^ 2 + 8 * (w ^ 4 + 3 * w ^ 3 + 6 * w ^ 2 + 7 * w + 3) * m + (w + 1) ^ 3 * (w ^ 2 + 3)) / (2 * (2 * m + w + 1) ^ 2)) <
        (w + t - 1) * ((8 * (w ^ 3 + 3 * w ^ 2 + 6 * w + 6) * m ^ 2 + 8 * (w ^ 4 + 3 * w ^ 3 + 6 * w ^ 2 + 7 * w + 3) * m + (w + 1) ^ 3 * (w ^ 2 + 3)) / (2 * (2 * m + w + 1) ^ 2)) :=
      mul_lt_mul_of_pos_right (by linarith) hNpos
    have := mul_le_mul_of_nonneg_left hN (by linarith : 0 ≤ w + t - 1)
    linarith

/-- The last pass of the loop. -/
theorem suLoop_last {beta1 beta2 : ℝ} : ∀ {n : ℕ} {w : ℝ} {s : SuPass}, 0 ≤ w → suLoop beta1 beta2 n w = some (.ok s) →
    ∃ w0, 0 ≤ w0 ∧ suStep beta1 beta2 w0 = .ok s ∧ |beta1 - s.z| ≤ 1 / 100
  | 0, _, _, _, h => by cases h
  | n + 1, w, s, hw, h => by
    unfold suLoop at h
    cases hs : suStep beta1 beta2 w with
    | error e => rw [hs] at h; cases h
    | ok s' =>
      rw [hs] at h
      dsimp only at h
      split_ifs at h with hc
      · refine suLoop_last ?_ h
        unfold suStep at hs
        dsimp only at hs
        obtain ⟨r, hr, hs⟩ := bind_ok hs
        obtain ⟨m, hm', hs⟩ := bind_ok hs
        obtain ⟨z, hz, hs⟩ := bind_ok hs
        obtain ⟨q, hq, hs⟩ := bind_ok hs
        obtain ⟨r2, hr2, hs⟩ := bind_ok hs
        obtain ⟨w', hw', hs⟩ := bind_ok hs
        obtain rfl := Except.ok.inj hs
        rw [(msqrt_ok hw').2]
        exact sqrt_nonneg _
      · obtain rfl := Except.ok.inj (Option.some.inj h)
        exact ⟨w, hw, hs, not_lt.1 hc⟩

/-- The last lines before the parameters are written. -/
theorem suShape_spec {r y : ℝ} {s : SuPass} (hw : 0 ≤ s.w) (h : suShape r s = .ok y) :
    0 ≤ s.m ∧ s.w * sinh y ^ 2 = s.m ∧ (0 < r → y ≤ 0) ∧ (r ≤ 0 → 0 ≤ y) ∧ 0 < s.w := by
  unfold suShape at h
  obtain ⟨q, hq, h⟩ := bind_ok h
  obtain ⟨r1, hr1, h⟩ := bind_ok h
  obtain ⟨r2, hr2, h⟩ := bind_ok h
  have hy := Except.ok.inj h
  obtain ⟨w0, rfl⟩ := mdiv_ok hq
  obtain ⟨h1, rfl⟩ := msqrt_ok hr1
  obtain ⟨h2, rfl⟩ := msqrt_ok hr2
  have hw' : 0 < s.w := lt_of_le_of_ne hw (Ne.symm w0)
  have hlog : log (√(s.m / s.w) + √(s.m / s.w + 1)) = arsinh (√(s.m / s.w)) := by
    rw [arsinh, sq_sqrt h1, add_comm (s.m / s.w) 1]
  rw [hlog] at hy
  have hpos : 0 ≤ arsinh (√(s.m / s.w)) := arsinh_nonneg_iff.2 (sqrt_nonneg _)
  have hsq : sinh y ^ 2 = s.m / s.w := by
    rw [← hy]
    split_ifs
    · rw [mul_neg_one, sinh_neg, neg_sq, sinh_arsinh, sq_sqrt h1]
    · rw [sinh_arsinh, sq_sqrt h1]
  refine ⟨?_, ?_, fun hr => ?_, fun hr => ?_, hw'⟩
  · rw [div_nonneg_iff] at h1
    rcases h1 with h | h
    · exact h.1
    · exact absurd h.2 (not_le.2 hw')
  · rw [hsq]; field_simp
  · rw [← hy, if_pos hr]; linarith
  · rw [← hy, if_neg (not_lt.2 hr)]; exact hpos

/-- The run of the iteration: there is an estimate with exactly the kurtosis asked for and nearly the squared skewness asked for, and the result has the same `m` but another `w`. -/
theorem suIteration_spec {n : ℕ} {r beta2 w y : ℝ} (hb : 3 < beta2) (h : suIteration n r beta2 = some (.ok (w, y))) :
    ∃ w0 y0, 1 < w0 ∧ 0 < w ∧ w0 * sinh y0 ^ 2 = w * sinh y ^ 2 ∧ (0 < r → y0 < 0 ∧ y < 0) ∧ (r ≤ 0 → 0 < y0 ∧ 0 < y) ∧
      kurtOf w0 (w0 * sinh y0 ^ 2) = beta2 ∧ |skewSqOf w0 (w0 * sinh y0 ^ 2) - r ^ 2| ≤ 1 / 100 ∧
      (r ^ 2 < skewSqOf w0 (w0 * sinh y0 ^ 2) → w0 < w) ∧ (skewSqOf w0 (w0 * sinh y0 ^ 2) < r ^ 2 → w < w0) ∧ (skewSqOf w0 (w0 * sinh y0 ^ 2) = r ^ 2 → w = w0) := by
  unfold suIteration at h
  cases hl : suLoop (r ^ 2) beta2 n (suFirst (r ^ 2) beta2) with
  | none => rw [hl] at h; cases h
  | some x =>
    cases x with
    | error e => rw [hl] at h; cases h
    | ok s =>
      rw [hl] at h
      dsimp only at h
      cases hy : suShape r s with
      | error e => rw [hy] at h; cases h
      | ok y' =>
        rw [hy] at h
        dsimp only at h
        obtain ⟨rfl, rfl⟩ := Prod.mk.inj (Except.ok.inj (Option.some.inj h))
        obtain ⟨w0, hw0, hstep, htol⟩ := suLoop_last (sqrt_nonneg _) hl
        have hsw : 0 ≤ s.w := by
          unfold suStep at hstep
          dsimp only at hstep
          obtain ⟨r, hr, hs⟩ := bind_ok hstep
          obtain ⟨m, hm', hs⟩ := bind_ok hs
          obtain ⟨z, hz, hs⟩ := bind_ok hs
          obtain ⟨q, hq, hs⟩ := bind_ok hs
          obtain ⟨r2, hr2, hs⟩ := bind_ok hs
          obtain ⟨w', hw', hs⟩ := bind_ok hs
          obtain rfl := Except.ok.inj hs
          rw [(msqrt_ok hw').2]
          exact sqrt_nonneg _
        obtain ⟨hm, hwm, hneg, hpos, hswp⟩ := suShape_spec hsw hy
        obtain ⟨hk, hz, hz0, -, hupd⟩ := suStep_spec hw0 hstep hm
        have hw1 : 1 < w0 := by
          by_contra hcon
          have hcon := not_lt.1 hcon
          have : kurtOf w0 s.m ≤ 3 := by
            unfold kurtOf
            have : (w0 - 1) * (8 * (w0 ^ 3 + 3 * w0 ^ 2 + 6 * w0 + 6) * s.m ^ 2 + 8 * (w0 ^ 4 + 3 * w0 ^ 3 + 6 * w0 ^ 2 + 7 * w0 + 3) * s.m + (w0 + 1) ^ 3 * (w0 ^ 2 + 3)) / (2 * (2 * s.m + w0 + 1) ^ 2) ≤ 0 := by
              apply div_nonpos_of_nonpos_of_nonneg
              · apply mul_nonpos_of_nonpos_of_nonneg (by linarith)
                positivity
              · positivity
            linarith
          linarith
        have hmpos : 0 < s.m := by
          refine lt_of_le_of_ne hm fun e => hz0 ?_
          rw [hz, ← e]
          unfold skewSqOf
          simp
        have hzpos : 0 < s.z := by
          rw [hz]
          unfold skewSqOf
          have : 0 < w0 - 1 := by linarith
          positivity
        have hT := kurtOf_m w0 s.m hw1 hmpos
        rw [hk] at hT
        have hyne : y' ≠ 0 := by
          rintro rfl
          rw [sinh_zero] at hwm
          norm_num at hwm
          linarith
        have hrt : 0 ≤ s.m / w0 := by positivity
        have harc : 0 < arsinh (√(s.m / w0)) := arsinh_pos_iff.2 (sqrt_pos.2 (by positivity))
        refine ⟨w0, if 0 < r then -arsinh (√(s.m / w0)) else arsinh (√(s.m / w0)), hw1, hswp, ?_, fun h => ?_, fun h => ?_, ?_⟩
        · rw [hwm]
          split_ifs
          · rw [sinh_neg, neg_sq, sinh_arsinh, sq_sqrt hrt]; field_simp
          · rw [sinh_arsinh, sq_sqrt hrt]; field_simp
        · rw [if_pos h]; exact ⟨by linarith, lt_of_le_of_ne (hneg h) hyne⟩
        · rw [if_neg (not_lt.2 h)]; exact ⟨harc, lt_of_le_of_ne (hpos h) (Ne.symm hyne)⟩
        · have e : w0 * sinh (if 0 < r then -arsinh (√(s.m / w0)) else arsinh (√(s.m / w0))) ^ 2 = s.m := by
            split_ifs
            · rw [sinh_neg, neg_sq, sinh_arsinh, sq_sqrt hrt]; field_simp
            · rw [sinh_arsinh, sq_sqrt hrt]; field_simp
          rw [e, ← hz]
          refine ⟨hk, by rw [abs_sub_comm]; exact htol, fun h => ?_, fun h => ?_, fun h => ?_⟩
          · have hq : r ^ 2 / s.z < 1 := (div_lt_one hzpos).2 h
            have : (w0 ^ 2 + 1) ^ 2 < (s.w ^ 2 + 1) ^ 2 := by
              rw [hupd]
              have := mul_pos (by linarith : 0 < 1 - r ^ 2 / s.z) (by linarith : 0 < beta2 - (w0 ^ 4 + 2 * w0 ^ 2 + 3) / 2)
              linarith
            have := lt_of_pow_lt_pow_left₀ 2 (by positivity) this
            exact lt_of_pow_lt_pow_left₀ 2 hsw (by linarith)
          · have hq : 1 < r ^ 2 / s.z := (one_lt_div hzpos).2 h
            have : (s.w ^ 2 + 1) ^ 2 < (w0 ^ 2 + 1) ^ 2 := by
              rw [hupd]
              have := mul_pos (by linarith : 0 < r ^ 2 / s.z - 1) (by linarith : 0 < beta2 - (w0 ^ 4 + 2 * w0 ^ 2 + 3) / 2)
              linarith
            have := lt_of_pow_lt_pow_left₀ 2 (by positivity) this
            exact lt_of_pow_lt_pow_left₀ 2 hw0 (by linarith)
          · have hq : r ^ 2 / s.z = 1 := by rw [h]; exact div_self (by rw [← h]; exact hz0)
            rw [hq] at hupd
            have : (s.w ^ 2 + 1) ^ 2 = (w0 ^ 2 + 1) ^ 2 := by linarith
            have := (sq_eq_sq₀ (by positivity) (by positivity)).1 this
            exact (sq_eq_sq₀ hsw hw0).1 (by linarith)

theorem HasMoments.unique {d : Dist} {mean a b c a' b' c' : ℝ} (h : HasMoments d mean a b c) (h' : HasMoments d mean a' b' c') : a = a' ∧ b = b' ∧ c = c' := by
  obtain ⟨Q, hQ, -, -, rfl, rfl, rfl⟩ := h.exists_quantile
  obtain ⟨Q', hQ', -, -, rfl, rfl, rfl⟩ := h'.exists_quantile
  have : Q = Q' := by
    funext z
    have := hQ z
    rw [hQ'] at this
    exact (Option.some.inj this).symm
  subst this
  exact ⟨rfl, rfl, rfl⟩

/-- From the squared skewness and its sign to the third moment. -/
theorem third_of_square {m3 r sd : ℝ} (hsd : 0 < sd) (hsq : m3 ^ 2 = r ^ 2 * sd ^ 6) (hp : 0 < r → 0 < m3) (hn : r ≤ 0 → m3 < 0) : m3 = r * sd ^ 3 := by
  have h : (m3 - r * sd ^ 3) * (m3 + r * sd ^ 3) = 0 := by linear_combination hsq
  rcases mul_eq_zero.1 h with h | h
  · linarith
  · have h3 : 0 < sd ^ 3 := by positivity
    rcases lt_or_ge 0 r with h0 | h0
    · have := hp h0
      have := mul_pos h0 h3
      linarith
    · have := hn h0
      have := mul_nonneg (by linarith : 0 ≤ -r) h3.le
      linarith

/-! ## Theorems -/

/-- **C136, the first estimate.** In the region of the unbounded distributions (a kurtosis above that of the lognormal distribution of this skewness) both roots of the first estimate are of numbers that are not
negative, and the estimate is above one, as all `exp(delta^-2)` are. -/
theorem C136_first (r beta2 : ℝ) (h : beta2Lognormal (omegaOf r) < beta2) :
    4 < 2 * beta2 - 2.8 * r ^ 2 - 2 ∧ 2 < √(2 * beta2 - 2.8 * r ^ 2 - 2) ∧ 1 < suFirst (r ^ 2) beta2 := by
  obtain ⟨hc, h1, -⟩ := omega_cubic r
  have h4 : 4 < 2 * beta2 - 2.8 * r ^ 2 - 2 := by
    unfold beta2Lognormal at h
    rw [← hc]
    generalize omegaOf r = o at *
    obtain ⟨t, ht, rfl⟩ : ∃ t, 0 ≤ t ∧ o = 1 + t := ⟨o - 1, by linarith, by ring⟩
    have : 0 ≤ t ^ 4 + 4.6 * t ^ 3 + 6.6 * t ^ 2 + 3.4 * t := by positivity
    nlinarith
  have h2 : 2 < √(2 * beta2 - 2.8 * r ^ 2 - 2) := by
    rw [lt_sqrt (by norm_num)]
    linarith
  refine ⟨h4, h2, ?_⟩
  unfold suFirst
  rw [lt_sqrt (by norm_num)]
  linarith

/-- The region is not empty. -/
example : beta2Lognormal (omegaOf 1) < 100 := by
  obtain ⟨hc, h1, -⟩ := omega_cubic 1
  have h2 : omegaOf 1 ≤ 2 := by
    by_contra hcon
    nlinarith [sq_nonneg (omegaOf 1 + 2)]
  unfold beta2Lognormal
  have h3 : omegaOf 1 * omegaOf 1 ≤ 4 := by nlinarith
  have h4 : omegaOf 1 * (2 + omegaOf 1) ≤ 8 := by nlinarith
  nlinarith

/-- **C136, partial.** When the iteration ends it has found a distribution with the mean, the standard deviation and the kurtosis asked for and with a skewness of the sign asked for whose square differs by at most
the tolerance. If the squared skewness is hit exactly this is the distribution returned, and it has all four moments. Missing: the distribution returned when the skewness is not hit exactly
(`C136_kurtosis_wrong`), and that the iteration ends. -/
theorem C136_end_partial {n : ℕ} {mean sd r beta2 w y : ℝ} (hsd : 0 < sd) (hb : 3 < beta2) (h : suIteration n r beta2 = some (.ok (w, y))) :
    ∃ w0 y0 m3, HasMoments (suEnd mean sd w0 y0) mean (sd ^ 2) m3 (beta2 * sd ^ 4) ∧ |(m3 / sd ^ 3) ^ 2 - r ^ 2| ≤ 1 / 100 ∧ (0 < r → 0 < m3) ∧ (r ≤ 0 → m3 < 0) ∧
      (m3 = r * sd ^ 3 → HasMoments (suEnd mean sd w y) mean (sd ^ 2) (r * sd ^ 3) (beta2 * sd ^ 4)) := by
  obtain ⟨w0, y0, hw0, hw, hm, hp, hn, hk, hz, -, -, heq⟩ := suIteration_spec hb h
  obtain ⟨m3, hM, hsq, hs1, hs2⟩ := su_moments mean sd w0 y0 hsd hw0
  rw [hk] at hM
  have hq : (m3 / sd ^ 3) ^ 2 = skewSqOf w0 (w0 * sinh y0 ^ 2) := by
    rw [div_pow, hsq]; field_simp
  refine ⟨w0, y0, m3, hM, by rw [hq]; exact hz, fun hr => hs2 (hp hr).1, fun hr => hs1 (hn hr).1, fun he => ?_⟩
  have hz' : skewSqOf w0 (w0 * sinh y0 ^ 2) = r ^ 2 := by rw [← hq, he]; field_simp
  have hww := heq hz'
  obtain ⟨m3', hM', hsq', hs1', hs2'⟩ := su_moments mean sd w y hsd (by rw [hww]; exact hw0)
  rw [← hm, hww] at hM' hsq'
  rw [hk] at hM'
  rw [hz'] at hsq'
  have := third_of_square hsd hsq' (fun hr => hs2' (hp hr).2) (fun hr => hs1' (hn hr).2)
  rw [← this, hww]
  exact hM'

/-- **C136 is not true for the kurtosis.** `w` is changed once more after the pass whose skewness is near enough, `m` is not. So, whenever the iteration ends (and the last `w` is above one, otherwise the fit fails in
the root of `1 / log(w)`), the kurtosis of the distribution returned is the one asked for only if the squared skewness was hit exactly; it is larger if the squared skewness of the last pass was larger, and smaller if
it was smaller. -/
theorem C136_kurtosis_wrong {n : ℕ} {mean sd r beta2 w y : ℝ} (hsd : 0 < sd) (hb : 3 < beta2) (h : suIteration n r beta2 = some (.ok (w, y))) (hw1 : 1 < w) :
    ∃ w0 y0 m3 m3' b, HasMoments (suEnd mean sd w0 y0) mean (sd ^ 2) m3 (beta2 * sd ^ 4) ∧ HasMoments (suEnd mean sd w y) mean (sd ^ 2) m3' (b * sd ^ 4) ∧
      w0 * sinh y0 ^ 2 = w * sinh y ^ 2 ∧ (r ^ 2 < (m3 / sd ^ 3) ^ 2 → beta2 < b) ∧ ((m3 / sd ^ 3) ^ 2 < r ^ 2 → b < beta2) := by
  obtain ⟨w0, y0, hw0, hw, hm, hp, hn, hk, hz, hlt, hgt, heq⟩ := suIteration_spec hb h
  obtain ⟨m3, hM, hsq, -, -⟩ := su_moments mean sd w0 y0 hsd hw0
  obtain ⟨m3', hM', -, -, -⟩ := su_moments mean sd w y hsd hw1
  rw [hk] at hM
  have hq : (m3 / sd ^ 3) ^ 2 = skewSqOf w0 (w0 * sinh y0 ^ 2) := by
    rw [div_pow, hsq]; field_simp
  have hm0 : 0 ≤ w * sinh y ^ 2 := by positivity
  refine ⟨w0, y0, m3, m3', _, hM, hM', hm, fun hr => ?_, fun hr => ?_⟩
  · rw [hq] at hr
    conv_lhs => rw [← hk]
    rw [hm]
    exact kurtOf_w (by linarith) hm0 (hlt hr) hw1
  · rw [hq] at hr
    conv_rhs => rw [← hk]
    rw [hm]
    exact kurtOf_w (by linarith) hm0 (hgt hr) hw0

/-- The squared skewness of the case below. -/
noncomputable def caseBeta1 : ℝ := 396220 / 25233611.2

theorem caseBeta1_bounds : 0.0157 < caseBeta1 ∧ caseBeta1 < 0.0158 := by unfold caseBeta1; constructor <;> norm_num

theorem case_kurt : kurtOf 2 (1 / 1000) = 13.5 + 1.4 * caseBeta1 := by unfold kurtOf caseBeta1; norm_num

theorem case_first : suFirst caseBeta1 (13.5 + 1.4 * caseBeta1) = 2 := by
  unfold suFirst
  rw [show 2 * (13.5 + 1.4 * caseBeta1) - 2.8 * caseBeta1 - 2 = 5 ^ 2 by norm_num; ring, sqrt_sq (by norm_num), show (5 : ℝ) - 1 = 2 ^ 2 by norm_num, sqrt_sq (by norm_num)]

theorem case_step : ∃ w, suStep caseBeta1 (13.5 + 1.4 * caseBeta1) 2 = .ok ⟨w, 1 / 1000, skewSqOf 2 (1 / 1000)⟩ ∧ 1 < w := by
  have hz : (0.013 : ℝ) < skewSqOf 2 (1 / 1000) ∧ skewSqOf 2 (1 / 1000) < 0.0136 := by unfold skewSqOf; constructor <;> norm_num
  obtain ⟨hb1, hb2⟩ := caseBeta1_bounds
  set z := skewSqOf 2 (1 / 1000) with hzdef
  have hq0 : 0 < caseBeta1 / z := div_pos (by linarith) (by linarith)
  have hq : caseBeta1 / z < 2 := by rw [div_lt_iff₀ (by linarith)]; linarith
  have hx : (24 : ℝ) < 25 + 2 * (1 - caseBeta1 / z) * (1.4 * caseBeta1) := by nlinarith
  have h4 : (4 : ℝ) < √(25 + 2 * (1 - caseBeta1 / z) * (1.4 * caseBeta1)) := by rw [lt_sqrt (by norm_num)]; linarith
  refine ⟨√(√(25 + 2 * (1 - caseBeta1 / z) * (1.4 * caseBeta1)) - 1), ?_, by rw [lt_sqrt (by norm_num)]; linarith⟩
  unfold suStep
  dsimp only
  have ha : (8 * ((2 - 1) * (3 + 2 * (7 + 2 * (6 + 2 * (3 + 2)))) - (2 + 1) * (13.5 + 1.4 * caseBeta1 - 3)) : ℝ) = 396 - 33.6 * caseBeta1 := by ring
  have hb : (16 * ((2 - 1) * (6 + 2 * (6 + 2 * (3 + 2))) - (13.5 + 1.4 * caseBeta1 - 3)) : ℝ) = 440 - 22.4 * caseBeta1 := by ring
  have hc : ((2 - 1) * (3 + 2 * (9 + 2 * (10 + 2 * (6 + 2 * (3 + 2))))) - 2 * (2 + 1) * ((2 + 1) * (13.5 + 1.4 * caseBeta1 - 3)) : ℝ) = -25.2 * caseBeta1 := by ring
  rw [ha, hb, hc]
  have hdisc : (396 - 33.6 * caseBeta1) ^ 2 - 2 * (440 - 22.4 * caseBeta1) * (-25.2 * caseBeta1) = ((440 - 22.4 * caseBeta1) * (1 / 1000) + (396 - 33.6 * caseBeta1)) ^ 2 := by
    unfold caseBeta1; norm_num
  rw [hdisc]
  have hr : msqrt (((440 - 22.4 * caseBeta1) * (1 / 1000) + (396 - 33.6 * caseBeta1)) ^ 2) = .ok ((440 - 22.4 * caseBeta1) * (1 / 1000) + (396 - 33.6 * caseBeta1)) := by
    unfold msqrt
    rw [if_neg (not_lt.2 (sq_nonneg _)), sqrt_sq (by linarith)]
  rw [hr]
  have hm : mdiv ((440 - 22.4 * caseBeta1) * (1 / 1000) + (396 - 33.6 * caseBeta1) - (396 - 33.6 * caseBeta1)) (440 - 22.4 * caseBeta1) = .ok (1 / 1000) := by
    unfold mdiv
    rw [if_neg (by linarith)]
    congr 1
    rw [add_sub_cancel_right, mul_comm, mul_div_assoc, div_self (by linarith), mul_one]
  show (mdiv _ _ >>= _) = _
  rw [hm]
  show (mdiv _ _ >>= _) = _
  have hz1 : mdiv (1 / 1000 * (2 - 1) * (4 * (2 + 2) * (1 / 1000) + 3 * (2 + 1) ^ 2) ^ 2) (2 * (2 * (1 / 1000) + (2 + 1)) ^ 3) = .ok z := by
    unfold mdiv
    rw [if_neg (by norm_num), hzdef]
    unfold skewSqOf
    norm_num
  rw [hz1]
  show (mdiv _ _ >>= _) = _
  have hq1 : mdiv (caseBeta1 * (13.5 + 1.4 * caseBeta1 - 1.5 - 2 ^ 2 * (1 + 0.5 * 2 ^ 2))) z = .ok (caseBeta1 / z * (1.4 * caseBeta1)) := by
    unfold mdiv
    rw [if_neg (by linarith)]
    congr 1
    ring
  rw [hq1]
  show (msqrt _ >>= _) = _
  have hr1 : msqrt (1 - 2 * (1.5 - (13.5 + 1.4 * caseBeta1) + caseBeta1 / z * (1.4 * caseBeta1))) = .ok (√(25 + 2 * (1 - caseBeta1 / z) * (1.4 * caseBeta1))) := by
    have e : 1 - 2 * (1.5 - (13.5 + 1.4 * caseBeta1) + caseBeta1 / z * (1.4 * caseBeta1)) = 25 + 2 * (1 - caseBeta1 / z) * (1.4 * caseBeta1) := by ring
    unfold msqrt
    rw [e, if_neg (by linarith)]
  rw [hr1]
  show (msqrt _ >>= _) = _
  have hr2 : msqrt (√(25 + 2 * (1 - caseBeta1 / z) * (1.4 * caseBeta1)) - 1) = .ok (√(√(25 + 2 * (1 - caseBeta1 / z) * (1.4 * caseBeta1)) - 1)) := by
    unfold msqrt
    rw [if_neg (by linarith)]
  rw [hr2]
  rfl

theorem case_run : ∃ w y, suIteration 1 (√caseBeta1) (13.5 + 1.4 * caseBeta1) = some (.ok (w, y)) ∧ 1 < w ∧ w * sinh y ^ 2 = 1 / 1000 ∧ w ≠ 2 := by
  obtain ⟨hb1, hb2⟩ := caseBeta1_bounds
  obtain ⟨w, hw, hw1⟩ := case_step
  have hz : (0.013 : ℝ) < skewSqOf 2 (1 / 1000) ∧ skewSqOf 2 (1 / 1000) < 0.0136 := by unfold skewSqOf; constructor <;> norm_num
  have hsq : √caseBeta1 ^ 2 = caseBeta1 := sq_sqrt (by linarith)
  have hq : 0 ≤ 1 / 1000 / w := by positivity
  have hy : ∃ y, suShape (√caseBeta1) ⟨w, 1 / 1000, skewSqOf 2 (1 / 1000)⟩ = .ok y := by
    have e1 : mdiv (1 / 1000) w = .ok (1 / 1000 / w) := by unfold mdiv; rw [if_neg (by positivity)]
    have e2 : msqrt (1 / 1000 / w) = .ok (√(1 / 1000 / w)) := by unfold msqrt; rw [if_neg (not_lt.2 hq)]
    have e3 : msqrt (1 / 1000 / w + 1) = .ok (√(1 / 1000 / w + 1)) := by unfold msqrt; rw [if_neg (not_lt.2 (by positivity))]
    unfold suShape
    dsimp only
    rw [e1]
    show ∃ y, (msqrt _ >>= _) = _
    rw [e2]
    show ∃ y, (msqrt _ >>= _) = _
    rw [e3]
    exact ⟨_, rfl⟩
  obtain ⟨y, hy⟩ := hy
  have hrun : suIteration 1 (√caseBeta1) (13.5 + 1.4 * caseBeta1) = some (.ok (w, y)) := by
    unfold suIteration
    rw [hsq, case_first]
    unfold suLoop tolerance
    rw [hw]
    dsimp only
    rw [if_neg (by rw [abs_of_nonneg (by linarith)]; linarith)]
    dsimp only
    rw [hy]
  refine ⟨w, y, hrun, hw1, (suShape_spec (by dsimp only; linarith) hy).2.1, ?_⟩
  rintro rfl
  obtain ⟨-, -, hz0, -, hupd⟩ := suStep_spec (by norm_num) hw (by norm_num)
  dsimp only at hupd hz0
  have h1 : (1 - caseBeta1 / skewSqOf 2 (1 / 1000)) * (13.5 + 1.4 * caseBeta1 - (2 ^ 4 + 2 * 2 ^ 2 + 3) / 2) = 0 := by linarith
  rcases mul_eq_zero.1 h1 with h | h
  · have : caseBeta1 / skewSqOf 2 (1 / 1000) = 1 := by linarith
    rw [div_eq_one_iff_eq hz0] at this
    linarith
  · norm_num at h
    linarith

/-- **C136 is not true for the kurtosis: a case.** A small skewness and a kurtosis of 13.5: the first pass is near enough, and the distribution fitted does not have the kurtosis asked for. -/
theorem C136_case_wrong (mean sd : ℝ) (hsd : 0 < sd) (sb : Except PyErr Dist) : ∃ r beta2 w y d, beta2Lognormal (omegaOf r) + 1 / 100 ≤ beta2 ∧ 1 / 100 ≤ |r| ∧
    suIteration 1 r beta2 = some (.ok (w, y)) ∧ fitByMoments sb (.ok (w, y)) mean sd r beta2 = .ok d ∧ ∀ m3, ¬HasMoments d mean (sd ^ 2) m3 (beta2 * sd ^ 4) := by
  obtain ⟨hb1, hb2⟩ := caseBeta1_bounds
  obtain ⟨w, y, hrun, hw1, hm, hne⟩ := case_run
  have hsq : √caseBeta1 ^ 2 = caseBeta1 := sq_sqrt (by linarith)
  have hr : 1 / 100 ≤ √caseBeta1 := by rw [le_sqrt' (by norm_num)]; linarith
  have habs : 1 / 100 ≤ |√caseBeta1| := by rwa [abs_of_nonneg (sqrt_nonneg _)]
  have hreg : beta2Lognormal (omegaOf (√caseBeta1)) + 1 / 100 ≤ 13.5 + 1.4 * caseBeta1 := by
    obtain ⟨hc, h1, -⟩ := omega_cubic (√caseBeta1)
    rw [hsq] at hc
    unfold beta2Lognormal
    generalize omegaOf (√caseBeta1) = o at *
    have h2 : o ≤ 1.01 := by nlinarith [sq_nonneg (o + 2)]
    have h3 : o * o ≤ 1.0201 := by nlinarith
    have h4 : o * (2 + o) ≤ 4 := by nlinarith
    nlinarith
  have hfit : fitByMoments sb (.ok (w, y)) mean sd (√caseBeta1) (13.5 + 1.4 * caseBeta1) = .ok (suEnd mean sd w y) := by
    unfold fitByMoments tolerance
    dsimp only
    rw [hsq, if_neg (by linarith), if_neg hsd.ne', if_neg (by rintro ⟨-, b⟩; linarith), if_neg (by rintro ⟨-, b⟩; linarith), if_neg (by rintro ⟨a, -⟩; linarith),
      if_neg (by linarith : ¬(13.5 + 1.4 * caseBeta1 < 0)), if_neg (by rw [abs_of_nonpos (by linarith)]; linarith), if_neg (by linarith), if_neg (by linarith)]
  refine ⟨√caseBeta1, 13.5 + 1.4 * caseBeta1, w, y, _, hreg, habs, hrun, hfit, fun m3 hM => ?_⟩
  obtain ⟨m3', hM', -⟩ := su_moments mean sd w y hsd hw1
  have he := (hM.unique hM').2.2
  rw [hm, ← case_kurt] at he
  have he : kurtOf 2 (1 / 1000) = kurtOf w (1 / 1000) := mul_right_cancel₀ (by positivity) he
  rcases lt_or_gt_of_ne hne with h | h
  · exact absurd he.symm (kurtOf_w (by linarith) (by norm_num) h (by norm_num)).ne
  · exact absurd he (kurtOf_w (by norm_num) (by norm_num) h hw1).ne

/-- Runs that end exist: the hypotheses of `C136_end_partial` and `C136_kurtosis_wrong` can be met. -/
example : ∃ (n : ℕ) (r beta2 w y : ℝ), 3 < beta2 ∧ suIteration n r beta2 = some (.ok (w, y)) ∧ 1 < w := by
  obtain ⟨w, y, hrun, hw1, -, -⟩ := case_run
  have := caseBeta1_bounds
  exact ⟨1, _, _, w, y, by linarith, hrun, hw1⟩

end Verif.Johnson
