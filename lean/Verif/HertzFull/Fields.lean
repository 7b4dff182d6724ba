import Mathlib.Analysis.SpecialFunctions.Trigonometric.Bounds
import Mathlib.Topology.Order.OrderClosed
import Verif.HertzFull.Pressure

/-!
# C68 to C70: displacements and stresses of the full Hertz solution
-/

namespace Verif.HertzFull

open Real Filter Topology

/-! ## C68: displacements of a spherical contact -/

/-- The displacement outside of the contact as a function of the distance. -/
noncomputable def outer (e v a p0 r : ℝ) : ℝ :=
  ((1 - v ^ 2) * p0) / (e * 2 * a) * ((2 * a ^ 2 - r ^ 2) * arcsin (a / r) + r * a * sqrt (1 - a ^ 2 / r ^ 2))

theorem outer_edge {e v a p0 : ℝ} (ha : 0 < a) (he : e ≠ 0) : outer e v a p0 a = (1 - v ^ 2) * π * p0 / (e * 4 * a) * (2 * a ^ 2 - a ^ 2) := by
  unfold outer
  rw [div_self ha.ne', arcsin_one, div_self (by positivity), sub_self, sqrt_zero]
  field_simp
  ring

/-- **C68**: the normal displacement is continuous on the whole surface, in particular at the edge of the contact. -/
theorem C68_continuous {e v a p0 : ℝ} (ha : 0 < a) (he : e ≠ 0) : Continuous fun q : ℝ × ℝ => axialSphere e v a p0 q.1 q.2 := by
  have heq : (fun q : ℝ × ℝ => axialSphere e v a p0 q.1 q.2) = fun q : ℝ × ℝ =>
      if sqrt (q.1 ^ 2 + q.2 ^ 2) ≤ a then ((1 - v ^ 2) * π * p0) / (e * 4 * a) * (2 * a ^ 2 - sqrt (q.1 ^ 2 + q.2 ^ 2) ^ 2)
      else outer e v a p0 (max (sqrt (q.1 ^ 2 + q.2 ^ 2)) a) := by
    funext q
    unfold axialSphere
    simp only
    split
    · rfl
    · rename_i h
      rw [max_eq_left (not_le.mp h).le]
      rfl
  rw [heq]
  have hne : ∀ q : ℝ × ℝ, max (sqrt (q.1 ^ 2 + q.2 ^ 2)) a ≠ 0 := fun q => (lt_of_lt_of_le ha (le_max_right _ _)).ne'
  have hne2 : ∀ q : ℝ × ℝ, max (sqrt (q.1 ^ 2 + q.2 ^ 2)) a ^ 2 ≠ 0 := fun q => pow_ne_zero 2 (hne q)
  refine Continuous.if_le (by fun_prop) ?_ (by fun_prop) continuous_const ?_
  · unfold outer
    have h1 : Continuous fun q : ℝ × ℝ => arcsin (a / max (sqrt (q.1 ^ 2 + q.2 ^ 2)) a) :=
      continuous_arcsin.comp (continuous_const.div (by fun_prop) hne)
    have h2 : Continuous fun q : ℝ × ℝ => sqrt (1 - a ^ 2 / max (sqrt (q.1 ^ 2 + q.2 ^ 2)) a ^ 2) :=
      continuous_sqrt.comp (continuous_const.sub (continuous_const.div (by fun_prop) hne2))
    fun_prop
  · intro q hq
    rw [hq, max_self, outer_edge ha he]

example : ∃ e a : ℝ, 0 < a ∧ e ≠ 0 := ⟨1, 1, one_pos, one_ne_zero⟩

/-- The sum of the displacements of the two bodies. -/
noncomputable def approach (p : Args) (a p0 x y : ℝ) : ℝ := axialSphere p.e1 p.v1 a p0 x y + axialSphere p.e2 p.v2 a p0 x y

theorem sin_gt_mul_cos {t : ℝ} (h0 : 0 < t) (h1 : t < π) : t * cos t < sin t := by
  rcases lt_or_ge t (π / 2) with h | h
  · have hc := cos_pos_of_mem_Ioo (x := t) ⟨by linarith, h⟩
    have := lt_tan h0 h
    rw [tan_eq_sin_div_cos, lt_div_iff₀ hc] at this
    exact this
  · have hc := cos_nonpos_of_pi_div_two_le_of_le h (by linarith)
    have hs := sin_pos_of_pos_of_lt_pi h0 h1
    nlinarith

/-- Outside of the contact the surface is above the parabola continued from the inside. -/
theorem outer_gt {a r : ℝ} (ha : 0 < a) (hr : a < r) :
    π / 2 * (2 * a ^ 2 - r ^ 2) < (2 * a ^ 2 - r ^ 2) * arcsin (a / r) + r * a * sqrt (1 - a ^ 2 / r ^ 2) := by
  have hr0 : 0 < r := by linarith
  have hs0 : 0 < a / r := by positivity
  have hs1 : a / r < 1 := by rw [div_lt_one hr0]; exact hr
  have hth0 : 0 < arcsin (a / r) := arcsin_pos.mpr hs0
  have hth1 : arcsin (a / r) < π / 2 := arcsin_lt_pi_div_two.mpr hs1
  have hsin : sin (arcsin (a / r)) = a / r := sin_arcsin (by linarith) hs1.le
  have hcos : cos (arcsin (a / r)) = sqrt (1 - a ^ 2 / r ^ 2) := by rw [cos_arcsin, div_pow]
  have haeq : a = r * sin (arcsin (a / r)) := by rw [hsin]; field_simp
  rw [← hcos]
  generalize arcsin (a / r) = t at *
  have key := sin_gt_mul_cos (t := π - 2 * t) (by linarith) (by linarith)
  rw [sin_pi_sub, cos_pi_sub, sin_two_mul, cos_two_mul] at key
  have hsc := sin_sq_add_cos_sq t
  rw [haeq]
  have e1 : (2 * (r * sin t) ^ 2 - r ^ 2) = r ^ 2 * (1 - 2 * cos t ^ 2) := by linear_combination 2 * r ^ 2 * hsc
  rw [e1, show r * (r * sin t) * cos t = r ^ 2 * (sin t * cos t) by ring]
  have hr2 : 0 < r ^ 2 := by positivity
  nlinarith

/-- **C68**: inside of the contact of two spheres the displacements of both bodies close the gap exactly; outside they leave a positive gap. -/
theorem C68_gap_closed {ell : EllipseFinder} {p : Args} {r : Result} (hm : Ordinary p) (h : hertzFull ell p = .ok r) (hl : r.shape = .sphere) :
    ∃ a R, 0 < a ∧ 0 < R ∧ r.radiusA = .fin a ∧ r.r1Rel = .fin R ∧ ∀ x y,
      (sqrt (x ^ 2 + y ^ 2) ≤ a → approach p a r.maxPressure x y = r.deflection - (x ^ 2 + y ^ 2) / (2 * R)) ∧
      (a < sqrt (x ^ 2 + y ^ 2) → r.deflection - (x ^ 2 + y ^ 2) / (2 * R) < approach p a r.maxPressure x y) := by
  obtain ⟨hload, hs⟩ := solved_of_ok h
  have hE := eStar_pos hm
  have hpi := pi_pos
  cases hs with
  | line => cases hl
  | ellipse => cases hl
  | sphere R hR r1Rel r2Rel hrel =>
    have ha : 0 < (3 * p.load * R / 4 / p.eStar) ^ ((1 : ℝ) / 3) := rpow_pos_of_pos (by positivity) _
    have hcube : ((3 * p.load * R / 4 / p.eStar) ^ ((1 : ℝ) / 3)) ^ 3 = 3 * p.load * R / 4 / p.eStar := by
      rw [← rpow_natCast, ← rpow_mul (by positivity)]
      norm_num
    have hEs : (1 - p.v1 ^ 2) / p.e1 + (1 - p.v2 ^ 2) / p.e2 = 1 / p.eStar := by
      unfold Args.eStar
      rw [one_div_one_div]
    have hmax : (sphereResult p R r1Rel r2Rel).maxPressure = 3 * p.load / (2 * π * ((3 * p.load * R / 4 / p.eStar) ^ ((1 : ℝ) / 3)) ^ 2) := rfl
    have hdef : (sphereResult p R r1Rel r2Rel).deflection = ((3 * p.load * R / 4 / p.eStar) ^ ((1 : ℝ) / 3)) ^ 2 / R := rfl
    refine ⟨_, R, ha, hR, rfl, hrel, ?_⟩
    rw [hmax, hdef]
    generalize (3 * p.load * R / 4 / p.eStar) ^ ((1 : ℝ) / 3) = a at *
    have hload' : p.load = 4 * p.eStar * a ^ 3 / (3 * R) := by
      rw [hcube]
      field_simp
    have hfac : 3 * p.load / (2 * π * a ^ 2) / (2 * a) * (1 / p.eStar) * (π / 2) = 1 / (2 * R) := by
      rw [hload']
      field_simp
      norm_num
    intro x y
    have hsq : sqrt (x ^ 2 + y ^ 2) ^ 2 = x ^ 2 + y ^ 2 := sq_sqrt (by positivity)
    constructor
    · intro hin
      unfold approach axialSphere
      simp only [if_pos hin]
      rw [hsq]
      have e : ∀ e v : ℝ, (1 - v ^ 2) * π * (3 * p.load / (2 * π * a ^ 2)) / (e * 4 * a) * (2 * a ^ 2 - (x ^ 2 + y ^ 2)) =
          (1 - v ^ 2) / e * (3 * p.load / (2 * π * a ^ 2) / (2 * a) * (π / 2) * (2 * a ^ 2 - (x ^ 2 + y ^ 2))) := by
        intro e v
        rw [show e * 4 * a = e * (4 * a) by ring, ← div_div]
        field_simp
        ring
      rw [e, e, ← add_mul, hEs]
      calc _ = 3 * p.load / (2 * π * a ^ 2) / (2 * a) * (1 / p.eStar) * (π / 2) * (2 * a ^ 2 - (x ^ 2 + y ^ 2)) := by ring
        _ = _ := by
          rw [hfac]
          field_simp
    · intro hout
      unfold approach axialSphere
      simp only [if_neg (not_le.mpr hout)]
      have hgt := outer_gt ha hout
      rw [hsq] at hgt ⊢
      generalize (2 * a ^ 2 - (x ^ 2 + y ^ 2)) * arcsin (a / sqrt (x ^ 2 + y ^ 2)) + sqrt (x ^ 2 + y ^ 2) * a * sqrt (1 - a ^ 2 / (x ^ 2 + y ^ 2)) = w at hgt
      have e : ∀ e v : ℝ, (1 - v ^ 2) * (3 * p.load / (2 * π * a ^ 2)) / (e * 2 * a) * w =
          (1 - v ^ 2) / e * (3 * p.load / (2 * π * a ^ 2) / (2 * a) * w) := by
        intro e v
        rw [show e * 2 * a = e * (2 * a) by ring, ← div_div]
        field_simp
      rw [e, e, ← add_mul, hEs]
      have hk : 0 < 3 * p.load / (2 * π * a ^ 2) / (2 * a) * (1 / p.eStar) := by positivity
      calc a ^ 2 / R - (x ^ 2 + y ^ 2) / (2 * R) = 1 / (2 * R) * (2 * a ^ 2 - (x ^ 2 + y ^ 2)) := by field_simp
        _ = 3 * p.load / (2 * π * a ^ 2) / (2 * a) * (1 / p.eStar) * (π / 2 * (2 * a ^ 2 - (x ^ 2 + y ^ 2))) := by rw [← hfac]; ring
        _ < 3 * p.load / (2 * π * a ^ 2) / (2 * a) * (1 / p.eStar) * w := by gcongr
        _ = _ := by ring

example : ∃ r, Ordinary ballOnFlat ∧ hertzFull (fun _ => none) ballOnFlat = .ok r ∧ r.shape = .sphere := by
  obtain ⟨r, h1, h2, _⟩ := ball_solution
  exact ⟨r, ⟨by norm_num [ballOnFlat], by norm_num [ballOnFlat], by norm_num [ballOnFlat], by norm_num [ballOnFlat]⟩, h1, h2⟩

/-- **C68**: the radial displacement of the two branches agrees at the edge of the contact, and is zero at the centre. -/
theorem C68_radial_edge {e v a p0 : ℝ} (ha : 0 < a) :
    radialSphere e v a p0 a 0 = (1 - 2 * v) * (1 + v) * p0 * a ^ 2 / (3 * e * a) ∧ radialSphere e v a p0 0 0 = 0 := by
  constructor
  · have hr : sqrt (a ^ 2 + 0 ^ 2) = a := by
      rw [zero_pow two_ne_zero, add_zero, sqrt_sq ha.le]
    unfold radialSphere
    simp only [hr, le_refl, if_true, if_neg ha.ne']
    rw [div_self (by positivity), sub_self, zero_rpow (by norm_num), sub_zero, mul_one]
    ring
  · unfold radialSphere
    simp [ha.le]

example := C68_radial_edge (e := 200) (v := 0.3) (a := 2) (p0 := 5) two_pos

/-! ## C69: surface and axis stresses of a spherical contact -/

theorem three_halves {u : ℝ} (hu : 0 ≤ u) : (u ^ 2) ^ ((3 : ℝ) / 2) = u ^ 3 := by
  rw [← rpow_natCast, ← rpow_mul hu, ← rpow_natCast]
  norm_num

/-- The cubic term, without the singularity at the centre. -/
theorem cubic_term {a r : ℝ} (ha : 0 < a) (h0 : 0 < r) (h1 : r ≤ a) :
    a ^ 2 / r ^ 2 * (1 - (1 - r ^ 2 / a ^ 2) ^ ((3 : ℝ) / 2)) =
      (1 + sqrt (1 - r ^ 2 / a ^ 2) + sqrt (1 - r ^ 2 / a ^ 2) ^ 2) / (1 + sqrt (1 - r ^ 2 / a ^ 2)) := by
  have hle : r ^ 2 / a ^ 2 ≤ 1 := by
    rw [div_le_one (by positivity)]
    nlinarith
  have hpos : 0 < r ^ 2 / a ^ 2 := by positivity
  have hsq : sqrt (1 - r ^ 2 / a ^ 2) ^ 2 = 1 - r ^ 2 / a ^ 2 := sq_sqrt (by linarith)
  have hu := sqrt_nonneg (1 - r ^ 2 / a ^ 2)
  generalize sqrt (1 - r ^ 2 / a ^ 2) = u at *
  rw [← hsq, three_halves hu, show a ^ 2 / r ^ 2 = 1 / (1 - u ^ 2) by rw [hsq]; field_simp; ring]
  have hne : 1 - u ^ 2 ≠ 0 := by rw [hsq]; linarith
  have hne2 : 1 + u ≠ 0 := by linarith
  rw [div_mul_eq_mul_div, one_mul, div_eq_div_iff hne hne2]
  ring

/-- The stress below the centre of the contact, close to the surface. -/
theorem C69_axis_limit {a p0 v : ℝ} (ha : 0 < a) :
    Tendsto (fun z => (stressAxis a p0 v z).r) (𝓝[>] 0) (𝓝 (-(p0 * (1 + 2 * v) / 2))) ∧
    Tendsto (fun z => (stressAxis a p0 v z).theta) (𝓝[>] 0) (𝓝 (-(p0 * (1 + 2 * v) / 2))) ∧
    Tendsto (fun z => (stressAxis a p0 v z).z) (𝓝[>] 0) (𝓝 (-p0)) := by
  have hr : Tendsto (fun z => (stressAxis a p0 v z).r) (𝓝[>] 0) (𝓝 (-(p0 * (1 + 2 * v) / 2))) := by
    have hc : Continuous fun z : ℝ => p0 * (-(1 + v) * (1 - (z / a) * (π / 2 - arctan (z / a))) + 0.5 * 1 / (1 + z ^ 2 / a ^ 2)) := by
      have : ∀ z : ℝ, 1 + z ^ 2 / a ^ 2 ≠ 0 := fun z => by positivity
      fun_prop (disch := assumption)
    have ht := (hc.tendsto 0).mono_left (nhdsWithin_le_nhds (s := Set.Ioi 0))
    have hv : p0 * (-(1 + v) * (1 - ((0 : ℝ) / a) * (π / 2 - arctan (0 / a))) + 0.5 * 1 / (1 + 0 ^ 2 / a ^ 2)) = -(p0 * (1 + 2 * v) / 2) := by
      simp
      ring
    rw [hv] at ht
    refine ht.congr' ?_
    filter_upwards [self_mem_nhdsWithin] with z hz
    have hz' : 0 < z := hz
    unfold stressAxis
    simp only
    rw [show a / z = (z / a)⁻¹ by rw [inv_div], arctan_inv_of_pos (by positivity)]
  refine ⟨hr, hr, ?_⟩
  have hc : Continuous fun z : ℝ => -p0 / (1 + z ^ 2 / a ^ 2) := by
    have : ∀ z : ℝ, 1 + z ^ 2 / a ^ 2 ≠ 0 := fun z => by positivity
    fun_prop (disch := assumption)
  have ht := (hc.tendsto 0).mono_left (nhdsWithin_le_nhds (s := Set.Ioi 0))
  simpa [stressAxis] using ht

example := C69_axis_limit (a := 2) (p0 := 5) (v := 0.3) two_pos

theorem surface_limit {a p0 v : ℝ} (ha : 0 < a) {f : ℝ → ℝ} (hf : Continuous f) {g : ℝ → ℝ} {c : ℝ}
    (hg : ∀ r, 0 < r → r ≤ a → g r = f (sqrt (1 - r ^ 2 / a ^ 2))) (hc : f 1 = c) : Tendsto g (𝓝[>] 0) (𝓝 c) := by
  have h1 : Continuous fun r : ℝ => f (sqrt (1 - r ^ 2 / a ^ 2)) := by fun_prop
  have ht := (h1.tendsto 0).mono_left (nhdsWithin_le_nhds (s := Set.Ioi 0))
  have hv : f (sqrt (1 - (0 : ℝ) ^ 2 / a ^ 2)) = c := by simp [hc]
  rw [hv] at ht
  refine ht.congr' ?_
  filter_upwards [Ioc_mem_nhdsGT ha] with r hr
  exact (hg r hr.1 hr.2).symm

/-- **C69 (partial)**: at the centre of the contact the radial and the normal stress on the surface agree with the stresses on the axis. Missing: the
hoop stress (it does not agree). -/
theorem C69_centre_partial {a p0 v : ℝ} (ha : 0 < a) :
    Tendsto (fun r => (stressSurface a p0 v r).r) (𝓝[>] 0) (𝓝 (-(p0 * (1 + 2 * v) / 2))) ∧
    Tendsto (fun r => (stressSurface a p0 v r).z) (𝓝[>] 0) (𝓝 (-p0)) := by
  constructor
  · refine surface_limit (f := fun u => p0 * ((1 - 2 * v) / 3 * ((1 + |u| + u ^ 2) / (1 + |u|)) - u)) (p0 := p0) (v := v) ha ?_ ?_ (by norm_num; ring)
    · have : ∀ u : ℝ, 1 + |u| ≠ 0 := fun u => by positivity
      fun_prop (disch := assumption)
    · intro r h0 h1
      unfold stressSurface
      simp only [if_pos h1]
      rw [mul_assoc ((1 - 2 * v) / 3), cubic_term ha h0 h1, abs_of_nonneg (sqrt_nonneg _)]
  · refine surface_limit (f := fun u => -u * p0) (p0 := p0) (v := v) ha (by fun_prop) ?_ (by ring)
    intro r h0 h1
    unfold stressSurface
    simp only [if_pos h1]

example := C69_centre_partial (a := 2) (p0 := 5) (v := 0.3) two_pos

/-- **C69 (negation)**: the hoop stress on the surface does not agree with the one on the axis, nor with the radial stress at the centre, unless Poisson's
ratio is zero. -/
theorem C69_hoop_stress_at_centre {a p0 v : ℝ} (ha : 0 < a) (hp : p0 ≠ 0) (hv : v ≠ 0) :
    ¬ Tendsto (fun r => (stressSurface a p0 v r).theta) (𝓝[>] 0) (𝓝 (-(p0 * (1 + 2 * v) / 2))) := by
  intro h
  have h2 : Tendsto (fun r => (stressSurface a p0 v r).theta) (𝓝[>] 0) (𝓝 (p0 * (6 * v - 1) / 2)) := by
    refine surface_limit (f := fun u => -p0 * ((1 - 2 * v) / 3 * ((1 + |u| + u ^ 2) / (1 + |u|)) - 2 * v * u)) (p0 := p0) (v := v) ha ?_ ?_ (by norm_num; ring)
    · have : ∀ u : ℝ, 1 + |u| ≠ 0 := fun u => by positivity
      fun_prop (disch := assumption)
    · intro r h0 h1
      unfold stressSurface
      simp only [if_pos h1]
      rw [mul_assoc ((1 - 2 * v) / 3), cubic_term ha h0 h1, abs_of_nonneg (sqrt_nonneg _)]
  have he := tendsto_nhds_unique h h2
  have : p0 * v = 0 := by linarith
  rcases mul_eq_zero.mp this with h3 | h3
  · exact hp h3
  · exact hv h3

example : (0 : ℝ) < 1 ∧ (1 : ℝ) ≠ 0 ∧ (0.3 : ℝ) ≠ 0 := by norm_num

/-- **C69 (partial)**: the normal stress on the surface is the pressure with the opposite sign, everywhere. -/
theorem C69_normal_stress_is_pressure_partial {a p0 v r : ℝ} (ha : 0 < a) (hr : 0 < r) :
    (stressSurface a p0 v r).z = -pressureSphere a p0 r 0 := by
  rw [pressureSphere_eq]
  unfold stressSurface
  simp only
  split
  · simp only [div_pow]
    simp
    ring
  · rename_i h
    push Not at h
    rw [sqrt_eq_zero_of_nonpos]
    · simp
    · have : 1 ≤ (r / a) ^ 2 := by
        rw [div_pow, one_le_div (by positivity)]
        nlinarith
      have h0 : ((0 : ℝ) / a) ^ 2 = 0 := by simp
      linarith

example := C69_normal_stress_is_pressure_partial (a := 2) (p0 := 5) (v := 0.3) (r := 1) two_pos one_pos

/-! ## C70: stresses of a line contact -/

/-- **C70 (negation)**: on the surface of a line contact the normal stress is reported as zero instead of the pressure. (At the centre itself
the code divides zero by zero.) -/
theorem C70_surface_normal_stress {a p0 load x : ℝ} (ha : 0 < a) (hl : 0 < load) (_h0 : x ≠ 0) (hx : |x| < a) :
    (stressLine a p0 x 0).z = 0 ∧ 0 < pressureLine a load false x := by
  constructor
  · unfold stressLine npSign
    simp
  · have hpi := pi_pos
    rw [pressureLine_eq ha]
    refine mul_pos (by positivity) (sqrt_pos.mpr ?_)
    rw [div_pow, sub_pos, div_lt_one (by positivity), ← sq_abs x]
    nlinarith [abs_nonneg x]

example := C70_surface_normal_stress (a := 2) (p0 := 5) (load := 3) (x := 1) two_pos (by norm_num) one_ne_zero (by norm_num)

/-- **C70 (negation)**: below the centre the normal stress grows without bound with the depth, instead of falling from the maximum pressure to zero. -/
theorem C70_axis_normal_stress_grows {a p0 z : ℝ} (ha : 0 < a) (hp : 0 < p0) (hz : 0 < z) :
    (stressLine a p0 0 z).z ≤ -(p0 / a * z ^ 2) := by
  have hc : 0.5 * (sqrt ((a ^ 2 - 0 ^ 2 + z ^ 2) ^ 2 + 4 * 0 ^ 2 * z ^ 2) + (a ^ 2 - 0 ^ 2 + z ^ 2)) = a ^ 2 + z ^ 2 := by
    rw [show (a ^ 2 - 0 ^ 2 + z ^ 2) ^ 2 + 4 * 0 ^ 2 * z ^ 2 = (a ^ 2 + z ^ 2) ^ 2 by ring, sqrt_sq (by positivity)]
    norm_num
    ring
  have hs : npSign z = 1 := by simp [npSign, hz]
  have hs0 : npSign 0 = 0 := by simp [npSign]
  unfold stressLine
  simp only [hc, hs, hs0, one_mul, zero_mul]
  have h1 : 0 ≤ (z ^ 2 + 0 ^ 2) / ((a ^ 2 + z ^ 2) ^ 2 + 0 ^ 2) := by positivity
  have h2 : z ^ 2 ≤ (a ^ 2 + z ^ 2) * (1 + (z ^ 2 + 0 ^ 2) / ((a ^ 2 + z ^ 2) ^ 2 + 0 ^ 2)) := by nlinarith [sq_nonneg a, sq_nonneg z]
  have h3 : 0 < p0 / a := by positivity
  calc _ = -(p0 / a * ((a ^ 2 + z ^ 2) * (1 + (z ^ 2 + 0 ^ 2) / ((a ^ 2 + z ^ 2) ^ 2 + 0 ^ 2)))) := by ring
    _ ≤ _ := by
      apply neg_le_neg
      gcongr

example : (0 : ℝ) < 1 ∧ (0.5 : ℝ) ≠ 0 ∧ |(0.5 : ℝ)| < 1 := by norm_num [abs_of_pos]

end Verif.HertzFull
