import Verif.Ellipse.Props

/-! # C129: the displacement of the surface in an elliptical contact -/

namespace Verif.Ellipse

open Real HertzFull

/-- The point is strictly inside of the ellipse. -/
def Closure.Inside (c : Closure) (x y : ℝ) : Prop := (x / c.a) ^ 2 + (y / c.b) ^ 2 < 1

/-- The eccentricity. -/
noncomputable def Closure.ecc (c : Closure) : ℝ := (1 - c.b ^ 2 / c.a ^ 2) ^ (0.5 : ℝ)

theorem ecc_eq (c : Closure) : c.ecc = √(1 - c.b ^ 2 / c.a ^ 2) := by
  unfold Closure.ecc
  rw [sqrt_eq_rpow]
  norm_num

theorem ratio_lt {c : Closure} (hb : 0 < c.b) (hab : c.b < c.a) : c.b ^ 2 / c.a ^ 2 < 1 := by
  rw [div_lt_one (by nlinarith)]
  nlinarith

theorem ecc_sq' {c : Closure} (hb : 0 < c.b) (hab : c.b < c.a) : c.ecc ^ 2 = 1 - c.b ^ 2 / c.a ^ 2 := by
  rw [ecc_eq, sq_sqrt]
  linarith [ratio_lt hb hab]

theorem ecc_pos {c : Closure} (hb : 0 < c.b) (hab : c.b < c.a) : 0 < c.ecc := by
  rw [ecc_eq, sqrt_pos]
  linarith [ratio_lt hb hab]

theorem ecc_lt {c : Closure} (hb : 0 < c.b) (hab : c.b < c.a) : c.ecc < 1 := by
  have h := ecc_sq' hb hab
  have : 0 < c.b ^ 2 / c.a ^ 2 := div_pos (by positivity) (by nlinarith)
  nlinarith [ecc_pos hb hab]

/-- The three numbers in the closure. -/
noncomputable def Closure.l (c : Closure) : ℝ := π * c.p0 * c.b * ellipk c.ecc

noncomputable def Closure.m (c : Closure) : ℝ := π * c.p0 * c.b / c.ecc ^ 2 / c.a ^ 2 * (ellipk c.ecc - ellipe c.ecc)

noncomputable def Closure.n (c : Closure) : ℝ :=
  π * c.p0 * c.b / c.a ^ 2 / c.ecc ^ 2 * ((c.a ^ 2 / c.b ^ 2) * ellipe c.ecc - ellipk c.ecc)

theorem fill_unset {c : Closure} (hb : 0 < c.b) (hab : c.b < c.a) : c.fill .unset = .ok (.values c.l c.m c.n) := by
  have := (ecc_pos hb hab).ne'
  unfold Closure.ecc at this
  unfold Closure.fill
  rw [if_neg (by linarith)]
  dsimp only
  rw [if_neg this]
  rfl

theorem clip_zero {c : Closure} (x y : ℝ) : max (1 - (x / c.a) ^ 2 - (y / c.b) ^ 2) 0 = 0 ↔ ¬ c.Inside x y := by
  unfold Closure.Inside
  rw [max_eq_right_iff, not_lt]
  constructor <;> intro h <;> linarith

/-- The value at a point in the axes of the contact. -/
noncomputable def Closure.value (c : Closure) (x y : ℝ) : ℝ := (1 - c.v ^ 2) / c.modulus / π * (c.l - c.m * x ^ 2 - c.n * y ^ 2)

open Classical in
theorem call_unset {c : Closure} (hb : 0 < c.b) (hab : c.b < c.a) (x y : ℝ) (t : ℤ) :
    c.call .unset x y t = (.values c.l c.m c.n, (c.turn x y t).map fun q => if c.Inside q.1 q.2 then some (c.value q.1 q.2) else none) := by
  unfold Closure.call
  rw [fill_unset hb hab]
  dsimp only
  congr 1
  cases c.turn x y t with
  | error e => rfl
  | ok q =>
    show (if max (1 - (q.1 / c.a) ^ 2 - (q.2 / c.b) ^ 2) 0 = 0 then _ else _) = Except.ok (if c.Inside q.1 q.2 then some (c.value q.1 q.2) else none)
    by_cases h : c.Inside q.1 q.2
    · rw [if_neg (by rw [clip_zero]; exact not_not.mpr h), if_pos h]
      rfl
    · rw [if_pos (by rw [clip_zero]; exact h), if_neg h]
      rfl

/-- **C129**, repeated calls: what was asked before does not matter. -/
theorem C129_calls {c : Closure} (hb : 0 < c.b) (hab : c.b < c.a) (asked : List (ℝ × ℝ × ℤ)) :
    c.calls .unset asked = asked.map fun q => (c.call .unset q.1 q.2.1 q.2.2).2 := by
  have key : ∀ asked, c.calls (.values c.l c.m c.n) asked = asked.map fun q => (c.call .unset q.1 q.2.1 q.2.2).2 := by
    intro asked
    induction asked with
    | nil => rfl
    | cons q rest ih =>
      obtain ⟨x, y, t⟩ := q
      have h1 : c.call (.values c.l c.m c.n) x y t = c.call .unset x y t := by
        unfold Closure.call
        rw [fill_unset hb hab]
        rfl
      unfold Closure.calls
      rw [h1, call_unset hb hab]
      dsimp only
      rw [ih, List.map_cons, call_unset hb hab]
  cases asked with
  | nil => rfl
  | cons q rest =>
    obtain ⟨x, y, t⟩ := q
    unfold Closure.calls
    rw [call_unset hb hab]
    dsimp only
    rw [key, List.map_cons, call_unset hb hab]

example := C129_calls (c := ⟨2, 1, 1, 0.1, 0.2, 0.3, 200⟩) (by norm_num) (by norm_num) [(0, 0, 0), (1, 0.5, 1), (1, 1, 2)]

/-- **C129**, the domain: in the axes of the contact there is a number exactly at the points strictly inside of the ellipse. -/
theorem C129_domain {c : Closure} (hb : 0 < c.b) (hab : c.b < c.a) (x y : ℝ) :
    (∃ u, (c.call .unset x y 0).2 = .ok (some u)) ↔ (x / c.a) ^ 2 + (y / c.b) ^ 2 < 1 := by
  classical
  rw [call_unset hb hab]
  show (∃ u, Except.ok (if c.Inside x y then some (c.value x y) else none) = _) ↔ c.Inside x y
  by_cases h : c.Inside x y
  · simp [h]
  · simp [h]

example : ∃ c : Closure, 0 < c.b ∧ c.b < c.a ∧ ((1 : ℝ) / c.a) ^ 2 + (0.5 / c.b) ^ 2 < 1 ∧ ¬ ((1 : ℝ) / c.a) ^ 2 + (1 / c.b) ^ 2 < 1 :=
  ⟨⟨2, 1, 1, 0.1, 0.2, 0.3, 200⟩, by norm_num⟩

/-- In the axes of the bodies the contact is turned by their angles. -/
theorem C129_axes {c : Closure} (hb : 0 < c.b) (hab : c.b < c.a) (x y : ℝ) :
    (c.call .unset x y 1).2 = (c.call .unset (x * cos c.alpha - y * sin c.alpha) (x * sin c.alpha + y * cos c.alpha) 0).2 ∧
    (c.call .unset x y 2).2 = (c.call .unset (x * cos c.beta - y * sin c.beta) (x * sin c.beta + y * cos c.beta) 0).2 := by
  rw [call_unset hb hab, call_unset hb hab, call_unset hb hab, call_unset hb hab]
  exact ⟨rfl, rfl⟩

example := C129_axes (c := ⟨2, 1, 1, 0.1, 0.2, 0.3, 200⟩) (by norm_num) (by norm_num) 1 0.5

/-- The numbers of the axes are 0, 1 and 2; minus one means the first body, others are refused. -/
theorem C129_numbers {c : Closure} (hb : 0 < c.b) (hab : c.b < c.a) (x y : ℝ) : (c.call .unset x y (-1)).2 = (c.call .unset x y 1).2 ∧
    ∀ t : ℤ, t < -1 ∨ 2 < t → (c.call .unset x y t).2 = .error .indexError := by
  refine ⟨?_, fun t ht => ?_⟩
  · rw [call_unset hb hab, call_unset hb hab]
    rfl
  · rw [call_unset hb hab]
    have : c.turn x y t = .error .indexError := by
      unfold Closure.turn
      rw [if_neg (by omega), if_neg (by omega), if_neg (by omega)]
    rw [this]
    rfl

example := C129_numbers (c := ⟨2, 1, 1, 0.1, 0.2, 0.3, 200⟩) (by norm_num) (by norm_num) 1 0.5

/-- The axes of the first body are turned by its angle, or at right angles to that if its first curvature radius is the smaller one. -/
theorem C129_turned (p : Args) (f g h : ℝ) (i : Bool) (hb : 0 < (closure p f g h i).b) (hab : (closure p f g h i).b < (closure p f g h i).a) (x y : ℝ) :
    let c := closure p f g h i
    (XR.lt (recip p.k1) (recip p.k2) = true →
      (c.call .unset x y 1).2 = (c.call .unset (-(x * sin p.alpha) - y * cos p.alpha) (x * cos p.alpha - y * sin p.alpha) 0).2 ∧
      (c.call .unset x y 2).2 = (c.call .unset (-(x * sin p.beta) - y * cos p.beta) (x * cos p.beta - y * sin p.beta) 0).2) ∧
    (XR.lt (recip p.k1) (recip p.k2) = false →
      (c.call .unset x y 1).2 = (c.call .unset (x * cos p.alpha - y * sin p.alpha) (x * sin p.alpha + y * cos p.alpha) 0).2 ∧
      (c.call .unset x y 2).2 = (c.call .unset (x * cos p.beta - y * sin p.beta) (x * sin p.beta + y * cos p.beta) 0).2) := by
  intro c
  obtain ⟨h1, h2⟩ := C129_axes (c := c) hb hab x y
  constructor
  · intro hs
    have e1 : c.alpha = p.alpha + π / 2 := if_pos hs
    have e2 : c.beta = p.beta + π / 2 := if_pos hs
    rw [h1, h2, e1, e2, cos_add_pi_div_two, sin_add_pi_div_two, cos_add_pi_div_two, sin_add_pi_div_two]
    have r : ∀ s t : ℝ, x * -s - y * t = -(x * s) - y * t ∧ x * t + y * -s = x * t - y * s := fun s t => ⟨by ring, by ring⟩
    rw [(r _ _).1, (r _ _).2, (r _ _).1, (r _ _).2]
    exact ⟨rfl, rfl⟩
  · intro hs
    have hs' : ¬XR.lt (recip p.k1) (recip p.k2) = true := by rw [hs]; decide
    have e1 : c.alpha = p.alpha := if_neg hs'
    have e2 : c.beta = p.beta := if_neg hs'
    rw [h1, h2, e1, e2]
    exact ⟨rfl, rfl⟩

/-- A body with an ellipse twice as long as wide. -/
example := C129_turned ⟨.fin 1, .fin 1, .fin 1, .fin 2, 1, 1, 0, 0, 1, 0, false⟩ 2 1 1 true
  (by simp only [closure, Radius.curv]; positivity)
  (by simp only [closure, Radius.curv]; exact mul_lt_mul_of_pos_right one_lt_two (by positivity)) 1 0.5

/-- **C129 (negation)**: for a round contact the function gives no number anywhere. -/
theorem C129_round_wrong {c : Closure} (ha : 0 < c.a) (hab : c.b = c.a) (x y : ℝ) : (c.call .unset x y 0).2 = .ok none := by
  have h0 : (1 - c.b ^ 2 / c.a ^ 2) ^ (0.5 : ℝ) = 0 := by
    rw [hab, div_self (by positivity), sub_self, zero_rpow (by norm_num)]
  unfold Closure.call Closure.fill
  rw [if_neg (by linarith)]
  dsimp only
  rw [if_pos h0]
  show (if max (1 - (x / c.a) ^ 2 - (y / c.b) ^ 2) 0 = 0 then Except.ok none else Except.ok none) = _
  split <;> rfl

example : ∃ c : Closure, 0 < c.a ∧ c.b = c.a ∧ ((0.5 : ℝ) / c.a) ^ 2 + (0.5 / c.b) ^ 2 < 1 := ⟨⟨1, 1, 1, 0, 0, 0.3, 200⟩, by norm_num⟩

theorem m_pos {c : Closure} (hb : 0 < c.b) (hab : c.b < c.a) (hp : 0 < c.p0) : 0 < c.m := by
  have he := ecc_pos hb hab
  have h1 := ecc_lt hb hab
  have ha : 0 < c.a := by linarith
  unfold Closure.m
  rw [← int_sin h1]
  have := sin_cube_pos h1 1
  positivity

theorem n_neg {c : Closure} (hb : 0 < c.b) (hab : c.b < c.a) (hp : 0 < c.p0) (hnear : 0.911 * c.a ≤ c.b) : c.n < 0 := by
  have he := ecc_pos hb hab
  have h1 := ecc_lt hb hab
  have hs := ecc_sq' hb hab
  have ha : 0 < c.a := by linarith
  have hr : c.a ^ 2 / c.b ^ 2 = 1 / (1 - c.ecc ^ 2) := by
    rw [hs]
    field_simp
    simp
  have hlow : 0.829921 ≤ c.b ^ 2 / c.a ^ 2 := by
    rw [le_div_iff₀ (by positivity)]
    nlinarith
  have hsmall : c.ecc < 0.4142 := by
    by_contra hc
    push Not at hc
    nlinarith
  have hK := sub_ge he.le h1
  have hE := ellipe_le he.le
  unfold Closure.n
  rw [hr]
  refine mul_neg_of_pos_of_neg (by have := pi_pos; positivity) ?_
  have hq : 0 < 1 - c.ecc ^ 2 := by nlinarith
  have hE0 : 1 / (1 - c.ecc ^ 2) * ellipe c.ecc = ellipe c.ecc + c.ecc ^ 2 / (1 - c.ecc ^ 2) * ellipe c.ecc := by
    field_simp
    ring
  rw [hE0]
  have h2 : c.ecc ^ 2 / (1 - c.ecc ^ 2) * ellipe c.ecc ≤ c.ecc ^ 2 / (1 - c.ecc ^ 2) * (π / 2) :=
    mul_le_mul_of_nonneg_left hE (by positivity)
  have h3 : c.ecc ^ 2 / (1 - c.ecc ^ 2) * (π / 2) < c.ecc * (π / 4) := by
    rw [div_mul_eq_mul_div, div_lt_iff₀ hq]
    have : c.ecc * 2 < 1 - c.ecc ^ 2 := by nlinarith
    have h5 : 0 < c.ecc * π := by have := pi_pos; positivity
    nlinarith
  linarith

/-- **C129 (partial)**: along the longer axis the displacement falls with the distance from the centre. Missing: the shorter axis and the
value at the centre, where it fails (next theorems). -/
theorem C129_longer_axis_partial {c : Closure} (hb : 0 < c.b) (hab : c.b < c.a) (hp : 0 < c.p0) (hE : 0 < c.modulus) (hv : c.v ^ 2 < 1)
    {x x' : ℝ} (h : |x'| < |x|) (hx : |x| < c.a) :
    ∃ u u', (c.call .unset x 0 0).2 = .ok (some u) ∧ (c.call .unset x' 0 0).2 = .ok (some u') ∧ u < u' := by
  classical
  have ha : 0 < c.a := by linarith
  have inside : ∀ z : ℝ, |z| < c.a → c.Inside z 0 := by
    intro z hz
    unfold Closure.Inside
    rw [zero_div, div_pow, zero_pow two_ne_zero, add_zero, div_lt_one (by positivity), ← sq_abs z]
    nlinarith [abs_nonneg z]
  refine ⟨c.value x 0, c.value x' 0, ?_, ?_, ?_⟩
  · rw [call_unset hb hab]
    show Except.ok (if c.Inside x 0 then _ else _) = _
    rw [if_pos (inside x hx)]
  · rw [call_unset hb hab]
    show Except.ok (if c.Inside x' 0 then _ else _) = _
    rw [if_pos (inside x' (h.trans hx))]
  · unfold Closure.value
    refine mul_lt_mul_of_pos_left ?_ (by have := pi_pos; have : 0 < 1 - c.v ^ 2 := by linarith
                                         positivity)
    have h1 : x' ^ 2 < x ^ 2 := sq_lt_sq.mpr h
    have := mul_lt_mul_of_pos_left h1 (m_pos hb hab hp)
    linarith

example : ∃ c : Closure, 0 < c.b ∧ c.b < c.a ∧ 0 < c.p0 ∧ 0 < c.modulus ∧ c.v ^ 2 < 1 ∧ |(0.3 : ℝ)| < |(-0.5 : ℝ)| ∧ |(-0.5 : ℝ)| < c.a :=
  ⟨⟨2, 1, 1, 0, 0, 0.3, 200⟩, by norm_num [abs_of_pos, abs_of_neg]⟩

/-- **C129 (negation)**: if the ellipse is nearly round, the displacement grows along the shorter axis: it is not greatest at the centre. -/
theorem C129_shorter_axis_wrong {c : Closure} (hb : 0 < c.b) (hab : c.b < c.a) (hnear : 0.911 * c.a ≤ c.b) (hp : 0 < c.p0) (hE : 0 < c.modulus)
    (hv : c.v ^ 2 < 1) {y y' : ℝ} (h : |y'| < |y|) (hy : |y| < c.b) :
    ∃ u u', (c.call .unset 0 y 0).2 = .ok (some u) ∧ (c.call .unset 0 y' 0).2 = .ok (some u') ∧ u' < u := by
  classical
  have inside : ∀ z : ℝ, |z| < c.b → c.Inside 0 z := by
    intro z hz
    unfold Closure.Inside
    rw [zero_div, div_pow, zero_pow two_ne_zero, zero_add, div_lt_one (by positivity), ← sq_abs z]
    nlinarith [abs_nonneg z]
  refine ⟨c.value 0 y, c.value 0 y', ?_, ?_, ?_⟩
  · rw [call_unset hb hab]
    show Except.ok (if c.Inside 0 y then _ else _) = _
    rw [if_pos (inside y hy)]
  · rw [call_unset hb hab]
    show Except.ok (if c.Inside 0 y' then _ else _) = _
    rw [if_pos (inside y' (h.trans hy))]
  · unfold Closure.value
    refine mul_lt_mul_of_pos_left ?_ (by have := pi_pos; have : 0 < 1 - c.v ^ 2 := by linarith
                                         positivity)
    have h1 : y' ^ 2 < y ^ 2 := sq_lt_sq.mpr h
    have := mul_lt_mul_of_neg_left h1 (n_neg hb hab hp hnear)
    linarith

example : ∃ c : Closure, 0 < c.b ∧ c.b < c.a ∧ 0.911 * c.a ≤ c.b ∧ 0 < c.p0 ∧ 0 < c.modulus ∧ c.v ^ 2 < 1 ∧ |(0.3 : ℝ)| < |(-0.5 : ℝ)| ∧ |(-0.5 : ℝ)| < c.b :=
  ⟨⟨1, 0.95, 1, 0, 0, 0.3, 200⟩, by norm_num [abs_of_pos, abs_of_neg]⟩

/-- **C129 (negation)**: at the centre of each elliptical contact the function for each body gives more than the reported deflection of the
body. -/
theorem C129_centre_wrong {root : RootFinder} {p : Args} {r : Result} (hm : Ordinary p) (hroot : Exact root)
    (h : hertz root p = .ok r) (hl : r.shape = .ellipse) (h0 : 0 < p.cosOmega) (h1 : p.cosOmega < 1) :
    ∃ f g k a u₁ u₂, finder root p.cosOmega = some (f, g, k) ∧ r.radiusA = .fin a ∧
      ((closure p f g k true).call .unset 0 0 0).2 = .ok (some u₁) ∧ ((closure p f g k false).call .unset 0 0 0).2 = .ok (some u₂) ∧
      (deflections p k a).1 + (deflections p k a).2 = r.deflection ∧ (deflections p k a).1 < u₁ ∧ (deflections p k a).2 < u₂ := by
  classical
  obtain ⟨hload, hs⟩ := solved_of_ok h
  cases hs with
  | line => cases hl
  | sphere => cases hl
  | ellipse f g hh hell hsum r1Rel r2Rel =>
    obtain ⟨k, a, hk, hk1, ha, hfa, hga, hH, ha3, he⟩ := ellipse_numbers hm hload hsum hroot h0 h1 hell
    have hpi := pi_pos
    have t1 : 0 < (1 - p.v1 ^ 2) / p.e1 := div_pos (by linarith [hm.v1]) hm.e1
    have t2 : 0 < (1 - p.v2 ^ 2) / p.e2 := div_pos (by linarith [hm.v2]) hm.e2
    have ca : ∀ i, (closure p f g hh i).a = a := fun _ => hfa
    have cb : ∀ i, (closure p f g hh i).b = k * a := fun _ => hga
    have cp : ∀ i, (closure p f g hh i).p0 = 3 * p.load / 2 / (a * (k * a) * π) := by
      intro i
      show 3 * p.load / 2 / (f * ellScale p * (g * ellScale p) * π) = _
      rw [hfa, hga]
    have hb : ∀ i, 0 < (closure p f g hh i).b := fun i => by rw [cb]; positivity
    have hab : ∀ i, (closure p f g hh i).b < (closure p f g hh i).a := fun i => by rw [cb, ca]; nlinarith
    have heq : ∀ i, (closure p f g hh i).ecc ^ 2 = 1 - k ^ 2 := by
      intro i
      rw [ecc_sq' (hb i) (hab i), ca, cb]
      field_simp
    have hK : ∀ i, hh < ellipk (closure p f g hh i).ecc := by
      intro i
      have hh' : hh = ellipk ((closure p f g hh i).ecc ^ 2) := by rw [heq i, hH, intH_eq]
      refine hh'.trans_lt ?_
      have e0 := ecc_pos (hb i) (hab i)
      have e1 := ecc_lt (hb i) (hab i)
      exact ellipk_lt (by nlinarith) e1
    have val : ∀ i, ((closure p f g hh i).call .unset 0 0 0).2 = .ok (some ((closure p f g hh i).value 0 0)) := by
      intro i
      rw [call_unset (hb i) (hab i)]
      show Except.ok (if (closure p f g hh i).Inside 0 0 then _ else _) = _
      rw [if_pos (by unfold Closure.Inside; norm_num)]
    have value0 : ∀ i, (closure p f g hh i).value 0 0 = (1 - (closure p f g hh i).v ^ 2) / (closure p f g hh i).modulus *
        (3 * p.load / (2 * π * a)) * ellipk (closure p f g hh i).ecc := by
      intro i
      unfold Closure.value Closure.l
      rw [cp, cb]
      field_simp
      ring
    refine ⟨f, g, hh, a, _, _, hell, ?_, val true, val false, ?_, ?_, ?_⟩
    · show XR.fin (f * ellScale p) = _
      rw [hfa]
    · show _ = 3 * p.load * (4 * (1 - p.v1 ^ 2) / p.e1) * hh / (f * ellScale p) / 8 / π +
          3 * p.load * (4 * (1 - p.v1 ^ 2) / p.e1) * hh / (f * ellScale p) / 8 / π * (4 * (1 - p.v2 ^ 2) / p.e2) / (4 * (1 - p.v1 ^ 2) / p.e1)
      rw [hfa]
      rfl
    · rw [value0]
      show 3 * p.load * (4 * (1 - p.v1 ^ 2) / p.e1) * hh / a / 8 / π < (1 - p.v1 ^ 2) / p.e1 * (3 * p.load / (2 * π * a)) * _
      have : 3 * p.load * (4 * (1 - p.v1 ^ 2) / p.e1) * hh / a / 8 / π = (1 - p.v1 ^ 2) / p.e1 * (3 * p.load / (2 * π * a)) * hh := by
        rw [mul_div_assoc 4]
        field_simp
        ring
      rw [this]
      exact mul_lt_mul_of_pos_left (hK true) (by positivity)
    · rw [value0]
      show 3 * p.load * (4 * (1 - p.v1 ^ 2) / p.e1) * hh / a / 8 / π * (4 * (1 - p.v2 ^ 2) / p.e2) / (4 * (1 - p.v1 ^ 2) / p.e1) <
        (1 - p.v2 ^ 2) / p.e2 * (3 * p.load / (2 * π * a)) * _
      have : 3 * p.load * (4 * (1 - p.v1 ^ 2) / p.e1) * hh / a / 8 / π * (4 * (1 - p.v2 ^ 2) / p.e2) / (4 * (1 - p.v1 ^ 2) / p.e1) =
          (1 - p.v2 ^ 2) / p.e2 * (3 * p.load / (2 * π * a)) * hh := by
        rw [mul_div_assoc 4, mul_div_assoc 4]
        generalize (1 - p.v1 ^ 2) / p.e1 = A at *
        field_simp
        ring
      rw [this]
      exact mul_lt_mul_of_pos_left (hK false) (by positivity)

end Verif.Ellipse
