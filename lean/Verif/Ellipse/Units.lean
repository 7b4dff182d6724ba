import Verif.HertzFull.Units
import Verif.Ellipse.Model

/-!
# C173: the displacements of elliptical contacts in other units

`_displacement_elliptical`, `slippy/contact/hertz.py` l.805-867 (model `Ellipse.Model`). With them, the displacements under other loads (C175).
-/

namespace Verif.Ellipse

open HertzFull
open Hertz (Units)

/-- The closure of the displacement of an elliptical contact in other units. -/
def Closure.inUnits (u : Units) (c : Closure) : Closure :=
  { c with a := u.length * c.a, b := u.length * c.b, p0 := u.stress * c.p0, modulus := u.stress * c.modulus }

/-- The point of a call in other units. -/
theorem turn_units (u : Units) (c : Closure) (x y : ℝ) (t : ℤ) :
    (c.inUnits u).turn (u.length * x) (u.length * y) t = (c.turn x y t).map (fun q => (u.length * q.1, u.length * q.2)) := by
  have axes : ∀ w, transformAxes (u.length * x) (u.length * y) w = (u.length * (transformAxes x y w).1, u.length * (transformAxes x y w).2) := fun w => by
    unfold transformAxes
    refine Prod.ext ?_ ?_ <;> ring
  unfold Closure.turn Closure.inUnits
  dsimp only
  rw [axes, axes]
  by_cases h0 : t = 0
  · rw [if_pos h0, if_pos h0]
    rfl
  rw [if_neg h0, if_neg h0]
  by_cases h1 : t = 1 ∨ t = -1
  · rw [if_pos h1, if_pos h1]
    rfl
  rw [if_neg h1, if_neg h1]
  by_cases h2 : t = 2
  · rw [if_pos h2, if_pos h2]
    rfl
  rw [if_neg h2, if_neg h2]
  rfl

/-- The numbers that a call stores, in other units. -/
noncomputable def Memo.inUnits (u : Units) : Memo → Memo
  | .unset => .unset
  | .nan => .nan
  | .values l m n => .values (u.stress * u.length * l) (u.stress / u.length * m) (u.stress / u.length * n)

theorem fill_units (u : Units) (c : Closure) (memo : Memo) : (c.inUnits u).fill (memo.inUnits u) = (c.fill memo).map (Memo.inUnits u) := by
  have hl := u.length_pos
  have hlt : u.length * c.a < u.length * c.b ↔ c.a < c.b := mul_lt_mul_iff_of_pos_left hl
  have cancel : ∀ x y : ℝ, (u.length * x) ^ 2 / (u.length * y) ^ 2 = x ^ 2 / y ^ 2 := fun x y => by
    rw [mul_pow, mul_pow, mul_div_mul_left _ _ (pow_pos hl 2).ne']
  cases memo with
  | nan => rfl
  | values l m n => rfl
  | unset =>
    unfold Memo.inUnits Closure.fill Closure.inUnits
    dsimp only
    by_cases hab : c.a < c.b
    · rw [if_pos hab, if_pos (hlt.2 hab)]
      rfl
    rw [if_neg hab, if_neg (mt hlt.1 hab), cancel, cancel]
    generalize (1 - c.b ^ 2 / c.a ^ 2) ^ (0.5 : ℝ) = e
    by_cases he : e = 0
    · rw [if_pos he, if_pos he]
      rfl
    rw [if_neg he, if_neg he]
    simp only [Except.map, Except.ok.injEq, Memo.values.injEq]
    have sq : ∀ q : ℝ, q * u.length / (u.length * c.a) ^ 2 = q / u.length / c.a ^ 2 := fun q => by
      rw [mul_pow, pow_two u.length, mul_assoc, mul_comm q, mul_div_mul_left _ _ hl.ne', div_div]
    refine ⟨by ring, ?_, ?_⟩
    · rw [show Real.pi * (u.stress * c.p0) * (u.length * c.b) / e ^ 2 = Real.pi * (u.stress * c.p0) * c.b / e ^ 2 * u.length by ring, sq]
      ring
    · rw [show Real.pi * (u.stress * c.p0) * (u.length * c.b) = Real.pi * (u.stress * c.p0) * c.b * u.length by ring, sq]
      ring

/-- **C173, displacements of elliptical contacts**: whatever is stored already, a call stores the same numbers and answers with the same exception, `nan`, or displacement at the same point. -/
theorem C173_ellipse_displacement (u : Units) (c : Closure) (memo : Memo) (x y : ℝ) (t : ℤ) :
    (c.inUnits u).call (memo.inUnits u) (u.length * x) (u.length * y) t =
      ((c.call memo x y t).1.inUnits u, (c.call memo x y t).2.map (Option.map (u.length * ·))) := by
  have hl := u.length_pos
  have hs := u.stress_pos
  unfold Closure.call
  rw [fill_units, turn_units]
  generalize c.fill memo = filled
  cases filled with
  | error e => rfl
  | ok memo =>
    generalize c.turn x y t = turned
    cases turned with
    | error e => rfl
    | ok q =>
      simp only [Except.map, bind, Except.bind, pure, Except.pure]
      have hsame : max (1 - (u.length * q.1 / (c.inUnits u).a) ^ 2 - (u.length * q.2 / (c.inUnits u).b) ^ 2) 0 = max (1 - (q.1 / c.a) ^ 2 - (q.2 / c.b) ^ 2) 0 := by
        unfold Closure.inUnits
        dsimp only
        rw [mul_div_mul_left _ _ hl.ne', mul_div_mul_left _ _ hl.ne']
      by_cases hm : max (1 - (q.1 / c.a) ^ 2 - (q.2 / c.b) ^ 2) 0 = 0
      · rw [if_pos hm, if_pos (hsame.trans hm)]
        rfl
      rw [if_neg hm, if_neg (fun h => hm (hsame.symm.trans h))]
      cases memo with
      | unset => rfl
      | nan => rfl
      | values l m n =>
        simp only [Memo.inUnits, Closure.inUnits, Option.map_some, Prod.mk.injEq, true_and, Except.ok.injEq, Option.some.injEq]
        have e1 : ∀ m X : ℝ, u.stress / u.length * m * (u.length * X) ^ 2 = u.stress * (u.length * (m * X ^ 2)) := fun m X => by
          field_simp
        rw [e1, e1, show u.stress * u.length * l - u.stress * (u.length * (m * q.1 ^ 2)) - u.stress * (u.length * (n * q.2 ^ 2)) =
            u.stress * (u.length * (l - m * q.1 ^ 2 - n * q.2 ^ 2)) by ring]
        generalize l - m * q.1 ^ 2 - n * q.2 ^ 2 = d
        rw [show (1 - c.v ^ 2) / (u.stress * c.modulus) / Real.pi * (u.stress * (u.length * d)) = u.stress * (1 - c.v ^ 2) / (u.stress * c.modulus) / Real.pi * (u.length * d) by ring,
          mul_div_mul_left _ _ hs.ne']
        ring

/-- A closure with another maximum pressure. -/
theorem call_pressure {c : Closure} (t x y : ℝ) (n : ℤ) : (({ c with p0 := t * c.p0 } : Closure).call .unset x y n).2 = (c.call .unset x y n).2.map (Option.map (t * ·)) := by
  have hturn : ({ c with p0 := t * c.p0 } : Closure).turn x y n = c.turn x y n := rfl
  unfold Closure.call
  rw [hturn]
  unfold Closure.fill
  dsimp only
  by_cases hab : c.a < c.b
  · rw [if_pos hab, if_pos hab]
    rfl
  rw [if_neg hab, if_neg hab]
  by_cases he : (1 - c.b ^ 2 / c.a ^ 2) ^ (0.5 : ℝ) = 0
  · rw [if_pos he, if_pos he]
    generalize c.turn x y n = turned
    cases turned with
    | error e => rfl
    | ok q =>
      simp only [Except.map, bind, Except.bind, pure, Except.pure]
      by_cases hm : max (1 - (q.1 / c.a) ^ 2 - (q.2 / c.b) ^ 2) 0 = 0
      · rw [if_pos hm]
        rfl
      · rw [if_neg hm]
        rfl
  · rw [if_neg he, if_neg he]
    generalize c.turn x y n = turned
    cases turned with
    | error e => rfl
    | ok q =>
      simp only [Except.map, bind, Except.bind, pure, Except.pure]
      by_cases hm : max (1 - (q.1 / c.a) ^ 2 - (q.2 / c.b) ^ 2) 0 = 0
      · rw [if_pos hm, if_pos hm]
        rfl
      · rw [if_neg hm, if_neg hm]
        simp only [Option.map_some, Except.ok.injEq, Option.some.injEq]
        ring

/-- **C175, displacements of elliptical contacts.** With `t` times the radii and `t` times the maximum pressure, the displacement at similar points is `t²` times as large. -/
theorem C175_ellipse_displacement {t : ℝ} (ht : 0 < t) (c : Closure) (x y : ℝ) (n : ℤ) :
    (({ c with a := t * c.a, b := t * c.b, p0 := t * c.p0 } : Closure).call .unset (t * x) (t * y) n).2 = (c.call .unset x y n).2.map (Option.map (t ^ 2 * ·)) := by
  have h := C173_ellipse_displacement ⟨t, 1, ht, one_pos⟩ { c with p0 := t * c.p0 } .unset x y n
  have e : ({ c with p0 := t * c.p0 } : Closure).inUnits ⟨t, 1, ht, one_pos⟩ = { c with a := t * c.a, b := t * c.b, p0 := t * c.p0 } := by
    simp only [Closure.inUnits, one_mul]
  have h2 := congrArg Prod.snd h
  rw [e, call_pressure] at h2
  refine Eq.trans h2 ?_
  cases (c.call .unset x y n).2 with
  | error e => rfl
  | ok v =>
    cases v with
    | none => rfl
    | some d =>
      simp only [Except.map, Option.map_some, Except.ok.injEq, Option.some.injEq]
      ring

/-- In millimetres and megapascals instead of metres and pascals. -/
example : ((⟨2, 1, 3, 0, 0, 0, 5⟩ : Closure).inUnits ⟨1000, 1 / 1000000, by norm_num, by norm_num⟩).a = 2000 := by norm_num [Closure.inUnits]

end Verif.Ellipse
