import Verif.AcfNew.Model

/-!
# C143: what autocorrelation functions can be made of
-/

namespace Verif.AcfNew

open Verif Acf

/-- **C143**: of names the only one that works is 'exp' with at least three arguments; with fewer the error is `IndexError`, all other names ('polynomial', which the
error message offers, included) are not implemented. -/
theorem C143_names (spline : Spline) (name : String) (args : List (Option ℝ)) :
    ((∃ a, construct spline (.str name args) = .ok a) ↔ name = "exp" ∧ 3 ≤ args.length) ∧
    (name = "exp" → args.length < 3 → construct spline (.str name args) = .error .indexError) ∧
    (name ≠ "exp" → construct spline (.str name args) = .error .notImplementedError) := by
  simp only [construct, checkString]
  refine ⟨⟨?_, ?_⟩, ?_, ?_⟩
  · rintro ⟨a, h⟩
    by_cases hn : name = "exp"
    · refine ⟨hn, ?_⟩
      rw [if_pos hn] at h
      match args with
      | [] | [_] | [_, _] => simp at h
      | _ :: _ :: _ :: _ => simp
    · rw [if_neg hn] at h
      simp at h
  · rintro ⟨hn, hl⟩
    rw [if_pos hn]
    match args, hl with
    | s :: bx :: b :: _, _ => exact ⟨_, rfl⟩
  · intro hn hl
    rw [if_pos hn]
    match args, hl with
    | [], _ | [_], _ | [_, _], _ => rfl
    | _ :: _ :: _ :: _, hl => simp at hl; omega
  · intro hn
    rw [if_neg hn]

example : "polynomial" ≠ "exp" ∧ 3 ≤ [some (2 : ℝ), some 0.1, some 0.2].length := ⟨by decide, by simp⟩

/-- **C143**: arguments after the third change nothing. -/
theorem C143_more_arguments (spline : Spline) (s bx b : Option ℝ) (more : List (Option ℝ)) :
    construct spline (.str "exp" (s :: bx :: b :: more)) = construct spline (.str "exp" [s, bx, b]) := rfl

example : construct (fun _ _ _ _ _ => .error .valueError) (.str "exp" [some 2, some 1, some 1, some 7]) =
    construct (fun _ _ _ _ _ => .error .valueError) (.str "exp" [some 2, some 1, some 1]) := C143_more_arguments _ _ _ _ _

/-- **C143**: with three numbers the function is the exponential one on the grid that has x along the columns. -/
theorem C143_exponential_partial {spline : Spline} {s bx b : ℝ} {more : List (Option ℝ)} {a : Acf}
    (h : construct spline (.str "exp" (some s :: some bx :: some b :: more)) = .ok a) (x y : List ℝ) :
    ∃ g, a.eval x y = .ok ((y.length, x.length), g) ∧ ∀ i j, g i j = expAcf s bx b (x.getD j 0) (y.getD i 0) := by
  injection h with h
  subst h
  exact ⟨_, rfl, fun _ _ => rfl⟩

example : ∃ a, construct (fun _ _ _ _ _ => .error .valueError) (.str "exp" [some 2, some 1, some 1]) = .ok a := ⟨_, rfl⟩

/-- **C143 does not hold for the example of the documentation** (`ACF('exp', None, 1, 1)`, l.177): the function is made, but every evaluation raises
`TypeError`, since `None` can't be squared. -/
theorem C143_documented_wrong (spline : Spline) (bx b : ℝ) :
    ∃ a, construct spline (.str "exp" [none, some bx, some b]) = .ok a ∧ ∀ x y, a.eval x y = .error .typeError := ⟨_, rfl, fun _ _ => rfl⟩

example : ∃ a, construct (fun _ _ _ _ _ => .error .valueError) (.str "exp" [none, some 1, some 1]) = .ok a := ⟨_, rfl⟩

/-- **C143**: arrays and surfaces work exactly if the array has two dimensions, there is a spacing and the spline can be made; then the object keeps the
autocorrelation of the array. -/
theorem C143_arrays (spline : Spline) (arr : Array) (spacing : Option ℝ) (surface : Bool) (a : Acf) :
    construct spline (if surface then .surface arr spacing else .other arr spacing) = .ok a ↔
    ∃ n m p gs f, arr = .grid n m p ∧ spacing = some gs ∧ spline n m (knot n gs) (knot m gs) (original n m p) = .ok f ∧
      a = ⟨.spline f, some (n, m, original n m p), if surface then .surface else .array⟩ := by
  constructor
  · intro h
    cases surface <;> simp only [if_true, Bool.false_eq_true, if_false, construct] at h ⊢
    · cases spacing with
      | none => simp at h
      | some gs =>
        cases arr with
        | invalid => simp [checkArray] at h
        | flat => simp [checkArray] at h
        | grid n m p =>
          simp only [checkArray] at h
          cases hs : spline n m (knot n gs) (knot m gs) (original n m p) with
          | error e => rw [hs] at h; simp at h
          | ok f =>
            rw [hs] at h
            injection h with h
            exact ⟨n, m, p, gs, f, rfl, rfl, hs, h.symm⟩
    · cases arr with
      | invalid => simp [checkArray] at h
      | flat => simp [checkArray] at h
      | grid n m p =>
        cases spacing with
        | none => simp [checkArray] at h
        | some gs =>
          simp only [checkArray] at h
          cases hs : spline n m (knot n gs) (knot m gs) (original n m p) with
          | error e => rw [hs] at h; simp at h
          | ok f =>
            rw [hs] at h
            injection h with h
            exact ⟨n, m, p, gs, f, rfl, rfl, hs, h.symm⟩
  · rintro ⟨n, m, p, gs, f, rfl, rfl, hs, rfl⟩
    cases surface <;> simp [construct, checkArray, hs]

example : ∃ a, construct (fun _ _ _ _ _ => .ok fun x _ => x) (.other (.grid 4 4 fun _ _ => 1) (some 1)) = .ok a := ⟨_, rfl⟩

/-- **C143**: what is not array like is refused with `ValueError`, whatever the spacing. -/
theorem C143_not_an_array (spline : Spline) (spacing : Option ℝ) :
    construct spline (.other .invalid spacing) = .error .valueError ∧ construct spline (.surface .invalid spacing) = .error .valueError :=
  ⟨by cases spacing <;> rfl, rfl⟩

example : construct (fun _ _ _ _ _ => .error .keyError) (.other .invalid (some 1)) = .error .valueError := (C143_not_an_array _ _).1

/-- **C143 does not hold for the errors**: a missing spacing is reported for arrays (`ValueError`); for a surface the check is not made, and the multiplication fails
(`TypeError`). -/
theorem C143_spacing_wrong (spline : Spline) (n m : Nat) (p : Nat → Nat → ℝ) :
    construct spline (.other (.grid n m p) none) = .error .valueError ∧ construct spline (.surface (.grid n m p) none) = .error .typeError := ⟨rfl, rfl⟩

example : construct (fun _ _ _ _ _ => .error .valueError) (.surface (.grid 4 4 fun _ _ => 1) none) = .error .typeError := (C143_spacing_wrong _ 4 4 _).2

/-- **C143 does not hold for callable objects**: a function works; a callable object that is no instance of `types.FunctionType`, of which `np.asarray` makes an array
without dimensions, is refused with `IndexError`. -/
theorem C143_callables_wrong (spline : Spline) (f : ℝ → ℝ → ℝ) (gs : ℝ) (x y : List ℝ) :
    (∃ a, construct spline (.function f) = .ok a ∧ a.eval x y = .ok ((y.length, x.length), fun i j => f (x.getD j 0) (y.getD i 0))) ∧
    construct spline (.other .flat (some gs)) = .error .indexError := ⟨⟨_, rfl, rfl⟩, rfl⟩

example : construct (fun _ _ _ _ _ => .error .valueError) (.other .flat (some 1)) = .error .indexError := rfl

/-- **C143**: an autocorrelation function can be made into an array exactly if it was made of an array or a surface. -/
theorem C143_array (spline : Spline) (src : Src) (a : Acf) (h : construct spline src = .ok a) :
    (∃ o, a.array = .ok o) ↔ (∃ arr sp, src = .surface arr sp ∨ src = .other arr sp) := by
  constructor
  · rintro ⟨o, ho⟩
    cases src with
    | str name args =>
      simp only [construct] at h
      cases hc : checkString name args with
      | error e => rw [hc] at h; simp at h
      | ok mm => rw [hc] at h; injection h with h; subst h; simp [Acf.array] at ho
    | surface arr sp => exact ⟨arr, sp, Or.inl rfl⟩
    | function f => injection h with h; subst h; simp [Acf.array] at ho
    | other arr sp => exact ⟨arr, sp, Or.inr rfl⟩
  · rintro ⟨arr, sp, h1 | h1⟩
    · subst h1
      obtain ⟨n, m, p, gs, f, -, -, -, rfl⟩ := (C143_arrays spline arr sp true a).mp h
      exact ⟨_, rfl⟩
    · subst h1
      obtain ⟨n, m, p, gs, f, -, -, -, rfl⟩ := (C143_arrays spline arr sp false a).mp h
      exact ⟨_, rfl⟩

example : ∃ a, construct (fun _ _ _ _ _ => .ok fun x _ => x) (.surface (.grid 4 4 fun _ _ => 1) (some 1)) = .ok a := ⟨_, rfl⟩

end Verif.AcfNew
