import Mathlib.Analysis.SpecialFunctions.Pow.Real
import Verif.XReal
import Verif.Elastic.SharedProps

/-!
# Speeds of sound: model of `speed_of_sound`, `slippy/contact/materials.py` l.688-728, and property C133

The elastic constants are numpy numbers: a quotient by zero is infinite or `nan`, the root of a negative number is `nan`.
-/

namespace Verif.Elastic

noncomputable section

/-- The state with the attribute `density` of every material (l.480: `None` on the class). -/
structure Sounding where
  base : State
  density : Nat → Option ℝ

open Classical in
/-- `np.sqrt(c / d)`. -/
def rootOf (c d : ℝ) : XR :=
  if d = 0 then (if 0 < c then .pinf else .nan)
  else if c / d < 0 then .nan else .fin (Real.sqrt (c / d))

/-- `speed_of_sound`, l.720-728: the speeds `s` and `p`, and the state. -/
def speeds (s : Sounding) (i : Nat) (given : Option ℝ) : Except PyErr (XR × XR) × Sounding :=
  let s := match given with
    | some d => { s with density := Function.update s.density i (some d) }
    | none => s
  match s.density i with
  | none => (.error .valueError, s)
  | some d => match read s.base i .G, read s.base i .M with
    | some g, some m => (.ok (rootOf g d, rootOf m d), s)
    | _, _ => (.error .typeError, s)

/-- The other operations: a new material has no density. -/
def stepSound (s : Sounding) (o : Op) : Sounding :=
  { base := (step s.base o).1
    density := match o with
      | .new i _ => Function.update s.density i none
      | _ => s.density }

end

/-- **C133**: the speeds of an isotropic material of positive density are positive, the p wave is the faster one, and density and speeds give back its
Poisson's ratio and Young's modulus. The constants are not changed. -/
theorem C133_speeds (s : Sounding) (i : Nat) (p : Six) (hp : Isotropic p) (hread : ∀ k, read s.base i k = some (p.get k)) (given : Option ℝ) {d : ℝ} (hd : 0 < d)
    (hgiven : given = some d ∨ (given = none ∧ s.density i = some d)) :
    ∃ vs vp, (speeds s i given).1 = .ok (.fin vs, .fin vp) ∧ 0 < vs ∧ vs < vp ∧ d * vs ^ 2 = p.G ∧ d * vp ^ 2 = p.M ∧
      p.v = (vp ^ 2 - 2 * vs ^ 2) / (2 * (vp ^ 2 - vs ^ 2)) ∧ p.E = d * vs ^ 2 * (3 * vp ^ 2 - 4 * vs ^ 2) / (vp ^ 2 - vs ^ 2) ∧
      (speeds s i given).2.base = s.base ∧ (speeds s i given).2.density i = some d := by
  obtain ⟨hK, hG, hE, hv, -, hM⟩ := hp
  have hMp : 0 < p.M := by rw [hM]; positivity
  have hGM : p.G < p.M := by rw [hM]; linarith
  have root : ∀ c, 0 < c → rootOf c d = .fin (Real.sqrt (c / d)) := by
    intro c hc
    unfold rootOf
    rw [if_neg hd.ne', if_neg (not_lt.mpr (div_pos hc hd).le)]
  have hs2 : d * Real.sqrt (p.G / d) ^ 2 = p.G := by
    rw [Real.sq_sqrt (div_pos hG hd).le]
    field_simp
  have hp2 : d * Real.sqrt (p.M / d) ^ 2 = p.M := by
    rw [Real.sq_sqrt (div_pos hMp hd).le]
    field_simp
  have hs2' : Real.sqrt (p.G / d) ^ 2 = p.G / d := Real.sq_sqrt (div_pos hG hd).le
  have hp2' : Real.sqrt (p.M / d) ^ 2 = p.M / d := Real.sq_sqrt (div_pos hMp hd).le
  have call : (speeds s i given).1 = .ok (.fin (Real.sqrt (p.G / d)), .fin (Real.sqrt (p.M / d))) ∧ (speeds s i given).2.base = s.base ∧
      (speeds s i given).2.density i = some d := by
    have hg := hread .G
    have hm := hread .M
    unfold speeds
    rcases hgiven with rfl | ⟨rfl, h⟩
    · simp only [Function.update_self]
      rw [hg, hm]
      exact ⟨by rw [← root _ hG, ← root _ hMp]; rfl, rfl, by simp⟩
    · simp only [h]
      rw [hg, hm]
      exact ⟨by rw [← root _ hG, ← root _ hMp]; rfl, rfl, h⟩
  have hdiff : p.M - p.G ≠ 0 := by linarith
  have h3 : 3 * p.K + p.G ≠ 0 := by positivity
  refine ⟨_, _, call.1, Real.sqrt_pos.mpr (div_pos hG hd), Real.sqrt_lt_sqrt (div_pos hG hd).le (by gcongr), hs2, hp2, ?_, ?_, call.2⟩
  · rw [hs2', hp2', hv]
    have e1 : (p.M / d - 2 * (p.G / d)) / (2 * (p.M / d - p.G / d)) = (p.M - 2 * p.G) / (2 * (p.M - p.G)) := by
      have : p.M / d - p.G / d = (p.M - p.G) / d := by ring
      rw [this]
      field_simp
    rw [e1, hM]
    have h5 : p.K + 4 * p.G / 3 - p.G ≠ 0 := by rw [← hM]; exact hdiff
    rw [div_eq_div_iff (by positivity) (mul_ne_zero two_ne_zero h5)]
    ring
  · rw [hs2, hs2', hp2', hE]
    have e1 : p.G * (3 * (p.M / d) - 4 * (p.G / d)) / (p.M / d - p.G / d) = p.G * (3 * p.M - 4 * p.G) / (p.M - p.G) := by
      have : p.M / d - p.G / d = (p.M - p.G) / d := by ring
      rw [this]
      field_simp
    rw [e1, hM]
    have h5 : p.K + 4 * p.G / 3 - p.G ≠ 0 := by rw [← hM]; exact hdiff
    rw [div_eq_div_iff h3 h5]
    ring

example : ∃ (s : Sounding) (p : Six), Isotropic p ∧ (∀ k, read s.base 0 k = some (p.get k)) ∧ s.density 0 = some 2 :=
  ⟨⟨{ State.init with own := fun _ => some fun k => some ((⟨5, 15 / 2, 1 / 4, 3, 9, 3⟩ : Six).get k) }, fun _ => some 2⟩, ⟨5, 15 / 2, 1 / 4, 3, 9, 3⟩,
    ⟨by norm_num, by norm_num, by norm_num, by norm_num, by norm_num, by norm_num⟩, fun _ => rfl, rfl⟩

/-- A call without density after a call with density gives the same; other materials keep their densities. -/
theorem C133_density_remembered (s : Sounding) (i : Nat) (d : ℝ) : speeds (speeds s i (some d)).2 i none = speeds s i (some d) ∧
    ∀ j, j ≠ i → (speeds s i (some d)).2.density j = s.density j ∧ ∀ g, (speeds (speeds s i (some d)).2 j g).1 = (speeds s j g).1 := by
  have hst : (speeds s i (some d)).2 = { s with density := Function.update s.density i (some d) } := by
    unfold speeds
    simp only [Function.update_self]
    split <;> rfl
  constructor
  · rw [hst]
    unfold speeds
    simp only [Function.update_self]
  · intro j hj
    rw [hst]
    refine ⟨Function.update_of_ne hj _ _, ?_⟩
    intro g
    unfold speeds
    cases g with
    | none =>
      simp only [Function.update_of_ne hj]
      cases s.density j with
      | none => rfl
      | some _ => dsimp only; split <;> rfl
    | some e =>
      simp only [Function.update_self]
      split <;> rfl

/-- Without a density the call is refused and changes nothing; a material of which one constant is known has no speeds. -/
theorem C133_missing (s : Sounding) (i : Nat) : (s.density i = none → speeds s i none = (.error .valueError, s)) ∧
    ∀ d, (read s.base i .G = none ∨ read s.base i .M = none) → (speeds s i (some d)).1 = .error .typeError := by
  constructor
  · intro h
    unfold speeds
    simp only [h]
  · intro d h
    unfold speeds
    simp only [Function.update_self]
    rcases h with h | h
    · rw [h]
    · rw [h]
      cases read s.base i .G <;> rfl

example : ∃ s : Sounding, s.density 0 = none ∧ read s.base 0 .G = none := ⟨⟨State.init, fun _ => none⟩, rfl, rfl⟩

/-- **C133**: a new material has no density, whatever the history of other materials. -/
theorem C133_new_material (s : Sounding) (i : Nat) (props : List (String × ℝ)) : (speeds (stepSound s (.new i props)) i none).1 = .error .valueError := by
  rw [(C133_missing _ i).1 (by simp [stepSound])]

/-- **C133 (negation)**: a density of zero or a negative one is accepted, also for later calls. -/
theorem C133_density_wrong (s : Sounding) (i : Nat) (p : Six) (hp : Isotropic p) (hread : ∀ k, read s.base i k = some (p.get k)) {d : ℝ} (hd : d ≤ 0) :
    ∃ a b, (speeds s i (some d)).1 = .ok (a, b) ∧ (∀ x, a ≠ .fin x) ∧ (∀ x, b ≠ .fin x) ∧ (speeds (speeds s i (some d)).2 i none).1 = .ok (a, b) := by
  have hMp : 0 < p.M := by rw [hp.M_eq]; have := hp.K_pos; have := hp.G_pos; positivity
  have key : ∀ c, 0 < c → ∀ x, rootOf c d ≠ .fin x := by
    intro c hc x
    unfold rootOf
    by_cases h0 : d = 0
    · rw [if_pos h0, if_pos hc]
      simp
    · rw [if_neg h0, if_pos (div_neg_of_pos_of_neg hc (lt_of_le_of_ne hd h0))]
      simp
  have call : (speeds s i (some d)).1 = .ok (rootOf p.G d, rootOf p.M d) := by
    unfold speeds
    simp only [Function.update_self]
    rw [hread .G, hread .M]
    rfl
  refine ⟨_, _, call, key _ hp.G_pos, key _ hMp, ?_⟩
  rw [(C133_density_remembered s i d).1]
  exact call

example := C133_density_wrong ⟨{ State.init with own := fun _ => some fun k => some ((⟨5, 15 / 2, 1 / 4, 3, 9, 3⟩ : Six).get k) }, fun _ => some 2⟩ 0 ⟨5, 15 / 2, 1 / 4, 3, 9, 3⟩
  ⟨by norm_num, by norm_num, by norm_num, by norm_num, by norm_num, by norm_num⟩ (fun _ => rfl) (d := -1) (by norm_num)

end Verif.Elastic
