import Verif.Bccg.Similar
import Verif.Bccg.OneNode
import Verif.InfMat.Lemmas

/-!
# C164: geometrically similar contacts of elastic bodies

The influence coefficients of `elastic_influence_matrix` (`slippy/contact/influence_matrix_utils.py` l.232-337, model `Verif.InfMat.coefficient`) in the solver of
`Verif.Bccg.Model`. The convolution is written as the sum it stands for (C04).
-/

namespace Verif.Bccg

open Verif

variable {ι : Type} [Fintype ι]

theorem sqrt_scaled {c : ℝ} (hc : 0 < c) (hx hy k n : ℝ) :
    Real.sqrt ((c * hy) ^ 2 * n ^ 2 + (c * hx) ^ 2 * k ^ 2) = c * Real.sqrt (hy ^ 2 * n ^ 2 + hx ^ 2 * k ^ 2) := by
  have e : (c * hy) ^ 2 * n ^ 2 + (c * hx) ^ 2 * k ^ 2 = c ^ 2 * (hy ^ 2 * n ^ 2 + hx ^ 2 * k ^ 2) := by ring
  rw [e, Real.sqrt_mul (sq_nonneg c), Real.sqrt_sq hc.le]

/-- **C164, coefficients.** A grid that is `c` times coarser on bodies that are `s` times stiffer has influence coefficients that are `c / s` times greater, for each component and for
one or two elastic bodies. -/
theorem C164_coefficients_partial {c s : ℝ} (hc : 0 < c) (hs : 0 < s) (comp : String) (hx hy G v : ℝ) (G2 v2 : Option ℝ) (x y : ℤ) :
    InfMat.coefficient comp (c * hx) (c * hy) (s * G) v (G2.map (s * ·)) v2 x y = (InfMat.coefficient comp hx hy G v G2 v2 x y).map (c / s * ·) := by
  have inv : ∀ k w g : ℝ, w / (k * Real.pi * (s * g)) = w / (k * Real.pi * g) / s := by
    intro k w g
    rw [show k * Real.pi * (s * g) = k * Real.pi * g * s by ring, div_div]
  have txz : InfMat.termXZ (c * hx) (c * hy) x y = c * InfMat.termXZ hx hy x y := by
    simp only [InfMat.termXZ]; ring
  have txy : InfMat.termXY (c * hx) (c * hy) x y = c * InfMat.termXY hx hy x y := by
    simp only [InfMat.termXY, sqrt_scaled hc]; ring
  have tzy : InfMat.termZY (c * hx) (c * hy) x y = c * InfMat.termZY hx hy x y := by
    simp only [InfMat.termZY]; ring
  unfold InfMat.coefficient
  rcases G2 with _ | G2 <;> rcases v2 with _ | v2 <;>
    simp only [Option.map_none, Option.map_some, Option.isSome_none, Option.isSome_some, Bool.false_eq_true, if_false, if_true, txz, txy, tzy, zero_mul, one_mul, add_zero, zero_div] <;>
    simp only [apply_ite (Option.map (c / s * ·)), Option.map_none, Option.map_some, inv] <;>
    (congr 1; · congr 1; ring) <;> (congr 1; · congr 1; ring) <;> (congr 1; · congr 1; ring) <;> (congr 1; · congr 1; ring) <;> (congr 1; · congr 1; ring) <;>
      (congr 1; · congr 1; ring)

/-- A normal contact of elastic half spaces: the displacement at a node is the sum of the pressures at all nodes times the coefficients for their offsets. -/
structure ElasticContact (a : Args XR ι) (hx hy G v : ℝ) (G2 v2 : Option ℝ) (px py : ι → ℤ) : Prop where
  law : ∃ K : ℤ → ℤ → ℝ, (∀ x y, InfMat.coefficient "zz" hx hy G v G2 v2 x y = some (K x y)) ∧
    a.f = fun u i => ∑ j, .fin (K (px j - px i) (py j - py i)) * u j

/-- **C164, similar bodies.** If all lengths of a contact of elastic bodies (grid spacing, profile and interference, which make up `b`) are multiplied by `c` and all moduli by `s`, with the
bounds and the start of the pressures multiplied by `s`, then it is the same contact in other units: the solver returns the pressures multiplied by `s` and the same verdict, under
the condition of `C164_units_partial` on the fixed threshold. -/
theorem C164_similar_bodies_partial {c s : ℝ} (hc : 0 < c) (hs : 0 < s) {a a' : Args XR ι} {hx hy G v : ℝ} {G2 v2 : Option ℝ} {px py : ι → ℤ}
    (h : ElasticContact a hx hy G v G2 v2 px py) (h' : ElasticContact a' (c * hx) (c * hy) (s * G) v (G2.map (s * ·)) v2 px py)
    (hb : ∀ i, a'.b i = inUnits c (a.b i)) (hx0 : ∀ i, a'.x0 i = inUnits s (a.x0 i)) (hmin : a'.minP = inUnits s a.minP) (hmax : ∀ i, a'.maxP i = inUnits s (a.maxP i))
    (htol : a'.tol = a.tol) (hit : a'.maxIt = a.maxIt) (hk : a'.kInn = a.kInn)
    (hcl : ∀ n : ℕ, (n : ℤ) < (bccg exact a).its → Clear s c a ((next exact a)^[n] (init exact a))) :
    (∀ i, (bccg exact a').x i = inUnits s ((bccg exact a).x i)) ∧ (bccg exact a').failed = (bccg exact a).failed ∧ (bccg exact a').msk0 = (bccg exact a).msk0 := by
  obtain ⟨K, hK, ef⟩ := h.law
  obtain ⟨K', hK', ef'⟩ := h'.law
  have eK : ∀ x y, K' x y = c / s * K x y := by
    intro x y
    have := C164_coefficients_partial hc hs "zz" hx hy G v G2 v2 x y
    rw [hK', hK] at this
    simpa using this
  have hcs := div_pos hc hs
  have same : SameContact s c a a' := by
    refine ⟨fun u => ?_, fun d hd u => ?_, hb, hx0, hmin, hmax, htol, hit, hk⟩
    · funext i
      rw [ef, ef', ← inUnits_sum hc]
      refine Finset.sum_congr rfl fun j _ => ?_
      beta_reduce
      rw [eK, ← inUnits_fin, inUnits_mul hcs hs, div_mul_cancel₀ _ hs.ne']
    · funext i
      rw [ef, ← inUnits_sum hd]
      refine Finset.sum_congr rfl fun j _ => ?_
      have := inUnits_mul one_pos hd (.fin (K (px j - px i) (py j - py i))) (u j)
      rwa [inUnits_one, one_mul] at this
  obtain ⟨h1, -, h3, -, h5, -⟩ := C164_units_partial hs hc same hcl
  exact ⟨h1, h3, h5⟩

/-- The coefficient of a node of a grid of spacing one on a body of shear modulus one that keeps its volume. -/
noncomputable def unitCoefficient (x y : ℤ) : ℝ := (1 - 0) / (2 * Real.pi * 1) * (1 * InfMat.termX x y + 1 * InfMat.termY x y)

/-- One node of a body of shear modulus one pressed by one, started at twice the solution; the modulus is `s` and the lengths are `c` in other units. -/
noncomputable def oneNode (c s : ℝ) : Args XR Unit where
  f u _ := .fin (c / s * unitCoefficient 0 0) * u ()
  b _ := .fin c
  tol := .fin (1 / 1000)
  maxIt := 0
  x0 _ := .fin (s * (2 / unitCoefficient 0 0))
  minP := .fin 0
  maxP _ := .pinf
  kInn := 1

theorem unitCoefficient_pos : 0 < unitCoefficient 0 0 := by
  have h := InfMat.terms_pos 0 0
  have : 0 < Real.pi := Real.pi_pos
  unfold unitCoefficient
  rw [one_mul, one_mul, sub_zero]
  positivity

/-- Hypotheses of `C164_similar_bodies_partial`: one node in two systems of units. -/
example {c s : ℝ} (hc : 0 < c) (hs : 0 < s) :
    ElasticContact (oneNode 1 1) 1 1 1 0 none none (fun _ => 0) (fun _ => 0) ∧ ElasticContact (oneNode c s) (c * 1) (c * 1) (s * 1) 0 none none (fun _ => 0) (fun _ => 0) ∧
      (∀ i, (oneNode c s).b i = inUnits c ((oneNode 1 1).b i)) ∧ (∀ i, (oneNode c s).x0 i = inUnits s ((oneNode 1 1).x0 i)) ∧ (oneNode c s).minP = inUnits s (oneNode 1 1).minP ∧
      (∀ i, (oneNode c s).maxP i = inUnits s ((oneNode 1 1).maxP i)) ∧
      ∀ n : ℕ, (n : ℤ) < (bccg exact (oneNode 1 1)).its → Clear s c (oneNode 1 1) ((next exact (oneNode 1 1))^[n] (init exact (oneNode 1 1))) := by
  have hK := unitCoefficient_pos
  have law : ∀ x y, InfMat.coefficient "zz" 1 1 1 0 none none x y = some (unitCoefficient x y) := by
    intro x y
    simp [InfMat.coefficient, unitCoefficient]
  refine ⟨⟨⟨unitCoefficient, law, ?_⟩⟩, ⟨⟨fun x y => c / s * unitCoefficient x y, fun x y => ?_, ?_⟩⟩, fun i => ?_, fun i => ?_, ?_, fun i => (inUnits_pinf hs).symm, ?_⟩
  · funext u i
    simp [oneNode]
  · have := C164_coefficients_partial hc hs "zz" 1 1 1 0 none none x y
    rw [law] at this
    exact this
  · funext u i
    simp [oneNode]
  · simp [oneNode]
  · simp [oneNode]
  · simp [oneNode]
  · intro n hn
    have one : OneSpring (oneNode 1 1) (unitCoefficient 0 0) 1 (2 / unitCoefficient 0 0) :=
      .ofZero (by positivity) (fun u => by funext i; simp [oneNode]) (by funext i; simp [oneNode]) rfl rfl (by funext i; simp [oneNode]) rfl
    have hx : 0 < 2 / unitCoefficient 0 0 := by positivity
    have hne : unitCoefficient 0 0 * (2 / unitCoefficient 0 0) ≠ 1 := by
      rw [mul_div_cancel₀ _ hK.ne']; norm_num
    have its : (bccg exact (oneNode 1 1)).its = 1 := by
      unfold bccg
      rw [loop]
      have e1 : (iterate exact (oneNode 1 1) (init exact (oneNode 1 1))).1.it = 1 := rfl
      have e2 : (oneNode 1 1).maxIt = 0 := rfl
      simp only [e1, e2]
      split_ifs <;> first | rfl | omega
    have n0 : n = 0 := by rw [its] at hn; omega
    subst n0
    obtain ⟨-, -, -, -, -, hsx, -⟩ := one_search _ one hK one_pos hne _ (one_init _ one hx)
    obtain ⟨hg, -⟩ := one_next _ one hK one_pos hx hne
    have hg' : ∀ i, (iterate exact (oneNode 1 1) (init exact (oneNode 1 1))).1.g i = .fin 0 := hg
    show Clear s c (oneNode 1 1) (init exact (oneNode 1 1))
    have t : (0 : ℝ) < 1 / 10 ^ 14 := by positivity
    have p1 : 0 < 1 / unitCoefficient 0 0 := by positivity
    have p2 : 0 < s * (1 / unitCoefficient 0 0) := by positivity
    refine ⟨fun i => ?_, fun i => ?_, fun i => ?_⟩
    · have q1 : ¬ (1 / unitCoefficient 0 0 < -(1 / 10 ^ 14)) := by linarith
      have q2 : ¬ (s * (1 / unitCoefficient 0 0) < -(1 / 10 ^ 14)) := by linarith
      rw [hsx]
      simp only [inUnits_fin, XR.lt, q1, q2]
    · rw [hg']
      simp
    · rw [hg']
      simp

/-- Concrete case of `C164_coefficients_partial`: two bodies, a grid twice as coarse and bodies three times as stiff. -/
example : InfMat.coefficient "zz" 2 2 6 (3 / 10) (some 9) (some (1 / 4)) 1 0 = (InfMat.coefficient "zz" 1 1 2 (3 / 10) (some 3) (some (1 / 4)) 1 0).map (2 / 3 * ·) := by
  have := C164_coefficients_partial (c := 2) (s := 3) (by norm_num) (by norm_num) "zz" 1 1 2 (3 / 10) (some 3) (some (1 / 4)) 1 0
  norm_num at this ⊢
  exact this

end Verif.Bccg
