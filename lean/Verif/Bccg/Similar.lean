import Verif.Bccg.Props

/-!
# C164: similar contact problems

The same contact, expressed in other units of pressure and of length, is another call of `_fftw_bccg` (`slippy/contact/influence_matrix_utils.py` l.738-891). The model is that of
`Verif.Bccg.Model`; here two calls are compared.
-/

namespace Verif.Bccg

open Verif

variable {ι : Type} [Fintype ι]

/-- The number `a` in units that are `c` times smaller. -/
noncomputable def inUnits (c : ℝ) (a : XR) : XR := .fin c * a

section scale
variable {c d : ℝ}

@[simp] theorem inUnits_fin (x : ℝ) : inUnits c (.fin x) = .fin (c * x) := rfl
theorem inUnits_pinf (hc : 0 < c) : inUnits c .pinf = .pinf := by simp [inUnits, XR.mul_def, XR.mul, XR.signInf, hc]
theorem inUnits_ninf (hc : 0 < c) : inUnits c .ninf = .ninf := by simp [inUnits, XR.mul_def, XR.mul, XR.signInf, hc, hc.le]
@[simp] theorem inUnits_nan : inUnits c .nan = .nan := by simp [inUnits]

theorem signInf_mul (hc : 0 < c) (x : ℝ) : XR.signInf (c * x) = XR.signInf x := by
  have h1 : 0 < c * x ↔ 0 < x := mul_pos_iff_of_pos_left hc
  have h2 : c * x < 0 ↔ x < 0 := by constructor <;> intro h <;> nlinarith
  simp only [XR.signInf, h1, h2]

theorem inUnits_signInf (hc : 0 < c) (x : ℝ) : inUnits c (XR.signInf x) = XR.signInf x := by
  unfold XR.signInf
  split_ifs <;> simp [inUnits_pinf hc, inUnits_ninf hc]

theorem inUnits_neg (hc : 0 < c) (a : XR) : -inUnits c a = inUnits c (-a) := by
  cases a <;> simp [inUnits_pinf hc, inUnits_ninf hc, XR.neg_def, XR.neg]

theorem inUnits_add (hc : 0 < c) (a b : XR) : inUnits c a + inUnits c b = inUnits c (a + b) := by
  cases a <;> cases b <;> simp [inUnits_pinf hc, inUnits_ninf hc, XR.add_def, XR.add, mul_add]

theorem inUnits_sub (hc : 0 < c) (a b : XR) : inUnits c a - inUnits c b = inUnits c (a - b) := by
  have e : ∀ a b : XR, a - b = a + -b := fun _ _ => rfl
  rw [e, e, inUnits_neg hc, inUnits_add hc]

theorem inUnits_mul (hc : 0 < c) (hd : 0 < d) (a b : XR) : inUnits c a * inUnits d b = inUnits (c * d) (a * b) := by
  have hcd := mul_pos hc hd
  cases a <;> cases b <;> simp [inUnits_pinf hc, inUnits_ninf hc, inUnits_pinf hd, inUnits_ninf hd, inUnits_pinf hcd, inUnits_ninf hcd, XR.mul_def, XR.mul]
  · ring
  · rw [signInf_mul hc, inUnits_signInf hcd]
  · rw [← mul_neg, signInf_mul hc, inUnits_signInf hcd]
  · rw [signInf_mul hd, inUnits_signInf hcd]
  · rw [← mul_neg, signInf_mul hd, inUnits_signInf hcd]

theorem inUnits_one (a : XR) : inUnits 1 a = a := by
  cases a <;> simp [inUnits_pinf one_pos, inUnits_ninf one_pos]

theorem inUnits_mul_right (hc : 0 < c) (a b : XR) : inUnits c a * b = inUnits c (a * b) := by
  have := inUnits_mul hc one_pos a b
  rwa [inUnits_one, mul_one] at this

theorem inUnits_div (hc : 0 < c) (hd : 0 < d) (a b : XR) : inUnits c a / inUnits d b = inUnits (c / d) (a / b) := by
  have hcd := div_pos hc hd
  cases a <;> cases b <;> simp [inUnits_pinf hc, inUnits_ninf hc, inUnits_pinf hd, inUnits_ninf hd, XR.div_def, XR.div, hd.ne']
  · rename_i x y
    by_cases hy : y = 0
    · simp [hy, inUnits_signInf hcd, signInf_mul hc]
    · simp [hy]; field_simp
  · rename_i y
    have h2 : d * y < 0 ↔ y < 0 := by constructor <;> intro h <;> nlinarith
    by_cases hy : y < 0 <;> simp [h2, hy, inUnits_ninf hcd, inUnits_pinf hcd]
  · rename_i y
    have h2 : d * y < 0 ↔ y < 0 := by constructor <;> intro h <;> nlinarith
    by_cases hy : y < 0 <;> simp [h2, hy, inUnits_ninf hcd, inUnits_pinf hcd]

theorem inUnits_inUnits (hc : 0 < c) (hd : 0 < d) (a : XR) : inUnits c (inUnits d a) = inUnits (c * d) a := by
  have hcd := mul_pos hc hd
  cases a <;> simp [inUnits_pinf hc, inUnits_ninf hc, inUnits_pinf hd, inUnits_ninf hd, inUnits_pinf hcd, inUnits_ninf hcd, mul_assoc]

theorem inUnits_sqrt (hc : 0 < c) (a : XR) : XR.sqrt (inUnits (c * c) a) = inUnits c (XR.sqrt a) := by
  have hcc := mul_pos hc hc
  cases a <;> simp [inUnits_pinf hc, inUnits_pinf hcc, inUnits_ninf hcc, XR.sqrt]
  rename_i x
  have h2 : c * c * x < 0 ↔ x < 0 := by constructor <;> intro h <;> nlinarith
  by_cases hx : x < 0
  · simp [h2, hx]
  · simp only [h2, hx, if_false, inUnits_fin, XR.fin_inj]
    rw [Real.sqrt_mul (mul_self_nonneg c), Real.sqrt_mul_self hc.le]

theorem inUnits_sum (hc : 0 < c) (s : Finset ι) (f : ι → XR) : ∑ i ∈ s, inUnits c (f i) = inUnits c (∑ i ∈ s, f i) := by
  classical
  induction s using Finset.induction_on with
  | empty => simp [XR.zero_def]
  | insert a s ha ih => rw [Finset.sum_insert ha, Finset.sum_insert ha, ih, inUnits_add hc]

theorem inUnits_lt (hc : 0 < c) (a b : XR) : XR.lt (inUnits c a) (inUnits c b) = XR.lt a b := by
  cases a <;> cases b <;> simp [inUnits_pinf hc, inUnits_ninf hc, XR.lt, hc]

theorem inUnits_le (hc : 0 < c) (a b : XR) : XR.le (inUnits c a) (inUnits c b) = XR.le a b := by
  cases a <;> cases b <;> simp [inUnits_pinf hc, inUnits_ninf hc, XR.le, hc]

theorem inUnits_eq_nan (hc : 0 < c) (a : XR) : inUnits c a = .nan ↔ a = .nan := by
  cases a <;> simp [inUnits_pinf hc, inUnits_ninf hc]

open Classical in
theorem inUnits_clip (hc : 0 < c) (v lo hi : XR) :
    (exact (ι := ι)).clip (inUnits c v) (inUnits c lo) (inUnits c hi) = inUnits c ((exact (ι := ι)).clip v lo hi) := by
  have e : (if XR.lt (inUnits c v) (inUnits c lo) = true then inUnits c lo else inUnits c v) = inUnits c (if XR.lt v lo = true then lo else v) := by
    rw [inUnits_lt hc]; split_ifs <;> rfl
  show (if _ then _ else _) = inUnits c (if _ then _ else _)
  rw [e, inUnits_lt hc]
  by_cases h : v = .nan
  · rw [if_pos ((inUnits_eq_nan hc v).mpr h), if_pos h, inUnits_nan]
  · rw [if_neg (fun h' => h ((inUnits_eq_nan hc v).mp h')), if_neg h]
    split_ifs <;> rfl

end scale

/-- The call `a'` is the call `a` with pressures in units that are `l` times smaller and displacements in units that are `m` times smaller. The law of the bodies is homogeneous
(as every convolution is), and it is the same law. -/
structure SameContact (l m : ℝ) (a a' : Args XR ι) : Prop where
  law : ∀ u : ι → XR, a'.f (fun i => inUnits l (u i)) = fun i => inUnits m (a.f u i)
  homogeneous : ∀ c : ℝ, 0 < c → ∀ u : ι → XR, a.f (fun i => inUnits c (u i)) = fun i => inUnits c (a.f u i)
  b : ∀ i, a'.b i = inUnits m (a.b i)
  x0 : ∀ i, a'.x0 i = inUnits l (a.x0 i)
  minP : a'.minP = inUnits l a.minP
  maxP : ∀ i, a'.maxP i = inUnits l (a.maxP i)
  tol : a'.tol = a.tol
  maxIt : a'.maxIt = a.maxIt
  kInn : a'.kInn = a.kInn

/-- The same state of the run in the two systems of units. -/
structure SameState (l m : ℝ) (s s' : St XR ι) : Prop where
  x : s'.x = fun i => inUnits l (s.x i)
  g : s'.g = fun i => inUnits m (s.g i)
  r : s'.r = fun i => inUnits m (s.r i)
  p : s'.p = fun i => inUnits m (s.p i)
  rho : s'.rho = inUnits (m * m) s.rho
  msk0 : s'.msk0 = s.msk0
  mskMax : s'.mskMax = s.mskMax
  nFree : s'.nFree = s.nFree
  it : s'.it = s.it
  itInn : s'.itInn = s.itInn

theorem sameState_init {l m : ℝ} (hl : 0 < l) (hm : 0 < m) {a a' : Args XR ι} (h : SameContact l m a a') : SameState l m (init exact a) (init exact a') := by
  have ex : (init exact a').x = fun i => inUnits l ((init exact a).x i) := by
    funext i
    show (exact (ι := ι)).clip (a'.x0 i) a'.minP (a'.maxP i) = inUnits l ((exact (ι := ι)).clip (a.x0 i) a.minP (a.maxP i))
    rw [h.x0, h.minP, h.maxP, inUnits_clip hl]
  have eg : (init exact a').g = fun i => inUnits m ((init exact a).g i) := by
    funext i
    have e1 : (init exact a').g i = a'.f (init exact a').x i - a'.b i := rfl
    have e2 : (init exact a).g i = a.f (init exact a).x i - a.b i := rfl
    rw [e1, e2, ex, h.law, h.b, inUnits_sub hm]
  have z : ∀ c : ℝ, inUnits c (.fin 0) = .fin 0 := fun c => by simp
  have e0 : (init exact a').msk0 = (init exact a).msk0 := by
    funext i
    have e1 : (init exact a').msk0 i = (XR.le ((init exact a').x i) (.fin 0) && XR.le (.fin 0) ((init exact a').g i)) := rfl
    have e2 : (init exact a).msk0 i = (XR.le ((init exact a).x i) (.fin 0) && XR.le (.fin 0) ((init exact a).g i)) := rfl
    have h1 := inUnits_le hl ((init exact a).x i) (.fin 0)
    have h2 := inUnits_le hm (.fin 0) ((init exact a).g i)
    rw [z] at h1 h2
    rw [e1, e2, ex, eg, h1, h2]
  have eM : (init exact a').mskMax = (init exact a).mskMax := by
    funext i
    have e1 : (init exact a').mskMax i = (XR.le (a'.maxP i) ((init exact a').x i) && XR.le ((init exact a').g i) (.fin 0)) := rfl
    have e2 : (init exact a).mskMax i = (XR.le (a.maxP i) ((init exact a).x i) && XR.le ((init exact a).g i) (.fin 0)) := rfl
    have h2 := inUnits_le hm ((init exact a).g i) (.fin 0)
    rw [z] at h2
    rw [e1, e2, ex, eg, h2, h.maxP, inUnits_le hl]
  refine ⟨ex, eg, ?_, ?_, ?_, e0, eM, ?_, rfl, rfl⟩
  · funext i; exact (z m).symm
  · funext i; exact (z m).symm
  · exact (z _).symm
  · show freeCount (init exact a').msk0 (init exact a').mskMax = freeCount (init exact a).msk0 (init exact a).mskMax
    rw [e0, eM]

/-- The search part of an iteration in the two systems of units. -/
structure SameSearch (l m : ℝ) (c c' : Search XR ι) : Prop where
  r : c'.r = fun i => inUnits m (c.r i)
  rho : c'.rho = inUnits (m * m) c.rho
  p : c'.p = fun i => inUnits m (c.p i)
  q : c'.q = fun i => inUnits (m * m / l) (c.q i)
  alpha : c'.alpha = inUnits (l / m) c.alpha
  x : c'.x = fun i => inUnits l (c.x i)
  upd : c'.upd = c.upd

theorem dot_inUnits {c d : ℝ} (hc : 0 < c) (hd : 0 < d) (u v : ι → XR) :
    ∑ i, inUnits c (u i) * inUnits d (v i) = inUnits (c * d) (∑ i, u i * v i) := by
  rw [← inUnits_sum (mul_pos hc hd)]
  exact Finset.sum_congr rfl fun i _ => inUnits_mul hc hd _ _

theorem sameSearch {l m : ℝ} (hl : 0 < l) (hm : 0 < m) {a a' : Args XR ι} (h : SameContact l m a a') {s s' : St XR ι} (hs : SameState l m s s') :
    SameSearch l m (search exact a s) (search exact a' s') := by
  have z : ∀ c : ℝ, inUnits c (.fin 0) = .fin 0 := fun c => by simp
  have er : (search exact a' s').r = fun i => inUnits m ((search exact a s).r i) := by
    funext i
    have e1 : (search exact a' s').r i = if (s'.msk0 i || s'.mskMax i) = true then XR.fin 0 else -s'.g i := rfl
    have e2 : (search exact a s).r i = if (s.msk0 i || s.mskMax i) = true then XR.fin 0 else -s.g i := rfl
    rw [e1, e2, hs.msk0, hs.mskMax, hs.g]
    by_cases hb : (s.msk0 i || s.mskMax i) = true
    · rw [if_pos hb, if_pos hb, z]
    · rw [if_neg hb, if_neg hb, inUnits_neg hm]
  have erho : (search exact a' s').rho = inUnits (m * m) (search exact a s).rho := by
    have e1 : (search exact a' s').rho = ∑ i, (search exact a' s').r i * (search exact a' s').r i := rfl
    have e2 : (search exact a s).rho = ∑ i, (search exact a s).r i * (search exact a s).r i := rfl
    rw [e1, e2, er, dot_inUnits hm hm]
  have ep : (search exact a' s').p = fun i => inUnits m ((search exact a s).p i) := by
    funext i
    have e : ∀ (a : Args XR ι) (s : St XR ι), (search exact a s).p i = if (s.msk0 i || s.mskMax i) = true then XR.fin 0 else
        if 1 < s.it + 1 then (search exact a s).r i + (exact (ι := ι)).maxZero (((search exact a s).rho - ∑ i, (search exact a s).r i * s.r i) / s.rho) * s.p i
        else (search exact a s).r i := by
      intro a s
      by_cases h1 : 1 < s.it + 1
      · simp only [search, if_pos h1]; rfl
      · simp only [search, if_neg h1]; rfl
    have ebeta : ((search exact a' s').rho - ∑ i, (search exact a' s').r i * s'.r i) / s'.rho = ((search exact a s).rho - ∑ i, (search exact a s).r i * s.r i) / s.rho := by
      rw [er, hs.r, erho, hs.rho, dot_inUnits hm hm, inUnits_sub (mul_pos hm hm), inUnits_div (mul_pos hm hm) (mul_pos hm hm),
        div_self (mul_pos hm hm).ne', inUnits_one]
    rw [e, e, ebeta, hs.msk0, hs.mskMax, hs.it, er, hs.p]
    by_cases hb : (s.msk0 i || s.mskMax i) = true
    · rw [if_pos hb, if_pos hb, z]
    · rw [if_neg hb, if_neg hb]
      by_cases h1 : 1 < s.it + 1
      · rw [if_pos h1, if_pos h1, ← inUnits_add hm]
        congr 1
        have := inUnits_mul one_pos hm ((exact (ι := ι)).maxZero (((search exact a s).rho - ∑ i, (search exact a s).r i * s.r i) / s.rho)) (s.p i)
        rwa [inUnits_one, one_mul] at this
      · rw [if_neg h1, if_neg h1]
  have hml := div_pos hm hl
  have eq : (search exact a' s').q = fun i => inUnits (m * m / l) ((search exact a s).q i) := by
    funext i
    have e1 : (search exact a' s').q i = if (decide (s'.itInn + 1 < a'.kInn) && (s'.msk0 i || s'.mskMax i)) = true then XR.nan else a'.f (search exact a' s').p i := rfl
    have e2 : (search exact a s).q i = if (decide (s.itInn + 1 < a.kInn) && (s.msk0 i || s.mskMax i)) = true then XR.nan else a.f (search exact a s).p i := rfl
    have ef : a'.f (search exact a' s').p i = inUnits (m * m / l) (a.f (search exact a s).p i) := by
      have hu : (search exact a' s').p = fun i => inUnits l (inUnits (m / l) ((search exact a s).p i)) := by
        rw [ep]
        funext j
        rw [inUnits_inUnits hl hml, mul_div_cancel₀ _ hl.ne']
      rw [hu, h.law, h.homogeneous _ hml]
      beta_reduce
      rw [inUnits_inUnits hm hml, ← mul_div_assoc]
    rw [e1, e2, hs.itInn, h.kInn, hs.msk0, hs.mskMax, ef]
    split_ifs <;> simp
  have hq : 0 < m * m / l := div_pos (mul_pos hm hm) hl
  have ea : (search exact a' s').alpha = inUnits (l / m) (search exact a s).alpha := by
    have e1 : (search exact a' s').alpha = (∑ i, (search exact a' s').r i * (search exact a' s').p i) / ∑ i, (search exact a' s').p i * (search exact a' s').q i := rfl
    have e2 : (search exact a s).alpha = (∑ i, (search exact a s).r i * (search exact a s).p i) / ∑ i, (search exact a s).p i * (search exact a s).q i := rfl
    rw [e1, e2, er, ep, eq, dot_inUnits hm hm, dot_inUnits hm hq, inUnits_div (mul_pos hm hm) (mul_pos hm hq)]
    congr 1
    field_simp
  have ex : (search exact a' s').x = fun i => inUnits l ((search exact a s).x i) := by
    funext i
    have e1 : (search exact a' s').x i = s'.x i + (search exact a' s').alpha * (search exact a' s').p i := rfl
    have e2 : (search exact a s).x i = s.x i + (search exact a s).alpha * (search exact a s).p i := rfl
    rw [e1, e2, hs.x, ea, ep, inUnits_mul (div_pos hl hm) hm, div_mul_cancel₀ _ hm.ne', inUnits_add hl]
  have eu : (search exact a' s').upd = (search exact a s).upd := by
    have e : ∀ (a : Args XR ι) (s : St XR ι), (search exact a s).upd =
        XR.lt ((XR.sqrt (∑ i, ((search exact a s).x i - s.x i) * ((search exact a s).x i - s.x i)) / XR.sqrt (.fin s.nFree)) /
          (XR.sqrt (∑ i, (search exact a s).x i * (search exact a s).x i) / XR.sqrt (.fin s.nFree))) a.tol := fun _ _ => rfl
    have en : ∀ v : XR, inUnits l v / XR.sqrt (.fin s.nFree) = inUnits l (v / XR.sqrt (.fin s.nFree)) := by
      intro v
      have := inUnits_div hl one_pos v (XR.sqrt (.fin s.nFree))
      rwa [inUnits_one, div_one] at this
    have e3 : ∑ i, ((search exact a' s').x i - s'.x i) * ((search exact a' s').x i - s'.x i) =
        inUnits (l * l) (∑ i, ((search exact a s).x i - s.x i) * ((search exact a s).x i - s.x i)) := by
      rw [ex, hs.x, ← dot_inUnits hl hl]
      exact Finset.sum_congr rfl fun i _ => by beta_reduce; rw [inUnits_sub hl]
    have e4 : ∑ i, (search exact a' s').x i * (search exact a' s').x i = inUnits (l * l) (∑ i, (search exact a s).x i * (search exact a s).x i) := by
      rw [ex, dot_inUnits hl hl]
    rw [e a' s', e a s, e3, e4, inUnits_sqrt hl, inUnits_sqrt hl, hs.nFree, en, en, inUnits_div hl hl, div_self hl.ne', inUnits_one, h.tol]
  exact ⟨er, erho, ep, eq, ea, ex, eu⟩

/-- No pressure and no residual of this iteration is on one side of the fixed threshold 1e-14 in the one system of units and on its other side in the other. -/
structure Clear (l m : ℝ) (a : Args XR ι) (s : St XR ι) : Prop where
  pressure : ∀ i, XR.lt (inUnits l ((search exact a s).x i)) (.fin (-(1 / 10 ^ 14))) = XR.lt ((search exact a s).x i) (.fin (-(1 / 10 ^ 14)))
  low : ∀ i, XR.lt (inUnits m ((iterate exact a s).1.g i)) (.fin (-(1 / 10 ^ 14))) = XR.lt ((iterate exact a s).1.g i) (.fin (-(1 / 10 ^ 14)))
  high : ∀ i, XR.lt (.fin (1 / 10 ^ 14)) (inUnits m ((iterate exact a s).1.g i)) = XR.lt (.fin (1 / 10 ^ 14)) ((iterate exact a s).1.g i)

theorem sameIterate {l m : ℝ} (hl : 0 < l) (hm : 0 < m) {a a' : Args XR ι} (h : SameContact l m a a') {s s' : St XR ι} (hs : SameState l m s s') (hc : Clear l m a s) :
    SameState l m (iterate exact a s).1 (iterate exact a' s').1 ∧ (iterate exact a' s').2 = (iterate exact a s).2 := by
  have z : ∀ c : ℝ, inUnits c (.fin 0) = .fin 0 := fun c => by simp
  have sr := sameSearch hl hm h hs
  obtain ⟨hc1, hc2, hc3⟩ := hc
  unfold iterate at hc2 hc3 ⊢
  generalize search exact a s = c at *
  generalize search exact a' s' = c' at *
  have eo : outerB a' s' c' = outerB a s c := by
    unfold outerB
    rw [h.kInn, hs.itInn, sr.upd]
  have e0 : ∀ i, hit0 exact a' s' c' i = hit0 exact a s c i := by
    intro i
    have e : ∀ (a : Args XR ι) s c, hit0 exact a s c i = (outerB a s c && XR.lt (c.x i) (.fin (-(1 / 10 ^ 14)))) := fun _ _ _ => rfl
    rw [e, e, eo, sr.x, hc1]
  have e2 : ∀ i, x2 exact a' s' c' i = inUnits l (x2 exact a s c i) := by
    intro i
    unfold x2
    rw [e0, sr.x]
    by_cases hb : hit0 exact a s c i = true
    · rw [if_pos hb, if_pos hb]; exact (z l).symm
    · rw [if_neg hb, if_neg hb]
  have eM : ∀ i, hitM exact a' s' c' i = hitM exact a s c i := by
    intro i
    have e : ∀ (a : Args XR ι) s c, hitM exact a s c i = (outerB a s c && XR.le (a.maxP i * .fin (1 + 1 / 10 ^ 14)) (x2 exact a s c i)) := fun _ _ _ => rfl
    rw [e, e, eo, e2, h.maxP, inUnits_mul_right hl, inUnits_le hl]
  have ex : (project exact a' s' c').1.x = fun i => inUnits l ((project exact a s c).1.x i) := by
    funext i
    rw [project_x, project_x, eM, e2, h.maxP]
    split_ifs <;> rfl
  have hitInn : s'.itInn = s.itInn := hs.itInn
  have ech : (decide (∃ i, hit0 exact a' s' c' i = true) || decide (∃ i, hitM exact a' s' c' i = true)) =
      (decide (∃ i, hit0 exact a s c i = true) || decide (∃ i, hitM exact a s c i = true)) := by
    simp only [e0, eM]
  have eg : (project exact a' s' c').1.g = fun i => inUnits m ((project exact a s c).1.g i) := by
    have e : ∀ (a : Args XR ι) s c, (project exact a s c).1.g =
        if (decide (∃ i, hit0 exact a s c i = true) || decide (∃ i, hitM exact a s c i = true) || (outerB a s c && decide (1 < a.kInn))) = true then
          fun i => a.f (project exact a s c).1.x i - a.b i else fun i => s.g i + c.alpha * c.q i := fun _ _ _ => rfl
    rw [e a' s' c', e a s c, ech, eo, h.kInn, ex, h.law]
    split_ifs
    · funext i
      beta_reduce
      rw [h.b, inUnits_sub hm]
    · funext i
      beta_reduce
      rw [hs.g, sr.alpha, sr.q, inUnits_mul (div_pos hl hm) (div_pos (mul_pos hm hm) hl)]
      have : l / m * (m * m / l) = m := by field_simp
      rw [this, inUnits_add hm]
  let rel := fun (a : Args XR ι) (s : St XR ι) (c : Search XR ι) (i : ι) => outerB a s c &&
    (((s.msk0 i || hit0 exact a s c i) && XR.lt ((project exact a s c).1.g i) (.fin (-(1 / 10 ^ 14)))) ||
      ((s.mskMax i || hitM exact a s c i) && XR.lt (.fin (1 / 10 ^ 14)) ((project exact a s c).1.g i)))
  have erel : rel a' s' c' = rel a s c := by
    funext i
    simp only [rel]
    rw [eo, e0, eM, hs.msk0, hs.mskMax, eg, hc2, hc3]
  have em0 : (project exact a' s' c').1.msk0 = (project exact a s c).1.msk0 := by
    have e : ∀ (a : Args XR ι) s c, (project exact a s c).1.msk0 = fun i => (s.msk0 i || hit0 exact a s c i) && !rel a s c i := fun _ _ _ => rfl
    rw [e, e, erel, hs.msk0]
    simp only [e0]
  have emM : (project exact a' s' c').1.mskMax = (project exact a s c).1.mskMax := by
    have e : ∀ (a : Args XR ι) s c, (project exact a s c).1.mskMax = fun i => (s.mskMax i || hitM exact a s c i) && !rel a s c i := fun _ _ _ => rfl
    rw [e, e, erel, hs.mskMax]
    simp only [eM]
  have echg : (project exact a' s' c').2.changed = (project exact a s c).2.changed := by
    have e : ∀ (a : Args XR ι) s c, (project exact a s c).2.changed =
        (decide (∃ i, hit0 exact a s c i = true) || decide (∃ i, hitM exact a s c i = true) || decide (∃ i, rel a s c i = true)) := fun _ _ _ => rfl
    rw [e, e, ech, erel]
  have en : (project exact a' s' c').1.nFree = (project exact a s c).1.nFree := by
    have e : ∀ (a : Args XR ι) s c, (project exact a s c).1.nFree = if (project exact a s c).2.changed then
        freeCount (project exact a s c).1.msk0 (project exact a s c).1.mskMax else s.nFree := fun _ _ _ => rfl
    rw [e, e, echg, em0, emM, hs.nFree]
  refine ⟨⟨ex, eg, sr.r, sr.p, sr.rho, em0, emM, en, ?_, ?_⟩, ?_⟩
  · show s'.it + 1 = s.it + 1
    rw [hs.it]
  · show s'.itInn + 1 = s.itInn + 1
    rw [hs.itInn]
  · have e : ∀ (a : Args XR ι) s c, (project exact a s c).2 = ⟨outerB a s c, (project exact a s c).2.changed, c.upd⟩ := fun _ _ _ => rfl
    rw [e a' s' c', e a s c, eo, echg, sr.upd]

theorem its_gt (a : Args XR ι) (s : St XR ι) : s.it < (loop exact a s).its := by
  fun_induction loop exact a s with
  | case1 s n t stop h1 => show s.it < s.it + 1; omega
  | case2 s n t stop h1 h2 => show s.it < s.it + 1; omega
  | case3 s n t stop h1 h2 h3 => show s.it < s.it + 1; omega
  | case4 s n t h1 h2 h3 ih =>
    exact lt_trans (show s.it < s.it + 1 by omega) ih

/-- **C164, the solver in other units.** A contact given in other units of pressure and displacement is solved by the same iterations: the call ends after as many iterations, with the
same verdict, the same sets of bound nodes, and with the pressures and residuals of the original call expressed in the new units, provided that no pressure and no residual met on the
way passes the fixed threshold 1e-14 in one system of units and not in the other. -/
theorem C164_units_partial {l m : ℝ} (hl : 0 < l) (hm : 0 < m) {a a' : Args XR ι} (h : SameContact l m a a')
    (hc : ∀ n : ℕ, (n : ℤ) < (bccg exact a).its → Clear l m a ((next exact a)^[n] (init exact a))) :
    (∀ i, (bccg exact a').x i = inUnits l ((bccg exact a).x i)) ∧ (∀ i, (bccg exact a').g i = inUnits m ((bccg exact a).g i)) ∧
      (bccg exact a').failed = (bccg exact a).failed ∧ (bccg exact a').its = (bccg exact a).its ∧
      (bccg exact a').msk0 = (bccg exact a).msk0 ∧ (bccg exact a').mskMax = (bccg exact a).mskMax := by
  have main : ∀ s s' : St XR ι, SameState l m s s' → (∀ n : ℕ, s.it + n < (loop exact a s).its → Clear l m a ((next exact a)^[n] s)) →
      (∀ i, (loop exact a' s').x i = inUnits l ((loop exact a s).x i)) ∧ (∀ i, (loop exact a' s').g i = inUnits m ((loop exact a s).g i)) ∧
      (loop exact a' s').failed = (loop exact a s).failed ∧ (loop exact a' s').its = (loop exact a s).its ∧
      (loop exact a' s').msk0 = (loop exact a s).msk0 ∧ (loop exact a' s').mskMax = (loop exact a s).mskMax := by
    intro s
    fun_induction loop exact a s with
    | case1 s n t stop h1 =>
      intro s' hs hcl
      obtain ⟨hi, hf⟩ := sameIterate hl hm h hs (hcl 0 (by show s.it + ((0 : ℕ) : ℤ) < s.it + 1; simp))
      rw [loop]
      simp only [hi.nFree]
      rw [if_pos h1]
      exact ⟨fun i => congrFun hi.x i, fun i => congrFun hi.g i, rfl, hi.it, hi.msk0, hi.mskMax⟩
    | case2 s n t stop h1 h2 =>
      intro s' hs hcl
      obtain ⟨hi, hf⟩ := sameIterate hl hm h hs (hcl 0 (by show s.it + ((0 : ℕ) : ℤ) < s.it + 1; simp))
      rw [loop]
      simp only [hi.nFree, hi.it, h.maxIt]
      rw [if_neg h1, if_pos h2]
      exact ⟨fun i => congrFun hi.x i, fun i => congrFun hi.g i, rfl, rfl, hi.msk0, hi.mskMax⟩
    | case3 s n t stop h1 h2 h3 =>
      intro s' hs hcl
      obtain ⟨hi, hf⟩ := sameIterate hl hm h hs (hcl 0 (by show s.it + ((0 : ℕ) : ℤ) < s.it + 1; simp))
      rw [loop]
      simp only [hi.nFree, hi.it, h.maxIt, hf]
      rw [if_neg h1, if_neg h2, if_pos h3]
      exact ⟨fun i => congrFun hi.x i, fun i => congrFun hi.g i, rfl, rfl, hi.msk0, hi.mskMax⟩
    | case4 s n t h1 h2 h3 ih =>
      intro s' hs hcl
      have hlt0 : s.it + ((0 : ℕ) : ℤ) < (loop exact a { t with itInn := if n.2.outer = true then 0 else t.itInn }).its := by
        rw [Nat.cast_zero, add_zero]
        exact lt_trans (show s.it < s.it + 1 by omega) (its_gt a { t with itInn := if n.2.outer = true then 0 else t.itInn })
      obtain ⟨hi, hf⟩ := sameIterate hl hm h hs (hcl 0 hlt0)
      rw [loop]
      simp only [hi.nFree, hi.it, h.maxIt, hf]
      rw [if_neg h1, if_neg h2, if_neg h3]
      refine ih _ ⟨hi.x, hi.g, hi.r, hi.p, hi.rho, hi.msk0, hi.mskMax, rfl, rfl, ?_⟩ fun k => ?_
      · simp only [hi.itInn]
        rfl
      · intro hk
        have e : s.it + ((k + 1 : ℕ) : ℤ) = s.it + 1 + k := by push_cast; ring
        have := hcl (k + 1) (by rw [e]; exact hk)
        rwa [Function.iterate_succ_apply] at this
  exact main _ _ (sameState_init hl hm h) fun n hn => hc n (by
    have e : (init exact a).it = 0 := rfl
    rw [e, zero_add] at hn
    exact hn)

/-! ## Independent springs of compliance one -/

/-- A call for springs that do not know of each other. -/
structure Springs (a : Args XR ι) (b x : ι → ℝ) : Prop where
  acts : a.f = fun u => u
  rhs : ∀ i, a.b i = .fin (b i)
  max : ∀ i, a.maxP i = .pinf
  min : a.minP = .fin 0
  start : ∀ i, a.x0 i = .fin (x i)
  pos : ∀ i, 0 < x i
  inner : a.kInn = 1

theorem springs_init (a : Args XR ι) {b x : ι → ℝ} (h : Springs a b x) :
    init exact a = ⟨fun i => .fin (x i), fun i => .fin (x i - b i), fun _ => .fin 0, fun _ => .fin 0, .fin 0, fun _ => false, fun _ => false, Fintype.card ι, 0, 0⟩ := by
  have i1 : (init exact a).x = fun i => .fin (x i) := by
    funext i
    show (exact (ι := ι)).clip (a.x0 i) a.minP (a.maxP i) = .fin (x i)
    rw [h.start, h.min, h.max]
    simp [exact, XR.lt, not_lt.mpr (h.pos i).le]
  have i2 : (init exact a).g = fun i => .fin (x i - b i) := by
    have : (init exact a).g = fun i => a.f (init exact a).x i - a.b i := rfl
    rw [this, i1, h.acts]
    funext i
    rw [h.rhs]
    simp
  have i3 : (init exact a).msk0 = fun _ => false := by
    have : (init exact a).msk0 = fun i => XR.le ((init exact a).x i) (.fin 0) && XR.le (.fin 0) ((init exact a).g i) := rfl
    rw [this, i1]
    funext i
    simp [XR.le, h.pos i]
  have i4 : (init exact a).mskMax = fun _ => false := by
    have : (init exact a).mskMax = fun i => XR.le (a.maxP i) ((init exact a).x i) && XR.le ((init exact a).g i) (.fin 0) := rfl
    rw [this, i1]
    funext i
    rw [h.max]
    simp [XR.le]
  have i5 : (init exact a).nFree = Fintype.card ι := by
    have : (init exact a).nFree = freeCount (init exact a).msk0 (init exact a).mskMax := rfl
    rw [this, i3, i4]
    simp [freeCount]
  have : init exact a = ⟨(init exact a).x, (init exact a).g, fun _ => .fin 0, fun _ => .fin 0, .fin 0, (init exact a).msk0, (init exact a).mskMax, (init exact a).nFree, 0, 0⟩ := rfl
  rw [this, i1, i2, i3, i4, i5]

theorem springs_search [Nonempty ι] (a : Args XR ι) {b x : ι → ℝ} (h : Springs a b x) (hd : 0 < ∑ i, (b i - x i) * (b i - x i)) (hb : 0 < ∑ i, b i * b i) :
    (search exact a (init exact a)).r = (fun i => .fin (b i - x i)) ∧ (search exact a (init exact a)).rho = .fin (∑ i, (b i - x i) * (b i - x i)) ∧
      (search exact a (init exact a)).p = (fun i => .fin (b i - x i)) ∧ (search exact a (init exact a)).q = (fun i => .fin (b i - x i)) ∧
      (search exact a (init exact a)).alpha = .fin 1 ∧ (search exact a (init exact a)).x = (fun i => .fin (b i)) ∧
      (search exact a (init exact a)).upd = XR.lt (.fin (Real.sqrt (∑ i, (b i - x i) * (b i - x i)) / Real.sqrt (∑ i, b i * b i))) a.tol := by
  have hs := springs_init a h
  generalize init exact a = s at *
  have hr : (search exact a s).r = fun i => .fin (b i - x i) := by
    subst hs
    funext i
    simp [search, exact]
  have hp : (search exact a s).p = fun i => .fin (b i - x i) := by
    have : (search exact a s).p = fun i => if (s.msk0 i || s.mskMax i) = true then XR.fin 0 else (search exact a s).r i := by
      subst hs
      simp only [search, zero_add, lt_irrefl, if_false]
      rfl
    rw [this, hr]
    subst hs
    simp
  have hq : (search exact a s).q = fun i => .fin (b i - x i) := by
    have : (search exact a s).q = fun i => if (decide (s.itInn + 1 < a.kInn) && (s.msk0 i || s.mskMax i)) = true then XR.nan else a.f (search exact a s).p i := rfl
    rw [this, hp, h.acts]
    subst hs
    simp
  have hrho : (search exact a s).rho = .fin (∑ i, (b i - x i) * (b i - x i)) := by
    have : (search exact a s).rho = ∑ i, (search exact a s).r i * (search exact a s).r i := rfl
    rw [this, hr]
    simp only [XR.fin_mul, XR.sum_fin]
  have ha : (search exact a s).alpha = .fin 1 := by
    have : (search exact a s).alpha = (∑ i, (search exact a s).r i * (search exact a s).p i) / ∑ i, (search exact a s).p i * (search exact a s).q i := rfl
    rw [this, hr, hp, hq]
    simp only [XR.fin_mul, XR.sum_fin]
    rw [XR.fin_div _ hd.ne', div_self hd.ne']
  have hx : (search exact a s).x = fun i => .fin (b i) := by
    have : (search exact a s).x = fun i => s.x i + (search exact a s).alpha * (search exact a s).p i := rfl
    rw [this, ha, hp]
    subst hs
    funext i
    simp only [XR.fin_mul, XR.fin_add, XR.fin_inj]
    ring
  refine ⟨hr, hrho, hp, hq, ha, hx, ?_⟩
  have : (search exact a s).upd = XR.lt (XR.sqrt (∑ i, ((search exact a s).x i - s.x i) * ((search exact a s).x i - s.x i)) / XR.sqrt (.fin s.nFree) /
    (XR.sqrt (∑ i, (search exact a s).x i * (search exact a s).x i) / XR.sqrt (.fin s.nFree))) a.tol := rfl
  have hn : (0 : ℝ) < (((Fintype.card ι : ℕ) : ℤ) : ℝ) := by exact_mod_cast Fintype.card_pos
  have h1 : Real.sqrt (((Fintype.card ι : ℕ) : ℤ) : ℝ) ≠ 0 := (Real.sqrt_pos.mpr hn).ne'
  have h2 : Real.sqrt (∑ i, b i * b i) ≠ 0 := (Real.sqrt_pos.mpr hb).ne'
  rw [this, hx, hs]
  simp only [XR.fin_sub, XR.fin_mul, XR.sum_fin, XR.sqrt, if_neg hd.le.not_gt, if_neg hb.le.not_gt, if_neg hn.le.not_gt]
  rw [XR.fin_div _ h1, XR.fin_div _ h1, XR.fin_div _ (div_ne_zero h2 h1)]
  congr 2
  field_simp

/-- Two springs, one pressed by `c`, the other pulled by `c / 10^15`, started close to that, with the tolerance 1e-3. -/
noncomputable def pulled (c : ℝ) (maxIt : ℤ) : Args XR Bool where
  f u := u
  b i := .fin (bif i then c else -(c / 10 ^ 15))
  tol := .fin (1 / 1000)
  maxIt := maxIt
  x0 i := .fin (bif i then c * (1 + 1 / 10 ^ 4) else c / 10 ^ 15)
  minP := .fin 0
  maxP _ := .pinf
  kInn := 1

theorem pulled_springs {c : ℝ} (hc : 0 < c) (n : ℤ) :
    Springs (pulled c n) (fun i => bif i then c else -(c / 10 ^ 15)) (fun i => bif i then c * (1 + 1 / 10 ^ 4) else c / 10 ^ 15) :=
  ⟨rfl, fun _ => rfl, fun _ => rfl, rfl, fun _ => rfl, fun i => by cases i <;> simp <;> positivity, rfl⟩

/-- The two calls are the same contact. -/
theorem pulled_same {c d : ℝ} (hd : 0 < d) (n : ℤ) : SameContact d d (pulled c n) (pulled (d * c) n) where
  law _ := rfl
  homogeneous _ _ _ := rfl
  b i := by cases i <;> simp [pulled, inUnits]; ring
  x0 i := by cases i <;> simp [pulled, inUnits] <;> ring
  minP := by simp [pulled]
  maxP i := (inUnits_pinf hd).symm
  tol := rfl
  maxIt := rfl
  kInn := rfl

theorem pulled_search {c : ℝ} (hc : 0 < c) (n : ℤ) :
    (∃ rho : ℝ, rho ≠ 0 ∧ (search exact (pulled c n) (init exact (pulled c n))).rho = .fin rho) ∧
      (∃ r : Bool → ℝ, (search exact (pulled c n) (init exact (pulled c n))).r = fun i => .fin (r i)) ∧
      (∃ p : Bool → ℝ, (search exact (pulled c n) (init exact (pulled c n))).p = fun i => .fin (p i)) ∧
      (∀ i, (init exact (pulled c n)).g i + (search exact (pulled c n) (init exact (pulled c n))).alpha * (search exact (pulled c n) (init exact (pulled c n))).q i = .fin 0) ∧
      (search exact (pulled c n) (init exact (pulled c n))).x = (fun i => .fin (bif i then c else -(c / 10 ^ 15))) ∧
      (search exact (pulled c n) (init exact (pulled c n))).upd = true := by
  have h := pulled_springs hc n
  have h1 : ∑ i : Bool, ((bif i then c else -(c / 10 ^ 15)) - (bif i then c * (1 + 1 / 10 ^ 4) else c / 10 ^ 15)) *
      ((bif i then c else -(c / 10 ^ 15)) - (bif i then c * (1 + 1 / 10 ^ 4) else c / 10 ^ 15)) = c ^ 2 * (1 / 10 ^ 8 + 4 / 10 ^ 30) := by
    simp only [Fintype.sum_bool, cond_true, cond_false]
    ring
  have h2 : ∑ i : Bool, (bif i then c else -(c / 10 ^ 15)) * (bif i then c else -(c / 10 ^ 15)) = c ^ 2 * (1 + 1 / 10 ^ 30) := by
    simp only [Fintype.sum_bool, cond_true, cond_false]
    ring
  have p1 : 0 < c ^ 2 * (1 / 10 ^ 8 + 4 / 10 ^ 30) := by positivity
  have p2 : 0 < c ^ 2 * (1 + 1 / 10 ^ 30) := by positivity
  obtain ⟨hr, hrho, hp, hq, ha, hx, hu⟩ := springs_search (pulled c n) h (by rw [h1]; exact p1) (by rw [h2]; exact p2)
  refine ⟨⟨_, ?_, hrho⟩, ⟨_, hr⟩, ⟨_, hp⟩, ?_, hx, ?_⟩
  · rw [h1]; exact p1.ne'
  · intro i
    rw [ha, hq, springs_init _ h]
    simp
  · rw [hu, h1, h2]
    show XR.lt _ (.fin (1 / 1000)) = true
    rw [XR.lt_fin, div_lt_iff₀ (Real.sqrt_pos.mpr p2)]
    have e : (1 / 1000 : ℝ) * Real.sqrt (c ^ 2 * (1 + 1 / 10 ^ 30)) = Real.sqrt ((1 / 1000) ^ 2 * (c ^ 2 * (1 + 1 / 10 ^ 30))) := by
      rw [Real.sqrt_mul (show (0 : ℝ) ≤ (1 / 1000) ^ 2 by positivity), Real.sqrt_sq (by norm_num)]
    rw [e]
    apply Real.sqrt_lt_sqrt p1.le
    have : 0 < c ^ 2 := by positivity
    nlinarith

/-- The residual after an iteration. -/
theorem residual_after (a : Args XR ι) (s : St XR ι) (c : Search XR ι) (ch : Bool) (h : ch = true ↔ ∃ i, hit0 exact a s c i = true ∨ hitM exact a s c i = true) :
    (project exact a s c).1.g = if (ch || (outerB a s c && decide (1 < a.kInn))) = true then fun i => a.f (project exact a s c).1.x i - a.b i
      else fun i => s.g i + c.alpha * c.q i := by
  have e : (project exact a s c).1.g =
      if (decide (∃ i, hit0 exact a s c i = true) || decide (∃ i, hitM exact a s c i = true) || (outerB a s c && decide (1 < a.kInn))) = true then
        fun i => a.f (project exact a s c).1.x i - a.b i else fun i => s.g i + c.alpha * c.q i := rfl
  have e2 : (decide (∃ i, hit0 exact a s c i = true) || decide (∃ i, hitM exact a s c i = true)) = ch := by
    rw [Bool.eq_iff_iff, h, Bool.or_eq_true, decide_eq_true_iff, decide_eq_true_iff, exists_or]
  rw [e, e2]

/-- Whether an iteration changes the sets of bound nodes. -/
theorem project_changed (a : Args XR ι) (s : St XR ι) (c : Search XR ι) (ch : Bool) (h : ch = true ↔ ∃ i, hit0 exact a s c i = true ∨ hitM exact a s c i = true)
    (hrel : ∀ i, (outerB a s c && (((s.msk0 i || hit0 exact a s c i) && XR.lt ((project exact a s c).1.g i) (.fin (-(1 / 10 ^ 14)))) ||
      ((s.mskMax i || hitM exact a s c i) && XR.lt (.fin (1 / 10 ^ 14)) ((project exact a s c).1.g i)))) = false) : (project exact a s c).2.changed = ch := by
  have e : (project exact a s c).2.changed = (decide (∃ i, hit0 exact a s c i = true) || decide (∃ i, hitM exact a s c i = true) ||
      decide (∃ i, (outerB a s c && (((s.msk0 i || hit0 exact a s c i) && XR.lt ((project exact a s c).1.g i) (.fin (-(1 / 10 ^ 14)))) ||
      ((s.mskMax i || hitM exact a s c i) && XR.lt (.fin (1 / 10 ^ 14)) ((project exact a s c).1.g i)))) = true)) := rfl
  have e2 : (decide (∃ i, hit0 exact a s c i = true) || decide (∃ i, hitM exact a s c i = true)) = ch := by
    rw [Bool.eq_iff_iff, h, Bool.or_eq_true, decide_eq_true_iff, decide_eq_true_iff, exists_or]
  rw [e, e2, decide_eq_false (by rintro ⟨i, hi⟩; rw [hrel i] at hi; cases hi), Bool.or_false]

/-- The first iteration of the two springs; the pulled one is projected if it is pulled by more than 1e-14. -/
theorem pulled_iterate {c : ℝ} (hc : 0 < c) (n : ℤ) (big : Bool) (hbig : big = true ↔ 1 / 10 ^ 14 < c / 10 ^ 15) :
    (∀ i, (iterate exact (pulled c n) (init exact (pulled c n))).1.x i = .fin (bif i then c else bif big then 0 else -(c / 10 ^ 15))) ∧
      (∀ i, (iterate exact (pulled c n) (init exact (pulled c n))).1.g i = .fin (bif i then 0 else bif big then c / 10 ^ 15 else 0)) ∧
      (∀ i, (iterate exact (pulled c n) (init exact (pulled c n))).1.msk0 i = (big && !i)) ∧
      (∀ i, (iterate exact (pulled c n) (init exact (pulled c n))).1.mskMax i = false) ∧
      (iterate exact (pulled c n) (init exact (pulled c n))).1.nFree = (if big then 1 else 2) ∧
      (iterate exact (pulled c n) (init exact (pulled c n))).2 = ⟨true, big, true⟩ := by
  obtain ⟨-, -, -, hg, hx, hu⟩ := pulled_search hc n
  have hi := springs_init _ (pulled_springs hc n)
  unfold iterate
  generalize search exact (pulled c n) (init exact (pulled c n)) = t at *
  have im0 : ∀ i, (init exact (pulled c n)).msk0 i = false := fun i => by rw [hi]
  have imM : ∀ i, (init exact (pulled c n)).mskMax i = false := fun i => by rw [hi]
  have inn : (init exact (pulled c n)).nFree = 2 := by rw [hi]; simp
  generalize init exact (pulled c n) = s at *
  have eo : outerB (pulled c n) s t = true := by simp [outerB, hu]
  have e0 : ∀ i, hit0 exact (pulled c n) s t i = (big && !i) := by
    intro i
    have e : hit0 exact (pulled c n) s t i = (outerB (pulled c n) s t && XR.lt (t.x i) (.fin (-(1 / 10 ^ 14)))) := rfl
    rw [e, eo, hx]
    cases i
    · cases big
      · have : ¬ (1 / 10 ^ 14 < c / 10 ^ 15) := fun h => by simpa using hbig.mpr h
        simp only [XR.lt, cond_false, neg_lt_neg_iff, this]; simp
      · have : (1 / 10 ^ 14 < c / 10 ^ 15) := hbig.mp rfl
        simp only [XR.lt, cond_false, neg_lt_neg_iff, this]; simp
    · have : ¬ (c < -(1 / 10 ^ 14)) := by have : (0 : ℝ) < 1 / 10 ^ 14 := by positivity
                                          linarith
      simp only [XR.lt, cond_true, this]; simp
  have e2 : ∀ i, x2 exact (pulled c n) s t i = .fin (bif i then c else bif big then 0 else -(c / 10 ^ 15)) := by
    intro i
    unfold x2
    rw [e0, hx]
    cases i <;> cases big <;> simp [exact]
  have eM : ∀ i, hitM exact (pulled c n) s t i = false := by
    intro i
    have e : hitM exact (pulled c n) s t i = (outerB (pulled c n) s t && XR.le (.pinf * .fin (1 + 1 / 10 ^ 14)) (x2 exact (pulled c n) s t i)) := rfl
    have hp : XR.pinf * .fin (1 + 1 / 10 ^ 14) = .pinf := by
      simp only [XR.mul_def, XR.mul, XR.signInf]
      rw [if_pos (by positivity)]
    rw [e, hp, e2]
    simp [XR.le]
  have ex : (project exact (pulled c n) s t).1.x = fun i => .fin (bif i then c else bif big then 0 else -(c / 10 ^ 15)) := by
    funext i
    rw [project_x, eM, e2]
    rfl
  have ech : big = true ↔ ∃ i, hit0 exact (pulled c n) s t i = true ∨ hitM exact (pulled c n) s t i = true := by
    simp only [e0, eM]
    cases big <;> simp
  have eg : (project exact (pulled c n) s t).1.g = fun i => .fin (bif i then 0 else bif big then c / 10 ^ 15 else 0) := by
    have ek : decide (1 < (pulled c n).kInn) = false := rfl
    rw [residual_after _ _ _ _ ech, ek, ex]
    cases big
    · simp only [Bool.and_false, Bool.or_false, Bool.false_eq_true, if_false]
      funext i
      rw [hg]
      cases i <;> rfl
    · simp only [Bool.true_or, if_true]
      funext i
      cases i <;> simp [pulled]
  have erel : ∀ i, (outerB (pulled c n) s t && (((s.msk0 i || hit0 exact (pulled c n) s t i) && XR.lt ((project exact (pulled c n) s t).1.g i) (.fin (-(1 / 10 ^ 14)))) ||
      ((s.mskMax i || hitM exact (pulled c n) s t i) && XR.lt (.fin (1 / 10 ^ 14)) ((project exact (pulled c n) s t).1.g i)))) = false := by
    intro i
    have h1 : 0 ≤ (bif i then 0 else bif big then c / 10 ^ 15 else 0) := by
      have : 0 < c / 10 ^ 15 := by positivity
      cases i <;> cases big <;> simp <;> positivity
    have h2 : ¬ ((bif i then 0 else bif big then c / 10 ^ 15 else 0) < -(1 / 10 ^ 14)) := by
      have : (0 : ℝ) < 1 / 10 ^ 14 := by positivity
      linarith
    rw [eM, imM, eg]
    simp only [XR.lt, h2]
    simp
  have em0 : ∀ i, (project exact (pulled c n) s t).1.msk0 i = (big && !i) := by
    intro i
    have e : (project exact (pulled c n) s t).1.msk0 i = ((s.msk0 i || hit0 exact (pulled c n) s t i) && !(outerB (pulled c n) s t &&
        (((s.msk0 i || hit0 exact (pulled c n) s t i) && XR.lt ((project exact (pulled c n) s t).1.g i) (.fin (-(1 / 10 ^ 14)))) ||
      ((s.mskMax i || hitM exact (pulled c n) s t i) && XR.lt (.fin (1 / 10 ^ 14)) ((project exact (pulled c n) s t).1.g i))))) := rfl
    rw [e, erel, im0, e0]
    simp
  have emM : ∀ i, (project exact (pulled c n) s t).1.mskMax i = false := by
    intro i
    have e : (project exact (pulled c n) s t).1.mskMax i = ((s.mskMax i || hitM exact (pulled c n) s t i) && !(outerB (pulled c n) s t &&
        (((s.msk0 i || hit0 exact (pulled c n) s t i) && XR.lt ((project exact (pulled c n) s t).1.g i) (.fin (-(1 / 10 ^ 14)))) ||
      ((s.mskMax i || hitM exact (pulled c n) s t i) && XR.lt (.fin (1 / 10 ^ 14)) ((project exact (pulled c n) s t).1.g i))))) := rfl
    rw [e, erel, imM, eM]
    rfl
  have echg : (project exact (pulled c n) s t).2.changed = big := project_changed _ _ _ _ ech erel
  refine ⟨fun i => congrFun ex i, fun i => congrFun eg i, em0, emM, ?_, ?_⟩
  · have e : (project exact (pulled c n) s t).1.nFree = if (project exact (pulled c n) s t).2.changed then
        freeCount (project exact (pulled c n) s t).1.msk0 (project exact (pulled c n) s t).1.mskMax else s.nFree := rfl
    rw [e, echg, inn, funext em0, funext emM]
    cases big
    · rfl
    · simp only [if_true, Bool.true_and]
      decide
  · have e : (project exact (pulled c n) s t).2 = ⟨outerB (pulled c n) s t, (project exact (pulled c n) s t).2.changed, t.upd⟩ := rfl
    rw [e, eo, echg, hu]

theorem loop_again (a : Args XR ι) (s : St XR ι) (h1 : ¬ (iterate exact a s).1.nFree = 0) (h2 : ¬ a.maxIt < (iterate exact a s).1.it)
    (h3 : ¬ ((iterate exact a s).2.outer && !(iterate exact a s).2.changed && (iterate exact a s).2.small) = true) : loop exact a s = loop exact a (next exact a s) := by
  rw [loop]
  simp only []
  rw [if_neg h1, if_neg h2, if_neg h3]
  rfl

/-- A state in which every node is bound or satisfied. -/
def Flat (s : St XR ι) : Prop :=
  (∀ i, (s.msk0 i || s.mskMax i) = true ∨ s.g i = .fin 0) ∧ (∃ p : ι → ℝ, s.p = fun i => .fin (p i)) ∧ (∃ r : ι → ℝ, s.r = fun i => .fin (r i)) ∧
    (∃ rho : ℝ, rho ≠ 0 ∧ s.rho = .fin rho) ∧ 1 ≤ s.it

theorem flat_search (a : Args XR ι) (s : St XR ι) (h : Flat s) (hk : a.kInn ≤ 1) (hi : 0 ≤ s.itInn) (hlin : a.f (fun _ => .fin 0) = fun _ => .fin 0) :
    ∀ i, (search exact a s).x i = .nan := by
  obtain ⟨hg, ⟨p, hp⟩, ⟨r, hr⟩, ⟨rho, hne, hrho⟩, hit⟩ := h
  have z : ∑ _i : ι, XR.fin 0 = .fin 0 := by rw [XR.sum_fin]; simp
  have e1 : (search exact a s).r = fun _ => .fin 0 := by
    funext i
    have : (search exact a s).r i = if (s.msk0 i || s.mskMax i) = true then XR.fin 0 else -s.g i := rfl
    rw [this]
    rcases hg i with hb | hb
    · rw [if_pos hb]
    · rw [hb]; simp
  have e2 : (search exact a s).p = fun _ => .fin 0 := by
    have hlt : 1 < s.it + 1 := by omega
    have : (search exact a s).p = fun i => if (s.msk0 i || s.mskMax i) = true then XR.fin 0 else
        (search exact a s).r i + (exact (ι := ι)).maxZero (((∑ i, (search exact a s).r i * (search exact a s).r i) - ∑ i, (search exact a s).r i * s.r i) / s.rho) * s.p i := by
      simp only [search, if_pos hlt]
      rfl
    rw [this, e1, hr, hrho, hp]
    funext i
    simp only [XR.fin_mul, mul_zero, zero_mul, z, XR.fin_sub, sub_zero, XR.fin_div _ hne, zero_div]
    simp [exact]
  have ea : (search exact a s).alpha = .nan := by
    have : (search exact a s).alpha = (∑ i, (search exact a s).r i * (search exact a s).p i) / ∑ i, (search exact a s).p i * (search exact a s).q i := rfl
    have eq : (search exact a s).q = fun i => if (decide (s.itInn + 1 < a.kInn) && (s.msk0 i || s.mskMax i)) = true then XR.nan else a.f (search exact a s).p i := rfl
    have hd : decide (s.itInn + 1 < a.kInn) = false := by simp; omega
    rw [this, eq, e1, e2, hlin, hd]
    simp only [Bool.false_and, Bool.false_eq_true, if_false, XR.fin_mul, mul_zero, z]
    simp [XR.div_def, XR.div, XR.signInf]
  intro i
  have : (search exact a s).x i = s.x i + (search exact a s).alpha * (search exact a s).p i := rfl
  rw [this, ea, XR.nan_mul, XR.add_nan]

/-- **C164, negation.** Two calls that are the same contact in units that differ by the factor 1000: the first ends as converged after one iteration and returns a negative pressure, the
second fails and returns `nan`, whatever the number of iterations it is allowed. The threshold 1e-14 below which a pressure is not projected is a fixed number and has no unit. -/
theorem C164_threshold_wrong (n : ℤ) (hn : 1 ≤ n) :
    SameContact 1000 1000 (pulled 1 n) (pulled 1000 n) ∧
      (bccg exact (pulled 1 n)).failed = false ∧ (bccg exact (pulled 1 n)).x false = .fin (-(1 / 10 ^ 15)) ∧ (bccg exact (pulled 1 n)).x true = .fin 1 ∧
      (bccg exact (pulled 1000 n)).failed = true ∧ ∀ i, (bccg exact (pulled 1000 n)).x i = .nan := by
  have hs := pulled_same (c := 1) (d := 1000) (by norm_num) n
  rw [mul_one] at hs
  have hit : ∀ c : ℝ, (iterate exact (pulled c n) (init exact (pulled c n))).1.it = 1 := fun _ => rfl
  have hmx : ∀ c : ℝ, (pulled c n).maxIt = n := fun _ => rfl
  refine ⟨hs, ?_⟩
  rw [← and_assoc, ← and_assoc]
  constructor
  · obtain ⟨hx, -, -, -, hf, hfl⟩ := pulled_iterate (c := 1) one_pos n false (by norm_num)
    unfold bccg
    rw [loop]
    simp only [hf, hit, hmx, hfl]
    rw [if_neg (by norm_num), if_neg (by omega), if_pos (by rfl)]
    refine ⟨⟨rfl, ?_⟩, ?_⟩
    · show (iterate exact (pulled 1 n) (init exact (pulled 1 n))).1.x false = _
      rw [hx]; simp
    · show (iterate exact (pulled 1 n) (init exact (pulled 1 n))).1.x true = _
      rw [hx]; simp
  · obtain ⟨hx, hg, h0, hM, hf, hfl⟩ := pulled_iterate (c := 1000) (by norm_num) n true (by norm_num)
    obtain ⟨⟨rho, hne, hrho⟩, ⟨r, hr⟩, ⟨p, hp⟩, -, -, -⟩ := pulled_search (c := 1000) (by norm_num) n
    have flat : Flat (next exact (pulled 1000 n) (init exact (pulled 1000 n))) := by
      refine ⟨fun i => ?_, ⟨p, hp⟩, ⟨r, hr⟩, ⟨rho, hne, hrho⟩, le_refl _⟩
      show ((iterate exact (pulled 1000 n) (init exact (pulled 1000 n))).1.msk0 i || (iterate exact (pulled 1000 n) (init exact (pulled 1000 n))).1.mskMax i) = true ∨
        (iterate exact (pulled 1000 n) (init exact (pulled 1000 n))).1.g i = .fin 0
      rw [h0, hg]
      cases i <;> simp
    have hinn : (next exact (pulled 1000 n) (init exact (pulled 1000 n))).itInn = 0 := by
      simp only [next, hfl, if_true]
    have e : bccg exact (pulled 1000 n) = loop exact (pulled 1000 n) (next exact (pulled 1000 n) (init exact (pulled 1000 n))) := by
      exact loop_again _ _ (by rw [hf]; norm_num) (by rw [hit, hmx]; omega) (by rw [hfl]; simp)
    have hk : (pulled 1000 n).kInn ≤ 1 := le_refl _
    have nans : ∀ s, (s = next exact (pulled 1000 n) (init exact (pulled 1000 n)) ∨ AllNan s) → ∀ i, (search exact (pulled 1000 n) s).x i = .nan := by
      intro s hs
      rcases hs with rfl | hs
      · exact flat_search _ _ flat hk hinn.ge rfl
      · intro i
        have : (search exact (pulled 1000 n) s).x i = s.x i + (search exact (pulled 1000 n) s).alpha * (search exact (pulled 1000 n) s).p i := rfl
        rw [this, hs i, XR.nan_add]
    obtain ⟨t, failed, hinv, el, -, -, hend⟩ := loop_last exact (pulled 1000 n) (fun s => s = next exact (pulled 1000 n) (init exact (pulled 1000 n)) ∨ AllNan s)
      (fun s hs => Or.inr (project_allNan _ s _ (nans s hs))) _ (Or.inl rfl)
    rw [e, el]
    constructor
    · rcases hend with ⟨h, -⟩ | ⟨-, -, -, -, -, hsm⟩
      · rw [h]; rfl
      · have : (iterate exact (pulled 1000 n) t).2.small = (search exact (pulled 1000 n) t).upd := rfl
        rw [this, upd_false_of_nan _ t (nans t hinv)] at hsm
        cases hsm
    · intro i
      exact project_allNan _ t _ (nans t hinv) i

/-- Hypotheses of `C164_units_partial`: the same two springs pulled by 1e-15 and by 2e-15; the only iteration has no pressure between the thresholds. -/
example (n : ℤ) (hn : 1 ≤ n) : SameContact 2 2 (pulled 1 n) (pulled 2 n) ∧ (bccg exact (pulled 1 n)).its = 1 ∧
    ∀ k : ℕ, (k : ℤ) < (bccg exact (pulled 1 n)).its → Clear 2 2 (pulled 1 n) ((next exact (pulled 1 n))^[k] (init exact (pulled 1 n))) := by
  have hs := pulled_same (c := 1) (d := 2) (by norm_num) n
  rw [mul_one] at hs
  obtain ⟨hx, hg, -, -, hf, hfl⟩ := pulled_iterate (c := 1) one_pos n false (by norm_num)
  obtain ⟨-, -, -, -, hsx, -⟩ := pulled_search (c := 1) one_pos n
  have hit : (iterate exact (pulled 1 n) (init exact (pulled 1 n))).1.it = 1 := rfl
  have hmx : (pulled 1 n).maxIt = n := rfl
  have its : (bccg exact (pulled 1 n)).its = 1 := by
    unfold bccg
    rw [loop]
    simp only [hf, hit, hmx, hfl]
    rw [if_neg (by norm_num), if_neg (by omega), if_pos (by rfl)]
  refine ⟨hs, its, fun k hk => ?_⟩
  have k0 : k = 0 := by rw [its] at hk; omega
  subst k0
  show Clear 2 2 (pulled 1 n) (init exact (pulled 1 n))
  refine ⟨fun i => ?_, fun i => ?_, fun i => ?_⟩
  · rw [hsx]
    cases i <;> simp [XR.lt] <;> norm_num
  · rw [hg]
    cases i <;> simp
  · rw [hg]
    cases i <;> simp

end Verif.Bccg
