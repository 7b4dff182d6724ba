import Verif.Tangential.Model
import Verif.Bccg.Props
import Mathlib.LinearAlgebra.Pi
import Mathlib.Tactic.FieldSimp
import Mathlib.Tactic.Linarith
import Mathlib.Tactic.Positivity
import Mathlib.Tactic.LinearCombination

/-!
# C89, C90: friction, pure sliding and partial slip
-/

namespace Verif.Tangential

open Verif Bccg

/-! ## C89: the limiting friction and pure sliding -/

/-- What pure sliding means: a force of the limiting size at each point, along `(a, b)` (`a` across the rows, `b` along them), the normal load unchanged. -/
def Slides {ι : Type} (a b : ℝ) (limit : ι → ℝ) (before after : Vec3 (ι → XR)) : Prop :=
  after.z = before.z ∧ ∃ fx fy : ι → ℝ, after.x = some (fun i => .fin (fx i)) ∧ after.y = some (fun i => .fin (fy i)) ∧
    ∀ i, fx i ^ 2 + fy i ^ 2 = limit i ^ 2 ∧ fx i * a = fy i * b ∧ (0 ≤ limit i → 0 ≤ fx i * b + fy i * a)

theorem normalise_eq {a b : ℝ} (h : a ≠ 0 ∨ b ≠ 0) : normalise a b = (.fin (a / √(a ^ 2 + b ^ 2)), .fin (b / √(a ^ 2 + b ^ 2))) := by
  have hp : 0 < a ^ 2 + b ^ 2 := by rcases h with h | h <;> positivity
  have hs : √(a ^ 2 + b ^ 2) ≠ 0 := (Real.sqrt_pos.mpr hp).ne'
  simp [normalise, XR.sqrt, not_lt.mpr hp.le, XR.div_def, XR.div, hs]

theorem normalise_zero : normalise 0 0 = (.nan, .nan) := by
  simp [normalise, XR.sqrt, XR.div_def, XR.div, XR.signInf]

theorem slides_of {ι : Type} {a b : ℝ} (h : a ≠ 0 ∨ b ≠ 0) (limit : ι → ℝ) (loads : Vec3 (ι → XR)) : Slides a b limit loads (pureSliding (normalise a b) limit loads) := by
  have hp : 0 < a ^ 2 + b ^ 2 := by rcases h with h | h <;> positivity
  have hs : 0 < √(a ^ 2 + b ^ 2) := Real.sqrt_pos.mpr hp
  have hq : √(a ^ 2 + b ^ 2) ^ 2 = a ^ 2 + b ^ 2 := Real.sq_sqrt hp.le
  rw [normalise_eq h]
  refine ⟨rfl, fun i => b / √(a ^ 2 + b ^ 2) * limit i, fun i => a / √(a ^ 2 + b ^ 2) * limit i, ?_, ?_, fun i => ⟨?_, ?_, fun hl => ?_⟩⟩
  · simp [pureSliding]
  · simp [pureSliding]
  · field_simp
    rw [hq]
    ring
  · ring
  · have : b / √(a ^ 2 + b ^ 2) * limit i * b + a / √(a ^ 2 + b ^ 2) * limit i * a = (a ^ 2 + b ^ 2) / √(a ^ 2 + b ^ 2) * limit i := by ring
    rw [this]
    positivity

/-- **C89 (partial)**: Coulomb friction followed by pure sliding along a direction that is not zero: at each point the tangential force has the size of the
coefficient times the normal load and acts along the direction. Missing: the zero vector, which is accepted. -/
theorem C89_pure_sliding_partial {ι : Type} (mu a b : ℝ) (h : a ≠ 0 ∨ b ≠ 0) (z : ι → ℝ) :
    ∃ limit d, coulomb mu ⟨none, none, some z⟩ = .ok limit ∧ slidingDirection (.vector [a, b]) = .ok d ∧ (∀ i, limit i = mu * z i) ∧
      Slides a b limit ⟨none, none, some fun i => .fin (z i)⟩ (pureSliding d limit ⟨none, none, some fun i => .fin (z i)⟩) :=
  ⟨_, _, rfl, rfl, fun i => mul_comm _ _, slides_of h _ _⟩

example : (3 : ℝ) ≠ 0 ∨ (4 : ℝ) ≠ 0 := by norm_num

/-- **C89**: loads in other directions that were there before are replaced. -/
theorem C89_replaces {ι : Type} (d : XR × XR) (limit : ι → ℝ) (l l' : Vec3 (ι → XR)) (h : l.z = l'.z) : pureSliding d limit l = pureSliding d limit l' := by
  simp [pureSliding, h]

example : (⟨some fun _ : Unit => .fin 1, none, none⟩ : Vec3 (Unit → XR)).z = (Vec3.empty : Vec3 (Unit → XR)).z := rfl

/-- **C89**: the names of the axes, in either case: `x` is `(0, 1)` and gives forces along x only. -/
theorem C89_names (s : String) :
    (s.toLower = "x" → slidingDirection (.name s) = slidingDirection (.vector [0, 1]) ∧ slidingDirection (.name s) = .ok (.fin 0, .fin 1)) ∧
    (s.toLower = "y" → slidingDirection (.name s) = slidingDirection (.vector [1, 0]) ∧ slidingDirection (.name s) = .ok (.fin 1, .fin 0)) ∧
    (s.toLower ≠ "x" → s.toLower ≠ "y" → slidingDirection (.name s) = .error .valueError) := by
  have e1 : normalise 0 1 = (.fin 0, .fin 1) := by rw [normalise_eq (Or.inr one_ne_zero)]; norm_num
  have e2 : normalise 1 0 = (.fin 1, .fin 0) := by rw [normalise_eq (Or.inl one_ne_zero)]; norm_num
  refine ⟨fun h => ?_, fun h => ?_, fun h1 h2 => ?_⟩
  · simp [slidingDirection, h, e1]
  · simp [slidingDirection, h, e2]
  · simp [slidingDirection, h1, h2]

/-- **C89**: other arguments are refused: vectors of any other length with `ValueError`, numbers with `TypeError`. -/
theorem C89_refused (l : List ℝ) (h : l.length ≠ 2) (d : ℝ) :
    slidingDirection (.vector l) = .error .valueError ∧ slidingDirection (.number d) = .error .typeError := by
  refine ⟨?_, rfl⟩
  match l, h with
  | [], _ => rfl
  | [_], _ => rfl
  | [_, _], h => simp at h
  | _ :: _ :: _ :: _, _ => rfl

example : ([1, 0, 0] : List ℝ).length ≠ 2 := by simp

/-- **C89 (negation)**: the zero vector is accepted and all tangential loads are `nan`. -/
theorem C89_zero_direction_wrong {ι : Type} (limit : ι → ℝ) (l : Vec3 (ι → XR)) :
    ∃ d, slidingDirection (.vector [0, 0]) = .ok d ∧ (pureSliding d limit l).x = some fun _ => .nan := by
  refine ⟨(.nan, .nan), by rw [slidingDirection, normalise_zero], ?_⟩
  simp [pureSliding]

/-- **C89 (negation)**: the documented condition that the coefficient is greater than zero is not checked: a negative coefficient gives negative limiting forces. -/
theorem C89_negative_coefficient_wrong : ∃ limit : Unit → ℝ, coulomb (-1) ⟨none, none, some fun _ => 2⟩ = .ok limit ∧ limit () < 0 :=
  ⟨fun _ => 2 * -1, rfl, by norm_num⟩

/-- **C89**: without normal loads `TypeError`. -/
theorem C89_no_normal_load {ι : Type} (mu : ℝ) (x y : Option (ι → ℝ)) : coulomb mu ⟨x, y, none⟩ = .error .typeError := rfl

/-! ## C90: partial slip -/

variable {ι : Type} [Fintype ι]

/-- **C90, bookkeeping.** If a displacement is prescribed the call succeeds, and: loads vanish outside of the contact, the other loads and displacements are
kept, the deformation is added to the total displacement; stick nodes are contact nodes below 99 % of the limit; there is no slip at stick nodes and outside
of the contact, and the slip elsewhere is the difference between prescribed displacement and deformation. -/
theorem C90_bookkeeping (c : Control) (dir : Dir) (s : State ι) (conv : (Domain s.contact → XR) → ι → XR) (imSum tol : ℝ) (maxIt : Option ℤ) (set : ι → ℝ)
    (h : prescribed c s = .ok set) :
    ∃ t full stick slip loads total, solve c dir s conv imSum tol maxIt = .ok t ∧ t.loads = some loads ∧ t.total = some total ∧ t.stick = some stick ∧ t.slip = some slip ∧
      loads.get dir = some full ∧ loads.z = (s.loads.getD Vec3.empty).z ∧ loads.get (match dir with | .x => .y | .y => .x) = (s.loads.getD Vec3.empty).get (match dir with | .x => .y | .y => .x) ∧
      total.z = (s.total.getD Vec3.empty).z ∧
      (∀ i, s.contact i = false → full i = .fin 0 ∧ stick i = false ∧ slip i = .fin 0) ∧
      (∀ i, stick i = true ↔ s.contact i = true ∧ XR.lt (full i) (.fin (99 / 100 * s.limit i)) = true) ∧
      (∀ i, stick i = true → slip i = .fin 0) ∧
      (∃ u : Domain s.contact → XR, (∀ i, full i.1 = u i) ∧
        (∀ i, s.contact i = true → stick i = false → slip i = .fin (set i) - conv u i) ∧
        ∀ i, (total.get dir).map (fun a => a i) = some (match (s.total.getD Vec3.empty).get dir with | some a => a i + conv u i | none => conv u i)) := by
  unfold solve
  rw [h]
  refine ⟨_, extend (bccg exact (problem s conv imSum tol maxIt set)).x, _, _, _, _, rfl, rfl, rfl, rfl, rfl, ?_, ?_, ?_, ?_, fun i hi => ?_, fun i => ?_, fun i hi => ?_,
    (bccg exact (problem s conv imSum tol maxIt set)).x, fun i => ?_, fun i hi hs => ?_, fun i => ?_⟩
  · cases dir <;> rfl
  · cases dir <;> rfl
  · cases dir <;> rfl
  · cases dir <;> rfl
  · simp [extend, hi]
  · simp
  · beta_reduce at hi ⊢
    rw [hi]
    rfl
  · simp [extend, i.2]
  · beta_reduce at hs ⊢
    rw [hs, hi]
    rfl
  · cases dir <;> simp only [Vec3.set, Vec3.get, Option.map_some] <;> generalize (s.total.getD Vec3.empty) = v <;> rcases v with ⟨_ | _, _ | _, _⟩ <;> rfl

/-- **C90 (partial)**: the tangential loads are within the limits up to the tolerance of the solver, as far as they are numbers. -/
theorem C90_limits_partial (c : Control) (dir : Dir) (s : State ι) (conv : (Domain s.contact → XR) → ι → XR) (imSum tol : ℝ) (maxIt : Option ℤ)
    (hl : ∀ i, s.contact i = true → 0 < s.limit i) {t : State ι} (ht : solve c dir s conv imSum tol maxIt = .ok t) {loads : Vec3 (ι → XR)} (hlo : t.loads = some loads)
    {full : ι → XR} (hf : loads.get dir = some full) (i : ι) (hi : s.contact i = true) {v : ℝ} (hv : full i = .fin v) :
    -(1 / 10 ^ 14) ≤ v ∧ v ≤ s.limit i * (1 + 1 / 10 ^ 14) := by
  unfold solve at ht
  cases hset : prescribed c s with
  | error e => rw [hset] at ht; cases ht
  | ok set =>
    rw [hset] at ht
    simp only [bind, Except.bind, Except.ok.injEq] at ht
    subst ht
    simp only [Option.some.injEq] at hlo
    subst hlo
    have hfull : full = extend (bccg exact (problem s conv imSum tol maxIt set)).x := by
      cases dir <;> simpa [Vec3.get, Vec3.set] using hf.symm
    subst hfull
    have hv' : (bccg exact (problem s conv imSum tol maxIt set)).x ⟨i, hi⟩ = .fin v := by
      simpa [extend, hi] using hv
    obtain ⟨h1, h2⟩ := C13_finite_pressures_admissible (problem s conv imSum tol maxIt set) (fun i => s.limit i.1)
      (fun i => Or.inr ⟨rfl, hl i.1 i.2⟩) (Or.inl le_rfl) ⟨i, hi⟩ v hv'
    exact ⟨h1, h2 rfl⟩

/-- The solver, when it is started where it ends. -/
theorem nan_of_solution (c : Control) (dir : Dir) (s : State ι) (conv : (Domain s.contact → XR) → ι → XR) (imSum tol : ℝ) (maxIt : Option ℤ) (set : ι → ℝ)
    (h : prescribed c s = .ok set) (x : Domain s.contact → ℝ) (hx : (init exact (problem s conv imSum tol maxIt set)).x = fun i => .fin (x i))
    (hs : Solves (problem s conv imSum tol maxIt set).f (fun i => set i.1) (problem s conv imSum tol maxIt set).maxP x) :
    ∃ t full stick slip loads, solve c dir s conv imSum tol maxIt = .ok t ∧ t.loads = some loads ∧ loads.get dir = some full ∧ t.stick = some stick ∧ t.slip = some slip ∧
      (∀ i, s.contact i = true → full i = .nan) ∧ ∀ i, stick i = false := by
  have hn : ∀ i : Domain s.contact, (bccg exact (problem s conv imSum tol maxIt set)).x i = .nan := fun i => by
    haveI : Nonempty (Domain s.contact) := ⟨i⟩
    exact (start_fails (problem s conv imSum tol maxIt set) x (fun i => set i.1) rfl hx hs).2 i
  obtain ⟨t, full, stick, slip, loads, total, h1, h2, h3, h4, h5, h6, h7, h8, h9, h10, h11, h12, u, hu, h13, h14⟩ := C90_bookkeeping c dir s conv imSum tol maxIt set h
  refine ⟨t, full, stick, slip, loads, h1, h2, h6, h4, h5, ?_⟩
  have hfull : full = extend (bccg exact (problem s conv imSum tol maxIt set)).x := by
    unfold solve at h1
    rw [h] at h1
    simp only [bind, Except.bind, Except.ok.injEq] at h1
    subst h1
    simp only [Option.some.injEq] at h2
    subst h2
    cases dir <;> simpa [Vec3.get, Vec3.set] using h6.symm
  have hnan : ∀ i, s.contact i = true → full i = .nan := fun i hi => by
    rw [hfull]
    simp [extend, hi, hn]
  refine ⟨hnan, fun i => ?_⟩
  by_contra hne
  have hst := (h11 i).mp (by simpa using hne)
  rw [hnan i hst.1] at hst
  simp [XR.lt] at hst

/-- The convolution acts as a linear map on loads that are numbers. -/
def Linear {contact : ι → Bool} (conv : (Domain contact → XR) → ι → XR) (A : (Domain contact → ℝ) →ₗ[ℝ] (ι → ℝ)) : Prop :=
  ∀ u : Domain contact → ℝ, conv (fun i => .fin (u i)) = fun i => .fin (A u i)

theorem clip_low {v m : ℝ} (hv : v ≤ 0) (hm : 0 ≤ m) : (exact (ι := ι)).clip (.fin v) (.fin 0) (.fin m) = .fin 0 := by
  have h1 : ¬ m < 0 := not_lt.mpr hm
  rcases hv.lt_or_eq with h | h
  · simp [exact, XR.lt, h, h1]
  · subst h
    simp [exact, XR.lt, h1]

theorem clip_high {v m : ℝ} (hm : 0 ≤ m) (hv : m ≤ v) : (exact (ι := ι)).clip (.fin v) (.fin 0) (.fin m) = .fin m := by
  have h0 : ¬ v < 0 := by linarith
  rcases hv.lt_or_eq with h | h
  · simp [exact, XR.lt, h, h0]
  · subst h
    simp [exact, XR.lt, h0]

/-- **C90 (negation)**: with no displacement, or one in the negative direction, the loads of all contact nodes are `nan` (instead of zero, or the mirror image of
those of the opposite displacement), and no node sticks. -/
theorem C90_backward_wrong (c : Control) (dir : Dir) (s : State ι) (conv : (Domain s.contact → XR) → ι → XR) (A : (Domain s.contact → ℝ) →ₗ[ℝ] (ι → ℝ))
    (hA : Linear conv A) {imSum : ℝ} (hi : 0 < imSum) (tol : ℝ) (maxIt : Option ℤ) (hl : ∀ i, s.contact i = true → 0 ≤ s.limit i) (set : ι → ℝ)
    (h : prescribed c s = .ok set) (hset : ∀ i, s.contact i = true → set i ≤ 0) :
    ∃ t full stick slip loads, solve c dir s conv imSum tol maxIt = .ok t ∧ t.loads = some loads ∧ loads.get dir = some full ∧ t.stick = some stick ∧ t.slip = some slip ∧
      (∀ i, s.contact i = true → full i = .nan) ∧ ∀ i, stick i = false := by
  refine nan_of_solution c dir s conv imSum tol maxIt set h (fun _ => 0) ?_ ?_
  · funext i
    have e : (init exact (problem s conv imSum tol maxIt set)).x i = (exact (ι := Domain s.contact)).clip (.fin (set i.1) / .fin imSum) (.fin 0) (.fin (s.limit i.1)) := rfl
    have e2 : (XR.fin (set i.1) / XR.fin imSum) = .fin (set i.1 / imSum) := by simp [XR.div_def, XR.div, hi.ne']
    rw [e, e2, clip_low (div_nonpos_of_nonpos_of_nonneg (hset i.1 i.2) hi.le) (hl i.1 i.2)]
  · intro i
    refine ⟨⟨le_rfl, ?_⟩, A (fun _ => 0) i.1, congrFun (hA fun _ => 0) i.1, Or.inr (Or.inl ⟨rfl, ?_⟩)⟩
    · have := hl i.1 i.2
      simp [problem, XR.lt, this]
    · have : A (fun _ => 0) = 0 := A.map_zero
      rw [this]
      have := hset i.1 i.2
      simpa using this

/-- **C90 (negation)**: with a displacement that makes all nodes slide the loads are `nan` as well (instead of the limits). -/
theorem C90_gross_sliding_wrong (c : Control) (dir : Dir) (s : State ι) (conv : (Domain s.contact → XR) → ι → XR) (A : (Domain s.contact → ℝ) →ₗ[ℝ] (ι → ℝ))
    (hA : Linear conv A) {imSum : ℝ} (hi : 0 < imSum) (tol : ℝ) (maxIt : Option ℤ) (hl : ∀ i, s.contact i = true → 0 ≤ s.limit i) (set : ι → ℝ)
    (h : prescribed c s = .ok set) (h1 : ∀ i, s.contact i = true → s.limit i * imSum ≤ set i) (h2 : ∀ i, s.contact i = true → A (fun j => s.limit j.1) i ≤ set i) :
    ∃ t full stick slip loads, solve c dir s conv imSum tol maxIt = .ok t ∧ t.loads = some loads ∧ loads.get dir = some full ∧ t.stick = some stick ∧ t.slip = some slip ∧
      (∀ i, s.contact i = true → full i = .nan) ∧ ∀ i, stick i = false := by
  refine nan_of_solution c dir s conv imSum tol maxIt set h (fun j => s.limit j.1) ?_ ?_
  · funext i
    have e : (init exact (problem s conv imSum tol maxIt set)).x i = (exact (ι := Domain s.contact)).clip (.fin (set i.1) / .fin imSum) (.fin 0) (.fin (s.limit i.1)) := rfl
    have e2 : (XR.fin (set i.1) / XR.fin imSum) = .fin (set i.1 / imSum) := by simp [XR.div_def, XR.div, hi.ne']
    rw [e, e2, clip_high (hl i.1 i.2) ((le_div_iff₀ hi).mpr (h1 i.1 i.2))]
  · intro i
    refine ⟨⟨hl i.1 i.2, ?_⟩, A (fun j => s.limit j.1) i.1, congrFun (hA fun j => s.limit j.1) i.1, Or.inr (Or.inr ⟨rfl, ?_⟩)⟩
    · simp [problem, XR.lt]
    · have := h2 i.1 i.2
      linarith

/-- Two nodes in contact under the limits 1 and 2, with unit compliance: no displacement and the displacement 10 (`C90_bookkeeping`, `C90_limits_partial`, `C90_backward_wrong`). -/
example : ∃ (s : State Bool) (conv : (Domain s.contact → XR) → Bool → XR) (A : (Domain s.contact → ℝ) →ₗ[ℝ] (Bool → ℝ)), Linear conv A ∧
    (∀ i, s.contact i = true → 0 ≤ s.limit i) ∧ prescribed (.constant 0) s = .ok (fun _ => 0) ∧
    prescribed (.constant 10) s = .ok (fun _ => 10) ∧ (∀ i, s.contact i = true → s.limit i * 2 ≤ 10) ∧ ∀ i, s.contact i = true → A (fun j => s.limit j.1) i ≤ 10 := by
  refine ⟨⟨fun i => if i then 1 else 2, fun _ => true, 0, none, none, none, none, none⟩, fun u i => u ⟨i, rfl⟩, LinearMap.funLeft ℝ ℝ fun i => ⟨i, rfl⟩, fun u => rfl,
    fun i _ => ?_, rfl, rfl, fun i _ => ?_, fun i _ => ?_⟩ <;> cases i <;> norm_num [LinearMap.funLeft_apply]

/-- **C90**: the constructor: not both a load and a displacement; lists of lists are refused although sequences are documented; a total load is accepted, but then
every call raises `NotImplementedError`. -/
theorem C90_arguments (a b : Given) (dir : Dir) (s : State ι) (conv : (Domain s.contact → XR) → ι → XR) (imSum tol : ℝ) (maxIt : Option ℤ) :
    construct (some a) (some b) = .error .valueError ∧
    construct (some .lists) none = .error .typeError ∧ construct none (some .lists) = .error .typeError ∧
    (∀ c, construct (some a) none = .ok c → solve c dir s conv imSum tol maxIt = .error .notImplementedError) ∧
    (∀ d, construct none (some (.number d)) = .ok (.constant d)) ∧
    (∀ t, construct none (some (.array t)) = .ok (.table t)) ∧
    (∃ c, construct none none = .ok c ∧ (∀ i, s.rigid = some (.array i) → prescribed c s = .ok i) ∧ (∀ d, s.rigid = some (.number d) → prescribed c s = .ok fun _ => d) ∧
      (s.rigid = none → prescribed c s = .error .keyError)) := by
  refine ⟨by cases a <;> rfl, rfl, rfl, fun c hc => ?_, fun d => rfl, fun t => rfl, .subModel, rfl, fun i hi => by simp [prescribed, hi], fun i hi => by simp [prescribed, hi],
    fun hi => by simp [prescribed, hi]⟩
  cases a <;> simp only [construct, Except.ok.injEq, reduceCtorEq] at hc <;> subst hc <;> rfl

/-- **C90**: the prescribed displacement: the number that was given, or the value of the table at the time of the state, the same at all nodes. -/
theorem C90_prescribed (s : State ι) (d : ℝ) (t : List (ℝ × ℝ)) : prescribed (.constant d) s = .ok (fun _ => d) ∧ prescribed (.table t) s = .ok (fun _ => interp t s.time) :=
  ⟨rfl, rfl⟩

/-- **C90 (negation)**: beyond the end of the table the final value is not repeated: the last line is continued. -/
theorem C90_extrapolation_wrong (p q : ℝ × ℝ) (rest : List (ℝ × ℝ)) (t : ℝ) (hpq : p.1 < q.1) (hne : p.2 ≠ q.2) (ht : q.1 < t)
    (hrest : (rest ++ [p, q]).Pairwise fun a b => a.1 < b.1) : interp (rest ++ [p, q]) t = line p q t ∧ interp (rest ++ [p, q]) t ≠ q.2 := by
  have key : interp (rest ++ [p, q]) t = line p q t := by
    induction rest with
    | nil => rfl
    | cons a l ih =>
      have hl := ih (List.Pairwise.of_cons hrest)
      have hlt : ∀ b ∈ l ++ [p, q], b.1 < t := by
        intro b hb
        rcases List.mem_append.mp hb with h | h
        · have := List.pairwise_append.mp (List.Pairwise.of_cons hrest)
          have := this.2.2 b h q (by simp)
          linarith
        · simp at h
          rcases h with rfl | rfl <;> linarith
      match l, hl, hlt with
      | [], hl, hlt =>
        have : ¬ t ≤ p.1 := by have := hlt p (by simp); linarith
        simp only [List.cons_append, List.nil_append, interp, if_neg this]
      | b :: [], hl, hlt =>
        have : ¬ t ≤ b.1 := by have := hlt b (by simp); linarith
        rw [← hl]
        simp only [List.cons_append, List.nil_append]
        rw [interp, if_neg this]
      | b :: c :: m, hl, hlt =>
        have : ¬ t ≤ b.1 := by have := hlt b (by simp); linarith
        rw [← hl]
        simp only [List.cons_append]
        rw [interp, if_neg this]
  refine ⟨key, ?_⟩
  rw [key]
  unfold line
  intro h
  have hd : q.1 - p.1 ≠ 0 := by linarith
  have : (t - p.1) * (q.2 - p.2) = (q.2 - p.2) * (q.1 - p.1) := by
    field_simp at h
    linarith
  have h3 : (q.2 - p.2) * (t - q.1) = 0 := by linear_combination this
  rcases mul_eq_zero.mp h3 with h4 | h4
  · exact hne (by linarith)
  · linarith

example : ([] ++ [((0 : ℝ), (0 : ℝ)), (1, 1)]).Pairwise (fun a b : ℝ × ℝ => a.1 < b.1) ∧ (1 : ℝ) < 2 := by simp

/-- **C90**: between the points of the table the value is on the line between its neighbours, in particular it is the tabulated value at the points. -/
theorem C90_table (l r : List (ℝ × ℝ)) (p q : ℝ × ℝ) (t : ℝ) (h : (l ++ p :: q :: r).Pairwise fun a b => a.1 < b.1) (h1 : p.1 < t) (h2 : t ≤ q.1) :
    interp (l ++ p :: q :: r) t = line p q t ∧ line p q q.1 = q.2 := by
  constructor
  · induction l with
    | nil =>
      match r with
      | [] => rfl
      | c :: r => simp only [List.nil_append]; rw [interp, if_pos h2]
    | cons a l ih =>
      have hl := ih (List.Pairwise.of_cons h)
      match l, h, hl with
      | [], h, hl =>
        have : ¬ t ≤ p.1 := by linarith
        simp only [List.cons_append, List.nil_append] at hl ⊢
        rw [interp, if_neg this, hl]
      | b :: [], h, hl =>
        have hb : b.1 < p.1 := by
          have := List.Pairwise.of_cons h
          exact (List.pairwise_cons.mp this).1 p (by simp)
        have : ¬ t ≤ b.1 := by linarith
        simp only [List.cons_append, List.nil_append] at hl ⊢
        rw [interp, if_neg this, hl]
      | b :: c :: m, h, hl =>
        have hb : b.1 < p.1 := by
          have := List.Pairwise.of_cons h
          exact (List.pairwise_cons.mp this).1 p (by simp)
        have : ¬ t ≤ b.1 := by linarith
        simp only [List.cons_append] at hl ⊢
        rw [interp, if_neg this, hl]
  · have hpq : p.1 < q.1 := by linarith
    unfold line
    have hd : q.1 - p.1 ≠ 0 := by linarith
    field_simp
    ring

example : ([((0 : ℝ), (0 : ℝ))] ++ (1, 5) :: (2, 3) :: []).Pairwise (fun a b : ℝ × ℝ => a.1 < b.1) := by simp

end Verif.Tangential
