import Verif.Exchange.Props
import Verif.Interference.ImProps
import Verif.InfMat.Lemmas
import Verif.Elastic.Props

/-!
# C167: only the combined modulus of the two bodies matters

`solve_normal_interference` for influence matrix materials (`slippy/contact/_step_utils.py` l.526-565, model `Verif.Interference`) and the height search (l.103-236, model `Verif.HeightResults`) for pairs of
bodies that are rigid or elastic (`slippy/contact/materials.py` l.403-415 and l.491-578, models `Verif.Materials`, `Verif.InfMat`).
-/

namespace Verif.Exchange

open Verif Elastic

/-! ## Specification -/

/-- A body: rigid, or elastic with the six constants of its material. -/
inductive Half where
  | rigid
  | elastic (p : Six)

/-- The constants belong to one isotropic material. -/
def Half.Sound : Half → Prop
  | .rigid => True
  | .elastic p => Isotropic p

/-- How much a half space gives way: `(1 - v²) / E`, and nothing for a rigid one. The combined modulus of two bodies is one over the sum. -/
noncomputable def Half.give : Half → ℝ
  | .rigid => 0
  | .elastic p => (1 - p.v ^ 2) / p.E

/-! ## The materials of the code -/

/-- `Rigid`, or `Elastic` with the modulus and the Poisson's ratio that it holds. -/
noncomputable def Half.mat : Half → Materials.Mat
  | .rigid => .rigid
  | .elastic p => .general (Materials.elasticIm p.G p.v)

/-- The coefficients of a half space that gives way by one. -/
noncomputable def kernel (n0 n1 : ℕ) (h : ℝ) : ℕ → ℕ → ℝ := Conv.fillMatrix n0 n1 fun x y => (h * InfMat.termX x y + h * InfMat.termY x y) / Real.pi

theorem give_elastic {p : Six} (hp : Isotropic p) : (1 - p.v) / (2 * Real.pi * p.G) = (1 - p.v ^ 2) / p.E / Real.pi := by
  have h1 := hp.K_pos
  have h2 := hp.G_pos
  have h3 := Real.pi_pos
  have h4 : 0 < 3 * p.K + p.G := by linarith
  rw [hp.E_eq, hp.v_eq]
  field_simp
  ring

theorem matrix_of {a : Half} (ha : a.Sound) (n0 n1 : ℕ) (h : ℝ) : a.mat.im (n0, n1) [h, h] (.z, .z) = .ok fun i j => a.give * kernel n0 n1 h i j := by
  cases a with
  | rigid =>
    simp only [Half.mat, Materials.Mat.im, Half.give, zero_mul]
  | elastic p =>
    simp only [Half.mat, Materials.Mat.im, Materials.elasticIm, Materials.name]
    congr 1
    funext i j
    simp only [Conv.fillMatrix, kernel, InfMat.coefficient, Half.give]
    simp only [if_true, Option.getD_some, Option.isSome_none, Bool.false_eq_true, if_false, zero_mul, add_zero]
    rw [give_elastic ha]
    ring

/-! ## A set interference -/

/-- What a result says of the contact: loads, total displacement, contact nodes, and whether the solver failed. -/
def contactOf {ι D : Type} (r : Interference.Result ι D) : (ι → XR) × (ι → XR) × (ι → Bool) × Bool := (r.loads, r.total, r.contact, r.failed)

/-- **C167, set interference.** Two pairs of bodies with the same combined modulus and the same smaller greatest load have the same contact: the same loads, total displacement, contact nodes and
verdict, or the same error, for every gap, interference and set of arguments. -/
theorem C167_interference {n0 n1 : ℕ} (pick : Interference.Pick (Interference.Node n0 n1)) {a1 a2 b1 b2 : Half} (h1 : a1.Sound) (h2 : a2.Sound) (h3 : b1.Sound) (h4 : b2.Sound)
    (h : a1.give + a2.give = b1.give + b2.give) {max1 max2 max1' max2' : XR} (hm : Interference.smaller max1 max2 = Interference.smaller max1' max2') (gs interference : ℝ)
    (gap : Interference.Node n0 n1 → ℝ) (c : Interference.Call n0 n1) :
    (Interference.solve pick (.im a1.mat a2.mat max1 max2) gs interference gap c).1.map contactOf = (Interference.solve pick (.im b1.mat b2.mat max1' max2') gs interference gap c).1.map contactOf ∧
      (Interference.solve pick (.im a1.mat a2.mat max1 max2) gs interference gap c).2 = (Interference.solve pick (.im b1.mat b2.mat max1' max2') gs interference gap c).2 := by
  unfold Interference.solve
  by_cases h0 : Interference.count (Interference.startNodes (Interference.needed interference gap) c.contact) = 0
  · simp only [if_pos h0]
    exact ⟨trivial, trivial⟩
  · simp only [if_neg h0]
    refine ⟨?_, trivial⟩
    unfold Interference.solveIm
    generalize c.span.getD (n0 * 2, n1 * 2) = span
    obtain ⟨n, m⟩ := span
    simp only [matrix_of h1, matrix_of h2, matrix_of h3, matrix_of h4, bind, Except.bind]
    have e : (fun i j => a1.give * kernel n m gs i j + a2.give * kernel n m gs i j) = fun i j => b1.give * kernel n m gs i j + b2.give * kernel n m gs i j := by
      funext i j
      rw [← add_mul, ← add_mul, h]
    generalize (fun i j => a1.give * kernel n m gs i j + a2.give * kernel n m gs i j) = u at e ⊢
    generalize (fun i j => b1.give * kernel n m gs i j + b2.give * kernel n m gs i j) = v at e ⊢
    generalize Interference.smaller max1 max2 = x at hm ⊢
    generalize Interference.smaller max1' max2' = y at hm ⊢
    subst e hm
    cases Interference.startLoads (n, m) u (Interference.needed interference gap) c.guess with
    | error err => rfl
    | ok start =>
      cases c.adhesive.getD (.number 0) with
      | rule f => rfl
      | number p => rfl

theorem disp_scale {n0 n1 : ℕ} (span : ℕ × ℕ) (r : ℝ) (k : ℕ → ℕ → ℝ) (l : Interference.Node n0 n1 → ℝ) (i : Interference.Node n0 n1) :
    Interference.disp span (fun a b => r * k a b) l i = r * Interference.disp span k l i := by
  unfold Interference.disp Conv.sameConvolve
  simp only [Finset.mul_sum]
  refine Finset.sum_congr rfl fun a _ => Finset.sum_congr rfl fun b _ => ?_
  split_ifs <;> ring

/-- **C167, shares.** The bodies share the total displacement in the ratio in which they give way: a rigid body does not move, two equal bodies have half of it each. -/
theorem C167_shares {n0 n1 : ℕ} (pick : Interference.Pick (Interference.Node n0 n1)) {a1 a2 : Half} (h1 : a1.Sound) (h2 : a2.Sound) (max1 max2 : XR) (gs interference : ℝ)
    (gap : Interference.Node n0 n1 → ℝ) (c : Interference.Call n0 n1) {r : Interference.Result (Interference.Node n0 n1) (Interference.Pair (Interference.Node n0 n1))} {after : Interference.Node n0 n1 → Bool}
    (h : Interference.solve pick (.im a1.mat a2.mat max1 max2) gs interference gap c = (.ok r, after)) (hl : ∀ i, ∃ l : ℝ, r.loads i = .fin l) (i : Interference.Node n0 n1) :
    ∃ t d1 d2 : ℝ, r.total i = .fin t ∧ r.rest.1 i = .fin d1 ∧ r.rest.2 i = .fin d2 ∧ d1 + d2 = t ∧ (a1.give + a2.give) * d1 = a1.give * t ∧ (a1.give + a2.give) * d2 = a2.give * t := by
  choose l hl using hl
  have hl' : r.loads = fun i => .fin (l i) := funext hl
  by_cases h0 : Interference.count (Interference.startNodes (Interference.needed interference gap) c.contact) = 0
  · unfold Interference.solve at h
    simp only [if_pos h0, Prod.mk.injEq, Except.ok.injEq] at h
    obtain ⟨rfl, -⟩ := h
    exact ⟨0, 0, 0, rfl, rfl, rfl, by ring, by ring, by ring⟩
  · have hs : Interference.solveIm a1.mat a2.mat max1 max2 gs c.span (Interference.needed interference gap) (Interference.startNodes (Interference.needed interference gap) c.contact)
        (c.adhesive.getD (.number 0)) c.tol c.maxIter c.guess = .ok r := by
      unfold Interference.solve at h
      simp only [if_neg h0, Prod.mk.injEq] at h
      exact h.1
    set span := c.span.getD (n0 * 2, n1 * 2) with hspan
    have hK : Interference.Given a1.mat a2.mat gs span (fun i j => a1.give * kernel span.1 span.2 gs i j) (fun i j => a2.give * kernel span.1 span.2 gs i j) :=
      ⟨matrix_of h1 span.1 span.2 gs, matrix_of h2 span.1 span.2 gs⟩
    cases ha : c.adhesive.getD (.number 0) with
    | rule f =>
      rw [ha] at hs
      unfold Interference.solveIm at hs
      simp only [← hspan, hK.first, hK.second, bind, Except.bind] at hs
      cases hg : Interference.startLoads span (fun i j => a1.give * kernel span.1 span.2 gs i j + a2.give * kernel span.1 span.2 gs i j) (Interference.needed interference gap) c.guess with
      | error e => simp [hg] at hs
      | ok s => simp [hg] at hs
    | number p =>
      rw [ha] at hs
      obtain ⟨start, -, -, -, e3, e4, -⟩ := Interference.solveIm_inv hK hs
      rw [hl'] at e3 e4
      have t0 := congrFun e3 i
      have t1 := congrFun (congrArg Prod.fst e4) i
      have t2 := congrFun (congrArg Prod.snd e4) i
      rw [Interference.conv_fin, Interference.disp_add_im, disp_scale, disp_scale] at t0
      dsimp only at t1 t2
      rw [Interference.conv_fin, disp_scale] at t1 t2
      exact ⟨_, _, _, t0, t1, t2, by ring, by ring, by ring⟩

/-! ## The height search -/

/-- The matrix of a body for the height search, l.148-151. -/
noncomputable def Half.matrix (a : Half) (n0 n1 : ℕ) (h : ℝ) : ℕ → ℕ → ℝ := match a.mat.im (n0, n1) [h, h] (.z, .z) with
  | .ok m => m
  | .error _ => fun _ _ => 0

/-- The object of the height search for two bodies, l.103-163: the solver and the entry of the cache for the greatest load are given the sum of the matrices, l.152-162 and l.313-315. -/
noncomputable def searchFor (S : HeightResults.Setup) (solver : (ℕ → ℕ → ℝ) → ℝ → List (ℕ × ℕ) → (ℕ × ℕ → ℝ) × Bool) (entry : (ℕ → ℕ → ℝ) → Option (ℝ × ℝ)) (a1 a2 : Half) : HeightResults.Setup :=
  let im1 := a1.matrix S.rows S.cols S.spacing
  let im2 := a2.matrix S.rows S.cols S.spacing
  { S with im1 := im1, im2 := im2, bccg := solver fun i j => im1 i j + im2 i j, maxEntry := entry fun i j => im1 i j + im2 i j }

/-- What is read, without the displacements of the single bodies. -/
def together (f : HeightResults.Full) : (ℕ → ℕ → ℝ) × (ℕ → ℕ → ℝ) × HeightResults.Mask × ℝ × ℝ := (f.loads, f.total, f.contact, f.load, f.interference)

theorem matrix_eq {a : Half} (ha : a.Sound) (n0 n1 : ℕ) (h : ℝ) : a.matrix n0 n1 h = fun i j => a.give * kernel n0 n1 h i j := by
  unfold Half.matrix
  rw [matrix_of ha]

/-- Two set ups that differ in the shares of the matrices only. -/
structure SameSum (S T : HeightResults.Setup) : Prop where
  rest : T = { S with im1 := T.im1, im2 := T.im2 }
  sum : ∀ i j, T.im1 i j + T.im2 i j = S.im1 i j + S.im2 i j

/-- Results that agree without the displacements of the single bodies. -/
def SameResults : Option HeightResults.Results → Option HeightResults.Results → Prop
  | none, none => True
  | some (.raw v d h), some (.raw v' d' h') => v = v' ∧ d = d' ∧ h = h'
  | some (.full f), some (.full f') => together f = together f'
  | _, _ => False

/-- The same for the objects. -/
structure SameObj (o o' : HeightResults.Obj) : Prop where
  cache : o'.cache = o.cache
  planned : o'.planned = o.planned
  results : SameResults o.results o'.results

theorem sameSum_finish {S T : HeightResults.Setup} (h : SameSum S T) (pl : Option HeightResults.Mask) (v : List ℝ) (d : HeightResults.Mask) (x : ℝ) :
    (HeightResults.finish T pl v d x).map together = (HeightResults.finish S pl v d x).map together := by
  obtain ⟨hr, hs⟩ := h
  have e : (fun i j => T.im1 i j + T.im2 i j) = fun i j => S.im1 i j + S.im2 i j := by funext i j; exact hs i j
  generalize T.im1 = u at hr e
  generalize T.im2 = w at hr e
  subst hr
  have ep : ∀ im, HeightResults.plan { S with im1 := u, im2 := w } im = HeightResults.plan S im := fun _ => rfl
  have ea : ∀ d, HeightResults.assign { S with im1 := u, im2 := w } d v = HeightResults.assign S d v := fun _ => rfl
  have ec : HeightResults.convFunc { S with im1 := u, im2 := w } pl v = HeightResults.convFunc S pl v := by
    cases pl with
    | none => rfl
    | some m => simp only [HeightResults.convFunc, e, ep, ea]
  unfold HeightResults.finish
  rw [ec, ep, ep, ea]
  dsimp only
  cases HeightResults.assign S d v with
  | error err => rfl
  | ok loads =>
    cases HeightResults.convFunc S pl v with
    | error err => rfl
    | ok total =>
      rcases plan_same S u w with ⟨f, f', h1, h2⟩ | ⟨err, h1, h2⟩
      · rcases plan_same S S.im1 u with ⟨g, g', h3, h4⟩ | ⟨err, h3, h4⟩
        · rcases plan_same S S.im2 u with ⟨k, k', h5, h6⟩ | ⟨err, h5, h6⟩
          · simp only [h1, h2, h3, h5, bind, Except.bind, Except.map, together]
          · rw [h1] at h6; cases h6
        · rw [h1] at h4; cases h4
      · rcases plan_same S S.im1 u with ⟨g, g', h3, h4⟩ | ⟨err', h3, h4⟩
        · rw [h1] at h4; cases h4
        · rw [h1] at h4
          cases h4
          simp only [h1, h3, bind, Except.bind, Except.map]

theorem sameSum_read {S T : HeightResults.Setup} (h : SameSum S T) {o o' : HeightResults.Obj} (ho : SameObj o o') :
    (HeightResults.read T o').1.map (Option.map together) = (HeightResults.read S o).1.map (Option.map together) ∧ SameObj (HeightResults.read S o).2 (HeightResults.read T o').2 := by
  have hf := sameSum_finish h
  have hi : T.imMats = S.imMats := by rw [h.rest]
  obtain ⟨c, r, pl⟩ := o
  obtain ⟨c', r', pl'⟩ := o'
  obtain ⟨rfl, rfl, hr⟩ := ho
  dsimp only at hr
  cases r with
  | none =>
    cases r' with
    | some r' => exact absurd hr (by simp [SameResults])
    | none =>
      simp only [HeightResults.read, hi]
      by_cases h : S.imMats = true
      · simp only [h, if_true]; exact ⟨trivial, rfl, rfl, trivial⟩
      · simp only [h]; exact ⟨trivial, rfl, rfl, trivial⟩
  | some r =>
    cases r' with
    | none => cases r <;> exact absurd hr (by simp [SameResults])
    | some r' =>
      cases r with
      | full f =>
        cases r' with
        | raw v d x => exact absurd hr (by simp [SameResults])
        | full f' =>
          refine ⟨?_, rfl, rfl, hr⟩
          have hr : together f = together f' := hr
          simp only [HeightResults.read, Except.map, Option.map, hr]
      | raw v d x =>
        cases r' with
        | full f => exact absurd hr (by simp [SameResults])
        | raw v' d' x' =>
          obtain ⟨rfl, rfl, rfl⟩ : v = v' ∧ d = d' ∧ x = x' := hr
          have := hf pl' v d x
          simp only [HeightResults.read]
          cases h1 : HeightResults.finish T pl' v d x with
          | error e =>
            cases h2 : HeightResults.finish S pl' v d x with
            | error e' =>
              rw [h1, h2] at this
              simp only [Except.map, Except.error.injEq] at this
              subst this
              exact ⟨rfl, rfl, rfl, rfl, rfl, rfl⟩
            | ok f => rw [h1, h2] at this; simp [Except.map] at this
          | ok f =>
            cases h2 : HeightResults.finish S pl' v d x with
            | error e => rw [h1, h2] at this; simp [Except.map] at this
            | ok f' =>
              rw [h1, h2] at this
              simp only [Except.map, Except.ok.injEq] at this
              refine ⟨?_, rfl, rfl, ?_⟩
              · simp only [Except.map, Option.map, this]
              · exact this.symm

theorem sameSum_call {S T : HeightResults.Setup} (h : SameSum S T) {o o' : HeightResults.Obj} (ho : SameObj o o') (x : ℝ) :
    (HeightResults.call T o' x).2 = (HeightResults.call S o x).2 ∧ SameObj (HeightResults.call S o x).1 (HeightResults.call T o' x).1 := by
  classical
  have hp : T.problem = S.problem := by rw [h.rest]; rfl
  have hi : T.imMats = S.imMats := by rw [h.rest]
  have hn : ∀ d, T.nodes d = S.nodes d := by intro d; rw [h.rest]; rfl
  have hl : ∀ x d, T.loads x d = S.loads x d := by intro x d; rw [h.rest]; rfl
  obtain ⟨c, r, pl⟩ := o
  obtain ⟨c', r', pl'⟩ := o'
  obtain ⟨rfl, rfl, hr⟩ := ho
  unfold HeightResults.call
  rw [hp, hi]
  dsimp only at hr ⊢
  by_cases h1 : x ∈ c'.heights
  · simp only [if_pos h1]
    exact ⟨trivial, rfl, rfl, hr⟩
  · simp only [if_neg h1]
    by_cases h2 : S.imMats = true
    · simp only [if_pos h2, hn, hl]
      refine ⟨trivial, rfl, rfl, ?_⟩
      dsimp only
      by_cases h3 : (S.nodes (HeightCache.nodesFor S.problem c' x)).isEmpty = true
      · simp only [if_pos h3]
        exact hr
      · simp only [if_neg h3]
        exact ⟨rfl, rfl, rfl⟩
    · simp only [if_neg h2]
      exact ⟨trivial, rfl, rfl, hr⟩

theorem sameSum_run {S T : HeightResults.Setup} (h : SameSum S T) (ops : List HeightResults.Op) : ∀ {o o' : HeightResults.Obj}, SameObj o o' →
    SameObj (HeightResults.run S o ops) (HeightResults.run T o' ops) := by
  have hi : T.imMats = S.imMats := by rw [h.rest]
  induction ops with
  | nil => intro o o' ho; exact ho
  | cons op ops ih =>
    intro o o' ho
    refine ih (o := HeightResults.step S o op) (o' := HeightResults.step T o' op) ?_
    cases op with
    | call x => exact (sameSum_call h ho x).2
    | changeLoad l d =>
      refine ⟨?_, ?_, trivial⟩
      · simp only [HeightResults.step, HeightResults.changeLoad, ho.cache]
      · simp only [HeightResults.step, HeightResults.changeLoad, ho.planned, hi]
    | clear =>
      refine ⟨?_, ho.planned, ho.results⟩
      simp only [HeightResults.step, ho.cache]
    | read => exact (sameSum_read h ho).2

/-- **C167, height search.** Two pairs of bodies with the same combined modulus, the same gap and a solver and a cache that are given the sum of the matrices: after the same calls, changes of load,
clearings and readings the heights and total loads in the cache, the value of the next call, and the loads, the total displacement, the contact nodes, the load and the interference that are read agree. -/
theorem C167_search (S : HeightResults.Setup) (solver : (ℕ → ℕ → ℝ) → ℝ → List (ℕ × ℕ) → (ℕ × ℕ → ℝ) × Bool) (entry : (ℕ → ℕ → ℝ) → Option (ℝ × ℝ)) {a1 a2 b1 b2 : Half} (h1 : a1.Sound) (h2 : a2.Sound)
    (h3 : b1.Sound) (h4 : b2.Sound) (h : a1.give + a2.give = b1.give + b2.give) (maxSetLoad : ℝ) {o : HeightResults.Obj} (ho : HeightResults.new (searchFor S solver entry a1 a2) maxSetLoad = .ok o)
    (ops : List HeightResults.Op) :
    ∃ o', HeightResults.new (searchFor S solver entry b1 b2) maxSetLoad = .ok o' ∧
      (HeightResults.run (searchFor S solver entry b1 b2) o' ops).cache = (HeightResults.run (searchFor S solver entry a1 a2) o ops).cache ∧
      (∀ x, (HeightResults.call (searchFor S solver entry b1 b2) (HeightResults.run (searchFor S solver entry b1 b2) o' ops) x).2 =
        (HeightResults.call (searchFor S solver entry a1 a2) (HeightResults.run (searchFor S solver entry a1 a2) o ops) x).2) ∧
      (HeightResults.read (searchFor S solver entry b1 b2) (HeightResults.run (searchFor S solver entry b1 b2) o' ops)).1.map (Option.map together) =
        (HeightResults.read (searchFor S solver entry a1 a2) (HeightResults.run (searchFor S solver entry a1 a2) o ops)).1.map (Option.map together) := by
  have e : (fun i j => b1.matrix S.rows S.cols S.spacing i j + b2.matrix S.rows S.cols S.spacing i j) = fun i j => a1.matrix S.rows S.cols S.spacing i j + a2.matrix S.rows S.cols S.spacing i j := by
    funext i j
    simp only [matrix_eq h1, matrix_eq h2, matrix_eq h3, matrix_eq h4, ← add_mul, h]
  have hs : SameSum (searchFor S solver entry a1 a2) (searchFor S solver entry b1 b2) := by
    constructor
    · simp only [searchFor, e]
    · intro i j
      exact congrFun (congrFun e i) j
  have hn : HeightResults.new (searchFor S solver entry b1 b2) maxSetLoad = .ok o := by
    rw [← ho]
    have hp : (searchFor S solver entry b1 b2).problem = (searchFor S solver entry a1 a2).problem := by rw [hs.rest]; rfl
    unfold HeightResults.new
    rw [hp]
  have hr : SameResults o.results o.results := by
    unfold HeightResults.new at ho
    cases hi : HeightCache.init (searchFor S solver entry a1 a2).problem none maxSetLoad with
    | error e => simp [hi] at ho
    | ok s =>
      simp only [hi, Except.ok.injEq] at ho
      rw [← ho]
      trivial
  have hrun := sameSum_run hs ops (o := o) (o' := o) ⟨rfl, rfl, hr⟩
  exact ⟨o, hn, hrun.cache, fun x => (sameSum_call hs hrun x).1, (sameSum_read hs hrun).1⟩

/-! ## Examples -/

/-- A material with equal bulk and shear modulus. -/
noncomputable def equalModuli (k : ℝ) : Six := { K := k, G := k, E := 9 / 4 * k, v := 1 / 8, Lam := k / 3, M := 7 / 3 * k }

theorem equalModuli_sound {k : ℝ} (hk : 0 < k) : Isotropic (equalModuli k) where
  K_pos := hk
  G_pos := hk
  E_eq := by simp only [equalModuli]; field_simp; ring
  v_eq := by simp only [equalModuli]; field_simp; ring
  Lam_eq := by simp only [equalModuli]; ring
  M_eq := by simp only [equalModuli]; ring

/-- Hypotheses of `C167_interference` and `C167_search`: two equal bodies, and a rigid body on one with half of the moduli. The greatest loads 3 and infinity, and 5 and 3. -/
theorem two_or_one : (Half.elastic (equalModuli 1)).Sound ∧ (Half.elastic (equalModuli (1 / 2))).Sound ∧ Half.rigid.Sound ∧
    (Half.elastic (equalModuli 1)).give + (Half.elastic (equalModuli 1)).give = Half.rigid.give + (Half.elastic (equalModuli (1 / 2))).give ∧
    Interference.smaller (.fin 3) .pinf = Interference.smaller (.fin 5) (.fin 3) := by
  refine ⟨equalModuli_sound one_pos, equalModuli_sound (by norm_num), trivial, ?_, ?_⟩
  · norm_num [Half.give, equalModuli]
  · norm_num [Interference.smaller, XR.lt]

example {n0 n1 : ℕ} (pick : Interference.Pick (Interference.Node n0 n1)) (gs interference : ℝ) (gap : Interference.Node n0 n1 → ℝ) (c : Interference.Call n0 n1) :=
  C167_interference pick two_or_one.1 two_or_one.1 two_or_one.2.2.1 two_or_one.2.1 two_or_one.2.2.2.1 two_or_one.2.2.2.2 gs interference gap c

theorem kernel_own : 0 < kernel 2 4 1 0 1 := by
  have h1 := InfMat.termX_zero_pos
  have h2 : InfMat.termY 0 0 = InfMat.termX 0 0 := (InfMat.termX_swap 0 0).symm
  have : kernel 2 4 1 0 1 = (1 * InfMat.termX 0 0 + 1 * InfMat.termY 0 0) / Real.pi := by
    simp [kernel, Conv.fillMatrix, Conv.offset]
  rw [this]
  exact div_pos (by linarith) Real.pi_pos

/-- Hypotheses of `C167_shares`, and its claim for two equal bodies of which one node is in contact: the call succeeds, the contact is closed by one, and each body has moved by one half. -/
example (pick : Interference.Pick (Interference.Node 1 2)) : ∃ (c : Interference.Call 1 2) (r : Interference.Result (Interference.Node 1 2) (Interference.Pair (Interference.Node 1 2))) (after : Interference.Node 1 2 → Bool),
    Interference.solve pick (.im (Half.elastic (equalModuli 1)).mat (Half.elastic (equalModuli 1)).mat .pinf .pinf) 1 1 Interference.step c = (.ok r, after) ∧ (∀ i, ∃ l : ℝ, r.loads i = .fin l) ∧
    (∃ l : ℝ, 0 < l ∧ r.loads (0, 0) = .fin l) ∧ ∃ t d1 : ℝ, r.total (0, 0) = .fin t ∧ r.rest.1 (0, 0) = .fin d1 ∧ d1 = t / 2 := by
  have hs := two_or_one.1
  have hg : (Half.elastic (equalModuli 1)).give = 7 / 16 := by norm_num [Half.give, equalModuli]
  have hk : 0 < 7 / 8 * kernel 2 4 1 0 1 := mul_pos (by norm_num) kernel_own
  set k := 7 / 8 * kernel 2 4 1 0 1 with hkd
  let c : Interference.Call 1 2 := { tol := 9 / 10, guess := some (.loads fun _ => .fin (1 / (2 * k))) }
  have hK : Interference.Given (Half.elastic (equalModuli 1)).mat (Half.elastic (equalModuli 1)).mat 1 (c.span.getD (1 * 2, 2 * 2))
      (fun i j => (Half.elastic (equalModuli 1)).give * kernel 2 4 1 i j) (fun i j => (Half.elastic (equalModuli 1)).give * kernel 2 4 1 i j) := ⟨matrix_of hs 2 4 1, matrix_of hs 2 4 1⟩
  obtain ⟨r, after, h, -, h2⟩ := Interference.C98_one_node_partial pick 1 1 Interference.step c (p := 0) rfl hK (0, 0) Interference.step_nodes (by norm_num [Interference.step]) k
    (by simp only [c, Option.getD_none]; norm_num [hg, hkd]; ring) ⟨by norm_num [c], by norm_num [c]⟩ hk (1 / (2 * k)) (1 / (2 * k)) (by positivity) (by rw [max_eq_left (by positivity)]) _
    (.inl rfl) rfl (by norm_num [c]) (by norm_num [c])
  have hkx : k * (1 / (2 * k)) = 1 / 2 := by field_simp
  obtain ⟨h3, h4⟩ := h2 (by rw [hkx]; norm_num [Interference.step]) (by rw [hkx]; norm_num [Interference.step, c, abs_of_pos])
  have h5 : r.loads (0, 0) = .fin (1 / k) := by rw [h4]; norm_num [Interference.step]
  have hl : ∀ i, ∃ l : ℝ, r.loads i = .fin l := by
    intro i
    by_cases hi : i = (0, 0)
    · exact ⟨_, hi ▸ h5⟩
    · rw [Interference.solve_im ⟨(0, 0), (Interference.step_nodes _).mpr rfl⟩] at h
      injection h with h6 h7
      obtain ⟨start, -, e1, -⟩ := Interference.solveIm_inv hK h6
      refine ⟨0, ?_⟩
      rw [e1, Interference.fill, dif_neg fun h => hi ((Interference.step_nodes i).mp h)]
  refine ⟨c, r, after, h, hl, ⟨1 / k, by positivity, h5⟩, ?_⟩
  obtain ⟨t, d1, d2, e1, e2, e3, e4, e5, e6⟩ := C167_shares pick hs hs .pinf .pinf 1 1 Interference.step c h hl (0, 0)
  refine ⟨t, d1, e1, e2, ?_⟩
  rw [hg] at e5
  linarith

/-- The search for two equal bodies and for a rigid body on one body, with a solver that looks at the matrix: an object is made. -/
example : ∃ o, HeightResults.new (searchFor (HeightResults.demo true) (fun im _ _ => (fun _ => 1 / im 0 1, false)) (fun _ => none) (.elastic (equalModuli 1)) (.elastic (equalModuli 1))) 7 = .ok o ∧
    HeightResults.new (searchFor (HeightResults.demo true) (fun im _ _ => (fun _ => 1 / im 0 1, false)) (fun _ => none) .rigid (.elastic (equalModuli (1 / 2)))) 7 = .ok o := by
  refine ⟨HeightResults.demo0, ?_, ?_⟩ <;>
  · unfold HeightResults.new HeightCache.init
    simp [searchFor, HeightResults.demo, HeightResults.Setup.problem, HeightResults.demo0]

end Verif.Exchange
