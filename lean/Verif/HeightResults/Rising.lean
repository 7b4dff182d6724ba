import Verif.HeightResults.Props
import Verif.HeightCache.Truth
import Verif.Contact.Load

/-!
# C151: the function whose root is sought rises with the height, and the load is reached
-/

namespace Verif.HeightResults

open Verif HeightCache Conv Finset

/-! ## Specification -/

/-- A distribution on the grid, zero elsewhere. -/
noncomputable def lift {n0 n1 : ℕ} (u : Fin n0 × Fin n1 → ℝ) : ℕ → ℕ → ℝ := fun i j => if h : i < n0 ∧ j < n1 then u (⟨i, h.1⟩, ⟨j, h.2⟩) else 0

/-- The displacements of both surfaces under pressures on the grid. -/
noncomputable def bodies (S : Setup) (c0 c1 : Bool) : (Fin S.rows × Fin S.cols → ℝ) →ₗ[ℝ] (Fin S.rows × Fin S.cols → ℝ) where
  toFun u q := superpose c0 c1 S.rows S.cols S.rows S.cols S.im1 (lift u) q.1 q.2 + superpose c0 c1 S.rows S.cols S.rows S.cols S.im2 (lift u) q.1 q.2
  map_add' u v := by
    funext q
    simp only [superpose, Pi.add_apply, ← sum_add_distrib]
    refine sum_congr rfl fun a _ => sum_congr rfl fun b _ => ?_
    have : lift (u + v) a b = lift u a b + lift v a b := by
      unfold lift
      split <;> simp
    rw [this]; ring
  map_smul' r u := by
    funext q
    simp only [superpose, Pi.smul_apply, smul_eq_mul, RingHom.id_apply, mul_add, mul_sum, ← sum_add_distrib]
    refine sum_congr rfl fun a _ => sum_congr rfl fun b _ => ?_
    have : lift (r • u) a b = r * lift u a b := by
      unfold lift
      split <;> simp
    rw [this]; ring

/-- The pressures at height `h` of bodies with largest pressure `M`, on the whole grid. -/
def Pressures (S : Setup) (c0 c1 : Bool) (M : Option ℝ) (h : ℝ) (u : Fin S.rows × Fin S.cols → ℝ) : Prop :=
  Contact.Solution (fun _ => True) (bodies S c0 c1) (fun q => h - S.gap q.1 q.2) (fun _ => M) u

/-- The bodies resist every distribution of pressure and no pressure lifts them; they just touch at height zero; the solver solves the contact problem on the nodes it is given, at every height; the entry for the largest pressure is that
pressure on all nodes with a height at which all of them are in contact, l.157-161. -/
structure Ideal (S : Setup) (c0 c1 : Bool) (M : Option ℝ) : Prop where
  matrices : S.imMats = true
  definite : Contact.Definite (bodies S c0 c1)
  settles : Contact.Settles (bodies S c0 c1)
  limit : ∀ m, M = some m → 0 ≤ m
  touch : ∀ i j, i < S.rows → j < S.cols → 0 ≤ S.gap i j
  solves : ∀ h L, (∀ i j, (i, j) ∈ L ↔ i < S.rows ∧ j < S.cols ∧ S.gap i j < h) → L ≠ [] →
    Contact.Solution (fun q => S.gap q.1 q.2 < h) (bodies S c0 c1) (fun q => h - S.gap q.1 q.2) (fun _ => M) fun q => open Classical in if S.gap q.1 q.2 < h then (S.bccg h L).1 (q.1, q.2) else 0
  max : ∀ h l, S.maxEntry = some (h, l) → ∃ m, M = some m ∧ l = m * (S.rows * S.cols) * S.spacing ^ 2 ∧ 0 ≤ h ∧ ∀ q, bodies S c0 c1 (fun _ => m) q + S.gap q.1 q.2 ≤ h

/-- No operation fixes the contact nodes. -/
def Unfixed (ops : List Op) : Prop := ∀ l d, Op.changeLoad l (some d) ∉ ops

/-! ## Lemmas -/

lemma sum_lift {n0 n1 : ℕ} (u : Fin n0 × Fin n1 → ℝ) : ∑ i ∈ range n0, ∑ j ∈ range n1, lift u i j = ∑ q, u q := by
  rw [Fintype.sum_prod_type, ← Fin.sum_univ_eq_sum_range (fun i => ∑ j ∈ range n1, lift u i j)]
  refine sum_congr rfl fun i _ => ?_
  rw [← Fin.sum_univ_eq_sum_range (fun j => lift u i j)]
  refine sum_congr rfl fun j _ => ?_
  unfold lift
  rw [dif_pos ⟨i.2, j.2⟩]

/-- The pressures at each height. -/
lemma Ideal.pressures {S : Setup} {c0 c1 : Bool} {M : Option ℝ} (hS : Ideal S c0 c1 M) (h : ℝ) : ∃ u, Pressures S c0 c1 M h u :=
  Contact.exists_solution _ hS.definite _ fun _ m hm => hS.limit m hm

/-- The load at each height. -/
noncomputable def Ideal.load {S : Setup} {c0 c1 : Bool} {M : Option ℝ} (hS : Ideal S c0 c1 M) (h : ℝ) : ℝ := (∑ q, (hS.pressures h).choose q) * S.spacing ^ 2

lemma Ideal.load_eq {S : Setup} {c0 c1 : Bool} {M : Option ℝ} (hS : Ideal S c0 c1 M) {h : ℝ} {u : Fin S.rows × Fin S.cols → ℝ} (hu : Pressures S c0 c1 M h u) : hS.load h = (∑ q, u q) * S.spacing ^ 2 := by
  unfold Ideal.load
  rw [Contact.unique hS.definite hu (hS.pressures h).choose_spec]

lemma Ideal.apart {S : Setup} {c0 c1 : Bool} {M : Option ℝ} (hS : Ideal S c0 c1 M) {h : ℝ} (hh : ∀ i j, i < S.rows → j < S.cols → h ≤ S.gap i j) : hS.load h = 0 := by
  rw [hS.load_eq (u := 0)]
  · simp
  · refine ⟨fun i hi => absurd trivial hi, fun i _ => le_rfl, fun i _ m hm => hS.limit m hm, fun i _ _ => rfl, fun i _ hlt => ?_⟩
    rw [map_zero, Pi.zero_apply] at hlt
    have := hh i.1 i.2 i.1.2 i.2.2
    linarith

lemma Ideal.loads {S : Setup} {c0 c1 : Bool} {M : Option ℝ} (hS : Ideal S c0 c1 M) : Loads S.problem hS.load where
  zero := hS.apart hS.touch
  max h l hm := by
    obtain ⟨m, hM, hl, h0, hq⟩ := hS.max h l hm
    refine ⟨h0, ?_⟩
    rw [hl, hS.load_eq (u := fun _ => m)]
    · simp only [sum_const, card_univ, Fintype.card_prod, Fintype.card_fin, nsmul_eq_mul, Nat.cast_mul]; ring
    · refine ⟨fun i hi => absurd trivial hi, fun i _ => hS.limit m hM, fun i _ m' hm' => ?_, fun i _ hlt => ?_, fun i _ _ => hM⟩
      · rw [hM] at hm'; cases hm'; exact le_rfl
      · have := hq i
        linarith
  none h hn := by
    refine hS.apart fun i j hi hj => ?_
    by_contra hc
    push Not at hc
    have : (i, j) ∈ S.nodes (S.problem.touching h) := mem_nodes.2 ⟨hi, hj, by simp [Setup.problem, hc]⟩
    have hn' : (S.nodes (S.problem.touching h)).isEmpty = true := hn
    rw [List.isEmpty_iff] at hn'
    rw [hn'] at this
    cases this
  solved h hn := by
    have hn' : (S.nodes (S.problem.touching h)).isEmpty = false := hn
    have hmem : ∀ i j, (i, j) ∈ S.nodes (S.problem.touching h) ↔ i < S.rows ∧ j < S.cols ∧ S.gap i j < h := fun i j => by
      rw [mem_nodes]
      simp [Setup.problem]
    have hsol := hS.solves h (S.nodes (S.problem.touching h)) hmem (by
      intro e
      rw [e] at hn'
      cases hn')
    have hT : (fun q : Fin S.rows × Fin S.cols => S.gap q.1 q.2 < h) = fun q => 0 < h - S.gap q.1 q.2 := by
      funext q
      rw [sub_pos]
    have hsol' := hsol
    rw [hT] at hsol'
    rw [hS.load_eq (Contact.extend_solution hS.settles (fun _ m hm => hS.limit m hm) hsol')]
    show (S.loads h _).sum * S.spacing ^ 2 = _
    congr 1
    rw [sum_loads, ← sum_lift]
    refine sum_congr rfl fun i hi => sum_congr rfl fun j hj => ?_
    rw [mem_range] at hi hj
    rw [fill_loads]
    unfold lift
    rw [dif_pos ⟨hi, hj⟩]
    dsimp only
    by_cases hg : S.gap i j < h
    · rw [if_pos ((hmem i j).2 ⟨hi, hj, hg⟩), if_pos hg]
    · rw [if_neg fun hm => hg ((hmem i j).1 hm).2.2, if_neg hg]

lemma Ideal.mono {S : Setup} {c0 c1 : Bool} {M : Option ℝ} (hS : Ideal S c0 c1 M) : Monotone hS.load := by
  intro h h' hh
  obtain ⟨u, hu⟩ := hS.pressures h
  obtain ⟨u', hu'⟩ := hS.pressures h'
  rw [hS.load_eq hu, hS.load_eq hu']
  exact mul_le_mul_of_nonneg_right (Contact.load_mono hS.definite hu hu' hh) (sq_nonneg _)

/-- The operations as those of the cache. -/
def cacheOps : List Op → List (HeightCache.Op Mask)
  | [] => []
  | .call h :: ops => .call h :: cacheOps ops
  | .changeLoad l d :: ops => .changeLoad l d :: cacheOps ops
  | .clear :: ops => .clear :: cacheOps ops
  | .read :: ops => cacheOps ops

lemma call_cache (S : Setup) (o : Obj) (h : ℝ) : (call S o h).1.cache = (HeightCache.call S.problem o.cache h).1 ∧ (call S o h).2 = (HeightCache.call S.problem o.cache h).2 := by
  unfold call
  dsimp only
  split
  · exact ⟨rfl, rfl⟩
  · split <;> exact ⟨rfl, rfl⟩

lemma run_cache (S : Setup) (o : Obj) (ops : List Op) : (run S o ops).cache = HeightCache.run S.problem o.cache (cacheOps ops) := by
  induction ops generalizing o with
  | nil => rfl
  | cons op ops ih =>
    have : run S o (op :: ops) = run S (step S o op) ops := rfl
    rw [this, ih]
    cases op with
    | call h => rw [show (step S o (.call h)).cache = _ from (call_cache S o h).1]; rfl
    | changeLoad l d => rfl
    | clear => rfl
    | read => rw [show (step S o .read).cache = _ from (read_fields S o).1]; rfl

lemma noNodes_cacheOps {ops : List Op} (h : Unfixed ops) : NoNodes (cacheOps ops) := by
  induction ops with
  | nil => trivial
  | cons op ops ih =>
    have ih' := ih fun l d hm => h l d (List.mem_cons_of_mem _ hm)
    cases op with
    | call x => exact ih'
    | clear => exact ih'
    | read => exact ih'
    | changeLoad l d =>
      cases d with
      | none => exact ih'
      | some d => exact h l d List.mem_cons_self

lemma Ideal.kept {S : Setup} {c0 c1 : Bool} {M : Option ℝ} (hS : Ideal S c0 c1 M) {l : ℝ} {o : Obj} (h0 : new S l = .ok o) {ops : List Op} (hops : Unfixed ops) :
    HeightCache.Inv S.problem (run S o ops).cache ∧ Kept hS.load (run S o ops).cache := by
  unfold new at h0
  split at h0
  · cases h0
  rename_i s hs
  cases h0
  rw [run_cache]
  refine ⟨HeightCache.inv_run _ _ _ (HeightCache.inv_init _ (fun h l hm => (hS.loads.max h l hm).1) none l s hs), true_run hS.loads (true_init hs) _ (noNodes_cacheOps hops)⟩

/-! ## Theorems -/

/-- C151: after every history without fixed nodes the value for a height is the load of the contact problem on the whole grid at this height less the set load, whether it is in the cache, was cleared from it, or has no nodes in contact.
Leaving out the nodes without overlap changes nothing. -/
theorem C151_value {S : Setup} {c0 c1 : Bool} {M : Option ℝ} (hS : Ideal S c0 c1 M) {l : ℝ} {o : Obj} (h0 : new S l = .ok o) {ops : List Op} (hops : Unfixed ops) (h : ℝ) :
    ∃! u, Pressures S c0 c1 M h u ∧ (call S (run S o ops) h).2 = .ok ((∑ q, u q) * S.spacing ^ 2 - (run S o ops).cache.setLoad) := by
  obtain ⟨u, hu⟩ := hS.pressures h
  obtain ⟨hi, hk⟩ := hS.kept h0 hops
  refine ⟨u, ⟨hu, ?_⟩, fun v hv => Contact.unique hS.definite hu hv.1⟩
  rw [(call_cache S _ h).2, value hS.matrices hS.loads hi hk, hS.load_eq hu]

/-- C151: the function never falls with the height, and the loads in the cache are in order, after every history without fixed nodes. -/
theorem C151_rises {S : Setup} {c0 c1 : Bool} {M : Option ℝ} (hS : Ideal S c0 c1 M) {l : ℝ} {o : Obj} (h0 : new S l = .ok o) {ops : List Op} (hops : Unfixed ops) :
    (run S o ops).cache.totals.Pairwise (· ≤ ·) ∧ ∀ h h', h ≤ h' → ∃ v v', (call S (run S o ops) h).2 = .ok v ∧ (call S (run S o ops) h').2 = .ok v' ∧ v ≤ v' := by
  obtain ⟨hi, hk⟩ := hS.kept h0 hops
  constructor
  · rw [stored hS.loads hi hk, List.pairwise_map]
    exact hi.sorted.imp fun hab => hS.mono hab
  · intro h h' hh
    refine ⟨_, _, (call_cache S _ h).2.trans (value hS.matrices hS.loads hi hk h), (call_cache S _ h').2.trans (value hS.matrices hS.loads hi hk h'), ?_⟩
    have := hS.mono hh
    linarith

/-- C151: it rises where a node carries pressure below the largest one, so that there is only one height for such a load. -/
theorem C151_one_height {S : Setup} {c0 c1 : Bool} {M : Option ℝ} (hS : Ideal S c0 c1 M) (hsp : S.spacing ≠ 0) {l : ℝ} {o : Obj} (h0 : new S l = .ok o) {ops : List Op} (hops : Unfixed ops) {h h' : ℝ} (hh : h < h')
    {u : Fin S.rows × Fin S.cols → ℝ} (hu : Pressures S c0 c1 M h u) {q : Fin S.rows × Fin S.cols} (hq : 0 < u q) (hM : M ≠ some (u q)) :
    ∃ v v', (call S (run S o ops) h).2 = .ok v ∧ (call S (run S o ops) h').2 = .ok v' ∧ v < v' := by
  obtain ⟨hi, hk⟩ := hS.kept h0 hops
  obtain ⟨u', hu'⟩ := hS.pressures h'
  refine ⟨_, _, (call_cache S _ h).2.trans (value hS.matrices hS.loads hi hk h), (call_cache S _ h').2.trans (value hS.matrices hS.loads hi hk h'), ?_⟩
  have := mul_lt_mul_of_pos_right (Contact.load_strict hS.definite hu hu' hh trivial hq hM) (by positivity : 0 < S.spacing ^ 2)
  rw [hS.load_eq hu, hS.load_eq hu']
  linarith

/-- C151: between a height with too small and one with too large a load there is a height for which the function is zero. -/
theorem C151_reached {S : Setup} {c0 c1 : Bool} {M : Option ℝ} (hS : Ideal S c0 c1 M) (hsp : S.spacing ≠ 0) {l : ℝ} {o : Obj} (h0 : new S l = .ok o) {ops : List Op} (hops : Unfixed ops) {h h' v v' : ℝ} (hh : h ≤ h')
    (hv : (call S (run S o ops) h).2 = .ok v) (hv' : (call S (run S o ops) h').2 = .ok v') (hn : v ≤ 0) (hp : 0 ≤ v') : ∃ k, h ≤ k ∧ k ≤ h' ∧ (call S (run S o ops) k).2 = .ok 0 := by
  obtain ⟨hi, hk⟩ := hS.kept h0 hops
  obtain ⟨u, hu⟩ := hS.pressures h
  obtain ⟨u', hu'⟩ := hS.pressures h'
  have hpos : 0 < S.spacing ^ 2 := by positivity
  rw [(call_cache S _ h).2, value hS.matrices hS.loads hi hk, hS.load_eq hu] at hv
  rw [(call_cache S _ h').2, value hS.matrices hS.loads hi hk, hS.load_eq hu'] at hv'
  cases hv
  cases hv'
  obtain ⟨k, w, k1, k2, hw, hs⟩ := Contact.load_reached hS.definite (fun _ m hm => hS.limit m hm) hu hu' hh (l := (run S o ops).cache.setLoad / S.spacing ^ 2)
    (by rw [le_div_iff₀ hpos]; linarith) (by rw [div_le_iff₀ hpos]; linarith)
  refine ⟨k, k1, k2, ?_⟩
  rw [(call_cache S _ k).2, value hS.matrices hS.loads hi hk, hS.load_eq hw, hs, div_mul_cancel₀ _ hpos.ne', sub_self]

/-- C151: if the cache holds a load below the set one and one that is not, and the bounds are taken from it, there is a height between the two for which the function is zero, unless `|ub' - lb| / ub' < 1e-10`, which holds if they agree up to this relative error, or are negative; then it lies between the two heights in the cache. -/
theorem C151_bracket {S : Setup} {c0 c1 : Bool} {M : Option ℝ} (hS : Ideal S c0 c1 M) (hsp : S.spacing ≠ 0) {l : ℝ} {o : Obj} (h0 : new S l = .ok o) {ops : List Op} (hops : Unfixed ops) {lower upper lb ub : ℝ}
    (hbelow : ∃ t ∈ (run S o ops).cache.totals, t < (run S o ops).cache.setLoad) (habove : ∃ t ∈ (run S o ops).cache.totals, (run S o ops).cache.setLoad ≤ t) (hlower : ∀ h ∈ (run S o ops).cache.heights, lower ≤ h)
    (hb : getBounds S.problem (run S o ops).cache lower upper = .ok (lb, ub)) :
    (∃ k, lb ≤ k ∧ k ≤ ub ∧ (call S (run S o ops) k).2 = .ok 0) ∨ ∃ k, lb ≤ k ∧ (call S (run S o ops) k).2 = .ok 0 ∧ ∃ ub' ∈ (run S o ops).cache.heights, k ≤ ub' ∧ ub' ≠ 0 ∧ |ub' - lb| / ub' < 1e-10 := by
  obtain ⟨hi, hk⟩ := hS.kept h0 hops
  obtain ⟨hsort, -⟩ := C151_rises hS h0 hops
  have h0' := h0
  unfold new at h0'
  split at h0'
  · cases h0'
  rename_i s hs
  cases h0'
  have hst := stored hS.loads hi hk
  have key : ∀ (i : ℕ) (x t : ℝ), (run S ⟨s, none, none⟩ ops).cache.heights[i]? = some x → (run S ⟨s, none, none⟩ ops).cache.totals[i]? = some t →
      (call S (run S ⟨s, none, none⟩ ops) x).2 = .ok (t - (run S ⟨s, none, none⟩ ops).cache.setLoad) := by
    intro i x t hx ht
    rw [hst, List.getElem?_map, hx] at ht
    cases ht
    rw [(call_cache S _ x).2, value hS.matrices hS.loads hi hk]
  have hmem : ∀ (i : ℕ) (x : ℝ), (run S ⟨s, none, none⟩ ops).cache.heights[i]? = some x → x ∈ (run S ⟨s, none, none⟩ ops).cache.heights := fun i x hx => List.mem_of_getElem? hx
  have hrun := run_cache S ⟨s, none, none⟩ ops
  rw [hrun] at hb hbelow habove hlower hsort
  obtain ⟨i, t, t', ub', e1, e2, e3, e4, e5, e6, e7, e8⟩ := C25_bracket_both_sides S.problem (fun h l hm => (hS.loads.max h l hm).1) none l s hs (cacheOps ops) lower upper lb ub hsort hbelow habove hlower hb
  have e1' := e1
  rw [← hrun] at e1 e2 e3 e4 e5 e6
  obtain ⟨k, k1, k2, k3⟩ := C151_reached hS hsp h0 hops e7 (key i lb t e1 e2) (key _ ub' t' e4 e5) (by linarith) (by linarith)
  rcases e8 with rfl | e8
  · exact Or.inl ⟨k, k1, k2, k3⟩
  · exact Or.inr ⟨k, k1, k3, ub', hmem _ _ e4, k2, e8⟩

/-- Two nodes with gaps of 0 and 1, displaced by their own pressure only, at most 2. -/
noncomputable def soft : Setup where
  rows := 1
  cols := 2
  gap _ j := j
  spacing := 1 / 2
  backend := .cuda
  periodic := .int false
  im1 _ j := if j = 0 then 3 / 4 else 0
  im2 _ j := if j = 0 then 1 / 4 else 0
  bccg h _ := (fun q => min 2 (h - q.2), false)
  imMats := true
  maxEntry := some (3, 1)
  useCache := true
  useLoads := true
  cubic _ _ _ := .error .valueError

/-- The object that is made for it. -/
noncomputable def soft0 : Obj :=
  ⟨{ heights := [0, 3], totals := [0, 1], surfaceLoads := 2, setLoad := 1 / 2, contactNodes := none, setContactNodes := false, cacheMax := false, it := 0, results := none, lastFailed := false, log := [] }, none, none⟩

lemma soft_new : new soft (1 / 2) = .ok soft0 := by
  unfold new HeightCache.init
  simp [soft, Setup.problem, soft0]

lemma soft_bodies (u : Fin soft.rows × Fin soft.cols → ℝ) : bodies soft false false u = u := by
  funext ⟨i, j⟩
  have key : ∀ (u : Fin 1 × Fin 2 → ℝ) (i : Fin 1) (j : Fin 2), superpose false false 1 2 1 2 soft.im1 (lift u) i j + superpose false false 1 2 1 2 soft.im2 (lift u) i j = u (i, j) := by
    intro u i j
    have hi : i = 0 := Subsingleton.elim _ _
    subst hi
    have hj : j = 0 ∨ j = 1 := by omega
    have e : Int.toNat 1 = 1 := rfl
    have l0 : lift u 0 0 = u (0, 0) := by unfold lift; rw [dif_pos (by decide)]; rfl
    have l1 : lift u 0 1 = u (0, 1) := by unfold lift; rw [dif_pos (by decide)]; rfl
    rcases hj with rfl | rfl
    · norm_num [superpose, position, readAt, soft, sum_range_succ, l0, l1]; ring
    · norm_num [superpose, position, readAt, soft, sum_range_succ, l0, l1, e]; ring
  exact key u i j

lemma soft_ideal : Ideal soft false false (some 2) where
  matrices := rfl
  definite w hw := by
    rw [soft_bodies]
    obtain ⟨q, hq⟩ := Function.ne_iff.1 hw
    exact sum_pos' (fun i _ => mul_self_nonneg _) ⟨q, mem_univ _, mul_self_pos.2 hq⟩
  settles w hw i := by rw [soft_bodies]; exact hw i
  limit m hm := by cases hm; norm_num
  touch i j _ _ := Nat.cast_nonneg j
  solves h L _ _ := by
    refine ⟨fun i hi => if_neg hi, fun i hi => ?_, fun i hi m hm => ?_, fun i hi hlt => ?_, fun i hi hlt => ?_⟩
    · rw [if_pos hi]
      exact le_min (by norm_num) (sub_nonneg.2 (le_of_lt hi))
    · rw [if_pos hi]
      cases hm
      exact min_le_left _ _
    · exfalso
      rw [soft_bodies, if_pos hi] at hlt
      exact absurd (min_le_right _ _) (not_le.2 hlt)
    · rw [soft_bodies, if_pos hi] at hlt
      rw [if_pos hi]
      have : min 2 (h - ((i.2 : ℕ) : ℝ)) = 2 := by
        rcases min_choice 2 (h - ((i.2 : ℕ) : ℝ)) with e | e
        · exact e
        · exact absurd e (ne_of_lt hlt)
      exact congrArg some this.symm
  max h l hm := by
    cases hm
    refine ⟨2, rfl, by norm_num [soft], by norm_num, fun q => ?_⟩
    rw [soft_bodies]
    have : ((q.2 : ℕ) : ℝ) ≤ 1 := by exact_mod_cast Nat.lt_succ_iff.1 q.2.2
    show 2 + ((q.2 : ℕ) : ℝ) ≤ 3
    linarith

/-- The pressures at height 3/2 are 3/2 and 1/2. -/
lemma soft_pressures : Pressures soft false false (some 2) (3 / 2) fun q => 3 / 2 - ((q.2 : ℕ) : ℝ) := by
  have hq : ∀ q : Fin 1 × Fin 2, ((q.2 : ℕ) : ℝ) ≤ 1 := fun q => by exact_mod_cast Nat.lt_succ_iff.1 q.2.2
  refine ⟨fun i hi => absurd trivial hi, fun i _ => ?_, fun i _ m hm => ?_, fun i _ hlt => ?_, fun i _ hlt => ?_⟩
  · have := hq i
    linarith
  · cases hm
    have : (0 : ℝ) ≤ ((i.2 : ℕ) : ℝ) := Nat.cast_nonneg _
    linarith
  · rw [soft_bodies] at hlt
    exact absurd hlt (lt_irrefl _)
  · rw [soft_bodies] at hlt
    exact absurd hlt (lt_irrefl _)

/-- The hypotheses of `C151_value`: after a call, a clear and a change of the load the value at height 3/2 is 2/4 - 9. -/
example : (call soft (run soft soft0 [.call 1, .clear, .call 2, .changeLoad 9 none]) (3 / 2)).2 = .ok (1 / 2 - 9) := by
  obtain ⟨u, ⟨hu, hv⟩, -⟩ := C151_value soft_ideal soft_new (ops := [.call 1, .clear, .call 2, .changeLoad 9 none]) (fun l d hm => by simp at hm) (3 / 2)
  have hu' := Contact.unique soft_ideal.definite soft_pressures hu
  rw [hv, hu']
  have hl : (run soft soft0 [.call 1, .clear, .call 2, .changeLoad 9 none]).cache.setLoad = 9 := rfl
  have hs : ∑ q : Fin 1 × Fin 2, (3 / 2 - ((q.2 : ℕ) : ℝ)) = 2 := by
    rw [Fintype.sum_prod_type]
    norm_num [Fin.sum_univ_succ]
  rw [hl, show ∑ q : Fin soft.rows × Fin soft.cols, (3 / 2 - ((q.2 : ℕ) : ℝ)) = 2 from hs]
  norm_num [soft]

/-- The hypotheses of `C151_rises` and `C151_one_height`: the value is larger at height 2 than at height 3/2. -/
example : ∃ v v', (call soft (run soft soft0 [.call 1]) (3 / 2)).2 = .ok v ∧ (call soft (run soft soft0 [.call 1]) 2).2 = .ok v' ∧ v < v' :=
  C151_one_height soft_ideal (by norm_num [soft]) soft_new (fun l d hm => by simp at hm) (by norm_num) soft_pressures (q := ((0 : Fin 1), (0 : Fin 2))) (by norm_num) (by norm_num)

/-- The hypotheses of `C151_bracket`: the load of 1/2 lies between the two in the cache; the bounds are 0 and 3. -/
example : ∃ k, 0 ≤ k ∧ k ≤ 3 ∧ (call soft (run soft soft0 []) k).2 = .ok 0 := by
  have hi : bisectLeft [0, 1] (1 / 2) = 1 := by
    obtain ⟨h1, h2, h3⟩ := bisectLeft_spec [0, 1] (1 / 2)
    generalize bisectLeft [0, 1] (1 / 2) = i at *
    have : i ≤ 2 := h1
    obtain rfl | rfl | rfl : i = 0 ∨ i = 1 ∨ i = 2 := by omega
    · have := h3 0 rfl
      norm_num at this
    · rfl
    · have := h2 1 (by norm_num) rfl
      norm_num at this
  have hb : getBounds soft.problem (run soft soft0 []).cache (-1) 10 = .ok (0, 3) := by
    unfold getBounds
    have e1 : (run soft soft0 []).cache.totals = [0, 1] := rfl
    have e2 : (run soft soft0 []).cache.heights = [0, 3] := rfl
    have e3 : (run soft soft0 []).cache.setLoad = 1 / 2 := rfl
    rw [e1, e2, e3, hi]
    norm_num
  rcases C151_bracket soft_ideal (by norm_num [soft]) soft_new (ops := []) (fun l d hm => by cases hm) ⟨0, by simp [run, soft0], by norm_num [run, soft0]⟩ ⟨1, by simp [run, soft0], by norm_num [run, soft0]⟩
    (fun h hm => by simp [run, soft0] at hm; rcases hm with rfl | rfl <;> norm_num) hb with h | ⟨k, h1, h2, ub', h3, h4, h5, h6⟩
  · exact h
  · exfalso
    simp [run, soft0] at h3
    rcases h3 with rfl | rfl
    · exact h5 rfl
    · norm_num at h6

/-- The hypotheses of `C151_reached`: at height 0 the value is -1/2, at height 3 it is 1/2. -/
example : ∃ k, 0 ≤ k ∧ k ≤ 3 ∧ (call soft (run soft soft0 []) k).2 = .ok 0 := by
  refine C151_reached soft_ideal (by norm_num [soft]) soft_new (ops := []) (fun l d hm => by cases hm) (h := 0) (h' := 3) (v := 0 - 1 / 2) (v' := 1 - 1 / 2) (by norm_num) ?_ ?_ (by norm_num) (by norm_num)
  · rw [(call_cache _ _ _).2, value soft_ideal.matrices soft_ideal.loads (soft_ideal.kept soft_new (ops := []) fun l d hm => by cases hm).1 (soft_ideal.kept soft_new (ops := []) fun l d hm => by cases hm).2, soft_ideal.loads.zero]
    rfl
  · rw [(call_cache _ _ _).2, value soft_ideal.matrices soft_ideal.loads (soft_ideal.kept soft_new (ops := []) fun l d hm => by cases hm).1 (soft_ideal.kept soft_new (ops := []) fun l d hm => by cases hm).2, ← (soft_ideal.loads.max 3 1 rfl).2]
    rfl

end Verif.HeightResults
