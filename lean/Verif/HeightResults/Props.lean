import Verif.Conv.BackendProps
import Verif.HeightResults.Model

/-!
# C148: the results of the height search
-/

namespace Verif.HeightResults

open Verif HeightCache Conv Finset

/-! ## Specification -/

/-- The contact nodes that the caller has fixed: those of the last change of the load. -/
def given (ops : List Op) : Option Mask := ops.foldl (fun g op => match op with | .changeLoad _ d => d | _ => g) none

/-- The nodes on which the loads of a height are sought: the fixed ones, otherwise those where the height exceeds the gap. -/
def sought (S : Setup) (ops : List Op) (h : ℝ) : ℕ → ℕ → Prop := match given ops with
  | some d => fun i j => d i j = true
  | none => fun i j => S.gap i j < h

/-- `f` describes the contact at height `h` for loads `p` on the nodes `D`: two displacements by superposition, which make up the total. -/
structure Describes (S : Setup) (c0 c1 : Bool) (D : ℕ → ℕ → Prop) (p : ℕ × ℕ → ℝ) (h : ℝ) (f : Full) : Prop where
  inside : ∀ i j, i < S.rows → j < S.cols → D i j → f.loads i j = p (i, j)
  outside : ∀ i j, i < S.rows → j < S.cols → ¬D i j → f.loads i j = 0
  first : ∀ i j, i < S.rows → j < S.cols → f.disp1 i j = superpose c0 c1 S.rows S.cols S.rows S.cols S.im1 f.loads i j
  second : ∀ i j, i < S.rows → j < S.cols → f.disp2 i j = superpose c0 c1 S.rows S.cols S.rows S.cols S.im2 f.loads i j
  total : ∀ i j, i < S.rows → j < S.cols → f.total i j = f.disp1 i j + f.disp2 i j
  contact : ∀ i j, i < S.rows → j < S.cols → (f.contact i j = true ↔ 0 < f.loads i j)
  load : f.load = S.spacing ^ 2 * ∑ i ∈ range S.rows, ∑ j ∈ range S.cols, f.loads i j
  interference : f.interference = h

/-- Operations after which there is no new solution: calls that are answered from the cache, clearing it, and reading. -/
def Quiet (S : Setup) : Obj → List Op → Prop
  | _, [] => True
  | o, op :: ops => (match op with | .call h => h ∈ o.cache.heights | .changeLoad _ _ => False | .clear => True | .read => True) ∧ Quiet S (step S o op) ops

/-! ## Lemmas -/

lemma addToCache_fields {N : Type} (P : Problem N) (s : State N) (h t : ℝ) (b : Bool) :
    (addToCache P s h t b).setContactNodes = s.setContactNodes ∧ (addToCache P s h t b).contactNodes = s.contactNodes ∧ (addToCache P s h t b).setLoad = s.setLoad := by
  unfold addToCache
  split_ifs <;> exact ⟨rfl, rfl, rfl⟩

lemma solveHeight_fields {N : Type} (P : Problem N) (s : State N) (h : ℝ) :
    (solveHeight P s h).1.setContactNodes = s.setContactNodes ∧ (solveHeight P s h).1.contactNodes = some (nodesFor P s h) := by
  unfold solveHeight
  dsimp only
  split_ifs
  · exact ⟨(addToCache_fields _ _ _ _ _).1, (addToCache_fields _ _ _ _ _).2.1⟩
  · exact ⟨(addToCache_fields _ _ _ _ _).1, (addToCache_fields _ _ _ _ _).2.1⟩

/-- What the object knows about fixed nodes. -/
def Inv (S : Setup) (g : Option Mask) (o : Obj) : Prop := match g with
  | some d => o.cache.setContactNodes = true ∧ o.cache.contactNodes = some d ∧ (S.imMats = true → o.planned = some d)
  | none => o.cache.setContactNodes = false

lemma call_cached {S : Setup} {o : Obj} {h : ℝ} (hh : h ∈ o.cache.heights) : (call S o h).1 = o := by
  unfold call
  rw [if_pos hh]
  unfold HeightCache.call
  rw [if_pos hh]
  split <;> rfl

lemma call_new {S : Setup} {o : Obj} {h : ℝ} (hi : S.imMats = true) (hh : h ∉ o.cache.heights) :
    call S o h = (⟨(solveHeight S.problem o.cache h).1, if (S.nodes (nodesFor S.problem o.cache h)).isEmpty then o.results else
      some (.raw (S.loads h (nodesFor S.problem o.cache h)) (nodesFor S.problem o.cache h) h),
      if o.cache.setContactNodes then o.planned else some (nodesFor S.problem o.cache h)⟩, .ok (solveHeight S.problem o.cache h).2) := by
  have e : HeightCache.call S.problem o.cache h = ((solveHeight S.problem o.cache h).1, .ok (solveHeight S.problem o.cache h).2) := by
    unfold HeightCache.call
    rw [if_neg hh, if_pos (show S.problem.imMats = true from hi)]
  unfold call
  rw [if_neg hh, if_pos hi, e]

lemma call_other {S : Setup} {o : Obj} {h : ℝ} (hi : S.imMats = false) (hh : h ∉ o.cache.heights) :
    call S o h = ({ o with cache := { o.cache with it := o.cache.it + 1 } }, .error .typeError) := by
  have e : HeightCache.call S.problem o.cache h = ({ o.cache with it := o.cache.it + 1 }, .error .typeError) := by
    unfold HeightCache.call
    rw [if_neg hh, if_neg (by rw [show S.problem.imMats = false from hi]; simp)]
  unfold call
  rw [if_neg hh, if_neg (by rw [hi]; simp), e]

lemma read_fields (S : Setup) (o : Obj) : (read S o).2.cache = o.cache ∧ (read S o).2.planned = o.planned := by
  unfold read
  split
  · exact ⟨rfl, rfl⟩
  · split_ifs <;> exact ⟨rfl, rfl⟩
  · split <;> exact ⟨rfl, rfl⟩

lemma clearCache_fields {N : Type} (s : State N) : (clearCache s).setContactNodes = s.setContactNodes ∧ (clearCache s).contactNodes = s.contactNodes ∧ (clearCache s).setLoad = s.setLoad := by
  unfold clearCache
  split_ifs <;> exact ⟨rfl, rfl, rfl⟩

lemma Inv.step {S : Setup} {g : Option Mask} {o : Obj} (hv : Inv S g o) (op : Op) : Inv S (match op with | .changeLoad _ d => d | _ => g) (step S o op) := by
  cases op with
  | changeLoad l d =>
    cases d with
    | none => rfl
    | some d => exact ⟨rfl, rfl, fun h => by simp [HeightResults.step, HeightResults.changeLoad, h]⟩
  | clear =>
    obtain ⟨h1, h2, -⟩ := clearCache_fields o.cache
    cases g with
    | none => exact h1.trans hv
    | some d => exact ⟨h1.trans hv.1, h2.trans hv.2.1, hv.2.2⟩
  | read =>
    obtain ⟨h1, h2⟩ := read_fields S o
    change Inv S g (read S o).2
    cases g with
    | none => exact (congrArg State.setContactNodes h1).trans hv
    | some d => exact ⟨(congrArg State.setContactNodes h1).trans hv.1, (congrArg State.contactNodes h1).trans hv.2.1, fun h => h2.trans (hv.2.2 h)⟩
  | call h =>
    change Inv S g (call S o h).1
    by_cases hh : h ∈ o.cache.heights
    · rwa [call_cached hh]
    · by_cases hi : S.imMats = true
      · rw [call_new hi hh]
        obtain ⟨h1, h2⟩ := solveHeight_fields S.problem o.cache h
        cases g with
        | none => exact h1.trans hv
        | some d =>
          have hn : nodesFor S.problem o.cache h = d := by unfold nodesFor; rw [hv.1, hv.2.1]
          refine ⟨h1.trans hv.1, by rw [← hn]; exact h2, fun _ => ?_⟩
          dsimp only
          rw [hv.1, if_pos rfl]
          exact hv.2.2 hi
      · rw [call_other (by simpa using hi) hh]
        cases g with
        | none => exact hv
        | some d => exact hv

lemma new_fields {S : Setup} {l : ℝ} {o : Obj} (h0 : new S l = .ok o) :
    o.cache.setContactNodes = false ∧ o.cache.setLoad = l ∧ o.cache.heights.head? = some 0 ∧ o.cache.totals.head? = some 0 ∧ o.results = none := by
  unfold new at h0
  cases hc : HeightCache.init S.problem none l with
  | error e => rw [hc] at h0; cases h0
  | ok s =>
    rw [hc] at h0
    cases h0
    unfold HeightCache.init at hc
    dsimp only at hc
    by_cases hcond : (S.problem.imMats && S.problem.useCache) = true
    · rw [if_pos hcond] at hc
      cases hm : S.problem.maxEntry with
      | none => rw [hm] at hc; cases hc; exact ⟨rfl, rfl, rfl, rfl, rfl⟩
      | some e => rw [hm] at hc; cases hc; exact ⟨rfl, rfl, rfl, rfl, rfl⟩
    · rw [if_neg hcond] at hc
      cases hc
      exact ⟨rfl, rfl, rfl, rfl, rfl⟩

lemma inv_run {S : Setup} {l : ℝ} {o : Obj} (h0 : new S l = .ok o) (ops : List Op) : Inv S (given ops) (run S o ops) := by
  have key : ∀ (ops : List Op) (g : Option Mask) (o : Obj), Inv S g o → Inv S (ops.foldl (fun g op => match op with | .changeLoad _ d => d | _ => g) g) (run S o ops) := by
    intro ops
    induction ops with
    | nil => exact fun _ _ h => h
    | cons op ops ih => exact fun g o hv => ih _ _ (hv.step op)
  exact key ops none o (new_fields h0).1

lemma inv_run' {S : Setup} {l : ℝ} {o : Obj} (h0 : new S l = .ok o) (ops : List Op) (h : ℝ) :
    ∀ i j, nodesFor S.problem (run S o ops).cache h i j = true ↔ sought S ops h i j := by
  intro i j
  have hv := inv_run h0 ops
  unfold sought nodesFor
  generalize given ops = g at hv
  cases g with
  | none =>
    change (run S o ops).cache.setContactNodes = false at hv
    rw [hv]
    dsimp only [Setup.problem]
    rw [decide_eq_true_iff]
    constructor <;> intro h <;> linarith
  | some d => rw [hv.1, hv.2.1]

lemma planned_run {S : Setup} {l : ℝ} {o : Obj} (h0 : new S l = .ok o) (ops : List Op) (h : ℝ) (hi : S.imMats = true) :
    (if (run S o ops).cache.setContactNodes then (run S o ops).planned else some (nodesFor S.problem (run S o ops).cache h)) = some (nodesFor S.problem (run S o ops).cache h) := by
  have hv := inv_run h0 ops
  unfold nodesFor
  generalize given ops = g at hv
  cases g with
  | none =>
    change (run S o ops).cache.setContactNodes = false at hv
    rw [hv]
    simp
  | some d => rw [hv.1, hv.2.1, hv.2.2 hi]; simp

lemma superpose_add (c0 c1 : Bool) (L0 L1 S0 S1 : ℕ) (im1 im2 loads : ℕ → ℕ → ℝ) (i j : ℕ) :
    superpose c0 c1 L0 L1 S0 S1 (fun u v => im1 u v + im2 u v) loads i j = superpose c0 c1 L0 L1 S0 S1 im1 loads i j + superpose c0 c1 L0 L1 S0 S1 im2 loads i j := by
  unfold superpose
  rw [← sum_add_distrib]
  refine sum_congr rfl fun a _ => ?_
  rw [← sum_add_distrib]
  refine sum_congr rfl fun b _ => ?_
  unfold readAt
  split_ifs <;> ring

lemma mem_nodes {S : Setup} {d : Mask} {i j : ℕ} : (i, j) ∈ S.nodes d ↔ i < S.rows ∧ j < S.cols ∧ d i j = true := (C118_nodes S.rows S.cols d).1 (i, j)

lemma fill_loads (S : Setup) (h : ℝ) (d : Mask) (i j : ℕ) :
    fill S.rows S.cols d (S.loads h d) i j = if (i, j) ∈ S.nodes d then (S.bccg h (S.nodes d)).1 (i, j) else 0 := by
  unfold fill
  change (if (i, j) ∈ S.nodes d then _ else _) = _
  split_ifs with hm
  · have hlt := List.idxOf_lt_length_of_mem hm
    unfold Setup.loads
    change (List.map _ (S.nodes d)).getD ((S.nodes d).idxOf (i, j)) 0 = _
    rw [List.getD_eq_getElem?_getD, List.getElem?_map, List.getElem?_eq_getElem hlt, Option.map_some, Option.getD_some, List.getElem_idxOf hlt]
  · rfl

lemma sum_loads (S : Setup) (h : ℝ) (d : Mask) : (S.loads h d).sum = ∑ i ∈ range S.rows, ∑ j ∈ range S.cols, fill S.rows S.cols d (S.loads h d) i j := by
  rw [sum_indices S.rows S.cols (fun i j => fill S.rows S.cols d (S.loads h d) i j)]
  have hs : ∀ l : List (ℕ × ℕ), (∀ p ∈ l, p ∈ indices S.rows S.cols) → (l.map fun p => fill S.rows S.cols d (S.loads h d) p.1 p.2).sum =
      ((l.filter fun p => d p.1 p.2).map (S.bccg h (S.nodes d)).1).sum := by
    intro l hl
    induction l with
    | nil => rfl
    | cons p l ih =>
      rw [List.map_cons, List.sum_cons, ih fun q hq => hl q (List.mem_cons_of_mem _ hq), fill_loads]
      have hin := mem_indices.1 (hl p List.mem_cons_self)
      by_cases hp : d p.1 p.2 = true
      · rw [List.filter_cons_of_pos (p := fun p : ℕ × ℕ => d p.1 p.2) hp, List.map_cons, List.sum_cons, if_pos (mem_nodes.2 ⟨hin.1, hin.2, hp⟩)]
      · rw [List.filter_cons_of_neg (p := fun p : ℕ × ℕ => d p.1 p.2) hp, if_neg fun hm => hp (mem_nodes.1 hm).2.2, zero_add]
  rw [hs _ fun _ h => h]
  rfl

lemma assign_loads (S : Setup) (h : ℝ) (d : Mask) : assign S d (S.loads h d) = .ok (fill S.rows S.cols d (S.loads h d)) := by
  unfold assign
  rw [if_pos (by simp [Setup.loads])]

/-- The implementations and the arguments for which the plans succeed. -/
structure Sound (S : Setup) (c0 c1 : Bool) : Prop where
  backend : S.backend.Ok
  periodic : Means S.periodic c0 c1
  rows : 0 < S.rows
  cols : 0 < S.cols
  matrices : S.imMats = true

lemma Sound.plan {S : Setup} {c0 c1 : Bool} (hS : Sound S c0 c1) (im : ℕ → ℕ → ℝ) : ∃ f, HeightResults.plan S im = .ok f ∧
    ∀ loads i j, i < S.rows → j < S.cols → f loads i j = superpose c0 c1 S.rows S.cols S.rows S.cols im loads i j :=
  C118_superposition _ hS.backend _ _ _ hS.periodic _ _ _ _ hS.rows hS.cols (fun _ => rfl) (fun _ => rfl) im

/-- The dictionary made from loads that are assigned to the nodes of the solution as `a`, and to those of the plan as `b`. -/
lemma Sound.finish {S : Setup} {c0 c1 : Bool} (hS : Sound S c0 c1) {v : List ℝ} {d d' : Mask} {a b : ℕ → ℕ → ℝ} (ha : assign S d v = .ok a) (hb : assign S d' v = .ok b) (h : ℝ) :
    ∃ f, HeightResults.finish S (some d') v d h = .ok f ∧ f.loads = a ∧ (∀ i j, f.contact i j = true ↔ 0 < a i j) ∧ f.load = v.sum * S.spacing ^ 2 ∧ f.interference = h ∧
      ∀ i j, i < S.rows → j < S.cols → f.disp1 i j = superpose c0 c1 S.rows S.cols S.rows S.cols S.im1 a i j ∧ f.disp2 i j = superpose c0 c1 S.rows S.cols S.rows S.cols S.im2 a i j ∧
        f.total i j = superpose c0 c1 S.rows S.cols S.rows S.cols S.im1 b i j + superpose c0 c1 S.rows S.cols S.rows S.cols S.im2 b i j := by
  obtain ⟨f, hf, hf'⟩ := hS.plan fun i j => S.im1 i j + S.im2 i j
  obtain ⟨f1, hf1, hf1'⟩ := hS.plan S.im1
  obtain ⟨f2, hf2, hf2'⟩ := hS.plan S.im2
  refine ⟨{ loads := a, total := f b, disp1 := f1 a, disp2 := f2 a, contact := fun i j => open Classical in decide (0 < a i j), load := v.sum * S.spacing ^ 2, interference := h }, ?_, rfl, ?_, rfl, rfl, ?_⟩
  · unfold HeightResults.finish convFunc
    rw [ha]
    dsimp only [Bind.bind, Except.bind]
    rw [hf]
    dsimp only
    rw [hb]
    dsimp only
    rw [hf1]
    dsimp only
    rw [hf2]
  · intro i j
    simp
  · intro i j hi hj
    exact ⟨hf1' _ i j hi hj, hf2' _ i j hi hj, (hf' _ i j hi hj).trans (superpose_add ..)⟩

/-- The state in which results `f` are waiting. -/
def Has (S : Setup) (v : List ℝ) (d : Mask) (h : ℝ) (f : Full) (o : Obj) : Prop :=
  o.results = some (.full f) ∨ o.results = some (.raw v d h) ∧ HeightResults.finish S o.planned v d h = .ok f

lemma Has.read {S : Setup} {v : List ℝ} {d : Mask} {h : ℝ} {f : Full} {o : Obj} (hh : Has S v d h f o) : (read S o).1 = .ok (some f) ∧ (read S o).2.results = some (.full f) := by
  unfold HeightResults.read
  rcases hh with e | ⟨e, e'⟩
  · rw [e]; exact ⟨rfl, e⟩
  · rw [e]; dsimp only; rw [e']; exact ⟨rfl, rfl⟩

lemma Has.quiet {S : Setup} {v : List ℝ} {d : Mask} {h : ℝ} {f : Full} {ops : List Op} {o : Obj} (hh : Has S v d h f o) (hq : Quiet S o ops) : Has S v d h f (run S o ops) := by
  induction ops generalizing o with
  | nil => exact hh
  | cons op ops ih =>
    refine ih ?_ hq.2
    cases op with
    | call t =>
      have : t ∈ o.cache.heights := hq.1
      change Has S v d h f (call S o t).1
      rwa [call_cached this]
    | changeLoad _ _ => exact hq.1.elim
    | clear => exact hh
    | read => exact .inl hh.read.2

/-! ## Theorems -/

/-- C148: whatever was done before, after a call for a height that is not in the cache and has contact nodes the results are those of this height: the loads that the solver found on the nodes, zero elsewhere; the displacement of each surface
is the superposition of the loads with its influence matrix and the total is their sum; the contact nodes are those with a positive load; the total load is the one that the call compared with the set load. Calls answered from the cache, clearing
the cache and reading do not change them. -/
theorem C148_results_partial (S : Setup) (c0 c1 : Bool) (hS : Sound S c0 c1) (l : ℝ) (o : Obj) (h0 : new S l = .ok o) (ops : List Op) (h : ℝ) (hh : h ∉ (run S o ops).cache.heights)
    (hc : ∃ i j, i < S.rows ∧ j < S.cols ∧ sought S ops h i j) :
    ∃ f d, (∀ i j, d i j = true ↔ sought S ops h i j) ∧ Describes S c0 c1 (sought S ops h) (S.bccg h (nodes S.rows S.cols d)).1 h f ∧
      (call S (run S o ops) h).2 = .ok (f.load - (run S o ops).cache.setLoad) ∧
      ∀ later, Quiet S (call S (run S o ops) h).1 later → (read S (run S (call S (run S o ops) h).1 later)).1 = .ok (some f) := by
  have hd := inv_run' h0 ops h
  have hp := planned_run h0 ops h hS.matrices
  rw [call_new hS.matrices hh, hp]
  generalize hD : nodesFor S.problem (run S o ops).cache h = d at hd
  have hne : (S.nodes d).isEmpty = false := by
    obtain ⟨i, j, hi, hj, hs⟩ := hc
    have : (i, j) ∈ S.nodes d := mem_nodes.2 ⟨hi, hj, (hd i j).2 hs⟩
    rw [Bool.eq_false_iff]
    intro he
    rw [List.isEmpty_iff.1 he] at this
    cases this
  obtain ⟨f, hf, e1, e2, e3, e4, e5⟩ := hS.finish (assign_loads S h d) (assign_loads S h d) h
  refine ⟨f, d, hd, ⟨?_, ?_, ?_, ?_, ?_, ?_, ?_, e4⟩, ?_, fun later hq => ?_⟩
  · intro i j hi hj hs
    rw [e1, fill_loads, if_pos (mem_nodes.2 ⟨hi, hj, (hd i j).2 hs⟩)]
    rfl
  · intro i j hi hj hs
    rw [e1, fill_loads, if_neg fun hm => hs ((hd i j).1 (mem_nodes.1 hm).2.2)]
  · intro i j hi hj; rw [e1]; exact (e5 i j hi hj).1
  · intro i j hi hj; rw [e1]; exact (e5 i j hi hj).2.1
  · intro i j hi hj
    obtain ⟨a, b, c⟩ := e5 i j hi hj
    rw [a, b, c]
  · intro i j hi hj; rw [e1]; exact e2 i j
  · rw [e3, e1, ← sum_loads, mul_comm]
  · dsimp only
    unfold solveHeight
    rw [hD, if_neg (by rw [show S.problem.noNodes d = false from hne]; simp), e3]
    rfl
  · refine (Has.quiet (v := S.loads h d) (d := d) (h := h) (f := f) ?_ hq).read.1
    exact .inr ⟨by rw [hne]; rfl, hf⟩

/-- C148: reading twice gives the same. -/
theorem C148_again (S : Setup) (o : Obj) : (read S (read S o).2).1 = (read S o).1 := by
  unfold read
  cases hr : o.results with
  | none => by_cases hi : S.imMats = true <;> simp [hi, hr]
  | some r =>
    cases r with
    | full f => simp [hr]
    | raw v d h =>
      dsimp only
      cases hf : finish S o.planned v d h with
      | error e => simp [hr, hf]
      | ok f => rfl

/-- C148: a call answered from the cache leaves the results of an earlier height, whose load need not be the one of the last call: after height `h` was solved, height 0 is answered from the cache with a total load of zero, and the results are those of `h`. -/
theorem C148_cached_wrong (S : Setup) (c0 c1 : Bool) (hS : Sound S c0 c1) (l : ℝ) (o : Obj) (h0 : new S l = .ok o) (h : ℝ) (hp : 0 < h) (hh : h ∉ o.cache.heights)
    (hc : ∃ i j, i < S.rows ∧ j < S.cols ∧ S.gap i j < h) :
    ∃ f, (call S (call S o h).1 0).2 = .ok (0 - l) ∧ (read S (call S (call S o h).1 0).1).1 = .ok (some f) ∧ f.interference = h ∧ (call S o h).2 = .ok (f.load - l) := by
  obtain ⟨-, hl⟩ := new_fields h0
  have key : ∀ (s : State Mask) (t : ℝ) (b : Bool), s.heights.head? = some 0 → s.totals.head? = some 0 →
      (addToCache S.problem s h t b).heights.head? = some 0 ∧ (addToCache S.problem s h t b).totals.head? = some 0 := by
    intro s t b e1 e2
    unfold addToCache
    by_cases hcond : S.problem.useCache = true ∧ h ∉ s.heights ∧ b = false
    · rw [if_pos hcond]
      have hpos : bisectLeft s.heights h ≠ 0 := by
        cases hsh : s.heights with
        | nil => rw [hsh] at e1; cases e1
        | cons x xs =>
          rw [hsh] at e1
          cases e1
          intro hz
          have : ∀ n lo hi, hi - lo ≤ n → lo ≤ hi → bisectLoop (0 :: xs) h lo hi = 0 → lo = 0 ∧ (hi = 0 ∨ ¬(0 :: xs).getD 0 0 < h) := by
            intro n
            induction n with
            | zero =>
              intro lo hi hn hle he
              unfold bisectLoop at he
              rw [if_neg (by omega)] at he
              exact ⟨he, .inl (by omega)⟩
            | succ n ih =>
              intro lo hi hn hle he
              unfold bisectLoop at he
              by_cases hlt : lo < hi
              · rw [if_pos hlt] at he
                dsimp only at he
                by_cases hm : (0 :: xs).getD ((lo + hi) / 2) 0 < h
                · rw [if_pos hm] at he
                  have := (ih _ _ (by omega) (by omega) he).1
                  omega
                · rw [if_neg hm] at he
                  obtain ⟨a, b⟩ := ih _ _ (by omega) (by omega) he
                  refine ⟨a, .inr ?_⟩
                  rcases b with b | b
                  · rwa [b] at hm
                  · exact b
              · rw [if_neg hlt] at he
                exact ⟨he, .inl (by omega)⟩
          rcases (this _ _ _ le_rfl (Nat.zero_le _) hz).2 with e | e
          · simp at e
          · exact e (by simpa using hp)
      obtain ⟨k, hk⟩ := Nat.exists_eq_succ_of_ne_zero hpos
      dsimp only
      rw [hk]
      constructor
      · cases hsh : s.heights with
        | nil => rw [hsh] at e1; cases e1
        | cons x xs => rw [hsh] at e1; simpa using e1
      · cases hsh : s.totals with
        | nil => rw [hsh] at e2; cases e2
        | cons x xs => rw [hsh] at e2; simpa using e2
    · rw [if_neg hcond]; exact ⟨e1, e2⟩
  have hcache : (call S o h).1.cache.heights.head? = some 0 ∧ (call S o h).1.cache.totals.head? = some 0 ∧ (call S o h).1.cache.setLoad = l := by
    rw [call_new hS.matrices hh]
    dsimp only
    unfold solveHeight
    dsimp only
    split_ifs
    · refine ⟨(key _ _ _ ?_ ?_).1, (key _ _ _ ?_ ?_).2, (addToCache_fields _ _ _ _ _).2.2.trans hl.1⟩ <;> first | exact hl.2.1 | exact hl.2.2.1
    · refine ⟨(key _ _ _ ?_ ?_).1, (key _ _ _ ?_ ?_).2, (addToCache_fields _ _ _ _ _).2.2.trans hl.1⟩ <;> first | exact hl.2.1 | exact hl.2.2.1
  obtain ⟨k1, k2, k3⟩ := hcache
  have hmem : (0 : ℝ) ∈ (call S o h).1.cache.heights := List.mem_of_head? k1
  obtain ⟨f, d, hd, hf, hr, hq⟩ := C148_results_partial S c0 c1 hS l o h0 [] h hh (by simpa [sought, given] using hc)
  refine ⟨f, ?_, ?_, hf.interference, by rw [← hl.1]; exact hr⟩
  · generalize (call S o h).1 = o' at k1 k2 k3 hmem
    unfold call
    rw [if_pos hmem]
    unfold HeightCache.call
    rw [if_pos hmem]
    have : lookup o'.cache 0 = some 0 := by
      unfold lookup
      cases hsh : o'.cache.heights with
      | nil => rw [hsh] at k1; cases k1
      | cons x xs =>
        rw [hsh] at k1
        cases k1
        cases hst : o'.cache.totals with
        | nil => rw [hst] at k2; cases k2
        | cons y ys =>
          rw [hst] at k2
          cases k2
          simp [List.findIdx_cons]
    rw [this, k3]
  · exact hq [.call 0] ⟨hmem, trivial⟩

lemma solveHeight_empty {N : Type} {P : Problem N} {s : State N} {h : ℝ} (hn : P.noNodes (nodesFor P s h) = true) : (solveHeight P s h).2 = 0 - s.setLoad := by
  unfold solveHeight
  dsimp only
  rw [if_pos hn]

lemma solveHeight_setLoad {N : Type} (P : Problem N) (s : State N) (h : ℝ) : (solveHeight P s h).1.setLoad = s.setLoad := by
  unfold solveHeight
  dsimp only
  split_ifs <;> exact (addToCache_fields _ _ _ _ _).2.2

lemma touching_iff (S : Setup) (x : ℝ) (i j : ℕ) : S.problem.touching x i j = true ↔ S.gap i j < x := by
  dsimp only [Setup.problem]
  rw [decide_eq_true_iff]
  constructor <;> intro h <;> linarith

lemma nodes_nil {S : Setup} {x : ℝ} (hn : ∀ i j, i < S.rows → j < S.cols → x ≤ S.gap i j) : S.nodes (S.problem.touching x) = [] := by
  rw [List.eq_nil_iff_forall_not_mem]
  rintro ⟨i, j⟩ hm
  obtain ⟨h1, h2, h3⟩ := mem_nodes.1 hm
  exact absurd ((touching_iff ..).1 h3) (not_lt.2 (hn i j h1 h2))

lemma nodes_ne {S : Setup} {x : ℝ} {i j : ℕ} (hi : i < S.rows) (hj : j < S.cols) (hx : S.gap i j < x) : (S.nodes (S.problem.touching x)).isEmpty = false := by
  have mp : (i, j) ∈ S.nodes (S.problem.touching x) := mem_nodes.2 ⟨hi, hj, (touching_iff ..).2 hx⟩
  rw [Bool.eq_false_iff]
  intro he
  rw [List.isEmpty_iff.1 he] at mp
  cases mp

/-- A call with contact nodes, then one without. -/
lemma two_calls {S : Setup} (hi : S.imMats = true) {o : Obj} (hv : o.cache.setContactNodes = false) {h h' : ℝ} (hh : h ∉ o.cache.heights) (hh' : h' ∉ (call S o h).1.cache.heights)
    (hne : (S.nodes (S.problem.touching h)).isEmpty = false) (he : S.nodes (S.problem.touching h') = []) :
    (call S (call S o h).1 h').2 = .ok (0 - o.cache.setLoad) ∧ (call S (call S o h).1 h').1.results = some (.raw (S.loads h (S.problem.touching h)) (S.problem.touching h) h) ∧
      (call S (call S o h).1 h').1.planned = some (S.problem.touching h') := by
  have hd : nodesFor S.problem o.cache h = S.problem.touching h := by unfold nodesFor; rw [hv]
  have hc : (call S o h).1.cache.setContactNodes = false ∧ (call S o h).1.cache.setLoad = o.cache.setLoad ∧ (call S o h).1.results = some (.raw (S.loads h (S.problem.touching h)) (S.problem.touching h) h) := by
    rw [call_new hi hh, hd, hne]
    exact ⟨(solveHeight_fields S.problem o.cache h).1.trans hv, solveHeight_setLoad .., rfl⟩
  generalize (call S o h).1 = o1 at hc hh' ⊢
  obtain ⟨h1, h2, h3⟩ := hc
  have hd' : nodesFor S.problem o1.cache h' = S.problem.touching h' := by unfold nodesFor; rw [h1]
  rw [call_new hi hh', hd', he, h1]
  refine ⟨?_, h3, rfl⟩
  dsimp only
  rw [solveHeight_empty (by rw [hd']; exact List.isEmpty_iff.2 he), h2]

/-- C148: after a solution on several nodes, a call for a height without contact nodes leaves the loads of that solution, but the displacements are then taken for no nodes: the call succeeds and reading raises. -/
theorem C148_no_contact_wrong (S : Setup) (c0 c1 : Bool) (hS : Sound S c0 c1) (l : ℝ) (o : Obj) (h0 : new S l = .ok o) (ops : List Op) (hg : given ops = none) (h h' : ℝ)
    (hh : h ∉ (run S o ops).cache.heights) (hh' : h' ∉ (call S (run S o ops) h).1.cache.heights)
    (hc : ∃ p q : ℕ × ℕ, p ≠ q ∧ (p.1 < S.rows ∧ p.2 < S.cols ∧ S.gap p.1 p.2 < h) ∧ q.1 < S.rows ∧ q.2 < S.cols ∧ S.gap q.1 q.2 < h)
    (hn : ∀ i j, i < S.rows → j < S.cols → h' ≤ S.gap i j) :
    (call S (call S (run S o ops) h).1 h').2 = .ok (0 - (run S o ops).cache.setLoad) ∧ (read S (call S (call S (run S o ops) h).1 h').1).1 = .error .valueError := by
  have hv := inv_run h0 ops
  rw [hg] at hv
  obtain ⟨p, q, hpq, ⟨hp1, hp2, hp3⟩, hq1, hq2, hq3⟩ := hc
  obtain ⟨e1, e2, e3⟩ := two_calls hS.matrices hv hh hh' (nodes_ne hp1 hp2 hp3) (nodes_nil hn)
  refine ⟨e1, ?_⟩
  unfold read
  rw [e2]
  dsimp only
  rw [e3]
  have mp : (p.1, p.2) ∈ S.nodes (S.problem.touching h) := mem_nodes.2 ⟨hp1, hp2, (touching_iff ..).2 hp3⟩
  have mq : (q.1, q.2) ∈ S.nodes (S.problem.touching h) := mem_nodes.2 ⟨hq1, hq2, (touching_iff ..).2 hq3⟩
  have hlen : 1 < (S.loads h (S.problem.touching h)).length := by
    unfold Setup.loads
    rw [List.length_map]
    generalize S.nodes (S.problem.touching h) = L at mp mq
    match L, mp, mq with
    | [x], mp, mq =>
      exfalso
      rw [List.mem_singleton] at mp mq
      exact hpq (mp.trans mq.symm)
    | _ :: _ :: _, _, _ => simp
  have hfin : finish S (some (S.problem.touching h')) (S.loads h (S.problem.touching h)) (S.problem.touching h) h = .error .valueError := by
    obtain ⟨f, hf, -⟩ := hS.plan fun i j => S.im1 i j + S.im2 i j
    have ha : assign S (S.problem.touching h') (S.loads h (S.problem.touching h)) = .error .valueError := by
      unfold assign
      rw [nodes_nil hn, if_neg (by simp only [List.length_nil]; omega)]
      match S.loads h (S.problem.touching h), hlen with
      | _ :: _ :: _, _ => rfl
    unfold finish convFunc
    rw [assign_loads]
    dsimp only [Bind.bind, Except.bind]
    rw [hf]
    dsimp only
    rw [ha]
  rw [hfin]

/-- C148: if the solution was on a single node, reading after such a call does not raise; the loads and the displacements of the two surfaces are those of the solution, but the total displacement is zero everywhere. -/
theorem C148_single_wrong (S : Setup) (c0 c1 : Bool) (hS : Sound S c0 c1) (l : ℝ) (o : Obj) (h0 : new S l = .ok o) (ops : List Op) (hg : given ops = none) (h h' : ℝ)
    (hh : h ∉ (run S o ops).cache.heights) (hh' : h' ∉ (call S (run S o ops) h).1.cache.heights)
    (p : ℕ × ℕ) (hp : p.1 < S.rows ∧ p.2 < S.cols) (hc : ∀ i j, i < S.rows → j < S.cols → (S.gap i j < h ↔ (i, j) = p))
    (hn : ∀ i j, i < S.rows → j < S.cols → h' ≤ S.gap i j) :
    ∃ f, (read S (call S (call S (run S o ops) h).1 h').1).1 = .ok (some f) ∧ f.interference = h ∧ f.loads p.1 p.2 = (S.bccg h [p]).1 p ∧
      ∀ i j, i < S.rows → j < S.cols → f.total i j = 0 ∧ f.disp1 i j + f.disp2 i j = f.loads p.1 p.2 *
        (readAt S.rows S.cols S.im1 (position c0 S.rows i p.1) (position c1 S.cols j p.2) + readAt S.rows S.cols S.im2 (position c0 S.rows i p.1) (position c1 S.cols j p.2)) := by
  have hv := inv_run h0 ops
  rw [hg] at hv
  have hp3 : S.gap p.1 p.2 < h := (hc p.1 p.2 hp.1 hp.2).2 rfl
  obtain ⟨e1, e2, e3⟩ := two_calls hS.matrices hv hh hh' (nodes_ne hp.1 hp.2 hp3) (nodes_nil hn)
  have hm : ∀ i j, (i, j) ∈ S.nodes (S.problem.touching h) ↔ (i, j) = p := by
    intro i j
    rw [mem_nodes, touching_iff]
    constructor
    · rintro ⟨a, b, c⟩; exact (hc i j a b).1 c
    · rintro rfl; exact ⟨hp.1, hp.2, hp3⟩
  have hN : S.nodes (S.problem.touching h) = [p] := by
    have hnd : (S.nodes (S.problem.touching h)).Nodup := nodup_nodes ..
    have hall : ∀ x ∈ S.nodes (S.problem.touching h), x = p := fun x hx => (hm x.1 x.2).1 hx
    have hin : p ∈ S.nodes (S.problem.touching h) := (hm p.1 p.2).2 rfl
    generalize S.nodes (S.problem.touching h) = L at hnd hall hin
    match L with
    | [x] => rw [hall x List.mem_cons_self]
    | x :: y :: t =>
      exfalso
      rw [hall x List.mem_cons_self, hall y (List.mem_cons_of_mem _ List.mem_cons_self)] at hnd
      exact (List.nodup_cons.1 hnd).1 List.mem_cons_self
  have hl : S.loads h (S.problem.touching h) = [(S.bccg h [p]).1 p] := by unfold Setup.loads; rw [hN]; rfl
  have hb : assign S (S.problem.touching h') (S.loads h (S.problem.touching h)) = .ok fun _ _ => 0 := by
    unfold assign
    rw [nodes_nil hn, hl, if_neg (by simp)]
    simp
  obtain ⟨f, hf, f1, -, f3, f4, f5⟩ := hS.finish (assign_loads S h (S.problem.touching h)) hb h
  have hload : ∀ i j, f.loads i j = if (i, j) = p then (S.bccg h [p]).1 p else 0 := by
    intro i j
    rw [f1, fill_loads, hN]
    by_cases hij : (i, j) = p
    · rw [if_pos (by simp [hij]), if_pos hij, hij]
    · rw [if_neg (by simpa using hij), if_neg hij]
  refine ⟨f, ?_, f4, by rw [hload, if_pos rfl], fun i j hi hj => ?_⟩
  · unfold read
    rw [e2]
    dsimp only
    rw [e3, hf]
  · obtain ⟨g1, g2, g3⟩ := f5 i j hi hj
    have hsup : ∀ im : ℕ → ℕ → ℝ, superpose c0 c1 S.rows S.cols S.rows S.cols im f.loads i j = f.loads p.1 p.2 * readAt S.rows S.cols im (position c0 S.rows i p.1) (position c1 S.cols j p.2) := by
      intro im
      unfold superpose
      rw [sum_eq_single p.1, sum_eq_single p.2]
      · intro b _ hb
        rw [hload, if_neg (by intro e; exact hb (congrArg Prod.snd e)), zero_mul]
      · intro hx; exact absurd (mem_range.2 hp.2) hx
      · intro a _ ha
        refine sum_eq_zero fun b _ => ?_
        rw [hload, if_neg (by intro e; exact ha (congrArg Prod.fst e)), zero_mul]
      · intro hx; exact absurd (mem_range.2 hp.1) hx
    constructor
    · rw [g3]; simp [superpose]
    · rw [g1, g2, ← f1, hsup, hsup]; ring

/-- Operations after which there are still no results: calls answered from the cache or without contact nodes, clearing and reading. -/
def Idle (S : Setup) : Obj → List Op → Prop
  | _, [] => True
  | o, op :: ops => (match op with
      | .call h => h ∈ o.cache.heights ∨ ∀ i j, i < S.rows → j < S.cols → h ≤ S.gap i j
      | .changeLoad _ d => d = none
      | .clear => True
      | .read => True) ∧ Idle S (step S o op) ops

/-- C148: before the first solution, and after a change of the load until the next solution, reading raises. -/
theorem C148_none (S : Setup) (hi : S.imMats = true) (l : ℝ) (o : Obj) (h0 : new S l = .ok o) (ops : List Op) (l' : ℝ) (later : List Op)
    (hq : Idle S (step S (run S o ops) (.changeLoad l' none)) later) :
    (read S o).1 = .error .typeError ∧ (read S (run S (step S (run S o ops) (.changeLoad l' none)) later)).1 = .error .typeError := by
  have hr : ∀ o : Obj, o.results = none → (read S o).1 = .error .typeError ∧ (read S o).2 = o := by
    intro o ho
    unfold read
    rw [ho]
    simp [hi]
  refine ⟨(hr o (new_fields h0).2.2.2.2).1, ?_⟩
  have key : ∀ (later : List Op) (o : Obj), o.cache.setContactNodes = false → o.results = none → Idle S o later → (run S o later).results = none := by
    intro later
    induction later with
    | nil => exact fun _ _ h _ => h
    | cons op later ih =>
      intro o hs hn hq
      refine ih (step S o op) ?_ ?_ hq.2
      · cases op with
        | call t => exact Inv.step (g := none) (o := o) (S := S) hs (.call t)
        | changeLoad a d => cases (show d = none from hq.1); rfl
        | clear => exact Inv.step (g := none) (o := o) (S := S) hs .clear
        | read => exact Inv.step (g := none) (o := o) (S := S) hs .read
      · cases op with
        | call t =>
          change (call S o t).1.results = none
          by_cases ht : t ∈ o.cache.heights
          · rw [call_cached ht]; exact hn
          · have hg : ∀ i j, i < S.rows → j < S.cols → t ≤ S.gap i j := (show _ ∨ _ from hq.1).resolve_left ht
            have hd : nodesFor S.problem o.cache t = S.problem.touching t := by unfold nodesFor; rw [hs]
            rw [call_new hi ht, hd, nodes_nil hg]
            exact hn
        | changeLoad a d => rfl
        | clear => exact hn
        | read =>
          change (read S o).2.results = none
          rw [(hr o hn).2]; exact hn
  exact (hr _ (key later _ rfl rfl hq)).1

/-- C148: for materials that are not given by influence matrices every call for a height that is not in the cache raises, and there are never results. -/
theorem C148_other_materials_wrong (S : Setup) (hi : S.imMats = false) (l : ℝ) (o : Obj) (h0 : new S l = .ok o) (ops : List Op) :
    (∀ h, h ∉ (run S o ops).cache.heights → (call S (run S o ops) h).2 = .error .typeError) ∧ (read S (run S o ops)).1 = .ok none := by
  refine ⟨fun h hh => by rw [call_other hi hh], ?_⟩
  have key : ∀ (ops : List Op) (o : Obj), o.results = none → (run S o ops).results = none := by
    intro ops
    induction ops with
    | nil => exact fun _ h => h
    | cons op ops ih =>
      intro o hn
      refine ih (step S o op) ?_
      cases op with
      | call t =>
        change (call S o t).1.results = none
        by_cases ht : t ∈ o.cache.heights
        · rw [call_cached ht]; exact hn
        · rw [call_other hi ht]; exact hn
      | changeLoad a d => rfl
      | clear => exact hn
      | read =>
        change (read S o).2.results = none
        unfold read
        rw [hn]
        simp [hi, hn]
  unfold read
  rw [key ops o (new_fields h0).2.2.2.2]
  simp [hi]

/-! ## Concrete cases -/

lemma call_heights {S : Setup} {o : Obj} {h x : ℝ} (hx : x ∈ o.cache.heights) : x ∈ (call S o h).1.cache.heights ∧ ∀ y ∈ (call S o h).1.cache.heights, y = h ∨ y ∈ o.cache.heights := by
  by_cases hh : h ∈ o.cache.heights
  · rw [call_cached hh]; exact ⟨hx, fun y hy => .inr hy⟩
  have key : ∀ (s : State Mask) (t : ℝ) (b : Bool), s.heights = o.cache.heights → x ∈ (addToCache S.problem s h t b).heights ∧ ∀ y ∈ (addToCache S.problem s h t b).heights, y = h ∨ y ∈ o.cache.heights := by
    intro s t b hs
    unfold addToCache
    by_cases hc : S.problem.useCache = true ∧ h ∉ s.heights ∧ b = false
    · rw [if_pos hc, ← hs]
      dsimp only
      by_cases hle : bisectLeft s.heights h ≤ s.heights.length
      · simp only [List.mem_insertIdx hle]
        exact ⟨.inr (by rwa [hs]), fun y hy => hy⟩
      · rw [List.insertIdx_of_length_lt (by omega)]
        exact ⟨by rwa [hs], fun y hy => .inr hy⟩
    · rw [if_neg hc, hs]
      exact ⟨hx, fun y hy => .inr hy⟩
  by_cases hi : S.imMats = true
  · rw [call_new hi hh]
    unfold solveHeight
    dsimp only
    split_ifs
    · exact key _ _ _ rfl
    · exact key _ _ _ rfl
  · rw [call_other (by simpa using hi) hh]
    exact ⟨hx, fun y hy => .inr hy⟩

/-- A gap of one row of three nodes, 0, 1 and 2 high; every contact node gets the load 5. -/
noncomputable def demo (mats : Bool) : Setup where
  rows := 1
  cols := 3
  gap _ j := j
  spacing := 1 / 2
  backend := .cuda
  periodic := .int false
  im1 _ j := if j = 1 then 2 else 0
  im2 _ j := if j = 1 then 1 else 0
  bccg _ _ := (fun _ => 5, false)
  imMats := mats
  maxEntry := none
  useCache := true
  useLoads := true
  cubic _ _ _ := .error .valueError

/-- The object that is made for it. -/
noncomputable def demo0 : Obj :=
  ⟨{ heights := [0], totals := [0], surfaceLoads := 1, setLoad := 7, contactNodes := none, setContactNodes := false, cacheMax := false, it := 0, results := none, lastFailed := false, log := [] }, none, none⟩

lemma demo_new (mats : Bool) : new (demo mats) 7 = .ok demo0 := by
  unfold new HeightCache.init
  simp [demo, Setup.problem, demo0]

lemma demo_sound : Sound (demo true) false false := ⟨trivial, .same _, by simp [demo], by simp [demo], rfl⟩

/-- The hypotheses of `C148_results_partial` and `C148_cached_wrong`: height 3/2 is new, and two nodes are in contact. Then the load is 5/2 for a set load of 7, the total displacement of the first node is 15. -/
example : ∃ f, (read (demo true) (call (demo true) (call (demo true) demo0 (3 / 2)).1 0).1).1 = .ok (some f) ∧ f.load = 5 / 2 ∧ f.loads 0 1 = 5 ∧ f.loads 0 2 = 0 ∧ f.total 0 0 = 15 ∧
    (call (demo true) demo0 (3 / 2)).2 = .ok (5 / 2 - 7) := by
  have hh : (3 / 2 : ℝ) ∉ (run (demo true) demo0 []).cache.heights := by simp [run, demo0]
  have hc : ∃ i j, i < (demo true).rows ∧ j < (demo true).cols ∧ sought (demo true) [] (3 / 2) i j := ⟨0, 1, by simp [demo], by simp [demo], by simp [sought, given, demo]; norm_num⟩
  obtain ⟨f, d, hd, hf, hr, hq⟩ := C148_results_partial (demo true) false false demo_sound 7 demo0 (demo_new true) [] (3 / 2) hh hc
  have l0 : f.loads 0 0 = 5 := hf.inside 0 0 (by simp [demo]) (by simp [demo]) (by simp [sought, given, demo])
  have l1 : f.loads 0 1 = 5 := hf.inside 0 1 (by simp [demo]) (by simp [demo]) (by simp [sought, given, demo]; norm_num)
  have l2 : f.loads 0 2 = 0 := hf.outside 0 2 (by simp [demo]) (by simp [demo]) (by simp [sought, given, demo]; norm_num)
  have hl : f.load = 5 / 2 := by
    rw [hf.load]
    simp only [demo, sum_range_succ, range_zero, sum_empty, l0, l1, l2]
    norm_num
  refine ⟨f, ?_, hl, l1, l2, ?_, by rw [← hl]; exact hr⟩
  · exact hq [.call 0] ⟨(call_heights (by simp [run, demo0])).1, trivial⟩
  · rw [hf.total 0 0 (by simp [demo]) (by simp [demo]), hf.first 0 0 (by simp [demo]) (by simp [demo]), hf.second 0 0 (by simp [demo]) (by simp [demo])]
    have e : Int.toNat 1 = 1 := rfl
    norm_num [superpose, position, readAt, demo, sum_range_succ, l0, l1, l2, e]

/-- The hypotheses of `C148_no_contact_wrong`: height 3/2, then height -1. -/
example : (read (demo true) (call (demo true) (call (demo true) demo0 (3 / 2)).1 (-1)).1).1 = .error .valueError := by
  refine (C148_no_contact_wrong (demo true) false false demo_sound 7 demo0 (demo_new true) [] rfl (3 / 2) (-1) (by simp [run, demo0]) ?_
    ⟨(0, 0), (0, 1), by simp, by simp [demo], by simp [demo], by simp [demo], by simp [demo]; norm_num⟩ fun i j _ _ => ?_).2
  · intro hm
    rcases (call_heights (x := 0) (by simp [run, demo0])).2 _ hm with e | e
    · norm_num at e
    · simp [run, demo0] at e
  · change (-1 : ℝ) ≤ (j : ℝ)
    exact le_trans (by norm_num) (Nat.cast_nonneg j)

/-- The hypotheses of `C148_single_wrong`: height 1/2, then height -1. The node in contact is displaced by 15, and the total is 0. -/
example : ∃ f, (read (demo true) (call (demo true) (call (demo true) demo0 (1 / 2)).1 (-1)).1).1 = .ok (some f) ∧ f.total 0 0 = 0 ∧ f.disp1 0 0 + f.disp2 0 0 = 15 := by
  obtain ⟨f, h1, h2, h3, h4⟩ := C148_single_wrong (demo true) false false demo_sound 7 demo0 (demo_new true) [] rfl (1 / 2) (-1) (by simp [run, demo0]) (by
      intro hm
      rcases (call_heights (x := 0) (by simp [run, demo0])).2 _ hm with e | e
      · norm_num at e
      · simp [run, demo0] at e) (0, 0) (by simp [demo]) (by
      intro i j hi hj
      have hi : i = 0 := by simp [demo] at hi; exact hi
      subst hi
      change ((j : ℝ) < 1 / 2) ↔ _
      constructor
      · intro h
        have : j = 0 := by
          by_contra hn
          have : (1 : ℝ) ≤ j := by exact_mod_cast Nat.one_le_iff_ne_zero.2 hn
          linarith
        rw [this]
      · intro h
        cases h
        norm_num) fun i j _ _ => by
      change (-1 : ℝ) ≤ (j : ℝ)
      exact le_trans (by norm_num) (Nat.cast_nonneg j)
  have h5 : f.loads 0 0 = 5 := h3
  obtain ⟨a, b⟩ := h4 0 0 (by simp [demo]) (by simp [demo])
  refine ⟨f, h1, a, b.trans ?_⟩
  have e : Int.toNat 1 = 1 := rfl
  norm_num [position, readAt, demo, h5, e]

/-- The hypotheses of `C148_none`, after a solution, and of `C148_other_materials_wrong`. -/
example : (read (demo true) (run (demo true) (step (demo true) (run (demo true) demo0 [.call (3 / 2), .read]) (.changeLoad 9 none)) [.read, .call (-1), .clear])).1 = .error .typeError ∧
    (call (demo false) demo0 1).2 = .error .typeError :=
  ⟨(C148_none (demo true) rfl 7 demo0 (demo_new true) [.call (3 / 2), .read] 9 [.read, .call (-1), .clear] ⟨trivial, .inr fun i j _ _ => by
    change (-1 : ℝ) ≤ (j : ℝ)
    exact le_trans (by norm_num) (Nat.cast_nonneg j), trivial, trivial⟩).2,
    (C148_other_materials_wrong (demo false) rfl 7 demo0 (demo_new false) []).1 1 (by simp [run, demo0])⟩

/-- Fixed nodes: only the last node is sought after a change of the load with a mask. -/
example : sought (demo true) [.call 1, .changeLoad 3 (some fun _ j => j == 2), .read] 5 0 2 ∧ ¬sought (demo true) [.call 1, .changeLoad 3 (some fun _ j => j == 2), .read] 5 0 1 := by
  simp [sought, given]

end Verif.HeightResults
