import Verif.HeightCache.Model
import Mathlib.Tactic.Linarith
import Mathlib.Tactic.NormNum

/-!
# C25: the height search cache stays ordered and truthful
-/

namespace Verif.HeightCache

open Verif

variable {N : Type}

/-! ## Bisection -/

/-- For **any** list, sorted or not, the item before the index found is smaller than `x` and the item at the index is not. -/
theorem bisectLoop_spec (a : List ℝ) (x : ℝ) (lo hi : Nat) (hle : lo ≤ hi) (hhi : hi ≤ a.length)
    (h1 : ∀ (h : 0 < lo), a[lo - 1]'(by omega) < x) (h2 : ∀ (h : hi < a.length), x ≤ a[hi]) :
    bisectLoop a x lo hi ≤ a.length ∧
      (∀ y, 0 < bisectLoop a x lo hi → a[bisectLoop a x lo hi - 1]? = some y → y < x) ∧
      (∀ y, a[bisectLoop a x lo hi]? = some y → x ≤ y) := by
  fun_induction bisectLoop a x lo hi with
  | case1 lo hi hlt mid hmid ih =>
    apply ih (by omega) hhi
    · intro _
      have hm : mid < a.length := by omega
      rw [List.getD_eq_getElem _ _ hm] at hmid
      simpa using hmid
    · exact h2
  | case2 lo hi hlt mid hmid ih =>
    apply ih (by omega) (by omega) h1
    intro _
    have hm : mid < a.length := by omega
    rw [List.getD_eq_getElem _ _ hm] at hmid
    exact not_lt.1 hmid
  | case3 lo hi hge =>
    obtain rfl : lo = hi := by omega
    refine ⟨hhi, ?_, ?_⟩
    · intro y hpos hy
      rw [List.getElem?_eq_getElem (by omega)] at hy
      cases hy
      exact h1 hpos
    · intro y hy
      obtain ⟨hl, rfl⟩ := List.getElem?_eq_some_iff.1 hy
      exact h2 hl

theorem bisectLeft_spec (a : List ℝ) (x : ℝ) :
    bisectLeft a x ≤ a.length ∧ (∀ y, 0 < bisectLeft a x → a[bisectLeft a x - 1]? = some y → y < x) ∧
      (∀ y, a[bisectLeft a x]? = some y → x ≤ y) :=
  bisectLoop_spec a x 0 a.length (Nat.zero_le _) le_rfl (by omega) (by omega)

/-- In a sorted list everything before the index is smaller, everything from it on is not. -/
theorem bisectLeft_sorted (a : List ℝ) (x : ℝ) (h : a.Pairwise (· ≤ ·)) :
    (∀ y ∈ a.take (bisectLeft a x), y < x) ∧ ∀ y ∈ a.drop (bisectLeft a x), x ≤ y := by
  obtain ⟨hle, h1, h2⟩ := bisectLeft_spec a x
  generalize bisectLeft a x = i at *
  have hp := List.pairwise_iff_getElem.1 h
  constructor
  · intro y hy
    obtain ⟨j, hj, rfl⟩ := List.getElem_of_mem hy
    rw [List.length_take] at hj
    rw [List.getElem_take]
    have hlast := h1 (a[i - 1]'(by omega)) (by omega) (List.getElem?_eq_getElem _)
    rcases Nat.lt_or_ge j (i - 1) with hlt | hge
    · exact lt_of_le_of_lt (hp j (i - 1) (by omega) (by omega) hlt) hlast
    · obtain rfl : j = i - 1 := by omega
      exact hlast
  · intro y hy
    obtain ⟨j, hj, rfl⟩ := List.getElem_of_mem hy
    rw [List.length_drop] at hj
    rw [List.getElem_drop]
    have hfirst := h2 (a[i]'(by omega)) (List.getElem?_eq_getElem _)
    rcases Nat.eq_zero_or_pos j with rfl | hpos
    · exact hfirst
    · exact hfirst.trans (hp i (i + j) (by omega) (by omega) (by omega))

theorem insertIdx_take_drop {α : Type} (a : List α) (i : Nat) (x : α) (h : i ≤ a.length) :
    a.insertIdx i x = a.take i ++ x :: a.drop i := by
  induction i generalizing a with
  | zero => simp
  | succ i ih =>
    cases a with
    | nil => simp at h
    | cons b a => simp [ih a (by simpa using h)]

theorem insert_sorted (a : List ℝ) (x : ℝ) (h : a.Pairwise (· ≤ ·)) : (a.insertIdx (bisectLeft a x) x).Pairwise (· ≤ ·) := by
  obtain ⟨h1, h2⟩ := bisectLeft_sorted a x h
  rw [insertIdx_take_drop a _ x (bisectLeft_spec a x).1]
  rw [← List.take_append_drop (bisectLeft a x) a] at h
  rw [List.pairwise_append] at h
  rw [List.pairwise_append]
  refine ⟨h.1, List.pairwise_cons.2 ⟨h2, h.2.1⟩, ?_⟩
  intro y hy z hz
  rcases List.mem_cons.1 hz with rfl | hz
  · exact (h1 y hy).le
  · exact h.2.2 y hy z hz

theorem zip_insert {α β : Type} (a : List α) (b : List β) (hab : a.length = b.length) (i : Nat) (hi : i ≤ a.length) (x : α) (y : β)
    (p : α × β) : p ∈ (a.insertIdx i x).zip (b.insertIdx i y) ↔ p = (x, y) ∨ p ∈ a.zip b := by
  rw [insertIdx_take_drop a i x hi, insertIdx_take_drop b i y (by omega),
    List.zip_append (by simp [List.length_take, hab]), List.zip_cons_cons]
  have : a.zip b = (a.take i).zip (b.take i) ++ (a.drop i).zip (b.drop i) := by
    rw [← List.zip_append (by simp [List.length_take, hab]), List.take_append_drop, List.take_append_drop]
  rw [this]
  simp only [List.mem_append, List.mem_cons]
  tauto

/-! ## The invariant -/

/-- The cache is sorted, has one load for each height, and each pair in it is the initial one, the one for the maximum pressure,
or was found by the contact solver without failure. -/
structure Inv (P : Problem N) (s : State N) : Prop where
  sorted : s.heights.Pairwise (· ≤ ·)
  paired : s.heights.length = s.totals.length
  loads : P.useLoads = true → s.surfaceLoads = s.heights.length
  noMax : s.cacheMax = false
  truthful : ∀ p ∈ s.heights.zip s.totals, p = (0, 0) ∨ P.maxEntry = some p ∨ (p.1, p.2, false) ∈ s.log

theorem inv_init (P : Problem N) (hmax : ∀ h l, P.maxEntry = some (h, l) → 0 ≤ h) (nodes : Option N) (load : ℝ) (s : State N)
    (hs : init P nodes load = .ok s) : Inv P s := by
  unfold init at hs
  split at hs
  · cases hs
  dsimp only at hs
  split at hs
  · split at hs
    · cases hs
      exact ⟨by simp, rfl, fun _ => rfl, rfl, by simp⟩
    · rename_i h l hm
      cases hs
      refine ⟨by simpa using hmax h l hm, rfl, ?_, rfl, ?_⟩
      · intro hu
        simp [hu]
      · intro p hp
        simp only [List.cons_append, List.nil_append, List.zip_cons_cons, List.zip_nil_right, List.mem_cons,
          List.not_mem_nil, or_false] at hp
        rcases hp with rfl | rfl
        · exact Or.inl rfl
        · exact Or.inr (Or.inl hm)
  · cases hs
    exact ⟨by simp, rfl, fun _ => rfl, rfl, by simp⟩

theorem inv_add (P : Problem N) (s : State N) (h l : ℝ) (f : Bool) (hs : Inv P s) (hlog : (h, l, f) ∈ s.log) :
    Inv P (addToCache P s h l f) := by
  unfold addToCache
  split
  · rename_i hc
    have hb := (bisectLeft_spec s.heights h).1
    refine ⟨insert_sorted _ _ hs.sorted, ?_, ?_, hs.noMax, ?_⟩
    · have := hs.paired
      simp only [List.length_insertIdx_of_le_length hb, List.length_insertIdx_of_le_length (this ▸ hb), this]
    · intro hu
      simp only [hu, if_true, List.length_insertIdx_of_le_length hb, hs.loads hu]
    · intro p hp
      dsimp only at hp
      rw [zip_insert _ _ hs.paired _ hb] at hp
      rcases hp with rfl | hp
      · right; right
        rw [hc.2.2] at hlog
        exact hlog
      · exact hs.truthful p hp
  · exact hs

theorem addToCache_log (P : Problem N) (s : State N) (h l : ℝ) (f : Bool) : (addToCache P s h l f).log = s.log := by
  unfold addToCache
  split <;> rfl

theorem inv_congr (P : Problem N) {s t : State N} (hs : Inv P s) (h1 : t.heights = s.heights) (h2 : t.totals = s.totals)
    (h3 : t.surfaceLoads = s.surfaceLoads) (h4 : t.cacheMax = s.cacheMax) (h5 : ∀ e ∈ s.log, e ∈ t.log) : Inv P t := by
  refine ⟨by rw [h1]; exact hs.sorted, by rw [h1, h2]; exact hs.paired, by rw [h1, h3]; exact hs.loads, by rw [h4]; exact hs.noMax, ?_⟩
  intro p hp
  rw [h1, h2] at hp
  rcases hs.truthful p hp with h | h | h
  · exact Or.inl h
  · exact Or.inr (Or.inl h)
  · exact Or.inr (Or.inr (h5 _ h))

theorem inv_solve (P : Problem N) (s : State N) (h : ℝ) (hs : Inv P s) : Inv P (solveHeight P s h).1 := by
  unfold solveHeight
  generalize nodesFor P s h = nodes
  dsimp only
  split
  · refine inv_congr P (inv_add P { s with it := s.it + 1, contactNodes := some nodes, log := s.log ++ [(h, 0, false)] } h 0 false
      (inv_congr P hs rfl rfl rfl rfl ?_) ?_) rfl rfl rfl rfl (fun e he => he)
    · intro e he; exact List.mem_append_left _ he
    · exact List.mem_append_right _ (List.mem_singleton.2 rfl)
  · refine inv_congr P (inv_add P { s with it := s.it + 1, contactNodes := some nodes, results := some h, log := s.log ++ [(h, (P.bccg h nodes).1, (P.bccg h nodes).2)] } h _ _
      (inv_congr P hs rfl rfl rfl rfl ?_) ?_) rfl rfl rfl rfl (fun e he => he)
    · intro e he; exact List.mem_append_left _ he
    · exact List.mem_append_right _ (List.mem_singleton.2 rfl)

theorem inv_step (P : Problem N) (s : State N) (op : Op N) (hs : Inv P s) : Inv P (step P s op) := by
  cases op with
  | call h =>
    show Inv P (call P s h).1
    unfold call
    split
    · split
      · exact hs
      · exact hs
    · split
      · exact inv_solve P s h hs
      · exact inv_congr P hs rfl rfl rfl rfl (fun e he => he)
  | changeLoad l nodes => exact inv_congr P hs rfl rfl rfl rfl (fun e he => he)
  | clear =>
    show Inv P (clearCache s)
    unfold clearCache
    rw [hs.noMax]
    exact ⟨by simp, rfl, fun _ => rfl, rfl, by simp⟩

theorem inv_run (P : Problem N) (s : State N) (ops : List (Op N)) (hs : Inv P s) : Inv P (run P s ops) := by
  induction ops generalizing s with
  | nil => exact hs
  | cons op rest ih => exact ih _ (inv_step P s op hs)

/-- **C25**: after any history of trial heights, load changes and clearings the list of heights is sorted, has exactly one load for each
height (and one set of surface loads, if these are kept), and each height is stored with the load that the contact solver found for
it (or with the initial values: zero, and the load for the maximum pressure).
`hmax`: the height at the maximum pressure is not negative. -/
theorem C25_sorted_and_truthful (P : Problem N) (hmax : ∀ h l, P.maxEntry = some (h, l) → 0 ≤ h) (nodes : Option N) (load : ℝ)
    (s : State N) (hs : init P nodes load = .ok s) (ops : List (Op N)) :
    (run P s ops).heights.Pairwise (· ≤ ·) ∧ (run P s ops).totals.length = (run P s ops).heights.length ∧
    (P.useLoads = true → (run P s ops).surfaceLoads = (run P s ops).heights.length) ∧
    ∀ h l, (h, l) ∈ (run P s ops).heights.zip (run P s ops).totals →
      (h = 0 ∧ l = 0) ∨ P.maxEntry = some (h, l) ∨ (h, l, false) ∈ (run P s ops).log := by
  have hi := inv_run P s ops (inv_init P hmax nodes load s hs)
  refine ⟨hi.sorted, hi.paired.symm, hi.loads, ?_⟩
  intro h l hp
  rcases hi.truthful (h, l) hp with h1 | h1 | h1
  · left; simpa using h1
  · exact Or.inr (Or.inl h1)
  · exact Or.inr (Or.inr h1)

/-- A contact that carries twice the height and never fails. -/
noncomputable def exampleProblem : Problem Bool where
  imMats := true
  maxEntry := some (10, 20)
  useCache := true
  useLoads := true
  touching h := decide (0 < h)
  noNodes n := !n
  bccg h _ := (2 * h, false)
  cubic _ _ _ := .error .valueError

example : (∀ h l, exampleProblem.maxEntry = some (h, l) → 0 ≤ h) ∧ ∃ s, init exampleProblem none 5 = .ok s := by
  refine ⟨?_, _, rfl⟩
  intro h l hh
  simp only [exampleProblem, Option.some.injEq, Prod.mk.injEq] at hh
  linarith [hh.1]

/-! ## Repeated heights -/

theorem findIdx_getElem (a : List ℝ) (x : ℝ) (h : x ∈ a) :
    ∃ hi : a.findIdx (fun y => decide (y = x)) < a.length, a[a.findIdx (fun y => decide (y = x))] = x := by
  have hex : ∃ y ∈ a, (fun y => decide (y = x)) y = true := ⟨x, h, by simp⟩
  have hi := List.findIdx_lt_length_of_exists hex
  have hw := List.findIdx_getElem (w := hi)
  exact ⟨hi, by simpa using hw⟩

theorem lookup_ok (s : State N) (hp : s.heights.length = s.totals.length) (h : ℝ) (hh : h ∈ s.heights) :
    ∃ l, lookup s h = some l ∧ (h, l) ∈ s.heights.zip s.totals := by
  obtain ⟨hi, he⟩ := findIdx_getElem s.heights h hh
  unfold lookup
  generalize s.heights.findIdx (fun y => decide (y = h)) = i at *
  refine ⟨s.totals[i]'(by omega), List.getElem?_eq_getElem _, ?_⟩
  rw [List.mem_iff_getElem]
  refine ⟨i, by simp only [List.length_zip]; omega, ?_⟩
  rw [List.getElem_zip, he]

/-- **C25**: a trial height that is in the list returns the load stored with it minus the target; nothing changes and no contact
solution is made. -/
theorem C25_repeated_height (P : Problem N) (hmax : ∀ h l, P.maxEntry = some (h, l) → 0 ≤ h) (nodes : Option N) (load : ℝ)
    (s : State N) (hs : init P nodes load = .ok s) (ops : List (Op N)) (h : ℝ) (hh : h ∈ (run P s ops).heights) :
    ∃ l, (h, l) ∈ (run P s ops).heights.zip (run P s ops).totals ∧
      call P (run P s ops) h = (run P s ops, .ok (l - (run P s ops).setLoad)) := by
  have hi := inv_run P s ops (inv_init P hmax nodes load s hs)
  obtain ⟨l, hl, hm⟩ := lookup_ok _ hi.paired h hh
  refine ⟨l, hm, ?_⟩
  unfold call
  rw [if_pos hh, hl]

example : ∀ s, init exampleProblem none 5 = .ok s → (0 : ℝ) ∈ (run exampleProblem s []).heights := by
  intro s hs
  cases hs
  simp [run]

/-- The height is stored once. -/
def Stored (s : State N) (h l : ℝ) : Prop := (h, l) ∈ s.heights.zip s.totals ∧ ∀ l', (h, l') ∈ s.heights.zip s.totals → l' = l

theorem mem_heights_of_zip {s : State N} {h l : ℝ} (hm : (h, l) ∈ s.heights.zip s.totals) : h ∈ s.heights :=
  (List.of_mem_zip hm).1

theorem stored_add (P : Problem N) (s : State N) (hp : s.heights.length = s.totals.length) (h l h' l' : ℝ) (f : Bool)
    (hst : Stored s h l) : Stored (addToCache P s h' l' f) h l := by
  unfold addToCache
  split
  · rename_i hc
    have hb := (bisectLeft_spec s.heights h').1
    unfold Stored
    dsimp only
    simp only [zip_insert _ _ hp _ hb]
    refine ⟨Or.inr hst.1, ?_⟩
    rintro l'' (heq | hm)
    · cases heq
      exact absurd (mem_heights_of_zip hst.1) hc.2.1
    · exact hst.2 _ hm
  · exact hst

theorem stored_solve (P : Problem N) (s : State N) (hp : s.heights.length = s.totals.length) (h l x : ℝ)
    (hst : Stored s h l) : Stored (solveHeight P s x).1 h l := by
  unfold solveHeight
  generalize nodesFor P s x = nodes
  dsimp only
  split
  · exact stored_add P { s with it := s.it + 1, contactNodes := some nodes, log := s.log ++ [(x, 0, false)] } hp h l _ _ _ hst
  · exact stored_add P { s with it := s.it + 1, contactNodes := some nodes, results := some x, log := s.log ++ [(x, (P.bccg x nodes).1, (P.bccg x nodes).2)] } hp h l _ _ _ hst

theorem stored_step (P : Problem N) (s : State N) (hi : Inv P s) (h l : ℝ) (hst : Stored s h l) (op : Op N) (hop : op ≠ .clear) :
    Stored (step P s op) h l := by
  cases op with
  | call x =>
    show Stored (call P s x).1 h l
    unfold call
    split
    · split
      · exact hst
      · exact hst
    · split
      · exact stored_solve P s hi.paired h l x hst
      · exact hst
  | changeLoad l' nodes => exact hst
  | clear => exact absurd rfl hop

theorem stored_run (P : Problem N) (s : State N) (hi : Inv P s) (h l : ℝ) (hst : Stored s h l) (ops : List (Op N))
    (hops : Op.clear ∉ ops) : Stored (run P s ops) h l := by
  induction ops generalizing s with
  | nil => exact hst
  | cons op rest ih =>
    simp only [List.mem_cons, not_or] at hops
    exact ih _ (inv_step P s op hi) (stored_step P s hi h l hst op (fun hh => hops.1 hh.symm)) hops.2

theorem call_of_stored (P : Problem N) (s : State N) (hi : Inv P s) (h l : ℝ) (hst : Stored s h l) :
    call P s h = (s, .ok (l - s.setLoad)) := by
  obtain ⟨l', hl, hm⟩ := lookup_ok s hi.paired h (mem_heights_of_zip hst.1)
  unfold call
  rw [if_pos (mem_heights_of_zip hst.1), hl, hst.2 l' hm]

theorem stored_after_add (P : Problem N) (s : State N) (hp : s.heights.length = s.totals.length) (h l : ℝ) (hu : P.useCache = true)
    (hh : h ∉ s.heights) : Stored (addToCache P s h l false) h l := by
  unfold addToCache
  rw [if_pos ⟨hu, hh, rfl⟩]
  have hb := (bisectLeft_spec s.heights h).1
  unfold Stored
  dsimp only
  simp only [zip_insert _ _ hp _ hb]
  refine ⟨Or.inl trivial, ?_⟩
  rintro l' (heq | hm)
  · cases heq; rfl
  · exact absurd (List.of_mem_zip hm).1 hh

/-- After a new solution without failure the height is stored with its load. -/
theorem stored_after_solve (P : Problem N) (s : State N) (hp : s.heights.length = s.totals.length) (h : ℝ) (hu : P.useCache = true)
    (hh : h ∉ s.heights) (hnf : (solveHeight P s h).1.lastFailed = false) :
    Stored (solveHeight P s h).1 h ((solveHeight P s h).2 + s.setLoad) := by
  unfold solveHeight at hnf ⊢
  generalize nodesFor P s h = nodes at hnf ⊢
  dsimp only at hnf ⊢
  split
  · have := stored_after_add P { s with it := s.it + 1, contactNodes := some nodes, log := s.log ++ [(h, 0, false)] } hp h 0 hu hh
    simpa [Stored] using this
  · rename_i hn
    rw [if_neg hn] at hnf
    dsimp only at hnf
    have := stored_after_add P { s with it := s.it + 1, contactNodes := some nodes, results := some h, log := s.log ++ [(h, (P.bccg h nodes).1, (P.bccg h nodes).2)] } hp h (P.bccg h nodes).1 hu hh
    rw [hnf]
    rw [hnf] at this
    simpa [Stored] using this

/-- **C25**: once a height has been tried, without failure of the solver, trying it again at any later time (with any trial heights and
load changes in between, but no clearing) gives the load found then minus the current target, and makes no contact solution. -/
theorem C25_remembered (P : Problem N) (hu : P.useCache = true) (hmax : ∀ h l, P.maxEntry = some (h, l) → 0 ≤ h)
    (nodes : Option N) (load : ℝ) (s : State N) (hs : init P nodes load = .ok s) (before between : List (Op N))
    (hb : Op.clear ∉ between) (h v : ℝ) (hnew : h ∉ (run P s before).heights)
    (hv : (call P (run P s before) h).2 = .ok v) (hnf : (call P (run P s before) h).1.lastFailed = false) :
    let later := run P s (before ++ .call h :: between)
    call P later h = (later, .ok (v + (run P s before).setLoad - later.setLoad)) := by
  intro later
  have hi := inv_run P s before (inv_init P hmax nodes load s hs)
  have hi' := inv_run P s (before ++ .call h :: between) (inv_init P hmax nodes load s hs)
  apply call_of_stored P _ hi'
  have hlater : later = run P (call P (run P s before) h).1 between := by
    simp only [later, run, List.foldl_append, List.foldl_cons, step]
  have hst : Stored (call P (run P s before) h).1 h (v + (run P s before).setLoad) := by
    unfold call at hv hnf ⊢
    rw [if_neg hnew] at hv hnf ⊢
    split at hv
    · rename_i him
      rw [if_pos him] at hnf ⊢
      dsimp only at hv hnf ⊢
      cases hv
      exact stored_after_solve P _ hi.paired h hu hnew hnf
    · cases hv
  show Stored later _ _
  rw [hlater]
  exact stored_run P _ (inv_step P _ (.call h) hi) h _ hst between hb

/-- With the example problem the height 1 is new and is solved without failure. -/
example (s : State Bool) (hs : init exampleProblem none 5 = .ok s) :
    (1 : ℝ) ∉ (run exampleProblem s []).heights ∧ (call exampleProblem (run exampleProblem s []) 1).2 = .ok (-3) ∧
      (call exampleProblem (run exampleProblem s []) 1).1.lastFailed = false := by
  cases hs
  have h1 : (1 : ℝ) ∉ ([0, 10] : List ℝ) := by norm_num
  refine ⟨by simpa [run] using h1, ?_, ?_⟩
  · simp [run, call, solveHeight, nodesFor, exampleProblem]
    norm_num
  · simp [run, call, solveHeight, nodesFor, exampleProblem]

/-! ## Brackets -/

theorem mem_zip_of_getElem? {a b : List ℝ} {i : Nat} {x y : ℝ} (h1 : a[i]? = some x) (h2 : b[i]? = some y) : (x, y) ∈ a.zip b := by
  obtain ⟨h3, rfl⟩ := List.getElem?_eq_some_iff.1 h1
  obtain ⟨h4, rfl⟩ := List.getElem?_eq_some_iff.1 h2
  rw [List.mem_iff_getElem]
  exact ⟨i, by simp only [List.length_zip]; omega, by rw [List.getElem_zip]⟩

/-- **C25**: a bound from the cache is on the right side of the target, whether or not the load increases with the height: a lower bound
above the given one is a tried height with a load below the target; an upper bound is the given one, or a tried height with a load of at
least the target, or (if this one is not above the lower bound) the estimate for twice the target. -/
theorem C25_bracket (P : Problem N) (hmax : ∀ h l, P.maxEntry = some (h, l) → 0 ≤ h) (nodes : Option N) (load : ℝ)
    (s : State N) (hs : init P nodes load = .ok s) (ops : List (Op N)) (lower upper lb ub : ℝ)
    (hb : getBounds P (run P s ops) lower upper = .ok (lb, ub)) :
    (lb = lower ∨ (lower ≤ lb ∧ ∃ l, (lb, l) ∈ (run P s ops).heights.zip (run P s ops).totals ∧ l < (run P s ops).setLoad)) ∧
    (ub = upper ∨
      (lb ≤ ub ∧ ∃ u, (ub, u) ∈ (run P s ops).heights.zip (run P s ops).totals ∧ (run P s ops).setLoad ≤ u) ∨
      P.cubic (run P s ops).totals (run P s ops).heights ((run P s ops).setLoad * 2) = .ok ub) := by
  have hi := inv_run P s ops (inv_init P hmax nodes load s hs)
  generalize run P s ops = t at *
  unfold getBounds at hb
  split at hb
  · cases hb
    exact ⟨Or.inl rfl, Or.inl rfl⟩
  dsimp only at hb
  obtain ⟨hle, h1, h2⟩ := bisectLeft_spec t.totals t.setLoad
  generalize bisectLeft t.totals t.setLoad = i at *
  have hlow : ∀ x, x = (if 0 < i then max (t.heights.getD (i - 1) lower) lower else lower) →
      (x = lower ∨ (lower ≤ x ∧ ∃ l, (x, l) ∈ t.heights.zip t.totals ∧ l < t.setLoad)) := by
    rintro x rfl
    split
    · rename_i hpos
      have hlt : i - 1 < t.heights.length := by rw [hi.paired]; omega
      have hlt' : i - 1 < t.totals.length := by omega
      rw [List.getD_eq_getElem _ _ hlt]
      rcases le_total lower t.heights[i - 1] with h | h
      · right
        rw [max_eq_left h]
        exact ⟨h, t.totals[i - 1], mem_zip_of_getElem? (List.getElem?_eq_getElem hlt) (List.getElem?_eq_getElem hlt'),
          h1 _ hpos (List.getElem?_eq_getElem hlt')⟩
      · left
        exact max_eq_right h
    · exact Or.inl rfl
  obtain ⟨L, hL⟩ : ∃ L, L = (if 0 < i then max (t.heights.getD (i - 1) lower) lower else lower) := ⟨_, rfl⟩
  rw [← hL] at hb
  split at hb
  · cases hb
  split at hb
  · split at hb
    · cases hb
    · rename_i u hu
      cases hb
      exact ⟨hlow _ hL, Or.inr (Or.inr hu)⟩
  · rename_i hz hcond
    cases hb
    refine ⟨hlow _ hL, ?_⟩
    rcases Nat.lt_or_ge i t.heights.length with hlt | hge
    · right; left
      refine ⟨not_lt.1 (fun h => hcond (Or.inr h)), ?_⟩
      have hlt' : i < t.totals.length := by rw [← hi.paired]; exact hlt
      rw [List.getD_eq_getElem _ _ hlt]
      exact ⟨t.totals[i], mem_zip_of_getElem? (List.getElem?_eq_getElem hlt) (List.getElem?_eq_getElem hlt'),
        h2 _ (List.getElem?_eq_getElem hlt')⟩
    · left
      exact List.getD_eq_default _ _ hge

/-- **C25**: if the stored loads increase with the height, some tried height above `lower` has a load below the target and some other one a
load of at least the target, then, unless these are the same up to a relative error of 1e-10, the bounds are two tried heights next to
each other, whose loads are on both sides of the target. -/
theorem C25_bracket_both_sides (P : Problem N) (hmax : ∀ h l, P.maxEntry = some (h, l) → 0 ≤ h) (nodes : Option N) (load : ℝ)
    (s : State N) (hs : init P nodes load = .ok s) (ops : List (Op N)) (lower upper lb ub : ℝ)
    (hmono : (run P s ops).totals.Pairwise (· ≤ ·))
    (hbelow : ∃ l ∈ (run P s ops).totals, l < (run P s ops).setLoad)
    (habove : ∃ u ∈ (run P s ops).totals, (run P s ops).setLoad ≤ u)
    (hlower : ∀ h ∈ (run P s ops).heights, lower ≤ h)
    (hb : getBounds P (run P s ops) lower upper = .ok (lb, ub)) :
    ∃ (i : Nat) (l u ub' : ℝ), (run P s ops).heights[i]? = some lb ∧ (run P s ops).totals[i]? = some l ∧ l < (run P s ops).setLoad ∧
      (run P s ops).heights[i + 1]? = some ub' ∧ (run P s ops).totals[i + 1]? = some u ∧ (run P s ops).setLoad ≤ u ∧ lb ≤ ub' ∧
      (ub = ub' ∨ (ub' ≠ 0 ∧ |ub' - lb| / ub' < 1e-10)) := by
  have hi := inv_run P s ops (inv_init P hmax nodes load s hs)
  generalize run P s ops = t at *
  obtain ⟨l0, hl0, hl0'⟩ := hbelow
  obtain ⟨u0, hu0, hu0'⟩ := habove
  unfold getBounds at hb
  have hlen2 : ¬ t.heights.length < 2 := by
    intro hlt
    rw [hi.paired] at hlt
    match ht : t.totals, hl0, hu0 with
    | [x], h3, h4 =>
      rw [List.mem_singleton] at h3 h4
      linarith
    | x :: y :: rest, _, _ => rw [ht] at hlt; simp at hlt; omega
  rw [if_neg hlen2] at hb
  dsimp only at hb
  obtain ⟨hle, h1, h2⟩ := bisectLeft_spec t.totals t.setLoad
  obtain ⟨g1, g2⟩ := bisectLeft_sorted t.totals t.setLoad hmono
  generalize bisectLeft t.totals t.setLoad = i at *
  have hmem : ∀ x ∈ t.totals, x ∈ t.totals.take i ∨ x ∈ t.totals.drop i := by
    intro x hx
    rw [← List.take_append_drop i t.totals] at hx
    exact List.mem_append.1 hx
  have hpos : 0 < i := by
    rcases hmem l0 hl0 with h | h
    · rcases Nat.eq_zero_or_pos i with rfl | hpos
      · simp at h
      · exact hpos
    · linarith [g2 l0 h]
  have hlt : i < t.totals.length := by
    rcases hmem u0 hu0 with h | h
    · linarith [g1 u0 h]
    · have := List.length_pos_of_mem h
      rw [List.length_drop] at this
      omega
  have hlth : i < t.heights.length := by rw [hi.paired]; exact hlt
  rw [if_pos hpos, List.getD_eq_getElem _ _ hlth, List.getD_eq_getElem _ _ (by omega : i - 1 < t.heights.length),
    max_eq_left (hlower _ (List.getElem_mem _))] at hb
  have hord : t.heights[i - 1] ≤ t.heights[i] := (List.pairwise_iff_getElem.1 hi.sorted) (i - 1) i (by omega) hlth (by omega)
  refine ⟨i - 1, t.totals[i - 1], t.totals[i], t.heights[i], ?_, List.getElem?_eq_getElem _,
    h1 _ hpos (List.getElem?_eq_getElem _), ?_, ?_, h2 _ (List.getElem?_eq_getElem _), ?_, ?_⟩
  · rw [List.getElem?_eq_getElem (by omega)]
    split at hb
    · cases hb
    split at hb
    · split at hb
      · cases hb
      · cases hb; rfl
    · cases hb; rfl
  · rw [Nat.sub_add_cancel hpos]; exact List.getElem?_eq_getElem _
  · rw [Nat.sub_add_cancel hpos]; exact List.getElem?_eq_getElem _
  · split at hb
    · cases hb
    split at hb
    · split at hb
      · cases hb
      · cases hb; exact hord
    · cases hb; exact hord
  · split at hb
    · cases hb
    split at hb
    · rename_i hc
      split at hb
      · cases hb
      · cases hb
        right
        rcases hc with hc | hc
        · exact hc
        · exact absurd hord (not_le.2 hc)
    · cases hb
      exact Or.inl rfl

/-- The bounds of the example problem at the start (`C25_bracket` and the theorems that follow it): from height zero with load zero to height ten with load twenty. -/
example (s : State Bool) (hs : init exampleProblem none 5 = .ok s) :
    getBounds exampleProblem (run exampleProblem s []) 0 40 = .ok (0, 10) ∧ (run exampleProblem s []).totals.Pairwise (· ≤ ·) ∧
    (∃ l ∈ (run exampleProblem s []).totals, l < (run exampleProblem s []).setLoad) ∧
    (∃ u ∈ (run exampleProblem s []).totals, (run exampleProblem s []).setLoad ≤ u) ∧
    ∀ h ∈ (run exampleProblem s []).heights, 0 ≤ h := by
  cases hs
  have hb : bisectLeft [0, 20] 5 = 1 := by
    unfold bisectLeft
    rw [bisectLoop]
    norm_num
    rw [bisectLoop]
    norm_num
    rw [bisectLoop]
    norm_num
  refine ⟨?_, ?_, ⟨0, ?_, ?_⟩, ⟨20, ?_, ?_⟩, ?_⟩ <;> simp [run, getBounds, hb] <;> norm_num

/-! ## Where the search fails -/

/-- **C25, addition**: for materials that are not described by influence matrices the function can't be evaluated at any height but
those in the cache. -/
theorem C25_other_materials_fail (P : Problem N) (him : P.imMats = false) (s : State N) (h : ℝ) (hh : h ∉ s.heights) :
    (call P s h).2 = .error .typeError := by
  unfold call
  rw [if_neg hh, him]
  simp

example (s : State Bool) (hs : init exampleProblem none 5 = .ok s) : (call { exampleProblem with imMats := false } s 1).2 = .error .typeError := by
  cases hs
  exact C25_other_materials_fail _ rfl _ _ (by norm_num)

/-- **C25, addition**: the object can't be made with initial contact nodes, so steps with the option `unloading` fail after a step that
found contact nodes. -/
theorem C25_initial_nodes_fail (P : Problem N) (nodes : N) (load : ℝ) : init P (some nodes) load = .error .attributeError := rfl

/-- **C25, addition**: with a target load of zero or less, the bounds can't be taken from a cache that starts with height zero. -/
theorem C25_no_bounds_for_zero_target (P : Problem N) (s : State N) (hh : ∃ h rest, s.heights = 0 :: h :: rest)
    (ht : ∃ l rest, s.totals = 0 :: l :: rest) (hm : s.totals.Pairwise (· ≤ ·)) (h0 : s.setLoad ≤ 0) (lower upper : ℝ) :
    getBounds P s lower upper = .error .zeroDivisionError := by
  obtain ⟨h, hrest, hh⟩ := hh
  obtain ⟨l, trest, ht⟩ := ht
  have hb : bisectLeft s.totals s.setLoad = 0 := by
    obtain ⟨-, h1, -⟩ := bisectLeft_spec s.totals s.setLoad
    obtain ⟨g1, -⟩ := bisectLeft_sorted s.totals s.setLoad hm
    by_contra hne
    have : (0 : ℝ) ∈ s.totals.take (bisectLeft s.totals s.setLoad) := by
      obtain ⟨k, hk⟩ := Nat.exists_eq_succ_of_ne_zero hne
      rw [hk, ht, List.take_succ_cons]
      exact List.mem_cons_self
    linarith [g1 0 this]
  unfold getBounds
  rw [if_neg (by rw [hh]; simp), hb]
  simp [hh]

example (s : State Bool) (hs : init exampleProblem none 0 = .ok s) : getBounds exampleProblem s 0 40 = .error .zeroDivisionError := by
  cases hs
  exact C25_no_bounds_for_zero_target _ _ ⟨10, [], rfl⟩ ⟨20, [], rfl⟩ (by simp [exampleProblem]) le_rfl _ _

/-- **C25, addition**: the cache does not know about contact nodes: after a change of the prescribed nodes a height tried before returns the
load found with the old nodes. -/
theorem C25_stale_after_change_of_nodes : ∃ (P : Problem Bool) (s : State Bool) (ops : List (Op Bool)) (h v : ℝ),
    init P none 0 = .ok s ∧ (run P s ops).setContactNodes = true ∧ (call P (run P s ops) h).2 = .ok v ∧
    ∃ n, (run P s ops).contactNodes = some n ∧ v ≠ (P.bccg h n).1 - (run P s ops).setLoad := by
  refine ⟨{ exampleProblem with bccg := fun _ n => (if n then 1 else 2, false), noNodes := fun _ => false, maxEntry := none }, _,
    [.changeLoad 0 (some true), .call 1, .changeLoad 0 (some false)], 1, 1, rfl, rfl, ?_, false, rfl, ?_⟩
  · have hb : bisectLeft [0] 1 = 1 := by
      unfold bisectLeft
      rw [bisectLoop]
      norm_num
      rw [bisectLoop]
      norm_num
    simp [run, step, call, changeLoad, solveHeight, nodesFor, addToCache, exampleProblem, hb, lookup, List.findIdx_cons]
  · simp [run, step, call, changeLoad, solveHeight, nodesFor, addToCache, exampleProblem]

/-! ## The load that is searched for -/

/-- The load that a history asks for: the one given last, or the one given at the start. -/
def wantedLoad (start : ℝ) : List (Op N) → ℝ
  | [] => start
  | .changeLoad l _ :: rest => wantedLoad l rest
  | _ :: rest => wantedLoad start rest

theorem addToCache_load (P : Problem N) (s : State N) (h l : ℝ) (f : Bool) : (addToCache P s h l f).setLoad = s.setLoad := by
  unfold addToCache
  split <;> rfl

theorem call_load (P : Problem N) (s : State N) (h : ℝ) : (call P s h).1.setLoad = s.setLoad := by
  unfold call
  split
  · split <;> rfl
  · split
    · show (solveHeight P s h).1.setLoad = _
      unfold solveHeight
      generalize nodesFor P s h = nodes
      dsimp only
      split
      · exact addToCache_load P _ _ _ _
      · exact addToCache_load P _ _ _ _
    · rfl

theorem run_load (P : Problem N) (s : State N) (ops : List (Op N)) : (run P s ops).setLoad = wantedLoad s.setLoad ops := by
  induction ops generalizing s with
  | nil => rfl
  | cons op rest ih =>
    show (run P (step P s op) rest).setLoad = _
    rw [ih]
    cases op with
    | call h => show wantedLoad (call P s h).1.setLoad rest = _; rw [call_load]; rfl
    | changeLoad l nodes => rfl
    | clear =>
      show wantedLoad (clearCache s).setLoad rest = _
      unfold clearCache
      split <;> rfl

/-- **C25**: for a height in the cache the answer is the stored load minus the load asked for last. -/
theorem C25_error_against_current_load (P : Problem N) (hmax : ∀ h l, P.maxEntry = some (h, l) → 0 ≤ h) (nodes : Option N) (load : ℝ)
    (s : State N) (hs : init P nodes load = .ok s) (ops : List (Op N)) (h : ℝ) (hh : h ∈ (run P s ops).heights) :
    ∃ l, (h, l) ∈ (run P s ops).heights.zip (run P s ops).totals ∧
      (call P (run P s ops) h).2 = .ok (l - wantedLoad load ops) := by
  obtain ⟨l, h1, h2⟩ := C25_repeated_height P hmax nodes load s hs ops h hh
  refine ⟨l, h1, ?_⟩
  have hl : s.setLoad = load := by
    unfold init at hs
    split at hs
    · cases hs
    dsimp only at hs
    split at hs
    · split at hs
      · cases hs; rfl
      · cases hs; rfl
    · cases hs; rfl
  rw [h2, run_load, hl]

example : wantedLoad (N := Bool) 3 [.call 1, .changeLoad 5 none, .call 2, .clear] = 5 := rfl

end Verif.HeightCache
