import Verif.Reynolds.Model
import Verif.Reynolds.Spec
import Verif.Tdma.Spec
import Mathlib.Tactic.Linarith
import Mathlib.Tactic.LinearCombination
import Mathlib.Tactic.NormNum
import Mathlib.Tactic.Ring
import Mathlib.Tactic.FieldSimp
import Mathlib.Tactic.Positivity
import Mathlib.Tactic.IntervalCases

/-!
# C28, C29, C30, C64: the Reynolds solver
-/

namespace Verif.Reynolds

open Verif

/-! ## C28: no stale parameters -/

/-- The cached value is the value for the current parameters. -/
def Fresh (s : Solver) : Prop := ∀ l, s.cached = some l → lambdaOf s.params = .ok l

theorem fresh_step (s : Solver) (h : Fresh s) (op : Op) : Fresh (s.step op) := by
  cases op with
  | read =>
    show Fresh s.lambdaBar.1
    unfold Solver.lambdaBar
    split
    · exact h
    · split
      · rename_i l hl
        intro l' hl'
        cases hl'
        exact hl
      · exact h
  | _ => intro l hl; cases hl

theorem fresh_run (s : Solver) (h : Fresh s) (ops : List Op) : Fresh (s.run ops) := by
  induction ops generalizing s with
  | nil => exact h
  | cons op rest ih => exact ih _ (fresh_step s h op)

theorem lambda_fresh (s : Solver) (h : Fresh s) : s.lambdaBar.2 = lambdaOf s.params := by
  unfold Solver.lambdaBar
  split
  · rename_i l hl
    exact (h l hl).symm
  · split
    · rename_i l hl; exact hl.symm
    · rename_i e he; exact he.symm

theorem lastGiven_cons {α β : Type} (start : β) (f : α → Option β) (a : α) (rest : List α) :
    lastGiven start f (a :: rest) = lastGiven ((f a).getD start) f rest := by
  unfold lastGiven
  cases h : f a with
  | none => simp [List.filterMap_cons, h]
  | some b =>
    rw [List.filterMap_cons, h]
    dsimp only
    rw [List.getLast?_cons]
    simp

/-- The changes of each parameter. -/
def asPressure : Op → Option (Option ℝ)
  | .setPressure x => some x
  | _ => none
/-- See `asPressure`. -/
def asHalfWidth : Op → Option (Option ℝ)
  | .setHalfWidth x => some x
  | _ => none
/-- See `asPressure`. -/
def asViscosity : Op → Option (Option ℝ)
  | .setViscosity x => some x
  | _ => none
/-- See `asPressure`. -/
def asSpeed : Op → Option (Option ℝ)
  | .setSpeed x => some x
  | _ => none
/-- See `asPressure`. -/
def asRadius : Op → Option (Option ℝ)
  | .setRadius x => some x
  | _ => none

theorem lambda_params (s : Solver) : s.lambdaBar.1.params = s.params := by
  unfold Solver.lambdaBar
  split
  · rfl
  · split <;> rfl

theorem run_params (s : Solver) (ops : List Op) :
    (s.run ops).params = ⟨lastGiven s.params.pressure asPressure ops, lastGiven s.params.halfWidth asHalfWidth ops,
      lastGiven s.params.viscosity asViscosity ops, lastGiven s.params.speed asSpeed ops, lastGiven s.params.radius asRadius ops⟩ := by
  induction ops generalizing s with
  | nil => rfl
  | cons op rest ih =>
    show ((s.step op).run rest).params = _
    rw [ih]
    simp only [lastGiven_cons]
    cases op with
    | read =>
      show Params.mk (lastGiven s.lambdaBar.1.params.pressure asPressure rest) (lastGiven s.lambdaBar.1.params.halfWidth asHalfWidth rest)
        (lastGiven s.lambdaBar.1.params.viscosity asViscosity rest) (lastGiven s.lambdaBar.1.params.speed asSpeed rest)
        (lastGiven s.lambdaBar.1.params.radius asRadius rest) = _
      rw [lambda_params]
      rfl
    | _ => rfl

/-- **C28**: after any history of parameter changes and reads, the speed parameter that is read is the one of the values given last. -/
theorem C28_never_stale (radius pressure halfWidth viscosity : ℝ) (ops : List Op) (u eta r a ph : ℝ)
    (hu : lastGiven none asSpeed ops = some u) (he : lastGiven (some viscosity) asViscosity ops = some eta)
    (hr : lastGiven (some radius) asRadius ops = some r) (ha : lastGiven (some halfWidth) asHalfWidth ops = some a)
    (hp : lastGiven (some pressure) asPressure ops = some ph) (ha0 : a ≠ 0) (hp0 : ph ≠ 0) :
    ((Solver.init radius pressure halfWidth viscosity).run ops).lambdaBar.2 = .ok (12 * u * eta * r ^ 2 / (a ^ 3 * ph)) := by
  rw [lambda_fresh _ (fresh_run _ (by intro l hl; cases hl) ops), run_params]
  show lambdaOf ⟨lastGiven (some pressure) asPressure ops, lastGiven (some halfWidth) asHalfWidth ops,
    lastGiven (some viscosity) asViscosity ops, lastGiven none asSpeed ops, lastGiven (some radius) asRadius ops⟩ = _
  rw [hu, he, hr, ha, hp]
  unfold lambdaOf
  dsimp only
  rw [if_neg (mul_ne_zero (pow_ne_zero 3 ha0) hp0)]

/-- **C28**: if a parameter is missing, `TypeError` is raised, never an old value returned. -/
theorem C28_missing_parameter (radius pressure halfWidth viscosity : ℝ) (ops : List Op)
    (h : lastGiven none asSpeed ops = none ∨ lastGiven (some viscosity) asViscosity ops = none ∨ lastGiven (some radius) asRadius ops = none ∨
      lastGiven (some halfWidth) asHalfWidth ops = none ∨ lastGiven (some pressure) asPressure ops = none) :
    ((Solver.init radius pressure halfWidth viscosity).run ops).lambdaBar.2 = .error .typeError := by
  rw [lambda_fresh _ (fresh_run _ (by intro l hl; cases hl) ops), run_params]
  show lambdaOf ⟨lastGiven (some pressure) asPressure ops, lastGiven (some halfWidth) asHalfWidth ops,
    lastGiven (some viscosity) asViscosity ops, lastGiven none asSpeed ops, lastGiven (some radius) asRadius ops⟩ = _
  unfold lambdaOf
  dsimp only
  split
  · rename_i h1 h2 h3 h4 h5
    rcases h with h | h | h | h | h <;> simp_all
  · rfl

/-- A history with a read between two changes: the second value counts (`C28_never_stale`). -/
example : lastGiven none asSpeed [.setSpeed (some 1), .read, .setSpeed (some 2), .setRadius (some 3)] = some 2 ∧
    lastGiven (some 5) asRadius [.setSpeed (some 1), .read, .setSpeed (some 2), .setRadius (some 3)] = some 3 ∧
    lastGiven (some 7) asPressure [.setSpeed (some 1), .read, .setSpeed (some 2), .setRadius (some 3)] = some (7 : ℝ) := ⟨rfl, rfl, rfl⟩

/-! ## C29: conversions -/

/-- **C29**: converting to the dimensional form and back, and the other way round, is the identity for all five quantities. -/
theorem C29_round_trips (s : Scales) (hp : s.pressure ≠ 0) (ha : s.halfWidth ≠ 0) (hv : s.viscosity ≠ 0) (hd : s.density ≠ 0)
    (hr : s.radius ≠ 0) (x : ℝ) (b : Bool) :
    dimPressure s (dimPressure s x b) (!b) = x ∧ dimViscosity s (dimViscosity s x b) (!b) = x ∧
    dimDensity s (dimDensity s x b) (!b) = x ∧ dimGap s (dimGap s x b) (!b) = x ∧ dimLength s (dimLength s x b) (!b) = x := by
  cases b <;> simp only [dimPressure, dimViscosity, dimDensity, dimGap, dimLength, Bool.not_true, Bool.not_false, if_true, if_false,
    Bool.false_eq_true] <;> refine ⟨?_, ?_, ?_, ?_, ?_⟩ <;> field_simp

example := C29_round_trips ⟨1e9, 1e-4, 0.01, 870, 0.01⟩ (by norm_num) (by norm_num) (by norm_num) (by norm_num) (by norm_num) 5 true

/-- **C29**: what the conversions are: the dimensional quantity is the non-dimensional one times a scale that is one unit of it: the
reference pressure, viscosity, density, the half width and, for the gap, the half width squared over the radius. -/
theorem C29_scales (s : Scales) (x : ℝ) : dimPressure s 1 false = s.pressure ∧ dimViscosity s 1 false = s.viscosity ∧
    dimDensity s 1 false = s.density ∧ dimLength s 1 false = s.halfWidth ∧ dimGap s 1 false = s.halfWidth ^ 2 / s.radius ∧
    dimPressure s x false = x * dimPressure s 1 false ∧ dimViscosity s x false = x * dimViscosity s 1 false ∧
    dimDensity s x false = x * dimDensity s 1 false ∧ dimLength s x false = x * dimLength s 1 false ∧
    dimGap s x false = x * dimGap s 1 false := by
  simp [dimPressure, dimViscosity, dimDensity, dimLength, dimGap, mul_comm]

example : (⟨1e9, 1e-4, 0.01, 870, 0.01⟩ : Scales).pressure ≠ 0 ∧ (⟨1e9, 1e-4, 0.01, 870, 0.01⟩ : Scales).radius ≠ 0 := by
  norm_num

/-! ## C30: the pressure stays between zero and the maximum -/

theorem mem_pyRange (forward : Bool) (a b r : ℤ) :
    r ∈ pyRange forward a b ↔ if forward then a ≤ r ∧ r < b else b < r ∧ r ≤ a := by
  unfold pyRange
  cases forward
  · simp only [Bool.false_eq_true, if_false, List.mem_map, List.mem_range]
    constructor
    · rintro ⟨k, hk, rfl⟩; omega
    · intro h; exact ⟨(a - r).toNat, by omega, by omega⟩
  · simp only [if_true, List.mem_map, List.mem_range]
    constructor
    · rintro ⟨k, hk, rfl⟩; omega
    · intro h; exact ⟨(r - a).toNat, by omega, by omega⟩

theorem nodup_pyRange (forward : Bool) (a b : ℤ) : (pyRange forward a b).Nodup := by
  unfold pyRange
  cases forward
  · simp only [Bool.false_eq_true, if_false]
    exact List.Nodup.map (fun x y h => by simpa using h) List.nodup_range
  · simp only [if_true]
    exact List.Nodup.map (fun x y h => by simpa using h) List.nodup_range

/-- The rows of a sweep with a row order made for the same length. -/
theorem mem_rows (forward periodic : Bool) (length : Nat) (r : ℤ) :
    r ∈ pyRange forward (rowOrder forward periodic length).1 (rowOrder forward periodic length).2 ↔
      0 ≤ r ∧ r < length ∧ (periodic = false → 1 ≤ r ∧ r + 1 < length) := by
  rw [mem_pyRange]
  unfold rowOrder
  cases forward <;> cases periodic <;>
    simp only [Bool.false_eq_true, if_false, if_true, true_implies, false_implies, reduceCtorEq, and_true] <;> omega

theorem sweep_ok {α : Type} (clip : α → α) (rowSolve : Field α → Nat → Nat → α) (width length : Nat) (rows : List ℤ)
    (h : ∀ r ∈ rows, 0 ≤ r ∧ r < length) (p : Field α) :
    sweep clip rowSolve width length rows p = .ok (rows.foldl (fun q r => sweepRow clip rowSolve width q r.toNat) p) := by
  induction rows generalizing p with
  | nil => rfl
  | cons r rest ih =>
    unfold sweep
    rw [if_pos (h r List.mem_cons_self), ih (fun r hr => h r (List.mem_cons_of_mem _ hr))]
    rfl

theorem foldl_rows {α : Type} (clip : α → α) (rowSolve : Field α → Nat → Nat → α) (width : Nat) (rows : List ℤ)
    (h : ∀ r ∈ rows, 0 ≤ r) (p : Field α) (i j : Nat) :
    ((1 ≤ i ∧ i + 1 < width ∧ (j : ℤ) ∈ rows) →
      ∃ q, rows.foldl (fun q r => sweepRow clip rowSolve width q r.toNat) p i j = clip (rowSolve q j i)) ∧
    (¬ (1 ≤ i ∧ i + 1 < width ∧ (j : ℤ) ∈ rows) → rows.foldl (fun q r => sweepRow clip rowSolve width q r.toNat) p i j = p i j) := by
  induction rows generalizing p with
  | nil => simp
  | cons r rest ih =>
    have hr := h r List.mem_cons_self
    obtain ⟨ih1, ih2⟩ := ih (fun r hr => h r (List.mem_cons_of_mem _ hr)) (sweepRow clip rowSolve width p r.toNat)
    rw [List.foldl_cons]
    by_cases hc : 1 ≤ i ∧ i + 1 < width ∧ (j : ℤ) ∈ rest
    · refine ⟨fun _ => ih1 hc, fun hn => absurd ⟨hc.1, hc.2.1, List.mem_cons_of_mem _ hc.2.2⟩ hn⟩
    · rw [ih2 hc]
      unfold sweepRow
      constructor
      · rintro ⟨h1, h2, h3⟩
        rcases List.mem_cons.1 h3 with h3 | h3
        · exact ⟨p, by rw [if_pos ⟨by omega, h1, h2⟩, ← h3]; simp⟩
        · exact absurd ⟨h1, h2, h3⟩ hc
      · intro hn
        rw [if_neg]
        rintro ⟨h1, h2, h3⟩
        exact hn ⟨h2, h3, List.mem_cons.2 (Or.inl (by omega))⟩

theorem computed_iff (forward periodic : Bool) (width length i j : Nat) :
    Computed periodic width length i j ↔
      (1 ≤ i ∧ i + 1 < width ∧ (j : ℤ) ∈ pyRange forward (rowOrder forward periodic length).1 (rowOrder forward periodic length).2) := by
  rw [mem_rows]
  unfold Computed
  constructor
  · rintro ⟨h1, h2, h3, h4⟩
    refine ⟨h1, h2, by omega, by omega, fun hp => ?_⟩
    have := h4 hp
    omega
  · rintro ⟨h1, h2, h3, h4, h5⟩
    refine ⟨h1, h2, by omega, fun hp => ?_⟩
    have := h5 hp
    omega

/-- Everything about a first solution: it succeeds, computed nodes are clipped values of the row solver, all other nodes are kept. -/
theorem solveWith_spec {α : Type} (clip : α → α) (rowSolve : Field α → Nat → Nat → α) (forward periodic : Bool) (width length : Nat)
    (p : Field α) : ∃ q, (solveWith clip rowSolve forward periodic none width length p).2 = .ok q ∧
      (∀ i j, Computed periodic width length i j → ∃ q', q i j = clip (rowSolve q' j i)) ∧
      (∀ i j, ¬ Computed periodic width length i j → q i j = p i j) := by
  have hrows : ∀ r ∈ pyRange forward (rowOrder forward periodic length).1 (rowOrder forward periodic length).2, 0 ≤ r ∧ r < length := by
    intro r hr
    rw [mem_rows] at hr
    exact ⟨hr.1, hr.2.1⟩
  refine ⟨_, sweep_ok clip rowSolve width length _ hrows p, ?_, ?_⟩
  · intro i j hc
    exact (foldl_rows clip rowSolve width _ (fun r hr => (hrows r hr).1) p i j).1 ((computed_iff forward periodic width length i j).1 hc)
  · intro i j hc
    exact (foldl_rows clip rowSolve width _ (fun r hr => (hrows r hr).1) p i j).2
      (fun h => hc ((computed_iff forward periodic width length i j).2 h))

theorem clipX_range (m x : XR) (hm : XR.le (.fin 0) m = true) : clipX m x = .nan ∧ x = .nan ∨ InRange m (clipX m x) := by
  cases x with
  | nan => left; cases m <;> exact ⟨rfl, rfl⟩
  | fin x =>
    right
    cases m with
    | fin m =>
      have hm' : 0 ≤ m := by simpa using hm
      unfold clipX InRange
      by_cases h : x < 0
      · simp [XR.lt, XR.le, h, not_lt.2 hm', hm']
      · by_cases h2 : m < x
        · simp [XR.lt, XR.le, h, h2, hm']
        · simp [XR.lt, XR.le, h, h2]
          constructor <;> linarith
    | pinf =>
      unfold clipX InRange
      by_cases h : x < 0
      · simp [XR.lt, XR.le, h]
      · simp [XR.lt, XR.le, h]
        linarith
    | ninf => simp [XR.le] at hm
    | nan => simp [XR.le] at hm
  | pinf =>
    right
    cases m with
    | fin m =>
      have hm' : 0 ≤ m := by simpa using hm
      simp [clipX, InRange, XR.lt, XR.le, hm']
    | pinf => simp [clipX, InRange, XR.lt, XR.le]
    | ninf => simp [XR.le] at hm
    | nan => simp [XR.le] at hm
  | ninf =>
    right
    cases m with
    | fin m =>
      have hm' : 0 ≤ m := by simpa using hm
      simp [clipX, InRange, XR.lt, XR.le, hm', not_lt.2 hm']
    | pinf => simp [clipX, InRange, XR.lt, XR.le]
    | ninf => simp [XR.le] at hm
    | nan => simp [XR.le] at hm

/-- **C30**: whatever the row solver returns (infinities included), the pressure of every computed node is between zero and the maximum; `nan`
can only come from the row solver. Every other node keeps its value. Holds for every initial field, both sweep directions, with
and without periodicity, for the first solution of a solver (see `C30_row_order_is_kept` for later ones). -/
theorem C30_pressure_in_range (rowSolve : Field XR → Nat → Nat → XR) (maxPressure : XR) (hm : XR.le (.fin 0) maxPressure = true)
    (forward periodic : Bool) (width length : Nat) (p : Field XR) :
    ∃ q, (solveWith (clipX maxPressure) rowSolve forward periodic none width length p).2 = .ok q ∧
      (∀ i j, Computed periodic width length i j →
        InRange maxPressure (q i j) ∨ q i j = .nan ∧ ∃ q', rowSolve q' j i = .nan) ∧
      (∀ i j, ¬ Computed periodic width length i j → q i j = p i j) := by
  obtain ⟨q, h1, h2, h3⟩ := solveWith_spec (clipX maxPressure) rowSolve forward periodic width length p
  refine ⟨q, h1, ?_, h3⟩
  intro i j hc
  obtain ⟨q', hq⟩ := h2 i j hc
  rcases clipX_range maxPressure (rowSolve q' j i) hm with h | h
  · right; exact ⟨hq.trans h.1, q', h.2⟩
  · left; rw [hq]; exact h

example := C30_pressure_in_range (fun _ _ _ => .fin (-1)) .pinf rfl true false 4 5 (fun _ _ => .fin 0)

/-- **C30** for the model of the whole solution in numbers. -/
theorem C30_solution_in_range (d : Data) (dgtsv : Tdma.Dgtsv) (maxPressure : ℝ) (hm : 0 ≤ maxPressure) (forward periodic : Bool)
    (p : Field ℝ) : ∃ q, (solve d dgtsv maxPressure forward periodic none p).2 = .ok q ∧
      (∀ i j, Computed periodic d.width d.length i j → 0 ≤ q i j ∧ q i j ≤ maxPressure) ∧
      (∀ i j, ¬ Computed periodic d.width d.length i j → q i j = p i j) := by
  obtain ⟨q, h1, h2, h3⟩ := solveWith_spec (clipR maxPressure) (fun q row i => d.rowSolve dgtsv q row i) forward periodic d.width d.length p
  refine ⟨q, h1, ?_, h3⟩
  intro i j hc
  obtain ⟨q', hq⟩ := h2 i j hc
  rw [hq]
  exact ⟨le_min (le_max_right _ _) hm, min_le_right _ _⟩

example (d : Data) (dgtsv : Tdma.Dgtsv) := C30_solution_in_range d dgtsv 5 (by norm_num) true false (fun _ _ => 0)

/-- **C30**: the prescribed values on the boundary. Without periodicity the four edges of the field are kept. -/
theorem C30_edges_kept (d : Data) (dgtsv : Tdma.Dgtsv) (maxPressure : ℝ) (forward : Bool) (p : Field ℝ) :
    ∃ q, (solve d dgtsv maxPressure forward false none p).2 = .ok q ∧
      ∀ k, q 0 k = p 0 k ∧ q (d.width - 1) k = p (d.width - 1) k ∧ q k 0 = p k 0 ∧ q k (d.length - 1) = p k (d.length - 1) := by
  obtain ⟨q, h1, -, h3⟩ := solveWith_spec (clipR maxPressure) (fun q row i => d.rowSolve dgtsv q row i) forward false d.width d.length p
  refine ⟨q, h1, fun k => ⟨h3 _ _ ?_, h3 _ _ ?_, h3 _ _ ?_, h3 _ _ ?_⟩⟩ <;>
    (rintro ⟨a, b, c, e⟩; have := e rfl; omega)

example : Computed false 4 5 2 3 ∧ ¬ Computed false 4 5 2 4 ∧ Computed true 4 5 2 4 := by
  unfold Computed; simp

/-- **C30**: a second solution for the same shape sees the same rows, so that all of the above holds for it too. -/
theorem C30_row_order_is_kept {α : Type} (clip : α → α) (rowSolve : Field α → Nat → Nat → α) (forward periodic : Bool) (width length : Nat)
    (p p' : Field α) :
    solveWith clip rowSolve forward periodic (some (solveWith clip rowSolve forward periodic none width length p).1) width length p' =
      solveWith clip rowSolve forward periodic none width length p' := rfl

/-- **C30, negation for a change of the shape**: the row order is made once. After a solution for a field of `length` rows, a longer field is
not computed beyond the old end (forward sweep): a negative pressure stays. -/
theorem C30_stale_row_order (d : Data) (dgtsv : Tdma.Dgtsv) (maxPressure : ℝ) (length : Nat) (hl : 2 ≤ length) (hd : length < d.length)
    (p : Field ℝ) : ∃ q, (solve d dgtsv maxPressure true false (some (rowOrder true false length)) p).2 = .ok q ∧
      ∀ i, q i (length - 1) = p i (length - 1) := by
  have hrows : ∀ r ∈ pyRange true (rowOrder true false length).1 (rowOrder true false length).2, 0 ≤ r ∧ r < d.length := by
    intro r hr
    rw [mem_rows] at hr
    omega
  refine ⟨_, sweep_ok _ _ _ _ _ hrows p, ?_⟩
  intro i
  refine (foldl_rows _ _ _ _ (fun r hr => (hrows r hr).1) p i (length - 1)).2 ?_
  rintro ⟨-, -, h⟩
  rw [mem_rows] at h
  have := h.2.2 rfl
  omega

/-- The node of `C30_stale_row_order` is an inner one of the longer field, so it should have been computed. -/
example : Computed false 4 6 2 (5 - 1) := by unfold Computed; simp

/-! ## C64: a converged sweep solves the discretised Reynolds equation -/

theorem foldl_other {α : Type} (clip : α → α) (rowSolve : Field α → Nat → Nat → α) (width : Nat) (rows : List ℤ) (h : ∀ r ∈ rows, 0 ≤ r)
    (p : Field α) (j : Nat) (hj : (j : ℤ) ∉ rows) (i : Nat) : rows.foldl (fun q r => sweepRow clip rowSolve width q r.toNat) p i j = p i j :=
  (foldl_rows clip rowSolve width rows h p i j).2 (fun hh => hj hh.2.2)

/-- If a sweep leaves the field unchanged, every row of it does. -/
theorem fixed_rows {α : Type} (clip : α → α) (rowSolve : Field α → Nat → Nat → α) (width : Nat) (rows : List ℤ) (h : ∀ r ∈ rows, 0 ≤ r)
    (hn : rows.Nodup) (p : Field α) (hp : rows.foldl (fun q r => sweepRow clip rowSolve width q r.toNat) p = p) :
    ∀ r ∈ rows, sweepRow clip rowSolve width p r.toNat = p := by
  induction rows with
  | nil => simp
  | cons r rest ih =>
    rw [List.foldl_cons] at hp
    obtain ⟨hr, hn'⟩ := List.nodup_cons.1 hn
    have h0 := h r List.mem_cons_self
    have h' := fun x hx => h x (List.mem_cons_of_mem r hx)
    have hrow : sweepRow clip rowSolve width p r.toNat = p := by
      funext i j
      by_cases hj : j = r.toNat
      · have e := foldl_other clip rowSolve width rest h' (sweepRow clip rowSolve width p r.toNat) j
          (by rw [hj, Int.toNat_of_nonneg h0]; exact hr) i
        rw [hp] at e
        exact e.symm
      · unfold sweepRow
        rw [if_neg (fun hh => hj hh.1)]
    intro x hx
    rcases List.mem_cons.1 hx with rfl | hx
    · exact hrow
    · rw [hrow] at hp
      exact ih h' hn' hp x hx

/-- The pressure of a node is known not to be clipped: it is an inner node strictly inside of the range, or it is a zero on
the boundary. -/
def Unclipped (width : Nat) (maxPressure : ℝ) (p : Field ℝ) (row i : Nat) : Prop :=
  (1 ≤ i ∧ i + 1 < width ∧ 0 < p i row ∧ p i row < maxPressure) ∨ ((i = 0 ∨ i + 1 = width) ∧ p i row = 0)

theorem clip_inner (m x y : ℝ) (h : clipR m x = y) (h0 : 0 < y) (h1 : y < m) : x = y := by
  unfold clipR at h
  rcases min_choice (max x 0) m with e | e
  · rw [e] at h
    rcases max_choice x 0 with e' | e'
    · rw [e'] at h; exact h
    · rw [e'] at h; linarith
  · rw [e] at h; linarith

theorem epsilon_mobility (d : Data) (i j : Nat) :
    d.epsilon i j = mobility (d.density i j) (d.gap i j) (d.viscosity i j) d.lambdaBar d.minGap := by
  unfold Data.epsilon mobility
  split
  · rfl
  · rw [div_mul_div_comm, mul_one]

/-- The row equation of an inner node, with the right-hand side taken at the same pressure, is the discretised Reynolds equation. -/
theorem row_equation (d : Data) (p : Field ℝ) (row i : Nat) (hdx : d.dx ≠ 0) (hrho : d.density i row ≠ 0)
    (h : d.coefA row i * p (i - 1) row + d.coefB row i * p i row + d.coefC row i * p (i + 1) row = d.coefF p row i) :
    (d.d2 row i * (p (i + 1) row - p i row) - d.d1 row i * (p i row - p (i - 1) row) +
      (d.d5 row i * (p i (d.rowPlus row) - p i row) - d.d4 row i * (p i row - p i (d.rowMinus row)))) / d.dx ^ 2 =
      (d.density i row * d.gap i row - d.density (i - 1) row * d.gap (i - 1) row) / d.dx +
        (d.density i row * d.gap i row - d.prevDensity i row * d.prevGap i row) * d.recipDt +
        (d.density i row - d.density (i - 1) row) * (d.gap i row - d.gap (i - 1) row) / d.dx := by
  unfold Data.coefA Data.coefB Data.coefC Data.coefF Data.q1 Data.q2 Data.recipDx2Rho Data.recipDx at h
  have key : (d.d2 row i * (p (i + 1) row - p i row) - d.d1 row i * (p i row - p (i - 1) row) +
      (d.d5 row i * (p i (d.rowPlus row) - p i row) - d.d4 row i * (p i row - p i (d.rowMinus row)))) * (1 / (d.dx ^ 2 * d.density i row)) =
      (d.gap i row - d.prevDensity i row / d.density i row * d.prevGap i row) * d.recipDt +
      ((d.gap i row - d.gap (i - 1) row) * (1 / d.dx) + d.gap i row * (1 - d.density (i - 1) row / d.density i row) * (1 / d.dx)) := by
    linear_combination h
  generalize d.d2 row i * (p (i + 1) row - p i row) - d.d1 row i * (p i row - p (i - 1) row) +
      (d.d5 row i * (p i (d.rowPlus row) - p i row) - d.d4 row i * (p i row - p i (d.rowMinus row))) = S at *
  have e1 : S / d.dx ^ 2 = d.density i row * (S * (1 / (d.dx ^ 2 * d.density i row))) := by field_simp
  rw [e1, key]
  field_simp
  ring

/-- **C64**: if a sweep leaves the pressure unchanged and the system of a row is solved exactly, then at every computed node that is, together
with its two neighbours in the row, strictly between zero and the maximum (or a zero on the boundary), the pressure satisfies the
discretised Reynolds equation: what flows in from the four neighbours equals the wedge term plus the squeeze term, plus a remainder that
is the product of the increments of density and gap. -/
theorem C64_converged_sweep_solves_reynolds (d : Data) (dgtsv : Tdma.Dgtsv) (maxPressure : ℝ) (forward periodic : Bool) (p : Field ℝ)
    (i row : Nat) (hexact : Tdma.SolvesTri d.width (d.aAll row) (d.bAll row) (d.cAll row)
      (dgtsv d.width (d.aAll row) (d.bAll row) (d.cAll row) (d.fAll p row)) (d.fAll p row))
    (hfix : (solve d dgtsv maxPressure forward periodic none p).2 = .ok p) (hc : Computed periodic d.width d.length i row)
    (hdx : d.dx ≠ 0) (hrho : d.density i row ≠ 0) (h0 : Unclipped d.width maxPressure p row (i - 1)) (h1 : Unclipped d.width maxPressure p row i)
    (h2 : Unclipped d.width maxPressure p row (i + 1)) :
    let e := fun a b => mobility (d.density a b) (d.gap a b) (d.viscosity a b) d.lambdaBar d.minGap
    let next := (row + 1) % d.length
    let last := (row + d.length - 1) % d.length
    (flow (e i row) (e (i + 1) row) (p i row) (p (i + 1) row) d.dx - flow (e (i - 1) row) (e i row) (p (i - 1) row) (p i row) d.dx) / d.dx +
      (flow (e i row) (e i next) (p i row) (p i next) d.dx - flow (e i last) (e i row) (p i last) (p i row) d.dx) / d.dx =
    (d.density i row * d.gap i row - d.density (i - 1) row * d.gap (i - 1) row) / d.dx +
      (d.density i row * d.gap i row - d.prevDensity i row * d.prevGap i row) * (if d.dt = 0 then 0 else 1 / d.dt) +
      (d.density i row - d.density (i - 1) row) * (d.gap i row - d.gap (i - 1) row) / d.dx := by
  intro e next last
  have hc' := hc
  obtain ⟨hi1, hi2, hrow, -⟩ := hc'
  have hrows : ∀ r ∈ pyRange forward (rowOrder forward periodic d.length).1 (rowOrder forward periodic d.length).2, 0 ≤ r ∧ r < d.length := by
    intro r hr
    rw [mem_rows] at hr
    exact ⟨hr.1, hr.2.1⟩
  have hfold := sweep_ok (clipR maxPressure) (fun q row i => d.rowSolve dgtsv q row i) d.width d.length _ hrows p
  have hfix' : sweep (clipR maxPressure) (fun q row i => d.rowSolve dgtsv q row i) d.width d.length
    (pyRange forward (rowOrder forward periodic d.length).1 (rowOrder forward periodic d.length).2) p = .ok p := hfix
  rw [hfix'] at hfold
  have hall := fixed_rows _ _ _ _ (fun r hr => (hrows r hr).1) (nodup_pyRange _ _ _) p (by injection hfold with h; exact h.symm) row
    ((computed_iff forward periodic d.width d.length i row).1 hc).2.2
  rw [Int.toNat_natCast] at hall
  have hx := hexact
  generalize hX : dgtsv d.width (d.aAll row) (d.bAll row) (d.cAll row) (d.fAll p row) = x at hx
  have hxp : ∀ k, 1 ≤ k → k + 1 < d.width → clipR maxPressure (x k) = p k row := by
    intro k hk1 hk2
    have := congrFun (congrFun hall k) row
    unfold sweepRow at this
    rw [if_pos ⟨rfl, hk1, hk2⟩] at this
    rw [← this, ← hX]
    rfl
  have hval : ∀ k, k < d.width → Unclipped d.width maxPressure p row k → x k = p k row := by
    intro k hk hu
    by_cases hb : k = 0 ∨ k + 1 = d.width
    · have hx0 : x k = 0 := by
        have hr := hx k hk
        rcases hb with hb | hb
        · subst hb
          rw [if_pos rfl, if_neg (by omega)] at hr
          unfold Data.bAll Data.cAll Data.fAll at hr
          rw [if_neg (by omega), if_neg (by omega), if_neg (by omega)] at hr
          linarith
        · rw [if_neg (by omega), if_pos hb] at hr
          unfold Data.aAll Data.bAll Data.fAll at hr
          rw [if_neg (by omega), if_neg (by omega), if_neg (by omega)] at hr
          linarith
      rcases hu with hu | hu
      · exact absurd (⟨hu.1, hu.2.1⟩ : 1 ≤ k ∧ k + 1 < d.width) (by omega)
      · rw [hx0, hu.2]
    · rw [not_or] at hb
      rcases hu with hu | hu
      · exact clip_inner _ _ _ (hxp k (by omega) (by omega)) hu.2.2.1 hu.2.2.2
      · exact absurd hu.1 (by omega)
  have e0 := hval (i - 1) (by omega) h0
  have e1 := hval i (by omega) h1
  have e2 := hval (i + 1) (by omega) h2
  have hr := hx i (by omega)
  rw [if_neg (by omega), if_neg (by omega), e0, e1, e2] at hr
  unfold Data.aAll Data.bAll Data.cAll Data.fAll at hr
  rw [if_pos (by omega), if_pos (by omega), if_pos (by omega), if_pos (by omega), show i - 1 + 1 = i by omega] at hr
  have heq := row_equation d p row i hdx hrho hr
  have hnext : d.rowPlus row = next := by
    show d.rowPlus row = (row + 1) % d.length
    unfold Data.rowPlus
    split
    · exact (Nat.mod_eq_of_lt ‹_›).symm
    · rw [show row + 1 = d.length by omega, Nat.mod_self]
  have hlast : d.rowMinus row = last := by
    show d.rowMinus row = (row + d.length - 1) % d.length
    unfold Data.rowMinus
    split
    · rename_i hz
      rw [hz, Nat.zero_add]
      exact (Nat.mod_eq_of_lt (by omega)).symm
    · rw [show row + d.length - 1 = (row - 1) + d.length by omega, Nat.add_mod_right]
      exact (Nat.mod_eq_of_lt (by omega)).symm
  have hdt : d.recipDt = if d.dt = 0 then 0 else 1 / d.dt := by
    unfold Data.recipDt
    by_cases hz : d.dt = 0
    · rw [if_neg (by simpa using hz), if_pos hz]
    · rw [if_pos hz, if_neg hz]
  rw [hdt] at heq
  rw [← heq]
  unfold Data.d1 Data.d2 Data.d4 Data.d5
  rw [hnext, hlast]
  simp only [epsilon_mobility]
  show (flow (e i row) (e (i + 1) row) (p i row) (p (i + 1) row) d.dx - flow (e (i - 1) row) (e i row) (p (i - 1) row) (p i row) d.dx) / d.dx +
      (flow (e i row) (e i next) (p i row) (p i next) d.dx - flow (e i last) (e i row) (p i last) (p i row) d.dx) / d.dx =
    (0.5 * (e i row + e (i + 1) row) * (p (i + 1) row - p i row) - 0.5 * (e i row + e (i - 1) row) * (p i row - p (i - 1) row) +
      (0.5 * (e i row + e i next) * (p i next - p i row) - 0.5 * (e i row + e i last) * (p i row - p i last))) / d.dx ^ 2
  unfold flow
  field_simp
  ring

/-- A converging gap with one inner node: 3 by 3 nodes, gap 2 before the node and 1 elsewhere, density `rho0` before the node and 1
elsewhere, viscosity 1, no squeeze term. -/
noncomputable def exampleData (rho0 : ℝ) : Data where
  width := 3
  length := 3
  gap i j := if i = 0 ∧ j = 1 then 2 else 1
  viscosity _ _ := 1
  density i j := if i = 0 ∧ j = 1 then rho0 else 1
  prevDensity _ _ := 1
  prevGap _ _ := 1
  dx := 1
  dt := 0
  lambdaBar := 1
  minGap := 0
  ak00 := 0.5
  ak10 := 0.2
  ak20 := 0.1

/-- The pressure of the example: zero but for the inner node. -/
noncomputable def exampleField (rho0 : ℝ) : Field ℝ := fun i j => if i = 1 ∧ j = 1 then 2 * rho0 / (7 + 8 * rho0) else 0

/-- A solver that knows the solution of the example. -/
noncomputable def exampleDgtsv (rho0 : ℝ) : Tdma.Dgtsv := fun _ _ _ _ _ i => if i = 1 then 2 * rho0 / (7 + 8 * rho0) else 0

theorem example_exact (rho0 : ℝ) (h0 : 0 < rho0) :
    Tdma.SolvesTri 3 ((exampleData rho0).aAll 1) ((exampleData rho0).bAll 1) ((exampleData rho0).cAll 1)
      (exampleDgtsv rho0 3 ((exampleData rho0).aAll 1) ((exampleData rho0).bAll 1) ((exampleData rho0).cAll 1)
        ((exampleData rho0).fAll (exampleField rho0) 1)) ((exampleData rho0).fAll (exampleField rho0) 1) := by
  have hne : (7 + 8 * rho0) ≠ 0 := by positivity
  intro k hk
  interval_cases k
  · simp [Data.bAll, Data.cAll, Data.fAll, exampleDgtsv]
  · simp [Data.aAll, Data.bAll, Data.cAll, Data.fAll, exampleDgtsv, exampleData, exampleField, Data.coefB, Data.coefF, Data.recipDt,
      Data.recipDx, Data.recipDx2Rho, Data.d1, Data.d2, Data.d4, Data.d5, Data.epsilon, Data.q1, Data.q2, Data.rowPlus, Data.rowMinus]
    norm_num
    field_simp
    ring
  · simp [Data.aAll, Data.bAll, Data.fAll, exampleDgtsv, exampleData]

theorem example_fixed (rho0 : ℝ) (h0 : 0 < rho0) :
    (solve (exampleData rho0) (exampleDgtsv rho0) 1 true false none (exampleField rho0)).2 = .ok (exampleField rho0) := by
  have hne : 0 < (7 + 8 * rho0) := by positivity
  have hlt : 2 * rho0 / (7 + 8 * rho0) ≤ 1 := by rw [div_le_one hne]; linarith
  have hpos : 0 ≤ 2 * rho0 / (7 + 8 * rho0) := by positivity
  show Except.ok (sweepRow (clipR 1) (fun q row i => (exampleData rho0).rowSolve (exampleDgtsv rho0) q row i) 3 (exampleField rho0) 1) = _
  congr 1
  funext i j
  unfold sweepRow
  split
  · rename_i h
    have hi : i = 1 := by omega
    have hj : j = 1 := h.1
    subst hi hj
    show clipR 1 (if 1 = 1 then 2 * rho0 / (7 + 8 * rho0) else 0) = _
    unfold exampleField clipR
    rw [if_pos rfl, if_pos ⟨rfl, rfl⟩, max_eq_left hpos, min_eq_left hlt]
  · rfl

/-- The hypotheses of `C64_converged_sweep_solves_reynolds` are met by the example. -/
theorem example_meets (rho0 : ℝ) (h0 : 0 < rho0) :
    Computed false (exampleData rho0).width (exampleData rho0).length 1 1 ∧ (exampleData rho0).dx ≠ 0 ∧ (exampleData rho0).density 1 1 ≠ 0 ∧
    Unclipped 3 1 (exampleField rho0) 1 0 ∧ Unclipped 3 1 (exampleField rho0) 1 1 ∧ Unclipped 3 1 (exampleField rho0) 1 2 := by
  have hne : 0 < (7 + 8 * rho0) := by positivity
  refine ⟨⟨le_rfl, by norm_num [exampleData], by norm_num [exampleData], fun _ => by norm_num [exampleData]⟩, one_ne_zero, by simp [exampleData], ?_, ?_, ?_⟩
  · right; simp [exampleField]
  · left
    refine ⟨le_rfl, by norm_num, ?_, ?_⟩
    · simp only [exampleField, and_self, if_true]; positivity
    · simp only [exampleField, and_self, if_true]; rw [div_lt_one hne]; linarith
  · right; simp [exampleField]

/-- **C64, what is not conserved**: in the example with density 1/2 before the node the mass that is carried into the cell by the surfaces
equals the mass that is carried out of it (`ρ h` is 1 on both sides and there is no squeeze term), so that no pressure is needed; but
the sweep leaves a positive pressure unchanged, whose flow carries mass out of the cell. -/
theorem C64_mass_is_not_conserved :
    (solve (exampleData (1 / 2)) (exampleDgtsv (1 / 2)) 1 true false none (exampleField (1 / 2))).2 = .ok (exampleField (1 / 2)) ∧
    (exampleData (1 / 2)).density 1 1 * (exampleData (1 / 2)).gap 1 1 - (exampleData (1 / 2)).density 0 1 * (exampleData (1 / 2)).gap 0 1 = 0 ∧
    0 < exampleField (1 / 2) 1 1 ∧ (∀ i j, ¬ (i = 1 ∧ j = 1) → exampleField (1 / 2) i j = 0) := by
  refine ⟨example_fixed _ (by norm_num), by norm_num [exampleData], by norm_num [exampleField], ?_⟩
  intro i j h
  unfold exampleField
  rw [if_neg h]

/-- The hypotheses of `C64_converged_sweep_solves_reynolds`. -/
example := And.intro (example_meets (1 / 2) (by norm_num)) (example_fixed (1 / 2) (by norm_num))

end Verif.Reynolds
