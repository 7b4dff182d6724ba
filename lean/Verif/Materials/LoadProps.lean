import Mathlib.Tactic.FieldSimp
import Mathlib.Tactic.Positivity
import Mathlib.Tactic.Linarith
import Mathlib.Tactic.NormNum
import Verif.Materials.Loads

/-!
# C95 and C96: theorems
-/

namespace Verif.Materials

open Verif Finset

/-! ## C95: the forms of the argument -/

/-- A dictionary from directions to arrays means the fields it names. -/
theorem C95_dictionary (m : Mat) (t : Triple) (gs : Spacing) (other : Other) (span : Option (ℕ × ℕ)) (tol : XR) (simple : Bool) (maxIt : ℤ) :
    loadsFrom m (.dict [(some .x, t .x), (some .y, t .y), (some .z, t .z)]) gs other span tol simple maxIt = loadsFrom m (.tuple t) gs other span tol simple maxIt := by
  have : dispOf (.dict [(some .x, t .x), (some .y, t .y), (some .z, t .z)]) = dispOf (.tuple t) := by
    unfold dispOf
    have : ∀ a b c : Option Arr, ([(some Dir.x, a), (some Dir.y, b), (some Dir.z, c)].filter fun e => e.2.isSome).any (fun e => e.1.isNone) = false := by
      intro a b c
      cases a <;> cases b <;> cases c <;> rfl
    dsimp only
    rw [this, if_neg (by simp)]
    congr 1
    funext d
    cases hx : t .x <;> cases hy : t .y <;> cases hz : t .z <;> cases d <;> simp [hx, hy, hz]
  unfold loadsFrom
  rw [this]

/-- A key that is not a direction raises `ValueError`, unless its value is `None`. -/
theorem C95_key (m : Mat) (l : List (Option Dir × Option Arr)) {a : Arr} (h : (none, some a) ∈ l) (gs : Spacing) (other : Other) (span : Option (ℕ × ℕ)) (tol : XR) (simple : Bool) (maxIt : ℤ) :
    loadsFrom m (.dict l) gs other span tol simple maxIt = .error .valueError := by
  have : dispOf (.dict l) = .error .valueError := by
    unfold dispOf
    refine if_pos ?_
    rw [List.any_eq_true]
    exact ⟨_, List.mem_filter.mpr ⟨h, rfl⟩, rfl⟩
  unfold loadsFrom
  rw [this]
  rfl

example : (none, some ⟨1, 1, fun _ _ => .fin 0⟩) ∈ ([(some .z, none), (none, some ⟨1, 1, fun _ _ => .fin 0⟩)] : List (Option Dir × Option Arr)) := by simp

/-- C95 is false for sequences: those that are `None` are dropped before the tuple is made, so normal displacements in a sequence of length three are taken for displacements in the direction x. -/
theorem C95_sequence_wrong (m : Mat) (a : Arr) (gs : Spacing) (other : Other) (span : Option (ℕ × ℕ)) (tol : XR) (simple : Bool) (maxIt : ℤ) :
    loadsFrom m (.seq [none, none, some a]) gs other span tol simple maxIt = loadsFrom m (.tuple fun d => if d = .x then some a else none) gs other span tol simple maxIt ∧
    loadsFrom m (.seq [none, some a, none]) gs other span tol simple maxIt = loadsFrom m (.tuple fun d => if d = .x then some a else none) gs other span tol simple maxIt := by
  have : dispOf (.seq [none, none, some a]) = dispOf (.tuple fun d => if d = .x then some a else none) ∧
      dispOf (.seq [none, some a, none]) = dispOf (.tuple fun d => if d = .x then some a else none) := by
    constructor <;>
    · refine congrArg Except.ok (funext fun d => ?_)
      cases d <;> rfl
  unfold loadsFrom
  rw [this.1, this.2]
  exact ⟨rfl, rfl⟩

/-- A sequence of three arrays is the tuple. -/
theorem C95_sequence_partial (m : Mat) (a b c : Arr) (gs : Spacing) (other : Other) (span : Option (ℕ × ℕ)) (tol : XR) (simple : Bool) (maxIt : ℤ) :
    loadsFrom m (.seq [some a, some b, some c]) gs other span tol simple maxIt =
      loadsFrom m (.tuple fun d => match d with | .x => some a | .y => some b | .z => some c) gs other span tol simple maxIt := rfl

/-- Sequences of another length raise `ValueError`. -/
theorem C95_length (m : Mat) (l : List (Option Arr)) (hl : l.length ≠ 3) (gs : Spacing) (other : Other) (span : Option (ℕ × ℕ)) (tol : XR) (simple : Bool) (maxIt : ℤ) :
    loadsFrom m (.seq l) gs other span tol simple maxIt = .error .valueError := by
  unfold loadsFrom dispOf
  simp [hl, bind, Except.bind]

example : ([none, none] : List (Option Arr)).length ≠ 3 := by decide

/-- Fields of different shapes, and no fields at all, raise `ValueError`. -/
theorem C95_shapes (m : Mat) (t : Triple) (h : (∀ d, t d = none) ∨ ∃ d e a b, t d = some a ∧ t e = some b ∧ a.shape ≠ b.shape) (gs : Spacing) (other : Other) (span : Option (ℕ × ℕ)) (tol : XR)
    (simple : Bool) (maxIt : ℤ) : loadsFrom m (.tuple t) gs other span tol simple maxIt = .error .valueError := by
  have : oneShape t = .error .valueError := by
    rcases h with h | ⟨d, e, a, b, h1, h2, h3⟩
    · exact oneShape_none h
    · exact oneShape_two h1 h2 h3
  unfold loadsFrom dispOf
  simp only [this, bind, Except.bind]

/-- Displacements of different shapes. -/
example (m : Mat) := C95_shapes m (fun d => if d = .z then some ⟨2, 1, fun _ _ => .fin 3⟩ else some ⟨1, 2, fun _ _ => .fin 3⟩)
  (Or.inr ⟨.z, .x, _, _, rfl, rfl, by decide⟩) (.number 1) .none none (.fin 1) true 100

/-- C95 is false for coupled directions: with `simple=False` and displacements in two or more directions the call raises `TypeError`. -/
theorem C95_coupled_wrong (m : Mat) {t : Triple} {n0 n1 : ℕ} (ht : Shaped t n0 n1) {d e : Dir} (hd : (t d).isSome = true) (he : (t e).isSome = true) (hde : d ≠ e) {g : Spacing} {hx hy : ℝ}
    (hg : Means g hx hy) (other : Other) (span : Option (ℕ × ℕ)) (tol : XR) (maxIt : ℤ) : loadsFrom m (.tuple t) g other span tol false maxIt = .error .typeError := by
  have hl : ¬ ((false : Bool) = true ∨ (directions t).length = 1) := by
    rintro (h | h)
    · cases h
    · obtain ⟨c, hc⟩ := List.length_eq_one_iff.mp h
      have h1 := mem_directions.mpr hd
      have h2 := mem_directions.mpr he
      rw [hc, List.mem_singleton] at h1 h2
      exact hde (h1.trans h2.symm)
  unfold loadsFrom dispOf dispNames
  simp only [oneShape_ok ht ⟨d, hd⟩, hg.ok, bind, Except.bind, if_neg hl]

example : ((fun _ => some ⟨2, 2, fun _ _ => .fin 1⟩ : Triple) .x).isSome = true ∧ ((fun _ => some ⟨2, 2, fun _ _ => .fin 1⟩ : Triple) .z).isSome = true ∧ Dir.x ≠ Dir.z := by simp

/-- A second material without influence matrices raises `NotImplementedError`. -/
theorem C95_pair (m : Mat) {t : Triple} {n0 n1 : ℕ} (ht : Shaped t n0 n1) (hne : ∃ d, (t d).isSome = true) {g : Spacing} {hx hy : ℝ} (hg : Means g hx hy) (span : Option (ℕ × ℕ)) (tol : XR)
    {simple : Bool} (hs : Diagonal simple t) (maxIt : ℤ) : loadsFrom m (.tuple t) g .notIm span tol simple maxIt = .error .notImplementedError := by
  unfold loadsFrom dispOf
  simp only [oneShape_ok ht hne, hg.ok, dispNames_diag hs, bind, Except.bind]

example : Diagonal false (fun d => if d = .z then some ⟨2, 2, fun _ _ => .fin 1⟩ else none) := Or.inr (by decide)

/-! ## C95: the solution -/

/-- The matrices of a material. -/
def Matrices (m : Mat) (span : ℕ × ℕ) (hx hy : ℝ) (t : Triple) (K : Dir → ℕ → ℕ → ℝ) : Prop := ∀ d, (t d).isSome = true → m.im span [hx, hy] (d, d) = .ok (K d)

theorem Matrices.influence {m : Mat} {span : ℕ × ℕ} {hx hy : ℝ} {t : Triple} {K : Dir → ℕ → ℕ → ℝ} (h : Matrices m span hx hy t K) :
    Materials.influence m.im span [hx, hy] (diag (directions t)) = .ok (dict (diag (directions t)) fun c => K c.1) := by
  refine influence_ok (K := fun c => K c.1) fun c hc => ?_
  have := mem_diag.mp (show (c.1, c.2) ∈ diag (directions t) from hc)
  obtain ⟨c1, c2⟩ := c
  obtain ⟨h1, h2⟩ := this
  dsimp only at h1 h2
  subst h1
  exact h _ (mem_directions.mp h2)

theorem loadsFrom_alone {m : Mat} {t : Triple} {n0 n1 : ℕ} (ht : Shaped t n0 n1) (hne : ∃ d, (t d).isSome = true) {g : Spacing} {hx hy : ℝ} (hg : Means g hx hy) {simple : Bool}
    (hs : Diagonal simple t) {span : Option (ℕ × ℕ)} {K : Dir → ℕ → ℕ → ℝ} (hK : Matrices m (span.getD (n0, n1)) hx hy t K) (tol : XR) (maxIt : ℤ) :
    loadsFrom m (.tuple t) g .none span tol simple maxIt =
      (solveIm (n0, n1) (span.getD (n0, n1)) (dict (diag (directions t)) fun c => K c.1) t maxIt tol).map fun r => ⟨r.1, r.2.1, none, r.2.2⟩ := by
  unfold loadsFrom dispOf
  simp only [oneShape_ok ht hne, hg.ok, dispNames_diag hs, hK.influence, bind, Except.bind]
  cases solveIm (n0, n1) (span.getD (n0, n1)) (dict (diag (directions t)) fun c => K c.1) t maxIt tol <;> rfl

/-- C95. Nodes without a prescribed displacement carry no load, whatever else happens; there are loads in exactly the directions with displacements, of the same shape. -/
theorem C95_free_nodes (m : Mat) {t : Triple} {n0 n1 : ℕ} (ht : Shaped t n0 n1) (gs : Spacing) (other : Other) (span : Option (ℕ × ℕ)) (tol : XR) (simple : Bool) (maxIt : ℤ) {r : Solved}
    (h : loadsFrom m (.tuple t) gs other span tol simple maxIt = .ok r) :
    (∀ d, (r.loads d).isSome = (t d).isSome) ∧ (∀ d l, r.loads d = some l → l.shape = (n0, n1)) ∧
      ∀ d a l i j, t d = some a → r.loads d = some l → i < n0 → j < n1 → a.val i j = .nan → l.val i j = .fin 0 := by
  have hne : ∃ d, (t d).isSome = true := by
    by_contra hn
    simp only [not_exists, Bool.not_eq_true, Option.isSome_eq_false_iff, Option.isNone_iff_eq_none] at hn
    rw [C95_shapes m t (Or.inl hn)] at h
    cases h
  obtain ⟨span', comps, r', hr, h1⟩ : ∃ span' comps r', solveIm (n0, n1) span' comps t maxIt tol = .ok r' ∧ r.loads = r'.1 := by
    unfold loadsFrom dispOf at h
    simp only [oneShape_ok ht hne, bind, Except.bind] at h
    cases hgs : spacing gs with
    | error e => rw [hgs] at h; cases h
    | ok gs' =>
      rw [hgs] at h
      dsimp only at h
      cases hn : dispNames simple (directions t) with
      | error e => rw [hn] at h; cases h
      | ok names =>
        rw [hn] at h
        dsimp only at h
        cases other with
        | notIm => cases h
        | none =>
          dsimp only at h
          cases hi : influence m.im (span.getD (n0, n1)) gs' names with
          | error e => rw [hi] at h; cases h
          | ok comps =>
            rw [hi] at h
            dsimp only at h
            cases hr : solveIm (n0, n1) (span.getD (n0, n1)) comps t maxIt tol with
            | error e => rw [hr] at h; cases h
            | ok r' =>
              rw [hr] at h
              injection h with h
              subst h
              exact ⟨_, _, r', hr, rfl⟩
        | im o =>
          dsimp only at h
          cases hi : influence o.im (span.getD (n0, n1)) gs' names with
          | error e => rw [hi] at h; cases h
          | ok theirs =>
            rw [hi] at h
            dsimp only at h
            cases hj : influence m.im (span.getD (n0, n1)) gs' names with
            | error e => rw [hj] at h; cases h
            | ok own =>
              rw [hj] at h
              dsimp only at h
              cases hc : addComps own theirs names with
              | error e => rw [hc] at h; cases h
              | ok comps =>
                rw [hc] at h
                dsimp only at h
                cases hr : solveIm (n0, n1) (span.getD (n0, n1)) comps t maxIt tol with
                | error e => rw [hr] at h; cases h
                | ok r' =>
                  rw [hr] at h
                  dsimp only at h
                  cases hd1 : m.displacement r'.1 (.seq gs') (directions t) (some (span.getD (n0, n1))) simple with
                  | error e => rw [hd1] at h; cases h
                  | ok d1 =>
                    rw [hd1] at h
                    dsimp only at h
                    cases hd2 : o.displacement r'.1 (.seq gs') (directions t) (some (span.getD (n0, n1))) simple with
                    | error e => rw [hd2] at h; cases h
                    | ok d2 =>
                      rw [hd2] at h
                      injection h with h
                      subst h
                      exact ⟨_, _, r', hr, rfl⟩
  rw [h1]
  exact solveIm_free hr

/-- Displacements with a free node; `C95_small_wrong` has a call that is answered. -/
example : Shaped (fun d => if d = .z then some ⟨2, 1, fun i _ => if i = 0 then .nan else .fin 3⟩ else none) 2 1 := by
  intro d a h
  dsimp only at h
  split_ifs at h
  injection h with h
  subst h
  exact ⟨rfl, rfl⟩

/-- C95 (partial: for matrices that are positive definite on the prescribed nodes, see `Verif.Cg` for the solver without this). The loads returned are numbers, the first displacements returned
are those of these loads, and if no warning was issued they are within the tolerance of the prescribed ones at every prescribed node. -/
theorem C95_reproduces_partial (m : Mat) {t : Triple} {n0 n1 : ℕ} {w : Dir → ℕ → ℕ → ℝ} (hw : Prescribed t n0 n1 w) (hne : ∃ d, (t d).isSome = true) {g : Spacing} {hx hy : ℝ} (hg : Means g hx hy)
    {simple : Bool} (hs : Diagonal simple t) {span : Option (ℕ × ℕ)} (h0 : 0 < (span.getD (n0, n1)).1) (h1 : 0 < (span.getD (n0, n1)).2) {K : Dir → ℕ → ℕ → ℝ}
    (hK : Matrices m (span.getD (n0, n1)) hx hy t K) (hf : Firm t n0 n1 (span.getD (n0, n1)) K) {tol : ℝ} (htol : 0 < tol) (maxIt : ℤ) :
    ∃ r p, loadsFrom m (.tuple t) g .none span (.fin tol) simple maxIt = .ok r ∧ Numbers r.loads n0 n1 p ∧
      (∀ d, (t d).isSome = true → ∀ i j, (r.full d).val i j = .fin (Conv.sameConvolve n0 n1 (span.getD (n0, n1)).1 (span.getD (n0, n1)).2 (K d) (p d) i j)) ∧
      (r.warned = false → ∀ d a i j, t d = some a → i < n0 → j < n1 → a.val i j ≠ .nan → ∃ x, (r.full d).val i j = .fin x ∧ |w d i j - x| < tol) := by
  obtain ⟨r, hr⟩ := solveIm_ok (n0 := n0) (n1 := n1) h0 h1 (t := t) K maxIt (.fin tol)
  obtain ⟨p, hp, hd⟩ := solveIm_definite htol hr hw hf
  have hfull := solveIm_full hr hp
  refine ⟨⟨r.1, r.2.1, none, r.2.2⟩, p, ?_, hp, fun d hd' i j => ?_, fun hwarn d a i j ha hi hj hn => ?_⟩
  · rw [loadsFrom_alone hw.shaped hne hg hs hK, hr]
    rfl
  · rw [(hfull d).2, if_pos hd']
  · exact ⟨_, by rw [(hfull d).2, if_pos (by simp [ha])], hd hwarn d a i j ha hi hj hn⟩

/-- Two normal displacements, matrices of two coupled springs. -/
example : Firm (fun d => if d = .z then some ⟨2, 1, fun _ _ => .fin 3⟩ else none) 2 1 (3, 1) (fun _ u _ => if u = 1 then 2 else 1) := by
  intro v hv h0
  have hz : ∀ d i j, d ≠ .z → v d i j = 0 := fun d i j hd => by
    by_contra h
    obtain ⟨-, -, a, ha, -⟩ := hv d i j h
    simp [hd] at ha
  have hsum : (∑ d, ∑ i ∈ range 2, ∑ j ∈ range 1, v d i j * Conv.sameConvolve 2 1 3 1 (fun u _ => if u = 1 then 2 else 1) (v d) i j) =
      v .z 0 0 ^ 2 + v .z 1 0 ^ 2 + (v .z 0 0 + v .z 1 0) ^ 2 := by
    rw [Finset.sum_eq_single .z (fun d _ hd => Finset.sum_eq_zero fun i _ => Finset.sum_eq_zero fun j _ => by rw [hz d i j hd, zero_mul]) (by simp)]
    simp [Finset.sum_range_succ, Conv.sameConvolve]
    ring
  dsimp only
  rw [hsum]
  by_contra hle
  apply h0
  have e0 : v .z 0 0 = 0 := by nlinarith [sq_nonneg (v .z 0 0), sq_nonneg (v .z 1 0), sq_nonneg (v .z 0 0 + v .z 1 0)]
  have e1 : v .z 1 0 = 0 := by nlinarith [sq_nonneg (v .z 0 0), sq_nonneg (v .z 1 0), sq_nonneg (v .z 0 0 + v .z 1 0)]
  funext d i j
  by_contra h
  obtain ⟨hi, hj, -⟩ := hv d i j h
  have hd : d = .z := by
    by_contra hd
    exact h (hz d i j hd)
  subst hd
  obtain rfl : j = 0 := by omega
  obtain rfl | rfl : i = 0 ∨ i = 1 := by omega
  · exact h e0
  · exact h e1

/-- The part of one of two materials. -/
theorem part {m : Mat} {t l : Triple} {n0 n1 : ℕ} (hl : ∀ d, (l d).isSome = (t d).isSome) {p : Dir → ℕ → ℕ → ℝ} (hp : Numbers l n0 n1 p) (hne : ∃ d, (t d).isSome = true)
    {simple : Bool} (hs : Diagonal simple t) (span : ℕ × ℕ) {hx hy : ℝ} {K : Dir → ℕ → ℕ → ℝ} (hK : Matrices m span hx hy t K) :
    ∃ u, m.displacement l (.seq [hx, hy]) (directions t) (some span) simple = .ok u ∧ ∀ d, (t d).isSome = true → ∃ a, u d = .arr a ∧ a.shape = (n0, n1) ∧
      ∀ i j, a.val i j = .fin (Conv.sameConvolve n0 n1 span.1 span.2 (K d) (p d) i j) := by
  have hreq : ∀ a b, Requested simple (directions t) l a b ↔ a = b ∧ (t a).isSome = true := by
    intro a b
    unfold Requested
    rw [hl]
    rcases hs with h | h
    · rw [h]
      simp only [if_true]
      exact ⟨fun h => ⟨h.2, h.2 ▸ h.1⟩, fun h => ⟨h.1 ▸ h.2, h.1⟩⟩
    · obtain ⟨c, hc⟩ := List.length_eq_one_iff.mp h
      have hone : ∀ d, (t d).isSome = true ↔ d = c := fun d => by rw [← mem_directions, hc, List.mem_singleton]
      cases simple
      · simp only [Bool.false_eq_true, if_false, mem_directions, hone]
        exact ⟨fun h => ⟨h.2.trans h.1.symm, h.2⟩, fun h => ⟨h.1 ▸ h.2, h.2⟩⟩
      · simp only [if_true]
        exact ⟨fun h => ⟨h.2, h.2 ▸ h.1⟩, fun h => ⟨h.1 ▸ h.2, h.1⟩⟩
  cases m with
  | general im =>
    obtain ⟨u, hu, hv⟩ := C94_superposition im hp (by simpa only [hl] using hne) (.two hx hy) (directions t) (some span) simple (fun c => K c.1) (fun a b h => by
      obtain ⟨rfl, h2⟩ := (hreq a b).mp h
      exact hK a h2)
    refine ⟨fun d => .arr (u d), ?_, fun d hd => ⟨u d, rfl, (hv d).1, fun i j => ?_⟩⟩
    · unfold Mat.displacement
      dsimp only
      rw [hu]
      rfl
    · rw [(hv d).2]
      congr 1
      simp only [hreq]
      rw [Finset.sum_eq_single d (fun b _ hb => if_neg fun h => hb h.1.symm) (by simp), if_pos ⟨rfl, hd⟩]
      rfl
  | rigid =>
    refine ⟨_, rfl, fun d hd => ?_⟩
    rw [← hl] at hd
    obtain ⟨a, ha⟩ := Option.isSome_iff_exists.mp hd
    refine ⟨⟨a.n0, a.n1, fun _ _ => .fin 0⟩, by simp [ha], ?_, fun i j => ?_⟩
    · have := hp d a ha
      rw [Arr.shape, this.1, this.2.1]
    · have h2 : (Except.ok fun _ _ => 0 : Except PyErr (ℕ → ℕ → ℝ)) = .ok (K d) := hK d (by rw [← hl]; exact hd)
      injection h2 with h2
      rw [← h2, same_zero_im]

/-- C95. With a second influence matrix material the problem is solved for the sum of both matrices, and the displacements are split: those of each material are those of the loads returned, and
the total is their sum. -/
theorem C95_split (m o : Mat) {t : Triple} {n0 n1 : ℕ} (ht : Shaped t n0 n1) (hne : ∃ d, (t d).isSome = true) {g : Spacing} {hx hy : ℝ} (hg : Means g hx hy) {simple : Bool} (hs : Diagonal simple t)
    {span : Option (ℕ × ℕ)} {K K' : Dir → ℕ → ℕ → ℝ} (hK : Matrices m (span.getD (n0, n1)) hx hy t K) (hK' : Matrices o (span.getD (n0, n1)) hx hy t K') (tol : XR) (maxIt : ℤ) {s : Solved}
    (hsum : loadsFrom (.general fun _ _ c => .ok fun i j => K c.1 i j + K' c.1 i j) (.tuple t) g .none span tol simple maxIt = .ok s) {p : Dir → ℕ → ℕ → ℝ} (hp : Numbers s.loads n0 n1 p) :
    ∃ r u v, loadsFrom m (.tuple t) g (.im o) span tol simple maxIt = .ok r ∧ r.loads = s.loads ∧ r.full = s.full ∧ r.warned = s.warned ∧ r.parts = some (u, v) ∧
      ∀ d, (t d).isSome = true → ∃ a b, u d = .arr a ∧ v d = .arr b ∧ a.shape = (n0, n1) ∧ b.shape = (n0, n1) ∧ ∀ i j,
        a.val i j = .fin (Conv.sameConvolve n0 n1 (span.getD (n0, n1)).1 (span.getD (n0, n1)).2 (K d) (p d) i j) ∧
        b.val i j = .fin (Conv.sameConvolve n0 n1 (span.getD (n0, n1)).1 (span.getD (n0, n1)).2 (K' d) (p d) i j) ∧ (r.full d).val i j = a.val i j + b.val i j := by
  rw [loadsFrom_alone ht hne hg hs (K := fun d i j => K d i j + K' d i j) (fun d _ => rfl)] at hsum
  cases hr : solveIm (n0, n1) (span.getD (n0, n1)) (dict (diag (directions t)) fun c => (fun d i j => K d i j + K' d i j) c.1) t maxIt tol with
  | error e => rw [hr] at hsum; cases hsum
  | ok r =>
    rw [hr] at hsum
    injection hsum with hsum
    subst hsum
    have hfree := solveIm_free hr
    obtain ⟨u, hu, hu'⟩ := part (m := m) hfree.1 hp hne hs (span.getD (n0, n1)) hK
    obtain ⟨v, hv, hv'⟩ := part (m := o) hfree.1 hp hne hs (span.getD (n0, n1)) hK'
    refine ⟨⟨r.1, r.2.1, some (u, v), r.2.2⟩, u, v, ?_, rfl, rfl, rfl, rfl, fun d hd => ?_⟩
    · unfold loadsFrom dispOf
      simp only [oneShape_ok ht hne, hg.ok, dispNames_diag hs, hK.influence, hK'.influence, addComps_dict, hr, hu, hv, bind, Except.bind]
    · obtain ⟨a, ha, sa, va⟩ := hu' d hd
      obtain ⟨b, hb, sb, vb⟩ := hv' d hd
      refine ⟨a, b, ha, hb, sa, sb, fun i j => ⟨va i j, vb i j, ?_⟩⟩
      have := (solveIm_full (K := fun d i j => K d i j + K' d i j) hr hp d).2 i j
      rw [if_pos hd] at this
      rw [this, va, vb, XR.fin_add, same_add_im]

/-- A pair of materials whose matrices exist: one of springs and a rigid one. -/
example : Matrices (.general fun _ _ _ => .ok fun _ _ => 2) (2, 1) 1 1 (fun d => if d = .z then some ⟨2, 1, fun _ _ => .fin 3⟩ else none) (fun _ _ _ => 2) ∧
    Matrices .rigid (2, 1) 1 1 (fun d => if d = .z then some ⟨2, 1, fun _ _ => .fin 3⟩ else none) (fun _ _ _ => 0) := ⟨fun _ _ => rfl, fun _ _ => rfl⟩

theorem guess_list {span : ℕ × ℕ} (h0 : 0 < span.1) (h1 : 0 < span.2) {names : List (Dir × Dir)} (K : Dir × Dir → ℕ → ℕ → ℝ) (t : Triple) (hn : ∀ d, (t d).isSome = true → (d, d) ∈ names) :
    ∀ ds : List Dir, ∃ g, guess span (dict names K) t ds = .ok g ∧ ∀ d ∈ ds, ∀ a, t d = some a → ∃ m, Greatest span (K (d, d)) m ∧ ∃ b, g d = some b ∧ b.shape = a.shape ∧ ∀ i j, b.val i j = nanToNum (a.val i j * .fin m) := by
  intro ds
  induction ds with
  | nil => exact ⟨_, rfl, fun d hd => absurd hd List.not_mem_nil⟩
  | cons e ds ih =>
    obtain ⟨g, hg, hspec⟩ := ih
    cases he : t e with
    | none =>
      refine ⟨g, by rw [guess, he]; exact hg, fun d hd a ha => ?_⟩
      rcases List.mem_cons.1 hd with rfl | hd
      · rw [he] at ha; exact nomatch ha
      · exact hspec d hd a ha
    | some a =>
      obtain ⟨m, hm, hgr⟩ := maxIm_greatest h0 h1 (K (e, e))
      refine ⟨fun d => if d = e then some ⟨a.n0, a.n1, fun i j => nanToNum (a.val i j * .fin m)⟩ else g d, ?_, fun d hd a' ha => ?_⟩
      · rw [guess, he]
        simp only [guessIn, comp_dict (hn e (by rw [he]; rfl)), hm, hg, bind, Except.bind]
      · by_cases hde : d = e
        · subst hde
          rw [he] at ha
          injection ha with ha
          subst ha
          exact ⟨m, hgr, _, if_pos rfl, rfl, fun _ _ => rfl⟩
        · have hd' : d ∈ ds := (List.mem_cons.1 hd).resolve_left hde
          obtain ⟨m', h1, b, h2, h3, h4⟩ := hspec d hd' a' ha
          exact ⟨m', h1, b, (if_neg hde).trans h2, h3, h4⟩

/-- C95, the start of the iteration: the displacement times the greatest entry of the influence matrix of its direction, zero where no displacement is given. -/
theorem C95_guess {span : ℕ × ℕ} (h0 : 0 < span.1) (h1 : 0 < span.2) {names : List (Dir × Dir)} (K : Dir × Dir → ℕ → ℕ → ℝ) (t : Triple) (hn : ∀ d, (t d).isSome = true → (d, d) ∈ names) :
    ∃ g, guess span (dict names K) t valid = .ok g ∧ ∀ d a, t d = some a → ∃ m, Greatest span (K (d, d)) m ∧ ∃ b, g d = some b ∧ b.shape = a.shape ∧
      ∀ i j, (a.val i j = .nan → b.val i j = .fin 0) ∧ ∀ x, a.val i j = .fin x → b.val i j = .fin (x * m) := by
  obtain ⟨g, hg, hs⟩ := guess_list h0 h1 K t hn valid
  refine ⟨g, hg, fun d a ha => ?_⟩
  obtain ⟨m, h1, b, h2, h3, h4⟩ := hs d (mem_valid d) a ha
  refine ⟨m, h1, b, h2, h3, fun i j => ⟨fun h => ?_, fun x h => ?_⟩⟩
  · rw [h4, h]; rfl
  · rw [h4, h]; rfl

/-- C95 is false for the start of the iteration: the entries of the matrix are displacements for a unit load, so a material that is `c` times softer needs loads that are `c` times smaller, but the start is `c` times greater. -/
theorem C95_guess_wrong {span : ℕ × ℕ} (h0 : 0 < span.1) (h1 : 0 < span.2) {names : List (Dir × Dir)} (K : Dir × Dir → ℕ → ℕ → ℝ) (t : Triple) (hn : ∀ d, (t d).isSome = true → (d, d) ∈ names) {c : ℝ} (hc : 0 < c)
    {d : Dir} {a : Arr} (ha : t d = some a) {i j : ℕ} {x : ℝ} (hx : a.val i j = .fin x) :
    ∃ g g' b b' y, guess span (dict names K) t valid = .ok g ∧ guess span (dict names fun n u v => c * K n u v) t valid = .ok g' ∧ g d = some b ∧ g' d = some b' ∧ b.val i j = .fin y ∧ b'.val i j = .fin (c * y) := by
  obtain ⟨g, hg, hs⟩ := C95_guess h0 h1 K t hn
  obtain ⟨g', hg', hs'⟩ := C95_guess h0 h1 (fun n u v => c * K n u v) t hn
  obtain ⟨m, ⟨⟨u, v, hu, hv, e⟩, hle⟩, b, hb, -, hval⟩ := hs d a ha
  obtain ⟨m', ⟨⟨u', v', hu', hv', e'⟩, hle'⟩, b', hb', -, hval'⟩ := hs' d a ha
  have : m' = c * m := by
    apply le_antisymm
    · rw [← e']
      exact mul_le_mul_of_nonneg_left (hle u' v' hu' hv') hc.le
    · rw [← e]
      exact hle' u v hu hv
  refine ⟨g, g', b, b', x * m, hg, hg', hb, hb', (hval i j).2 x hx, ?_⟩
  rw [(hval' i j).2 x hx, this]
  congr 1
  ring

/-- Displacements of one node, and a matrix with entries 1 and 2. -/
example : ∃ g b, guess (2, 1) (dict [(.z, .z)] fun _ u _ => if u = 1 then 2 else 1) (fun d => if d = .z then some ⟨1, 1, fun _ _ => .fin 3⟩ else none) valid = .ok g ∧ g .z = some b ∧ b.val 0 0 = .fin 6 := by
  obtain ⟨g, hg, hs⟩ := C95_guess (span := (2, 1)) (by norm_num) (by norm_num) (names := [(.z, .z)]) (fun _ u _ => if u = 1 then 2 else 1) (fun d => if d = .z then some ⟨1, 1, fun _ _ => .fin 3⟩ else none)
    (by intro d; cases d <;> simp)
  obtain ⟨m, ⟨⟨u, v, hu, hv, e⟩, hle⟩, b, hb, -, hval⟩ := hs .z _ rfl
  have hm : m = 2 := by
    have := hle 1 0 (by norm_num) (by norm_num)
    simp only [if_true] at this
    have h2 : m ≤ 2 := by rw [← e]; dsimp only; split_ifs <;> norm_num
    exact le_antisymm h2 this
  refine ⟨g, b, hg, hb, ?_⟩
  rw [((hval 0 0).2 3 rfl), hm]
  norm_num


/-! ### Small displacements -/

theorem solve_of_small {ι : Type} [Fintype ι] (A : (ι → XR) → ι → XR) (target : ι → XR) (maxIt : ℤ) (tol : XR) (guess : ι → XR)
    (h : ¬ XR.le tol (Cg.norm (Cg.gather target fun i => target i - A guess i))) : Cg.solve A target maxIt tol guess = ⟨guess, A guess, false⟩ := by
  unfold Cg.solve
  dsimp only
  rw [Cg.loop, if_neg h]

/-- One node with a normal displacement. -/
def oneNode (w : ℝ) : Triple := fun d => if d = .z then some ⟨1, 1, fun _ _ => .fin w⟩ else none

theorem oneNode_dirs (w : ℝ) : directions (oneNode w) = [.z] := rfl

/-- C95 is false for small displacements: the tolerance is absolute. A displacement less than the tolerance (`1e-8` by default, in the unit of length) of a node on a surface with the compliance `k < 1`
is answered without a warning by the load `k w` of the first guess, not by the load `w / k` that gives this displacement; the displacement of the load returned is `k² w`. -/
theorem C95_small_wrong {k w tol : ℝ} (hk : 0 < k) (hk1 : k < 1) (hw : 0 < w) (hwt : w < tol) (g : ℝ) (simple : Bool) (maxIt : ℤ) :
    ∃ r l, loadsFrom (.general fun _ _ _ => .ok fun _ _ => k) (.tuple (oneNode w)) (.number g) .none none (.fin tol) simple maxIt = .ok r ∧ r.warned = false ∧ r.loads .z = some l ∧
      l.val 0 0 = .fin (k * w) ∧ (r.full .z).val 0 0 = .fin (k ^ 2 * w) ∧ k * w ≠ w / k ∧ k ^ 2 * w < w := by
  have hne : ∃ d, (oneNode w d).isSome = true := ⟨.z, rfl⟩
  have hsh : Shaped (oneNode w) 1 1 := by
    intro d a h
    unfold oneNode at h
    split_ifs at h
    injection h with h
    subst h
    exact ⟨rfl, rfl⟩
  have hsq : k ^ 2 < 1 := by nlinarith
  have hfin : k * w ≠ w / k ∧ k ^ 2 * w < w := by
    constructor
    · intro h
      rw [eq_div_iff hk.ne'] at h
      nlinarith
    · nlinarith
  rw [loadsFrom_alone hsh hne (.number g) (Or.inr rfl) (K := fun _ _ _ => k) fun _ _ => rfl]
  obtain ⟨r, hr⟩ := solveIm_ok (n0 := 1) (n1 := 1) (span := (1, 1)) (by simp) (by simp) (t := oneNode w) (fun _ _ _ => k) maxIt (.fin tol)
  have hgetD : (none : Option (ℕ × ℕ)).getD (1, 1) = (1, 1) := rfl
  rw [hgetD, hr]
  obtain ⟨gs, hgs, h1, h2, h3⟩ := solveIm_spec hr
  have hgz : gs .z = some ⟨1, 1, fun _ _ => .fin (w * k)⟩ := by
    obtain ⟨k', m, e1, e2, e3⟩ := (guess_spec hgs).2 .z (mem_valid _) ⟨1, 1, fun _ _ => .fin w⟩ rfl
    rw [comp_dict (K := fun _ _ _ => k) (mem_diag.mpr ⟨rfl, by simp [oneNode_dirs]⟩)] at e1
    injection e1 with e1
    subst e1
    have : maxIm (1, 1) (fun _ _ => k) = .ok k := by simp [maxIm, List.product]
    rw [this] at e2
    injection e2 with e2
    subst e2
    rw [e3]
    simp [XR.fin_mul, nanToNum]
  have hflat : (flat gs : Idx (directions (oneNode w)) 1 1 → XR) = fun _ => .fin (w * k) := by
    funext q
    have : q.1.1 = .z := by simpa [oneNode_dirs] using q.1.2
    simp only [flat, this, hgz]
  have htar : (flat (oneNode w) : Idx (directions (oneNode w)) 1 1 → XR) = fun _ => .fin w := by
    funext q
    have : q.1.1 = .z := by simpa [oneNode_dirs] using q.1.2
    simp only [flat, this]
    rfl
  have hA := actsAs (directions (oneNode w)) 1 1 (1, 1) fun _ _ _ => k
  have hL : ∀ q, linear (directions (oneNode w)) 1 1 (1, 1) (fun _ _ _ => k) (fun _ => w * k) q = k ^ 2 * w := by
    intro q
    have : q.1.1 = .z := by simpa [oneNode_dirs] using q.1.2
    simp only [linear, LinearMap.coe_mk, AddHom.coe_mk, this]
    simp [Conv.sameConvolve, field, oneNode_dirs]
    ring
  have hsmall : Cg.solve (operator (directions (oneNode w)) 1 1 (1, 1) (dict (diag (directions (oneNode w))) fun c => (fun _ _ _ => k : Dir → ℕ → ℕ → ℝ) c.1)) (flat (oneNode w)) maxIt (.fin tol) (flat gs) =
      ⟨flat gs, operator (directions (oneNode w)) 1 1 (1, 1) (dict (diag (directions (oneNode w))) fun c => (fun _ _ _ => k : Dir → ℕ → ℕ → ℝ) c.1) (flat gs), false⟩ := by
    apply solve_of_small
    have hres : (Cg.gather (flat (oneNode w)) fun q => flat (oneNode w) q -
        operator (directions (oneNode w)) 1 1 (1, 1) (dict (diag (directions (oneNode w))) fun c => (fun _ _ _ => k : Dir → ℕ → ℕ → ℝ) c.1) (flat gs) q) =
        fun _ => .fin (w - k ^ 2 * w) := by
      funext q
      unfold Cg.gather
      rw [hflat, hA]
      beta_reduce
      rw [hL, congrFun htar q.1, XR.fin_sub]
    rw [hres, Cg.norm_fin, XR.le_fin, not_le]
    have hpres : ∀ q : Idx (directions (oneNode w)) 1 1, Cg.prescribed (flat (oneNode w)) q := fun q => by rw [Cg.prescribed, htar]; simp
    have hsub : ∀ q q' : Idx (directions (oneNode w)) 1 1, q = q' := by
      intro q q'
      have e1 : q.1.1 = .z := by simpa [oneNode_dirs] using q.1.2
      have e2 : q'.1.1 = .z := by simpa [oneNode_dirs] using q'.1.2
      exact Prod.ext (Subtype.ext (e1.trans e2.symm)) (Subsingleton.elim _ _)
    have hcard : Fintype.card (Cg.Dom (flat (oneNode w) : Idx (directions (oneNode w)) 1 1 → XR)) = 1 := by
      rw [Fintype.card_eq_one_iff]
      exact ⟨⟨(⟨.z, by simp [oneNode_dirs]⟩, 0, 0), hpres _⟩, fun q => Subtype.ext (hsub _ _)⟩
    rw [Finset.sum_const, Finset.card_univ, hcard, one_smul, Real.sqrt_sq (by nlinarith)]
    have : 0 < k ^ 2 * w := by positivity
    linarith
  rw [hsmall] at h1 h3
  have hnum : Numbers r.1 1 1 (field fun _ : Idx (directions (oneNode w)) 1 1 => w * k) := by
    rw [h1, hflat]
    exact unflat_numbers _
  have hz : (r.1 .z).isSome = true := by
    rw [h1, unflat_isSome]
    simp [oneNode_dirs]
  obtain ⟨l, hl⟩ := Option.isSome_iff_exists.mp hz
  refine ⟨⟨r.1, r.2.1, none, r.2.2⟩, l, rfl, h3, hl, ?_, ?_, hfin⟩
  · rw [(hnum .z l hl).2.2 0 0 (by simp) (by simp)]
    simp [field, oneNode_dirs, mul_comm]
  · rw [(solveIm_full (K := fun _ _ _ => k) hr hnum .z).2, if_pos (by simp [oneNode])]
    simp [Conv.sameConvolve, field, oneNode_dirs]
    ring

example : (0 : ℝ) < 1e-12 ∧ (1e-12 : ℝ) < 1 ∧ (0 : ℝ) < 1e-9 ∧ (1e-9 : ℝ) < 1e-8 := by norm_num

/-! ## C96: loads on two surfaces -/

/-- The sign of a load on the second surface. -/
def sign (rev : List Dir) (d : Dir) : ℝ := if d ∈ rev then -1 else 1

theorem reverse_ok {rev : List Dir} {t : Triple} (h : ∀ d ∈ rev, (t d).isSome = true) {n0 n1 : ℕ} {p : Dir → ℕ → ℕ → ℝ} (hp : Numbers t n0 n1 p) :
    ∃ t', reverseLoads rev t = .ok t' ∧ (∀ d, (t' d).isSome = (t d).isSome) ∧ Numbers t' n0 n1 fun d i j => sign rev d * p d i j := by
  refine ⟨_, if_neg ?_, fun d => ?_, fun d a ha => ?_⟩
  · rw [List.any_eq_true]
    rintro ⟨d, -, hd⟩
    rw [Bool.and_eq_true, decide_eq_true_iff] at hd
    have := h d hd.1
    rw [Option.isNone_iff_eq_none] at hd
    rw [hd.2] at this
    cases this
  · split_ifs <;> simp
  · beta_reduce at ha
    split_ifs at ha with hd
    · obtain ⟨b, hb, rfl⟩ := Option.map_eq_some_iff.mp ha
      obtain ⟨e1, e2, e3⟩ := hp d b hb
      refine ⟨e1, e2, fun i j hi hj => ?_⟩
      dsimp only
      rw [e3 i j hi hj, XR.fin_mul]
      simp [sign, hd]
    · obtain ⟨e1, e2, e3⟩ := hp d a ha
      refine ⟨e1, e2, fun i j hi hj => ?_⟩
      rw [e3 i j hi hj]
      simp [sign, hd]

theorem general_ok {im : Im} {t : Triple} {gs : Spacing} {deflections : List Dir} {span : Option (ℕ × ℕ)} {simple : Bool} {u : Dir → Arr}
    (h : displacement im (.tuple t) gs deflections span simple = .ok u) : (Mat.general im).displacement t gs deflections span simple = .ok fun d => .arr (u d) := by
  unfold Mat.displacement
  dsimp only
  rw [h]
  rfl

/-- The displacements of a rigid material. -/
def zeros (t : Triple) (d : Dir) : Out := match t d with
  | none => .scalar
  | some a => .arr ⟨a.n0, a.n1, fun _ _ => .fin 0⟩

theorem rigid_ok (t : Triple) (gs : Spacing) (deflections : List Dir) (span : Option (ℕ × ℕ)) (simple : Bool) : Mat.rigid.displacement t gs deflections span simple = .ok (zeros t) := rfl

/-- C96. The total displacements are the sum of those of the two surfaces, each with its own options and matrices, both with the grid spacing of the first surface; the loads of the second surface
have the sign reversed in the directions named. -/
theorem C96_totals (im1 im2 : Im) (gs : ℝ) {t : Triple} {n0 n1 : ℕ} {p : Dir → ℕ → ℕ → ℝ} (ht : Numbers t n0 n1 p) (hne : ∃ d, (t d).isSome = true) (deflections : List Dir) (o1 o2 : Options)
    (rev : List Dir) (hrev : ∀ d ∈ rev, (t d).isSome = true) (K1 K2 : Dir × Dir → ℕ → ℕ → ℝ)
    (hK1 : ∀ a b, Requested o1.simple deflections t a b → im1 (o1.span.getD (n0, n1)) [gs, gs] (a, b) = .ok (K1 (a, b)))
    (hK2 : ∀ a b, Requested o2.simple deflections t a b → im2 (o2.span.getD (n0, n1)) [gs, gs] (a, b) = .ok (K2 (a, b))) :
    ∃ u u1 u2, normalLoading (.general im1) (.general im2) gs t deflections (some [some o1, some o2]) rev = .ok (u, u1, u2) ∧ ∀ a, ∃ x x1 x2, u a = .arr x ∧ u1 a = .arr x1 ∧ u2 a = .arr x2 ∧
      x.shape = (n0, n1) ∧ ∀ i j, x.val i j = x1.val i j + x2.val i j ∧
        x1.val i j = .fin (∑ b, if Requested o1.simple deflections t a b then
          Conv.sameConvolve n0 n1 (o1.span.getD (n0, n1)).1 (o1.span.getD (n0, n1)).2 (K1 (a, b)) (p b) i j else 0) ∧
        x2.val i j = .fin (∑ b, if Requested o2.simple deflections t a b then
          sign rev b * Conv.sameConvolve n0 n1 (o2.span.getD (n0, n1)).1 (o2.span.getD (n0, n1)).2 (K2 (a, b)) (p b) i j else 0) := by
  obtain ⟨t', hr, hs, hp'⟩ := reverse_ok hrev ht
  have e : ∀ a b, Requested o2.simple deflections t' a b ↔ Requested o2.simple deflections t a b := fun a b => by simp only [Requested, hs]
  obtain ⟨u1, h1, v1⟩ := C94_superposition im1 ht hne (.number gs) deflections o1.span o1.simple K1 hK1
  obtain ⟨u2, h2, v2⟩ := C94_superposition im2 hp' (by simpa only [hs] using hne) (.number gs) deflections o2.span o2.simple K2 fun a b h => hK2 a b ((e a b).mp h)
  have hadd : ∀ a, addOut (.arr (u1 a)) (.arr (u2 a)) = .ok (.arr ⟨(u1 a).n0, (u1 a).n1, fun i j => (u1 a).val i j + (u2 a).val i j⟩) := fun a => by
    exact if_pos ((v1 a).1.trans (v2 a).1.symm)
  refine ⟨fun d => .arr ⟨(u1 d).n0, (u1 d).n1, fun i j => (u1 d).val i j + (u2 d).val i j⟩, fun d => .arr (u1 d), fun d => .arr (u2 d), ?_, fun a => ⟨_, _, _, rfl, rfl, rfl, (v1 a).1, fun i j => ⟨rfl, (v1 a).2 i j, ?_⟩⟩⟩
  · unfold normalLoading option
    simp only [bind, Except.bind, List.getElem?_cons_zero, List.getElem?_cons_succ, Option.getD_some, general_ok h1, general_ok h2, hr, hadd]
    congr 2
    funext d
    cases d <;> rfl
  · rw [(v2 a).2]
    congr 1
    refine Finset.sum_congr rfl fun b _ => ?_
    simp only [e]
    split_ifs
    · have := same_linear n0 n1 (o2.span.getD (n0, n1)).1 (o2.span.getD (n0, n1)).2 (K2 (a, b)) (p b) (p b) (sign rev b) 0 i j
      rw [zero_mul, add_zero] at this
      rw [← this]
      exact same_congr (fun _ _ _ _ => by ring) _ _
    · rfl

/-- Normal loads with a tangential part that is reversed, on two surfaces of different matrices (and, with one of them rigid, `C96_rigid`). -/
example : Numbers (fun d => if d = .y then none else some ⟨2, 1, fun _ _ => .fin 3⟩) 2 1 (fun _ _ _ => 3) ∧
    (∀ d ∈ [Dir.x], ((fun d => if d = .y then none else some ⟨2, 1, fun _ _ => .fin 3⟩ : Triple) d).isSome = true) ∧ sign [.x] .x = -1 ∧ sign [.x] .z = 1 := by
  refine ⟨fun d a h => ?_, by simp, by simp [sign], by simp [sign]⟩
  dsimp only at h
  split_ifs at h
  injection h with h
  subst h
  exact ⟨rfl, rfl, fun _ _ _ _ => rfl⟩

/-- With a rigid second surface the total is the displacement of the first surface. -/
theorem C96_rigid (im1 : Im) (gs : ℝ) {t : Triple} {n0 n1 : ℕ} {p : Dir → ℕ → ℕ → ℝ} (ht : Numbers t n0 n1 p) (hne : ∃ d, (t d).isSome = true) (deflections : List Dir) (o1 o2 : Options)
    (rev : List Dir) (hrev : ∀ d ∈ rev, (t d).isSome = true) (K1 : Dir × Dir → ℕ → ℕ → ℝ)
    (hK1 : ∀ a b, Requested o1.simple deflections t a b → im1 (o1.span.getD (n0, n1)) [gs, gs] (a, b) = .ok (K1 (a, b))) :
    ∃ u u1 u2, normalLoading (.general im1) .rigid gs t deflections (some [some o1, some o2]) rev = .ok (u, u1, u2) ∧ ∀ a, ∃ x x1, u a = .arr x ∧ u1 a = .arr x1 ∧ x.shape = x1.shape ∧
      (∀ i j, x.val i j = x1.val i j) ∧ ∀ x2, u2 a = .arr x2 → ∀ i j, x2.val i j = .fin 0 := by
  obtain ⟨t', hr, hs, hp'⟩ := reverse_ok hrev ht
  obtain ⟨u1, h1, v1⟩ := C94_superposition im1 ht hne (.number gs) deflections o1.span o1.simple K1 hK1
  have hadd : ∀ a, ∃ x, addOut (.arr (u1 a)) (zeros t' a) = .ok (.arr x) ∧ x.shape = (u1 a).shape ∧ ∀ i j, x.val i j = (u1 a).val i j := by
    intro a
    cases hta : t' a with
    | none => exact ⟨u1 a, by simp only [zeros, hta]; rfl, rfl, fun _ _ => rfl⟩
    | some b =>
      have hb := hp' a b hta
      refine ⟨⟨(u1 a).n0, (u1 a).n1, fun i j => (u1 a).val i j + .fin 0⟩, ?_, rfl, fun i j => ?_⟩
      · simp only [zeros, hta]
        exact if_pos ((v1 a).1.trans (by rw [Arr.shape]; dsimp only; rw [hb.1, hb.2.1]))
      · dsimp only
        rw [(v1 a).2, XR.fin_add, add_zero]
  choose x hx sx vx using hadd
  refine ⟨fun d => .arr (x d), fun d => .arr (u1 d), zeros t', ?_, fun a => ⟨x a, u1 a, rfl, rfl, sx a, vx a, fun x2 h i j => ?_⟩⟩
  · unfold normalLoading option
    simp only [bind, Except.bind, List.getElem?_cons_zero, List.getElem?_cons_succ, Option.getD_some, general_ok h1, hr, rigid_ok, hx]
    congr 2
    funext d
    cases d <;> rfl
  · unfold zeros at h
    split at h
    · cases h
    · injection h with h
      subst h
      rfl

/-- C96 is false: reversing a direction without loads raises `TypeError` instead of changing nothing, also if all directions are named for loads that are only normal. -/
theorem C96_reverse_wrong (m1 m2 : Mat) (gs : ℝ) (t : Triple) (deflections : List Dir) (options : Option (List (Option Options))) (rev : List Dir) {d : Dir} (hd : d ∈ rev) (ht : t d = none)
    {o1 : Options} (ho : option options 0 = .ok o1) {u : Dir → Out} (h1 : m1.displacement t (.number gs) deflections o1.span o1.simple = .ok u) :
    normalLoading m1 m2 gs t deflections options rev = .error .typeError := by
  have : reverseLoads rev t = .error .typeError := by
    refine if_pos ?_
    rw [List.any_eq_true]
    exact ⟨d, mem_valid d, by simp [hd, ht]⟩
  unfold normalLoading
  simp only [bind, Except.bind, ho, h1, this]

example : ∃ u, Mat.rigid.displacement (corner 2 2) (.number 1) [.z] none false = .ok u := ⟨_, rfl⟩

/-- A list of options with a single element raises `IndexError`; `None` stands for no options. -/
theorem C96_options (m1 m2 : Mat) (gs : ℝ) (t : Triple) (deflections : List Dir) (rev : List Dir) :
    (∀ (o : Option Options) u t', m1.displacement t (.number gs) deflections (o.getD {}).span (o.getD {}).simple = .ok u → reverseLoads rev t = .ok t' →
      normalLoading m1 m2 gs t deflections (some [o]) rev = .error .indexError) ∧
    normalLoading m1 m2 gs t deflections none rev = normalLoading m1 m2 gs t deflections (some [none, none]) rev := by
  refine ⟨fun o u t' h1 h2 => ?_, rfl⟩
  unfold normalLoading option
  simp [bind, Except.bind, h1, h2]

end Verif.Materials
