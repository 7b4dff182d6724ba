import Verif.Rough.Params
import Verif.Mask.Model

/-!
# C134: the methods of surfaces that call the functions for roughness, `slippy/surface/Surface_class.py` l.596-685

Each of them uses the mask of the surface if no mask is given. Profiles have two axes and are float arrays, `none` is `nan`. A filter is a total function of
the profile (the grid spacing is set where it is used). Not modelled: `get_height_of_mat_vr` and the summits given to `get_summit_curvature`.
-/

namespace Verif.Rough

/-- The attributes of a surface that are used: `_profile`, `invert_surface`, `_mask`, `grid_spacing`, `unworn_profile`. -/
structure Owner where
  raw : Arr (Option ℝ)
  inverted : Bool
  mask : Option (Arr Bool)
  gs : Option ℝ
  unworn : Arr (Option ℝ)

/-- `-1 * a`. -/
noncomputable def negated (a : Arr (Option ℝ)) : Arr (Option ℝ) := ⟨a.rows, a.cols, fun i j => (a.val i j).map fun v => -1 * v⟩

/-- The getter of `profile`, l.290-297: a new array if the surface is inverted, else the array itself. -/
noncomputable def Owner.profile (s : Owner) : Arr (Option ℝ) := if s.inverted then negated s.raw else s.raw

/-- The setter of `profile`, l.299-311: nothing is inverted on the way in. -/
def Owner.setProfile (s : Owner) (p : Arr (Option ℝ)) : Owner := { s with raw := p, unworn := p }

open Classical in
/-- The setter of `mask`, l.186-209. -/
noncomputable def Owner.setMask (s : Owner) (a : Mask.Arg ℝ) : Option PyErr × Owner :=
  let r := Mask.setMask ⟨s.profile.rows, s.profile.cols, s.profile.val⟩ (s.mask.map fun m => ⟨m.rows, m.cols, m.val⟩) a
  (r.2, { s with mask := r.1.map fun m => ⟨m.rows, m.cols, m.val⟩ })

/-- `if mask is None: mask = self.mask` (l.603-604 and the same in the other methods). -/
def Owner.choose (s : Owner) : MaskArg ℝ → MaskArg ℝ
  | .none => toMask s.mask
  | given => given

/-- What a function that may write to the profile leaves of the surface: it writes to the array of the surface unless this is a new one. -/
def Owner.written (s : Owner) (p : Arr (Option ℝ)) : Owner := if s.inverted then s else { s with raw := p }

/-- `Surface.subtract_polynomial(order, mask)`, l.596-609. -/
noncomputable def Owner.subtract (lstsq : List (List ℝ) → List (Option ℝ) → Option (List ℝ)) (s : Owner) (order : ℕ) (mask : MaskArg ℝ) : Except PyErr (List ℝ) × Owner :=
  match subtractPolynomial lstsq false s.profile order (s.choose mask) with
  | .error e => (.error e, s)
  | .ok (new, coefs) => (.ok coefs, s.setProfile new)

/-- `Surface.find_summits(mask, four_nearest, filter_cut_off, invert)`, l.668-685. -/
noncomputable def Owner.summits (s : Owner) (mask : MaskArg ℝ) (four : Bool) (filter : Option (Arr (Option ℝ) → Arr (Option ℝ))) (invert : Bool) : Except PyErr (Arr Bool) × Owner :=
  if invert then
    match findSummits (negated s.profile) (s.choose mask) four filter with
    | .error e => (.error e, s)
    | .ok (marks, _) => (.ok marks, s)
  else
    match findSummits s.profile (s.choose mask) four filter with
    | .error e => (.error e, s)
    | .ok (marks, p) => (.ok marks, s.written p)

/-- `Surface.get_summit_curvature(None, mask, filter_cut_off, four_nearest)`, l.654-666, with `get_summit_curvatures` l.612-624: `None ** 2` is a `TypeError`. -/
noncomputable def Owner.curvatures (s : Owner) (mask : MaskArg ℝ) (four : Bool) (filter : Option (Arr (Option ℝ) → Arr (Option ℝ))) : Except PyErr (List (Option ℝ)) × Owner :=
  match s.gs with
  | none => (.error .typeError, s)
  | some gs =>
    match findSummits s.profile (s.choose mask) four filter with
    | .error e => (.error e, s)
    | .ok (marks, p) => (.ok ((selected marks.rows marks.cols (some marks)).map (curvature p gs)), s.written p)

/-- `Surface.roughness(name, mask, …)`, l.611-627: the grid spacing is that of the surface; without flattening the functions work on the array of the surface. -/
noncomputable def Owner.rough (lstsq : List (List ℝ) → List (Option ℝ) → Option (List ℝ)) (s : Owner) (name : Param) (mask : MaskArg ℝ) (curved noFlat : Bool)
    (filter : Option (Arr (Option ℝ) → Arr (Option ℝ))) (four : Bool) : Except PyErr Out × Owner :=
  match maskArray s.profile (s.choose mask) with
  | .error e => (.error e, s)
  | .ok m => match flatten lstsq s.profile m curved noFlat with
    | .error e => (.error e, s)
    | .ok eta =>
      let r := single ⟨s.gs, four, filter⟩ eta m name
      (r.1, if noFlat then s.written r.2 else s)

/-- `Surface.get_mat_vr(height, void, mask, ratio)`, l.629-639: the profile is handed over as an array and without grid spacing, so absolute values are
refused (`get_mat_vr` l.510-514). `none` if a point that is used is `nan`. -/
noncomputable def Owner.matVr (s : Owner) (height : ℝ) (void : Bool) (mask : MaskArg ℝ) (ratio : Bool) : Except PyErr (Option (List (Option ℝ))) :=
  if ratio = false then .error .valueError
  else match matSelection s.profile (s.choose mask) with
    | .error e => .error e
    | .ok pts => match (valuesAt s.profile pts).mapM id with
      | some vals => (Rough.matVr height vals void).map some
      | none => .ok none

/-! ## Specification -/

/-- The points hidden by the mask of a surface. -/
def Owner.Hidden (s : Owner) (i j : ℕ) : Prop := ∃ m, s.mask = some m ∧ m.val i j = true

/-- The mask fits to the profile, as the setter makes sure. -/
def Owner.Fits (s : Owner) : Prop := ∀ m, s.mask = some m → m.rows = s.raw.rows ∧ m.cols = s.raw.cols

/-- A strict local minimum in the interior. -/
def IsValley (f : Arr (Option ℝ)) (four : Bool) (i j : ℕ) : Prop :=
  0 < i ∧ i + 1 < f.rows ∧ 0 < j ∧ j + 1 < f.cols ∧ ∀ k l, Next four i j k l → Lower (f.val i j) (f.val k l)

/-! ## Lemmas -/

theorem profile_rows (s : Owner) : s.profile.rows = s.raw.rows := by
  unfold Owner.profile negated; split <;> rfl

theorem profile_cols (s : Owner) : s.profile.cols = s.raw.cols := by
  unfold Owner.profile negated; split <;> rfl

theorem profile_plain {s : Owner} (h : s.inverted = false) : s.profile = s.raw := by
  simp [Owner.profile, h]

theorem lower_neg (a b : Option ℝ) : Lower (a.map fun v => -1 * v) (b.map fun v => -1 * v) ↔ Lower b a := by
  unfold Lower
  constructor
  · rintro ⟨x, y, h1, h2, h⟩
    obtain ⟨u, rfl, rfl⟩ := Option.map_eq_some_iff.1 h1
    obtain ⟨w, rfl, rfl⟩ := Option.map_eq_some_iff.1 h2
    exact ⟨w, u, rfl, rfl, by linarith⟩
  · rintro ⟨x, y, rfl, rfl, h⟩
    exact ⟨-1 * y, -1 * x, rfl, rfl, by linarith⟩

theorem summit_negated (p : Arr (Option ℝ)) (four : Bool) (i j : ℕ) : IsSummit (negated p) four i j ↔ IsValley p four i j := by
  unfold IsSummit IsValley negated
  simp only [lower_neg]

theorem mask_own {s : Owner} {m : Arr Bool} (h : s.mask = some m) (hf : s.Fits) : maskArray s.profile (s.choose .none) = .ok (some m) := by
  have := hf m h
  simp only [Owner.choose, h, toMask, maskArray, profile_rows, profile_cols]
  rw [if_pos this]

theorem poly_own {s : Owner} {m : Arr Bool} (h : s.mask = some m) (hf : s.Fits) : polyMask s.profile (s.choose .none) = .ok (some m) := by
  have := hf m h
  simp only [Owner.choose, h, toMask, polyMask, profile_rows, profile_cols]
  rw [if_pos this]

theorem summits_own {s : Owner} {m : Arr Bool} (h : s.mask = some m) (hf : s.Fits) (four : Bool) (filter : Option (Arr (Option ℝ) → Arr (Option ℝ))) :
    ∃ marks p, findSummits s.profile (s.choose .none) four filter = .ok (marks, p) ∧ p.rows = s.profile.rows ∧ p.cols = s.profile.cols ∧
      ∀ i j, p.val i j = if m.val i j then none else s.profile.val i j := by
  unfold findSummits
  rw [mask_own h hf]
  exact ⟨_, _, rfl, rfl, rfl, fun _ _ => rfl⟩

/-! ## The properties -/

/-- What the setter of the mask hides: the value `nan` hides the points that are `nan`, a number the points of this height, an array its True points. -/
theorem C134_hidden (s : Owner) (i j : ℕ) (v : ℝ) (a : Mask.M) (ha : a.rows = s.raw.rows ∧ a.cols = s.raw.cols) :
    ((s.setMask (.float none)).2.Hidden i j ↔ s.profile.val i j = none) ∧ (s.setMask (.float none)).2.Fits ∧
    ((s.setMask (.float (some v))).2.Hidden i j ↔ s.profile.val i j = some v) ∧ (s.setMask (.float (some v))).2.Fits ∧
    ((s.setMask (.array a)).2.Hidden i j ↔ a.val i j = true) ∧ (s.setMask (.array a)).2.Fits := by
  have h3 : (s.setMask (.array a)).2.mask = some ⟨a.rows, a.cols, a.val⟩ := by
    simp only [Owner.setMask, Mask.setMask]
    rw [if_pos ⟨ha.1.trans (profile_rows s).symm, ha.2.trans (profile_cols s).symm⟩]
    rfl
  refine ⟨?_, ?_, ?_, ?_, ?_, ?_⟩
  · simp [Owner.Hidden, Owner.setMask, Mask.setMask]
  · intro m hm
    simp only [Owner.setMask, Mask.setMask, Option.map_some, Option.some.injEq] at hm
    subst hm
    exact ⟨profile_rows s, profile_cols s⟩
  · simp [Owner.Hidden, Owner.setMask, Mask.setMask]
  · intro m hm
    simp only [Owner.setMask, Mask.setMask, Option.map_some, Option.some.injEq] at hm
    subst hm
    exact ⟨profile_rows s, profile_cols s⟩
  · unfold Owner.Hidden
    rw [h3]
    simp
  · intro m hm
    rw [h3] at hm
    cases hm
    exact ha

/-- A surface of two rows and three columns with the heights 0 and 1. -/
def stepped : Owner where
  raw := ⟨2, 3, fun i _ => some i⟩
  inverted := false
  mask := none
  gs := some 1
  unworn := ⟨2, 3, fun i _ => some i⟩

example : (⟨2, 3, fun _ j => j == 0⟩ : Mask.M).rows = stepped.raw.rows ∧ (⟨2, 3, fun _ j => j == 0⟩ : Mask.M).cols = stepped.raw.cols := ⟨rfl, rfl⟩

/-- **C134 (negation)**, flattening: the polynomial is fitted to the hidden points and subtracted from these only. The points that are not hidden have no
influence on the coefficients and keep their heights. -/
theorem C134_fit_wrong (lstsq : List (List ℝ) → List (Option ℝ) → Option (List ℝ)) (s s' : Owner) (order : ℕ) {m : Arr Bool} (hm : s.mask = some m) (hf : s.Fits)
    (hi : s.inverted = false) (hi' : s'.inverted = false) (hm' : s'.mask = s.mask) (hr : s'.raw.rows = s.raw.rows) (hc : s'.raw.cols = s.raw.cols)
    (hsame : ∀ i j, s.Hidden i j → s'.raw.val i j = s.raw.val i j) :
    (s'.subtract lstsq order .none).1 = (s.subtract lstsq order .none).1 ∧
    ∀ i j, ¬ s.Hidden i j → (s.subtract lstsq order .none).2.profile.val i j = s.profile.val i j := by
  have hf' : s'.Fits := fun k hk => by
    rw [hr, hc]; exact hf k (by rw [← hm']; exact hk)
  have key : ∀ q ∈ selected s.profile.rows s.profile.cols (some m), s'.profile.val q.1 q.2 = s.profile.val q.1 q.2 := by
    rintro ⟨i, j⟩ hq
    rw [mem_selected] at hq
    rw [profile_plain hi, profile_plain hi']
    exact hsame i j ⟨m, hm, hq.2.2⟩
  have key2 : (selected s'.profile.rows s'.profile.cols (some m)).map (fun q => s'.profile.val q.1 q.2) =
      (selected s.profile.rows s.profile.cols (some m)).map (fun q => s.profile.val q.1 q.2) := by
    rw [profile_rows s', profile_cols s', hr, hc, ← profile_rows s, ← profile_cols s]
    exact List.map_congr_left key
  constructor
  · unfold Owner.subtract subtractPolynomial
    rw [poly_own hm hf, poly_own (hm'.trans hm) hf']
    simp only [key2]
    rw [profile_rows s', profile_cols s', hr, hc, ← profile_rows s, ← profile_cols s]
    cases lstsq ((selected s.profile.rows s.profile.cols (some m)).map (gRow order)) ((selected s.profile.rows s.profile.cols (some m)).map fun q => s.profile.val q.1 q.2) with
    | none => rfl
    | some c => simp
  · intro i j hn
    have hfalse : m.val i j = false := by
      by_contra hne
      exact hn ⟨m, hm, by simpa using hne⟩
    unfold Owner.subtract subtractPolynomial
    rw [poly_own hm hf]
    cases hl : lstsq ((selected s.profile.rows s.profile.cols (some m)).map (gRow order)) ((selected s.profile.rows s.profile.cols (some m)).map fun q => s.profile.val q.1 q.2) with
    | none => simp only [hl]
    | some c =>
      simp only [hl, Bool.false_eq_true, false_and, if_false]
      rw [profile_plain (s := s.setProfile _) hi]
      simp [Owner.setProfile, used, hfalse]

/-- The surface with the height 1 hidden. -/
noncomputable def veiled : Owner := (stepped.setMask (.float (some 1))).2

example : (∃ m, veiled.mask = some m) ∧ veiled.Fits ∧ veiled.inverted = false ∧ veiled.Hidden 1 0 ∧ ¬ veiled.Hidden 0 0 := by
  have h := C134_hidden stepped 1 0 1 ⟨2, 3, fun _ _ => true⟩ ⟨rfl, rfl⟩
  have h' := C134_hidden stepped 0 0 1 ⟨2, 3, fun _ _ => true⟩ ⟨rfl, rfl⟩
  refine ⟨⟨_, rfl⟩, h.2.2.2.1, rfl, h.2.2.1.2 ?_, fun hh => ?_⟩
  · simp [stepped, Owner.profile]
  · have := h'.2.2.1.1 hh
    simp [stepped, Owner.profile] at this

/-- **C134 (negation)**, `nan`: a surface with missing heights that are hidden by the mask `nan` cannot be flattened, since only these are fitted. -/
theorem C134_nan_wrong (lstsq : List (List ℝ) → List (Option ℝ) → Option (List ℝ)) (hl : ∀ g z, none ∈ z → lstsq g z = none) (s : Owner) (order : ℕ) {i j : ℕ}
    (hi : i < s.raw.rows) (hj : j < s.raw.cols) (hn : s.profile.val i j = none) :
    ((s.setMask (.float none)).2.subtract lstsq order .none).1 = .error .valueError := by
  obtain ⟨h1, h2, -⟩ := C134_hidden s i j 0 ⟨s.raw.rows, s.raw.cols, fun _ _ => true⟩ ⟨rfl, rfl⟩
  obtain ⟨m, hm, hv⟩ := h1.2 hn
  unfold Owner.subtract subtractPolynomial
  rw [poly_own hm h2]
  have hp : (s.setMask (.float none)).2.profile = s.profile := rfl
  simp only [hp]
  rw [hl]
  rw [List.mem_map]
  refine ⟨(i, j), ?_, hn⟩
  rw [mem_selected]
  exact ⟨(profile_rows s).symm ▸ hi, (profile_cols s).symm ▸ hj, hv⟩

/-- The surface without its height in a corner; a fit that refuses `nan`. -/
def gap : Owner := { stepped with raw := ⟨2, 3, fun i j => if i = 0 ∧ j = 0 then none else some i⟩ }

example : 0 < gap.raw.rows ∧ 0 < gap.raw.cols ∧ gap.profile.val 0 0 = none ∧ (∀ (g : List (List ℝ)) (z : List (Option ℝ)), none ∈ z → (fun _ z => if none ∈ z then none else some [0] : List (List ℝ) → List (Option ℝ) → Option (List ℝ)) g z = none) :=
  ⟨by decide, by decide, rfl, fun g z h => if_pos h⟩

theorem mapM_const {α : Type} (l : List α) (v : ℝ) : (l.map fun _ => some v).mapM id = some (l.map fun _ => v) := by
  induction l with
  | nil => rfl
  | cons a l ih =>
    rw [List.map_cons, List.mapM_cons, ih]
    rfl

theorem mean_const {l : List (Option ℝ)} {v : ℝ} (hl : l ≠ []) (h : ∀ x ∈ l, x = some v) : mean l = some v := by
  have e : l = l.map fun _ => some v := by
    conv_lhs => rw [← List.map_id' l]
    exact List.map_congr_left fun x hx => h x hx
  unfold mean
  rw [e, mapM_const]
  have hne : (l.map fun _ => v) ≠ [] := by simpa using hl
  simp only [if_neg hne]
  have hlen : (l.length : ℝ) ≠ 0 := by
    rw [Nat.cast_ne_zero]; exact fun h0 => hl (List.length_eq_zero_iff.1 h0)
  rw [List.map_const', List.sum_replicate, List.length_replicate, nsmul_eq_mul]
  congr 1
  field_simp

/-- **C134 (negation)**, statistics: with the points of one height hidden, the average and the root mean square of the heights (not flattened) are those of
this height, whatever the rest of the surface is. -/
theorem C134_statistics_wrong (lstsq : List (List ℝ) → List (Option ℝ) → Option (List ℝ)) (s : Owner) (v : ℝ) {i j : ℕ} (hi : i < s.raw.rows) (hj : j < s.raw.cols)
    (hv : s.profile.val i j = some v) (curved four : Bool) (filter : Option (Arr (Option ℝ) → Arr (Option ℝ))) :
    ((s.setMask (.float (some v))).2.rough lstsq .sa .none curved true filter four).1 = .ok (.num (some |v|)) ∧
    ((s.setMask (.float (some v))).2.rough lstsq .sq .none curved true filter four).1 = .ok (.num (some |v|)) := by
  have hh := fun a b => (C134_hidden s a b v ⟨s.raw.rows, s.raw.cols, fun _ _ => true⟩ ⟨rfl, rfl⟩).2.2
  obtain ⟨m, hm, hmv⟩ := (hh i j).1.2 hv
  have hall : ∀ x ∈ valuesAt s.profile (selected s.profile.rows s.profile.cols (some m)), x = some v := by
    intro x hx
    obtain ⟨⟨a, b⟩, hq, rfl⟩ := List.mem_map.1 hx
    rw [mem_selected] at hq
    exact (hh a b).1.1 ⟨m, hm, hq.2.2⟩
  have hne : valuesAt s.profile (selected s.profile.rows s.profile.cols (some m)) ≠ [] := by
    apply List.ne_nil_of_mem (a := s.profile.val i j)
    refine List.mem_map.2 ⟨(i, j), ?_, rfl⟩
    rw [mem_selected]
    exact ⟨(profile_rows s).symm ▸ hi, (profile_cols s).symm ▸ hj, hmv⟩
  have hp : (s.setMask (.float (some v))).2.profile = s.profile := rfl
  have ha : sa (valuesAt s.profile (selected s.profile.rows s.profile.cols (some m))) = some |v| := by
    refine mean_const (by simpa using hne) fun x hx => ?_
    obtain ⟨y, hy, rfl⟩ := List.mem_map.1 hx
    rw [hall y hy]; rfl
  have hq : sq (valuesAt s.profile (selected s.profile.rows s.profile.cols (some m))) = some |v| := by
    unfold sq
    rw [mean_const (v := v ^ 2) (by simpa [power] using hne) fun x hx => ?_]
    · rw [Option.map_some, Real.sqrt_sq_eq_abs]
    · obtain ⟨y, hy, rfl⟩ := List.mem_map.1 hx
      rw [hall y hy]; rfl
  constructor
  · unfold Owner.rough
    rw [mask_own hm (hh i j).2.1]
    simp only [flatten, if_true, single, hp, ha]
  · unfold Owner.rough
    rw [mask_own hm (hh i j).2.1]
    simp only [flatten, if_true, single, hp, hq]

example : 1 < stepped.raw.rows ∧ 0 < stepped.raw.cols ∧ stepped.profile.val 1 0 = some 1 ∧ stepped.profile.val 0 0 = some 0 := by
  refine ⟨by decide, by decide, ?_, ?_⟩ <;> simp [stepped, Owner.profile]

/-- **C134 (negation)**, the heights: searching summits or their curvatures, and the density of summits without flattening, erase the hidden heights of the surface. -/
theorem C134_erased_wrong (lstsq : List (List ℝ) → List (Option ℝ) → Option (List ℝ)) (s : Owner) {m : Arr Bool} (hm : s.mask = some m) (hf : s.Fits) (hi : s.inverted = false)
    (four curved : Bool) (filter : Option (Arr (Option ℝ) → Arr (Option ℝ))) (i j : ℕ) (hh : s.Hidden i j) :
    (s.summits .none four filter false).2.profile.val i j = none ∧ (s.gs ≠ none → (s.curvatures .none four filter).2.profile.val i j = none) ∧
    (s.rough lstsq .sds .none curved true filter four).2.profile.val i j = none := by
  obtain ⟨marks, p, hs, -, -, hp⟩ := summits_own hm hf four filter
  obtain ⟨m', hm', hv⟩ := hh
  rw [hm] at hm'
  cases hm'
  have hw : (s.written p).profile.val i j = none := by
    have : s.written p = { s with raw := p } := by simp [Owner.written, hi]
    rw [this, profile_plain (s := { s with raw := p }) hi]
    simp [hp, hv]
  refine ⟨?_, ?_, ?_⟩
  · unfold Owner.summits
    simp only [Bool.false_eq_true, if_false, hs]
    exact hw
  · intro hg
    unfold Owner.curvatures
    cases h : s.gs with
    | none => exact absurd h hg
    | some g =>
      simp only [hs]
      exact hw
  · unfold Owner.rough
    rw [mask_own hm hf]
    have hc : s.choose .none = toMask (some m) := by simp [Owner.choose, hm]
    rw [hc] at hs
    simp only [flatten, if_true, single, hs]
    exact hw

/-- A surface with hidden points of height 1, which are lost. -/
example : ∃ s : Owner, (∃ m, s.mask = some m) ∧ s.Fits ∧ s.inverted = false ∧ s.Hidden 1 0 ∧ s.profile.val 1 0 = some 1 ∧ s.gs ≠ none := by
  have h := C134_hidden stepped 1 0 1 ⟨2, 3, fun _ _ => true⟩ ⟨rfl, rfl⟩
  have e : stepped.profile.val 1 0 = some 1 := by simp [stepped, Owner.profile]
  exact ⟨veiled, ⟨_, rfl⟩, h.2.2.2.1, rfl, h.2.2.1.2 e, e, by simp [veiled, Owner.setMask, stepped]⟩

/-- **C134 (negation)**, inverted surfaces: flattening turns the surface upside down. -/
theorem C134_inverted_wrong (lstsq : List (List ℝ) → List (Option ℝ) → Option (List ℝ)) (s : Owner) (order : ℕ) (mask : MaskArg ℝ) (hi : s.inverted = true)
    {flat : Arr (Option ℝ)} {coefs : List ℝ} (h : subtractPolynomial lstsq false s.profile order (s.choose mask) = .ok (flat, coefs)) (i j : ℕ) :
    (s.subtract lstsq order mask).2.profile.val i j = (flat.val i j).map fun v => -v := by
  unfold Owner.subtract
  simp only [h]
  simp [Owner.profile, Owner.setProfile, hi, negated]

/-- With a fit that finds the height 0. -/
example : ∃ flat coefs, subtractPolynomial (fun _ _ => some [0]) false { stepped with inverted := true }.profile 0 ({ stepped with inverted := true }.choose .none) = .ok (flat, coefs) ∧ flat.val 1 0 = some (-1) := by
  refine ⟨_, _, rfl, ?_⟩
  simp [used, stepped, Owner.profile, negated, polyAt, terms, monomial, List.product]

/-- **C134 (negation)**: absolute volumes are refused for all surfaces, also if the grid spacing is known. -/
theorem C134_absolute_wrong (s : Owner) (height : ℝ) (void : Bool) (mask : MaskArg ℝ) : s.matVr height void mask false = .error .valueError := rfl

/-- **C134**, masks that are given: they replace the mask of the surface, which has no effect on the results then. -/
theorem C134_given (lstsq : List (List ℝ) → List (Option ℝ) → Option (List ℝ)) (s : Owner) (own : Option (Arr Bool)) (mask : MaskArg ℝ) (hm : mask ≠ .none) (order : ℕ) (four invert curved noFlat void ratio : Bool)
    (filter : Option (Arr (Option ℝ) → Arr (Option ℝ))) (name : Param) (height : ℝ) :
    ({ s with mask := own }.subtract lstsq order mask).1 = (s.subtract lstsq order mask).1 ∧
    ({ s with mask := own }.summits mask four filter invert).1 = (s.summits mask four filter invert).1 ∧
    ({ s with mask := own }.curvatures mask four filter).1 = (s.curvatures mask four filter).1 ∧
    ({ s with mask := own }.rough lstsq name mask curved noFlat filter four).1 = (s.rough lstsq name mask curved noFlat filter four).1 ∧
    { s with mask := own }.matVr height void mask ratio = s.matVr height void mask ratio := by
  have h1 : { s with mask := own }.choose mask = mask := by cases mask <;> first | rfl | exact absurd rfl hm
  have h2 : s.choose mask = mask := by cases mask <;> first | rfl | exact absurd rfl hm
  have h3 : { s with mask := own }.profile = s.profile := rfl
  refine ⟨?_, ?_, ?_, ?_, ?_⟩
  · unfold Owner.subtract
    rw [h1, h2, h3]
    split <;> rfl
  · unfold Owner.summits
    rw [h1, h2, h3]
    split <;> split <;> rfl
  · unfold Owner.curvatures
    rw [h1, h2, h3]
    dsimp only
    split
    · rfl
    · split <;> rfl
  · unfold Owner.rough
    rw [h1, h2, h3]
    split
    · rfl
    · split <;> rfl
  · unfold Owner.matVr
    rw [h1, h2, h3]

/-- A mask that is given. -/
example : (.array ⟨2, 3, fun i j => i == j⟩ : MaskArg ℝ) ≠ .none := by simp

/-- **C134**, curvatures need the distance of the points: without it there is no result. -/
theorem C134_spacing (s : Owner) (mask : MaskArg ℝ) (four : Bool) (filter : Option (Arr (Option ℝ) → Arr (Option ℝ))) (h : s.gs = none) : ∃ e, (s.curvatures mask four filter).1 = .error e := by
  unfold Owner.curvatures
  rw [h]
  exact ⟨_, rfl⟩

/-- A surface without grid spacing. -/
example : { stepped with gs := none }.gs = none := rfl

/-- **C134 (partial)**, surfaces without a mask that are not inverted: flattening subtracts the polynomial that is fitted to all points from all points, and the
other methods leave the surface as it was. The summits are the strict local maxima, with `invert` the strict local minima. Missing: masks and inverted surfaces. -/
theorem C134_plain_partial (lstsq : List (List ℝ) → List (Option ℝ) → Option (List ℝ)) (s : Owner) (hm : s.mask = none) (hi : s.inverted = false)
    (hr : 2 ≤ s.raw.rows) (hc : 2 ≤ s.raw.cols) (four : Bool) :
    (∀ order coefs, (s.subtract lstsq order .none).1 = .ok coefs → ∀ i j, (s.subtract lstsq order .none).2.profile.val i j = (s.profile.val i j).map fun v => v - polyAt order coefs (i, j)) ∧
    (∀ order e, (s.subtract lstsq order .none).1 = .error e → (s.subtract lstsq order .none).2 = s) ∧
    (∃ marks, s.summits .none four none false = (.ok marks, s) ∧ marks.rows = s.raw.rows ∧ marks.cols = s.raw.cols ∧ ∀ i j, marks.val i j = true ↔ IsSummit s.profile four i j) ∧
    (∃ marks, s.summits .none four none true = (.ok marks, s) ∧ marks.rows = s.raw.rows ∧ marks.cols = s.raw.cols ∧ ∀ i j, marks.val i j = true ↔ IsValley s.profile four i j) ∧
    (∀ filter, (s.curvatures .none four filter).2 = s) ∧ ∀ name curved noFlat filter, (s.rough lstsq name .none curved noFlat filter four).2 = s := by
  have hch : s.choose .none = .none := by simp [Owner.choose, hm, toMask]
  have hw : s.written s.profile = s := by
    rw [profile_plain hi]
    unfold Owner.written
    rw [if_neg (by rw [hi]; exact Bool.false_ne_true)]
  have hfs : ∀ filter, ∃ marks, findSummits s.profile .none four filter = .ok (marks, s.profile) := fun filter => ⟨_, rfl⟩
  refine ⟨?_, ?_, ?_, ?_, ?_, ?_⟩
  · intro order coefs h i j
    unfold Owner.subtract subtractPolynomial at h ⊢
    rw [hch] at h ⊢
    simp only [polyMask] at h ⊢
    cases hl : lstsq ((selected s.profile.rows s.profile.cols none).map (gRow order)) ((selected s.profile.rows s.profile.cols none).map fun q => s.profile.val q.1 q.2) with
    | none => rw [hl] at h; cases h
    | some c =>
      rw [hl] at h
      simp only [Bool.false_eq_true, false_and, if_false, Except.ok.injEq] at h
      subst h
      simp only [Bool.false_eq_true, false_and, if_false]
      rw [profile_plain (s := s.setProfile _) hi]
      simp [Owner.setProfile, used]
  · intro order e h
    unfold Owner.subtract at h ⊢
    cases hs : subtractPolynomial lstsq false s.profile order (s.choose .none) with
    | error e => rfl
    | ok r => rw [hs] at h; cases h
  · obtain ⟨marks, h1, h2, h3, h4⟩ := C47_summits s.profile four none ((profile_rows s).symm ▸ hr) ((profile_cols s).symm ▸ hc) (by simp)
    refine ⟨marks, ?_, h2.trans (profile_rows s), h3.trans (profile_cols s), h4⟩
    unfold Owner.summits
    simp only [Bool.false_eq_true, if_false, hch, h1, hw]
  · obtain ⟨marks, h1, h2, h3, h4⟩ := C47_summits (negated s.profile) four none ((profile_rows s).symm ▸ hr) ((profile_cols s).symm ▸ hc) (by simp)
    refine ⟨marks, ?_, h2.trans (profile_rows s), h3.trans (profile_cols s), fun i j => (h4 i j).trans (summit_negated _ _ _ _)⟩
    unfold Owner.summits
    simp only [if_true, hch, h1]
  · intro filter
    obtain ⟨marks, h⟩ := hfs filter
    unfold Owner.curvatures
    cases s.gs with
    | none => rfl
    | some g => simp only [hch, h, hw]
  · intro name curved noFlat filter
    unfold Owner.rough
    simp only [hch, maskArray]
    cases noFlat with
    | false =>
      split <;> rfl
    | true =>
      simp only [flatten, if_true]
      have : (single ⟨s.gs, four, filter⟩ s.profile none name).2 = s.profile := by
        obtain ⟨marks, h⟩ := hfs filter
        cases name <;> simp only [single, toMask, h]
        all_goals first
          | rfl
          | (split <;> first | rfl | (split <;> first | rfl | (split <;> rfl)))
      rw [this, hw]

example : stepped.mask = none ∧ stepped.inverted = false ∧ 2 ≤ stepped.raw.rows ∧ 2 ≤ stepped.raw.cols := ⟨rfl, rfl, by decide, by decide⟩

/-- **C134 (partial)**, the material ratio: exactly the points that are not hidden are used. -/
theorem C134_ratio_partial (s : Owner) (hf : s.Fits) : ∃ pts, matSelection s.profile (s.choose .none) = .ok pts ∧
    (∀ i j, (i, j) ∈ pts ↔ i < s.raw.rows ∧ j < s.raw.cols ∧ ¬ s.Hidden i j) ∧
    ∀ vals height void, (valuesAt s.profile pts).mapM id = some vals → s.matVr height void .none true = (Rough.matVr height vals void).map some := by
  cases hm : s.mask with
  | none =>
    have hch : s.choose .none = .none := by simp [Owner.choose, hm, toMask]
    refine ⟨selected s.profile.rows s.profile.cols none, ?_, fun i j => ?_, fun vals height void hv => ?_⟩
    · rw [hch]; rfl
    · rw [mem_selected, profile_rows, profile_cols]
      simp [Owner.Hidden, hm, used]
    · unfold Owner.matVr
      rw [hch]
      simp [matSelection, maskArray, hv]
  | some m =>
    have hsel : matSelection s.profile (s.choose .none) = .ok (selected s.profile.rows s.profile.cols (some ⟨m.rows, m.cols, fun i j => !m.val i j⟩)) := by
      unfold matSelection
      rw [mask_own hm hf]
    refine ⟨_, hsel, fun i j => ?_, fun vals height void hv => ?_⟩
    · rw [mem_selected, profile_rows, profile_cols]
      simp [Owner.Hidden, hm, used]
    · unfold Owner.matVr
      rw [hsel]
      simp [hv]

example : veiled.Fits ∧ ∃ m, veiled.mask = some m := ⟨(C134_hidden stepped 0 0 1 ⟨2, 3, fun _ _ => true⟩ ⟨rfl, rfl⟩).2.2.2.1, _, rfl⟩

/-- **C134 (partial)**, summits with a mask: the result is right (no hidden point and no neighbour of one is a summit), with `invert` also the surface is kept. -/
theorem C134_summits_partial (s : Owner) {m : Arr Bool} (hm : s.mask = some m) (hf : s.Fits) (four invert : Bool) :
    ∃ marks, (s.summits .none four none invert).1 = .ok marks ∧ (invert = true → (s.summits .none four none invert).2 = s) ∧
      ∀ i j, marks.val i j = true ↔ (if invert then IsValley s.profile four i j else IsSummit s.profile four i j) ∧ ¬ s.Hidden i j ∧ ∀ k l, Next four i j k l → ¬ s.Hidden k l := by
  have hid : ∀ a b, s.Hidden a b ↔ m.val a b = true := fun a b => by simp [Owner.Hidden, hm]
  have key : ∀ p : Arr (Option ℝ), p.rows = s.raw.rows → p.cols = s.raw.cols → ∃ marks p', findSummits p (s.choose .none) four none = .ok (marks, p') ∧
      ∀ i j, marks.val i j = true ↔ IsSummit p four i j ∧ m.val i j ≠ true ∧ ∀ k l, Next four i j k l → m.val k l ≠ true := by
    intro p hr hc
    have hma : maskArray p (s.choose .none) = .ok (some m) := by
      simp only [Owner.choose, hm, toMask, maskArray, hr, hc]
      rw [if_pos (hf m hm)]
    unfold findSummits
    rw [hma]
    refine ⟨_, _, rfl, fun i j => ?_⟩
    rw [mark_iff]
    unfold IsSummit
    simp only
    constructor
    · rintro ⟨h1, h2, h3, h4, h5⟩
      have hnb : Next four i j (i + 1) j := by
        cases four <;> simp [Next, Next4, Next8] <;> omega
      have hij : m.val i j ≠ true := by
        intro hb
        obtain ⟨x, y, -, e, -⟩ := h5 _ _ hnb
        rw [if_pos hb] at e
        cases e
      refine ⟨⟨h1, h2, h3, h4, fun k l hn => ?_⟩, hij, fun k l hn hb => ?_⟩
      · obtain ⟨x, y, e1, e2, e3⟩ := h5 k l hn
        rw [if_neg hij] at e2
        by_cases hb : m.val k l = true
        · rw [if_pos hb] at e1; cases e1
        · rw [if_neg hb] at e1; exact ⟨x, y, e1, e2, e3⟩
      · obtain ⟨x, y, e1, -, -⟩ := h5 k l hn
        rw [if_pos hb] at e1
        cases e1
    · rintro ⟨⟨h1, h2, h3, h4, h5⟩, h6, h7⟩
      refine ⟨h1, h2, h3, h4, fun k l hn => ?_⟩
      rw [if_neg h6, if_neg (h7 k l hn)]
      exact h5 k l hn
  cases invert with
  | false =>
    obtain ⟨marks, p', h1, h2⟩ := key s.profile (profile_rows s) (profile_cols s)
    refine ⟨marks, ?_, by simp, fun i j => ?_⟩
    · unfold Owner.summits; simp only [Bool.false_eq_true, if_false, h1]
    · rw [h2]
      simp only [hid, Bool.false_eq_true, if_false, ne_eq]
  | true =>
    obtain ⟨marks, p', h1, h2⟩ := key (negated s.profile) (profile_rows s) (profile_cols s)
    refine ⟨marks, ?_, ?_, fun i j => ?_⟩
    · unfold Owner.summits; simp only [if_true, h1]
    · intro _
      unfold Owner.summits; simp only [if_true, h1]
    · rw [h2, summit_negated]
      simp only [hid, if_true, ne_eq]

example : (∃ m, veiled.mask = some m) ∧ veiled.Fits := ⟨⟨_, rfl⟩, (C134_hidden stepped 0 0 1 ⟨2, 3, fun _ _ => true⟩ ⟨rfl, rfl⟩).2.2.2.1⟩

end Verif.Rough
