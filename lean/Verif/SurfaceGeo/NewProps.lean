import Mathlib.Tactic.FieldSimp
import Mathlib.Tactic.Linarith
import Verif.SurfaceGeo.New

/-!
# Property C123: new surfaces have the given attributes
-/

namespace Verif.SurfaceGeo

variable {K : Type} [Field K] [LinearOrder K] [IsStrictOrderedRing K] [FloorRing K]

/-- C123: arguments that contradict each other are refused with `ValueError`: a profile and a file; a shape with one of them; grid spacing and extent with one of them; all three of grid spacing, extent and shape; a file of unknown type. -/
theorem C123_refused (profile : Option (List ℕ)) (file : Option (File K)) (gs : Option K) (extent shape : Option (List K))
    (h : (profile.isSome ∧ file.isSome) ∨ ((profile.isSome ∨ file.isSome) ∧ (shape.isSome ∨ (gs.isSome ∧ extent.isSome))) ∨ (gs.isSome ∧ extent.isSome ∧ shape.isSome) ∨ (profile = none ∧ file = some .other)) :
    (newSurface profile file gs extent shape).2 = some .valueError := by
  cases profile with
  | none =>
    cases file with
    | none => cases gs <;> cases extent <;> cases shape <;> simp [newSurface, baseInit, andThen, Geo.new] at h ⊢
    | some f =>
      cases gs <;> cases extent <;> cases shape <;> simp [newSurface, baseInit, andThen, Geo.new] at h ⊢ <;> subst h <;> simp [readFile, ifGiven]
  | some p =>
    have h1 : (setProfile (Geo.new : Geo K) p).2 = none := rfl
    cases file with
    | none => cases gs <;> cases extent <;> cases shape <;> simp [newSurface, baseInit, andThen] at h ⊢
    | some f => cases gs <;> cases extent <;> cases shape <;> simp [newSurface, baseInit, andThen, ifGiven, h1] at h ⊢

/-- A profile and a file. -/
example := C123_refused (K := ℚ) (some [2, 3]) (some .other) none none none (Or.inl ⟨rfl, rfl⟩)

/-- C123: a surface made from a profile and a grid spacing has both, and the extent that belongs to them; `assurface` gives the same. -/
theorem C123_profile_spacing (sh : List ℕ) (g : K) :
    newSurface (some sh) none (some g) none none =
      (⟨some g, some (sh.map fun n : ℕ => (n : K) * g), some (sh.map fun n : ℕ => (n : ℤ)), some (sh.map fun n : ℕ => (n : ℤ)).prod, some (sh.map fun n : ℕ => (n : ℤ))⟩, none) ∧
    assurface sh (some g) = newSurface (some sh) none (some g) none none := by
  refine ⟨?_, rfl⟩
  simp [newSurface, baseInit, andThen, ifGiven, setProfile, setGs, Geo.new, Function.comp_def]

/-- C123: a surface made from a profile alone has neither spacing nor extent. -/
theorem C123_profile (sh : List ℕ) :
    newSurface (some sh) none (none : Option K) none none =
      (⟨none, none, some (sh.map fun n : ℕ => (n : ℤ)), some (sh.map fun n : ℕ => (n : ℤ)).prod, some (sh.map fun n : ℕ => (n : ℤ))⟩, none) := by
  simp [newSurface, baseInit, andThen, ifGiven, setProfile, Geo.new]

/-- C123: a surface made from a profile of `n x m` points and an extent of nearly the same proportions has the given extent, and the spacing of the first direction; other extents are a `ValueError`. -/
theorem C123_profile_extent (n m : ℕ) (hn : 0 < n) (hm : 0 < m) (e0 e1 : K) (he : e1 ≠ 0) :
    (|e0 / e1 - (n : K) / m| ≤ 1 / 10000 → newSurface (some [n, m]) none none (some [e0, e1]) none =
      (⟨some (e0 / n), some [e0, e1], some [(n : ℤ), m], some (n * m), some [(n : ℤ), m]⟩, none)) ∧
    (1 / 10000 < |e0 / e1 - (n : K) / m| → (newSurface (some [n, m]) none none (some [e0, e1]) none).2 = some .valueError) := by
  have hn' : (n : ℤ) ≠ 0 := by exact_mod_cast hn.ne'
  have hm' : (m : K) ≠ 0 := by exact_mod_cast hm.ne'
  have hn'' : n ≠ 0 := hn.ne'
  have hm'' : m ≠ 0 := hm.ne'
  constructor
  · intro h
    have h' := not_lt.2 h
    simp [newSurface, baseInit, andThen, ifGiven, setProfile, setExtent, aspect, Geo.new, he, hm'', hn''] at h' ⊢
    rw [if_neg (not_lt.2 h')]
  · intro h
    simp [newSurface, baseInit, andThen, ifGiven, setProfile, setExtent, aspect, Geo.new, he, hm''] at h ⊢
    rw [if_pos h]

example := C123_profile_extent (K := ℚ) 2 3 (by norm_num) (by norm_num) 4 6 (by norm_num)

/-- C123: for exactly the same proportions the extent is the shape times the spacing. -/
theorem C123_proportions (n m : ℕ) (hn : 0 < n) (hm : 0 < m) (e0 e1 : K) (he : e1 ≠ 0) (hp : e0 * m = n * e1) :
    newSurface (some [n, m]) none none (some [e0, e1]) none =
      (⟨some (e0 / n), some [(n : K) * (e0 / n), (m : K) * (e0 / n)], some [(n : ℤ), m], some (n * m), some [(n : ℤ), m]⟩, none) := by
  have hn' : (n : K) ≠ 0 := by exact_mod_cast hn.ne'
  have hm' : (m : K) ≠ 0 := by exact_mod_cast hm.ne'
  have h0 : e0 / e1 - (n : K) / m = 0 := by
    rw [sub_eq_zero, div_eq_div_iff he hm']; linarith
  have := (C123_profile_extent n m hn hm e0 e1 he).1 (by rw [h0, abs_zero]; norm_num)
  rw [this]
  have e2 : (n : K) * (e0 / n) = e0 := by field_simp
  have e3 : (m : K) * (e0 / n) = e1 := by
    rw [← mul_div_assoc, mul_comm, hp]; field_simp
  rw [e2, e3]

example := C123_proportions (K := ℚ) 2 3 (by norm_num) (by norm_num) 4 6 (by norm_num) (by norm_num)

/-- C123: the tolerance is absolute: for long profiles an extent is accepted whose second length is far from the points times the spacing. -/
theorem C123_proportions_wrong (k : ℕ) (hk : 1 ≤ k) :
    newSurface (some [1, 20000 * k]) none none (some [(1 : K), 20000]) none =
      (⟨some 1, some [1, 20000], some [1, ((20000 * k : ℕ) : ℤ)], some ((20000 * k : ℕ) : ℤ), some [1, ((20000 * k : ℕ) : ℤ)]⟩, none) := by
  have h := (C123_profile_extent (K := K) 1 (20000 * k) one_pos (by omega) 1 20000 (by norm_num)).1 (by
    have hk' : (1 : K) ≤ k := by exact_mod_cast hk
    have h1 : (0 : K) < 20000 * k := by linarith
    have h2 : (0 : K) < 1 / (20000 * k) := by positivity
    have h3 : 1 / (20000 * (k : K)) ≤ 1 / 20000 := one_div_le_one_div_of_le (by norm_num) (by linarith)
    push_cast
    rw [abs_le]
    constructor <;> linarith)
  simpa using h

example := C123_proportions_wrong (K := ℚ) 2 (by norm_num)

/-- C123: the attributes after reading a file: without arguments those of the file; a given grid spacing replaces the one in the file. -/
theorem C123_file (c : Content K) (f : File K) (hf : f = .mat (.ok c) ∨ f = .al3d (.ok c) ∨ (f = .text (.ok c) ∧ c.gs = none)) (given : Option K) :
    ∃ g, newSurface none (some f) given none none =
      (⟨g, g.map fun g => c.shape.map fun n : ℕ => (n : K) * g, some (c.shape.map fun n : ℕ => (n : ℤ)), some (c.shape.map fun n : ℕ => (n : ℤ)).prod, some (c.shape.map fun n : ℕ => (n : ℤ))⟩, none) ∧
      g = match given with | some x => some x | none => c.gs := by
  obtain ⟨sh, cg⟩ := c
  refine ⟨_, ?_, rfl⟩
  rcases hf with rfl | rfl | ⟨rfl, h⟩
  · cases given <;> cases cg <;> simp [newSurface, readFile, setFound, baseInit, andThen, ifGiven, setProfile, setGs, Geo.new, Function.comp_def, mul_comm]
  · cases given <;> cases cg <;> simp [newSurface, readFile, setFound, baseInit, andThen, ifGiven, setProfile, setGs, Geo.new, Function.comp_def]
  · dsimp only at h
    subst h
    cases given <;> simp [newSurface, readFile, baseInit, andThen, ifGiven, setProfile, setGs, Geo.new, Function.comp_def]

example := C123_file (K := ℚ) ⟨[2, 3], none⟩ (.text (.ok ⟨[2, 3], none⟩)) (Or.inr (Or.inr ⟨rfl, rfl⟩)) (some 5)

/-- C123: an exception of the reader is passed on. -/
theorem C123_file_error (e : PyErr) (f : File K) (hf : f = .mat (.error e) ∨ f = .al3d (.error e) ∨ f = .text (.error e)) (given : Option K) :
    (newSurface none (some f) given none none).2 = some e := by
  rcases hf with rfl | rfl | rfl <;> cases given <;> simp [newSurface, readFile, andThen, ifGiven]

example := C123_file_error (K := ℚ) .valueError (.mat (.error .valueError)) (Or.inl rfl) none

/-- C123: without a profile, a grid spacing and a shape of whole numbers are both kept. -/
theorem C123_spacing_shape (g : K) (sh : List ℤ) :
    newSurface none none (some g) none (some (sh.map fun n : ℤ => (n : K))) =
      (⟨some g, some (sh.map fun n : ℤ => (n : K) * g), some sh, some sh.prod, none⟩, none) := by
  have ht : ∀ n : ℤ, trunc (n : K) = n := fun n => by unfold trunc; split <;> simp
  have hm : (sh.map fun n : ℤ => (n : K)).map trunc = sh := by
    rw [List.map_map]
    conv_rhs => rw [← List.map_id sh]
    exact List.map_congr_left fun n _ => ht n
  simp only [newSurface, baseInit, andThen, ifGiven, setGs, setShape, Geo.new, Option.isSome_none, Option.isSome_some, hm, Bool.or_self, Bool.and_false, Bool.false_and, Bool.false_eq_true, if_false, List.map_map]
  rfl

/-- C123: an extent and a shape give the spacing of the first direction; of the extent only the first length is kept. -/
theorem C123_extent_shape_partial (e0 e1 : K) (s0 s1 : ℤ) (h0 : s0 ≠ 0) :
    newSurface none none none (some [e0, e1]) (some [(s0 : K), (s1 : K)]) =
      (⟨some (e0 / s0), some [e0, (s1 : K) * (e0 / s0)], some [s0, s1], some (s0 * s1), none⟩, none) := by
  have ht : ∀ n : ℤ, trunc (n : K) = n := fun n => by unfold trunc; split <;> simp
  have h0' : (s0 : K) ≠ 0 := by exact_mod_cast h0
  have e2 : (s0 : K) * (e0 / s0) = e0 := by field_simp
  simp [newSurface, baseInit, andThen, ifGiven, setExtent, setShape, Geo.new, spacingFrom, ht, h0, e2]

example := C123_extent_shape_partial (K := ℚ) 4 6 2 3 (by norm_num)

/-- C123: a given grid spacing is not kept if an extent is given too: the new spacing is the first length divided by the whole number of points that fit, and it is the given one only if the first length is a multiple of it. -/
theorem C123_spacing_wrong (g e0 e1 : K) (hg : 0 < g) (he : g ≤ e0) :
    (newSurface none none (some g) (some [e0, e1]) none).2 = none ∧
    (newSurface none none (some g) (some [e0, e1]) none).1.gs = some (e0 / (⌊e0 / g⌋ : ℤ)) ∧
    (e0 / ((⌊e0 / g⌋ : ℤ) : K) = g ↔ ∃ n : ℕ, e0 = n * g) := by
  have h1 : 1 ≤ e0 / g := by rw [le_div_iff₀ hg]; linarith
  have hf : 1 ≤ ⌊e0 / g⌋ := Int.le_floor.2 (by exact_mod_cast h1)
  have hfK : (0 : K) < (⌊e0 / g⌋ : ℤ) := by exact_mod_cast (show (0 : ℤ) < ⌊e0 / g⌋ by omega)
  have ht : trunc (e0 / g) = ⌊e0 / g⌋ := by unfold trunc; rw [if_pos (by linarith)]
  have key : newSurface none none (some g) (some [e0, e1]) none = spacingFrom ⟨some g, some [e0, e1], some [⌊e0 / g⌋, trunc (e1 / g)], some [⌊e0 / g⌋, trunc (e1 / g)].prod, none⟩ [e0, e1] [⌊e0 / g⌋, trunc (e1 / g)] := by
    simp [newSurface, baseInit, andThen, ifGiven, setGs, setExtent, Geo.new, divide, ht, hg.ne']
    unfold spacingFrom
    dsimp only
    rw [if_neg (by omega)]
  have key2 : newSurface none none (some g) (some [e0, e1]) none = (⟨some (e0 / (⌊e0 / g⌋ : ℤ)), some ([⌊e0 / g⌋, trunc (e1 / g)].map fun n : ℤ => (n : K) * (e0 / (⌊e0 / g⌋ : ℤ))), some [⌊e0 / g⌋, trunc (e1 / g)], some [⌊e0 / g⌋, trunc (e1 / g)].prod, none⟩, none) := by
    rw [key]
    unfold spacingFrom
    dsimp only
    rw [if_neg (by omega)]
  refine ⟨by rw [key2], by rw [key2], ?_⟩
  rw [div_eq_iff hfK.ne']
  constructor
  · intro h
    refine ⟨⌊e0 / g⌋.toNat, ?_⟩
    have : ((⌊e0 / g⌋.toNat : ℤ)) = ⌊e0 / g⌋ := Int.toNat_of_nonneg (by omega)
    have h2 : ((⌊e0 / g⌋.toNat : ℕ) : K) = ((⌊e0 / g⌋ : ℤ) : K) := by exact_mod_cast congrArg (Int.cast : ℤ → K) this
    rw [h2, mul_comm]
    exact h
  · rintro ⟨n, hn⟩
    have : e0 / g = (n : K) := by rw [hn]; field_simp
    rw [this, Int.floor_natCast, hn]
    push_cast
    ring

/-- C123: an extent shorter than the grid spacing is a `ZeroDivisionError`. -/
theorem C123_short_wrong (g e0 e1 : K) (hg : 0 < g) (h0 : 0 ≤ e0) (he : e0 < g) :
    (newSurface none none (some g) (some [e0, e1]) none).2 = some .zeroDivisionError := by
  have hf : ⌊e0 / g⌋ = 0 := by
    rw [Int.floor_eq_zero_iff]
    exact ⟨div_nonneg h0 hg.le, (div_lt_one hg).2 he⟩
  have ht : trunc (e0 / g) = 0 := by unfold trunc; rw [if_pos (div_nonneg h0 hg.le), hf]
  simp [newSurface, baseInit, andThen, ifGiven, setGs, setExtent, Geo.new, divide, spacingFrom, ht, hg.ne']

example := C123_short_wrong (K := ℚ) 2 1 6 (by norm_num) (by norm_num) (by norm_num)

/-- C123: a surface made without profile and file has no profile but is marked as discrete. -/
theorem C123_discrete_wrong (gs : Option K) (extent shape : Option (List K)) : (newSurface none none gs extent shape).1.prof = none ∧ newIsDiscrete = true := by
  refine ⟨?_, rfl⟩
  have hE : ∀ (s : Geo K) v, s.prof = none → (setExtent s v).1.prof = none := by
    intro s v h
    unfold setExtent
    split
    · first | exact h | rfl
    · rw [h]
      dsimp only
      have hs : ∀ (s : Geo K) e sh, s.prof = none → (spacingFrom s e sh).1.prof = none := by
        intro s e sh h
        unfold spacingFrom
        split
        · first | exact h | rfl
        · first | exact h | rfl
        · split
          · first | exact h | rfl
          · first | exact h | rfl
      split
      · split
        · first | exact h | rfl
        · exact hs _ _ _ rfl
      · split
        · exact hs _ _ _ rfl
        · first | exact h | rfl
  have hS : ∀ (s : Geo K) v, s.prof = none → (setShape s v).1.prof = none := by
    intro s v h
    unfold setShape
    rw [h]
    dsimp only
    split
    · first | exact h | rfl
    · unfold spacingFrom
      split
      · first | exact h | rfl
      · first | exact h | rfl
      · split
        · first | exact h | rfl
        · first | exact h | rfl
    · first | exact h | rfl
  have hG : ∀ (s : Geo K) g, s.prof = none → (setGs s (.value g)).1.prof = none := by
    intro s g h
    unfold setGs
    dsimp only
    rw [h]
    dsimp only
    split
    · split
      · first | exact h | rfl
      · first | exact h | rfl
    · first | exact h | rfl
    · first | exact h | rfl
  have hA : ∀ (r : Out K) (f : Geo K → Out K), r.1.prof = none → (∀ s, s.prof = none → (f s).1.prof = none) → (andThen r f).1.prof = none := by
    intro r f h1 h2
    unfold andThen
    split
    · exact h1
    · exact h2 _ h1
  unfold newSurface
  apply hA
  · rfl
  · intro s hs
    apply hA
    · exact hs
    · intro s hs
      unfold baseInit
      split
      · exact hs
      · apply hA
        · apply hA
          · cases gs with
            | none => exact hs
            | some g => exact hG _ g hs
          · intro s hs
            cases extent with
            | none => exact hs
            | some v => exact hE _ v hs
        · intro s hs
          cases shape with
          | none => exact hs
          | some v => exact hS _ v hs

/-- C123: the keywords that the documentation of `read_surface` names are not accepted. -/
theorem C123_keywords_wrong (names : List String) (file : File K) (profile : Option (List ℕ)) (gs : Option K) (extent shape : Option (List K))
    (h : "delim" ∈ names ∨ "p_name" ∈ names ∨ "gs_name" ∈ names) : (readSurface names file profile gs extent shape).2 = some .typeError := by
  unfold readSurface
  rw [if_neg]
  intro hall
  rw [List.all_eq_true] at hall
  rcases h with h | h | h
  · have := of_decide_eq_true (hall _ h); revert this; decide +kernel
  · have := of_decide_eq_true (hall _ h); revert this; decide +kernel
  · have := of_decide_eq_true (hall _ h); revert this; decide +kernel

example := C123_keywords_wrong (K := ℚ) ["delim"] .other none none none none (by simp)

/-- C123: the name of the file cannot be given a second time as a keyword, nor can any keyword that is not an argument of the constructor. -/
theorem C123_unknown_keyword (names : List String) (file : File K) (profile : Option (List ℕ)) (gs : Option K) (extent shape : Option (List K))
    (h : ∃ n ∈ names, n ∉ ["profile", "grid_spacing", "shape", "extent", "mat_profile_name", "mat_grid_spacing_name", "csv_delimiter", "csv_dialect", "csv_sniffer_n_bytes"]) :
    readSurface names file profile gs extent shape = (Geo.new, some .typeError) := by
  obtain ⟨n, hn, hx⟩ := h
  unfold readSurface
  rw [if_neg]
  intro hall
  rw [List.all_eq_true] at hall
  have := of_decide_eq_true (hall _ hn)
  unfold argumentNames at this
  simp only [List.mem_cons, List.not_mem_nil, or_false] at this hx
  tauto

example : ∃ n ∈ ["file_name"], n ∉ ["profile", "grid_spacing", "shape", "extent", "mat_profile_name", "mat_grid_spacing_name", "csv_delimiter", "csv_dialect", "csv_sniffer_n_bytes"] := by decide +kernel

/-- C123: with names of arguments `read_surface` is the constructor. -/
theorem C123_read_surface (names : List String) (hn : ∀ n ∈ names, n ∈ ["grid_spacing", "extent", "mat_profile_name", "mat_grid_spacing_name", "csv_delimiter", "csv_dialect", "csv_sniffer_n_bytes"])
    (file : File K) (gs : Option K) (extent : Option (List K)) : readSurface names file none gs extent none = newSurface none (some file) gs extent none := by
  unfold readSurface
  rw [if_pos]
  rw [List.all_eq_true]
  intro n h
  have := hn n h
  apply decide_eq_true
  simp only [List.mem_cons, List.not_mem_nil, or_false] at this
  rcases this with rfl | rfl | rfl | rfl | rfl | rfl | rfl <;> decide +kernel

/-- Concrete cases. -/
example : (newSurface none none (some (3 / 10 : ℚ)) (some [1, 1]) none).1.gs = some (1 / 3) := by
  have h := (C123_spacing_wrong (3 / 10 : ℚ) 1 1 (by norm_num) (by norm_num)).2.1
  rw [h]
  norm_num [Int.floor_eq_iff]

example : ∃ (file : File ℚ) (gs : Option ℚ), (gs.isSome ∧ file = .al3d (.ok ⟨[2, 3], some 2⟩)) ∧ (newSurface none (some file) gs none none).1.gs = some 5 := ⟨_, some 5, ⟨rfl, rfl⟩, rfl⟩

example : |(2 : ℚ) / 3 - ((2 : ℕ) : ℚ) / (3 : ℕ)| ≤ 1 / 10000 ∧ (1 : ℚ) / 10000 < |(2 : ℚ) / 4 - ((2 : ℕ) : ℚ) / (3 : ℕ)| ∧ (1 : ℚ) * (4 : ℕ) = (2 : ℕ) * 2 := by norm_num

end Verif.SurfaceGeo
