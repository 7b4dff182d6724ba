import Mathlib.Tactic.Linarith
import Mathlib.Tactic.IntervalCases
import Verif.Show.Model

/-! # C132: plots of surfaces -/

namespace Verif.Show

open Verif Verif.Spectra

/-- Spectra that were found before are kept, all other attributes are the same. -/
structure Filled (s t : Surf) : Prop where
  raw : t.raw = s.raw
  invert : t.invert = s.invert
  gs : t.gs = s.gs
  shape : t.shape = s.shape
  extent : t.extent = s.extent
  unworn : t.unworn = s.unworn
  discrete : t.discrete = s.discrete
  fft : s.fft ≠ none → t.fft = s.fft
  psd : s.psd ≠ none → t.psd = s.psd
  acf : s.acf ≠ none → t.acf = s.acf

theorem Filled.refl (s : Surf) : Filled s s := ⟨rfl, rfl, rfl, rfl, rfl, rfl, rfl, fun _ => rfl, fun _ => rfl, fun _ => rfl⟩

theorem Filled.trans {s t u : Surf} (h : Filled s t) (k : Filled t u) : Filled s u :=
  ⟨k.raw.trans h.raw, k.invert.trans h.invert, k.gs.trans h.gs, k.shape.trans h.shape, k.extent.trans h.extent, k.unworn.trans h.unworn,
    k.discrete.trans h.discrete, fun e => (k.fft (by rw [h.fft e]; exact e)).trans (h.fft e), fun e => (k.psd (by rw [h.psd e]; exact e)).trans (h.psd e),
    fun e => (k.acf (by rw [h.acf e]; exact e)).trans (h.acf e)⟩

theorem getFft_filled (s : State) (h : s.fft = none) :
    ∃ f, (getFft s .none).2 = { s with fft := f } := by
  unfold getFft
  dsimp only
  split
  · exact ⟨s.fft, rfl⟩
  · exact ⟨s.fft, rfl⟩
  · split
    · exact ⟨s.fft, rfl⟩
    · exact ⟨_, rfl⟩

theorem getAcf_filled (s : State) : ∃ a, (getAcf s .none).2 = { s with acf := a } := by
  unfold getAcf
  dsimp only
  split
  · exact ⟨s.acf, rfl⟩
  · exact ⟨s.acf, rfl⟩
  · split
    · exact ⟨s.acf, rfl⟩
    · exact ⟨_, rfl⟩

theorem psdOf_filled (s : State) (a : Arr ℝ) : ∃ f, (psdOf s a).2 = { s with psd := f } := by
  unfold psdOf
  split
  · exact ⟨s.psd, rfl⟩
  · exact ⟨_, rfl⟩

theorem needFft_filled (s : Surf) : Filled s (needFft s).2 := by
  unfold needFft
  split
  · exact .refl s
  · rename_i h
    obtain ⟨f, hf⟩ := getFft_filled s.toState h
    split
    · rename_i hg
      rw [hg] at hf
      dsimp only at hf ⊢
      rw [hf]
      exact ⟨rfl, rfl, rfl, rfl, rfl, rfl, rfl, fun e => absurd h e, fun _ => rfl, fun _ => rfl⟩
    · rename_i hg
      rw [hg] at hf
      dsimp only at hf ⊢
      rw [hf]
      exact ⟨rfl, rfl, rfl, rfl, rfl, rfl, rfl, fun e => absurd h e, fun _ => rfl, fun _ => rfl⟩

theorem needAcf_filled (s : Surf) : Filled s (needAcf s).2 := by
  unfold needAcf
  split
  · exact .refl s
  · rename_i h
    obtain ⟨f, hf⟩ := getAcf_filled s.toState
    split
    · rename_i hg
      rw [hg] at hf
      dsimp only at hf ⊢
      rw [hf]
      exact ⟨rfl, rfl, rfl, rfl, rfl, rfl, rfl, fun _ => rfl, fun _ => rfl, fun e => absurd h e⟩
    · rename_i hg
      rw [hg] at hf
      dsimp only at hf ⊢
      rw [hf]
      exact ⟨rfl, rfl, rfl, rfl, rfl, rfl, rfl, fun _ => rfl, fun _ => rfl, fun e => absurd h e⟩

theorem getPsd_filled (s : State) : ∃ f a, (getPsd s).2 = { s with psd := f, acf := a } ∧ (s.acf ≠ none → a = s.acf) := by
  unfold getPsd
  split
  · rename_i a h
    obtain ⟨f, hf⟩ := psdOf_filled s a
    exact ⟨f, s.acf, hf, fun _ => rfl⟩
  · rename_i h
    obtain ⟨a, ha⟩ := getAcf_filled s
    split
    · rename_i hg
      rw [hg] at ha
      exact ⟨s.psd, a, ha, fun e => absurd h e⟩
    · rename_i hg
      rw [hg] at ha
      dsimp only at ha
      split
      · exact ⟨s.psd, a, ha, fun e => absurd h e⟩
      · rename_i t _ b _
        obtain ⟨f, hf⟩ := psdOf_filled t b
        rw [ha] at hf
        refine ⟨f, a, ?_, fun e => absurd h e⟩
        rw [ha]
        exact hf

theorem needPsd_filled (s : Surf) : Filled s (needPsd s).2 := by
  unfold needPsd
  split
  · exact .refl s
  · rename_i h
    obtain ⟨f, a, hf, ha⟩ := getPsd_filled s.toState
    split
    · rename_i hg
      rw [hg] at hf
      dsimp only at hf ⊢
      rw [hf]
      exact ⟨rfl, rfl, rfl, rfl, rfl, rfl, rfl, fun _ => rfl, fun e => absurd h e, ha⟩
    · rename_i hg
      rw [hg] at hf
      dsimp only at hf ⊢
      rw [hf]
      exact ⟨rfl, rfl, rfl, rfl, rfl, rfl, rfl, fun _ => rfl, fun e => absurd h e, ha⟩

theorem plot_filled (draw : Draw) (q : Property) (kind : String) (p : Arr ℝ) (g : ℝ) (n m : ℕ) (s : Surf) : Filled s (plot draw q kind p g n m s).2 := by
  cases q with
  | profile | unworn | histogram | hist | qq => exact .refl s
  | fft1d =>
    unfold plot
    dsimp only
    split
    · exact .refl s
    · exact .refl s
  | fft2d | apsd =>
    have h := needFft_filled s
    unfold plot
    dsimp only
    split
    · rename_i hg
      rw [hg] at h
      exact h
    · rename_i hg
      rw [hg] at h
      dsimp only at h
      split
      · exact h
      · first
        | exact h
        | (split
           · exact h
           · exact h)
  | psd =>
    have h := needPsd_filled s
    unfold plot
    dsimp only
    split
    · rename_i hg
      rw [hg] at h
      exact h
    · rename_i hg
      rw [hg] at h
      dsimp only at h
      split
      · exact h
      · exact h
  | acf =>
    have h := needAcf_filled s
    unfold plot
    dsimp only
    split
    · rename_i hg
      rw [hg] at h
      exact h
    · rename_i hg
      rw [hg] at h
      dsimp only at h
      split
      · exact h
      · split
        · exact h
        · exact h

theorem single_filled (draw : Draw) (item : Item) (kind : String) (s : Surf) : Filled s (single draw item kind s).2 := by
  unfold single
  split
  · exact .refl s
  · exact .refl s
  · split
    · exact .refl s
    · split
      · exact .refl s
      · split
        · exact .refl s
        · split
          · exact .refl s
          · exact plot_filled ..

theorem loop_filled {show_ : Item → String → Surf → Out} (h : ∀ item kind s, Filled s (show_ item kind s).2) (kinds : Kinds) (number : ℕ) (items : List Item) :
    ∀ (i : ℕ) (s : Surf), Filled s (loop show_ kinds number i items s).2 := by
  induction items with
  | nil => exact fun _ s => .refl s
  | cons item rest ih =>
    intro i s
    unfold loop
    cases item with
    | other => exact .refl s
    | text name =>
      dsimp only
      split
      · exact .refl s
      · have h1 := h (.text name) (kinds.get i) s
        split
        · rename_i hg
          rw [hg] at h1
          exact h1
        · rename_i d t hg
          rw [hg] at h1
          dsimp only at h1
          have h2 := ih (i + 1) t
          split
          · rename_i hk
            rw [hk] at h2
            exact h1.trans h2
          · rename_i hk
            rw [hk] at h2
            exact h1.trans h2

/-- **C132**, surfaces with a profile: showing them, with or without success, only finds spectra that were missing. -/
theorem C132_filled (draw : Draw) (r : Request) (s : Surf) : Filled s (showSurface draw r s).2 := by
  cases r with
  | one item kind => exact single_filled ..
  | many items kinds =>
    unfold showSurface base
    dsimp only
    split
    · exact .refl s
    · exact .refl s
    · split
      · exact .refl s
      · exact loop_filled (single_filled draw) ..

/-- A surface of 4 by 4 points with profile, grid spacing and shape. -/
noncomputable def flat : Surf := ⟨⟨some ⟨4, 4, fun _ _ => 1⟩, false, some 1, none, none, none⟩, some (4, 4), some (4, 4), none, true⟩

example : (showSurface (fun _ => .ok ()) (.one (.text "acf") "default") flat).2.acf ≠ none ∧ flat.acf = none := by
  refine ⟨?_, rfl⟩
  have h : Property.parse ("acf".toLower) = some .acf := by decide +kernel
  unfold showSurface base single
  simp only [flat, State.profile]
  rw [h]
  have hm : makeAcf ⟨4, 4, fun _ _ => 1⟩ (some 1) = .ok ⟨4, 4, Acf.original 4 4 fun _ _ => 1⟩ := by
    unfold makeAcf
    dsimp only
    rw [if_neg (by norm_num)]
  simp [plot, needAcf, getAcf, State.profile, hm, emptyAxis]

/-- The sizes of an analytical surface are either both unknown or both known (`Verif.SurfaceGeo`). -/
def Settled (s : Surf) : Prop := s.raw = none ∧ (s.gs = none ↔ s.shape = none)

theorem prepare_cases {height : ℝ → ℝ → ℝ} {nPts : ℕ} {s t : Surf} {b : Bool} (hs : s.gs = none ↔ s.shape = none) (h : prepare height nPts s = .ok (t, b)) :
    t.discrete = s.discrete ∧ t.fft = s.fft ∧ t.psd = s.psd ∧ t.acf = s.acf ∧ t.invert = s.invert ∧ t.extent = s.extent ∧ t.unworn = s.unworn ∧
    t.gs ≠ none ∧ t.shape ≠ none ∧ (b = true → s.gs = none ∧ s.shape = none) ∧ (b = false → t.gs = s.gs ∧ t.shape = s.shape) := by
  unfold prepare at h
  split at h
  · cases h
  · rename_i h1 h2 h3
    cases h
    exact ⟨rfl, rfl, rfl, rfl, rfl, rfl, rfl, by rw [h1]; simp, by rw [h2]; simp, by simp, fun _ => ⟨rfl, rfl⟩⟩
  · cases h
  · rename_i he hno
    have hn : s.gs = none := by
      cases hg : s.gs with
      | none => rfl
      | some g =>
        cases hsh : s.shape with
        | none => rw [hs.mpr hsh] at hg; cases hg
        | some nm => exact (hno g nm.1 nm.2 hg hsh).elim
    split at h
    · cases h
    · dsimp only at h
      split at h
      · cases h
      · split at h
        · cases h
        · cases h
          exact ⟨rfl, rfl, rfl, rfl, rfl, rfl, rfl, by simp, by simp, fun _ => ⟨hn, hs.mp hn⟩, by simp⟩

/-- The surface after a call of the base class on the surface with temporary profile is the surface before. -/
theorem restore_eq {height : ℝ → ℝ → ℝ} {nPts : ℕ} {s t u : Surf} {b : Bool} (hs : Settled s) (h : prepare height nPts s = .ok (t, b))
    (hu : u.discrete = t.discrete ∧ u.invert = t.invert ∧ u.extent = t.extent ∧ u.unworn = t.unworn ∧ u.gs = t.gs ∧ u.shape = t.shape) :
    restore s b u = s := by
  obtain ⟨h1, h2, h3, h4, h5, h6, h7, -, -, h8, h9⟩ := prepare_cases hs.2 h
  obtain ⟨hr, -⟩ := hs
  obtain ⟨u1, u2, u3, u4, u5, u6⟩ := hu
  obtain ⟨⟨_, _, _, _, _, _⟩, _, _, _, _⟩ := s
  obtain ⟨⟨_, _, _, _, _, _⟩, _, _, _, _⟩ := u
  dsimp only at *
  unfold restore
  cases b with
  | true =>
    obtain ⟨k1, k2⟩ := h8 rfl
    subst_vars
    simp_all
  | false =>
    obtain ⟨k1, k2⟩ := h9 rfl
    simp_all

theorem around_restores {inner : Surf → Out} {height : ℝ → ℝ → ℝ} {nPts : ℕ} {s : Surf} (hd : s.discrete = false) (hs : Settled s)
    (h : ∀ t b, prepare height nPts s = .ok (t, b) → ((inner t).2.discrete = t.discrete ∧ (inner t).2.invert = t.invert ∧ (inner t).2.extent = t.extent ∧
      (inner t).2.unworn = t.unworn ∧ (inner t).2.gs = t.gs ∧ (inner t).2.shape = t.shape)) :
    (around inner height nPts s).2 = s := by
  unfold around
  rw [hd, if_neg (by simp)]
  split
  · rfl
  · rename_i t b hp
    exact restore_eq hs hp (h t b hp)

/-- What a call on a surface with known sizes leaves as it is. -/
structure Keeps (s t : Surf) : Prop where
  discrete : t.discrete = s.discrete
  invert : t.invert = s.invert
  extent : t.extent = s.extent
  unworn : t.unworn = s.unworn
  gs : t.gs = s.gs
  shape : t.shape = s.shape

theorem Keeps.refl (s : Surf) : Keeps s s := ⟨rfl, rfl, rfl, rfl, rfl, rfl⟩

theorem Keeps.trans {s t u : Surf} (h : Keeps s t) (k : Keeps t u) : Keeps s u :=
  ⟨k.1.trans h.1, k.2.trans h.2, k.3.trans h.3, k.4.trans h.4, k.5.trans h.5, k.6.trans h.6⟩

theorem Filled.keeps {s t : Surf} (h : Filled s t) : Keeps s t := ⟨h.discrete, h.invert, h.extent, h.unworn, h.gs, h.shape⟩

/-- The inner calls of the loop over several plots, on the surface with the temporary sizes. -/
theorem one_keeps (draw : Draw) (height : ℝ → ℝ → ℝ) (nPts : ℕ) (item : Item) (kind : String) (s : Surf) (hg : s.gs ≠ none) (hsh : s.shape ≠ none) :
    Keeps s (analyticOne draw height nPts item kind s).2 := by
  unfold analyticOne around
  split
  · exact (single_filled ..).keeps
  · split
    · exact .refl s
    · rename_i t b hp
      obtain ⟨h1, -, -, -, h5, h6, h7, -, -, h8, h9⟩ := prepare_cases (by simp [hg, hsh]) hp
      cases b with
      | true => exact absurd (h8 rfl).1 hg
      | false =>
        have h := (single_filled draw item kind t).keeps
        exact ⟨h.discrete.trans h1, h.invert.trans h5, h.extent.trans h6, h.unworn.trans h7, h.gs.trans (h9 rfl).1, h.shape.trans (h9 rfl).2⟩

theorem loop_keeps {show_ : Item → String → Surf → Out} (h : ∀ item kind s, s.gs ≠ none → s.shape ≠ none → Keeps s (show_ item kind s).2) (kinds : Kinds)
    (number : ℕ) (items : List Item) : ∀ (i : ℕ) (s : Surf), s.gs ≠ none → s.shape ≠ none → Keeps s (loop show_ kinds number i items s).2 := by
  induction items with
  | nil => exact fun _ s _ _ => .refl s
  | cons item rest ih =>
    intro i s hg hsh
    unfold loop
    cases item with
    | other => exact .refl s
    | text name =>
      dsimp only
      split
      · exact .refl s
      · have h1 := h (.text name) (kinds.get i) s hg hsh
        split
        · rename_i hk
          rw [hk] at h1
          exact h1
        · rename_i d t hk
          rw [hk] at h1
          dsimp only at h1
          have h2 := ih (i + 1) t (by rw [h1.gs]; exact hg) (by rw [h1.shape]; exact hsh)
          split
          · rename_i hk
            rw [hk] at h2
            exact h1.trans h2
          · rename_i hk
            rw [hk] at h2
            exact h1.trans h2

/-- **C132**, analytical surfaces: showing a surface that was not made discrete, one property or several, with or without success, leaves it as it was,
whether or not its grid spacing is known. -/
theorem C132_restored (draw : Draw) (height : ℝ → ℝ → ℝ) (nPts : ℕ) (r : Request) (s : Surf) (hd : s.discrete = false) (hs : Settled s) :
    (showAnalytic draw height nPts r s).2 = s := by
  refine around_restores hd hs ?_
  intro t b hp
  obtain ⟨-, -, -, -, -, -, -, hg, hsh, -, -⟩ := prepare_cases hs.2 hp
  suffices h : Keeps t (base draw (analyticOne draw height 100) r t).2 from ⟨h.1, h.2, h.3, h.4, h.5, h.6⟩
  cases r with
  | one item kind => exact (single_filled ..).keeps
  | many items kinds =>
    unfold base
    dsimp only
    split
    · exact .refl t
    · exact .refl t
    · split
      · exact .refl t
      · exact loop_keeps (fun item kind s h1 h2 => one_keeps draw height 100 item kind s h1 h2) _ _ _ _ _ hg hsh

/-- An analytical surface of which only the extent is known. -/
noncomputable def ball : Surf := ⟨⟨none, false, none, none, none, none⟩, none, some (2, 1), none, false⟩

example : ball.discrete = false ∧ Settled ball ∧ ∃ t, prepare (fun x y => x * y) 100 ball = .ok (t, true) ∧ t.shape = some (200, 100) := by
  refine ⟨rfl, ⟨rfl, by simp [ball]⟩, { ball with raw := some (sample (fun x y => x * y) (1 / 100) 200 100), shape := some (200, 100), gs := some (1 / 100) }, ?_, rfl⟩
  have hmin : min (2 : ℝ) 1 / (100 : ℕ) = 1 / 100 := by norm_num
  have h1 : SurfaceGeo.trunc ((2 : ℝ) / (1 / 100)) = 200 := by norm_num [SurfaceGeo.trunc]
  have h2 : SurfaceGeo.trunc ((1 : ℝ) / (1 / 100)) = 100 := by norm_num [SurfaceGeo.trunc]
  unfold prepare
  dsimp only [ball]
  rw [hmin, h1, h2, if_neg (by norm_num), if_neg (by norm_num), if_neg (by norm_num)]
  rfl

/-- **C132 (negation)**: a profile that was assigned to an analytical surface is lost when the surface is shown. -/
theorem C132_assigned_wrong (draw : Draw) (height : ℝ → ℝ → ℝ) (nPts : ℕ) (r : Request) (s : Surf) {p : Arr ℝ} (hd : s.discrete = false) (hr : s.raw = some p)
    (hg : s.gs ≠ none) (hsh : s.shape ≠ none) (he : s.extent ≠ none) : (showAnalytic draw height nPts r s).2.raw = none := by
  obtain ⟨g, hg⟩ := Option.ne_none_iff_exists'.mp hg
  obtain ⟨nm, hsh⟩ := Option.ne_none_iff_exists'.mp hsh
  obtain ⟨e, he⟩ := Option.ne_none_iff_exists'.mp he
  unfold showAnalytic around prepare
  rw [hd, hg, hsh, he]
  rfl

example : ∃ s : Surf, s.discrete = false ∧ (∃ p, s.raw = some p ∧ p.val 0 0 = 1) ∧ s.gs ≠ none ∧ s.shape ≠ none ∧ s.extent ≠ none :=
  ⟨{ flat with discrete := false }, rfl, ⟨_, rfl, rfl⟩, by simp [flat], by simp [flat], by simp [flat]⟩

/-- **C132 (negation)**: the one dimensional transform is not shown unless the transform was found before. -/
theorem C132_fft1d_wrong (draw : Draw) (kind name : String) (hname : name.toLower = "fft1d") (s : Surf) (hf : s.fft = none) {d : List Drawing} :
    (showSurface draw (.one (.text name) kind) s).1 ≠ .ok d := by
  have h : Property.parse name.toLower = some .fft1d := by rw [hname]; decide +kernel
  unfold showSurface base single
  dsimp only
  split
  · simp
  · simp
  · split
    · simp
    · rw [h]
      dsimp only
      split
      · simp
      · unfold plot
        rw [hf]
        simp

example := C132_fft1d_wrong (fun _ => .ok ()) "image" "FFT1D" (by decide +kernel) flat rfl (d := [])

/-- The error, for a surface with everything that is needed. -/
theorem C132_fft1d_error_wrong (draw : Draw) (kind : String) : (showSurface draw (.one (.text "fft1d") kind) flat).1 = .error (.py .typeError) := by
  have h : Property.parse "fft1d".toLower = some .fft1d := by decide +kernel
  unfold showSurface base single
  simp only [flat, State.profile]
  rw [h]
  rfl

/-- **C132 (negation)**: the angular power spectral density is never shown as a surface or mesh. -/
theorem C132_apsd_wrong (draw : Draw) {kind name : String} (hk : kind = "surface" ∨ kind = "mesh") (hname : name.toLower = "apsd") (s : Surf) {d : List Drawing} :
    (showSurface draw (.one (.text name) kind) s).1 ≠ .ok d := by
  have h : Property.parse name.toLower = some .apsd := by rw [hname]; decide +kernel
  have key : ∀ n m x y log z, plane draw kind false false n m x y log z ≠ .ok d := by
    intro n m x y log z
    unfold plane
    rcases hk with rfl | rfl
    · rw [if_pos rfl]
      dsimp only
      split <;> simp
    · rw [if_neg (by decide), if_pos rfl]
      dsimp only
      split <;> simp
  unfold showSurface base single
  dsimp only
  split
  · simp
  · simp
  · split
    · simp
    · rw [h]
      dsimp only
      split
      · simp
      · unfold plot
        dsimp only
        split
        · simp
        · split
          · simp
          · split
            · simp
            · exact key _ _ _ _ _ _

example : "APSD".toLower = "apsd" := by decide +kernel

/-- **C132 (negation)**: kinds of plots that do not exist are accepted, nothing is drawn. -/
theorem C132_kind_wrong (draw : Draw) {kind : String} (h1 : kind ≠ "surface") (h2 : kind ≠ "mesh") (h3 : kind ≠ "default") (h4 : kind ≠ "image") :
    showSurface draw (.one (.text "profile") kind) flat = (.ok [], flat) := by
  have h : Property.parse "profile".toLower = some .profile := by decide +kernel
  unfold showSurface base single
  simp only [flat, State.profile]
  rw [h]
  simp [plot, plane, h1, h2, h3, h4]

example : "Image" ≠ "surface" ∧ "Image" ≠ "mesh" ∧ "Image" ≠ "default" ∧ "Image" ≠ "image" := by decide

/-- The position of a plot in the grid of plots is one digit. -/
theorem subplot_bad {count : ℕ} (h : 10 ≤ count) : addSubplot (subplotNumber count + 9) = .error (.py .valueError) := by
  unfold addSubplot subplotNumber
  rw [if_neg (by omega : ¬ count < 5)]
  generalize hk : (count + 2) / 3 = k
  split
  · rfl
  · rw [if_neg]
    omega

theorem loop_stops (show_ : Item → String → Surf → Out) (kinds : Kinds) {number : ℕ} (hbad : addSubplot (number + 9) = .error (.py .valueError)) {d : List Drawing}
    (items : List Item) : ∀ (i : ℕ) (s : Surf), i ≤ 9 → 10 ≤ i + items.length → (loop show_ kinds number i items s).1 ≠ .ok d := by
  induction items generalizing d with
  | nil => intro i s h1 h2; simp at h2; omega
  | cons item rest ih =>
    intro i s h1 h2
    unfold loop
    cases item with
    | other => simp
    | text name =>
      dsimp only
      split
      · simp
      · rename_i hok
        split
        · simp
        · rename_i d' t hk
          have hi : i ≠ 9 := by
            rintro rfl
            rw [hbad] at hok
            cases hok
          have h3 := fun ds => ih (d := ds) (i + 1) t (by omega) (by simp only [List.length_cons] at h2; omega)
          split
          · simp
          · rename_i ds u hl
            have := h3 ds
            rw [hl] at this
            exact absurd rfl this

/-- **C132 (negation)**: ten or more plots are never shown together. -/
theorem C132_ten_wrong (draw : Draw) (items : List Item) (kinds : Kinds) (h : 10 ≤ items.length) (s : Surf) {d : List Drawing} :
    (showSurface draw (.many items kinds) s).1 ≠ .ok d := by
  unfold showSurface base
  dsimp only
  split
  · simp
  · simp
  · split
    · simp
    · exact loop_stops _ _ (subplot_bad h) _ _ _ (by omega) (by omega)

example : 10 ≤ (List.replicate 10 (Item.text "profile")).length := by decide

/-- The kind of plot number `i`: the one given for all, or that in its place of the list, or the default if the list is too short. -/
def kindAt : Kinds → ℕ → String
  | .one k, _ => k
  | .many l, i => if h : i < l.length then l[i] else "default"

theorem kindAt_eq (kinds : Kinds) (i : ℕ) : kinds.get i = kindAt kinds i := by
  cases kinds with
  | one k => rfl
  | many l =>
    show l.getD i "default" = if h : i < l.length then l[i] else "default"
    split
    · rename_i h
      simp [List.getD, h]
    · rename_i h
      simp [List.getD, Nat.not_lt.1 h]

/-- The plots one after another. -/
noncomputable def inOrder (draw : Draw) (kinds : Kinds) : ℕ → List Item → Surf → Out
  | _, [], s => (.ok [], s)
  | i, item :: rest, s => match single draw item (kindAt kinds i) s with
    | (.error e, t) => (.error e, t)
    | (.ok d, t) => match inOrder draw kinds (i + 1) rest t with
      | (.error e, u) => (.error e, u)
      | (.ok ds, u) => (.ok (d ++ ds), u)

theorem loop_inOrder (draw : Draw) (kinds : Kinds) {number : ℕ} {count : ℕ} (hok : ∀ i < count, addSubplot (number + i) = .ok ()) (items : List Item)
    (ht : ∀ item ∈ items, ∃ name, item = .text name) : ∀ (i : ℕ) (s : Surf), i + items.length ≤ count →
    loop (single draw) kinds number i items s = inOrder draw kinds i items s := by
  induction items with
  | nil => exact fun _ _ _ => rfl
  | cons item rest ih =>
    intro i s h
    obtain ⟨name, rfl⟩ := ht item List.mem_cons_self
    simp only [List.length_cons] at h
    unfold loop inOrder
    dsimp only
    rw [hok i (by omega), kindAt_eq]
    dsimp only
    cases hk : single draw (.text name) (kindAt kinds i) s with
    | mk o t =>
      cases o with
      | error e => rfl
      | ok d =>
        dsimp only
        rw [ih (fun item h => ht item (List.mem_cons_of_mem _ h)) (i + 1) t (by omega)]
        cases inOrder draw kinds (i + 1) rest t with
        | mk o' u => cases o' <;> rfl

/-- **C132**, several plots: up to nine names are shown as if asked for one after another. -/
theorem C132_several_partial (draw : Draw) (items : List Item) (kinds : Kinds) (hl : items.length ≤ 9) (ht : ∀ item ∈ items, ∃ name, item = .text name) (s : Surf)
    {p : Arr ℝ} (hp : s.profile = .ok (some p)) {g : ℝ} (hg : s.gs = some g) :
    showSurface draw (.many items kinds) s = inOrder draw kinds 0 items s := by
  unfold showSurface base
  dsimp only
  rw [hp]
  dsimp only
  rw [hg]
  dsimp only
  refine loop_inOrder draw kinds (count := items.length) ?_ items ht 0 s (by omega)
  generalize items.length = n at hl
  have : ∀ n ≤ 9, ∀ i < n, addSubplot (subplotNumber n + i) = .ok () := by decide +kernel
  exact this n hl

example : flat.profile = .ok (some ⟨4, 4, fun _ _ => 1⟩) ∧ flat.gs = some 1 := ⟨rfl, rfl⟩

/-! ## Positions of the frequencies -/

theorem shifted_lt {n i : ℕ} (hn : 0 < n) : shifted n i < n := Nat.mod_lt _ hn

/-- The frequencies in the order of the transform: multiples of `1 / (n g)`, from `-n/2` to below `n/2`. -/
theorem fftfreq_spec {n : ℕ} (g : ℝ) {k : ℕ} (hk : k < n) : ∃ c : ℤ, fftfreq n g k = c / (n * g) ∧ -(n : ℤ) ≤ 2 * c ∧ 2 * c < n ∧ (c = k ∨ c = k - n) := by
  unfold fftfreq
  split
  · exact ⟨k, by push_cast; rfl, by omega, by omega, .inl rfl⟩
  · exact ⟨k - n, by push_cast; rfl, by omega, by omega, .inr rfl⟩

theorem fftfreq_shifted {n : ℕ} (g : ℝ) {i : ℕ} (hi : i < n) : fftfreq n g (shifted n i) = ((i : ℤ) - (n / 2 : ℕ) : ℤ) / (n * g) ∧
    ((shifted n i : ℤ) = (i : ℤ) - (n / 2 : ℕ) ∨ (shifted n i : ℤ) = (i : ℤ) - (n / 2 : ℕ) + n) := by
  have hs : shifted n i = if i < n / 2 then i + (n - n / 2) else i - n / 2 := by
    unfold shifted
    split
    · exact Nat.mod_eq_of_lt (by omega)
    · rw [show i + (n - n / 2) = i - n / 2 + n by omega, Nat.add_mod_right]
      exact Nat.mod_eq_of_lt (by omega)
  obtain ⟨c, h1, h2, h3, h4⟩ := fftfreq_spec g (shifted_lt (n := n) (i := i) (by omega))
  rw [h1]
  have hc : c = (i : ℤ) - (n / 2 : ℕ) := by
    rw [hs] at h4
    split_ifs at h4 <;> omega
  refine ⟨by rw [hc], ?_⟩
  rw [hs]
  split <;> omega

/-- **C132 (partial)**: in a mesh of the transform each height stands over its frequency, and the frequencies are in increasing order around zero. Missing: surfaces (next theorem). -/
theorem C132_mesh_partial (draw : Draw) {s : Surf} {p : Arr ℝ} {g : ℝ} {n m : ℕ} {f : Arr ℂ} (hp : s.profile = .ok (some p)) (hg : s.gs = some g)
    (hsh : s.shape = some (n, m)) (hf : s.fft = some f) {d : Drawing}
    (h : (showSurface draw (.one (.text "fft2d") "mesh") s).1 = .ok [d]) :
    ∃ x y z, d = .wires n m x y false (some z) ∧ ∀ i < n, ∀ j < m, ∃ a b : ℤ, a = i - (n / 2 : ℕ) ∧ b = j - (m / 2 : ℕ) ∧ x i = a / (n * g) ∧ y j = b / (m * g) ∧
      ∃ k < n, ∃ l < m, ((k : ℤ) = a ∨ (k : ℤ) = a + n) ∧ ((l : ℤ) = b ∨ (l : ℤ) = b + m) ∧ z i j = ‖f.val k l‖ := by
  have hq : Property.parse "fft2d".toLower = some .fft2d := by decide +kernel
  unfold showSurface base single at h
  dsimp only at h
  rw [hp] at h
  dsimp only at h
  rw [hg] at h
  dsimp only at h
  rw [hq] at h
  dsimp only at h
  rw [hsh] at h
  dsimp only at h
  unfold plot at h
  have hneed : needFft s = (.ok (), s) := by unfold needFft; rw [hf]
  dsimp only at h
  rw [hneed] at h
  dsimp only at h
  rw [hf] at h
  dsimp only at h
  unfold plane at h
  rw [if_neg (by decide), if_pos rfl] at h
  dsimp only at h
  split at h
  · cases h
  · rw [if_pos rfl] at h
    cases h
    refine ⟨_, _, _, rfl, fun i hi j hj => ⟨_, _, rfl, rfl, (fftfreq_shifted g hi).1, (fftfreq_shifted g hj).1, shifted n i, shifted_lt (by omega), shifted m j, shifted_lt (by omega), ?_, ?_, rfl⟩⟩
    · exact (fftfreq_shifted g hi).2
    · exact (fftfreq_shifted g hj).2

/-- **C132 (negation)**: in a surface of the transform the height over the frequency zero is that of the highest frequency: it stands over its frequency
only if these are equal. -/
theorem C132_surface_wrong (draw : Draw) {s : Surf} {p : Arr ℝ} {g : ℝ} {n m : ℕ} {f : Arr ℂ} (hp : s.profile = .ok (some p)) (hg : s.gs = some g)
    (hsh : s.shape = some (n, m)) (hf : s.fft = some f) (hn : 2 ≤ n) (hm : 2 ≤ m) {d : Drawing}
    (h : (showSurface draw (.one (.text "fft2d") "surface") s).1 = .ok [d]) :
    ∃ x y z, d = .surface n m x y false (some z) ∧ (∀ i, 2 * i < n → x i = i / (n * g)) ∧ (∀ j, 2 * j < m → y j = j / (m * g)) ∧
      z 0 0 = ‖f.val (n - n / 2) (m - m / 2)‖ := by
  have hq : Property.parse "fft2d".toLower = some .fft2d := by decide +kernel
  unfold showSurface base single at h
  dsimp only at h
  rw [hp] at h
  dsimp only at h
  rw [hg] at h
  dsimp only at h
  rw [hq] at h
  dsimp only at h
  rw [hsh] at h
  dsimp only at h
  unfold plot at h
  have hneed : needFft s = (.ok (), s) := by unfold needFft; rw [hf]
  dsimp only at h
  rw [hneed] at h
  dsimp only at h
  rw [hf] at h
  dsimp only at h
  unfold plane at h
  rw [if_pos rfl] at h
  dsimp only at h
  split at h
  · cases h
  · rw [if_pos rfl] at h
    cases h
    refine ⟨_, _, _, rfl, ?_, ?_, ?_⟩
    · intro i hi
      unfold fftfreq
      rw [if_pos hi]
    · intro j hj
      unfold fftfreq
      rw [if_pos hj]
    · have h1 : shifted n 0 = n - n / 2 := by
        unfold shifted
        rw [zero_add]
        exact Nat.mod_eq_of_lt (by omega)
      have h2 : shifted m 0 = m - m / 2 := by
        unfold shifted
        rw [zero_add]
        exact Nat.mod_eq_of_lt (by omega)
      rw [h1, h2]

/-- Two by two points of height 1 with their transform: the height over the frequency zero is 0 instead of 4. -/
noncomputable def two : Surf :=
  ⟨⟨some ⟨2, 2, fun _ _ => 1⟩, false, some 1, none, none, some ⟨2, 2, fun k l => if k = 0 ∧ l = 0 then 4 else 0⟩⟩, some (2, 2), some (2, 2), none, true⟩

/-- The hypotheses of `C132_mesh_partial` too. -/
example : two.profile = .ok (some ⟨2, 2, fun _ _ => 1⟩) ∧ (∃ f, two.fft = some f ∧ ‖f.val (2 - 2 / 2) (2 - 2 / 2)‖ ≠ ‖f.val 0 0‖) ∧
    (∃ d, (showSurface (fun _ => .ok ()) (.one (.text "fft2d") "surface") two).1 = .ok [d]) ∧
    ∃ d, (showSurface (fun _ => .ok ()) (.one (.text "fft2d") "mesh") two).1 = .ok [d] := by
  have hq : Property.parse "fft2d".toLower = some .fft2d := by decide +kernel
  refine ⟨rfl, ⟨_, rfl, by simp⟩, ?_, ?_⟩
  · unfold showSurface base single
    simp only [two, State.profile]
    rw [hq]
    exact ⟨_, rfl⟩
  · unfold showSurface base single
    simp only [two, State.profile]
    rw [hq]
    exact ⟨_, rfl⟩

/-! ## The other data -/

/-- A plot of kind `kind` of values over the points of a plane. -/
def Shows (kind : String) (d : Drawing) (n m : ℕ) (x y : ℕ → ℝ) (log : Bool) (z : Option (ℕ → ℕ → ℂ)) : Prop :=
  (kind = "surface" ∧ d = .surface n m x y log z) ∨ (kind = "mesh" ∧ d = .wires n m x y log z) ∨ ((kind = "default" ∨ kind = "image") ∧ d = .image n m x y log z)

theorem plane_shows {draw : Draw} {kind : String} {label : Bool} {n m : ℕ} {x y : ℕ → ℝ} {log : Bool} {z : Option (ℕ → ℕ → ℂ)} {d : Drawing}
    (h : plane draw kind false label n m x y log z = .ok [d]) : Shows kind d n m x y log z := by
  unfold plane at h
  dsimp only at h
  by_cases h1 : kind = "surface"
  · rw [if_pos h1] at h
    split at h
    · cases h
    · split at h <;> cases h
      exact .inl ⟨h1, rfl⟩
  · rw [if_neg h1] at h
    by_cases h2 : kind = "mesh"
    · rw [if_pos h2] at h
      split at h
      · cases h
      · split at h <;> cases h
        exact .inr (.inl ⟨h2, by simp⟩)
    · rw [if_neg h2] at h
      split at h
      · rename_i h3
        split at h <;> cases h
        exact .inr (.inr ⟨h3, rfl⟩)
      · cases h

/-- The call for one property of a surface with everything needed. -/
theorem one_plot (draw : Draw) {s : Surf} {p : Arr ℝ} {g : ℝ} {n m : ℕ} {name kind : String} {q : Property} (hq : Property.parse name.toLower = some q) (hp : s.profile = .ok (some p))
    (hg : s.gs = some g) (hsh : s.shape = some (n, m)) : showSurface draw (.one (.text name) kind) s = plot draw q kind p g n m s := by
  unfold showSurface base single
  dsimp only
  rw [hp]
  dsimp only
  rw [hg]
  dsimp only
  rw [hq]
  dsimp only
  rw [hsh]

/-- **C132**, heights: a plot of the profile shows each height over its point, one of the unworn profile those before wear. -/
theorem C132_profile (draw : Draw) {s : Surf} {p : Arr ℝ} {g : ℝ} {n m : ℕ} (hp : s.profile = .ok (some p)) (hg : s.gs = some g) (hsh : s.shape = some (n, m)) {kind : String} {d : Drawing} :
    ((showSurface draw (.one (.text "profile") kind) s).1 = .ok [d] → Shows kind d n m (fun i => g * i) (fun j => g * j) false (some fun i j => p.val i j)) ∧
    ∀ u, s.unworn = some u → (showSurface draw (.one (.text "unworn_profile") kind) s).1 = .ok [d] →
      Shows kind d n m (fun i => g * i) (fun j => g * j) false (some fun i j => u.val i j) := by
  constructor
  · intro h
    rw [one_plot draw (q := .profile) (by decide +kernel) hp hg hsh] at h
    exact plane_shows h
  · intro u hu h
    rw [one_plot draw (q := .unworn) (by decide +kernel) hp hg hsh] at h
    unfold plot at h
    dsimp only at h
    rw [hu] at h
    exact plane_shows h

/-- **C132**, analytical surfaces: where the grid is known the plot of the profile shows, over each point of the grid, the height at this point. -/
theorem C132_analytical_heights (draw : Draw) (height : ℝ → ℝ → ℝ) (nPts : ℕ) {s : Surf} {g : ℝ} {n m : ℕ} {e : ℝ × ℝ} (hd : s.discrete = false) (hi : s.invert = false) (hg : s.gs = some g)
    (hsh : s.shape = some (n, m)) (he : s.extent = some e) {kind : String} {d : Drawing} (h : (showAnalytic draw height nPts (.one (.text "profile") kind) s).1 = .ok [d]) :
    ∃ z : ℕ → ℕ → ℂ, (∀ i < n, ∀ j < m, z i j = height (g * i) (g * j)) ∧ Shows kind d n m (fun i => g * i) (fun j => g * j) false (some z) := by
  have hprep : prepare height nPts s = .ok ({ s with raw := some (sample height g n m) }, false) := by
    unfold prepare
    rw [hg, hsh, he]
  unfold showAnalytic around at h
  rw [hd, if_neg Bool.false_ne_true, hprep] at h
  have hp : ({ s with raw := some (sample height g n m) } : Surf).profile = .ok (some (sample height g n m)) := by
    simp [State.profile, hi]
  refine ⟨_, ?_, (C132_profile draw hp hg hsh).1 h⟩
  have lin : ∀ k a : ℕ, a < k → Analytic.linspace (g * ((k : ℝ) - 1)) k a = g * a := by
    intro k a ha
    unfold Analytic.linspace
    split
    · obtain rfl : a = 0 := by omega
      simp
    · have : (k : ℝ) - 1 ≠ 0 := by
        intro h0
        have : (k : ℝ) = 1 := by linarith
        exact absurd (by exact_mod_cast this) ‹¬ k = 1›
      field_simp
  intro i hi j hj
  simp only [sample]
  rw [lin n i hi, lin m j hj]

/-- A surface of 2 × 3 points. -/
example : ∃ d, (showAnalytic (fun _ => .ok ()) (fun x y => x + y) 100 (.one (.text "profile") "image") { ball with gs := some 1, shape := some (2, 3) }).1 = .ok [d] := by
  unfold showAnalytic around prepare base single
  simp [ball, State.profile, show Property.parse ("profile" : String).toLower = some .profile by decide +kernel, plot, plane]

/-- **C132**, all heights: histograms and probability plots are made of the profile. -/
theorem C132_heights (draw : Draw) {s : Surf} {p : Arr ℝ} {g : ℝ} {n m : ℕ} (hp : s.profile = .ok (some p)) (hg : s.gs = some g) (hsh : s.shape = some (n, m)) {name : String}
    (hname : name ∈ ["histogram", "hist", "qq"]) (kind : String) (hdraw : draw (.heights p) = .ok ()) : showSurface draw (.one (.text name) kind) s = (.ok [.heights p], s) := by
  have : ∃ q, Property.parse name.toLower = some q ∧ (q = .histogram ∨ q = .hist ∨ q = .qq) := by
    simp only [List.mem_cons, List.not_mem_nil, or_false] at hname
    rcases hname with rfl | rfl | rfl
    · exact ⟨.histogram, by decide +kernel, by decide⟩
    · exact ⟨.hist, by decide +kernel, by decide⟩
    · exact ⟨.qq, by decide +kernel, by decide⟩
  obtain ⟨q, hq, hc⟩ := this
  rw [one_plot draw hq hp hg hsh]
  rcases hc with rfl | rfl | rfl <;> unfold plot <;> dsimp only <;> rw [hdraw]

example := C132_heights (fun _ => .ok ()) (s := flat) rfl rfl rfl (name := "qq") (by simp) "default" rfl

/-- Points around zero: `n` points with distance `g`, the first and the last opposite to each other. -/
def Around (g : ℝ) (n : ℕ) (x : ℕ → ℝ) : Prop := (∀ i, x (i + 1) = x i + g) ∧ ∀ i < n, x (n - 1 - i) = -x i

theorem centred_around {g : ℝ} (hg : 0 ≤ g) (n : ℕ) : Around g n (centred g n) := by
  refine ⟨fun i => ?_, fun i hi => ?_⟩
  · unfold centred
    push_cast
    ring
  · unfold centred
    rw [if_pos hg, Nat.cast_sub (by omega)]
    ring

/-- **C132**, correlations: a plot of the autocorrelation function shows its absolute values over points around zero. -/
theorem C132_acf (draw : Draw) {s : Surf} {p a : Arr ℝ} {g : ℝ} {n m : ℕ} (hp : s.profile = .ok (some p)) (hg : s.gs = some g) (hg0 : 0 ≤ g) (hsh : s.shape = some (n, m))
    (ha : s.acf = some a) {kind : String} {d : Drawing} (h : (showSurface draw (.one (.text "acf") kind) s).1 = .ok [d]) :
    ∃ x y, Around g n x ∧ Around g m y ∧ Shows kind d n m x y false (some fun i j => (|a.val i j| : ℝ)) := by
  rw [one_plot draw (q := .acf) (by decide +kernel) hp hg hsh] at h
  have hneed : needAcf s = (.ok (), s) := by unfold needAcf; rw [ha]
  unfold plot at h
  dsimp only at h
  rw [hneed] at h
  dsimp only at h
  rw [ha] at h
  dsimp only at h
  split at h
  · cases h
  · exact ⟨_, _, centred_around hg0 n, centred_around hg0 m, plane_shows h⟩

/-- **C132**, angular spectrum: an image of it shows the squared absolute values of the transform, divided by the area between the outer points. -/
theorem C132_apsd_partial (draw : Draw) {s : Surf} {p : Arr ℝ} {f : Arr ℂ} {g : ℝ} {n m : ℕ} (hp : s.profile = .ok (some p)) (hg : s.gs = some g) (hg0 : 0 < g) (hsh : s.shape = some (n, m))
    (hn : 2 ≤ n) (hm : 2 ≤ m) (hf : s.fft = some f) {kind : String} {d : Drawing} (h : (showSurface draw (.one (.text "apsd") kind) s).1 = .ok [d]) :
    ∃ x y, Around g n x ∧ Around g m y ∧ Shows kind d n m x y false (some fun i j => (‖f.val i j‖ ^ 2 / ((g * (n - 1 : ℕ)) * (g * (m - 1 : ℕ))) : ℝ)) := by
  rw [one_plot draw (q := .apsd) (by decide +kernel) hp hg hsh] at h
  have hneed : needFft s = (.ok (), s) := by unfold needFft; rw [hf]
  unfold plot at h
  dsimp only at h
  rw [hneed] at h
  dsimp only at h
  rw [hf] at h
  dsimp only at h
  split at h
  · cases h
  · have hn' : (2 : ℝ) ≤ n := by exact_mod_cast hn
    have hm' : (2 : ℝ) ≤ m := by exact_mod_cast hm
    have harea : ((n : ℝ) - 1) * ((m : ℝ) - 1) * g ^ 2 ≠ 0 := by
      have h1 : 0 < (n : ℝ) - 1 := by linarith
      have h2 : 0 < (m : ℝ) - 1 := by linarith
      positivity
    rw [if_neg harea] at h
    refine ⟨_, _, centred_around hg0.le n, centred_around hg0.le m, ?_⟩
    have hz : (fun i j => (((‖f.val i j‖ ^ 2 / ((g * (n - 1 : ℕ)) * (g * (m - 1 : ℕ))) : ℝ)) : ℂ)) =
        fun i j => f.val i j * starRingEnd ℂ (f.val i j) / (((n : ℝ) - 1) * ((m : ℝ) - 1) * g ^ 2 : ℝ) := by
      funext i j
      rw [Complex.mul_conj, Complex.normSq_eq_norm_sq, Nat.cast_sub (by omega), Nat.cast_sub (by omega)]
      push_cast
      congr 1
      ring
    rw [hz]
    exact plane_shows h

/-- **C132**, one dimensional transform of a square surface: each absolute value over the sum of its two frequencies. -/
theorem C132_fft1d_partial (draw : Draw) {s : Surf} {p : Arr ℝ} {f : Arr ℂ} {g : ℝ} {n : ℕ} (hp : s.profile = .ok (some p)) (hg : s.gs = some g) (hsh : s.shape = some (n, n))
    (hf : s.fft = some f) {kind : String} {d : Drawing} (h : (showSurface draw (.one (.text "fft1d") kind) s).1 = .ok [d]) :
    ∃ points, d = .scatter points ∧ ∀ x, x ∈ points ↔ ∃ k < n, ∃ l < n, x = (fftfreq n g k + fftfreq n g l, ‖f.val k l‖) := by
  rw [one_plot draw (q := .fft1d) (by decide +kernel) hp hg hsh] at h
  unfold plot at h
  dsimp only at h
  rw [hf] at h
  dsimp only at h
  split at h
  · cases h
  · cases h
    refine ⟨_, rfl, fun x => ?_⟩
    simp only [List.mem_map, List.mem_range]
    constructor
    · rintro ⟨t, ht, rfl⟩
      have hn : 0 < n := Nat.pos_of_ne_zero (by rintro rfl; simp at ht)
      exact ⟨t / n, Nat.div_lt_of_lt_mul ht, t % n, Nat.mod_lt _ hn, by rw [add_comm]⟩
    · rintro ⟨k, hk, l, hl, rfl⟩
      have hn : 0 < n := by omega
      refine ⟨l + n * k, ?_, ?_⟩
      · calc l + n * k < n + n * k := by omega
          _ = n * (k + 1) := by ring
          _ ≤ n * n := Nat.mul_le_mul_left _ hk
      · rw [Nat.add_mul_div_left _ _ hn, Nat.add_mul_mod_self_left, Nat.div_eq_of_lt hl, Nat.mod_eq_of_lt hl, zero_add, add_comm]

/-- Three by two points with one entry of the transform that is not zero. -/
noncomputable def row : Surf :=
  ⟨⟨some ⟨3, 2, fun _ _ => 1⟩, false, some 1, none, none, some ⟨3, 2, fun k l => if k = 0 ∧ l = 1 then 1 else 0⟩⟩, some (3, 2), some (3, 2), none, true⟩

/-- **C132 (negation)**: the values of a surface that is not square stand over frequencies of other entries: here the only value that is not zero has the frequencies 0 and -1/2 and stands over 1/3. -/
theorem C132_fft1d_order_wrong (kind : String) : ∃ points, (showSurface (fun _ => .ok ()) (.one (.text "fft1d") kind) row).1 = .ok [.scatter points] ∧ ∀ x ∈ points, x.2 ≠ 0 → x.1 = 1 / 3 := by
  refine ⟨_, by rw [one_plot _ (q := .fft1d) (by decide +kernel) (rfl : row.profile = .ok (some ⟨3, 2, fun _ _ => 1⟩)) (rfl : row.gs = some 1) (rfl : row.shape = some (3, 2))]; rfl, ?_⟩
  intro x hx
  simp only [List.mem_map, List.mem_range] at hx
  obtain ⟨t, ht, rfl⟩ := hx
  dsimp only
  intro hne
  have h01 : t / 2 = 0 ∧ t % 2 = 1 := by
    by_contra hc
    rw [if_neg hc] at hne
    simp at hne
  have ht1 : t = 1 := by omega
  subst ht1
  norm_num [fftfreq]

/-- **C132**, layout: the grid of up to nine plots has a place for each and no row without plots. -/
theorem C132_layout {count : ℕ} (h1 : 1 ≤ count) (h9 : count ≤ 9) : ∃ rows cols, subplotNumber count = 100 * rows + 10 * cols + 1 ∧ cols ≤ 3 ∧ count ≤ rows * cols ∧ (rows - 1) * cols < count := by
  unfold subplotNumber
  refine ⟨_, _, rfl, ?_⟩
  interval_cases count <;> decide

/-- The four plots of a surface with everything. -/
noncomputable def full : Surf :=
  ⟨⟨some ⟨2, 2, fun _ _ => 1⟩, false, some 1, some ⟨2, 2, fun _ _ => -1⟩, none, some ⟨2, 2, fun k l => if k = 0 ∧ l = 0 then 4 else 0⟩⟩, some (2, 2), some (2, 2), some ⟨2, 2, fun _ _ => 2⟩, true⟩

/-- The hypotheses of `C132_profile`, `C132_acf`, `C132_apsd_partial` and `C132_fft1d_partial`. -/
example : full.profile = .ok (some ⟨2, 2, fun _ _ => 1⟩) ∧ full.gs = some 1 ∧ full.shape = some (2, 2) ∧ (∃ u, full.unworn = some u) ∧
    ∀ name ∈ ["profile", "unworn_profile", "acf", "apsd", "fft1d"], ∃ d, (showSurface (fun _ => .ok ()) (.one (.text name) "image") full).1 = .ok [d] := by
  refine ⟨rfl, rfl, rfl, ⟨_, rfl⟩, ?_⟩
  intro name hname
  simp only [List.mem_cons, List.not_mem_nil, or_false] at hname
  have hp : full.profile = .ok (some ⟨2, 2, fun _ _ => 1⟩) := rfl
  have hg : full.gs = some 1 := rfl
  have hsh : full.shape = some (2, 2) := rfl
  have he : ¬emptyAxis 2 2 := by unfold emptyAxis; omega
  rcases hname with rfl | rfl | rfl | rfl | rfl
  · rw [one_plot _ (q := .profile) (by decide +kernel) hp hg hsh]; exact ⟨_, rfl⟩
  · rw [one_plot _ (q := .unworn) (by decide +kernel) hp hg hsh]; exact ⟨_, rfl⟩
  · rw [one_plot _ (q := .acf) (by decide +kernel) hp hg hsh]
    simp [plot, needAcf, full, he, plane]
  · rw [one_plot _ (q := .apsd) (by decide +kernel) hp hg hsh]
    simp [plot, needFft, full, he, plane]
  · rw [one_plot _ (q := .fft1d) (by decide +kernel) hp hg hsh]; exact ⟨_, rfl⟩

end Verif.Show
