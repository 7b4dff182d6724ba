import Verif.HeightCache.Props

/-!
# The cache when every contact solution has the same load as a function of the height
-/

namespace Verif.HeightCache

open Verif

variable {N : Type}

/-- No history fixes the contact nodes. -/
def NoNodes : List (Op N) → Prop
  | [] => True
  | .changeLoad _ (some _) :: _ => False
  | _ :: ops => NoNodes ops

/-- The solver and the first entries of the cache give the loads `load`. -/
structure Loads (P : Problem N) (load : ℝ → ℝ) : Prop where
  zero : load 0 = 0
  max : ∀ h l, P.maxEntry = some (h, l) → 0 ≤ h ∧ l = load h
  none : ∀ h, P.noNodes (P.touching h) = true → load h = 0
  solved : ∀ h, P.noNodes (P.touching h) = false → (P.bccg h (P.touching h)).1 = load h

/-- What every history keeps. -/
structure Kept (load : ℝ → ℝ) (s : State N) : Prop where
  free : s.setContactNodes = false
  log : ∀ e ∈ s.log, e.2.1 = load e.1

theorem true_init {P : Problem N} {load : ℝ → ℝ} {l : ℝ} {s : State N} (hs : init P none l = .ok s) : Kept load s := by
  unfold init at hs
  dsimp only at hs
  split at hs
  · split at hs <;> cases hs <;> exact ⟨rfl, by simp⟩
  · cases hs
    exact ⟨rfl, by simp⟩

theorem addToCache_free (P : Problem N) (s : State N) (h l : ℝ) (f : Bool) : (addToCache P s h l f).setContactNodes = s.setContactNodes ∧ (addToCache P s h l f).setLoad = s.setLoad := by
  unfold addToCache
  split <;> exact ⟨rfl, rfl⟩

theorem true_solve {P : Problem N} {load : ℝ → ℝ} (hP : Loads P load) {s : State N} (h : Kept load s) (x : ℝ) :
    Kept load (solveHeight P s x).1 ∧ (solveHeight P s x).2 = load x - s.setLoad := by
  have hn : nodesFor P s x = P.touching x := by
    unfold nodesFor
    rw [h.free]
  unfold solveHeight
  rw [hn]
  dsimp only
  split
  · rename_i hc
    refine ⟨⟨?_, ?_⟩, by rw [hP.none x hc]⟩
    · exact (addToCache_free _ _ _ _ _).1.trans h.free
    · intro e he
      simp only [addToCache_log, List.mem_append, List.mem_singleton] at he
      rcases he with he | rfl
      · exact h.log e he
      · exact (hP.none x hc).symm
  · rename_i hc
    rw [Bool.not_eq_true] at hc
    refine ⟨⟨?_, ?_⟩, by rw [hP.solved x hc]⟩
    · exact (addToCache_free _ _ _ _ _).1.trans h.free
    · intro e he
      simp only [addToCache_log, List.mem_append, List.mem_singleton] at he
      rcases he with he | rfl
      · exact h.log e he
      · exact hP.solved x hc

theorem true_call {P : Problem N} {load : ℝ → ℝ} (hP : Loads P load) {s : State N} (h : Kept load s) (x : ℝ) : Kept load (call P s x).1 := by
  unfold call
  split
  · split <;> exact h
  · split
    · exact (true_solve hP h x).1
    · exact ⟨h.free, h.log⟩

theorem true_clear {load : ℝ → ℝ} {s : State N} (h : Kept load s) : Kept load (clearCache s) := by
  unfold clearCache
  split <;> exact ⟨h.free, h.log⟩

theorem true_run {P : Problem N} {load : ℝ → ℝ} (hP : Loads P load) {s : State N} (h : Kept load s) (ops : List (Op N)) (hops : NoNodes ops) : Kept load (run P s ops) := by
  induction ops generalizing s with
  | nil => exact h
  | cons op rest ih =>
    cases op with
    | call x => exact ih (true_call hP h x) hops
    | clear => exact ih (true_clear h) hops
    | changeLoad l d =>
      cases d with
      | none => exact ih ⟨rfl, h.log⟩ hops
      | some d => exact hops.elim

/-- Each stored load is that of its height. -/
theorem stored {P : Problem N} {load : ℝ → ℝ} (hP : Loads P load) {s : State N} (hi : Inv P s) (h : Kept load s) : s.totals = s.heights.map load := by
  have hz : ∀ p ∈ s.heights.zip s.totals, p.2 = load p.1 := by
    intro p hp
    rcases hi.truthful p hp with rfl | hm | hl
    · exact hP.zero.symm
    · exact (hP.max p.1 p.2 hm).2
    · exact h.log _ hl
  refine List.ext_getElem (by rw [List.length_map, hi.paired]) fun i h1 h2 => ?_
  rw [List.getElem_map]
  have hl : i < s.heights.length := by rwa [List.length_map] at h2
  exact hz (s.heights[i], s.totals[i]) (mem_zip_of_getElem? (List.getElem?_eq_getElem hl) (List.getElem?_eq_getElem h1))

/-- The value for a height, whatever is in the cache. -/
theorem value {P : Problem N} (him : P.imMats = true) {load : ℝ → ℝ} (hP : Loads P load) {s : State N} (hi : Inv P s) (h : Kept load s) (x : ℝ) : (call P s x).2 = .ok (load x - s.setLoad) := by
  have hst := stored hP hi h
  unfold call
  split
  · rename_i hx
    have hlk : lookup s x = some (load x) := by
      unfold lookup
      have hlt : s.heights.findIdx (fun y => decide (y = x)) < s.heights.length := List.findIdx_lt_length_of_exists ⟨x, hx, by simp⟩
      have he : s.heights[s.heights.findIdx (fun y => decide (y = x))] = x := by
        have := List.findIdx_getElem (w := hlt)
        simpa using this
      rw [hst, List.getElem?_map, List.getElem?_eq_getElem hlt, he]
      rfl
    rw [hlk]
  · dsimp only
    rw [(true_solve hP h x).2]

end Verif.HeightCache
