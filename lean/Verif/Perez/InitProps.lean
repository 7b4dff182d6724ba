import Verif.Perez.Init
import Verif.Perez.Props
import Verif.Perez.StopProps
import Mathlib.Logic.Equiv.Fin.Basic

/-!
# C128: surfaces of given heights can be made from all heights of the right number, and only from those
-/

namespace Verif.Perez

open Verif.Conv (Grid)

variable {m n : ℕ} [NeZero m] [NeZero n]

/-- The numbers in the shape of the grid are the numbers of the list. -/
lemma reshape_all (l : List ℝ) (h : l.length = m * n) : (Finset.univ : Finset (Grid m n)).val.map (reshape l) = (l : Multiset ℝ) := by
  let e : Grid m n ≃ Fin l.length := ((ZMod.finEquiv m).symm.toEquiv.prodCongr (ZMod.finEquiv n).symm.toEquiv).trans (finProdFinEquiv.trans (finCongr h.symm))
  have hval : ∀ (k : ℕ) [NeZero k] (a : ZMod k), (((ZMod.finEquiv k).symm a : Fin k) : ℕ) = a.val := by
    intro k _ a
    obtain ⟨k, rfl⟩ : ∃ j, k = j + 1 := ⟨k - 1, by have := NeZero.pos k; omega⟩
    rfl
  have he : ∀ a, reshape l a = l.get (e a) := by
    intro a
    have h1 : ((e a : Fin l.length) : ℕ) = a.1.val * n + a.2.val := by
      show ((ZMod.finEquiv n).symm a.2 : Fin n).val + n * ((ZMod.finEquiv m).symm a.1 : Fin m).val = _
      rw [hval m a.1, hval n a.2, Nat.mul_comm, Nat.add_comm]
    unfold reshape
    rw [← h1, List.getD_eq_getElem?_getD, List.getElem?_eq_getElem (e a).2]
    rfl
  have h2 : (Finset.univ : Finset (Grid m n)).val.map (reshape l) = ((Finset.univ : Finset (Grid m n)).val.map e).map l.get := by
    rw [Multiset.map_map]
    exact Multiset.map_congr rfl fun a _ => he a
  have h3 : (Finset.univ : Finset (Grid m n)).val.map e = (Finset.univ : Finset (Fin l.length)).val := by
    have := congrArg Finset.val (Finset.map_univ_equiv e)
    rwa [Finset.map_val] at this
  rw [h2, h3]
  show (List.finRange l.length : Multiset (Fin l.length)).map l.get = l
  rw [Multiset.map_coe, List.map_get_finRange]

lemma perm_all (p h : Grid m n → ℝ) (e : Equiv.Perm (Grid m n)) (hp : ∀ a, p a = h (e a)) : (Finset.univ : Finset (Grid m n)).val.map p = (Finset.univ : Finset (Grid m n)).val.map h := by
  have h1 : (Finset.univ : Finset (Grid m n)).val.map p = ((Finset.univ : Finset (Grid m n)).val.map e).map h := by
    rw [Multiset.map_map]
    exact Multiset.map_congr rfl fun a _ => hp a
  have := congrArg Finset.val (Finset.map_univ_equiv e)
  rw [Finset.map_val] at this
  rw [h1]
  congr 1

/-- **C128, given heights.** From a flat list or an array of any shape with as many numbers as the target spectrum a surface can be made, and with exact heights its profile has exactly these numbers. Missing: nested lists. -/
theorem C128_heights_partial (psd : Grid m n → ℝ) (h : HeightArg) (data : List ℝ) (hd : data.length = m * n) (hh : h = .list [m * n] data ∨ ∃ k shape, h = .array (k :: shape) data) :
    ∃ b, construct (.array psd) h "heights" = .ok b ∧ ∀ cfg o draw rn se ro out p, (b.discretise cfg o draw rn se ro).1 = .ok out → out.profile? = some p →
      (Finset.univ : Finset (Grid m n)).val.map p = (data : Multiset ℝ) := by
  have hb : construct (.array psd) h "heights" = .ok ⟨.array psd, false, some data, .heights⟩ := by
    rcases hh with rfl | ⟨k, shape, rfl⟩
    · simp [construct, chooseHeights, exactOf]
    · simp [construct, chooseHeights, exactOf, hd]
  refine ⟨_, hb, fun cfg o draw rn se ro out p hok hp => ?_⟩
  have hne : data ≠ [] := by
    rintro rfl
    have h1 := NeZero.pos m
    have h2 := NeZero.pos n
    have := Nat.mul_pos h1 h2
    simp at hd
    omega
  unfold Obj.discretise at hok
  split at hok
  · exact nomatch hok
  · simp only [Bool.false_eq_true, if_false, if_neg hne, if_pos hd] at hok
    obtain ⟨e, he⟩ := C53_rearrangement cfg o psd (reshape data) rn se ro out hok p hp
    rw [perm_all p (reshape data) e he, reshape_all data hd]

/-- **C128, distributions.** With a distribution, or nothing, the heights are those drawn. -/
theorem C128_drawn (psd : Grid m n → ℝ) (h : HeightArg) (hh : h = .none ∨ h = .dist) : ∃ b, construct (.array psd) h "heights" = .ok b ∧ ∀ cfg o draw rn se ro out p,
    (b.discretise cfg o draw rn se ro).1 = .ok out → out.profile? = some p → (Finset.univ : Finset (Grid m n)).val.map p = (Finset.univ : Finset (Grid m n)).val.map draw := by
  have hb : construct (.array psd) h "heights" = .ok ⟨.array psd, true, none, .heights⟩ := by
    rcases hh with rfl | rfl <;> simp [construct, chooseHeights, exactOf]
  refine ⟨_, hb, fun cfg o draw rn se ro out p hok hp => ?_⟩
  unfold Obj.discretise at hok
  split at hok
  · exact nomatch hok
  · simp only [if_true] at hok
    obtain ⟨e, he⟩ := C53_rearrangement cfg o psd draw rn se ro out hok p hp
    exact perm_all p draw e he

example := C128_drawn (m := 2) (n := 2) (fun _ => 1) .dist (.inr rfl)

/-- **C128, arrays of another size.** They are accepted, and no profile can be made. -/
theorem C128_size_wrong (psd : Grid m n → ℝ) (k : ℕ) (shape : List ℕ) (data : List ℝ) (hk : k ≠ m * n) (hd : data.length ≠ m * n) :
    ∃ b, construct (.array psd) (.array (k :: shape) data) "best" = .ok b ∧ ∀ cfg o draw rn se ro, (b.discretise cfg o draw rn se ro).1 = .error .valueError := by
  refine ⟨⟨.array psd, false, none, .best⟩, by simp [construct, chooseHeights, exactOf, hk, hd], fun cfg o draw rn se ro => ?_⟩
  unfold Obj.discretise
  split <;> rfl

example := C128_size_wrong (m := 2) (n := 2) (fun _ => 1) 3 [] [1, 2, 3] (by norm_num) (by norm_num)

/-- **C128, arrays with as many rows as there are points.** They are accepted, and no profile can be made unless there is one column. -/
theorem C128_rows_wrong (psd : Grid m n → ℝ) (k : ℕ) (hk : k ≠ 1) (data : List ℝ) (hd : data.length = m * n * k) :
    ∃ b, construct (.array psd) (.array [m * n, k] data) "best" = .ok b ∧
      ∀ cfg o draw rn se ro, (b.discretise cfg o draw rn se ro).1 = .error (if (ro && rn) = false ∧ k = 0 then .zeroDivisionError else .valueError) := by
  refine ⟨⟨.array psd, false, some data, .best⟩, by simp [construct, chooseHeights, exactOf], fun cfg o draw rn se ro => ?_⟩
  have hpos : 0 < m * n := Nat.mul_pos (NeZero.pos m) (NeZero.pos n)
  have hne : data.length ≠ m * n := by
    rw [hd]
    intro h
    have : m * n * k = m * n * 1 := by rw [h, Nat.mul_one]
    exact hk (Nat.eq_of_mul_eq_mul_left hpos this)
  unfold Obj.discretise
  have hk0 : data = [] ↔ k = 0 := by
    rw [← List.length_eq_zero_iff, hd]
    constructor
    · intro h
      rcases Nat.mul_eq_zero.1 h with h | h
      · omega
      · exact h
    · rintro rfl
      rfl
  split
  · rename_i h
    rw [if_neg (by simp [h])]
  · rename_i h
    have h : (ro && rn) = false := by simpa using h
    by_cases h0 : data = []
    · rw [if_pos ⟨h, hk0.1 h0⟩]
      simp [h0]
    · rw [if_neg fun hc => h0 (hk0.2 hc.2)]
      simp [h0, hne]

example := C128_rows_wrong (m := 2) (n := 3) (fun _ => 1) 2 (by norm_num) (List.replicate 12 1) (by simp)

/-- **C128, nested lists.** Heights in a list of rows of the very shape of the target are refused, although the same heights in an array are accepted. -/
theorem C128_nested_wrong (psd : Grid m n → ℝ) (hn : n ≠ 1) (data : List ℝ) (hd : data.length = m * n) :
    construct (.array psd) (.list [m, n] data) "best" = .error .valueError ∧ ∃ b, construct (.array psd) (.array [m, n] data) "best" = .ok b := by
  have hne : m ≠ m * n := by
    intro h
    have : m * n = m * 1 := by rw [← h, Nat.mul_one]
    exact hn (Nat.eq_of_mul_eq_mul_left (NeZero.pos m) this)
  refine ⟨?_, ⟨.array psd, false, some data, .best⟩, ?_⟩
  · simp only [construct, chooseHeights, if_neg hne]
  · simp [construct, chooseHeights, exactOf, hd]

example := C128_nested_wrong (m := 2) (n := 3) (fun _ => 1) (by norm_num) (List.replicate 6 1) (by simp)

/-- **C128, refused at once.** Flat lists of another length and unknown values of `exact` are a `ValueError`, something without length is a `TypeError`. -/
theorem C128_refused (psd : Grid m n → ℝ) (data : List ℝ) (h : HeightArg) (exact : String) :
    (data.length ≠ m * n → construct (.array psd) (.list [data.length] data) exact = .error .valueError) ∧ construct (.array psd) .noLength exact = .error .typeError ∧
    (exact ≠ "psd" → exact ≠ "heights" → exact ≠ "best" → ∀ b, construct (.array psd) h exact ≠ .ok b) := by
  refine ⟨fun hne => by simp only [construct, chooseHeights, if_neg hne], rfl, fun h1 h2 h3 b hb => ?_⟩
  have he : exactOf exact = .error .valueError := by
    unfold exactOf
    split
    · exact absurd rfl h1
    · exact absurd rfl h2
    · exact absurd rfl h3
    · rfl
  unfold construct at hb
  split at hb
  · exact nomatch hb
  · rw [he] at hb
    exact nomatch hb

example := (C128_refused (m := 2) (n := 3) (fun _ => 1) [1, 2] .dist "all").1 (by norm_num)

/-- **C128, target spectrum in a list.** It is accepted with a distribution, and no profile can be made; with heights the message is about the heights. -/
theorem C128_psd_list_wrong (psd : Grid m n → ℝ) (data : List ℝ) : (∃ b : Obj m n, construct (.list psd) .dist "best" = .ok b ∧
      ∀ cfg o draw rn se ro, (b.discretise cfg o draw rn se ro).1 = .error (if ro && rn then .valueError else .attributeError)) ∧
    construct (.list psd) (.list [m * n] data) "best" = .error .valueError := by
  refine ⟨⟨⟨.list psd, true, none, .best⟩, rfl, fun cfg o draw rn se ro => ?_⟩, rfl⟩
  unfold Obj.discretise
  split <;> rfl

example := C128_psd_list_wrong (m := 2) (n := 3) (fun _ => 1) [1, 2]

/-- **C128, the target of the caller.** Every attempt to make a profile from an array removes the entry at frequency zero of the caller's array, also if it fails. -/
theorem C128_target_wrong (b : Obj m n) (psd : Grid m n → ℝ) (hb : b.psd = .array psd) (cfg : Config) (o : Oracle m n) (draw : Grid m n → ℝ) (rn se ro : Bool) (hr : (ro && rn) = false) :
    ∃ psd' : Grid m n → ℝ, (b.discretise cfg o draw rn se ro).2 = .array psd' ∧ psd' 0 = 0 ∧ ∀ k, k ≠ 0 → psd' k = psd k := by
  refine ⟨clearZero psd, ?_, by simp [clearZero], fun k hk => by simp [clearZero, hk]⟩
  obtain ⟨p, hd, rvs, ex⟩ := b
  dsimp only at hb
  subst hb
  unfold Obj.discretise
  rw [hr]
  simp only [Bool.false_eq_true, if_false]
  split
  · rfl
  · split
    · rfl
    · split
      · rfl
      · split <;> rfl

/-- The hypotheses of `C128_heights_partial` can be met: four heights for a two by two spectrum, and a profile made from them. -/
example (s : (Grid 2 2 → ℝ) → (Fin (2 * 2) ≃ Grid 2 2)) : ∃ out p, ((⟨.array (fun _ => 1), false, some [1, 0, 0, 0], .heights⟩ : Obj 2 2).discretise ⟨1 / 10, 1, 0⟩ ⟨s, fun _ => some 0, fun _ => some 1, fun _ => some 1⟩ (fun _ => 0) false true false).1 = .ok out ∧ out.profile? = some p := by
  have hre : (reshape [1, 0, 0, 0] : Grid 2 2 → ℝ) = fun a => if a = 0 then 1 else 0 := by
    funext a
    revert a
    rintro ⟨a, b⟩
    fin_cases a <;> fin_cases b <;> simp [reshape]
    all_goals first | rfl | skip
  simp only [Obj.discretise, Bool.and_self, Bool.false_eq_true, if_false, hre]
  rw [if_neg (by simp), if_pos (by simp)]
  unfold discretise
  rw [if_neg (by simp)]
  dsimp only
  rw [if_neg sample_rough, if_neg (by simp)]
  exact ⟨_, _, rfl, rfl⟩

example : ∃ (k : ℕ) (data : List ℝ), k ≠ 4 * 4 ∧ data.length ≠ 4 * 4 := ⟨3, [1, 2, 3], by norm_num, by norm_num⟩

example : ∃ data : List ℝ, data.length = 2 * 3 * 2 := ⟨List.replicate 12 1, by simp⟩

end Verif.Perez
