import Mathlib.Tactic.Ring
import Mathlib.Tactic.FieldSimp
import Mathlib.Tactic.Linarith
import Mathlib.Tactic.Positivity
import Mathlib.Tactic.NormNum
import Verif.Elastic.Spec

/-!
# Helper lemmas for the elastic constants
-/

set_option linter.unusedSimpArgs false

namespace Verif.Elastic

/-- Clear denominators and finish with `ring` or `norm_num`. -/
local macro "fs" : tactic => `(tactic| (field_simp <;> first | done | ring | norm_num))

lemma sqrt_eq_of_sq {a b : ℝ} (hb : 0 ≤ b) (h : a = b ^ 2) : Real.sqrt a = b := by
  rw [h]; exact Real.sqrt_sq hb

/-- Every pair of distinct keys in sorted order except (Lam, v) and (E, M with negative v) is completed to the material. -/
lemma branch_ok (p : Six) (h : Isotropic p) (a b : Key) (hab : a.rank < b.rank)
    (h1 : ¬ (a = .Lam ∧ b = .v)) (h2 : a = .E ∧ b = .M → 0 ≤ p.v) :
    branch a b (p.get a) (p.get b) = .ok p := by
  obtain ⟨hK, hG, hE, hv, hL, hM⟩ := h
  obtain ⟨K, E, v, Lam, M, G⟩ := p
  simp only at hK hG hE hv hL hM
  have h3 : 0 < 3 * K + G := by positivity
  have hKne := hK.ne'
  have hGne := hG.ne'
  have h3ne := h3.ne'
  have e1 : 3 * G - E ≠ 0 := by
    have : 3 * G - E = 3 * G ^ 2 / (3 * K + G) := by rw [hE]; fs
    rw [this]; positivity
  have e2 : 9 * K - E ≠ 0 := by
    have : 9 * K - E = 27 * K ^ 2 / (3 * K + G) := by rw [hE]; fs
    rw [this]; positivity
  have e3 : 1 + v = 9 * K / (2 * (3 * K + G)) := by rw [hv]; fs
  have e4 : 1 - 2 * v = 3 * G / (3 * K + G) := by rw [hv]; fs
  have e5 : 1 - v = (3 * K + 4 * G) / (2 * (3 * K + G)) := by rw [hv]; fs
  have e6 : Lam + G = (3 * K + G) / 3 := by rw [hL]; ring
  have e7 : M - G = (3 * K + G) / 3 := by rw [hM]; ring
  have e8 : 3 * K - Lam = 2 * (3 * K + G) / 3 := by rw [hL]; ring
  have e9 : 3 * K + M = 4 * (3 * K + G) / 3 := by rw [hM]; ring
  have e10 : M + Lam = 2 * (3 * K + G) / 3 := by rw [hM, hL]; ring
  have e3' : 1 + v ≠ 0 := by rw [e3]; positivity
  have e4' : 1 - 2 * v ≠ 0 := by rw [e4]; positivity
  have e5' : 1 - v ≠ 0 := by rw [e5]; positivity
  cases a <;> cases b <;> simp only [Key.rank] at hab <;> try omega
  -- E G
  · simp only [branch, Six.get, Except.ok.injEq, Six.mk.injEq, true_and, and_true]
    have h4 : 3 * G - E = 3 * G ^ 2 / (3 * K + G) := by rw [hE]; fs
    refine ⟨?_, ?_, ?_, ?_⟩
    · rw [h4, hE]; fs
    · rw [hv, hE]; fs
    · rw [h4, hL, hE]; fs
    · rw [h4, hM, hE]; fs
  -- E K
  · simp only [branch, Six.get, Except.ok.injEq, Six.mk.injEq, true_and, and_true]
    have h4 : 9 * K - E = 27 * K ^ 2 / (3 * K + G) := by rw [hE]; fs
    refine ⟨?_, ?_, ?_, ?_⟩
    · rw [hv, hE]; fs
    · rw [h4, hL, hE]; fs
    · rw [h4, hM, hE]; fs
    · rw [h4, hE]; fs
  -- E Lam
  · have hR : Real.sqrt (E ^ 2 + 9 * Lam ^ 2 + 2 * E * Lam) = 4 * G - E + 3 * Lam := by
      apply sqrt_eq_of_sq
      · have : 4 * G - E + 3 * Lam = (9 * K ^ 2 + 2 * G ^ 2) / (3 * K + G) := by
          rw [hE, hL]; fs
        rw [this]; positivity
      · rw [hE, hL]; fs
    simp only [branch, Six.get, Except.ok.injEq, Six.mk.injEq, true_and, and_true]
    rw [hR]
    refine ⟨?_, ?_, ?_, ?_⟩
    · rw [hL]; ring
    · have : E + Lam + (4 * G - E + 3 * Lam) = 4 * (3 * K + G) / 3 := by rw [hL]; ring
      rw [this, hv, hL]; fs
    · rw [hL, hM]; ring
    · ring
  -- E M
  · have hv0 : 0 ≤ v := h2 ⟨rfl, rfl⟩
    have hS : Real.sqrt (E ^ 2 + 9 * M ^ 2 - 10 * E * M) = 3 * M + E - 8 * G := by
      apply sqrt_eq_of_sq
      · have h5 : 3 * M + E - 8 * G = (3 * K - 2 * G) * (3 * K + 2 * G) / (3 * K + G) := by
          rw [hE, hM]; fs
        have h6 : 0 ≤ 3 * K - 2 * G := by
          rw [hv] at hv0
          have : 0 < 2 * (3 * K + G) := by positivity
          by_contra hneg
          have := div_neg_of_neg_of_pos (not_le.mp hneg) this
          linarith
        rw [h5]; positivity
      · rw [hE, hM]; fs
    simp only [branch, Six.get, Except.ok.injEq, Six.mk.injEq, true_and, and_true]
    rw [hS]
    have hMp : M ≠ 0 := by rw [hM]; positivity
    refine ⟨?_, ?_, ?_, ?_⟩
    · rw [hM]; ring
    · rw [div_eq_iff (by positivity), hE, hM, hv]; fs
    · rw [hL, hM]; ring
    · ring
  -- E v
  · simp only [branch, Six.get, Except.ok.injEq, Six.mk.injEq, true_and, and_true]
    rw [e3, e4, e5]
    refine ⟨?_, ?_, ?_, ?_⟩
    · rw [hE]; fs
    · rw [hE, hL, hv]; fs
    · rw [hE, hM]; fs
    · rw [hE]; fs
  -- G K
  · simp only [branch, Six.get, Except.ok.injEq, Six.mk.injEq, true_and, and_true]
    exact ⟨hE.symm, hv.symm, hL.symm, hM.symm⟩
  -- G Lam
  · simp only [branch, Six.get, Except.ok.injEq, Six.mk.injEq, true_and, and_true]
    rw [e6]
    refine ⟨?_, ?_, ?_, ?_⟩
    · rw [hL]; ring
    · rw [hE, hL]; fs
    · rw [hL, hv]; fs
    · rw [hL, hM]; ring
  -- G M
  · simp only [branch, Six.get, Except.ok.injEq, Six.mk.injEq, true_and, and_true]
    have e7' : 2 * M - 2 * G = 2 * (3 * K + G) / 3 := by rw [hM]; ring
    rw [e7, e7']
    refine ⟨?_, ?_, ?_, ?_⟩
    · rw [hM]; ring
    · rw [hE, hM]; fs
    · rw [hM, hv]; fs
    · rw [hL, hM]; ring
  -- G v
  · simp only [branch, Six.get, Except.ok.injEq, Six.mk.injEq, true_and, and_true]
    rw [e3, e4, e5]
    refine ⟨?_, ?_, ?_, ?_⟩
    · fs
    · rw [hE]; fs
    · rw [hL, hv]; fs
    · rw [hM]; fs
  -- K Lam
  · simp only [branch, Six.get, Except.ok.injEq, Six.mk.injEq, true_and, and_true]
    rw [e8]
    refine ⟨?_, ?_, ?_, ?_⟩
    · rw [hE, hL]; fs
    · rw [hL, hv]; fs
    · rw [hL, hM]; ring
    · rw [hL]; ring
  -- K M
  · simp only [branch, Six.get, Except.ok.injEq, Six.mk.injEq, true_and, and_true]
    rw [e9]
    refine ⟨?_, ?_, ?_, ?_⟩
    · rw [hE, hM]; fs
    · rw [hM, hv]; fs
    · rw [hL, hM]; ring
    · rw [hM]; ring
  -- K v
  · simp only [branch, Six.get, Except.ok.injEq, Six.mk.injEq, true_and, and_true]
    rw [e3, e4, e5]
    refine ⟨?_, ?_, ?_, ?_⟩
    · rw [hE]; fs
    · rw [hL, hv]; fs
    · rw [hM]; fs
    · fs
  -- Lam M
  · simp only [branch, Six.get, Except.ok.injEq, Six.mk.injEq, true_and, and_true]
    rw [e10]
    refine ⟨?_, ?_, ?_, ?_⟩
    · rw [hL, hM]; ring
    · rw [hE, hL, hM]; fs
    · rw [hL, hv]; fs
    · rw [hL, hM]; ring
  -- Lam v
  · exact absurd ⟨rfl, rfl⟩ h1
  -- M v
  · simp only [branch, Six.get, Except.ok.injEq, Six.mk.injEq, true_and, and_true]
    rw [e3, e4, e5]
    refine ⟨?_, ?_, ?_, ?_⟩
    · rw [hM]; fs
    · rw [hE, hM]; fs
    · rw [hL, hM, hv]; fs
    · rw [hM]; fs

end Verif.Elastic
