import Mathlib.Data.List.Nodup
import Verif.Memo.Model

/-!
# Property C05: memoised components
-/

namespace Verif.Memo

variable {C A V : Type} [DecidableEq C] [DecidableEq A]

/-- Invariant: one dictionary for each known argument set, argument sets are distinct, every stored value is what the
function returns, every successful evaluation is stored, and the successful evaluations are pairwise distinct. -/
structure Inv (f : C → A → Except PyErr V) (s : State C A V) : Prop where
  len : s.cache.length = s.spec.length
  nodup : s.spec.Nodup
  sound : ∀ (i : Nat) (a : A) (d : List (C × V)), s.spec[i]? = some a → s.cache[i]? = some d →
    ∀ c v, lookup d c = some v → f c a = .ok v
  stored : ∀ c a v, (c, a) ∈ s.evals → f c a = .ok v →
    ∃ (i : Nat) (d : List (C × V)), s.spec[i]? = some a ∧ s.cache[i]? = some d ∧ lookup d c = some v
  once : (s.evals.filter fun e => (f e.1 e.2).toOption.isSome).Nodup

omit [DecidableEq A] in
theorem lookup_cons (d : List (C × V)) (c c' : C) (v : V) :
    lookup ((c, v) :: d) c' = if c = c' then some v else lookup d c' := by
  unfold lookup
  by_cases h : c = c' <;> simp [h]

theorem findSpec_inv (f : C → A → Except PyErr V) (s : State C A V) (h : Inv f s) (a : A) :
    Inv f (findSpec s a).1 ∧ (findSpec s a).1.spec[(findSpec s a).2]? = some a ∧
      ∃ d, (findSpec s a).1.cache[(findSpec s a).2]? = some d := by
  unfold findSpec
  split
  · rename_i i hi
    rw [List.findIdx?_eq_some_iff_getElem] at hi
    obtain ⟨hlt, hp, -⟩ := hi
    simp only [decide_eq_true_eq] at hp
    refine ⟨h, by simp [hlt, hp], s.cache[i]'(by rw [h.len]; exact hlt), by simp [h.len, hlt]⟩
  · rename_i hn
    rw [List.findIdx?_eq_none_iff] at hn
    have hna : a ∉ s.spec := fun hm => by simpa using hn a hm
    refine ⟨⟨?_, ?_, ?_, ?_, ?_⟩, ?_, ?_⟩
    · simp [h.len]
    · simp only [List.nodup_append, h.nodup, List.nodup_singleton, List.mem_singleton, true_and]
      rintro b hb c rfl rfl; exact hna hb
    · intro i b d h1 h2 c v h3
      simp only [List.getElem?_append] at h1 h2
      rw [h.len] at h2
      split at h1
      · rename_i hlt
        rw [if_pos hlt] at h2
        exact h.sound i b d h1 h2 c v h3
      · rename_i hlt
        rw [if_neg hlt] at h2
        obtain ⟨k, hk⟩ : ∃ k, i - s.spec.length = k := ⟨_, rfl⟩
        rw [hk] at h2
        rcases k with _ | k
        · simp only [List.length_cons, List.length_nil, Nat.zero_add, Nat.lt_one_iff, List.getElem?_cons_zero,
            Option.some.injEq] at h2
          subst h2; simp [lookup] at h3
        · simp at h2
    · intro c b v h1 h2
      obtain ⟨i, d, h3, h4, h5⟩ := h.stored c b v h1 h2
      refine ⟨i, d, ?_, ?_, h5⟩
      · rw [List.getElem?_append_left (by exact (List.getElem?_eq_some_iff.mp h3).1)]; exact h3
      · rw [List.getElem?_append_left (by exact (List.getElem?_eq_some_iff.mp h4).1)]; exact h4
    · exact h.once
    · simp [h.len]
    · exact ⟨[], by simp⟩

theorem call_inv (f : C → A → Except PyErr V) (s : State C A V) (h : Inv f s) (c : C) (a : A) :
    Inv f (call f s c a).1 ∧ (call f s c a).2 = f c a := by
  obtain ⟨h1, h2, d, h3⟩ := findSpec_inv f s h a
  generalize hfs : findSpec s a = fs at h1 h2 h3
  obtain ⟨s1, i⟩ := fs
  simp only at h1 h2 h3
  simp only [call, hfs, h3]
  split
  · rename_i v hv
    exact ⟨h1, (h1.sound i a d h2 h3 c v hv).symm⟩
  · rename_i hnone
    split
    · rename_i v hv
      refine ⟨⟨?_, h1.nodup, ?_, ?_, ?_⟩, hv.symm⟩
      · simp [h1.len]
      · intro j b d' g1 g2 c' v' g3
        simp only [List.getElem?_set] at g2
        split at g2
        · rename_i hij
          subst hij
          rw [h2] at g1
          obtain rfl : a = b := by simpa using g1
          split at g2
          · obtain rfl : (c, v) :: d = d' := by simpa using g2
            rw [lookup_cons] at g3
            split at g3
            · rename_i hcc; subst hcc
              obtain rfl : v = v' := by simpa using g3
              exact hv
            · exact h1.sound i a d h2 h3 c' v' g3
          · simp at g2
        · exact h1.sound j b d' g1 g2 c' v' g3
      · intro c' b v' g1 g2
        have hi : i < s1.cache.length := (List.getElem?_eq_some_iff.mp h3).1
        rcases List.mem_cons.mp g1 with g1 | g1
        · obtain ⟨rfl, rfl⟩ := Prod.mk.inj g1
          rw [hv] at g2
          obtain rfl : v = v' := by simpa using g2
          exact ⟨i, (c', v) :: d, h2, by simp [hi], by simp [lookup_cons]⟩
        · obtain ⟨j, d', k1, k2, k3⟩ := h1.stored c' b v' g1 g2
          by_cases hij : i = j
          · subst hij
            rw [h3] at k2
            obtain rfl : d = d' := by simpa using k2
            refine ⟨i, (c, v) :: d, k1, by simp [hi], ?_⟩
            rw [lookup_cons]
            split
            · rename_i hcc; subst hcc; rw [hnone] at k3; simp at k3
            · exact k3
          · exact ⟨j, d', k1, by simp [List.getElem?_set, hij, k2], k3⟩
      · have hne : (c, a) ∉ s1.evals := by
          intro hm
          obtain ⟨j, d', k1, k2, k3⟩ := h1.stored c a v hm hv
          have hi := (List.getElem?_eq_some_iff.mp h2)
          have hj := (List.getElem?_eq_some_iff.mp k1)
          have hij : i = j := by
            obtain ⟨hi1, hi2⟩ := hi
            obtain ⟨hj1, hj2⟩ := hj
            exact (List.Nodup.getElem_inj_iff h1.nodup).mp (hi2.trans hj2.symm)
          subst hij
          rw [h3] at k2
          obtain rfl : d = d' := by simpa using k2
          rw [hnone] at k3; simp at k3
        simp only [List.filter_cons, hv, Except.toOption, Option.isSome_some, if_true, List.nodup_cons]
        exact ⟨fun hm => hne (List.mem_filter.mp hm).1, h1.once⟩
    · rename_i e he
      refine ⟨⟨h1.len, h1.nodup, h1.sound, ?_, ?_⟩, he.symm⟩
      · intro c' b v' g1 g2
        rcases List.mem_cons.mp g1 with g1 | g1
        · obtain ⟨rfl, rfl⟩ := Prod.mk.inj g1
          rw [he] at g2; simp at g2
        · exact h1.stored c' b v' g1 g2
      · simp only [List.filter_cons, he, Except.toOption, Option.isSome_none]
        exact h1.once

theorem init_inv (f : C → A → Except PyErr V) : Inv f ({} : State C A V) := by
  refine ⟨rfl, List.nodup_nil, ?_, ?_, List.nodup_nil⟩ <;> simp

theorem runCalls_inv (f : C → A → Except PyErr V) (calls : List (C × A)) (s : State C A V) (h : Inv f s) :
    Inv f (runCalls f s calls).1 ∧ (runCalls f s calls).2 = calls.map (fun x => f x.1 x.2) := by
  induction calls generalizing s with
  | nil => exact ⟨h, rfl⟩
  | cons x xs ih =>
    obtain ⟨c, a⟩ := x
    obtain ⟨h1, h2⟩ := call_inv f s h c a
    obtain ⟨h3, h4⟩ := ih _ h1
    simp only [runCalls]
    exact ⟨h3, by simp [h2, h4]⟩

/-- C05: for every history of calls the memoised function returns (or raises) exactly what direct evaluation of the
undecorated function gives, call by call. -/
theorem C05_memoised_equals_direct (f : C → A → Except PyErr V) (calls : List (C × A)) :
    (runCalls f {} calls).2 = calls.map (fun x => f x.1 x.2) :=
  (runCalls_inv f calls {} (init_inv f)).2

/-- C05: over every history the undecorated function is evaluated successfully at most once for each combination of
component and remaining arguments. -/
theorem C05_evaluated_at_most_once (f : C → A → Except PyErr V) (calls : List (C × A)) :
    ((runCalls f {} calls).1.evals.filter fun e => (f e.1 e.2).toOption.isSome).Nodup :=
  (runCalls_inv f calls {} (init_inv f)).1.once

/-- A history with repeated and interleaved arguments: three evaluations serve five calls. -/
example : (runCalls (fun (c : Nat) (a : Nat) => .ok (c * 10 + a)) {} [(1, 2), (1, 3), (1, 2), (2, 2), (1, 3)]).1.evals
    = [(2, 2), (1, 3), (1, 2)] := by decide

/-- C05, negation for the method variant (`static_method=False`): with the right number of arguments the memoised method
raises `TypeError` on every call of every history, because the method is evaluated without `self`. -/
theorem C05_method_variant_always_fails {X Y : Type} [DecidableEq X] (arity : Nat) (f : List X → Except PyErr Y)
    (calls : List (X × X × List X)) :
    ∀ r ∈ (runMethodCalls arity f {} calls).2, Raises r .typeError := by
  have gen : ∀ (calls : List (X × X × List X)) (s : State X (List X) Y),
      (∀ d ∈ s.cache, d = []) → s.cache.length = s.spec.length →
      ∀ r ∈ (runMethodCalls arity f s calls).2, Raises r .typeError := by
    intro calls
    induction calls with
    | nil => intro s _ _ r hr; simp [runMethodCalls] at hr
    | cons x xs ih =>
      obtain ⟨i, c, a⟩ := x
      intro s hs hlen r hr
      have hfs : (∀ d ∈ (findSpec s a).1.cache, d = []) ∧ (findSpec s a).1.cache.length = (findSpec s a).1.spec.length ∧
          ∃ d, (findSpec s a).1.cache[(findSpec s a).2]? = some d := by
        unfold findSpec
        split
        · rename_i i hi
          rw [List.findIdx?_eq_some_iff_getElem] at hi
          exact ⟨hs, hlen, s.cache[i]'(by rw [hlen]; exact hi.1), by simp [hlen, hi.1]⟩
        · refine ⟨?_, by simp [hlen], [], by simp⟩
          intro d hd
          rcases List.mem_append.mp hd with hd | hd
          · exact hs d hd
          · simpa using hd
      have hcall : (methodCall arity f s i c a).2 = .error .typeError ∧
          (∀ d ∈ (methodCall arity f s i c a).1.cache, d = []) ∧
          (methodCall arity f s i c a).1.cache.length = (methodCall arity f s i c a).1.spec.length := by
        unfold methodCall
        split
        · exact ⟨rfl, hs, hlen⟩
        · rename_i har
          have har : a.length + 2 = arity := Decidable.of_not_not har
          have hpc : pyCall arity f (c :: a) = .error .typeError := by
            unfold pyCall
            rw [if_neg]
            simp only [List.length_cons]; omega
          obtain ⟨h1, h2, d, h3⟩ := hfs
          have hd : d = [] := h1 d (List.mem_of_getElem? h3)
          subst hd
          simp only [call, h3, lookup, List.find?_nil, Option.map_none, hpc]
          exact ⟨trivial, h1, h2⟩
      simp only [runMethodCalls, List.mem_cons] at hr
      rcases hr with rfl | hr
      · exact hcall.1
      · exact ih _ hcall.2.1 hcall.2.2 r hr
  exact gen calls {} (by simp) rfl

/-- Two calls. -/
example := C05_method_variant_always_fails 1 (fun x : List Nat => .ok x.length) [(1, 2, [3]), (1, 2, [])]

end Verif.Memo
