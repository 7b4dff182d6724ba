/-!
# Python dictionaries with insertion order

A dictionary with string keys is the list of its items. `Dict.set` is `d[k] = v`: the value of an existing key is replaced in
place, a new key goes to the end (the behaviour of `dict` and `OrderedDict`).
-/

namespace Verif

abbrev Dict (V : Type _) := List (String × V)

namespace Dict

variable {V : Type _}

/-- `list(d)`. -/
def keys (d : Dict V) : List String := d.map Prod.fst

/-- `d.get(k)`. -/
def get? : Dict V → String → Option V
  | [], _ => none
  | (k', v) :: d, k => if k' = k then some v else get? d k

/-- `d[k] = v`. -/
def set : Dict V → String → V → Dict V
  | [], k, v => [(k, v)]
  | (k', v') :: d, k, v => if k' = k then (k', v) :: d else (k', v') :: set d k v

/-- `d.pop(k, None)`. -/
def erase (d : Dict V) (k : String) : Dict V := d.filter (fun e => e.1 ≠ k)

/-- `d.update(e)`. -/
def update (d e : Dict V) : Dict V := e.foldl (fun d kv => set d kv.1 kv.2) d

theorem get?_set (d : Dict V) (k : String) (v : V) (j : String) :
    get? (set d k v) j = if j = k then some v else get? d j := by
  induction d with
  | nil =>
    by_cases h : j = k
    · simp [set, get?, h]
    · have h' : ¬ k = j := fun e => h e.symm
      simp [set, get?, h, h']
  | cons a d ih =>
    obtain ⟨k', v'⟩ := a
    by_cases h1 : k' = k
    · subst h1
      simp only [set, if_true, get?]
      by_cases h2 : k' = j
      · simp [h2]
      · simp [h2, Ne.symm h2]
    · simp only [set, if_neg h1, get?, ih]
      by_cases h2 : k' = j
      · subst h2; simp [h1]
      · simp [h2]

theorem mem_keys_iff (d : Dict V) (k : String) : k ∈ keys d ↔ ∃ v, get? d k = some v := by
  induction d with
  | nil => simp [keys, get?]
  | cons a d ih =>
    obtain ⟨k', v'⟩ := a
    by_cases h : k' = k
    · simp [keys, get?, h]
    · have h' : ¬ k = k' := fun e => h e.symm
      simp only [keys, List.map_cons, List.mem_cons, h', false_or, get?, if_neg h]
      exact ih

theorem keys_cons (a : String × V) (d : Dict V) : keys (a :: d) = a.1 :: keys d := rfl

theorem keys_set (d : Dict V) (k : String) (v : V) :
    keys (set d k v) = if k ∈ keys d then keys d else keys d ++ [k] := by
  induction d with
  | nil => simp [keys, set]
  | cons a d ih =>
    obtain ⟨k', v'⟩ := a
    by_cases h : k' = k
    · simp [set, keys, h]
    · have h' : ¬ k = k' := fun e => h e.symm
      rw [set, if_neg h, keys_cons, keys_cons, ih]
      by_cases hk : k ∈ keys d <;> simp [hk, h']

theorem mem_keys_set (d : Dict V) (k : String) (v : V) (j : String) :
    j ∈ keys (set d k v) ↔ j = k ∨ j ∈ keys d := by
  rw [keys_set]
  split
  · constructor
    · exact Or.inr
    · rintro (rfl | h) <;> assumption
  · simp [or_comm]

theorem nodup_set (d : Dict V) (k : String) (v : V) (h : (keys d).Nodup) : (keys (set d k v)).Nodup := by
  rw [keys_set]
  split
  · exact h
  · rename_i hk
    rw [List.nodup_append]
    refine ⟨h, by simp, ?_⟩
    intro a ha b hb
    simp only [List.mem_singleton] at hb
    subst hb
    exact fun e => hk (e ▸ ha)

theorem get?_eq_some_of_mem {d : Dict V} (h : (keys d).Nodup) {k : String} {v : V} (hm : (k, v) ∈ d) :
    get? d k = some v := by
  induction d with
  | nil => simp at hm
  | cons a d ih =>
    obtain ⟨k', v'⟩ := a
    simp only [keys, List.map_cons, List.nodup_cons] at h
    simp only [List.mem_cons] at hm
    rcases hm with hm | hm
    · cases hm; simp [get?]
    · have hk : k' ≠ k := by
        rintro rfl
        exact h.1 (List.mem_map.2 ⟨_, hm, rfl⟩)
      simp only [get?, if_neg hk]
      exact ih h.2 hm

theorem mem_of_get? {d : Dict V} {k : String} {v : V} (h : get? d k = some v) : (k, v) ∈ d := by
  induction d with
  | nil => simp [get?] at h
  | cons a d ih =>
    obtain ⟨k', v'⟩ := a
    by_cases hk : k' = k
    · simp only [get?, hk, if_true, Option.some.injEq] at h
      subst hk; subst h; simp
    · simp only [get?, if_neg hk] at h
      exact List.mem_cons_of_mem _ (ih h)

theorem get?_erase (d : Dict V) (k j : String) : get? (erase d k) j = if j = k then none else get? d j := by
  induction d with
  | nil => simp [erase, get?]
  | cons a d ih =>
    obtain ⟨k', v'⟩ := a
    simp only [erase] at ih
    by_cases h1 : k' = k
    · subst h1
      simp only [erase, List.filter_cons, ne_eq, not_true_eq_false, decide_false, Bool.false_eq_true, if_false, ih, get?]
      by_cases h2 : j = k'
      · simp [h2]
      · simp [h2, Ne.symm h2]
    · simp only [erase, List.filter_cons, ne_eq, h1, not_false_eq_true, decide_true, if_true, get?, ih]
      by_cases h2 : k' = j
      · subst h2; simp [h1]
      · simp [h2]

end Dict

end Verif
