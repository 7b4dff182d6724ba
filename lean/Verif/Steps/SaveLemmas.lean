import Verif.Steps.Spec
import Verif.Steps.CheckProps

/-!
# Lemmas about `save_outputs`
-/

namespace Verif.Steps

variable {V : Type}

/-! ### One name -/

theorem mem_replaceParam (ps : List String) (p : String) (new : List String) (n : String) :
    n ∈ replaceParam ps p new ↔ if p ∈ ps then (n ∈ ps ∨ n ∈ new) ∧ n ≠ p else n ∈ ps := by
  unfold replaceParam
  by_cases h : p ∈ ps
  · simp [h, mem_unionSet]
  · simp [h]

theorem get?_update_of_not_mem (d e : Dict V) (n : String) (h : n ∉ e.keys) : (d.update e).get? n = d.get? n := by
  unfold Dict.update
  induction e generalizing d with
  | nil => rfl
  | cons a e ih =>
    rw [Dict.keys_cons, List.mem_cons, not_or] at h
    rw [List.foldl_cons, ih _ h.2, Dict.get?_set, if_neg h.1]

theorem get?_update_of_mem (d e : Dict V) (hn : e.keys.Nodup) (n : String) (v : V) (h : (n, v) ∈ e) :
    (d.update e).get? n = some v := by
  induction e generalizing d with
  | nil => simp at h
  | cons a e ih =>
    rw [Dict.keys_cons, List.nodup_cons] at hn
    rw [List.mem_cons] at h
    rcases h with rfl | h
    · have := get?_update_of_not_mem (d.set n v) e n hn.1
      unfold Dict.update at this ⊢
      rw [List.foldl_cons, this, Dict.get?_set, if_pos rfl]
    · have := ih (d.set a.1 a.2) hn.2 h
      unfold Dict.update at this ⊢
      rw [List.foldl_cons, this]

theorem nodup_fst_zip {α β : Type} (l : List α) (m : List β) (h : l.Nodup) : ((l.zip m).map Prod.fst).Nodup := by
  induction l generalizing m with
  | nil => simp
  | cons a l ih =>
    rw [List.nodup_cons] at h
    cases m with
    | nil => simp
    | cons b m =>
      simp only [List.zip_cons_cons, List.map_cons, List.nodup_cons]
      refine ⟨?_, ih m h.2⟩
      intro hm
      obtain ⟨⟨x, y⟩, hxy, rfl⟩ := List.mem_map.1 hm
      exact h.1 (List.of_mem_zip hxy).1

/-- The effect of the splitting of one name. -/
theorem expandPart_spec {p : Parts V} {st st' : Dict (FVal V) × List String} (h : expandPart p st = .ok st')
    (hnd : p.new.Nodup) (hne : p.name ∉ p.new) :
    st'.2 = replaceParam st.2 p.name p.new ∧
    Dict.get? st'.1 p.name = none ∧
    (∀ n, n ∉ p.new → n ≠ p.name → Dict.get? st'.1 n = Dict.get? st.1 n) ∧
    (∀ n, n ≠ p.name → Dict.get? st.1 p.name = none → Dict.get? st'.1 n = Dict.get? st.1 n) ∧
    (∀ f, Dict.get? st.1 p.name = some f → ∃ vs, p.get f = .ok vs ∧
      ∀ k v, (k, v) ∈ p.new.zip vs → Dict.get? st'.1 k = some (.val v)) := by
  unfold expandPart at h
  cases hg : Dict.get? st.1 p.name with
  | none =>
    rw [hg] at h
    simp only [Except.ok.injEq] at h
    subst h
    exact ⟨rfl, hg, fun _ _ _ => rfl, fun _ _ _ => rfl, by simp⟩
  | some f =>
    rw [hg] at h
    cases hv : p.get f with
    | error e => simp only [hv] at h; cases h
    | ok vs =>
      simp only [hv, Except.ok.injEq] at h
      subst h
      refine ⟨rfl, ?_, ?_, by simp, ?_⟩
      · rw [Dict.get?_erase, if_pos rfl]
      · intro n h1 h2
        rw [Dict.get?_erase, if_neg h2, get?_update_of_not_mem]
        intro hm
        simp only [Dict.keys, List.mem_map] at hm
        obtain ⟨⟨k, v⟩, hkv, rfl⟩ := hm
        exact h1 (List.of_mem_zip hkv).1
      · intro f' hf
        simp only [Option.some.injEq] at hf
        subst hf
        refine ⟨vs, hv, ?_⟩
        intro k v hkv
        have hk : k ∈ p.new := (List.of_mem_zip hkv).1
        rw [Dict.get?_erase, if_neg (by rintro rfl; exact hne hk)]
        apply get?_update_of_mem
        · simp only [Dict.keys]
          exact nodup_fst_zip _ _ hnd
        · rw [List.zip_map_right]
          exact List.mem_map.2 ⟨(k, v), hkv, rfl⟩

/-! ### All names -/

/-- The names and parts of a table do not clash. -/
structure Table (L : List (Parts V)) : Prop where
  names : (L.map Parts.name).Nodup
  parts : ∀ p ∈ L, p.new.Nodup
  apart : ∀ p ∈ L, ∀ q ∈ L, p.name ∉ q.new
  disjoint : ∀ p ∈ L, ∀ q ∈ L, p.name ≠ q.name → ∀ n ∈ p.new, n ∉ q.new

theorem Table.tail {p : Parts V} {L : List (Parts V)} (t : Table (p :: L)) : Table L where
  names := by have := t.names; simp only [List.map_cons, List.nodup_cons] at this; exact this.2
  parts q hq := t.parts q (List.mem_cons_of_mem _ hq)
  apart q hq r hr := t.apart q (List.mem_cons_of_mem _ hq) r (List.mem_cons_of_mem _ hr)
  disjoint q hq r hr := t.disjoint q (List.mem_cons_of_mem _ hq) r (List.mem_cons_of_mem _ hr)

theorem expandParts_spec (L : List (Parts V)) (t : Table L) (st st' : Dict (FVal V) × List String)
    (h : expandParts L st = .ok st') :
    (∀ n, n ∈ st'.2 ↔ (n ∈ st.2 ∧ n ∉ L.map Parts.name) ∨ ∃ p ∈ L, p.name ∈ st.2 ∧ n ∈ p.new) ∧
    (∀ p ∈ L, Dict.get? st'.1 p.name = none) ∧
    (∀ n, n ∉ L.map Parts.name → (∀ p ∈ L, Dict.get? st.1 p.name ≠ none → n ∉ p.new) → Dict.get? st'.1 n = Dict.get? st.1 n) ∧
    (∀ p ∈ L, ∀ f, Dict.get? st.1 p.name = some f → ∃ vs, p.get f = .ok vs ∧
      ∀ k v, (k, v) ∈ p.new.zip vs → Dict.get? st'.1 k = some (.val v)) := by
  induction L generalizing st with
  | nil =>
    simp only [expandParts, Except.ok.injEq] at h
    subst h
    simp
  | cons p L ih =>
    simp only [expandParts] at h
    cases hp : expandPart p st with
    | error e => rw [hp] at h; cases h
    | ok st1 =>
      rw [hp] at h
      obtain ⟨a1, a2, a3, a4, a5⟩ := expandPart_spec hp (t.parts p (by simp)) (t.apart p (by simp) p (by simp))
      obtain ⟨b1, b2, b3, b4⟩ := ih t.tail st1 h
      have hnames := t.names
      simp only [List.map_cons, List.nodup_cons] at hnames
      -- names of the other entries are not touched by `p`
      have hother : ∀ q ∈ L, Dict.get? st1.1 q.name = Dict.get? st.1 q.name := by
        intro q hq
        apply a3
        · exact t.apart q (List.mem_cons_of_mem _ hq) p (by simp)
        · intro e
          exact hnames.1 (e ▸ List.mem_map.2 ⟨q, hq, rfl⟩)
      have hne : ∀ q ∈ L, q.name ≠ p.name := by
        intro q hq e
        exact hnames.1 (e ▸ List.mem_map.2 ⟨q, hq, rfl⟩)
      have hpar : ∀ q ∈ L, (q.name ∈ st1.2 ↔ q.name ∈ st.2) := by
        intro q hq
        rw [a1, mem_replaceParam]
        have h1 := t.apart q (List.mem_cons_of_mem _ hq) p (by simp)
        split
        · simp [h1, hne q hq]
        · exact Iff.rfl
      refine ⟨?_, ?_, ?_, ?_⟩
      · intro n
        rw [b1, a1, mem_replaceParam]
        constructor
        · rintro (⟨h1, h2⟩ | ⟨q, hq, h1, h2⟩)
          · split at h1
            · rename_i hps
              rcases h1 with ⟨h1 | h1, h3⟩
              · exact Or.inl ⟨h1, by simp only [List.map_cons, List.mem_cons, not_or]; exact ⟨h3, h2⟩⟩
              · exact Or.inr ⟨p, by simp, hps, h1⟩
            · rename_i hps
              refine Or.inl ⟨h1, ?_⟩
              simp only [List.map_cons, List.mem_cons, not_or]
              exact ⟨by rintro rfl; exact hps h1, h2⟩
          · have := (hpar q hq).1 (a1 ▸ h1)
            exact Or.inr ⟨q, List.mem_cons_of_mem _ hq, this, h2⟩
        · rintro (⟨h1, h2⟩ | ⟨q, hq, h1, h2⟩)
          · simp only [List.map_cons, List.mem_cons, not_or] at h2
            refine Or.inl ⟨?_, h2.2⟩
            split
            · exact ⟨Or.inl h1, h2.1⟩
            · exact h1
          · rcases List.mem_cons.1 hq with rfl | hq
            · refine Or.inl ⟨?_, ?_⟩
              · rw [if_pos h1]
                refine ⟨Or.inr h2, ?_⟩
                rintro rfl
                exact t.apart q (by simp) q (by simp) h2
              · intro hm
                obtain ⟨r, hr, rfl⟩ := List.mem_map.1 hm
                exact t.apart r (List.mem_cons_of_mem _ hr) q (by simp) h2
            · exact Or.inr ⟨q, hq, by have := (hpar q hq).2 h1; rw [a1] at this; exact this, h2⟩
      · intro q hq
        rcases List.mem_cons.1 hq with rfl | hq
        · rw [b3 q.name hnames.1 (fun r hr _ => t.apart q (by simp) r (List.mem_cons_of_mem _ hr)), a2]
        · exact b2 q hq
      · intro n h1 h2
        simp only [List.map_cons, List.mem_cons, not_or] at h1
        rw [b3 n h1.2]
        · by_cases hpres : Dict.get? st.1 p.name = none
          · exact a4 n h1.1 hpres
          · exact a3 n (h2 p (by simp) hpres) h1.1
        · intro q hq hpres
          rw [hother q hq] at hpres
          exact h2 q (List.mem_cons_of_mem _ hq) hpres
      · intro q hq f hf
        rcases List.mem_cons.1 hq with rfl | hq
        · obtain ⟨vs, h1, h2⟩ := a5 f hf
          refine ⟨vs, h1, ?_⟩
          intro k v hkv
          have hk := (List.of_mem_zip hkv).1
          rw [b3 k]
          · exact h2 k v hkv
          · intro hm
            obtain ⟨r, hr, rfl⟩ := List.mem_map.1 hm
            exact t.apart r (List.mem_cons_of_mem _ hr) q (by simp) hk
          · intro r hr _
            exact t.disjoint q (by simp) r (List.mem_cons_of_mem _ hr) (fun e => hne r hr e.symm) k hk
        · rw [← hother q hq] at hf
          exact b4 q hq f hf

theorem expandParts_ok (L : List (Parts V)) (t : Table L) (st : Dict (FVal V) × List String)
    (h : ∀ p ∈ L, ∀ f, Dict.get? st.1 p.name = some f → ∃ vs, p.get f = .ok vs) : ∃ st', expandParts L st = .ok st' := by
  induction L generalizing st with
  | nil => exact ⟨st, rfl⟩
  | cons p L ih =>
    simp only [expandParts]
    cases hp : expandPart p st with
    | error e =>
      exfalso
      unfold expandPart at hp
      cases hg : Dict.get? st.1 p.name with
      | none => rw [hg] at hp; cases hp
      | some f =>
        obtain ⟨vs, hv⟩ := h p (by simp) f hg
        rw [hg] at hp
        simp only [hv] at hp
        cases hp
    | ok st1 =>
      obtain ⟨a1, a2, a3, a4, a5⟩ := expandPart_spec hp (t.parts p (by simp)) (t.apart p (by simp) p (by simp))
      apply ih t.tail
      intro q hq f hf
      apply h q (List.mem_cons_of_mem _ hq) f
      rw [← a3 q.name]
      · exact hf
      · exact t.apart q (List.mem_cons_of_mem _ hq) p (by simp)
      · intro e
        have := t.names
        simp only [List.map_cons, List.nodup_cons] at this
        exact this.1 (e ▸ List.mem_map.2 ⟨q, hq, rfl⟩)

/-! ### Missing names -/

theorem fillMissing_spec (execOk : String → Bool) (param : Option String) (order : List String) (d : Dict (FVal V))
    (missing : List String) (hp : param = none ∨ param = some "surface_2_points")
    (ho : ∀ n ∈ order, n ∈ missing) (hm : ∀ n ∈ missing, Dict.get? d n = none) (hnd : order.Nodup) :
    (∀ n, n ∉ missing → Dict.get? (fillMissing execOk param order d missing).1 n = Dict.get? d n) ∧
    (∀ n ∈ (fillMissing execOk param order d missing).2, n ∈ missing) ∧
    (∀ n ∈ missing, n ∉ (fillMissing execOk param order d missing).2 →
      Dict.get? (fillMissing execOk param order d missing).1 n = some (.str "surface_2_points")) := by
  -- `rem` are the names still in the set, `missing` those at the start
  have gen : ∀ (order : List String) (param : Option String) (d : Dict (FVal V)) (rem : List String),
      (param = none ∨ param = some "surface_2_points") →
      (∀ n ∈ order, n ∈ rem) → order.Nodup → (∀ n ∈ rem, n ∈ missing) →
      (∀ n ∈ missing, n ∉ rem → Dict.get? d n = some (.str "surface_2_points")) →
      (∀ n, n ∉ missing → Dict.get? (fillMissing execOk param order d rem).1 n = Dict.get? d n) ∧
      (∀ n ∈ (fillMissing execOk param order d rem).2, n ∈ missing) ∧
      (∀ n ∈ missing, n ∉ (fillMissing execOk param order d rem).2 →
        Dict.get? (fillMissing execOk param order d rem).1 n = some (.str "surface_2_points")) := by
    intro order
    induction order with
    | nil =>
      intro param d rem _ _ _ hr hj
      exact ⟨fun _ _ => rfl, hr, hj⟩
    | cons mo order ih =>
      intro param d rem hp ho hnd hr hj
      rw [List.nodup_cons] at hnd
      have hmo : mo ∈ missing := hr mo (ho mo (by simp))
      have hstep : ∀ param', (param' = none ∨ param' = some "surface_2_points") →
          (if isSurfaceAttr mo then (if execOk mo then param else none) else param) = param' →
          (∀ n, n ∉ missing → Dict.get? (fillMissing execOk param (mo :: order) d rem).1 n = Dict.get? d n) ∧
          (∀ n ∈ (fillMissing execOk param (mo :: order) d rem).2, n ∈ missing) ∧
          (∀ n ∈ missing, n ∉ (fillMissing execOk param (mo :: order) d rem).2 →
            Dict.get? (fillMissing execOk param (mo :: order) d rem).1 n = some (.str "surface_2_points")) := by
        intro param' hp' he
        simp only [fillMissing, he]
        rcases hp' with rfl | rfl
        · exact ih none d rem (Or.inl rfl) (fun n hn => ho n (List.mem_cons_of_mem _ hn)) hnd.2 hr hj
        · obtain ⟨c1, c2, c3⟩ := ih (some "surface_2_points") (d.set mo (.str "surface_2_points"))
            (rem.filter (fun n => n != mo)) (Or.inr rfl)
            (by
              intro n hn
              simp only [List.mem_filter, bne_iff_ne]
              exact ⟨ho n (List.mem_cons_of_mem _ hn), by rintro rfl; exact hnd.1 hn⟩) hnd.2
            (fun n hn => hr n (List.mem_filter.1 hn).1)
            (by
              intro n hn hn'
              rw [Dict.get?_set]
              split
              · rfl
              · rename_i hne
                apply hj n hn
                intro h
                exact hn' (by simp [List.mem_filter, h, hne]))
          refine ⟨?_, c2, c3⟩
          intro n hn
          rw [c1 n hn, Dict.get?_set, if_neg (by rintro rfl; exact hn hmo)]
      apply hstep _ _ rfl
      split
      · split
        · exact hp
        · exact Or.inl rfl
      · exact hp
  exact gen order param d missing hp ho hnd (fun _ h => h) (fun n hn hn' => absurd hn hn')

/-- If no `exec` fails every missing name is given the same string. -/
theorem fillMissing_all (execOk : String → Bool) (order : List String) (d : Dict (FVal V)) (missing : List String) (s : String)
    (he : ∀ n ∈ order, isSurfaceAttr n = true → execOk n = true) :
    ∀ n ∈ order, n ∉ (fillMissing execOk (some s) order d missing).2 := by
  induction order generalizing d missing with
  | nil => simp
  | cons mo order ih =>
    have hstep : (if isSurfaceAttr mo then (if execOk mo then some s else none) else some s) = some s := by
      by_cases h : isSurfaceAttr mo = true
      · simp [h, he mo (by simp) h]
      · simp [h]
    have hsub : ∀ (order : List String) (param : Option String) (d : Dict (FVal V)) (missing : List String),
        ∀ n ∈ (fillMissing execOk param order d missing).2, n ∈ missing := by
      intro order
      induction order with
      | nil => intro _ _ _ n h; exact h
      | cons a order ih =>
        intro param d missing n h
        simp only [fillMissing] at h
        split at h
        · exact (List.mem_filter.1 (ih _ _ _ n h)).1
        · exact ih _ _ _ n h
    intro n hn
    simp only [fillMissing, hstep]
    rcases List.mem_cons.1 hn with rfl | hn
    · intro h
      have := hsub _ _ _ _ n h
      simp [List.mem_filter] at this
    · exact ih _ _ (fun n hn => he n (List.mem_cons_of_mem _ hn)) n hn

theorem collect_spec (d : Dict (FVal V)) (ks : List String) (r : Dict (FVal V)) (h : collect d ks = .ok r) :
    ∀ k v, (k, v) ∈ r ↔ k ∈ ks ∧ Dict.get? d k = some v := by
  induction ks generalizing r with
  | nil =>
    simp only [collect, Except.ok.injEq] at h
    subst h
    simp
  | cons k ks ih =>
    simp only [collect] at h
    cases hk : Dict.get? d k with
    | none => rw [hk] at h; cases h
    | some v =>
      rw [hk] at h
      cases hc : collect d ks with
      | error e => simp only [hc] at h; cases h
      | ok r' =>
        simp only [hc, Except.ok.injEq] at h
        subst h
        intro k' v'
        rw [List.mem_cons, ih r' hc, List.mem_cons, Prod.mk.injEq]
        constructor
        · rintro (⟨rfl, rfl⟩ | ⟨h1, h2⟩)
          · exact ⟨Or.inl rfl, hk⟩
          · exact ⟨Or.inr h1, h2⟩
        · rintro ⟨rfl | h1, h2⟩
          · rw [hk] at h2
            simp only [Option.some.injEq] at h2
            exact Or.inl ⟨rfl, h2.symm⟩
          · exact Or.inr ⟨h1, h2⟩

theorem collect_ok (d : Dict (FVal V)) (ks : List String) (h : ∀ k ∈ ks, Dict.get? d k ≠ none) : ∃ r, collect d ks = .ok r := by
  induction ks with
  | nil => exact ⟨[], rfl⟩
  | cons k ks ih =>
    obtain ⟨r, hr⟩ := ih (fun k hk => h k (List.mem_cons_of_mem _ hk))
    simp only [collect]
    cases hk : Dict.get? d k with
    | none => exact absurd hk (h k (by simp))
    | some v => exact ⟨(k, v) :: r, by simp [hr]⟩

/-! ### The requested names -/

theorem mem_requestedNames (outputs : List Output) (n : String) : n ∈ requestedNames outputs ↔ Requested outputs n := by
  have gen : ∀ (outputs : List Output) (s : List String),
      n ∈ outputs.foldl (fun s o => if o.active then unionSet s o.parameters else s) s ↔
        n ∈ s ∨ ∃ o ∈ outputs, o.active = true ∧ n ∈ o.parameters := by
    intro outputs
    induction outputs with
    | nil => intro s; simp
    | cons o outputs ih =>
      intro s
      rw [List.foldl_cons, ih]
      by_cases h : o.active = true
      · simp [h, mem_unionSet, or_assoc]
      · simp [h]
  unfold requestedNames Requested
  rw [gen]
  simp

end Verif.Steps
