import Verif.Steps.SaveProps

/-!
# C63: the check of the outputs predicts what can be saved
-/

namespace Verif.Steps

variable {V : Type}

/-- The effect of replacing the names of a table. -/
theorem mem_foldl_replace (L : List (Parts V)) (t : Table L) (s : List String) (n : String) :
    n ∈ L.foldl (fun s p => replaceParam s p.name p.new) s ↔
      (n ∈ s ∧ n ∉ L.map Parts.name) ∨ ∃ p ∈ L, p.name ∈ s ∧ n ∈ p.new := by
  have h : ∀ (L : List (Parts V)) (s : List String),
      expandParts L ([], s) = .ok ([], L.foldl (fun s p => replaceParam s p.name p.new) s) := by
    intro L
    induction L with
    | nil => intro s; rfl
    | cons p L ih => intro s; simp only [expandParts, expandPart, Dict.get?, List.foldl_cons]; exact ih _
  exact (expandParts_spec L t ([], s) _ (h L s)).1 n

theorem foldl_pair {α β : Type} (f : α → β → α) (L : List β) (a b : α) :
    L.foldl (fun (st : α × α) p => (f st.1 p, f st.2 p)) (a, b) = (L.foldl f a, L.foldl f b) := by
  induction L generalizing a b with
  | nil => rfl
  | cons p L ih => simp only [List.foldl_cons, ih]

theorem tripleTable : Table (tripleNames V) where
  names := by
    simp only [tripleNames, List.map_cons, List.map_nil]
    decide
  parts p hp := table.parts p (List.mem_append_left _ hp)
  apart p hp q hq := table.apart p (List.mem_append_left _ hp) q (List.mem_append_left _ hq)
  disjoint p hp q hq := table.disjoint p (List.mem_append_left _ hp) q (List.mem_append_left _ hq)

/-- The quantities that are certainly in the state before saving. -/
theorem mem_checked (s : List String) (n : String) :
    n ∈ (tripleNames Unit).foldl (fun s p => replaceParam s p.name p.new) s ↔
      (n ∈ s ∧ n ∉ components) ∨ ∃ c ∈ components, c ∈ s ∧ (n = c ++ "_x" ∨ n = c ++ "_y" ∨ n = c ++ "_z") := by
  rw [mem_foldl_replace _ tripleTable, show (tripleNames Unit).map Parts.name = components from rfl]
  constructor
  · rintro (h | ⟨p, hp, h1, h2⟩)
    · exact Or.inl h
    · obtain ⟨c, hc, rfl⟩ := (mem_tripleNames _).1 hp
      exact Or.inr ⟨c, hc, h1, by simpa using h2⟩
  · rintro (h | ⟨c, hc, h1, h2⟩)
    · exact Or.inl h
    · exact Or.inr ⟨_, (mem_tripleNames _).2 ⟨c, hc, rfl⟩, h1, by simpa using h2⟩

/-- Every name in the state is provided: itself, or by its parts. -/
theorem provides_of_mem {state : Dict (FVal V)} (w : WellFormed state) {n : String} {f : FVal V} (h : (n, f) ∈ state)
    (h1 : n ∉ components) (h2 : n ∉ coordinates) : ∃ v, Provides state n v := by
  by_cases hd : Derived state n
  · rcases hd with ⟨c, hc, ⟨f, hf⟩, hn⟩ | ⟨c, hc, ⟨f, hf⟩, hn⟩
    · obtain ⟨x, y, z, rfl⟩ := w.triples c hc f hf
      rcases hn with rfl | rfl | rfl
      · exact ⟨_, .x c x y z hc hf⟩
      · exact ⟨_, .y c x y z hc hf⟩
      · exact ⟨_, .z c x y z hc hf⟩
    · obtain ⟨a, b, rfl⟩ := w.pairs c hc f hf
      rcases hn with rfl | rfl
      · exact ⟨_, .px c a b hc hf⟩
      · exact ⟨_, .py c a b hc hf⟩
  · exact ⟨f, .plain n f h h1 h2 hd⟩

theorem all_names_mem (outputs : List Output) (n : String) :
    n ∈ outputs.foldl (fun s o => unionSet s o.parameters) ["time"] ↔ n = "time" ∨ ∃ o ∈ outputs, n ∈ o.parameters := by
  have gen : ∀ (outputs : List Output) (s : List String),
      n ∈ outputs.foldl (fun s o => unionSet s o.parameters) s ↔ n ∈ s ∨ ∃ o ∈ outputs, n ∈ o.parameters := by
    intro outputs
    induction outputs with
    | nil => intro s; simp
    | cons o outputs ih =>
      intro s
      rw [List.foldl_cons, ih, mem_unionSet]
      simp [or_assoc]
  rw [gen]
  simp

/-- **C63**: if the check of the outputs reports neither a missing output nor a surface attribute that it cannot check, and the state
at the time of saving has the names that the check was given, then every quantity asked for by name is provided by the state. -/
theorem provided_of_checked (outputs : List Output) (names : List String) (state : Dict (FVal V)) (w : WellFormed state)
    (hs : ∀ n ∈ names, ∃ f, (n, f) ∈ state) (hc : checkOutputs outputs names = ([], []))
    (n : String) (hn : Named outputs n) : ∃ v, Provides state n v := by
  -- every requested name other than `all` is found in the checked state, after splitting
  unfold checkOutputs at hc
  simp only at hc
  generalize hp1 : outputs.foldl (fun s o => unionSet s o.parameters) ["time"] = p1 at hc
  have hp1m : ∀ m, Requested outputs m → m ∈ p1 := by
    intro m hm
    rw [← hp1, all_names_mem]
    rcases hm with h | ⟨o, ho, -, h⟩
    · exact Or.inl h
    · exact Or.inr ⟨o, ho, h⟩
  generalize hp2 : (if p1.contains "all" then (unionSet p1 names).filter (fun n => n != "all") else p1) = p2 at hc
  have hp2m : ∀ m, Requested outputs m → m ≠ "all" → m ∈ p2 := by
    intro m hm hne
    rw [← hp2]
    split
    · simp only [List.mem_filter, mem_unionSet, bne_iff_ne]
      exact ⟨Or.inl (hp1m m hm), hne⟩
    · exact hp1m m hm
  rw [foldl_pair (fun (s : List String) (p : Parts Unit) => replaceParam s p.name p.new)] at hc
  simp only [Prod.mk.injEq] at hc
  have hfound : ∀ m, m ∈ (tripleNames Unit).foldl (fun s p => replaceParam s p.name p.new) p2 →
      m ∈ (tripleNames Unit).foldl (fun s p => replaceParam s p.name p.new) names := by
    intro m hm
    refine Classical.byContradiction fun hno => ?_
    have hmm : m ∈ ((tripleNames Unit).foldl (fun s p => replaceParam s p.name p.new) p2).filter
        (fun n => !((tripleNames Unit).foldl (fun s p => replaceParam s p.name p.new) names).contains n) := by
      simp only [List.mem_filter, Bool.not_eq_true', List.contains_eq_mem, decide_eq_false_iff_not]
      exact ⟨hm, hno⟩
    by_cases hsa : isSurfaceAttr m = true
    · have : m ∈ ([] : List String) := by
        rw [← hc.2, List.mem_filter]
        exact ⟨hmm, hsa⟩
      simp at this
    · have : m ∈ ([] : List String) := by
        rw [← hc.1, List.mem_filter]
        exact ⟨hmm, by simpa using hsa⟩
      simp at this
  simp only [mem_checked] at hfound
  -- the value of a component
  have hcomp : ∀ c ∈ components, c ∈ names → ∀ m, (m = c ++ "_x" ∨ m = c ++ "_y" ∨ m = c ++ "_z") → ∃ v, Provides state m v := by
    intro c hc hcn m hm
    obtain ⟨f, hf⟩ := hs c hcn
    obtain ⟨x, y, z, rfl⟩ := w.triples c hc f hf
    rcases hm with rfl | rfl | rfl
    · exact ⟨_, .x c x y z hc hf⟩
    · exact ⟨_, .y c x y z hc hf⟩
    · exact ⟨_, .z c x y z hc hf⟩
  have hres : ∀ m, m ∉ coordinates → ((m ∈ p2 ∧ m ∉ components) ∨ ∃ c ∈ components, c ∈ p2 ∧ (m = c ++ "_x" ∨ m = c ++ "_y" ∨ m = c ++ "_z")) →
      ∃ v, Provides state m v := by
    intro m hmc hm
    rcases hfound m hm with ⟨h1, h2⟩ | ⟨c, hc, h1, h2⟩
    · obtain ⟨f, hf⟩ := hs m h1
      exact provides_of_mem w hf h2 hmc
    · exact hcomp c hc h1 m h2
  have hcoord : ∀ c ∈ components, ∀ m, (m = c ++ "_x" ∨ m = c ++ "_y" ∨ m = c ++ "_z") → m ∉ coordinates := by
    intro c hc
    simp only [components, List.mem_cons, List.not_mem_nil, or_false] at hc
    rcases hc with rfl | rfl | rfl | rfl <;> rintro m (rfl | rfl | rfl) <;> decide
  rcases hn with ⟨h1, h2, h3, h4⟩ | ⟨c, hcc, h1, h2⟩ | ⟨c, hcc, h1, h2⟩
  · exact hres n h3 (Or.inl ⟨hp2m n h1 h4, h2⟩)
  · refine hres n (hcoord c hcc n h2) (Or.inr ⟨c, hcc, hp2m c h1 ?_, h2⟩)
    rintro rfl; exact absurd hcc (by decide)
  · have hc2 : c ∈ p2 := hp2m c h1 (by rintro rfl; exact absurd hcc (by decide))
    have hcn : c ∉ components := by
      intro h
      simp only [coordinates, List.mem_cons, List.not_mem_nil, or_false] at hcc
      rcases hcc with rfl | rfl <;> exact absurd h (by decide)
    rcases hfound c (Or.inl ⟨hc2, hcn⟩) with ⟨h3, -⟩ | ⟨c', hc', -, h4⟩
    · obtain ⟨f, hf⟩ := hs c h3
      obtain ⟨a, b, rfl⟩ := w.pairs c hcc f hf
      rcases h2 with rfl | rfl
      · exact ⟨_, .px c a b hcc hf⟩
      · exact ⟨_, .py c a b hcc hf⟩
    · exact absurd hcc (hcoord c' hc' c h4)

/-- **C63**: … and so the record that is written contains every quantity asked for with the value the state provides, and nothing
else than what is asked for: no name is saved as a string by mistake. -/
theorem C63_checked_outputs_are_saved (ord : List String → List String) (hord : IterOrder ord) (execOk : String → Bool)
    (outputs : List Output) (hne : outputs ≠ []) (names : List String) (state : Dict (FVal V)) (w : WellFormed state)
    (hs : ∀ n ∈ names, ∃ f, (n, f) ∈ state) (hc : checkOutputs outputs names = ([], [])) :
    ∃ r, saveOutputs ord execOk outputs state = .ok [r] ∧
      (∀ n, Named outputs n → ∃ v, (n, v) ∈ r) ∧
      ∀ n v, (n, v) ∈ r ↔ Provides state n v ∧ (Named outputs n ∨ Requested outputs "all") := by
  obtain ⟨r, h1, h2, h3⟩ := C22_one_record_with_everything_requested_partial ord hord execOk outputs hne state w
  have hprov := provided_of_checked outputs names state w hs hc
  refine ⟨r, h1, ?_, ?_⟩
  · intro n hn
    obtain ⟨v, hv⟩ := hprov n hn
    exact ⟨v, (h2 n v hv).2 (Or.inl hn)⟩
  · intro n v
    constructor
    · intro hv
      rcases h3 n v hv with h | ⟨hn, hno, -⟩
      · exact ⟨h, (h2 n v h).1 hv⟩
      · exact absurd (hprov n hn) hno
    · rintro ⟨hv, hn⟩
      exact (h2 n v hv).2 hn

example : checkOutputs [⟨["loads", "gap"], true⟩, ⟨["surface_1_points"], false⟩, ⟨["all"], true⟩]
    ["time", "loads", "surface_1_points", "gap"] = ([], []) ∧
    (∀ n ∈ ["time", "loads", "surface_1_points", "gap"], ∃ f, (n, f) ∈ exampleState) := by
  refine ⟨by decide, ?_⟩
  intro n hn
  simp only [List.mem_cons, List.not_mem_nil, or_false] at hn
  rcases hn with rfl | rfl | rfl | rfl <;> simp [exampleState]

/-- **C63**: a quantity that is asked for and that will not be provided is always reported, unless it has the form of a surface
attribute (then there is a warning that it cannot be checked). -/
theorem C63_missing_output_reported (outputs : List Output) (names : List String) (n : String) (o : Output) (ho : o ∈ outputs)
    (hno : n ∈ o.parameters) (hall : n ≠ "all") (hcomp : n ∉ components) (hmiss : n ∉ names)
    (hd : ∀ c ∈ components, c ∈ names → n ≠ c ++ "_x" ∧ n ≠ c ++ "_y" ∧ n ≠ c ++ "_z") :
    if isSurfaceAttr n then n ∈ (checkOutputs outputs names).2 else n ∈ (checkOutputs outputs names).1 := by
  have hp1 : n ∈ outputs.foldl (fun s o => unionSet s o.parameters) ["time"] := (all_names_mem outputs n).2 (Or.inr ⟨o, ho, hno⟩)
  unfold checkOutputs
  simp only
  generalize outputs.foldl (fun s o => unionSet s o.parameters) ["time"] = p1 at hp1
  have hp2 : n ∈ (if p1.contains "all" then (unionSet p1 names).filter (fun n => n != "all") else p1) := by
    split
    · simp only [List.mem_filter, mem_unionSet, bne_iff_ne]
      exact ⟨Or.inl hp1, hall⟩
    · exact hp1
  generalize (if p1.contains "all" then (unionSet p1 names).filter (fun n => n != "all") else p1) = p2 at hp2
  rw [foldl_pair (fun (s : List String) (p : Parts Unit) => replaceParam s p.name p.new)]
  have hin : n ∈ ((tripleNames Unit).foldl (fun s p => replaceParam s p.name p.new) p2).filter
      (fun n => !((tripleNames Unit).foldl (fun s p => replaceParam s p.name p.new) names).contains n) := by
    simp only [List.mem_filter, Bool.not_eq_true', List.contains_eq_mem, decide_eq_false_iff_not, mem_checked]
    refine ⟨Or.inl ⟨hp2, hcomp⟩, ?_⟩
    rintro (⟨h, -⟩ | ⟨c, hc, h1, h2⟩)
    · exact hmiss h
    · obtain ⟨a, b, d⟩ := hd c hc h1
      rcases h2 with h | h | h
      · exact a h
      · exact b h
      · exact d h
  by_cases hsa : isSurfaceAttr n = true
  · rw [if_pos hsa, List.mem_filter]; exact ⟨hin, hsa⟩
  · rw [if_neg hsa, List.mem_filter]; exact ⟨hin, by simpa using hsa⟩

example : checkOutputs [⟨["loads", "presure", "surface_1.profile"], true⟩] ["time", "loads", "pressure"] = (["presure"], ["surface_1.profile"]) := by
  decide

end Verif.Steps
