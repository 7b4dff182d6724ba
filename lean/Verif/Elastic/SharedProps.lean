import Verif.Elastic.Lemmas

/-!
# Properties C03-C04: what one `Elastic` material knows about the others

All instances share the class attributes `_properties` and `_last_set`. The theorems quantify over every state of the
program (C03, success case) or over every history of operations.
-/

namespace Verif.Elastic

/-! ### Helper lemmas -/

lemma ofName?_name (k : Key) : Key.ofName? k.name = some k := by cases k <;> simp [Key.ofName?, Key.name]

lemma ofName?_inj {r : String} {a : Key} (h : Key.ofName? r = some a) : r = a.name := by
  unfold Key.ofName? at h
  repeat' split at h
  all_goals simp_all [Key.name]
  all_goals (subst h; rfl)

lemma branch_keeps (a b : Key) (x y : ℝ) (p : Six) (h : branch a b x y = .ok p) : p.get a = x ∧ p.get b = y := by
  cases a <;> cases b <;> simp only [branch, Except.ok.injEq, reduceCtorEq] at h <;> subst h <;> simp [Six.get]

/-- The two given values are among the returned ones. -/
lemma getProperties_keeps (a b : Key) (x y : Option ℝ) (p : Six)
    (h : getProperties [(a.name, x), (b.name, y)] = .ok p) : x = some (p.get a) ∧ y = some (p.get b) := by
  simp only [getProperties, ofName?_name] at h
  rcases x with _ | x <;> rcases y with _ | y <;> simp only [reduceCtorEq] at h
  split at h
  · obtain ⟨h1, h2⟩ := branch_keeps _ _ _ _ _ h; simp [h1, h2]
  · obtain ⟨h1, h2⟩ := branch_keeps _ _ _ _ _ h; simp [h1, h2]

lemma props_store (s : State) (i : Nat) (k q : Key) (x : ℝ) :
    (s.store i k x).props i q = if q = k then some x else s.props i q := by
  unfold State.store State.props
  rcases h : s.own i with _ | d
  · simp only [h, Function.update_apply]
  · simp only [Function.update_self, Function.update_apply]

lemma last_store (s : State) (i : Nat) (k : Key) (x : ℝ) : (s.store i k x).last = s.last := by
  unfold State.store; split <;> rfl

lemma pushLast_head (l : List Key) (k : Key) : ∃ t, pushLast l k = k :: t := by
  unfold pushLast
  rcases l with _ | ⟨h, t⟩
  · exact ⟨[], rfl⟩
  · by_cases e : h = k
    · exact ⟨t, by simp [e]⟩
    · exact ⟨h :: t, by simp [e]⟩

lemma pushLast_ne (l : List Key) (k j : Key) (t : List Key) (hl : l = j :: t) (h : j ≠ k) :
    pushLast l k = k :: j :: t := by
  subst hl; simp [pushLast, h]

/-- After a successful assignment the material reads back the assigned value and the newest shared entry is its name. -/
lemma setProp_ok (s s' : State) (i : Nat) (k : Key) (x : ℝ) (h : setProp s i k x = (s', none)) :
    s'.props i k = some x ∧ ∃ t, s'.last = k :: t := by
  unfold setProp at h
  obtain ⟨t, ht⟩ := pushLast_head (s.store i k x).last k
  simp only [ht] at h
  rcases t with _ | ⟨j, t⟩
  · simp only [Prod.mk.injEq, and_true] at h
    subst h
    refine ⟨?_, [], rfl⟩
    have := props_store s i k k x
    simpa [State.props] using this
  · simp only at h
    split at h
    · rename_i p hp
      simp only [Prod.mk.injEq, and_true] at h
      subst h
      obtain ⟨h1, -⟩ := getProperties_keeps _ _ _ _ _ hp
      exact ⟨by simp [State.props, ← h1], _, rfl⟩
    · simp at h

/-- An assignment that has a partner recomputes everything from the assigned value and the partner. -/
lemma setProp_partner (s : State) (i : Nat) (k j : Key) (x : ℝ) (t : List Key) (hl : s.last = j :: t) (hjk : j ≠ k)
    (y : Option ℝ) (hy : s.props i j = y) :
    (∀ p, getProperties [(k.name, some x), (j.name, y)] = .ok p →
      ∃ s', setProp s i k x = (s', none) ∧ ∀ q, s'.props i q = some (p.get q)) ∧
    (∀ e, getProperties [(k.name, some x), (j.name, y)] = .error e → (setProp s i k x).2 = some e) := by
  have hp : pushLast (s.store i k x).last k = k :: j :: t := by
    rw [last_store]; exact pushLast_ne _ _ _ _ hl hjk
  have hpr : ({ s.store i k x with last := k :: j :: t } : State).props i j = y := by
    have := props_store s i k j x
    rw [if_neg hjk, hy] at this
    simpa [State.props] using this
  constructor
  · intro p hg
    unfold setProp
    simp only [hp, hpr, hg]
    exact ⟨_, rfl, fun q => by simp [State.props]⟩
  · intro e hg
    unfold setProp
    simp only [hp, hpr, hg]

/-- The own dictionary of another material is not touched by an assignment. -/
lemma setProp_own_other (s : State) (i j : Nat) (k : Key) (x : ℝ) (h : j ≠ i) :
    (setProp s i k x).1.own j = s.own j := by
  have hst : (s.store i k x).own j = s.own j := by
    unfold State.store
    split
    · simp [Function.update_of_ne h]
    · rfl
  unfold setProp
  obtain ⟨t, ht⟩ := pushLast_head (s.store i k x).last k
  simp only [ht]
  rcases t with _ | ⟨p, t⟩
  · exact hst
  · simp only
    split
    · simp [Function.update_of_ne h, hst]
    · exact hst

lemma setAll_own_other (l : List (String × ℝ)) (s : State) (i j : Nat) (h : j ≠ i) :
    (setAll s i l).1.own j = s.own j := by
  induction l generalizing s with
  | nil => rfl
  | cons a l ih =>
    obtain ⟨n, x⟩ := a
    simp only [setAll]
    split
    · rfl
    · rename_i k _
      have := setProp_own_other s i j k x h
      rcases hs : setProp s i k x with ⟨s', _ | e⟩
      · simp only; rw [ih s', ← this, hs]
      · simp only; rw [← this, hs]

lemma step_own_other (s : State) (o : Op) (j : Nat) (h : ¬ o.on j) : (step s o).1.own j = s.own j := by
  cases o with
  | new i props =>
    simp only [Op.on] at h
    simp only [step, construct]
    split
    · rfl
    · rw [setAll_own_other _ _ _ _ (Ne.symm h)]
      simp [Function.update_of_ne (Ne.symm h)]
  | set i k x => exact setProp_own_other s i j k x (Ne.symm h)
  | del i k =>
    simp only [Op.on] at h
    simp [step, delProp, Function.update_of_ne (Ne.symm h)]

lemma run_own_other (ops : List Op) (s : State) (j : Nat) (h : ∀ o ∈ ops, ¬ o.on j) : (run s ops).own j = s.own j := by
  induction ops generalizing s with
  | nil => rfl
  | cons o ops ih =>
    simp only [run, List.foldl_cons]
    rw [show (List.foldl (fun s o => (step s o).1) (step s o).1 ops) = run (step s o).1 ops from rfl]
    rw [ih _ (fun o' ho' => h o' (List.mem_cons_of_mem _ ho')), step_own_other s o j (h o List.mem_cons_self)]

/-- A successful two-property constructor gives the material its own dictionary, filled from exactly these two. -/
lemma construct_two (s s' : State) (i : Nat) (n m : String) (x y : ℝ) (hne : n ≠ m)
    (h : construct s i [(n, x), (m, y)] = (s', none)) :
    ∃ p, getProperties [(n, some x), (m, some y)] = .ok p ∧ s'.own i = some (fun k => some (p.get k)) := by
  simp only [construct, List.length_cons, List.length_nil, show ¬ (2 < 0 + 1 + 1) by omega, if_false, setAll] at h
  rcases hn : Key.ofName? n with _ | a <;> rw [hn] at h <;> simp only at h
  · simp at h
  have hn' := ofName?_inj hn
  rcases hs1 : setProp { s with own := Function.update s.own i none } i a x with ⟨s1, _ | e⟩ <;> rw [hs1] at h <;>
    simp only at h
  · obtain ⟨h1, t, h2⟩ := setProp_ok _ _ _ _ _ hs1
    rcases hm : Key.ofName? m with _ | b <;> rw [hm] at h <;> simp only at h
    · simp at h
    have hm' := ofName?_inj hm
    have hab : a ≠ b := by rintro rfl; exact hne (by rw [hn', hm'])
    rcases hs2 : setProp s1 i b y with ⟨s2, _ | e⟩ <;> rw [hs2] at h <;> simp only [Prod.mk.injEq, and_true] at h
    · subst h
      have hpp := setProp_partner s1 i b a y t h2 hab _ h1
      rcases hg : getProperties [(b.name, some y), (a.name, some x)] with e | p
      · have := hpp.2 e hg; rw [hs2] at this; simp at this
      · refine ⟨p, ?_, ?_⟩
        · rw [hn', hm', ← hg]
          simp only [getProperties, ofName?_name]
          have : a.rank ≠ b.rank := by
            intro hr; apply hab; cases a <;> cases b <;> simp_all [Key.rank]
          by_cases hle : a.rank ≤ b.rank
          · rw [if_pos hle, if_neg (by omega)]
          · rw [if_neg hle, if_pos (by omega)]
        · have hp : pushLast (s1.store i b y).last b = b :: a :: t := by
            rw [last_store]; exact pushLast_ne _ _ _ _ h2 hab
          have hpr : ({ s1.store i b y with last := b :: a :: t } : State).props i a = some x := by
            have := props_store s1 i b a y
            rw [if_neg hab, h1] at this
            simpa [State.props] using this
          unfold setProp at hs2
          simp only [hp, hpr, hg, Prod.mk.injEq, and_true] at hs2
          rw [← hs2]; simp
    · simp at h
  · simp at h

/-! ### Property theorems -/

/-- C03 (partial: the constructor may also raise, see `C03_construction_can_fail`). Whatever happened before (`s` is any
state), if building a material from two properties returns, then its six constants are those that the two properties
determine. -/
theorem C03_new_material_determined_partial (s s' : State) (i : Nat) (n m : String) (x y : ℝ) (hne : n ≠ m)
    (h : construct s i [(n, x), (m, y)] = (s', none)) :
    ∃ p, getProperties [(n, some x), (m, some y)] = .ok p ∧ ∀ k, read s' i k = some (p.get k) := by
  obtain ⟨p, hp, ho⟩ := construct_two s s' i n m x y hne h
  exact ⟨p, hp, fun k => by simp [read, State.props, ho]⟩

/-- The history used as witness below: a material given by E and v, then one given by G and K. -/
noncomputable def twoMaterials : List Op :=
  [.new 0 [("E", 5 / 2), ("v", 1 / 4)], .new 1 [("G", 1), ("K", 5 / 3)]]

/-- Non-trivial instance of the hypotheses: the third construction of `E, v` from the state after one material. -/
example : ∃ s', construct (run State.init [.new 0 [("E", 5 / 2), ("v", 1 / 4)]]) 1 [("G", 1), ("K", 5 / 3)] = (s', none) := by
  suffices h : (construct (run State.init [.new 0 [("E", 5 / 2), ("v", 1 / 4)]]) 1 [("G", 1), ("K", 5 / 3)]).2 = none from
    ⟨_, Prod.ext rfl h⟩
  simp [run, step, construct, setAll, setProp, State.init, State.store, State.props, pushLast, Key.ofName?, Key.name,
    getProperties, branch, Key.rank, Six.get, Function.update_apply]

/-- C03, negation: after `Elastic('a', {E, v})` and `Elastic('b', {G, K})`, every construction from E and v raises
`TypeError`, whatever the values. -/
theorem C03_construction_can_fail (x y : ℝ) :
    (construct (run State.init twoMaterials) 2 [("E", x), ("v", y)]).2 = some .typeError := by
  simp [twoMaterials, run, step, construct, setAll, setProp, State.init, State.store, State.props, pushLast,
    Key.ofName?, Key.name, getProperties, branch, Key.rank, Six.get, Function.update_apply, noneDict]

/-- The invariant of programs that only use one pair of names `a`, `b`. -/
def OnePair (a b : Key) (s : State) : Prop :=
  s.last = [] ∨ ((∃ x, s.cls a = some x) ∧ (∃ y, s.cls b = some y) ∧
    ((∃ t, s.last = a :: b :: t) ∨ (∃ t, s.last = b :: a :: t)))

lemma construct_onePair_aux (a b : Key) (hab : a ≠ b) (hok : ∀ x y : ℝ, ∃ p, getProperties [(a.name, some x), (b.name, some y)] = .ok p)
    (hok' : ∀ x y : ℝ, ∃ p, getProperties [(b.name, some x), (a.name, some y)] = .ok p)
    (s : State) (h : OnePair a b s) (i : Nat) (x y : ℝ) :
    (construct s i [(a.name, x), (b.name, y)]).2 = none ∧ OnePair a b (construct s i [(a.name, x), (b.name, y)]).1 := by
  have hba := Ne.symm hab
  obtain ⟨p, hp⟩ := hok' y x
  simp only [construct, List.length_cons, List.length_nil, show ¬ (2 < 0 + 1 + 1) by omega, if_false, setAll, ofName?_name]
  rcases h with h | ⟨⟨u, hu⟩, ⟨w, hw⟩, h | h⟩
  · have e1 : setProp { s with own := Function.update s.own i none } i a x =
        ({ cls := Function.update s.cls a (some x), last := [a], own := Function.update s.own i none }, none) := by
      simp [setProp, State.store, h, pushLast]
    rw [e1]
    simp only [setProp, State.store, Function.update_self, pushLast, hab, if_false, State.props, Function.update_apply,
      if_true, hp]
    refine ⟨trivial, Or.inr ⟨⟨x, ?_⟩, ⟨y, ?_⟩, Or.inr ⟨[], rfl⟩⟩⟩ <;> simp [hab]
  · obtain ⟨t, h⟩ := h
    obtain ⟨q, hq⟩ := hok x w
    obtain ⟨-, hq2⟩ := getProperties_keeps _ _ _ _ _ hq
    obtain ⟨hq1, -⟩ := getProperties_keeps _ _ _ _ _ hq
    have e1 : setProp { s with own := Function.update s.own i none } i a x =
        ({ cls := Function.update s.cls a (some x), last := a :: b :: t,
           own := Function.update s.own i (some fun k => some (q.get k)) }, none) := by
      simp [setProp, State.store, h, pushLast, State.props, Function.update_apply, hba, hw, hq]
    rw [e1]
    simp only [setProp, State.store, Function.update_self, pushLast, hab, if_false, State.props, Function.update_apply,
      if_true, ← hq1, hp]
    refine ⟨trivial, Or.inr ⟨⟨x, ?_⟩, ⟨w, ?_⟩, Or.inr ⟨_, rfl⟩⟩⟩ <;> simp [hba, hw]
  · obtain ⟨t, h⟩ := h
    obtain ⟨q, hq⟩ := hok x w
    obtain ⟨hq1, -⟩ := getProperties_keeps _ _ _ _ _ hq
    have e1 : setProp { s with own := Function.update s.own i none } i a x =
        ({ cls := Function.update s.cls a (some x), last := a :: b :: a :: t,
           own := Function.update s.own i (some fun k => some (q.get k)) }, none) := by
      simp [setProp, State.store, h, pushLast, State.props, Function.update_apply, hba, hw, hq]
    rw [e1]
    simp only [setProp, State.store, Function.update_self, pushLast, hab, if_false, State.props, Function.update_apply,
      if_true, ← hq1, hp]
    refine ⟨trivial, Or.inr ⟨⟨x, ?_⟩, ⟨w, ?_⟩, Or.inr ⟨_, rfl⟩⟩⟩ <;> simp [hba, hw]

lemma OnePair.symm {a b : Key} {s : State} (h : OnePair a b s) : OnePair b a s := by
  rcases h with h | ⟨h1, h2, h | h⟩
  · exact Or.inl h
  · exact Or.inr ⟨h2, h1, Or.inr h⟩
  · exact Or.inr ⟨h2, h1, Or.inl h⟩

/-- A constructor call that names the two properties `a`, `b` in one order or the other. -/
def OnlyPair (a b : Key) (o : Op) : Prop :=
  ∃ i x y, o = .new i [(a.name, x), (b.name, y)] ∨ o = .new i [(b.name, x), (a.name, y)]

lemma pair_ok (a b : Key) (hab : a ≠ b) (hLV : ¬ (a = .Lam ∧ b = .v)) (hVL : ¬ (a = .v ∧ b = .Lam)) (x y : ℝ) :
    ∃ p, getProperties [(a.name, some x), (b.name, some y)] = .ok p := by
  simp only [getProperties, ofName?_name]
  cases a <;> cases b <;> simp [Key.rank, branch] at * 

/-- C03 (partial, programs that only build materials from one pair of names, such as E and v): in every such history every
construction succeeds, and gives the constants that its own two values determine. -/
theorem C03_one_pair_programs_partial (a b : Key) (hab : a ≠ b) (hLV : ¬ (a = .Lam ∧ b = .v)) (hVL : ¬ (a = .v ∧ b = .Lam))
    (ops : List Op) (hops : ∀ o ∈ ops, OnlyPair a b o) (i : Nat) (x y : ℝ) :
    ∃ s' p, construct (run State.init ops) i [(a.name, x), (b.name, y)] = (s', none) ∧
      getProperties [(a.name, some x), (b.name, some y)] = .ok p ∧ ∀ k, read s' i k = some (p.get k) := by
  have hok := pair_ok a b hab hLV hVL
  have hok' := pair_ok b a (Ne.symm hab) (fun h => hVL ⟨h.2, h.1⟩) (fun h => hLV ⟨h.2, h.1⟩)
  have inv : ∀ (ops : List Op) (s : State), OnePair a b s → (∀ o ∈ ops, OnlyPair a b o) → OnePair a b (run s ops) := by
    intro ops
    induction ops with
    | nil => intro s h _; exact h
    | cons o ops ih =>
      intro s h ho
      apply ih
      · obtain ⟨j, u, w, rfl | rfl⟩ := ho o List.mem_cons_self
        · exact (construct_onePair_aux a b hab hok hok' s h j u w).2
        · exact (construct_onePair_aux b a (Ne.symm hab) hok' hok s h.symm j u w).2.symm
      · exact fun o' h' => ho o' (List.mem_cons_of_mem _ h')
  have h0 := inv ops State.init (Or.inl rfl) hops
  have h1 := (construct_onePair_aux a b hab hok hok' _ h0 i x y).1
  have hne : a.name ≠ b.name := by cases a <;> cases b <;> simp_all [Key.name]
  rcases hc : construct (run State.init ops) i [(a.name, x), (b.name, y)] with ⟨s', e⟩
  rw [hc] at h1
  simp only at h1
  subst h1
  obtain ⟨p, hp, hr⟩ := C03_new_material_determined_partial _ s' i _ _ x y hne hc
  exact ⟨s', p, rfl, hp, hr⟩

example : OnlyPair .E .v (.new 3 [("v", 1 / 3), ("E", 200)]) := ⟨3, 1 / 3, 200, Or.inr rfl⟩

/-- C02, constructor: more than two properties are rejected in every state of the program, and nothing that can be read from any
material changes. -/
theorem C02_constructor_rejects_more_than_two (s : State) (i : Nat) (props : List (String × ℝ)) (h : props.length ≠ 0 ∧ props.length ≠ 1 ∧ props.length ≠ 2) :
    (construct s i props).2 = some .valueError ∧ ∀ j k, read (construct s i props).1 j k = read s j k := by
  unfold construct
  rw [if_pos (by omega)]
  exact ⟨rfl, fun _ _ => rfl⟩

example : ([("E", (1 : ℝ)), ("v", 0), ("G", 2)]).length ≠ 0 ∧ ([("E", (1 : ℝ)), ("v", 0), ("G", 2)]).length ≠ 1 ∧
    ([("E", (1 : ℝ)), ("v", 0), ("G", 2)]).length ≠ 2 := by simp

/-- C04 (partial: reads only; assignments do interfere, see below). Once a material has been built from two properties,
no later operations on other materials change what is read from it. -/
theorem C04_reads_isolated_partial (s s' : State) (i : Nat) (n m : String) (x y : ℝ) (hne : n ≠ m)
    (h : construct s i [(n, x), (m, y)] = (s', none)) (ops : List Op) (hops : ∀ o ∈ ops, ¬ o.on i) (k : Key) :
    read (run s' ops) i k = read s' i k := by
  obtain ⟨p, -, ho⟩ := construct_two s s' i n m x y hne h
  have h1 := run_own_other ops s' i hops
  simp [read, State.props, h1, ho]

example : ∀ o ∈ twoMaterials, ¬ o.on 7 := by simp [twoMaterials, Op.on]

/-- C04, negation for assignments: the same assignment on the same material gives another Poisson ratio if an unrelated
material was built in between. -/
theorem C04_assignment_interference :
    read (run State.init [.new 0 [("E", 5 / 2), ("v", 1 / 4)], .set 0 .E 5]) 0 .v = some (1 / 4) ∧
    read (run State.init [.new 0 [("E", 5 / 2), ("v", 1 / 4)], .new 1 [("G", 1), ("K", 5 / 3)], .set 0 .E 5]) 0 .v
      = some 0 := by
  constructor
  · simp [run, step, construct, setAll, setProp, State.init, State.store, State.props, pushLast, read,
      Key.ofName?, Key.name, getProperties, branch, Key.rank, Six.get, Function.update_apply, noneDict]
  · simp [run, step, construct, setAll, setProp, State.init, State.store, State.props, pushLast, read,
      Key.ofName?, Key.name, getProperties, branch, Key.rank, Six.get, Function.update_apply, noneDict]
    norm_num

/-- C04, negation for reads of a material with a single property: building another material changes it. -/
theorem C04_single_property_read_interference :
    read (run State.init [.new 0 [("E", 1)]]) 0 .E = some 1 ∧
    read (run State.init [.new 0 [("E", 1)], .new 1 [("E", 2)]]) 0 .E = some 2 := by
  constructor <;>
  simp [run, step, construct, setAll, setProp, State.init, State.store, State.props, pushLast, read,
      Key.ofName?, Key.name, getProperties, branch, Key.rank, Six.get, Function.update_apply, noneDict]

/-- C04, the full statement (operations on other materials never change what a read gives) is false of the code. -/
theorem C04_full_statement_false :
    ¬ ∀ (before others after : List Op) (i : Nat) (k : Key), (∀ o ∈ others, ¬ o.on i) →
        read (run State.init (before ++ others ++ after)) i k = read (run State.init (before ++ after)) i k := by
  intro h
  have := h [.new 0 [("E", 5 / 2), ("v", 1 / 4)]] [.new 1 [("G", 1), ("K", 5 / 3)]] [.set 0 .E 5] 0 .v
    (by simp [Op.on])
  simp only [List.cons_append, List.nil_append] at this
  rw [C04_assignment_interference.1, C04_assignment_interference.2] at this
  norm_num at this

/-- An assignment that returns always reads back the assigned value, in every state. -/
theorem C04_assigned_value_is_read (s s' : State) (i : Nat) (k : Key) (x : ℝ) (h : setProp s i k x = (s', none)) :
    read s' i k = some x := (setProp_ok s s' i k x h).1

example : ∃ s', setProp State.init 0 .E 3 = (s', none) := ⟨_, rfl⟩

end Verif.Elastic
