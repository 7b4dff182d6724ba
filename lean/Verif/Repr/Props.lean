import Mathlib.Tactic.Linarith
import Mathlib.Tactic.FieldSimp
import Mathlib.Analysis.SpecialFunctions.Trigonometric.Basic
import Verif.Repr.Model

/-!
# C135: the text of a surface describes it
-/

namespace Verif.Repr

open Verif Verif.SurfaceGeo

/-! ## Specification: a call in Python -/

/-- `cls(key=first, k = v, …)`. -/
structure Call where
  cls : String
  key : String
  first : Given
  rest : List (String × Val)

/-- The text of a call. -/
def Call.text (w : Printer) (c : Call) : String :=
  c.cls ++ "(" ++ c.key ++ "=" ++ w.given c.first ++ String.join (c.rest.map fun kv => ", " ++ kv.1 ++ " = " ++ w.show kv.2) ++ ")"

/-- A number given for a name. -/
def Call.number (c : Call) (k : String) : Option ℝ :=
  match c.rest.lookup k with
  | some (.num x) => some x
  | _ => none

/-- A tuple given for a name. -/
def Call.tuple (c : Call) (k : String) : Option (List ℝ) :=
  match c.rest.lookup k with
  | some (.tuple l) => some l
  | _ => none

/-- The names of the further arguments. -/
def names : List String := ["rotation", "shift", "generate", "grid_spacing", "extent", "shape"]

/-- The call is accepted by a constructor with these arguments: each name is known and is given once. -/
def Call.Gives (c : Call) (a : Args) : Prop :=
  (c.rest.map Prod.fst).Nodup ∧ (∀ k ∈ c.rest.map Prod.fst, k ∈ names) ∧
  a = ⟨c.first, c.number "rotation", c.tuple "shift", (c.rest.lookup "generate").isSome, c.number "grid_spacing", c.tuple "extent", c.tuple "shape"⟩

/-- The names of the classes and of the first argument of their constructors. -/
def signature : Shape → String × String
  | .flat => ("FlatSurface", "slope")
  | .round => ("RoundSurface", "radius")
  | .pyramid => ("PyramidSurface", "lengths")

/-- Evaluating the text of the surface gives the surface `s'`. -/
def Evaluates (w : Printer) (sh : Shape) (f : Option Given → ℝ → ℝ → ℝ) (s s' : Surf) : Prop :=
  ∃ (c : Call) (a : Args), text w sh s = .ok (c.text w) ∧ (c.cls, c.key) = signature sh ∧ c.Gives a ∧ init sh f a = .ok s'

/-! ## Lemmas: the call in the text -/

open Classical in
/-- The arguments that are written. -/
noncomputable def written (s : Surf) : List (String × Val) :=
  (if s.shift.1 ≠ 0 ∨ s.shift.2 ≠ 0 then [("shift", Val.tuple [s.shift.1, s.shift.2])] else []) ++
  ((if s.rot ≠ 0 then [("rotation", Val.num s.rot)] else []) ++
  ((if s.discrete then [("generate", Val.yes)] else []) ++
  ((match s.geo.gs with
    | some g => if g ≠ 0 then [("grid_spacing", Val.num g)] else []
    | none => []) ++
  (match s.geo.extent with
    | some e => if e ≠ [] then [("extent", Val.tuple e)] else []
    | none => []))))

theorem join_append (a b : List String) : String.join (a ++ b) = String.join a ++ String.join b := by
  have key : ∀ (l : List String) (x : String), List.foldl (fun r s => r ++ s) x l = x ++ List.foldl (fun r s => r ++ s) "" l := by
    intro l
    induction l with
    | nil => intro x; simp
    | cons y l ih =>
      intro x
      rw [List.foldl_cons, List.foldl_cons, ih (x ++ y), ih ("" ++ y), String.append_assoc, String.empty_append]
  unfold String.join
  rw [List.foldl_append, key b]

theorem join_one (a : String) : String.join [a] = a := by simp [String.join]

theorem join_nil : String.join [] = "" := rfl

open Classical in
theorem helper_eq (w : Printer) (s : Surf) : helper w s = String.join ((written s).map fun kv => ", " ++ kv.1 ++ " = " ++ w.show kv.2) := by
  unfold written helper
  rw [List.map_append, join_append, List.map_append, join_append, List.map_append, join_append, List.map_append, join_append]
  have step1 : ∀ (p : Prop) [Decidable p] (x : String) (k : String) (v : Val) (lit : String), lit = ", " ++ k ++ " = " →
      (if p then x ++ lit ++ w.show v else x) = x ++ String.join ((if p then [(k, v)] else []).map fun kv => ", " ++ kv.1 ++ " = " ++ w.show kv.2) := by
    intro p _ x k v lit hl
    subst hl
    split
    · simp [join_one, String.append_assoc]
    · simp [join_nil]
  have e1 := step1 (s.shift.1 ≠ 0 ∨ s.shift.2 ≠ 0) "" "shift" (.tuple [s.shift.1, s.shift.2]) ", shift = " rfl
  have e2 := fun x => step1 (s.rot ≠ 0) x "rotation" (.num s.rot) ", rotation = " rfl
  have e3 : ∀ x : String, (if s.discrete then x ++ ", generate = True" else x) =
      x ++ String.join ((if s.discrete then [("generate", Val.yes)] else []).map fun kv => ", " ++ kv.1 ++ " = " ++ w.show kv.2) := by
    intro x
    split
    · rw [List.map_cons, List.map_nil, join_one]; rfl
    · simp [join_nil]
  dsimp only
  rw [e1, e2, e3]
  cases hg : s.geo.gs with
  | none =>
    cases he : s.geo.extent with
    | none => simp [join_nil, String.append_assoc]
    | some e =>
      dsimp only
      rw [step1 (e ≠ []) _ "extent" (.tuple e) ", extent = " rfl]
      simp [join_nil, String.append_assoc]
  | some g =>
    dsimp only
    rw [step1 (g ≠ 0) _ "grid_spacing" (.num g) ", grid_spacing = " rfl]
    cases he : s.geo.extent with
    | none => simp [join_nil, String.append_assoc]
    | some e =>
      dsimp only
      rw [step1 (e ≠ []) _ "extent" (.tuple e) ", extent = " rfl]
      simp [String.append_assoc]

open Classical in
/-- The arguments that are written, as arguments of the constructor. -/
noncomputable def rebuilt (s : Surf) (p : Given) : Args :=
  { first := p
    rotation := if s.rot ≠ 0 then some s.rot else none
    shift := if s.shift.1 ≠ 0 ∨ s.shift.2 ≠ 0 then some [s.shift.1, s.shift.2] else none
    generate := s.discrete
    gs := match s.geo.gs with | some g => if g ≠ 0 then some g else none | none => none
    extent := match s.geo.extent with | some e => if e ≠ [] then some e else none | none => none
    shape := none }

open Classical in
theorem gives (s : Surf) (sh : Shape) (p : Given) : (⟨sh.name, sh.key, p, written s⟩ : Call).Gives (rebuilt s p) := by
  unfold Call.Gives rebuilt Call.number Call.tuple written
  dsimp only
  by_cases h1 : s.shift.1 ≠ 0 ∨ s.shift.2 ≠ 0 <;> by_cases h2 : s.rot ≠ 0 <;> cases h3 : s.discrete <;> cases h4 : s.geo.gs with
  | none =>
    cases h5 : s.geo.extent with
    | none =>
      first | rw [if_pos h1] | rw [if_neg h1]
      first | rw [if_pos h2] | rw [if_neg h2]
      refine ⟨by simp, by simp [names], ?_⟩
      simp [h1, h2, List.lookup]
    | some e =>
      first | rw [if_pos h1] | rw [if_neg h1]
      first | rw [if_pos h2] | rw [if_neg h2]
      by_cases h6 : e ≠ [] <;> simp [h1, h2, h6, List.lookup, names]
  | some g =>
    cases h5 : s.geo.extent with
    | none =>
      first | rw [if_pos h1] | rw [if_neg h1]
      first | rw [if_pos h2] | rw [if_neg h2]
      by_cases h7 : g ≠ 0 <;> simp [h1, h2, h7, List.lookup, names]
    | some e =>
      first | rw [if_pos h1] | rw [if_neg h1]
      first | rw [if_pos h2] | rw [if_neg h2]
      by_cases h6 : e ≠ [] <;> by_cases h7 : g ≠ 0 <;> simp [h1, h2, h6, h7, List.lookup, names]

theorem evaluates (w : Printer) (sh : Shape) (f : Option Given → ℝ → ℝ → ℝ) (s s' : Surf) {p : Given} (hp : s.params = some p)
    (h : init sh f (rebuilt s p) = .ok s') : Evaluates w sh f s s' := by
  refine ⟨⟨sh.name, sh.key, p, written s⟩, rebuilt s p, ?_, by cases sh <;> rfl, gives s sh p, h⟩
  unfold text Call.text
  rw [hp, helper_eq]

/-! ## Lemmas: the geometry -/

/-- Geometries from which grid spacing and extent are enough. -/
def Enough (geo : Geo ℝ) : Prop :=
  geo.prof = none ∧
  ((geo.gs = none ∧ geo.shape = none ∧ geo.size = none ∧ ∀ e, geo.extent = some e → e.length ≤ 2) ∨
  (∃ g, geo = ⟨some g, none, none, none, none⟩) ∨
  ∃ (g : ℝ) (n : ℤ) (ns : List ℤ), n ≠ 0 ∧ ns.length ≤ 1 ∧ geo = ⟨some g, some ((n :: ns).map fun k : ℤ => (k : ℝ) * g), some (n :: ns), some (n :: ns).prod, none⟩)

theorem trunc_int (n : ℤ) : trunc (n : ℝ) = n := by
  unfold trunc
  split <;> simp

theorem enough_again {geo : Geo ℝ} (h : Enough geo) (hg : geo.gs ≠ some 0) : construct geo.gs geo.extent none = (geo, none) := by
  obtain ⟨h0, h1 | ⟨g, rfl⟩ | ⟨g, n, ns, hn, hl, rfl⟩⟩ := h
  · obtain ⟨gs, e, sh, sz, pr⟩ := geo
    obtain ⟨rfl, rfl, rfl, h4⟩ := h1
    dsimp only at h0
    subst h0
    cases e with
    | none => rfl
    | some e =>
      have := h4 e rfl
      simp only [construct, andThen, ifGiven, setExtent, Geo.new]
      simp only [Option.isSome_none, Option.isSome_some, Bool.false_and, Bool.and_false, Bool.false_eq_true, if_false]
      rw [if_neg (by omega)]
  · rfl
  · have hg0 : g ≠ 0 := fun h => hg (by rw [h])
    have hlen : ¬ 2 < ((n :: ns).map fun k : ℤ => (k : ℝ) * g).length := by
      rw [List.length_map, List.length_cons]; omega
    have hdiv : divide ((n :: ns).map fun k : ℤ => (k : ℝ) * g) g = some (n :: ns) := by
      unfold divide
      rw [if_neg hg0, List.map_map]
      congr 1
      conv_rhs => rw [← List.map_id' (n :: ns)]
      refine List.map_congr_left fun k _ => ?_
      rw [Function.comp_apply, mul_div_assoc, div_self hg0, mul_one, trunc_int]
    have hn' : (n : ℝ) ≠ 0 := by exact_mod_cast hn
    simp only [construct, andThen, ifGiven, setGs, setExtent, Geo.new, Option.isSome_none, Option.isSome_some, Bool.and_false, Bool.false_eq_true, if_false]
    rw [if_neg hlen]
    simp only [hdiv]
    simp only [List.map_cons, spacingFrom]
    rw [if_neg hn]
    have : (n : ℝ) * g / (n : ℝ) = g := by field_simp
    rw [this]

theorem construct_enough {gs : Option ℝ} {extent shape : Option (List ℝ)} {geo : Geo ℝ} (h : construct gs extent shape = (geo, none))
    (hshape : ∀ l, shape = some l → l.length ≤ 2 ∧ l ≠ [] ∧ ∀ x ∈ l, ∃ n : ℕ, 0 < n ∧ x = n) (hknown : shape = none ∨ gs ≠ none ∨ extent ≠ none) : Enough geo := by
  have htr : ∀ l : List ℝ, (∀ x ∈ l, ∃ n : ℕ, 0 < n ∧ x = n) → l = (l.map trunc).map fun k : ℤ => (k : ℝ) := by
    intro l hl
    rw [List.map_map]
    conv_lhs => rw [← List.map_id' l]
    refine List.map_congr_left fun x hx => ?_
    obtain ⟨n, -, rfl⟩ := hl x hx
    have := trunc_int (n : ℤ)
    rw [Int.cast_natCast] at this
    rw [Function.comp_apply, this, Int.cast_natCast]
  have hfirst : ∀ l : List ℝ, l ≠ [] → (∀ x ∈ l, ∃ n : ℕ, 0 < n ∧ x = n) → ∃ (n : ℤ) (ns : List ℤ), n ≠ 0 ∧ l.map trunc = n :: ns := by
    intro l hne hl
    cases l with
    | nil => exact absurd rfl hne
    | cons x l =>
      obtain ⟨n, hn, rfl⟩ := hl x (by simp)
      refine ⟨n, l.map trunc, by omega, ?_⟩
      rw [List.map_cons]
      congr 1
      exact_mod_cast trunc_int (n : ℤ)
  cases gs with
  | none =>
    cases extent with
    | none =>
      cases shape with
      | none =>
        cases h
        exact ⟨rfl, Or.inl ⟨rfl, rfl, rfl, fun e he => by cases he⟩⟩
      | some l => simp at hknown
    | some e =>
      simp only [construct, andThen, ifGiven, setExtent, Geo.new, Option.isSome_none, Bool.false_and, Bool.false_eq_true, if_false] at h
      by_cases hl : 2 < e.length
      · rw [if_pos hl] at h; cases h
      · rw [if_neg hl] at h
        cases shape with
        | none =>
          simp only [Prod.mk.injEq, and_true] at h
          subst h
          exact ⟨rfl, Or.inl ⟨rfl, rfl, rfl, fun e' he => by simp only [Option.some.injEq] at he; subst he; omega⟩⟩
        | some l =>
          obtain ⟨h1, h2, h3⟩ := hshape l rfl
          obtain ⟨n, ns, hn, hns⟩ := hfirst l h2 h3
          have hlen : (l.map trunc).length ≤ 2 := by rw [List.length_map]; exact h1
          rw [hns] at hlen
          simp only [setShape, hns] at h
          cases e with
          | nil => cases h
          | cons e0 es =>
            simp only [spacingFrom] at h
            rw [if_neg hn] at h
            simp only [Prod.mk.injEq, and_true] at h
            subst h
            exact ⟨rfl, Or.inr (Or.inr ⟨e0 / n, n, ns, hn, by simpa using hlen, rfl⟩)⟩
  | some g =>
    cases extent with
    | none =>
      simp only [construct, andThen, ifGiven, setGs, Geo.new, Option.isSome_none, Bool.and_false, Bool.false_and, Bool.false_eq_true, if_false] at h
      cases shape with
      | none =>
        simp only [Prod.mk.injEq, and_true] at h
        subst h
        exact ⟨rfl, Or.inr (Or.inl ⟨g, rfl⟩)⟩
      | some l =>
        obtain ⟨h1, h2, h3⟩ := hshape l rfl
        obtain ⟨n, ns, hn, hns⟩ := hfirst l h2 h3
        have hlen : (l.map trunc).length ≤ 2 := by rw [List.length_map]; exact h1
        have hcast := htr l h3
        rw [hns] at hlen hcast
        simp only [setShape, hns, Prod.mk.injEq, and_true] at h
        subst h
        refine ⟨rfl, Or.inr (Or.inr ⟨g, n, ns, hn, by simpa using hlen, ?_⟩)⟩
        rw [hcast, List.map_map]
        rfl
    | some e =>
      cases shape with
      | some l =>
        simp only [construct, Option.isSome_some, Bool.and_self, if_true] at h
        cases h
      | none =>
        simp only [construct, andThen, ifGiven, setGs, setExtent, Geo.new, Option.isSome_none, Option.isSome_some, Bool.and_false, Bool.false_eq_true, if_false] at h
        by_cases hl : 2 < e.length
        · rw [if_pos hl] at h; cases h
        · rw [if_neg hl] at h
          cases hd : divide e g with
          | none => simp only [hd] at h; cases h
          | some ns =>
            simp only [hd] at h
            have hlen : ns.length = e.length := by
              unfold divide at hd
              split at hd
              · split at hd
                · rename_i he; cases hd; rw [he]; rfl
                · cases hd
              · cases hd; simp
            cases e with
            | nil => cases h
            | cons e0 es =>
              cases ns with
              | nil => cases h
              | cons n ns =>
                simp only [spacingFrom] at h
                by_cases hn : n = 0
                · rw [if_pos hn] at h; cases h
                · rw [if_neg hn] at h
                  simp only [Prod.mk.injEq, and_true] at h
                  subst h
                  refine ⟨rfl, Or.inr (Or.inr ⟨e0 / n, n, ns, hn, ?_, rfl⟩)⟩
                  simp only [List.length_cons] at hl hlen
                  omega

theorem store_again {sh : Shape} {g p : Given} (h : store sh g = .ok (some p)) : store sh p = .ok (some p) := by
  cases sh <;> cases g <;> simp only [store] at h
  · cases h; rfl
  · cases h; rfl
  · cases h; rfl
  · cases h; rfl
  · split at h
    · rename_i hl; cases h; simp only [store]; rw [if_pos hl]
    · cases h
  · split at h
    · rename_i hl; cases h; simp only [store]; rw [if_pos hl]
    · cases h
  · cases h; rfl
  · split at h
    · rename_i hl; cases h; simp only [store]; rw [if_pos hl]
    · cases h
  · cases h

/-- What `discretise` keeps. -/
theorem discretise_keeps {f : Option Given → ℝ → ℝ → ℝ} {s s' : Surf} (he : Enough s.geo) (h : discretise f s = .ok s') :
    s'.params = s.params ∧ s'.rot = s.rot ∧ s'.shift = s.shift ∧ s'.discrete = true ∧ s'.geo.gs = s.geo.gs ∧ s'.geo.extent = s.geo.extent := by
  obtain ⟨h0, h1 | ⟨g, hg⟩ | ⟨g, n, ns, hn, hl, hg⟩⟩ := he
  · unfold discretise at h
    rw [h1.1] at h
    cases h
  · unfold discretise at h
    rw [hg] at h
    cases h
  · unfold discretise at h
    rw [hg] at h
    cases ns with
    | nil => cases h
    | cons c cs =>
      cases cs with
      | cons d ds => simp at hl
      | nil =>
        dsimp only at h
        by_cases hneg : n < 0 ∨ c < 0
        · rw [if_pos hneg] at h; cases h
        · rw [if_neg hneg] at h
          simp only [setProfile, List.map_cons, List.map_nil] at h
          cases h
          refine ⟨rfl, rfl, rfl, rfl, by rw [hg], ?_⟩
          have h1 : ((n.toNat : ℤ)) = n := by omega
          have h2 : ((c.toNat : ℤ)) = c := by omega
          simp only [hg, List.map_cons, List.map_nil, h1, h2, mul_comm g]

theorem firstShift_again {shift extent : Option (List ℝ)} {r : ℝ × ℝ} (h : firstShift shift extent = .ok r) (hr : (r.1 ≠ 0 ∨ r.2 ≠ 0) ∨ extent = none) :
    firstShift (open Classical in if r.1 ≠ 0 ∨ r.2 ≠ 0 then some [r.1, r.2] else none) extent = .ok r := by
  by_cases h0 : r.1 ≠ 0 ∨ r.2 ≠ 0
  · rw [if_pos h0]
    simp [firstShift]
  · rw [if_neg h0]
    rcases hr with hr | hr
    · exact absurd hr h0
    · subst hr
      have h1 : r.1 = 0 := by by_contra hne; exact h0 (Or.inl hne)
      have h2 : r.2 = 0 := by by_contra hne; exact h0 (Or.inr hne)
      have : r = (0, 0) := Prod.ext h1 h2
      rw [this]
      rfl

/-! ## The properties -/

/-- **C135 (partial)**, the analytical surfaces: the text of a new surface is a call of its constructor which gives the same surface again, with its heights.
Missing: surfaces that are not shifted but have an extent, surfaces of which only the shape is known, materials, and surfaces that were changed (next theorems). -/
theorem C135_new_partial (w : Printer) (sh : Shape) (f : Option Given → ℝ → ℝ → ℝ) {a : Args} {s : Surf} (h : init sh f a = .ok s)
    (hshape : ∀ l, a.shape = some l → l.length ≤ 2 ∧ l ≠ [] ∧ ∀ x ∈ l, ∃ n : ℕ, 0 < n ∧ x = n) (hknown : a.shape = none ∨ a.gs ≠ none ∨ a.extent ≠ none)
    (hp : s.params ≠ none) (hgs : s.geo.gs ≠ some 0) (hext : s.geo.extent ≠ some []) (hs : (s.shift.1 ≠ 0 ∨ s.shift.2 ≠ 0) ∨ s.geo.extent = none) :
    Evaluates w sh f s s := by
  unfold init at h
  cases hst : store sh a.first with
  | error e => rw [hst] at h; cases h
  | ok params =>
    rw [hst] at h
    dsimp only at h
    cases hc : construct a.gs a.extent a.shape with
    | mk geo err =>
      rw [hc] at h
      cases err with
      | some e => cases h
      | none =>
        dsimp only at h
        cases hf : firstShift a.shift geo.extent with
        | error e => rw [hf] at h; cases h
        | ok shift =>
          rw [hf] at h
          dsimp only at h
          have hen := construct_enough hc hshape hknown
          generalize hrot : firstRotation a.rotation = rot at h
          generalize hs0 : (⟨params, geo, rot, shift, false, none, none⟩ : Surf) = s0 at h
          have key : s.params = params ∧ s.rot = rot ∧ s.shift = shift ∧ s.discrete = a.generate ∧ s.geo.gs = geo.gs ∧ s.geo.extent = geo.extent ∧
              (if a.generate then discretise f s0 else .ok s0) = .ok s := by
            cases hgen : a.generate with
            | false =>
              rw [hgen] at h
              simp only [Bool.false_eq_true, if_false, Except.ok.injEq] at h
              subst h
              subst hs0
              exact ⟨rfl, rfl, rfl, rfl, rfl, rfl, by simp⟩
            | true =>
              rw [hgen] at h
              simp only [if_true] at h
              obtain ⟨k1, k2, k3, k4, k5, k6⟩ := discretise_keeps (s := s0) (by rw [← hs0]; exact hen) h
              rw [← hs0] at k1 k2 k3 k5 k6
              exact ⟨k1, k2, k3, k4, k5, k6, by simpa using h⟩
          obtain ⟨k1, k2, k3, k4, k5, k6, k7⟩ := key
          cases hpp : params with
          | none => exact absurd (k1.trans hpp) hp
          | some p =>
            have hsp : s.params = some p := k1.trans hpp
            refine evaluates w sh f s s hsp ?_
            unfold init
            have e1 : store sh (rebuilt s p).first = .ok (some p) := store_again (g := a.first) (by rw [hst, hpp]; rfl)
            have e2 : construct (rebuilt s p).gs (rebuilt s p).extent (rebuilt s p).shape = (geo, none) := by
              have g1 : (rebuilt s p).gs = geo.gs := by
                rw [k5] at hgs
                simp only [rebuilt, k5]
                cases hgg : geo.gs with
                | none => rfl
                | some g =>
                  have : g ≠ 0 := fun hz => hgs (by rw [hgg, hz])
                  simp [this]
              have g2 : (rebuilt s p).extent = geo.extent := by
                rw [k6] at hext
                simp only [rebuilt, k6]
                cases hee : geo.extent with
                | none => rfl
                | some e =>
                  have : e ≠ [] := fun hz => hext (by rw [hee, hz])
                  simp [this]
              rw [g1, g2]
              exact enough_again hen (k5 ▸ hgs)
            have e3 : firstShift (rebuilt s p).shift geo.extent = .ok shift := by
              rw [k3, k6] at hs
              have := firstShift_again hf hs
              simp only [rebuilt, k3]
              exact this
            rw [e1]
            dsimp only
            rw [e2]
            dsimp only
            rw [e3]
            dsimp only
            have e4 : firstRotation (rebuilt s p).rotation = rot := by
              simp only [rebuilt, k2]
              by_cases hz : rot = 0
              · simp [hz, firstRotation]
              · simp [hz, firstRotation]
            rw [e4]
            have e5 : (rebuilt s p).generate = a.generate := k4
            rw [e5, ← hpp, hs0]
            exact k7

/-- A plane with a grid of two times two points. -/
noncomputable def plane (generate : Bool) (shift : Option (List ℝ)) : Args :=
  { first := .tuple [1, 0], shift := shift, generate := generate, gs := some 1, shape := some [2, 2] }

theorem plane_geo : construct (some 1) none (some [2, 2]) = ((⟨some 1, some [2, 2], some [2, 2], some 4, none⟩ : Geo ℝ), none) := by
  have : trunc (2 : ℝ) = 2 := by exact_mod_cast trunc_int 2
  simp [construct, andThen, ifGiven, setGs, setShape, Geo.new, this]

/-- The height of planes. -/
def planeHeight : Option Given → ℝ → ℝ → ℝ
  | some (.tuple [a, b]) => Analytic.flat a b
  | some (.list [a, b]) => Analytic.flat a b
  | _ => fun _ _ => 0

theorem plane_init (shift : Option (List ℝ)) {r : ℝ × ℝ} (h : firstShift shift (some [2, 2]) = .ok r) :
    init .flat planeHeight (plane false shift) = .ok ⟨some (.tuple [1, 0]), ⟨some 1, some [2, 2], some [2, 2], some 4, none⟩, 0, r, false, none, none⟩ := by
  unfold init
  simp only [plane, store, plane_geo, h]
  rfl

example : ∃ s, init .flat planeHeight (plane false none) = .ok s ∧ s.params ≠ none ∧ s.geo.gs ≠ some 0 ∧ s.geo.extent ≠ some [] ∧ (s.shift.1 ≠ 0 ∨ s.shift.2 ≠ 0) ∧
    ∀ l, (plane false none).shape = some l → l.length ≤ 2 ∧ l ≠ [] ∧ ∀ x ∈ l, ∃ n : ℕ, 0 < n ∧ x = n := by
  have h : firstShift none (some [2, 2]) = .ok (-1, -1) := by
    simp only [firstShift, List.map_cons, List.map_nil]
    norm_num
  refine ⟨_, plane_init none h, by simp, by simp, by simp, by simp, ?_⟩
  intro l hl
  simp only [plane, Option.some.injEq] at hl
  subst hl
  refine ⟨by simp, by simp, ?_⟩
  intro x hx
  simp only [List.mem_cons, List.not_mem_nil, or_false, or_self] at hx
  exact ⟨2, by norm_num, by rw [hx]; norm_num⟩

/-- What the text of a surface that is not discrete gives: everything but the shift is the same. -/
theorem rebuilt_shift {sh : Shape} {f : Option Given → ℝ → ℝ → ℝ} {a : Args} {s : Surf} (h : init sh f a = .ok s) (hgen : a.generate = false)
    (hshape : ∀ l, a.shape = some l → l.length ≤ 2 ∧ l ≠ [] ∧ ∀ x ∈ l, ∃ n : ℕ, 0 < n ∧ x = n) (hknown : a.shape = none ∨ a.gs ≠ none ∨ a.extent ≠ none)
    {p : Given} (hp : s.params = some p) (hgs : s.geo.gs ≠ some 0) (hext : s.geo.extent ≠ some []) {r : ℝ × ℝ} (hr : firstShift (rebuilt s p).shift s.geo.extent = .ok r) :
    init sh f (rebuilt s p) = .ok { s with shift := r } := by
  unfold init at h
  cases hst : store sh a.first with
  | error e => rw [hst] at h; cases h
  | ok params =>
    rw [hst] at h
    dsimp only at h
    cases hc : construct a.gs a.extent a.shape with
    | mk geo err =>
      rw [hc] at h
      cases err with
      | some e => cases h
      | none =>
        dsimp only at h
        cases hf : firstShift a.shift geo.extent with
        | error e => rw [hf] at h; cases h
        | ok shift =>
          rw [hf, hgen] at h
          simp only [Bool.false_eq_true, if_false, Except.ok.injEq] at h
          subst h
          dsimp only at hp hgs hext hr
          have hen := construct_enough hc hshape hknown
          subst hp
          unfold init
          have e1 := store_again hst
          have e2 := enough_again hen hgs
          generalize hs : (⟨some p, geo, firstRotation a.rotation, shift, false, none, none⟩ : Surf) = s at hr ⊢
          have g0 : (rebuilt s p).first = p := rfl
          have g1 : (rebuilt s p).gs = geo.gs := by
            subst hs
            simp only [rebuilt]
            cases hgg : geo.gs with
            | none => rfl
            | some g =>
              have : g ≠ 0 := fun hz => hgs (by rw [hgg, hz])
              simp [this]
          have g2 : (rebuilt s p).extent = geo.extent := by
            subst hs
            simp only [rebuilt]
            cases hee : geo.extent with
            | none => rfl
            | some e =>
              have : e ≠ [] := fun hz => hext (by rw [hee, hz])
              simp [this]
          have g3 : (rebuilt s p).shape = none := rfl
          have g4 : firstRotation (rebuilt s p).rotation = s.rot := by
            simp only [rebuilt]
            by_cases hz : s.rot = 0
            · simp [hz, firstRotation]
            · simp [hz, firstRotation]
          have g5 : (rebuilt s p).generate = false := by subst hs; rfl
          rw [g0, e1]
          dsimp only
          rw [g1, g2, g3, e2]
          dsimp only
          rw [hr]
          dsimp only
          rw [g4, g5]
          subst hs
          simp

/-- **C135 (negation)**, position: the text of a surface with an extent that is not shifted gives a surface that is shifted by half of the extent. -/
theorem C135_unshifted_wrong (w : Printer) (sh : Shape) (f : Option Given → ℝ → ℝ → ℝ) {a : Args} {s : Surf} (h : init sh f a = .ok s) (hgen : a.generate = false)
    (hshape : ∀ l, a.shape = some l → l.length ≤ 2 ∧ l ≠ [] ∧ ∀ x ∈ l, ∃ n : ℕ, 0 < n ∧ x = n) (hknown : a.shape = none ∨ a.gs ≠ none ∨ a.extent ≠ none)
    (hp : s.params ≠ none) (hgs : s.geo.gs ≠ some 0) (hz : s.shift = (0, 0)) {x y : ℝ} (he : s.geo.extent = some [x, y]) :
    Evaluates w sh f s { s with shift := (x / -2, y / -2) } := by
  obtain ⟨p, hpp⟩ := Option.ne_none_iff_exists'.1 hp
  refine evaluates w sh f s _ hpp (rebuilt_shift h hgen hshape hknown hpp hgs (by rw [he]; simp) ?_)
  have : (rebuilt s p).shift = none := by simp [rebuilt, hz]
  rw [this, he]
  simp [firstShift]

example : ∃ s, init .flat planeHeight (plane false (some [0, 0])) = .ok s ∧ s.params ≠ none ∧ s.geo.gs ≠ some 0 ∧ s.shift = (0, 0) ∧ s.geo.extent = some [2, 2] := by
  have h : firstShift (some [0, 0]) (some [2, 2]) = .ok (0, 0) := by simp [firstShift]
  exact ⟨_, plane_init _ h, by simp, by simp, rfl, rfl⟩

/-- **C135 (negation)**, shape: the text of a surface of which only the shape is known does not contain it. -/
theorem C135_shape_wrong (w : Printer) (sh : Shape) (f : Option Given → ℝ → ℝ → ℝ) {a : Args} {s : Surf} (h : init sh f a = .ok s) (hg : a.gs = none) (he : a.extent = none)
    {l : List ℝ} (hl : a.shape = some l) (hp : s.params ≠ none) : ∃ s', Evaluates w sh f s s' ∧ s'.geo.shape = none ∧ s.geo.shape = some (l.map trunc) := by
  unfold init at h
  cases hst : store sh a.first with
  | error e => rw [hst] at h; cases h
  | ok params =>
    rw [hst, hg, he, hl] at h
    simp only [construct, andThen, ifGiven, Option.isSome_none, Bool.false_and, Bool.false_eq_true, if_false, setShape, Geo.new] at h
    cases hf : firstShift a.shift none with
    | error e => rw [hf] at h; cases h
    | ok shift =>
      rw [hf] at h
      dsimp only at h
      cases hgen : a.generate with
      | true =>
        rw [hgen] at h
        simp only [if_true, discretise] at h
        cases h
      | false =>
        rw [hgen] at h
        simp only [Bool.false_eq_true, if_false, Except.ok.injEq] at h
        cases hpp : params with
        | none => rw [← h] at hp; exact absurd hpp hp
        | some p =>
          have hsp : s.params = some p := by rw [← h]; exact hpp
          have hinit : init sh f (rebuilt s p) = .ok ⟨some p, Geo.new, firstRotation (rebuilt s p).rotation, shift, false, none, none⟩ := by
            unfold init
            have e1 : store sh (rebuilt s p).first = .ok (some p) := store_again (g := a.first) (by rw [hst, hpp]; rfl)
            have e2 : (rebuilt s p).gs = none ∧ (rebuilt s p).extent = none ∧ (rebuilt s p).shape = none ∧ (rebuilt s p).generate = false := by
              rw [← h]; exact ⟨rfl, rfl, rfl, rfl⟩
            have e3 : firstShift (rebuilt s p).shift none = .ok shift := by
              have := firstShift_again hf (Or.inr rfl)
              have hs : s.shift = shift := by rw [← h]
              simp only [rebuilt, hs]
              exact this
            have e4 : construct (none : Option ℝ) none none = (Geo.new, none) := rfl
            rw [e1]
            dsimp only
            rw [e2.1, e2.2.1, e2.2.2.1, e4]
            dsimp only
            have e5 : (Geo.new : Geo ℝ).extent = none := rfl
            rw [e5, e3, e2.2.2.2]
            simp
          exact ⟨_, evaluates w sh f s _ hsp hinit, rfl, by rw [← h]⟩

example : ∃ s, init .flat planeHeight { first := .tuple [1, 0], shape := some [2, 2] } = .ok s ∧ s.params ≠ none := ⟨_, rfl, by simp⟩

/-- **C135 (negation)**, material: no text gives a surface with a material. -/
theorem C135_material_wrong (w : Printer) (sh : Shape) (f : Option Given → ℝ → ℝ → ℝ) {s s' : Surf} (h : Evaluates w sh f s s') : s'.material = none := by
  obtain ⟨c, a, -, -, -, h⟩ := h
  have hd : ∀ t t' : Surf, discretise f t = .ok t' → t'.material = t.material := by
    intro t t' ht
    unfold discretise at ht
    split at ht
    · cases ht
    · cases ht
    · cases ht
    · split at ht
      · cases ht
      · split at ht
        · cases ht
        · cases ht; rfl
    · cases ht
  unfold init at h
  split at h
  · cases h
  · split at h
    · cases h
    · split at h
      · cases h
      · dsimp only at h
        split at h
        · rw [hd _ _ h]
        · cases h; rfl

/-- A surface with a material, and what its text gives. -/
example (w : Printer) : ∃ s s' : Surf, s.material = some 0 ∧ Evaluates w .flat planeHeight s s' := by
  have h : firstShift (some [0, 0]) (some [2, 2]) = .ok (0, 0) := by simp [firstShift]
  obtain ⟨c, a, h1, h2⟩ := C135_unshifted_wrong w .flat planeHeight (plane_init _ h) rfl (by
    intro l hl
    simp only [plane, Option.some.injEq] at hl
    subst hl
    refine ⟨by simp, by simp, ?_⟩
    intro x hx
    simp only [List.mem_cons, List.not_mem_nil, or_false, or_self] at hx
    exact ⟨2, by norm_num, by rw [hx]; norm_num⟩) (Or.inr (Or.inl (by simp [plane]))) (by simp) (by simp) rfl rfl
  exact ⟨⟨some (.tuple [1, 0]), ⟨some 1, some [2, 2], some [2, 2], some 4, none⟩, 0, (0, 0), false, none, some 0⟩, _, rfl, c, a, h1, h2⟩

/-- **C135 (negation)**, rotated surfaces: the text of a discrete surface that was rotated gives another profile. -/
theorem C135_rotated_wrong (w : Printer) : ∃ (a : Args) (s s' : Surf), init .flat planeHeight a = .ok s ∧ Evaluates w .flat planeHeight (rotate s Real.pi) s' ∧
    (rotate s Real.pi).rot = s'.rot ∧ ∃ p p', (rotate s Real.pi).heights = some p ∧ s'.heights = some p' ∧ p.val 0 0 ≠ p'.val 0 0 := by
  have hset : setProfile (⟨some 1, some [2, 2], some [2, 2], some 4, none⟩ : Geo ℝ) [2, 2] = (⟨some 1, some [2, 2], some [2, 2], some 4, some [2, 2]⟩, none) := by
    simp [setProfile]
  have hdis : ∀ s : Surf, s.geo = ⟨some 1, some [2, 2], some [2, 2], some 4, none⟩ →
      discretise planeHeight s = .ok { s with geo := ⟨some 1, some [2, 2], some [2, 2], some 4, some [2, 2]⟩, discrete := true, heights := some (Analytic.sample (heightOf planeHeight s) 1 2 2) } := by
    intro s hs
    unfold discretise
    rw [hs]
    have h2 : (2 : ℤ).toNat = 2 := rfl
    simp only [h2, hset]
    simp
  have h1 : firstShift (some [1, 0]) (some [2, 2]) = .ok (1, 0) := by simp [firstShift]
  have hinit : init .flat planeHeight (plane true (some [1, 0])) = .ok ⟨some (.tuple [1, 0]), ⟨some 1, some [2, 2], some [2, 2], some 4, some [2, 2]⟩, 0, (1, 0), true,
      some (Analytic.sample (heightOf planeHeight ⟨some (.tuple [1, 0]), ⟨some 1, some [2, 2], some [2, 2], some 4, none⟩, 0, (1, 0), false, none, none⟩) 1 2 2), none⟩ := by
    unfold init
    simp only [plane, store, plane_geo, h1, if_true]
    exact hdis _ rfl
  refine ⟨_, _, ⟨some (.tuple [1, 0]), ⟨some 1, some [2, 2], some [2, 2], some 4, some [2, 2]⟩, Real.pi, (1, 0), true,
      some (Analytic.sample (heightOf planeHeight ⟨some (.tuple [1, 0]), ⟨some 1, some [2, 2], some [2, 2], some 4, none⟩, Real.pi, (1, 0), false, none, none⟩) 1 2 2), none⟩,
    hinit, evaluates w .flat planeHeight _ _ (p := .tuple [1, 0]) rfl ?_, ?_, ?_⟩
  · unfold init
    have e1 : construct (some 1) (some [2, 2]) none = ((⟨some 1, some [2, 2], some [2, 2], some 4, none⟩ : Geo ℝ), none) := by
      have : trunc (2 : ℝ) = 2 := by exact_mod_cast trunc_int 2
      simp [construct, andThen, ifGiven, setGs, setExtent, divide, spacingFrom, Geo.new, this]
    simp only [rebuilt, rotate, store, firstRotation]
    simp only [zero_add, ne_eq, one_ne_zero, not_false_eq_true, true_or, if_true, Real.pi_ne_zero, List.cons_ne_nil, reduceCtorEq, h1, e1]
    exact hdis _ rfl
  · simp [rotate, firstRotation]
  · refine ⟨_, _, rfl, rfl, ?_⟩
    simp [Analytic.sample, Analytic.linspace, heightOf, planeHeight, Analytic.flat, firstRotation]
    norm_num

/-! ## Other texts -/

theorem cut_append (n : Nat) (a b : String) (h : b.toList.length = n) : cut n (a ++ b) = a := by
  unfold cut
  rw [String.toList_append, List.length_append, h, Nat.add_sub_cancel, List.take_left, String.ofList_toList]

/-- **C135 (negation)**, filtered surfaces: without arguments the name of the class is cut, and the moments are written under a name that is not an argument. -/
theorem C135_filter_wrong (acf : Option String) (gs m : String) (shape : Option String) : filterText none gs none none = "RandomFilterSurfac)" ∧
    (∃ before after, filterText acf gs (some m) shape = "RandomFilterSurface(" ++ before ++ "moments = " ++ m ++ after ++ ")") ∧ "moments" ∉ filterNames := by
  have hcut : cut 2 "RandomFilterSurface(" ++ ")" = "RandomFilterSurfac)" := by decide +kernel
  refine ⟨hcut, ?_, by decide⟩
  cases acf with
  | none =>
    cases shape with
    | none =>
      refine ⟨"", "", ?_⟩
      simp only [filterText]
      rw [cut_append 2 _ ", " rfl]
      simp [String.append_assoc]
    | some t =>
      refine ⟨"", ", shape = " ++ t, ?_⟩
      simp only [filterText]
      rw [cut_append 2 _ ", " rfl]
      simp only [String.append_assoc, String.append_empty, String.empty_append]
      rfl
  | some u =>
    cases shape with
    | none =>
      refine ⟨"target_acf=" ++ u ++ ", " ++ "grid_spacing=" ++ gs ++ ", ", "", ?_⟩
      simp only [filterText]
      rw [cut_append 2 _ ", " rfl]
      simp only [String.append_assoc, String.empty_append]
    | some t =>
      refine ⟨"target_acf=" ++ u ++ ", " ++ "grid_spacing=" ++ gs ++ ", ", ", shape = " ++ t, ?_⟩
      simp only [filterText]
      rw [cut_append 2 _ ", " rfl]
      simp only [String.append_assoc]
      rfl

/-- **C135 (negation)**, surfaces with a profile: materials and masks are written under names that are not arguments. -/
theorem C135_surface_wrong (profile shape gs : Option String) (m : String) :
    (∃ before, surfaceText profile shape gs (some m) none = "Surface(" ++ before ++ "material = " ++ m ++ ")") ∧
    (∃ before, surfaceText profile shape gs none (some m) = "Surface(" ++ before ++ "mask = " ++ m ++ ")") ∧ "material" ∉ argumentNames ∧ "mask" ∉ argumentNames := by
  refine ⟨?_, ?_, by decide, by decide⟩
  · simp only [surfaceText]
    rw [cut_append 2 _ ", " rfl]
    exact ⟨_, by simp only [String.append_assoc]; rfl⟩
  · simp only [surfaceText]
    rw [cut_append 2 _ ", " rfl]
    exact ⟨_, by simp only [String.append_assoc]; rfl⟩

/-- **C135 (partial)**: the text of a surface with a profile and a grid spacing and nothing else is a call with these two. -/
theorem C135_surface_partial (p g : String) (shape : Option String) : surfaceText (some p) shape (some g) none none = "Surface(profile = " ++ p ++ ", grid_spacing = " ++ g ++ ")" ∧
    surfaceText (some p) shape none none none = "Surface(profile = " ++ p ++ ")" ∧ "profile" ∈ argumentNames ∧ "grid_spacing" ∈ argumentNames := by
  refine ⟨?_, ?_, by decide, by decide⟩
  · simp only [surfaceText]
    rw [cut_append 2 _ ", " rfl]
    simp only [String.append_assoc, String.empty_append]
    rfl
  · simp only [surfaceText]
    rw [cut_append 2 _ ", " rfl]
    simp only [String.append_assoc, String.empty_append]
    rfl

/-- **C135 (partial)**: the text of a surface that has no profile yet, of known shape. -/
theorem C135_empty_partial (sh g : String) : surfaceText none (some sh) (some g) none none = "Surface(shape = " ++ sh ++ ", grid_spacing = " ++ g ++ ")" ∧
    surfaceText none (some sh) none none none = "Surface(shape = " ++ sh ++ ")" ∧ "shape" ∈ argumentNames := by
  refine ⟨?_, ?_, by decide⟩
  · simp only [surfaceText]
    rw [cut_append 2 _ ", " rfl]
    simp only [String.append_assoc, String.empty_append]
    rfl
  · simp only [surfaceText]
    rw [cut_append 2 _ ", " rfl]
    simp only [String.append_assoc, String.empty_append]
    rfl

/-- The heights that are compared here are those of analytic surfaces (C43). -/
theorem height_analytic (f : Option Given → ℝ → ℝ → ℝ) (s : Surf) (h : Analytic.Heap) (i : ℕ) (e : Option (ℝ × ℝ)) (hi : h i = ⟨.base (f s.params), s.rot, s.shift, e, s.geo.gs⟩) (x y : ℝ) :
    heightOf f s x y = Analytic.height h i x y := by
  unfold Analytic.height heightOf
  rw [hi]
  rfl

/-- **C135 (negation)**, fractal surfaces: the last character of the last parameter is cut, surfaces with different parameters have the same text. -/
theorem C135_hurst_wrong (base sigma hurst rollOff : String) (c d : Char) :
    hurstText base sigma hurst (rollOff ++ String.singleton c) = hurstText base sigma hurst (rollOff ++ String.singleton d) := by
  unfold hurstText
  have key : ∀ x : Char, cut 1 (sigma ++ ", " ++ hurst ++ ", " ++ (rollOff ++ String.singleton x)) = sigma ++ ", " ++ hurst ++ ", " ++ rollOff := by
    intro x
    rw [← String.append_assoc]
    exact cut_append 1 _ _ (by simp)
  rw [key, key]

/-- Open brackets minus closed ones. -/
def balance (s : String) : ℤ := (s.toList.map fun c => if c = '(' then 1 else if c = ')' then -1 else (0 : ℤ)).sum

theorem balance_append (a b : String) : balance (a ++ b) = balance a + balance b := by
  unfold balance
  rw [String.toList_append, List.map_append, List.sum_append]

/-- **C135 (negation)**, combinations and materials: a bracket stays open. -/
theorem C135_bracket_wrong (first second mode name e v : String) (h1 : balance first = 0) (h2 : balance second = 0) (h3 : balance mode = 0) (h4 : balance name = 0)
    (h5 : balance e = 0) (h6 : balance v = 0) : balance (combinationText first second mode) = 1 ∧ balance (elasticText name e v) = 1 := by
  unfold combinationText elasticText
  simp only [balance_append, h1, h2, h3, h4, h5, h6]
  have e1 : balance "SurfaceCombination(surface_1=" = 1 := by decide +kernel
  have e2 : balance ", surface_2=" = 0 := by decide +kernel
  have e3 : balance ", mode='" = 0 := by decide +kernel
  have e4 : balance "'" = 0 := by decide +kernel
  have e5 : balance "Elastic(name = '" = 1 := by decide +kernel
  have e6 : balance "', properties = { 'E':" = 0 := by decide +kernel
  have e7 : balance ", 'v':" = 0 := by decide +kernel
  have e8 : balance " }" = 0 := by decide +kernel
  rw [e1, e2, e3, e4, e5, e6, e7, e8]
  norm_num

example : balance "FlatSurface(slope=(0, 0))" = 0 ∧ balance "+" = 0 ∧ balance "steel" = 0 ∧ balance "200000000000.0" = 0 := by decide +kernel

end Verif.Repr
