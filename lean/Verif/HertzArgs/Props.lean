import Verif.HertzArgs.Model

/-! # C131: the arguments of the full Hertz solution -/

namespace Verif.HertzArgs

open Verif

/-- The number of an item. -/
inductive Value {α : Type} : Item α → α → Prop where
  | num (x : α) : Value (.num x) x
  | text (x : α) : Value (.text (some x)) x

/-- The two numbers an argument stands for: one number for both, or two. -/
inductive Names {α : Type} : Arg α → α → α → Prop where
  | number (x : α) : Names (.scalar (some x)) x x
  | array (x : α) : Names (.array [x]) x x
  | one {i : Item α} {x : α} (h : Value i x) : Names (.seq [i]) x x
  | two {i j : Item α} {x y : α} (h : Value i x) (h' : Value j y) : Names (.seq [i, j]) x y

theorem toFloat_ok {α : Type} (i : Item α) (x : α) : toFloat i = .ok x ↔ Value i x := by
  constructor
  · intro h
    match i, h with
    | .num _, h => cases h; exact .num _
    | .text (some _), h => cases h; exact .text _
  · rintro (h | h) <;> rfl

theorem value_unique {α : Type} {i : Item α} {x y : α} (h : Value i x) (h' : Value i y) : x = y := by
  rw [← toFloat_ok] at h h'
  rw [h] at h'
  exact Except.ok.inj h'

theorem floats_two {α : Type} (i j : Item α) (l : List α) : floats [i, j] = .ok l ↔ ∃ x y, Value i x ∧ Value j y ∧ l = [x, y] := by
  constructor
  · intro h
    unfold floats at h
    cases hi : toFloat i with
    | error e => rw [hi] at h; cases h
    | ok x =>
      rw [hi] at h
      unfold floats at h
      cases hj : toFloat j with
      | error e => rw [hj] at h; cases h
      | ok y =>
        rw [hj] at h
        cases h
        exact ⟨x, y, (toFloat_ok i x).mp hi, (toFloat_ok j y).mp hj, rfl⟩
  · rintro ⟨x, y, hx, hy, rfl⟩
    unfold floats
    rw [(toFloat_ok i x).mpr hx]
    unfold floats
    rw [(toFloat_ok j y).mpr hy]
    rfl

theorem tryExcept_ok {α : Type} {c r : PyErr} {x : Except PyErr α} {a : α} : tryExcept c r x = .ok a ↔ x = .ok a := by
  cases x with
  | ok b => rfl
  | error e =>
    unfold tryExcept
    constructor
    · intro h
      by_cases hc : e = c
      · simp [hc] at h
      · simp [hc] at h
    · intro h
      cases h

theorem map_ok {α β : Type} {x : Except PyErr α} {f : α → β} {b : β} : x.map f = .ok b ↔ ∃ a, x = .ok a ∧ f a = b := by
  cases x with
  | ok a =>
    constructor
    · intro h
      cases h
      exact ⟨a, rfl, rfl⟩
    · rintro ⟨a', h, rfl⟩
      cases h
      rfl
  | error e =>
    constructor
    · intro h
      cases h
    · rintro ⟨a', h, _⟩
      cases h

section

variable {α : Type} [DecidableEq α] [OfNat α 0]

theorem convert_ok {α : Type} (a : Arg α) (l : List α) : convertRadii a = .ok l ↔ ∃ x y, Names a x y ∧ l = [x, y] := by
  unfold convertRadii
  match a with
  | .scalar none =>
    constructor
    · intro h; cases h
    · rintro ⟨x, y, h, rfl⟩; cases h
  | .scalar (some z) =>
    constructor
    · intro h; cases h; exact ⟨_, _, .number _, rfl⟩
    · rintro ⟨x, y, h, rfl⟩; cases h; rfl
  | .array [] =>
    constructor
    · intro h; cases h
    · rintro ⟨x, y, h, rfl⟩; cases h
  | .array [z] =>
    constructor
    · intro h; cases h; exact ⟨_, _, .array _, rfl⟩
    · rintro ⟨x, y, h, rfl⟩; cases h; rfl
  | .array (_ :: _ :: _) =>
    constructor
    · intro h; cases h
    · rintro ⟨x, y, h, rfl⟩; cases h
  | .seq [] =>
    constructor
    · intro h; cases h
    · rintro ⟨x, y, h, rfl⟩; cases h
  | .seq [i] =>
    show (tryExcept _ _ (floats [i, i])) = _ ↔ _
    rw [tryExcept_ok, floats_two]
    constructor
    · rintro ⟨x, y, hx, hy, rfl⟩
      rw [value_unique hy hx]
      exact ⟨x, x, .one hx, rfl⟩
    · rintro ⟨x, y, h, rfl⟩
      cases h with
      | one h => exact ⟨x, x, h, h, rfl⟩
  | .seq [i, j] =>
    show (tryExcept _ _ (floats [i, j])) = _ ↔ _
    rw [tryExcept_ok, floats_two]
    constructor
    · rintro ⟨x, y, hx, hy, rfl⟩
      exact ⟨x, y, .two hx hy, rfl⟩
    · rintro ⟨x, y, h, rfl⟩
      cases h with
      | two h h' => exact ⟨x, y, h, h', rfl⟩
  | .seq (i :: j :: k :: rest) =>
    constructor
    · intro h
      dsimp only at h
      rw [if_pos (by simp)] at h
      cases h
    · rintro ⟨x, y, h, rfl⟩; cases h

theorem names_unique {α : Type} {a : Arg α} {x y x' y' : α} (h : Names a x y) (h' : Names a x' y') : x = x' ∧ y = y' := by
  have h1 := (convert_ok a [x, y]).mpr ⟨x, y, h, rfl⟩
  rw [(convert_ok a [x', y']).mpr ⟨x', y', h', rfl⟩] at h1
  cases h1
  exact ⟨rfl, rfl⟩

/-- **C131**, radii: accepted are exactly the arguments that stand for two numbers other than zero; these are the result. -/
theorem C131_radii (a : Arg α) (l : List α) :
    sanitiseRadii a = .ok l ↔ ∃ x y, Names a x y ∧ x ≠ 0 ∧ y ≠ 0 ∧ l = [x, y] := by
  unfold sanitiseRadii
  cases hc : convertRadii a with
  | error e =>
    constructor
    · intro h; cases h
    · rintro ⟨x, y, h, -, -, -⟩
      rw [(convert_ok a [x, y]).mpr ⟨x, y, h, rfl⟩] at hc
      cases hc
  | ok l' =>
    obtain ⟨x, y, hn, rfl⟩ := (convert_ok a l').mp hc
    show (if [x, y].any isZero = true then .error .valueError else Except.ok [x, y] : Except PyErr (List α)) = _ ↔ _
    by_cases hz : [x, y].any isZero = true
    · rw [if_pos hz]
      constructor
      · intro h; cases h
      · rintro ⟨x', y', h, hx, hy, -⟩
        obtain ⟨rfl, rfl⟩ := names_unique hn h
        simp [isZero, hx, hy] at hz
    · rw [if_neg hz]
      constructor
      · intro h
        cases h
        simp [isZero] at hz
        exact ⟨x, y, hn, hz.1, hz.2, rfl⟩
      · rintro ⟨x', y', h, hx, hy, rfl⟩
        obtain ⟨rfl, rfl⟩ := names_unique hn h
        rfl

example : sanitiseRadii (.scalar (some (3 : Int))) = .ok [3, 3] ∧ sanitiseRadii (.seq [.num (3 : Int), .text (some 4)]) = .ok [3, 4] := ⟨rfl, rfl⟩

/-- **C131**, refused radii: `ValueError` for zeros and for sequences of another length, otherwise `TypeError`. -/
theorem C131_radii_refused (a : Arg α) (e : PyErr) (h : sanitiseRadii a = .error e) :
    e = .typeError ∨ e = .valueError ∧ ((∃ items, a = .seq items ∧ items.length ≠ 1 ∧ items.length ≠ 2) ∨ ∃ x y, Names a x y ∧ (x = 0 ∨ y = 0)) := by
  by_cases hn : ∃ x y, Names a x y
  · obtain ⟨x, y, hn⟩ := hn
    by_cases hz : x = 0 ∨ y = 0
    · right
      refine ⟨?_, Or.inr ⟨x, y, hn, hz⟩⟩
      have h1 := (convert_ok a [x, y]).mpr ⟨x, y, hn, rfl⟩
      unfold sanitiseRadii at h
      rw [h1] at h
      change (if [x, y].any isZero = true then _ else _) = _ at h
      rw [if_pos (by rcases hz with hz | hz <;> simp [isZero, hz])] at h
      cases h
      rfl
    · have hz : x ≠ 0 ∧ y ≠ 0 := ⟨fun h => hz (.inl h), fun h => hz (.inr h)⟩
      rw [(C131_radii a [x, y]).mpr ⟨x, y, hn, hz.1, hz.2, rfl⟩] at h
      cases h
  · match a, h with
    | .scalar (some x), _ => exact absurd ⟨x, x, .number x⟩ hn
    | .scalar none, h => cases h; exact Or.inl rfl
    | .array [], h => cases h; exact Or.inl rfl
    | .array [x], _ => exact absurd ⟨x, x, .array x⟩ hn
    | .array (_ :: _ :: _), h => cases h; exact Or.inl rfl
    | .seq [], h => cases h; exact Or.inr ⟨rfl, Or.inl ⟨_, rfl, by simp, by simp⟩⟩
    | .seq [.num x], _ => exact absurd ⟨x, x, .one (.num x)⟩ hn
    | .seq [.text (some x)], _ => exact absurd ⟨x, x, .one (.text x)⟩ hn
    | .seq [.text none], h => cases h; exact Or.inl rfl
    | .seq [.obj], h => cases h; exact Or.inl rfl
    | .seq [.num x, .num y], _ => exact absurd ⟨x, y, .two (.num x) (.num y)⟩ hn
    | .seq [.num x, .text (some y)], _ => exact absurd ⟨x, y, .two (.num x) (.text y)⟩ hn
    | .seq [.num x, .text none], h => cases h; exact Or.inl rfl
    | .seq [.num x, .obj], h => cases h; exact Or.inl rfl
    | .seq [.text (some x), .num y], _ => exact absurd ⟨x, y, .two (.text x) (.num y)⟩ hn
    | .seq [.text (some x), .text (some y)], _ => exact absurd ⟨x, y, .two (.text x) (.text y)⟩ hn
    | .seq [.text (some x), .text none], h => cases h; exact Or.inl rfl
    | .seq [.text (some x), .obj], h => cases h; exact Or.inl rfl
    | .seq [.text none, _], h => cases h; exact Or.inl rfl
    | .seq [.obj, _], h => cases h; exact Or.inl rfl
    | .seq (i :: j :: k :: rest), h =>
      have hc : convertRadii (.seq (i :: j :: k :: rest)) = .error .valueError := by
        unfold convertRadii
        exact if_pos (by simp)
      unfold sanitiseRadii at h
      rw [hc] at h
      cases h
      exact Or.inr ⟨rfl, Or.inl ⟨_, rfl, by simp, by simp⟩⟩

example : sanitiseRadii (.seq [.num (3 : Int), .num 0]) = .error .valueError ∧ sanitiseRadii (.array [(3 : Int), 4]) = .error .typeError := ⟨rfl, rfl⟩

/-- **C131 (partial)**, material properties: accepted are exactly the arguments that stand for two numbers. Missing: the refusal of zero
moduli. -/
theorem C131_material_partial (name : String) (hname : name = "moduli" ∨ name = "v") (a : Arg α) (l : List α) :
    sanitiseMaterial name a = .ok l ↔ ∃ x y, Names a x y ∧ l = [x, y] := by
  have hne : (name == "e") = false := by rcases hname with rfl | rfl <;> decide
  have two : ∀ i j : Item α, (if ([i, j].any itemZero && name == "e") = true then
      (.error .valueError : Except PyErr (List α)) else floats [i, j]) = floats [i, j] := fun i j => by
    rw [hne, Bool.and_false]
    rfl
  match a with
  | .scalar none =>
    constructor
    · intro h; cases h
    · rintro ⟨x, y, h, rfl⟩; cases h
  | .scalar (some z) =>
    show (if ([Item.num z, Item.num z].any itemZero && name == "e") = true then _ else floats [Item.num z, Item.num z]) = _ ↔ _
    rw [two, floats_two]
    constructor
    · rintro ⟨x, y, hx, hy, rfl⟩
      cases hx; cases hy
      exact ⟨z, z, .number z, rfl⟩
    · rintro ⟨x, y, h, rfl⟩
      cases h
      exact ⟨z, z, .num z, .num z, rfl⟩
  | .array [] =>
    constructor
    · intro h; cases h
    · rintro ⟨x, y, h, rfl⟩; cases h
  | .array [z] =>
    show (if ([Item.num z, Item.num z].any itemZero && name == "e") = true then _ else floats [Item.num z, Item.num z]) = _ ↔ _
    rw [two, floats_two]
    constructor
    · rintro ⟨x, y, hx, hy, rfl⟩
      cases hx; cases hy
      exact ⟨z, z, .array z, rfl⟩
    · rintro ⟨x, y, h, rfl⟩
      cases h
      exact ⟨z, z, .num z, .num z, rfl⟩
  | .array (_ :: _ :: _) =>
    constructor
    · intro h; cases h
    · rintro ⟨x, y, h, rfl⟩; cases h
  | .seq [] =>
    constructor
    · intro h; cases h
    · rintro ⟨x, y, h, rfl⟩; cases h
  | .seq [i] =>
    show (if ([i, i].any itemZero && name == "e") = true then _ else floats [i, i]) = _ ↔ _
    rw [two, floats_two]
    constructor
    · rintro ⟨x, y, hx, hy, rfl⟩
      rw [value_unique hy hx]
      exact ⟨x, x, .one hx, rfl⟩
    · rintro ⟨x, y, h, rfl⟩
      cases h with
      | one h => exact ⟨x, x, h, h, rfl⟩
  | .seq [i, j] =>
    show (if ([i, j].any itemZero && name == "e") = true then _ else floats [i, j]) = _ ↔ _
    rw [two, floats_two]
    constructor
    · rintro ⟨x, y, hx, hy, rfl⟩
      exact ⟨x, y, .two hx hy, rfl⟩
    · rintro ⟨x, y, h, rfl⟩
      cases h with
      | two h h' => exact ⟨x, y, h, h', rfl⟩
  | .seq (i :: j :: k :: rest) =>
    have hc : sanitiseMaterial name (.seq (i :: j :: k :: rest)) = .error .valueError := by
      unfold sanitiseMaterial
      simp only [convertMaterial, Bind.bind, Except.bind]
      simp
    rw [hc]
    constructor
    · intro h; cases h
    · rintro ⟨x, y, h, rfl⟩; cases h

example : sanitiseMaterial "moduli" (.seq [.num (3 : Int)]) = .ok [3, 3] := rfl

/-- **C131 (negation)**: zero moduli pass, for all other arguments that pass. -/
theorem C131_zero_moduli_wrong (r1 r2 v : Arg α) (l1 l2 : List α) (x y z : α) (h1 : sanitiseRadii r1 = .ok l1) (h2 : sanitiseRadii r2 = .ok l2)
    (hv : Names v x y) : sanitise r1 r2 (.scalar (some 0)) v = .ok (l1, l2, [0, 0], [x, y]) ∧
      sanitise r1 r2 (.seq [.num 0, .num z]) v = .ok (l1, l2, [0, z], [x, y]) ∧ sanitise r1 r2 (.seq [.num z, .num 0]) v = .ok (l1, l2, [z, 0], [x, y]) := by
  have hv' := (C131_material_partial "v" (.inr rfl) v [x, y]).mpr ⟨x, y, hv, rfl⟩
  have m1 := (C131_material_partial "moduli" (.inl rfl) (.scalar (some (0 : α))) [0, 0]).mpr ⟨0, 0, .number 0, rfl⟩
  have m2 := (C131_material_partial "moduli" (.inl rfl) (.seq [.num (0 : α), .num z]) [0, z]).mpr ⟨0, z, .two (.num 0) (.num z), rfl⟩
  have m3 := (C131_material_partial "moduli" (.inl rfl) (.seq [.num z, .num (0 : α)]) [z, 0]).mpr ⟨z, 0, .two (.num z) (.num 0), rfl⟩
  unfold sanitise
  rw [h1, h2, hv', m1, m2, m3]
  exact ⟨rfl, rfl, rfl⟩

example : sanitise (.scalar (some (1 : Int))) (.scalar (some 2)) (.scalar (some 0)) (.seq [.num 1]) = .ok ([1, 1], [2, 2], [0, 0], [1, 1]) := rfl

end

/-- **C131**, refused material properties: `ValueError` for sequences of another length and for strings that are no numbers, `TypeError` otherwise. -/
theorem C131_material_refused {α : Type} [DecidableEq α] [OfNat α 0] (name : String) (hname : name = "moduli" ∨ name = "v") (a : Arg α) (e : PyErr) (h : sanitiseMaterial name a = .error e) :
    e = .typeError ∨ e = .valueError ∧ ∃ items, a = .seq items ∧ ((items.length ≠ 1 ∧ items.length ≠ 2) ∨ .text none ∈ items) := by
  have hne : (name == "e") = false := by rcases hname with rfl | rfl <;> decide
  have hfl : ∀ i : Item α, ∀ e, toFloat i = .error e → e = .typeError ∨ e = .valueError ∧ i = .text none := by
    intro i e h
    match i with
    | .num x => cases h
    | .text (some x) => cases h
    | .text none => cases h; exact .inr ⟨rfl, rfl⟩
    | .obj => cases h; exact .inl rfl
  have hfs : ∀ l : List (Item α), ∀ e, floats l = .error e → e = .typeError ∨ e = .valueError ∧ .text none ∈ l := by
    intro l
    induction l with
    | nil => intro e h; cases h
    | cons i rest ih =>
      intro e h
      unfold floats at h
      cases hi : toFloat i with
      | error e' =>
        rw [hi] at h
        cases h
        rcases hfl i _ hi with rfl | ⟨rfl, rfl⟩
        · exact .inl rfl
        · exact .inr ⟨rfl, List.mem_cons_self⟩
      | ok x =>
        rw [hi] at h
        cases hr : floats rest with
        | ok xs => rw [hr] at h; cases h
        | error e' =>
          rw [hr] at h
          cases h
          rcases ih _ hr with rfl | ⟨rfl, hm⟩
          · exact .inl rfl
          · exact .inr ⟨rfl, List.mem_cons_of_mem _ hm⟩
  match a with
  | .scalar none => cases h; exact .inl rfl
  | .scalar (some z) =>
    have h : (if ([Item.num z, Item.num z].any itemZero && name == "e") = true then .error .valueError else floats [.num z, .num z] : Except PyErr (List α)) = _ := h
    rw [hne, Bool.and_false] at h
    cases h
  | .array [] => cases h; exact .inl rfl
  | .array [z] =>
    have h : (if ([Item.num z, Item.num z].any itemZero && name == "e") = true then .error .valueError else floats [.num z, .num z] : Except PyErr (List α)) = _ := h
    rw [hne, Bool.and_false] at h
    cases h
  | .array (_ :: _ :: _) => cases h; exact .inl rfl
  | .seq items =>
    by_cases h1 : items.length = 1
    · obtain ⟨i, rfl⟩ := List.length_eq_one_iff.mp h1
      have h : (if ([i, i].any itemZero && name == "e") = true then .error .valueError else floats [i, i] : Except PyErr (List α)) = _ := h
      rw [hne, Bool.and_false] at h
      rcases hfs _ _ h with rfl | ⟨rfl, hm⟩
      · exact .inl rfl
      · exact .inr ⟨rfl, _, rfl, .inr (by simpa using hm)⟩
    · by_cases h2 : items.length = 2
      · have h : (let l := if items.length = 1 then items ++ items else items; if l.length = 2 then (if (l.any itemZero && name == "e") = true then .error .valueError else floats l) else .error .valueError : Except PyErr (List α)) = _ := h
        dsimp only at h
        rw [if_neg h1, if_pos h2, hne, Bool.and_false] at h
        rcases hfs _ _ h with rfl | ⟨rfl, hm⟩
        · exact .inl rfl
        · exact .inr ⟨rfl, _, rfl, .inr hm⟩
      · have h : (let l := if items.length = 1 then items ++ items else items; if l.length = 2 then (if (l.any itemZero && name == "e") = true then .error .valueError else floats l) else .error .valueError : Except PyErr (List α)) = _ := h
        dsimp only at h
        rw [if_neg h1, if_neg h2] at h
        cases h
        exact .inr ⟨rfl, _, rfl, .inl ⟨h1, h2⟩⟩

example : sanitiseMaterial "v" (.seq [.num (3 : Int), .text none]) = .error .valueError ∧ sanitiseMaterial "v" (.seq [.num (3 : Int), .obj]) = .error .typeError := ⟨rfl, rfl⟩

end Verif.HertzArgs
