import Verif.Steps.Model

/-!
# What a saved record should contain (specification for C22)

Written without the tables and helpers of the model.
-/

namespace Verif.Steps

/-- Fields that are saved as three components. -/
def components : List String := ["loads", "total_displacement", "surface_1_displacement", "surface_2_displacement"]

/-- Fields that are saved as two coordinates. -/
def coordinates : List String := ["surface_1_points", "surface_2_points"]

/-- `Derived state n`: `n` is the name of a part of a split field of the state. -/
def Derived {V : Type} (state : Dict (FVal V)) (n : String) : Prop :=
  (∃ c ∈ components, (∃ f, (c, f) ∈ state) ∧ (n = c ++ "_x" ∨ n = c ++ "_y" ∨ n = c ++ "_z")) ∨
  (∃ c ∈ coordinates, (∃ f, (c, f) ∈ state) ∧ (n = c ++ "_x" ∨ n = c ++ "_y"))

/-- `Provides state n v`: the state provides the quantity `n` with the value `v`. Loads and displacements provide their components,
the points of a surface their coordinates (the first item is y, the second x), all other fields themselves. -/
inductive Provides {V : Type} (state : Dict (FVal V)) : String → FVal V → Prop
  | x (c x y z) : c ∈ components → (c, .triple x y z) ∈ state → Provides state (c ++ "_x") (.val x)
  | y (c x y z) : c ∈ components → (c, .triple x y z) ∈ state → Provides state (c ++ "_y") (.val y)
  | z (c x y z) : c ∈ components → (c, .triple x y z) ∈ state → Provides state (c ++ "_z") (.val z)
  | px (c a b) : c ∈ coordinates → (c, .pair a b) ∈ state → Provides state (c ++ "_x") (.val b)
  | py (c a b) : c ∈ coordinates → (c, .pair a b) ∈ state → Provides state (c ++ "_y") (.val a)
  | plain (n v) : (n, v) ∈ state → n ∉ components → n ∉ coordinates → ¬ Derived state n → Provides state n v

/-- `Requested outputs n`: the name `n` is the time or among the parameters of an active output. -/
def Requested (outputs : List Output) (n : String) : Prop :=
  n = "time" ∨ ∃ o ∈ outputs, o.active = true ∧ n ∈ o.parameters

/-- `Named outputs n`: the outputs ask for the quantity `n` by name: itself or as part of a split field. -/
def Named (outputs : List Output) (n : String) : Prop :=
  (Requested outputs n ∧ n ∉ components ∧ n ∉ coordinates ∧ n ≠ "all") ∨
  (∃ c ∈ components, Requested outputs c ∧ (n = c ++ "_x" ∨ n = c ++ "_y" ∨ n = c ++ "_z")) ∨
  (∃ c ∈ coordinates, Requested outputs c ∧ (n = c ++ "_x" ∨ n = c ++ "_y"))

/-- The values of split fields have the right form, names are distinct, and `all` is not a field. -/
structure WellFormed {V : Type} (state : Dict (FVal V)) : Prop where
  distinct : (state.map Prod.fst).Nodup
  triples : ∀ c ∈ components, ∀ f, (c, f) ∈ state → ∃ x y z, f = .triple x y z
  pairs : ∀ c ∈ coordinates, ∀ f, (c, f) ∈ state → ∃ a b, f = .pair a b
  noAll : ∀ f, ("all", f) ∉ state
  time : ∃ f, ("time", f) ∈ state

end Verif.Steps
