import Mathlib.Tactic.Common
import Verif.Cuda.Model

/-! # C59: the CUDA override restores the previous setting -/

namespace Verif.Cuda

/-- The statement consists of `with OverRideCuda():` blocks, caught and uncaught exceptions and creations only, at any depth: nothing assigns the switch or reuses an object. -/
inductive Stmt.Tidy : Stmt → Prop where
  | useNew (body : List Stmt) : Stmt.Tidy (.useNew body)
  | new (k : ℕ) : Stmt.Tidy (.new k)
  | raise : Stmt.Tidy .raise
  | tryPass (body : List Stmt) (h : ∀ a ∈ body, Stmt.Tidy a) : Stmt.Tidy (.tryPass body)

/-- **C59, an object created for the block.** `with OverRideCuda(): …` leaves the switch as it was, whatever the block does (assignments, nested blocks, reuse of objects, exceptions), and an exception goes on. -/
theorem C59_new_object_restores (s : St) (body : List Stmt) :
    (run s (.useNew body)).1.cuda = s.cuda ∧ (run s (.useNew body)).2 = (runAll s.enter body).2 := by
  simp [run, St.exit]

example : (run ⟨true, fun _ => none⟩ (.useNew [.useNew [.set true], .set true, .raise])) = (⟨true, fun _ => none⟩, true) := rfl

/-- **C59, an object created before, partial.** The switch is restored if its value on entry is the one it had when the object was created, whatever the block does.
Missing: a change of the switch between creation and entry, see `C59_object_keeps_creation_value` and `C59_fails`. -/
theorem C59_object_restores_partial (s : St) (k : ℕ) (body : List Stmt) (h : s.obj k = some s.cuda) : (run s (.use k body)).1.cuda = s.cuda := by
  simp [run, h, St.exit]

example : ((⟨true, fun _ => none⟩ : St).create 3).obj 3 = some ((⟨true, fun _ => none⟩ : St).create 3).cuda := rfl

/-- **C59, what is restored in fact.** After the block the switch has the value it had when the object was created, whatever happened in between and in the block. -/
theorem C59_object_keeps_creation_value (s : St) (k : ℕ) (between body : List Stmt)
    (hb : (runAll (s.create k) between).2 = false) (hk : (runAll (s.create k) between).1.obj k = some s.cuda) :
    (runAll s (.new k :: between ++ [.use k body])).1.cuda = s.cuda := by
  have app : ∀ (l m : List Stmt) (s : St), (runAll s l).2 = false → runAll s (l ++ m) = runAll (runAll s l).1 m := by
    intro l
    induction l with
    | nil => intro m s _; simp [runAll]
    | cons a l ih =>
      intro m s h
      simp only [List.cons_append, runAll] at h ⊢
      by_cases e : (run s a).2 = true
      · simp [e] at h
      · simp only [e, Bool.false_eq_true, if_false] at h ⊢
        exact ih m _ h
  have e : runAll s (.new k :: between ++ [.use k body]) = runAll (s.create k) (between ++ [.use k body]) := by
    simp [runAll, run]
  rw [e, app _ _ _ hb]
  simp only [runAll, run, hk, St.exit]
  split <;> rfl

/-- With assignments in between that do not rebind the name the hypotheses are met. -/
example (s : St) (b : Bool) : (runAll (s.create 0) [.set b, .new 1, .useNew [.set b]]).2 = false ∧
    (runAll (s.create 0) [.set b, .new 1, .useNew [.set b]]).1.obj 0 = some s.cuda := by
  simp [runAll, run, St.create, St.enter, St.exit]

/-- **C59, programs of such blocks.** A program made only of `with OverRideCuda():` blocks (with anything inside), creations and exceptions does not change the switch. -/
theorem C59_program_restores (l : List Stmt) (h : ∀ a ∈ l, a.Tidy) (s : St) : (runAll s l).1.cuda = s.cuda := by
  have one : ∀ a : Stmt, a.Tidy → ∀ s : St, (run s a).1.cuda = s.cuda := by
    intro a ha
    induction ha with
    | useNew body => exact fun s => (C59_new_object_restores s body).1
    | new k => intro s; simp [run, St.create]
    | raise => intro s; simp [run]
    | tryPass body _ ih =>
      intro s
      simp only [run]
      clear * - ih
      induction body generalizing s with
      | nil => simp [runAll]
      | cons a l ihl =>
        simp only [runAll]
        split
        · exact ih a (by simp) s
        · rw [ihl (fun b hb => ih b (by simp [hb])), ih a (by simp) s]
  induction l generalizing s with
  | nil => simp [runAll]
  | cons a l ihl =>
    simp only [runAll]
    split
    · exact one a (h a (by simp)) s
    · rw [ihl (fun b hb => h b (by simp [hb])), one a (h a (by simp)) s]

example : ∀ a ∈ [Stmt.tryPass [.useNew [.set true, .raise]], .new 0, .useNew []], a.Tidy := by
  intro a ha
  simp only [List.mem_cons, List.not_mem_nil, or_false] at ha
  rcases ha with rfl | rfl | rfl
  · exact .tryPass _ (by intro a ha; simp only [List.mem_singleton] at ha; subst ha; exact .useNew _)
  · exact .new _
  · exact .useNew _

/-- **C59, inside the block.** The block starts with the switch off, for a new object and for one created before: an object created as the first statement of the block records it as off. -/
theorem C59_off_inside (s : St) (k j : ℕ) (c : Bool) (h : s.obj k = some c) :
    (run s (.useNew [.new j])).1.obj j = some false ∧ (run s (.use k [.new j])).1.obj j = some false := by
  simp [run, runAll, h, St.enter, St.create, St.exit]

example : ((⟨false, fun _ => none⟩ : St).create 1).obj 1 = some false := rfl

/-- **C59 does not hold.** If the switch is changed between the creation of the object and the block, or an object is used again after a change, the change is lost. -/
theorem C59_fails (s : St) (b : Bool) (body : List Stmt) :
    (runAll { s with cuda := !b } [.new 0, .set b]).1.cuda = b ∧
    (runAll { s with cuda := !b } [.new 0, .set b, .use 0 body]).1.cuda = !b ∧
    (runAll { s with cuda := !b } [.new 0, .use 0 [], .set b, .use 0 body]).1.cuda = !b := by
  refine ⟨by simp [runAll, run], ?_, ?_⟩
  · simp only [runAll, run, St.create, St.exit]; simp; split <;> rfl
  · simp only [runAll, run, St.create, St.exit, St.enter]; simp; split <;> rfl

/-! ## The lubrication step -/

/-- **C59, lubrication step.** `solve` leaves the switch as it was if it returns. -/
theorem C59_lubrication_returns (s : St) (body : List Stmt) (h : (run s (.solve body)).2 = false) : (run s (.solve body)).1.cuda = s.cuda := by
  simp only [run] at h ⊢
  split at h
  · rename_i e; rw [e] at h; cases h
  · rename_i e; simp [e]

example : (run ⟨true, fun _ => none⟩ (.solve [.useNew []])).2 = false := rfl

/-- **C59, lubrication step, exception.** If an exception leaves `solve` and the statements inside do not change the switch, the switch stays off although it was on. -/
theorem C59_lubrication_raises (s : St) (body : List Stmt) (hb : ∀ a ∈ body, a.Tidy) (h : (run s (.solve body)).2 = true) : (run s (.solve body)).1.cuda = false := by
  have key := C59_program_restores body hb { s with cuda := false }
  simp only [run] at h ⊢
  split at h
  · rename_i e; simp only [e, if_true]; exact key
  · simp at h

example : (∀ a ∈ [Stmt.raise], a.Tidy) ∧ (run ⟨true, fun _ => none⟩ (.solve [.raise])).2 = true :=
  ⟨by intro a ha; simp only [List.mem_singleton] at ha; subst ha; exact .raise, rfl⟩

/-- **C59, a step whose exception was caught.** If an exception of the lubrication step is caught outside, the program goes on with the switch off: an object created afterwards records it as off, and restores that value. -/
theorem C59_caught_wrong (s : St) (k : ℕ) (body : List Stmt) (hb : ∀ a ∈ body, a.Tidy) (h : (run s (.solve body)).2 = true) :
    (runAll s [.tryPass [.solve body], .new k]).2 = false ∧ (runAll s [.tryPass [.solve body], .new k]).1.cuda = false ∧
      (runAll s [.tryPass [.solve body], .new k]).1.obj k = some false := by
  have key := C59_lubrication_raises s body hb h
  have e : (run s (.tryPass [.solve body])) = ((run s (.solve body)).1, false) := by
    show ((if (run s (.solve body)).2 = true then run s (.solve body) else ((run s (.solve body)).1, false)).1, false) = _
    rw [if_pos h]
  have r : runAll s [.tryPass [.solve body], .new k] = ((run s (.solve body)).1.create k, false) := by
    rw [runAll, e]
    rfl
  rw [r]
  exact ⟨rfl, key, by simp [St.create, key]⟩

example := C59_caught_wrong ⟨true, fun _ => none⟩ 0 [.raise] (by simpa using Stmt.Tidy.raise) rfl

end Verif.Cuda
