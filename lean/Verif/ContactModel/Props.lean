import Verif.ContactModel.Model
import Verif.Outputs.Model
import Mathlib.Tactic.Common
import Mathlib.Tactic.Linarith
import Mathlib.Tactic.NormNum
import Mathlib.Data.List.Count
import Mathlib.Data.List.Perm.Basic

/-!
# The contact model itself (C110-C112)
-/

namespace Verif.ContactModel

open Verif

variable {O : Type}

/-! ## C110: output requests -/

/-- The outputs of a step, empty for an unknown one. -/
def outputsOf (d : Dict (List O)) (k : String) : List O := (Dict.get? d k).getD []

theorem appendAll_ok (o : O) : ∀ (ks : List String) (d : Dict (List O)), (∀ k ∈ ks, k ∈ Dict.keys d) →
    ∃ d', appendAll o ks d = (d', none) ∧ Dict.keys d' = Dict.keys d ∧ ∀ k ∈ Dict.keys d, outputsOf d' k = outputsOf d k ++ List.replicate (ks.count k) o := by
  intro ks
  induction ks with
  | nil => intro d _; exact ⟨d, rfl, rfl, fun k _ => by simp⟩
  | cons a ks ih =>
    intro d h
    obtain ⟨l, hl⟩ := (Dict.mem_keys_iff d a).1 (h a (by simp))
    have hkeys : Dict.keys (Dict.set d a (l ++ [o])) = Dict.keys d := by
      rw [Dict.keys_set, if_pos (h a (by simp))]
    obtain ⟨d', h1, h2, h3⟩ := ih (Dict.set d a (l ++ [o])) (fun k hk => by rw [hkeys]; exact h k (by simp [hk]))
    refine ⟨d', ?_, h2.trans hkeys, fun k hk => ?_⟩
    · rw [appendAll, hl]
      exact h1
    · rw [h3 k (by rw [hkeys]; exact hk)]
      unfold outputsOf
      rw [Dict.get?_set]
      by_cases hka : k = a
      · subst hka
        rw [if_pos rfl, hl]
        simp [List.count_cons_self, List.replicate_succ]
      · rw [if_neg hka, List.count_cons_of_ne (fun h => hka h.symm)]

/-- An output that is added to named steps is added to each of them once for each time it is named, and to no other step. -/
theorem C110_named (order : List String → List String) (d : Dict (List O)) (o : O) (l : List String) (h : ∀ k ∈ l, k ∈ Dict.keys d) :
    ∃ d', addOutput order d o (.names l) = (d', none) ∧ Dict.keys d' = Dict.keys d ∧ ∀ k ∈ Dict.keys d, outputsOf d' k = outputsOf d k ++ List.replicate (l.count k) o :=
  appendAll_ok o l d h

/-- One step is given by its name, which must not be `all`. -/
theorem C110_single (order : List String → List String) (d : Dict (List O)) (o : O) {s : String} (hs : s ∈ Dict.keys d) (hall : s ≠ "all") :
    ∃ d', addOutput order d o (.name s) = (d', none) ∧ outputsOf d' s = outputsOf d s ++ [o] ∧ ∀ k ∈ Dict.keys d, k ≠ s → outputsOf d' k = outputsOf d k := by
  obtain ⟨d', h1, -, h3⟩ := appendAll_ok o [s] d (by simpa using hs)
  refine ⟨d', ?_, ?_, fun k hk hks => ?_⟩
  · unfold addOutput activeSteps
    dsimp only
    rw [if_neg hall]
    exact h1
  · rw [h3 s hs]
    simp
  · rw [h3 k hk]
    simp [List.count_eq_zero, hks]

/-- By default it is added once to every step but the one under the name `Initial`. -/
theorem C110_all {order : List String → List String} (ho : ∀ l, (order l).Perm l) (d : Dict (List O)) (o : O) (hd : (Dict.keys d).Nodup) (hi : "Initial" ∈ Dict.keys d) :
    ∃ d', addOutput order d o (.name "all") = (d', none) ∧ Dict.keys d' = Dict.keys d ∧
      ∀ k ∈ Dict.keys d, outputsOf d' k = if k = "Initial" then outputsOf d k else outputsOf d k ++ [o] := by
  obtain ⟨d', h1, h2, h3⟩ := appendAll_ok o (order ((Dict.keys d).filter (fun k => k ≠ "Initial"))) d (fun k hk => List.mem_of_mem_filter ((ho _).mem_iff.1 hk))
  refine ⟨d', ?_, h2, fun k hk => ?_⟩
  · unfold addOutput activeSteps
    dsimp only
    rw [if_pos rfl, if_pos hi]
    exact h1
  · rw [h3 k hk, (ho _).count_eq]
    by_cases hki : k = "Initial"
    · rw [if_pos hki, List.count_eq_zero.2 (by simp [hki])]
      simp
    · rw [if_neg hki, List.Nodup.count (hd.filter _), if_pos (by simp [hk, hki])]
      rfl

/-- Without a step under the name `Initial` the default is a `KeyError` and nothing is added. -/
theorem C110_no_initial (order : List String → List String) (d : Dict (List O)) (o : O) (hi : "Initial" ∉ Dict.keys d) : addOutput order d o (.name "all") = (d, some .keyError) := by
  unfold addOutput activeSteps
  dsimp only
  rw [if_pos rfl, if_neg hi]

/-- Such a dictionary. -/
example : "Initial" ∉ Dict.keys ([("step", [])] : Dict (List ℕ)) := by decide

/-- An unknown step is a `KeyError`, after the output was added to the steps named before it. -/
theorem C110_unknown (order : List String → List String) (d : Dict (List O)) (o : O) (l rest : List String) {s : String} (h : ∀ k ∈ l, k ∈ Dict.keys d) (hs : s ∉ Dict.keys d) :
    ∃ d', addOutput order d o (.names (l ++ s :: rest)) = (d', some .keyError) ∧ ∀ k ∈ Dict.keys d, outputsOf d' k = outputsOf d k ++ List.replicate (l.count k) o := by
  have hloop : ∀ (l : List String) (d d' : Dict (List O)), appendAll o l d = (d', none) → s ∉ Dict.keys d' → appendAll o (l ++ s :: rest) d = (d', some .keyError) := by
    intro l
    induction l with
    | nil =>
      intro d d' hr hn
      injection hr with hr _
      subst hr
      rw [List.nil_append, appendAll]
      cases hg : Dict.get? d s with
      | none => rfl
      | some x => exact absurd ((Dict.mem_keys_iff d s).2 ⟨x, hg⟩) hn
    | cons a l ih =>
      intro d d' hr hn
      rw [List.cons_append, appendAll]
      rw [appendAll] at hr
      cases hg : Dict.get? d a with
      | none => rw [hg] at hr; cases hr
      | some x =>
        rw [hg] at hr
        exact ih _ _ hr hn
  obtain ⟨d', h1, h2, h3⟩ := appendAll_ok o l d h
  exact ⟨d', hloop l d d' h1 (by rw [h2]; exact hs), h3⟩

/-- Not as documented: an output for the one step that is named `all` is added to all the other steps too. -/
theorem C110_all_name_wrong {order : List String → List String} (ho : ∀ l, (order l).Perm l) (d : Dict (List O)) (o : O) (hd : (Dict.keys d).Nodup) (hi : "Initial" ∈ Dict.keys d)
    (_ha : "all" ∈ Dict.keys d) {k : String} (hk : k ∈ Dict.keys d) (hki : k ≠ "Initial") :
    ∃ d', addOutput order d o (.name "all") = (d', none) ∧ outputsOf d' k = outputsOf d k ++ [o] := by
  obtain ⟨d', h1, -, h3⟩ := C110_all ho d o hd hi
  refine ⟨d', h1, ?_⟩
  rw [h3 k hk, if_neg hki]

/-- The queries of the increments of a step with a list of outputs in which one request is `n` times. -/
def queries (n : ℕ) (times : List ℝ) (maxT : ℝ) : List Outputs.Event := (times.map (fun t => List.replicate n (.query t maxT))).flatten

/-- Not as documented: a request for every second increment that is added to a step twice (by name and with `all`) is active in every increment (in the first of its two queries). -/
theorem C110_twice_wrong (r : Outputs.Req) (h1 : r.timing = .interval) (h2 : r.interval = 2) (h3 : r.count = r.interval) (times : List ℝ) (maxT : ℝ) :
    (Outputs.run r (queries 2 times maxT)).1 = (times.map (fun _ => [true, false])).flatten := by
  induction times generalizing r with
  | nil => rfl
  | cons t ts ih =>
    have e : queries 2 (t :: ts) maxT = .query t maxT :: .query t maxT :: queries 2 ts maxT := rfl
    have a1 : Outputs.isActive r t maxT = (true, { r with count := 1 }) := by
      unfold Outputs.isActive
      rw [h1]
      simp only
      rw [if_neg (by linarith)]
    have a2 : Outputs.isActive { r with count := 1 } t maxT = (false, { r with count := 1 + 1 }) := by
      unfold Outputs.isActive
      simp only [h1]
      rw [if_pos (by linarith)]
    rw [e, Outputs.run, a1]
    simp only [Outputs.run, a2]
    rw [ih { r with count := 1 + 1 } h1 h2 (by simp only; linarith)]
    rfl

/-! ## C111: the output directory -/

/-- After the model is made its files are in the directory, which exists. -/
theorem C111_fresh {w w' : World} {p : Path} (h : initDir w (some p) = .ok w') (name : String) :
    p ∈ w'.dirs ∧ (∀ q ∈ w.dirs, q ∈ w'.dirs) ∧ ∀ f ∈ filesOf w' name, f.dropLast = p := by
  have hdir : w'.outputDir = p ∧ p ∈ w'.dirs ∧ ∀ q ∈ w.dirs, q ∈ w'.dirs := by
    unfold initDir at h
    dsimp only at h
    by_cases hp : p ∈ w.dirs
    · rw [if_pos hp] at h
      injection h with h
      subst h
      exact ⟨rfl, hp, fun q hq => hq⟩
    · rw [if_neg hp] at h
      cases hm : mkdir w p with
      | none => rw [hm] at h; cases h
      | some w2 =>
        rw [hm] at h
        injection h with h
        subst h
        unfold mkdir at hm
        split_ifs at hm
        injection hm with hm
        subst hm
        exact ⟨rfl, by simp, fun q hq => by simp [hq]⟩
  refine ⟨hdir.2.1, hdir.2.2, fun f hf => ?_⟩
  unfold filesOf at hf
  rw [hdir.1] at hf
  simp only [List.mem_cons, List.not_mem_nil, or_false] at hf
  rcases hf with rfl | rfl | rfl <;> simp

/-- A missing directory is made if the one above it exists (and there is no file of that name). -/
theorem C111_made {w : World} {p : Path} (hne : p ≠ []) (hparent : p.dropLast ∈ w.dirs) (hf : p ∉ w.files) : ∃ w', initDir w (some p) = .ok w' := by
  unfold initDir
  dsimp only
  split_ifs with hp
  · exact ⟨_, rfl⟩
  · have : mkdir w p = some { w with dirs := p :: w.dirs } := by
      unfold mkdir
      rw [if_neg (by simp [hp, hf, hne, hparent])]
    rw [this]
    exact ⟨_, rfl⟩

/-- The directory of a model stays as long as only models without a directory are made. -/
theorem C111_kept_partial {w w' : World} {p : Path} (h : initDir w (some p) = .ok w') (n : ℕ) :
    (List.replicate n (none : Option Path)).foldlM (fun w d => initDir w d) w' = .ok w' ∧ w'.outputDir = p := by
  constructor
  · induction n with
    | zero => rfl
    | succ n ih =>
      rw [List.replicate_succ, List.foldlM_cons]
      exact ih
  · unfold initDir at h
    dsimp only at h
    split_ifs at h
    · injection h with h
      rw [← h]
    · cases hm : mkdir w p with
      | none => rw [hm] at h; cases h
      | some w2 =>
        rw [hm] at h
        injection h with h
        rw [← h]

/-- Not as documented: all files of a model are written to the directory of the model that was made last. -/
theorem C111_last_wrong {w w1 w2 : World} {p q : Path} (_h1 : initDir w (some p) = .ok w1) (h2 : initDir w1 (some q) = .ok w2) (name : String) : ∀ f ∈ filesOf w2 name, f.dropLast = q :=
  (C111_fresh h2 name).2.2

/-- Not as documented: a directory in one that does not exist is not made. -/
theorem C111_nested_wrong {w : World} {p : Path} (hp : p ∉ w.dirs) (h : p.dropLast ∉ w.dirs) : initDir w (some p) = .error .valueError := by
  unfold initDir
  dsimp only
  rw [if_neg hp]
  have : mkdir w p = none := by
    unfold mkdir
    rw [if_pos (by simp [h])]
  rw [this]

/-- A file with the name of the directory is a `ValueError`. -/
theorem C111_file {w : World} {p : Path} (hp : p ∉ w.dirs) (hf : p ∈ w.files) : initDir w (some p) = .error .valueError := by
  unfold initDir
  dsimp only
  rw [if_neg hp]
  have : mkdir w p = none := by
    unfold mkdir
    rw [if_pos (by simp [hf])]
  rw [this]

/-! ## C112: the check of the model -/

/-- What is wrong with a model: none of its messages. -/
def problems (s1 s2 : Option Surface) : List Problem :=
  (match s1 with
    | none => [.master]
    | some a => (if a.discrete then [] else [.discrete]) ++ (if a.material then [] else [.material1])) ++
  (match s2 with
    | none => [.second]
    | some b => if b.material then [] else [.material2])

/-- With errors in checks the check passes exactly if nothing is wrong, and is a `ValueError` otherwise. -/
theorem C112_error (s1 s2 : Option Surface) : modelCheck true s1 s2 = ([], if problems s1 s2 = [] then none else some .valueError) := by
  rcases s1 with _ | ⟨_ | _, _ | _⟩ <;> rcases s2 with _ | ⟨_ | _, _ | _⟩ <;> rfl

/-- With warnings in checks there is one warning for each thing that is wrong and no exception, if both surfaces are there. -/
theorem C112_warning_partial (a b : Surface) : modelCheck false (some a) (some b) = (problems (some a) (some b), none) := by
  rcases a with ⟨_ | _, _ | _⟩ <;> rcases b with ⟨_ | _, _ | _⟩ <;> rfl

/-- Not as documented: with warnings in checks a missing surface is an `AttributeError`, and what comes after it is not looked at. -/
theorem C112_missing_wrong : (∀ s2, modelCheck false none s2 = ([.master], some .attributeError)) ∧ ∀ a, (modelCheck false (some a) none).2 = some .attributeError := by
  constructor
  · rintro (_ | _) <;> rfl
  · rintro ⟨_ | _, _ | _⟩ <;> rfl

/-! ## Examples -/

/-- The steps of the examples: output requests are numbers. -/
def sampleSteps : Dict (List ℕ) := [("Initial", []), ("load", [1]), ("slide", [])]

/-- `C110_all`. -/
example : addOutput id sampleSteps 7 (.name "all") = ([("Initial", []), ("load", [1, 7]), ("slide", [7])], none) := by decide +kernel

/-- `C110_named`. -/
example : (∀ k ∈ ["slide", "load", "slide"], k ∈ Dict.keys sampleSteps) ∧ addOutput id sampleSteps 7 (.names ["slide", "load", "slide"]) = ([("Initial", []), ("load", [1, 7]), ("slide", [7, 7])], none) := by
  decide +kernel

/-- `C110_unknown`. -/
example : addOutput id sampleSteps 7 (.names ["load", "other", "slide"]) = ([("Initial", []), ("load", [1, 7]), ("slide", [])], some .keyError) := by decide +kernel

/-- The hypotheses of `C110_all` and `C110_single`. -/
example : (Dict.keys sampleSteps).Nodup ∧ "Initial" ∈ Dict.keys sampleSteps ∧ "load" ∈ Dict.keys sampleSteps := by decide +kernel

/-- A model with a step named `all` (`C110_all_name_wrong`). -/
example : (Dict.keys [("Initial", []), ("load", [1]), ("all", ([] : List ℕ))]).Nodup ∧ addOutput id [("Initial", []), ("load", [1]), ("all", [])] 7 (.name "all") =
    ([("Initial", []), ("load", [1, 7]), ("all", [7])], none) := by decide +kernel

/-- A new request for every second increment (`C110_twice_wrong`). -/
example : ∃ r, Outputs.mk .interval (.num 2) = .ok r ∧ r.timing = .interval ∧ r.interval = 2 ∧ r.count = r.interval := ⟨_, rfl, rfl, rfl, rfl⟩

/-- Two directories, one of which is new. -/
def sampleWorld : World := ⟨[[], ["home"]], [], ["home"]⟩

/-- The hypotheses of `C111_fresh`, `C111_made`, `C111_kept_partial`, `C111_last_wrong` and `C111_nested_wrong`. -/
example : (∃ w1, initDir sampleWorld (some ["home", "a"]) = .ok w1 ∧ ∃ w2, initDir w1 (some ["home", "b"]) = .ok w2 ∧ filesOf w2 "first" = [["home", "b", "first.log"], ["home", "b", "first.sdb"], ["home", "b", "first.sar"]]) ∧
    ["home", "c", "d"] ∉ sampleWorld.dirs ∧ ["home", "c", "d"].dropLast ∉ sampleWorld.dirs :=
  ⟨⟨_, rfl, _, rfl, by decide +kernel⟩, by decide +kernel, by decide +kernel⟩

/-- `C112_error` and `C112_warning_partial`. -/
example : modelCheck true (some ⟨true, true⟩) (some ⟨false, true⟩) = ([], none) ∧ modelCheck false (some ⟨false, true⟩) (some ⟨false, false⟩) = ([.discrete, .material2], none) := by decide

/-- `C111_file`: a file of the name of the folder. -/
example : initDir { sampleWorld with files := [["home", "a"]] } (some ["home", "a"]) = .error .valueError := C111_file (by decide +kernel) (by decide +kernel)

end Verif.ContactModel
