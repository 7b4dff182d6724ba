import Verif.RunFiles.Model

/-!
# C159: files and console of an analysis
-/

namespace Verif.RunFiles

/-! ## Specification -/

/-- The lines of a list of acts: those printed before the first exception. -/
def said : List Act → List String
  | .print l :: as => l :: said as
  | _ => []

/-- The first exception. -/
def fails (as : List Act) : Option Err := as.findSome? fun a => match a with
  | .print _ => none
  | .raise e => some (.py e)

/-- Everything that an analysis does, in order. -/
def whole (name : String) (skip : Bool) (cuda now now' : String) (check : List Act) (steps : List (String × List Act)) : List Act :=
  (if skip then [] else [.print "Data check started at:", .print now, .print ("Checking model " ++ name ++ ":")] ++ check) ++
    [.print ("Solving model " ++ name ++ ", CUDA = " ++ cuda)] ++ (steps.flatMap fun s => .print ("Solving step " ++ s.1) :: s.2) ++
    [.print ("Analysis completed successfully at: " ++ now')]

/-- The output directory exists and contains no directories with the names of the files. -/
structure Ready (w : World) (name : String) : Prop where
  dir : w.outputDir ∈ w.dirs
  log : w.outputDir ++ [name ++ ".log"] ∉ w.dirs
  sdb : w.outputDir ++ [name ++ ".sdb"] ∉ w.dirs
  sar : w.outputDir ++ [name ++ ".sar"] ∉ w.dirs

/-- The output files. -/
def Output (w : World) (name : String) (p : Path) : Prop := p = w.outputDir ++ [name ++ ".sdb"] ∨ p = w.outputDir ++ [name ++ ".sar"]

/-! ## Acts -/

/-- Printing lines. -/
def printAll (w : World) (ls : List String) : World := ls.foldl World.print w

theorem run_eq (as : List Act) : ∀ w, run w as = (printAll w (said as), fails as) := by
  induction as with
  | nil => intro w; rfl
  | cons a as ih =>
    intro w
    cases a with
    | print l =>
      have h := ih (w.print l)
      rw [run, h]
      rfl
    | raise e => rfl

theorem run_append (as bs : List Act) : ∀ w, run w (as ++ bs) = andThen (run w as) fun w => run w bs := by
  induction as with
  | nil => intro w; rfl
  | cons a as ih =>
    intro w
    cases a with
    | print l => exact ih (w.print l)
    | raise e => rfl

theorem steps_eq (steps : List (String × List Act)) : ∀ w, solveSteps w steps = run w (steps.flatMap fun s => .print ("Solving step " ++ s.1) :: s.2) := by
  induction steps with
  | nil => intro w; rfl
  | cons s steps ih =>
    intro w
    rw [solveSteps, List.flatMap_cons, run_append]
    congr 1
    exact funext fun w => ih w

theorem andThen_assoc (r : World × Option Err) (f g : World → World × Option Err) : andThen (andThen r f) g = andThen r fun w => andThen (f w) g := by
  obtain ⟨w, _ | e⟩ := r <;> rfl

theorem inner_eq (w : World) (name : String) (skip : Bool) (cuda now now' : String) (check : List Act) (steps : List (String × List Act)) :
    inner w name skip cuda now now' check steps = (printAll w (said (whole name skip cuda now now' check steps)), fails (whole name skip cuda now now' check steps)) := by
  rw [← run_eq]
  unfold whole inner
  rw [List.append_assoc, List.append_assoc, run_append]
  have h1 : (if skip = true then (w, none) else dataCheck w name now check) =
      run w (if skip = true then [] else [.print "Data check started at:", .print now, .print ("Checking model " ++ name ++ ":")] ++ check) := by
    cases skip <;> rfl
  rw [h1]
  congr 1
  funext w
  rw [steps_eq]
  exact (run_append _ [.print ("Analysis completed successfully at: " ++ now')] (w.print ("Solving model " ++ name ++ ", CUDA = " ++ cuda))).symm

theorem printAll_file {p : Path} (ls : List String) : ∀ {w : World} {c : List String}, w.stdout = some p → w.files p = some c →
    printAll w ls = { w with files := fun q => if q = p then some (c ++ ls) else w.files q } := by
  induction ls with
  | nil =>
    intro w c hs hf
    obtain ⟨dirs, files, stdout, console, opened, outputDir⟩ := w
    show World.mk .. = World.mk ..
    congr 1
    funext q
    by_cases h : q = p
    · rw [if_pos h, h, List.append_nil]; exact hf
    · rw [if_neg h]
  | cons l ls ih =>
    intro w c hs hf
    have e : w.print l = { w with files := fun q => if q = p then some (c ++ [l]) else w.files q } := by
      unfold World.print
      rw [hs]
      dsimp only
      rw [hf]
      rfl
    show printAll (w.print l) ls = _
    rw [e, ih (w := { w with files := fun q => if q = p then some (c ++ [l]) else w.files q }) (c := c ++ [l]) hs (if_pos rfl)]
    obtain ⟨dirs, files, stdout, console, opened, outputDir⟩ := w
    show World.mk .. = World.mk ..
    congr 1
    funext q
    by_cases h : q = p
    · rw [if_pos h, if_pos h, List.append_assoc]; rfl
    · rw [if_neg h, if_neg h]; exact if_neg h

theorem printAll_console (ls : List String) : ∀ {w : World}, w.stdout = none → printAll w ls = { w with console := w.console ++ ls } := by
  induction ls with
  | nil =>
    intro w hs
    obtain ⟨dirs, files, stdout, console, opened, outputDir⟩ := w
    show World.mk .. = World.mk ..
    rw [List.append_nil]
  | cons l ls ih =>
    intro w hs
    have e : w.print l = { w with console := w.console ++ [l] } := by
      unfold World.print
      rw [hs]
    show printAll (w.print l) ls = _
    rw [e, ih (by exact hs)]
    obtain ⟨dirs, files, stdout, console, opened, outputDir⟩ := w
    show World.mk .. = World.mk ..
    rw [List.append_assoc]
    rfl

theorem printAll_keeps (ls : List String) : ∀ w : World, (printAll w ls).stdout = w.stdout ∧ (printAll w ls).opened = w.opened ∧ (printAll w ls).outputDir = w.outputDir := by
  induction ls with
  | nil => intro w; exact ⟨rfl, rfl, rfl⟩
  | cons l ls ih =>
    intro w
    obtain ⟨h1, h2, h3⟩ := ih (w.print l)
    have : (w.print l).stdout = w.stdout ∧ (w.print l).opened = w.opened ∧ (w.print l).outputDir = w.outputDir := by
      unfold World.print
      cases w.stdout <;> exact ⟨rfl, rfl, rfl⟩
    exact ⟨h1.trans this.1, h2.trans this.2.1, h3.trans this.2.2⟩

/-! ## Files -/

theorem removeOld_ok {w : World} {p : Path} (h : p ∉ w.dirs) : w.removeOld p = .ok { w with files := fun q => if q = p then none else w.files q } := by
  have hd : w.dirs.contains p = false := by simpa using h
  unfold World.removeOld World.exists World.remove
  rw [hd]
  by_cases hf : (w.files p).isSome = true
  · rw [Bool.false_or, if_pos hf, Bool.false_or, if_neg]
    cases h : w.files p
    · rw [h] at hf; cases hf
    · nofun
  · rw [Bool.false_or, if_neg hf]
    obtain ⟨dirs, files, stdout, console, opened, outputDir⟩ := w
    show Except.ok (World.mk ..) = Except.ok (World.mk ..)
    congr 2
    funext q
    by_cases h : q = p
    · rw [if_pos h, h]
      cases h : files p
      · rfl
      · exact absurd (by show (files p).isSome = true; rw [h]; rfl) hf
    · rw [if_neg h]

theorem create_ok {w : World} {d : Path} {s : String} (h : d ++ [s] ∉ w.dirs) (hd : d ∈ w.dirs) :
    w.create (d ++ [s]) = .ok { w with files := fun q => if q = d ++ [s] then some [] else w.files q, opened := (d ++ [s]) :: w.opened } := by
  have h1 : w.dirs.contains (d ++ [s]) = false := by simpa using h
  have h2 : w.dirs.contains (d ++ [s]).dropLast = true := by rw [List.dropLast_concat]; simpa using hd
  unfold World.create
  rw [h1, h2]
  rfl

theorem createNew_ok {w : World} {d : Path} {s : String} (h : d ++ [s] ∉ w.dirs) (hd : d ∈ w.dirs) (hf : w.files (d ++ [s]) = none) :
    w.createNew (d ++ [s]) = .ok { w with files := fun q => if q = d ++ [s] then some [] else w.files q, opened := (d ++ [s]) :: w.opened } := by
  unfold World.createNew World.exists
  rw [hf, if_neg (by simpa using h), create_ok h hd]

theorem removeOld_keeps {w w' : World} {p : Path} (h : w.removeOld p = .ok w') : w'.stdout = w.stdout ∧ w'.opened = w.opened ∧ w'.dirs = w.dirs ∧ w'.outputDir = w.outputDir := by
  unfold World.removeOld World.remove at h
  split at h
  · split at h
    · cases h
    · cases h; exact ⟨rfl, rfl, rfl, rfl⟩
  · cases h; exact ⟨rfl, rfl, rfl, rfl⟩

theorem create_keeps {w w' : World} {p : Path} (h : w.create p = .ok w') : p.dropLast ∈ w.dirs ∧ w'.stdout = w.stdout ∧ w'.opened = p :: w.opened ∧ w'.dirs = w.dirs ∧ w'.outputDir = w.outputDir := by
  unfold World.create at h
  split at h
  · cases h
  · rename_i hc
    cases h
    refine ⟨?_, rfl, rfl, rfl, rfl⟩
    simp only [Bool.or_eq_true, not_or, Bool.not_eq_true', Bool.not_eq_false] at hc
    simpa using hc.2

theorem createNew_keeps {w w' : World} {p : Path} (h : w.createNew p = .ok w') : w'.stdout = w.stdout ∧ w'.opened = p :: w.opened ∧ w'.outputDir = w.outputDir := by
  unfold World.createNew at h
  split at h
  · cases h
  · obtain ⟨_, h1, h2, _, h4⟩ := create_keeps h
    exact ⟨h1, h2, h4⟩

theorem enter_keeps {w w' : World} {name : String} {e : Option Err} (h : enterSaver w name = (w', e)) :
    w'.stdout = w.stdout ∧ w'.outputDir = w.outputDir ∧ (e = none → w'.opened = (w.outputDir ++ [name ++ ".sar"]) :: (w.outputDir ++ [name ++ ".sdb"]) :: w.opened) ∧
      (e ≠ none → w.outputDir ++ [name ++ ".sar"] ∉ w.dirs → w'.opened = w.opened) := by
  unfold enterSaver at h
  split at h
  · cases h
    exact ⟨rfl, rfl, nofun, fun _ _ => rfl⟩
  · rename_i w1 h1
    obtain ⟨a1, a2, a3, a4⟩ := removeOld_keeps h1
    split at h
    · cases h
      exact ⟨a1, a4, nofun, fun _ _ => a2⟩
    · rename_i w2 h2
      obtain ⟨b0, b1, b2, b3, b4⟩ := create_keeps h2
      unfold World.path at b0 b2 h
      rw [List.dropLast_concat] at b0
      split at h
      · rename_i h3
        cases h
        refine ⟨b1.trans a1, b4.trans a4, nofun, fun _ hs => ?_⟩
        rw [create_ok (by rw [b4, a4, b3, a3]; exact hs) (by rw [b4, b3]; exact b0)] at h3
        cases h3
      · rename_i w3 h3
        cases h
        obtain ⟨_, c1, c2, _, c4⟩ := create_keeps h3
        refine ⟨c1.trans (b1.trans a1), c4.trans (b4.trans a4), fun _ => ?_, fun h => absurd rfl h⟩
        rw [c2, b2, a2, b4, a4]

theorem name_ne (d : Path) (name : String) {a b : String} (h : a ≠ b) : d ++ [name ++ a] ≠ d ++ [name ++ b] := by
  intro e
  have := List.append_cancel_left e
  simp only [List.cons.injEq, and_true] at this
  exact h (String.append_right_inj name |>.1 this)

/-- The files after the old ones were removed and new output files were made. -/
def fresh (w : World) (name : String) : Path → Option (List String) := fun q =>
  if q = w.outputDir ++ [name ++ ".sar"] then some [] else if q = w.outputDir ++ [name ++ ".sdb"] then some [] else if q = w.outputDir ++ [name ++ ".log"] then none else w.files q

theorem enter_ok {w : World} {name : String} (h : Ready w name) :
    ∃ w1, w.removeOld (w.path name ".log") = .ok w1 ∧
      enterSaver w1 name = ({ w with files := fresh w name, opened := (w.outputDir ++ [name ++ ".sar"]) :: (w.outputDir ++ [name ++ ".sdb"]) :: w.opened }, none) := by
  obtain ⟨dirs, files, stdout, console, opened, dir⟩ := w
  obtain ⟨hd, h1, h2, h3⟩ := h
  dsimp only at hd h1 h2 h3
  refine ⟨_, removeOld_ok h1, ?_⟩
  unfold enterSaver World.path
  dsimp only
  rw [removeOld_ok h2]
  dsimp only
  rw [create_ok h2 hd]
  dsimp only
  rw [create_ok h3 hd]
  dsimp only
  show (World.mk .., none) = (World.mk .., none)
  congr 2
  funext q
  unfold fresh
  dsimp only
  by_cases e3 : q = dir ++ [name ++ ".sar"]
  · rw [if_pos e3, if_pos e3]
  · rw [if_neg e3, if_neg e3]
    by_cases e2 : q = dir ++ [name ++ ".sdb"]
    · rw [if_pos e2, if_pos e2]
    · rw [if_neg e2, if_neg e2, if_neg e2]

theorem exit_opened {w : World} {name : String} {l : List Path} (h : w.opened = (w.outputDir ++ [name ++ ".sar"]) :: (w.outputDir ++ [name ++ ".sdb"]) :: l) : exitSaver w name = { w with opened := l } := by
  obtain ⟨dirs, files, stdout, console, opened, dir⟩ := w
  dsimp only at h
  subst h
  unfold exitSaver World.close World.path
  dsimp only
  rw [List.erase_cons_tail (by simpa using name_ne dir name (by decide : ".sar" ≠ ".sdb")), List.erase_cons_head, List.erase_cons_head]

/-! ## Theorems -/

/-- **C159**: the log of an analysis holds what this analysis printed, up to the exception if there was one, and nothing of an earlier analysis. The console gets nothing, `print` writes where it
wrote before, all files that were opened are closed, and no other files but the output files are touched. -/
theorem C159_log {w : World} {name : String} (h : Ready w name) (skip : Bool) (cuda now now' : String) (check : List Act) (steps : List (String × List Act)) :
    ∃ w', solve w name false skip cuda now now' check steps = (w', fails (whole name skip cuda now now' check steps)) ∧
      w'.files (w.outputDir ++ [name ++ ".log"]) = some (said (whole name skip cuda now now' check steps)) ∧
      w'.console = w.console ∧ w'.stdout = w.stdout ∧ w'.opened = w.opened ∧ w'.dirs = w.dirs ∧ w'.outputDir = w.outputDir ∧
      ∀ p, p ≠ w.outputDir ++ [name ++ ".log"] → ¬Output w name p → w'.files p = w.files p := by
  obtain ⟨w1, e1, e2⟩ := enter_ok h
  obtain ⟨dirs, files, stdout, console, opened, dir⟩ := w
  obtain ⟨hd, h1, h2, h3⟩ := h
  dsimp only at hd h1 h2 h3 e2
  have n1 := name_ne dir name (by decide : ".log" ≠ ".sar")
  have n2 := name_ne dir name (by decide : ".log" ≠ ".sdb")
  have hnone : fresh ⟨dirs, files, stdout, console, opened, dir⟩ name (dir ++ [name ++ ".log"]) = none := by
    unfold fresh
    rw [if_neg n1, if_neg n2, if_pos rfl]
  unfold solve
  rw [e1]
  dsimp only
  rw [e2]
  dsimp only
  rw [if_neg (by decide)]
  unfold World.path
  rw [createNew_ok h1 hd hnone]
  dsimp only
  rw [inner_eq, printAll_file (p := dir ++ [name ++ ".log"]) (c := []) _ rfl (if_pos rfl)]
  dsimp only
  unfold World.close
  dsimp only
  rw [List.erase_cons_head, exit_opened rfl]
  refine ⟨_, rfl, ?_, rfl, rfl, rfl, rfl, rfl, fun p hp ho => ?_⟩
  · dsimp only
    rw [if_pos rfl, List.nil_append]
  · dsimp only
    rw [if_neg hp, if_neg hp]
    unfold fresh
    rw [if_neg (fun e => ho (.inr e)), if_neg (fun e => ho (.inl e)), if_neg hp]

/-- **C159**: with `verbose` the console gets the lines, and afterwards there is no log, not even an old one. -/
theorem C159_verbose {w : World} {name : String} (h : Ready w name) (hs : w.stdout = none) (skip : Bool) (cuda now now' : String) (check : List Act) (steps : List (String × List Act)) :
    ∃ w', solve w name true skip cuda now now' check steps = (w', fails (whole name skip cuda now now' check steps)) ∧
      w'.files (w.outputDir ++ [name ++ ".log"]) = none ∧ w'.console = w.console ++ said (whole name skip cuda now now' check steps) ∧
      w'.stdout = w.stdout ∧ w'.opened = w.opened ∧ w'.dirs = w.dirs ∧ w'.outputDir = w.outputDir ∧
      ∀ p, p ≠ w.outputDir ++ [name ++ ".log"] → ¬Output w name p → w'.files p = w.files p := by
  obtain ⟨w1, e1, e2⟩ := enter_ok h
  obtain ⟨dirs, files, stdout, console, opened, dir⟩ := w
  dsimp only at hs e2
  subst hs
  have n1 := name_ne dir name (by decide : ".log" ≠ ".sar")
  have n2 := name_ne dir name (by decide : ".log" ≠ ".sdb")
  unfold solve
  rw [e1]
  dsimp only
  rw [e2]
  dsimp only
  rw [if_pos rfl, inner_eq, printAll_console _ rfl, exit_opened rfl]
  refine ⟨_, rfl, ?_, rfl, rfl, rfl, rfl, rfl, fun p hp ho => ?_⟩
  · dsimp only
    unfold fresh
    rw [if_neg n1, if_neg n2, if_pos rfl]
  · dsimp only
    unfold fresh
    rw [if_neg (fun e => ho (.inr e)), if_neg (fun e => ho (.inl e)), if_neg hp]

/-- **C159**: if nothing raised, the last line says that the analysis has ended. -/
theorem C159_ended (name : String) (skip : Bool) (cuda now now' : String) (check : List Act) (steps : List (String × List Act)) :
    fails (whole name skip cuda now now' check steps) = none → ∃ ls, said (whole name skip cuda now now' check steps) = ls ++ ["Analysis completed successfully at: " ++ now'] := by
  have key : ∀ as : List Act, fails (as ++ [.print ("Analysis completed successfully at: " ++ now')]) = none →
      ∃ ls, said (as ++ [.print ("Analysis completed successfully at: " ++ now')]) = ls ++ ["Analysis completed successfully at: " ++ now'] := by
    intro as
    induction as with
    | nil => intro _; exact ⟨[], rfl⟩
    | cons a as ih =>
      intro h
      cases a with
      | print l =>
        obtain ⟨ls, e⟩ := ih h
        exact ⟨l :: ls, congrArg (l :: ·) e⟩
      | raise e => cases h
  exact key _

theorem solve_keeps (w : World) (name : String) (verbose skip : Bool) (cuda now now' : String) (check : List Act) (steps : List (String × List Act)) :
    (solve w name verbose skip cuda now now' check steps).1.stdout = w.stdout ∧
      (w.outputDir ++ [name ++ ".sar"] ∉ w.dirs → (solve w name verbose skip cuda now now' check steps).1.opened = w.opened) := by
  unfold solve
  split
  · exact ⟨rfl, fun _ => rfl⟩
  · rename_i w1 h1
    obtain ⟨a1, a2, a3, a4⟩ := removeOld_keeps h1
    split
    · rename_i w2 e h2
      obtain ⟨b1, b2, b3, b4⟩ := enter_keeps h2
      exact ⟨b1.trans a1, fun h => (b4 nofun (by rw [a4, a3]; exact h)).trans a2⟩
    · rename_i w2 h2
      obtain ⟨b1, b2, b3, -⟩ := enter_keeps h2
      have b3 := b3 rfl
      rw [← b2] at b3
      split
      · dsimp only
        rw [inner_eq]
        obtain ⟨p1, p2, p3⟩ := printAll_keeps (said (whole name skip cuda now now' check steps)) w2
        dsimp only
        rw [exit_opened (l := w1.opened) (by rw [p2, p3]; exact b3)]
        exact ⟨p1.trans (b1.trans a1), fun _ => a2⟩
      · split
        · rw [exit_opened b3]
          exact ⟨b1.trans a1, fun _ => a2⟩
        · rename_i w3 h3
          obtain ⟨c1, c2, c3⟩ := createNew_keeps h3
          dsimp only
          rw [inner_eq]
          obtain ⟨p1, p2, p3⟩ := printAll_keeps (said (whole name skip cuda now now' check steps)) { w3 with stdout := some (w3.path name ".log") }
          dsimp only at p1 p2 p3 ⊢
          rw [exit_opened (l := w1.opened)]
          · exact ⟨c1.trans (b1.trans a1), fun _ => a2⟩
          · unfold World.close
            dsimp only
            rw [p2, p3, c2, show w3.path name ".log" = w2.path name ".log" by unfold World.path; rw [c3], List.erase_cons_head, b3, c3]

/-- **C159**: whatever happens, `print` writes where it wrote before. -/
theorem C159_stdout (w : World) (name : String) (verbose skip : Bool) (cuda now now' : String) (check : List Act) (steps : List (String × List Act)) :
    (solve w name verbose skip cuda now now' check steps).1.stdout = w.stdout := (solve_keeps w name verbose skip cuda now now' check steps).1

/-- **C159**: all files that were opened are closed, also if the output directory does not exist or an old file cannot be removed, unless there is a directory with the name of the file for arrays. -/
theorem C159_closed {w : World} {name : String} (h : w.outputDir ++ [name ++ ".sar"] ∉ w.dirs) (verbose skip : Bool) (cuda now now' : String) (check : List Act) (steps : List (String × List Act)) :
    (solve w name verbose skip cuda now now' check steps).1.opened = w.opened := (solve_keeps w name verbose skip cuda now now' check steps).2 h

/-- If there is one, the analysis fails and the database stays open. -/
theorem C159_directory {w : World} {name : String} (hd : w.outputDir ∈ w.dirs) (hl : w.outputDir ++ [name ++ ".log"] ∉ w.dirs) (h2 : w.outputDir ++ [name ++ ".sdb"] ∉ w.dirs) (h : w.outputDir ++ [name ++ ".sar"] ∈ w.dirs)
    (verbose skip : Bool) (cuda now now' : String) (check : List Act) (steps : List (String × List Act)) :
    ∃ w', solve w name verbose skip cuda now now' check steps = (w', some .os) ∧ w'.opened = (w.outputDir ++ [name ++ ".sdb"]) :: w.opened := by
  obtain ⟨dirs, files, stdout, console, opened, dir⟩ := w
  dsimp only at hd hl h2 h
  unfold solve World.path
  dsimp only
  rw [removeOld_ok hl]
  unfold enterSaver World.path
  dsimp only
  rw [removeOld_ok h2]
  dsimp only
  rw [create_ok h2 hd]
  unfold World.create
  dsimp only
  rw [if_pos (by simp [h])]
  exact ⟨_, rfl, rfl⟩

/-! ## Examples -/

/-- A folder with the log of an earlier analysis and another file. -/
def before : World :=
  { dirs := [["out"]], files := fun p => if p = ["out", "m.log"] then some ["old"] else if p = ["out", "data.txt"] then some ["1"] else none, stdout := none, console := [">"], opened := [], outputDir := ["out"] }

/-- An analysis of two steps. -/
def exampleSteps : List (String × List Act) := [("Initial", []), ("step", [.print "load 100", .print "converged"])]

/-- Its second step fails. -/
def failing : List (String × List Act) := [("Initial", []), ("step", [.print "load 100", .raise .valueError, .print "converged"])]

theorem before_ready : Ready before "m" := ⟨by decide, by decide, by decide, by decide⟩

example : ∃ w', solve before "m" false false "False" "12:00" "12:01" [.print "checked"] exampleSteps = (w', none) ∧
    w'.files ["out", "m.log"] = some ["Data check started at:", "12:00", "Checking model m:", "checked", "Solving model m, CUDA = False", "Solving step Initial", "Solving step step", "load 100", "converged",
      "Analysis completed successfully at: 12:01"] ∧ w'.files ["out", "data.txt"] = some ["1"] := by
  obtain ⟨w', h, h1, -, -, -, -, -, h2⟩ := C159_log before_ready false "False" "12:00" "12:01" [.print "checked"] exampleSteps
  exact ⟨w', h, h1, h2 _ (by decide) (by unfold Output; decide)⟩

example : ∃ w', solve before "m" false true "False" "12:00" "12:01" [] failing = (w', some (.py .valueError)) ∧
    w'.files ["out", "m.log"] = some ["Solving model m, CUDA = False", "Solving step Initial", "Solving step step", "load 100"] ∧ w'.opened = [] := by
  obtain ⟨w', h, h1, -, -, h2, -⟩ := C159_log before_ready true "False" "12:00" "12:01" [] failing
  exact ⟨w', h, h1, h2⟩

example : ∃ w', solve before "m" true true "False" "12:00" "12:01" [] failing = (w', some (.py .valueError)) ∧ w'.files ["out", "m.log"] = none ∧
    w'.console = [">", "Solving model m, CUDA = False", "Solving step Initial", "Solving step step", "load 100"] := by
  obtain ⟨w', h, h1, h2, -⟩ := C159_verbose before_ready rfl true "False" "12:00" "12:01" [] failing
  exact ⟨w', h, h1, h2⟩

example : fails (whole "m" true "False" "12:00" "12:01" [] exampleSteps) = none := rfl

example := C159_ended "m" true "False" "12:00" "12:01" [] exampleSteps rfl

/-- The output directory does not exist. -/
example := C159_closed (w := { before with dirs := [] }) (name := "m") (by decide) false true "False" "12:00" "12:01" [] failing

example := C159_directory (w := { before with dirs := [["out"], ["out", "m.sar"]] }) (name := "m") (by decide) (by decide) (by decide) (by decide) false true "False" "12:00" "12:01" [] failing

end Verif.RunFiles
