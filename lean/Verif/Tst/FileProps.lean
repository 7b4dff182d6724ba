import Verif.Tst.Props

/-!
# Reading whole tst files (C114, C115)
-/

namespace Verif.Tst

open Verif

variable {F : Type}

/-! ## Specification: the parts of a file -/

/-- The lines of some entries. -/
def linesOf (enc : List Char → List UInt8) (es : List (Entry F)) : List UInt8 := (es.map (Entry.bytes enc)).flatten

/-- The dictionary with the entries added: a later entry of the same name replaces an earlier one. -/
def dictOf (c : Conv F) (d : Dict (Val F)) (es : List (Entry F)) : Dict (Val F) := es.foldl (fun d e => Dict.set d (e.key c) e.val) d

/-- The same for the metadata of the file. -/
def metaOf (c : Conv F) (d : Dict (MVal F)) (es : List (Entry F)) : Dict (MVal F) := es.foldl (fun d e => Dict.set d (e.key c) (.val e.val)) d

/-- A channel: entries, the last of which is `type`. -/
structure ChannelSpec (F : Type) where
  entries : List (Entry F)
  last : Entry F

def ChannelSpec.bytes (enc : List Char → List UInt8) (s : ChannelSpec F) : List UInt8 := linesOf enc s.entries ++ s.last.bytes enc

structure ChannelSpec.Ok (c : Conv F) (A : Char → Prop) (s : ChannelSpec F) : Prop where
  entries : ∀ e ∈ s.entries, e.Ok c A ∧ e.key c ≠ "type"
  last : s.last.Ok c A
  type : s.last.key c = "type"

def ChannelSpec.dict (c : Conv F) (s : ChannelSpec F) : Channel F := ⟨dictOf c [] (s.entries ++ [s.last]), none⟩

/-- A sample: eight bytes for each channel, and a byte. -/
structure Sample where
  values : List (List UInt8)
  sep : UInt8

def Sample.bytes (s : Sample) : List UInt8 := s.values.flatten ++ [s.sep]

/-- A sample of `m` channels. -/
def Sample.Ok (m : ℕ) (s : Sample) : Prop := s.values.length = m ∧ ∀ v ∈ s.values, v.length = 8

/-- A step. -/
structure StepSpec (F : Type) where
  stars : List (Entry F)
  test : Entry F
  first : List (Entry F)
  star1 : Entry F
  second : List (Entry F)
  star2 : Entry F
  samples : List Sample

def StepSpec.bytes (enc : List Char → List UInt8) (s : StepSpec F) : List UInt8 :=
  linesOf enc s.stars ++ (s.test.bytes enc ++ (linesOf enc s.first ++ (s.star1.bytes enc ++ (linesOf enc s.second ++ (s.star2.bytes enc ++ (s.samples.map Sample.bytes).flatten)))))

def StepSpec.dict (c : Conv F) (s : StepSpec F) : Dict (Val F) := dictOf c [] (s.test :: (s.first ++ s.second))

/-- A value that stands for a number of samples. -/
inductive Counts (c : Conv F) : Val F → ℕ → Prop
  | int (n : ℕ) : Counts c (.int n) n
  | flt {x : F} {n : ℕ} (hz : c.isZero x = true ↔ n = 0) (ht : c.trunc x = .ok n) : Counts c (.flt x) n
  | none : Counts c .none 0

structure StepSpec.Ok (c : Conv F) (A : Char → Prop) (m : ℕ) (s : StepSpec F) : Prop where
  stars : s.stars.length ≤ 1 ∧ ∀ e ∈ s.stars, e.Star c A
  test : s.test.Ok c A
  testKey : s.test.key c = "test"
  first : ∀ e ∈ s.first, e.Ok c A
  star1 : s.star1.Star c A
  second : ∀ e ∈ s.second, e.Ok c A
  star2 : s.star2.Star c A
  samples : ∀ x ∈ s.samples, x.Ok m
  count : ∃ v, Dict.get? (s.dict c) "samples" = some v ∧ Counts c v s.samples.length

/-- A run. -/
structure RunSpec (F : Type) where
  run : Entry F
  blank : List UInt8
  entries : List (Entry F)
  star : Entry F
  steps : List (StepSpec F)

def RunSpec.bytes (enc : List Char → List UInt8) (r : RunSpec F) : List UInt8 :=
  r.run.bytes enc ++ (r.blank ++ 10 :: (linesOf enc r.entries ++ (r.star.bytes enc ++ (r.steps.map (StepSpec.bytes enc)).flatten)))

def RunSpec.dict (c : Conv F) (r : RunSpec F) : Dict (Val F) := dictOf c [] (r.run :: r.entries)

structure RunSpec.Ok (c : Conv F) (A : Char → Prop) (m k : ℕ) (r : RunSpec F) : Prop where
  run : r.run.Ok c A
  runKey : r.run.key c = "run"
  blank : ∀ b ∈ r.blank, b ≠ 10
  entries : ∀ e ∈ r.entries, e.Ok c A
  star : r.star.Star c A
  number : r.steps.length = k
  steps : ∀ s ∈ r.steps, s.Ok c A m

/-- A file. -/
structure FileSpec (F : Type) where
  before : List (Entry F)
  array : Entry F
  channels : List (ChannelSpec F)
  after : List (Entry F)
  star : Entry F
  runs : List (RunSpec F)

def FileSpec.bytes (enc : List Char → List UInt8) (f : FileSpec F) : List UInt8 :=
  linesOf enc f.before ++ (f.array.bytes enc ++ ((f.channels.map (ChannelSpec.bytes enc)).flatten ++ (linesOf enc f.after ++ (f.star.bytes enc ++ (f.runs.map (RunSpec.bytes enc)).flatten))))

def FileSpec.dict (c : Conv F) (f : FileSpec F) : Dict (MVal F) :=
  metaOf c (Dict.set (metaOf c [] (f.before ++ [f.array])) "channels" (.channels (f.channels.map (ChannelSpec.dict c)))) f.after

structure FileSpec.Ok (c : Conv F) (A : Char → Prop) (names : List String) (k : ℕ) (f : FileSpec F) : Prop where
  before : ∀ e ∈ f.before, e.Ok c A ∧ e.key c ≠ "channelsarray"
  array : f.array.Ok c A
  arrayKey : f.array.key c = "channelsarray"
  arrayVal : f.array.val = .int f.channels.length
  channels : ∀ s ∈ f.channels, s.Ok c A
  after : ∀ e ∈ f.after, e.Ok c A ∧ e.key c ≠ "channelsarray" ∧ e.key c ≠ "channels"
  star : f.star.Star c A
  steps : Dict.get? (f.dict c) "steps" = some (.val (.int k))
  number : Dict.get? (f.dict c) "runs" = some (.val (.int f.runs.length))
  runs : ∀ r ∈ f.runs, r.Ok c A f.channels.length k
  lengths : ∀ s ∈ f.channels, Dict.get? (s.dict c).named "lengthinbytes" = some (.int 8)
  names : f.channels.map (fun s => Dict.get? (s.dict c).named "name") = names.map (fun n => some (.str n.toList))

/-- The values of the samples in the channels named `k`, in order. -/
def column (c : Conv F) (names : List String) (samples : List Sample) (k : String) : List F :=
  (samples.map (fun s => ((names.zip s.values).filter (fun x => x.1 = k)).map (fun x => c.double x.2))).flatten

/-- What is read of a step. -/
structure StepIs (c : Conv F) (names : List String) (s : StepSpec F) (r : Step F) : Prop where
  metadata : r.metadata = s.dict c
  none : s.samples = [] → r.data = none
  data : s.samples ≠ [] → ∃ d, r.data = some d ∧ (∀ k, k ∈ Dict.keys d ↔ k ∈ names) ∧ ∀ k ∈ names, Dict.get? d k = some (column c names s.samples k)

/-- What is read of a run. -/
structure RunIs (c : Conv F) (names : List String) (s : RunSpec F) (r : Run F) : Prop where
  metadata : r.metadata = s.dict c
  steps : List.Forall₂ (StepIs c names) s.steps r.steps

/-! ## Reading -/

theorem dictOf_append (c : Conv F) (d : Dict (Val F)) (a b : List (Entry F)) : dictOf c (dictOf c d a) b = dictOf c d (a ++ b) := by
  unfold dictOf
  rw [List.foldl_append]

theorem linesOf_cons (enc : List Char → List UInt8) (e : Entry F) (es : List (Entry F)) : linesOf enc (e :: es) = e.bytes enc ++ linesOf enc es := rfl

section Read

variable {c : Conv F} {enc : List Char → List UInt8} {A : Char → Prop} (hc : Encoding c enc A)

include hc

theorem bytes_pos {e : Entry F} (h : e.Line c A) : 1 ≤ (e.bytes enc).length := by
  unfold Entry.bytes
  rw [(hc.line e.chars h.chars h.feed).1]
  simp

theorem linesOf_length {es : List (Entry F)} (h : ∀ e ∈ es, e.Ok c A) : es.length ≤ (linesOf enc es).length := by
  induction es with
  | nil => simp
  | cons e es ih =>
    have h1 := bytes_pos hc (h e (by simp)).toLine
    have h2 := ih (fun e he => h e (by simp [he]))
    rw [linesOf_cons, List.length_append, List.length_cons]
    omega

theorem metaLoop_skip {es : List (Entry F)} (h : ∀ e ∈ es, e.Ok c A) (n : ℕ) (d : Dict (Val F)) (rest : List UInt8) :
    metaLoop c (n + es.length) (linesOf enc es ++ rest) d = metaLoop c n rest (dictOf c d es) := by
  induction es generalizing d with
  | nil => rfl
  | cons e es ih =>
    rw [linesOf_cons, List.append_assoc, List.length_cons, ← Nat.add_assoc, metaLoop, C113_line hc (h e (by simp))]
    exact ih (fun e he => h e (by simp [he])) _

theorem metaLoop_entries {es : List (Entry F)} (h : ∀ e ∈ es, e.Ok c A) {star : Entry F} (hs : star.Star c A) (d : Dict (Val F)) (rest : List UInt8) :
    metaLoop c ((linesOf enc es ++ (star.bytes enc ++ rest)).length + 1) (linesOf enc es ++ (star.bytes enc ++ rest)) d = .ok (dictOf c d es, rest) := by
  have h1 := linesOf_length hc h
  obtain ⟨k, hk⟩ := Nat.exists_eq_add_of_le (show es.length + 1 ≤ (linesOf enc es ++ (star.bytes enc ++ rest)).length + 1 by rw [List.length_append]; omega)
  rw [hk, show es.length + 1 + k = (k + 1) + es.length by omega, metaLoop_skip hc h, metaLoop, C113_stars hc hs]

theorem readChannel_skip {es : List (Entry F)} (h : ∀ e ∈ es, e.Ok c A ∧ e.key c ≠ "type") (n : ℕ) (ch : Channel F) (rest : List UInt8) :
    readChannel c (n + es.length) (linesOf enc es ++ rest) ch = readChannel c n rest ⟨dictOf c ch.named es, ch.unnamed⟩ := by
  induction es generalizing ch with
  | nil => rfl
  | cons e es ih =>
    rw [linesOf_cons, List.append_assoc, List.length_cons, ← Nat.add_assoc, readChannel, C113_line hc (h e (by simp)).1]
    simp only
    rw [if_neg (h e (by simp)).2]
    exact ih (fun e he => h e (by simp [he])) _

theorem readChannel_spec {s : ChannelSpec F} (h : s.Ok c A) (rest : List UInt8) :
    readChannel c ((s.bytes enc ++ rest).length + 1) (s.bytes enc ++ rest) ⟨[], none⟩ = .ok (s.dict c, rest) := by
  have h1 := linesOf_length hc (fun e he => (h.entries e he).1)
  obtain ⟨k, hk⟩ := Nat.exists_eq_add_of_le (show s.entries.length + 1 ≤ (s.bytes enc ++ rest).length + 1 by
    unfold ChannelSpec.bytes
    rw [List.length_append, List.length_append]; omega)
  rw [hk, show s.entries.length + 1 + k = (k + 1) + s.entries.length by omega]
  unfold ChannelSpec.bytes
  rw [List.append_assoc, readChannel_skip hc h.entries, readChannel, C113_line hc h.last]
  simp only
  rw [if_pos h.type]
  unfold ChannelSpec.dict
  rw [← dictOf_append]
  rfl

theorem readChannels_spec {ss : List (ChannelSpec F)} (h : ∀ s ∈ ss, s.Ok c A) (rest : List UInt8) :
    readChannels c ss.length ((ss.map (ChannelSpec.bytes enc)).flatten ++ rest) = .ok (ss.map (ChannelSpec.dict c), rest) := by
  induction ss with
  | nil => rfl
  | cons s ss ih =>
    rw [List.map_cons, List.flatten_cons, List.append_assoc, List.length_cons, readChannels, readChannel_spec hc (h s (by simp))]
    simp only
    rw [ih (fun s hs => h s (by simp [hs]))]
    rfl

theorem fileMeta_skip {es : List (Entry F)} (h : ∀ e ∈ es, e.Ok c A ∧ e.key c ≠ "channelsarray") (n : ℕ) (d : Dict (MVal F)) (rest : List UInt8) :
    fileMeta c (n + es.length) (linesOf enc es ++ rest) d = fileMeta c n rest (metaOf c d es) := by
  induction es generalizing d with
  | nil => rfl
  | cons e es ih =>
    rw [linesOf_cons, List.append_assoc, List.length_cons, ← Nat.add_assoc, fileMeta, C113_line hc (h e (by simp)).1]
    simp only
    rw [if_neg (h e (by simp)).2]
    exact ih (fun e he => h e (by simp [he])) _

theorem fileMeta_spec {f : FileSpec F} {names : List String} {k : ℕ} (h : f.Ok c A names k) (rest : List UInt8) (runs : List UInt8) (hr : runs = (f.runs.map (RunSpec.bytes enc)).flatten) :
    fileMeta c ((f.bytes enc ++ rest).length + 1) (f.bytes enc ++ rest) [] = .ok (f.dict c, runs ++ rest) := by
  have h1 := linesOf_length hc (fun e he => (h.before e he).1)
  have h2 := linesOf_length hc (fun e he => (h.after e he).1)
  have h3 := bytes_pos hc h.array.toLine
  have h4 := bytes_pos hc h.star.toLine
  obtain ⟨k, hk⟩ := Nat.exists_eq_add_of_le (show f.before.length + (f.after.length + 1 + 1) ≤ (f.bytes enc ++ rest).length + 1 by
    unfold FileSpec.bytes
    simp only [List.length_append]
    omega)
  rw [hk, show f.before.length + (f.after.length + 1 + 1) + k = (((k + 1) + f.after.length) + 1) + f.before.length by omega]
  unfold FileSpec.bytes
  rw [← hr]
  simp only [List.append_assoc]
  rw [fileMeta_skip hc h.before, fileMeta, C113_line hc h.array]
  simp only
  rw [if_pos h.arrayKey, h.arrayVal]
  unfold rangeOf
  simp only
  rw [Int.toNat_natCast, readChannels_spec hc h.channels]
  simp only
  rw [fileMeta_skip hc (fun e he => ⟨(h.after e he).1, (h.after e he).2.1⟩), fileMeta, C113_stars hc h.star]
  unfold FileSpec.dict
  have : metaOf c [] (f.before ++ [f.array]) = Dict.set (metaOf c [] f.before) (f.array.key c) (.val (.int f.channels.length)) := by
    unfold metaOf
    rw [List.foldl_append]
    simp only [List.foldl_cons, List.foldl_nil]
    rw [h.arrayVal]
  rw [this]

end Read

/-! ## Data -/

theorem readValue_eight (c : Conv F) {v : List UInt8} (h : v.length = 8) (rest : List UInt8) : readValue c (.int 8) (v ++ rest) = .ok (c.double v, rest) := by
  have e1 : (v ++ rest).take (8 : ℤ).toNat = v := by rw [show (8 : ℤ).toNat = v.length by rw [h]; rfl, List.take_left]
  have e2 : (v ++ rest).drop (8 : ℤ).toNat = rest := by rw [show (8 : ℤ).toNat = v.length by rw [h]; rfl, List.drop_left]
  unfold readValue
  simp only
  rw [if_pos (by decide), e1, if_pos h, e2]

/-- The entries of the data of a name. -/
def valuesOf (d : Dict (List F)) (k : String) : List F := (Dict.get? d k).getD []

theorem readSample_spec (c : Conv F) (names : List String) : ∀ (values : List (List UInt8)) (_ : values.length = names.length) (_ : ∀ v ∈ values, v.length = 8) (d : Dict (List F))
    (_ : ∀ n ∈ names, n ∈ Dict.keys d) (rest : List UInt8),
    ∃ d', readSample c (names.map (fun n => (n, .int 8))) (values.flatten ++ rest) d = .ok (d', rest) ∧ Dict.keys d' = Dict.keys d ∧
      ∀ k, valuesOf d' k = valuesOf d k ++ ((names.zip values).filter (fun x => x.1 = k)).map (fun x => c.double x.2) := by
  induction names with
  | nil =>
    intro values hl _ d _ rest
    have : values = [] := List.length_eq_zero_iff.1 hl
    subst this
    exact ⟨d, rfl, rfl, fun k => by simp⟩
  | cons n names ih =>
    intro values hl h8 d hd rest
    cases values with
    | nil => simp at hl
    | cons v values =>
      have hkeys : Dict.keys (Dict.set d n ((Dict.get? d n).getD [] ++ [c.double v])) = Dict.keys d := by rw [Dict.keys_set, if_pos (hd n (by simp))]
      obtain ⟨d', h1, h2, h3⟩ := ih values (by simpa using hl) (fun w hw => h8 w (by simp [hw])) (Dict.set d n ((Dict.get? d n).getD [] ++ [c.double v]))
        (fun m hm => by rw [hkeys]; exact hd m (by simp [hm])) rest
      refine ⟨d', ?_, h2.trans hkeys, fun k => ?_⟩
      · rw [List.map_cons, List.flatten_cons, List.append_assoc, readSample, readValue_eight c (h8 v (by simp))]
        exact h1
      · rw [h3 k, List.zip_cons_cons]
        unfold valuesOf
        rw [Dict.get?_set]
        by_cases hk : k = n
        · subst hk
          rw [if_pos rfl, List.filter_cons_of_pos (by simp)]
          simp
        · rw [if_neg hk, List.filter_cons_of_neg (by simpa using fun e => hk e.symm)]

theorem readSamples_spec (c : Conv F) (names : List String) : ∀ (samples : List Sample) (_ : ∀ s ∈ samples, s.Ok names.length) (d : Dict (List F)) (_ : ∀ n ∈ names, n ∈ Dict.keys d) (rest : List UInt8),
    ∃ d', readSamples c (names.map (fun n => (n, .int 8))) samples.length ((samples.map Sample.bytes).flatten ++ rest) d = .ok (d', rest) ∧ Dict.keys d' = Dict.keys d ∧
      ∀ k, valuesOf d' k = valuesOf d k ++ column c names samples k := by
  intro samples
  induction samples with
  | nil => intro _ d _ rest; exact ⟨d, rfl, rfl, fun k => by simp [column]⟩
  | cons s samples ih =>
    intro hs d hd rest
    obtain ⟨d1, h1, h2, h3⟩ := readSample_spec c names s.values (hs s (by simp)).1 (hs s (by simp)).2 d hd (s.sep :: ((samples.map Sample.bytes).flatten ++ rest))
    obtain ⟨d2, h4, h5, h6⟩ := ih (fun s hs' => hs s (by simp [hs'])) d1 (by rw [h2]; exact hd) rest
    refine ⟨d2, ?_, h5.trans h2, fun k => ?_⟩
    · have e : ((s :: samples).map Sample.bytes).flatten ++ rest = s.values.flatten ++ (s.sep :: ((samples.map Sample.bytes).flatten ++ rest)) := by
        simp [Sample.bytes]
      rw [e, List.length_cons, readSamples, h1]
      exact h4
    · rw [h6, h3]
      simp [column]

theorem mem_emptyData (chans : List (String × Val F)) (d : Dict (List F)) (k : String) :
    k ∈ Dict.keys (chans.foldl (fun d x => Dict.set d x.1 []) d) ↔ k ∈ Dict.keys d ∨ k ∈ chans.map Prod.fst := by
  induction chans generalizing d with
  | nil => simp
  | cons x chans ih =>
    rw [List.foldl_cons, ih, Dict.keys_set]
    by_cases hx : x.1 ∈ Dict.keys d
    · rw [if_pos hx, List.map_cons, List.mem_cons]
      constructor
      · rintro (h | h)
        · exact Or.inl h
        · exact Or.inr (Or.inr h)
      · rintro (h | h | h)
        · exact Or.inl h
        · exact Or.inl (h ▸ hx)
        · exact Or.inr h
    · rw [if_neg hx, List.map_cons, List.mem_cons, List.mem_append, List.mem_singleton]
      tauto

theorem valuesOf_emptyData (chans : List (String × Val F)) (d : Dict (List F)) (hd : ∀ k, valuesOf d k = []) (k : String) : valuesOf (chans.foldl (fun d x => Dict.set d x.1 []) d) k = [] := by
  induction chans generalizing d with
  | nil => exact hd k
  | cons x chans ih =>
    refine ih _ (fun k => ?_)
    unfold valuesOf
    rw [Dict.get?_set]
    split_ifs with h
    · rfl
    · exact hd k

theorem channelsOf_spec {c : Conv F} : ∀ {ss : List (ChannelSpec F)} {names : List String} (_ : ∀ s ∈ ss, Dict.get? (s.dict c).named "lengthinbytes" = some (.int 8))
    (_ : ss.map (fun s => Dict.get? (s.dict c).named "name") = names.map (fun n => some (.str n.toList))),
    channelsOf (ss.map (ChannelSpec.dict c)) = .ok (names.map (fun n => (n, .int 8))) := by
  intro ss
  induction ss with
  | nil =>
    intro names _ h
    cases names with
    | nil => rfl
    | cons n names => simp at h
  | cons s ss ih =>
    intro names h8 h
    cases names with
    | nil => simp at h
    | cons n names =>
      rw [List.map_cons, List.map_cons] at h
      injection h with h1 h2
      rw [List.map_cons, channelsOf]
      have : channelOf (s.dict c) = .ok (n, .int 8) := by
        unfold channelOf
        rw [h8 s (by simp), h1]
        simp
      rw [this]
      simp only
      rw [ih (fun s hs => h8 s (by simp [hs])) h2]
      rfl

theorem getD_of_mem {d : Dict (List F)} {k : String} (h : k ∈ Dict.keys d) : Dict.get? d k = some (valuesOf d k) := by
  obtain ⟨l, hl⟩ := (Dict.mem_keys_iff d k).1 h
  unfold valuesOf
  rw [hl]
  rfl

theorem metaOf_get (c : Conv F) (d : Dict (MVal F)) {k : String} {es : List (Entry F)} (h : ∀ e ∈ es, e.key c ≠ k) : Dict.get? (metaOf c d es) k = Dict.get? d k := by
  induction es generalizing d with
  | nil => rfl
  | cons e es ih =>
    have := ih (Dict.set d (e.key c) (.val e.val)) (fun e he => h e (by simp [he]))
    rw [Dict.get?_set, if_neg (fun e' => h e (by simp) e'.symm)] at this
    exact this

theorem FileSpec.Ok.channels_get {c : Conv F} {A : Char → Prop} {f : FileSpec F} {names : List String} {k : ℕ} (h : f.Ok c A names k) :
    Dict.get? (f.dict c) "channels" = some (.channels (f.channels.map (ChannelSpec.dict c))) := by
  unfold FileSpec.dict
  rw [metaOf_get _ _ (fun e he => (h.after e he).2.2), Dict.get?_set, if_pos rfl]

theorem FileSpec.Ok.names_length {c : Conv F} {A : Char → Prop} {f : FileSpec F} {names : List String} {k : ℕ} (h : f.Ok c A names k) : f.channels.length = names.length := by
  have := congrArg List.length h.names
  simpa using this

section Read

variable {c : Conv F} {enc : List Char → List UInt8} {A : Char → Prop} (hc : Encoding c enc A)

include hc

theorem stepBody_spec {f : FileSpec F} {names : List String} {k : ℕ} (h : f.Ok c A names k) {s : StepSpec F} (hs : s.Ok c A f.channels.length) (rest : List UInt8) :
    ∃ r, stepBody c (f.dict c) s.test.val (linesOf enc s.first ++ (s.star1.bytes enc ++ (linesOf enc s.second ++ (s.star2.bytes enc ++ ((s.samples.map Sample.bytes).flatten ++ rest))))) = .ok (r, rest) ∧
      StepIs c names s r := by
  have hd : dictOf c (dictOf c (Dict.set [] "test" s.test.val) s.first) s.second = s.dict c := by
    unfold StepSpec.dict
    rw [dictOf_append]
    unfold dictOf
    rw [List.foldl_cons, hs.testKey]
  obtain ⟨v, hv, hcount⟩ := hs.count
  unfold stepBody
  rw [metaLoop_entries hc hs.first hs.star1]
  simp only
  rw [metaLoop_entries hc hs.second hs.star2]
  simp only
  rw [hd, hv]
  simp only
  by_cases h0 : s.samples = []
  · have ht : truthy c v = false := by
      rw [h0] at hcount
      cases hcount with
      | int => rfl
      | flt hz ht => simp [truthy, hz.2 rfl]
      | none => rfl
    refine ⟨⟨s.dict c, none⟩, ?_, ⟨rfl, fun _ => rfl, fun h => absurd h0 h⟩⟩
    rw [ht, h0]
    rfl
  · have hlen : s.samples.length ≠ 0 := fun e => h0 (List.length_eq_zero_iff.1 e)
    have ht : truthy c v = true ∧ intOf c v = .ok (s.samples.length : ℤ) := by
      generalize s.samples.length = n at hcount hlen
      cases hcount with
      | int => exact ⟨by simp [truthy, hlen], rfl⟩
      | flt hz ht =>
        refine ⟨?_, by simp [intOf, ht]⟩
        unfold truthy
        simp only [Bool.not_eq_true', Bool.eq_false_iff]
        exact fun e => hlen (hz.1 e)
      | none => exact absurd rfl hlen
    obtain ⟨d, h1, h2, h3⟩ := readSamples_spec c names s.samples (by rw [← h.names_length]; exact hs.samples) (emptyData (names.map (fun n => (n, .int 8))))
      (fun n hn => (mem_emptyData _ _ _).2 (Or.inr (by simp [List.mem_map, hn]))) rest
    refine ⟨⟨s.dict c, some d⟩, ?_, ⟨rfl, fun h => absurd h h0, fun _ => ⟨d, rfl, fun k => ?_, fun k hk => ?_⟩⟩⟩
    · rw [ht.1, if_pos rfl]
      unfold readData
      rw [h.channels_get]
      simp only
      rw [channelsOf_spec h.lengths h.names]
      simp only
      rw [ht.2]
      simp only
      rw [Int.toNat_natCast, h1]
    · rw [h2]
      unfold emptyData
      rw [mem_emptyData]
      simp [Dict.keys, List.mem_map]
    · have hmem : k ∈ Dict.keys d := by
        rw [h2]
        unfold emptyData
        rw [mem_emptyData]
        simp [List.mem_map, hk]
      rw [getD_of_mem hmem, h3]
      unfold emptyData
      rw [valuesOf_emptyData _ _ (fun _ => rfl)]
      rfl

theorem readStep_spec {f : FileSpec F} {names : List String} {k : ℕ} (h : f.Ok c A names k) {s : StepSpec F} (hs : s.Ok c A f.channels.length) (rest : List UInt8) :
    ∃ r, readStep c (f.dict c) (s.bytes enc ++ rest) = .ok (r, rest) ∧ StepIs c names s r := by
  obtain ⟨r, h1, h2⟩ := stepBody_spec hc h hs rest
  refine ⟨r, ?_, h2⟩
  have hline : ∀ l : Line F, l.name = some "test" → l.value = s.test.val → ∀ bs, stepLine c (f.dict c) l bs = stepBody c (f.dict c) s.test.val bs := by
    intro l hl hv bs
    unfold stepLine
    rw [if_pos hl, hv]
  obtain ⟨hlen, hstars⟩ := hs.stars
  unfold StepSpec.bytes readStep
  simp only [List.append_assoc]
  rcases hst : s.stars with _ | ⟨e, es⟩
  · have e0 : linesOf enc ([] : List (Entry F)) = [] := rfl
    rw [e0, List.nil_append, C113_line hc hs.test]
    simp only
    rw [hline _ (by rw [hs.testKey]) rfl]
    exact h1
  · rw [hst, List.length_cons] at hlen
    have : es = [] := List.length_eq_zero_iff.1 (by omega)
    subst this
    have e0 : linesOf enc [e] = e.bytes enc := by simp [linesOf]
    rw [e0, C113_stars hc (hstars e (by rw [hst]; simp))]
    simp only
    rw [C113_line hc hs.test]
    simp only
    rw [hline _ (by rw [hs.testKey]) rfl]
    exact h1

theorem readSteps_spec {f : FileSpec F} {names : List String} {k : ℕ} (h : f.Ok c A names k) (rest : List UInt8) : ∀ {ss : List (StepSpec F)} (_ : ∀ s ∈ ss, s.Ok c A f.channels.length),
    ∃ rs, readSteps c (f.dict c) ss.length ((ss.map (StepSpec.bytes enc)).flatten ++ rest) = .ok (rs, rest) ∧ List.Forall₂ (StepIs c names) ss rs := by
  intro ss
  induction ss with
  | nil => intro _; exact ⟨[], rfl, .nil⟩
  | cons s ss ih =>
    intro hs
    obtain ⟨rs, h1, h2⟩ := ih (fun s hs' => hs s (by simp [hs']))
    obtain ⟨r, h3, h4⟩ := readStep_spec hc h (hs s (by simp)) ((ss.map (StepSpec.bytes enc)).flatten ++ rest)
    refine ⟨r :: rs, ?_, .cons h4 h2⟩
    rw [List.map_cons, List.flatten_cons, List.append_assoc, List.length_cons, readSteps, h3]
    simp only
    rw [h1]

theorem readRun_spec {f : FileSpec F} {names : List String} {k : ℕ} (h : f.Ok c A names k) {r : RunSpec F} (hr : r.Ok c A f.channels.length k) (rest : List UInt8) :
    ∃ x, readRun c (f.dict c) (r.bytes enc ++ rest) = .ok (x, rest) ∧ RunIs c names r x := by
  obtain ⟨rs, h1, h2⟩ := readSteps_spec hc h rest hr.steps
  refine ⟨⟨r.dict c, rs⟩, ?_, ⟨rfl, h2⟩⟩
  have e : r.bytes enc ++ rest = r.run.bytes enc ++ (r.blank ++ 10 :: (linesOf enc r.entries ++ (r.star.bytes enc ++ ((r.steps.map (StepSpec.bytes enc)).flatten ++ rest)))) := by
    simp [RunSpec.bytes]
  have hcount : countOf (f.dict c) "steps" = .ok r.steps.length := by
    unfold countOf
    rw [h.steps]
    simp only [rangeOf]
    rw [Int.toNat_natCast, hr.number]
  unfold readRun
  rw [e, C113_line hc hr.run]
  simp only
  rw [if_pos (by rw [hr.runKey]), Alicona.readLine_append hr.blank, metaLoop_entries hc hr.entries hr.star]
  simp only
  rw [hcount]
  simp only
  rw [h1]
  have : dictOf c (Dict.set [] "run" r.run.val) r.entries = r.dict c := by
    unfold RunSpec.dict dictOf
    rw [List.foldl_cons, hr.runKey]
  rw [this]

/-- A file gives its metadata, with the channels, and its runs in order: their metadata and their steps in order. Bytes after the last run are not read. -/
theorem C114_file {f : FileSpec F} {names : List String} {k : ℕ} (h : f.Ok c A names k) (rest : List UInt8) :
    ∃ r, readFile c (f.bytes enc ++ rest) = .ok r ∧ r.metadata = f.dict c ∧ Dict.get? r.metadata "channels" = some (.channels (f.channels.map (ChannelSpec.dict c))) ∧
      List.Forall₂ (RunIs c names) f.runs r.runs := by
  have hruns : ∀ {rs : List (RunSpec F)} (_ : ∀ r ∈ rs, r.Ok c A f.channels.length k),
      ∃ xs, readRuns c (f.dict c) rs.length ((rs.map (RunSpec.bytes enc)).flatten ++ rest) = .ok (xs, rest) ∧ List.Forall₂ (RunIs c names) rs xs := by
    intro rs
    induction rs with
    | nil => intro _; exact ⟨[], rfl, .nil⟩
    | cons r rs ih =>
      intro hr
      obtain ⟨xs, h1, h2⟩ := ih (fun r hr' => hr r (by simp [hr']))
      obtain ⟨x, h3, h4⟩ := readRun_spec hc h (hr r (by simp)) ((rs.map (RunSpec.bytes enc)).flatten ++ rest)
      refine ⟨x :: xs, ?_, .cons h4 h2⟩
      rw [List.map_cons, List.flatten_cons, List.append_assoc, List.length_cons, readRuns, h3]
      simp only
      rw [h1]
  obtain ⟨xs, h1, h2⟩ := hruns h.runs
  have hcount : countOf (f.dict c) "runs" = .ok f.runs.length := by
    unfold countOf
    rw [h.number]
    simp only [rangeOf]
    rw [Int.toNat_natCast]
  refine ⟨⟨f.dict c, xs⟩, ?_, rfl, h.channels_get, h2⟩
  unfold readFile
  rw [fileMeta_spec hc h rest _ rfl]
  simp only
  rw [hcount]
  simp only
  rw [h1]

end Read

theorem zip_filter_nodup : ∀ {names : List String} {values : List (List UInt8)} (_ : names.Nodup) (_ : values.length = names.length) {j : ℕ} (hj : j < names.length),
    (names.zip values).filter (fun x => x.1 = names[j]) = [(names[j], values.getD j [])] := by
  intro names
  induction names with
  | nil => intro _ _ _ j hj; simp at hj
  | cons n names ih =>
    intro values hn hl j hj
    cases values with
    | nil => simp at hl
    | cons v values =>
      rw [List.nodup_cons] at hn
      rw [List.zip_cons_cons]
      cases j with
      | zero =>
        rw [List.filter_cons_of_pos (by simp), List.filter_eq_nil_iff.2]
        · rfl
        · rintro ⟨a, b⟩ hab
          have := (List.of_mem_zip hab).1
          simp only [List.getElem_cons_zero, decide_eq_true_eq]
          rintro rfl
          exact hn.1 this
      | succ j =>
        rw [List.filter_cons_of_neg]
        · exact ih hn.2 (by simpa using hl) (by simpa using hj)
        · simp only [List.getElem_cons_succ, decide_eq_true_eq]
          intro e
          exact hn.1 (e ▸ List.getElem_mem _)

/-- If the names of the channels are distinct, the list of a channel has one number for each sample: that at its place in the sample. Missing: channels of the same name (`C114_same_name_wrong`). -/
theorem C114_data_partial (c : Conv F) {names : List String} (hn : names.Nodup) {samples : List Sample} (hs : ∀ s ∈ samples, s.Ok names.length) {j : ℕ} (hj : j < names.length) :
    column c names samples names[j] = samples.map (fun s => c.double (s.values.getD j [])) := by
  induction samples with
  | nil => rfl
  | cons s samples ih =>
    have h1 := ih (fun s hs' => hs s (by simp [hs']))
    have h2 := zip_filter_nodup hn (hs s (by simp)).1 hj
    unfold column at h1 ⊢
    rw [List.map_cons, List.flatten_cons, h1, h2]
    rfl

theorem filter_zip_length (k : String) : ∀ {names : List String} {values : List (List UInt8)} (_ : values.length = names.length), ((names.zip values).filter (fun x => x.1 = k)).length = names.count k := by
  intro names
  induction names with
  | nil => intro _ _; simp
  | cons n names ih =>
    intro values hl
    cases values with
    | nil => simp at hl
    | cons v values =>
      have h1 := ih (values := values) (by simpa using hl)
      rw [List.zip_cons_cons, List.count_cons]
      by_cases hk : n = k
      · rw [List.filter_cons_of_pos (by simpa using hk), List.length_cons, h1, if_pos (by simpa using hk)]
      · rw [List.filter_cons_of_neg (by simpa using hk), h1, if_neg (by simpa using hk)]
        rfl

/-- Not as documented: the values of all channels of the same name are mixed in one list. -/
theorem C114_same_name_wrong (c : Conv F) {names : List String} {samples : List Sample} (hs : ∀ s ∈ samples, s.Ok names.length) (k : String) :
    (column c names samples k).length = samples.length * names.count k := by
  induction samples with
  | nil => simp [column]
  | cons s samples ih =>
    have h1 := ih (fun s hs' => hs s (by simp [hs']))
    have h2 := filter_zip_length k (hs s (by simp)).1
    unfold column at h1 ⊢
    rw [List.map_cons, List.flatten_cons, List.length_append, h1, List.length_map, h2, List.length_cons]
    rw [Nat.add_mul]
    omega

/-- Not as documented: a channel with a length other than eight bytes is an error (unless exactly eight bytes of the file are left). -/
theorem C114_length_wrong (c : Conv F) {z : ℤ} (hz : 0 ≤ z) (h8 : z ≠ 8) {bs : List UInt8} (hbs : bs.length ≠ 8) (name : String) (rest : List (String × Val F)) (n : ℕ) (d : Dict (List F)) :
    readSamples c ((name, .int z) :: rest) (n + 1) bs d = .error .struct := by
  have h : readValue c (.int z) bs = .error .struct := by
    unfold readValue
    simp only
    rw [if_pos hz, if_neg]
    rw [List.length_take]
    omega
  rw [readSamples, readSample, h]

/-! ## C115: every file is read to the end or is an error -/

theorem splitLine_shorter {c : Conv F} (hc : c.dec [] = some []) {bs : List UInt8} {l : Line F} {bs' : List UInt8} (h : splitLine c bs = .ok (l, bs')) : bs'.length < bs.length := by
  cases bs with
  | nil =>
    exfalso
    have e : (Alicona.readLine []).1 = [] := rfl
    unfold splitLine at h
    rw [e, hc] at h
    simp only at h
    rw [C113_no_hash c (s := []) (by simp)] at h
    cases h
  | cons b bs =>
    have hb : (Alicona.readLine (b :: bs)).2.length < (b :: bs).length := by
      unfold Alicona.readLine
      simp only [List.length_drop, List.length_cons]
      omega
    unfold splitLine at h
    cases hd : c.dec (Alicona.readLine (b :: bs)).1 with
    | none => rw [hd] at h; cases h
    | some s =>
      rw [hd] at h
      simp only at h
      cases hp : parseLine c s with
      | error e => rw [hp] at h; cases h
      | ok x =>
        rw [hp] at h
        injection h with h
        injection h with _ h
        rw [← h]
        exact hb

theorem convert_rounds (c : Conv F) (a b : List Char) : convert c a b ≠ .error .rounds := by
  unfold convert
  split_ifs
  · simp
  · cases c.int b <;> simp
  · cases c.flt b <;> simp
  · simp

theorem parseLine_rounds (c : Conv F) (s : List Char) : parseLine c s ≠ .error .rounds := by
  unfold parseLine
  rcases (split '#' s).drop 1 with _ | ⟨number, rest⟩
  · simp
  · simp only
    rcases split '$' rest.flatten with _ | ⟨name, _ | ⟨value, _⟩⟩
    · simp
    · simp
    · simp only
      cases hc : convert c (strip ' ' number) (strip ' ' value) with
      | error e =>
        simp only
        rintro he
        injection he with he
        exact convert_rounds c _ _ (he ▸ hc)
      | ok v =>
        simp only
        cases c.int (strip ' ' number) <;> simp

theorem splitLine_rounds (c : Conv F) (bs : List UInt8) : splitLine c bs ≠ .error .rounds := by
  unfold splitLine
  cases c.dec (Alicona.readLine bs).1 with
  | none => simp
  | some s =>
    simp only
    cases hp : parseLine c s with
    | error e =>
      simp only
      rintro he
      injection he with he
      exact parseLine_rounds c s (he ▸ hp)
    | ok l => simp

section Ends

variable {c : Conv F} (hc : c.dec [] = some [])

include hc

theorem metaLoop_rounds : ∀ (n : ℕ) (bs : List UInt8) (d : Dict (Val F)), bs.length < n → metaLoop c n bs d ≠ .error .rounds := by
  intro n
  induction n with
  | zero => intro bs d h; omega
  | succ n ih =>
    intro bs d h
    rw [metaLoop]
    cases hs : splitLine c bs with
    | error e =>
      simp only
      rintro he
      injection he with he
      exact splitLine_rounds c bs (he ▸ hs)
    | ok x =>
      obtain ⟨l, bs'⟩ := x
      have := splitLine_shorter hc hs
      simp only
      cases l.name with
      | none => simp
      | some k => exact ih _ _ (by omega)

theorem readChannel_rounds : ∀ (n : ℕ) (bs : List UInt8) (d : Channel F), bs.length < n → readChannel c n bs d ≠ .error .rounds := by
  intro n
  induction n with
  | zero => intro bs d h; omega
  | succ n ih =>
    intro bs d h
    rw [readChannel]
    cases hs : splitLine c bs with
    | error e =>
      simp only
      rintro he
      injection he with he
      exact splitLine_rounds c bs (he ▸ hs)
    | ok x =>
      obtain ⟨l, bs'⟩ := x
      have := splitLine_shorter hc hs
      simp only
      cases l.name with
      | none => exact ih _ _ (by omega)
      | some k =>
        simp only
        split_ifs
        · simp
        · exact ih _ _ (by omega)

theorem readChannel_shorter : ∀ (n : ℕ) (bs : List UInt8) (d x : Channel F) (bs' : List UInt8), readChannel c n bs d = .ok (x, bs') → bs'.length ≤ bs.length := by
  intro n
  induction n with
  | zero => intro bs d x bs' h; cases h
  | succ n ih =>
    intro bs d x bs' h
    rw [readChannel] at h
    cases hs : splitLine c bs with
    | error e => rw [hs] at h; cases h
    | ok y =>
      obtain ⟨l, bs1⟩ := y
      have := splitLine_shorter hc hs
      rw [hs] at h
      simp only at h
      cases hl : l.name with
      | none =>
        rw [hl] at h
        have := ih _ _ _ _ h
        omega
      | some k =>
        rw [hl] at h
        simp only at h
        split_ifs at h
        · injection h with h
          injection h with _ h
          rw [← h]
          omega
        · have := ih _ _ _ _ h
          omega

theorem readChannels_rounds : ∀ (n : ℕ) (bs : List UInt8), readChannels c n bs ≠ .error .rounds ∧ ∀ x bs', readChannels c n bs = .ok (x, bs') → bs'.length ≤ bs.length := by
  intro n
  induction n with
  | zero =>
    intro bs
    refine ⟨by simp [readChannels], fun x bs' h => ?_⟩
    rw [readChannels] at h
    injection h with h
    injection h with _ h
    rw [h]
  | succ n ih =>
    intro bs
    rw [readChannels]
    cases hs : readChannel c (bs.length + 1) bs ⟨[], none⟩ with
    | error e =>
      refine ⟨?_, fun x bs' h => by cases h⟩
      simp only
      rintro he
      injection he with he
      exact readChannel_rounds hc _ bs _ (by omega) (he ▸ hs)
    | ok y =>
      obtain ⟨ch, bs1⟩ := y
      have h1 := readChannel_shorter hc _ _ _ _ _ hs
      obtain ⟨h2, h3⟩ := ih bs1
      simp only
      cases hr : readChannels c n bs1 with
      | error e =>
        refine ⟨?_, fun x bs' h => by cases h⟩
        simp only
        rintro he
        injection he with he
        exact h2 (he ▸ hr)
      | ok z =>
        obtain ⟨chs, bs2⟩ := z
        refine ⟨by simp, fun x bs' h => ?_⟩
        injection h with h
        injection h with _ h
        have := h3 _ _ hr
        rw [← h]
        omega

theorem rangeOf_rounds (v : Val F) : rangeOf v ≠ .error .rounds := by
  clear hc
  cases v <;> simp [rangeOf]

theorem fileMeta_rounds : ∀ (n : ℕ) (bs : List UInt8) (d : Dict (MVal F)), bs.length < n → fileMeta c n bs d ≠ .error .rounds := by
  intro n
  induction n with
  | zero => intro bs d h; omega
  | succ n ih =>
    intro bs d h
    rw [fileMeta]
    cases hs : splitLine c bs with
    | error e =>
      simp only
      rintro he
      injection he with he
      exact splitLine_rounds c bs (he ▸ hs)
    | ok x =>
      obtain ⟨l, bs'⟩ := x
      have := splitLine_shorter hc hs
      simp only
      cases l.name with
      | none => simp
      | some k =>
        simp only
        split_ifs
        · cases hr : rangeOf l.value with
          | error e =>
            simp only
            rintro he
            injection he with he
            exact rangeOf_rounds hc _ (he ▸ hr)
          | ok m =>
            simp only
            obtain ⟨h2, h3⟩ := readChannels_rounds hc m bs'
            cases hq : readChannels c m bs' with
            | error e =>
              simp only
              rintro he
              injection he with he
              exact h2 (he ▸ hq)
            | ok y =>
              obtain ⟨chs, bs2⟩ := y
              have := h3 _ _ hq
              exact ih _ _ (by omega)
        · exact ih _ _ (by omega)

theorem readValue_rounds (len : Val F) (bs : List UInt8) : readValue c len bs ≠ .error .rounds := by
  clear hc
  unfold readValue
  cases len <;> simp only <;> (try split_ifs) <;> simp

theorem readSamples_rounds (chans : List (String × Val F)) (n : ℕ) (bs : List UInt8) (d : Dict (List F)) : readSamples c chans n bs d ≠ .error .rounds := by
  have h1 : ∀ (chans : List (String × Val F)) (bs : List UInt8) (d : Dict (List F)), readSample c chans bs d ≠ .error .rounds := by
    intro chans
    induction chans with
    | nil => intro bs d; simp [readSample]
    | cons x chans ih =>
      obtain ⟨name, len⟩ := x
      intro bs d
      rw [readSample]
      cases hv : readValue c len bs with
      | error e =>
        simp only
        rintro he
        injection he with he
        exact readValue_rounds hc len bs (he ▸ hv)
      | ok y => exact ih _ _
  induction n generalizing bs d with
  | zero => simp [readSamples]
  | succ n ih =>
    rw [readSamples]
    cases hv : readSample c chans bs d with
    | error e =>
      simp only
      rintro he
      injection he with he
      exact h1 chans bs d (he ▸ hv)
    | ok y => exact ih _ _

theorem readData_rounds (fileM : Dict (MVal F)) (v : Val F) (bs : List UInt8) : readData c fileM v bs ≠ .error .rounds := by
  have h1 : ∀ ch : Channel F, channelOf ch ≠ .error .rounds := by
    intro ch
    unfold channelOf
    rcases Dict.get? ch.named "lengthinbytes" with _ | _ <;> rcases Dict.get? ch.named "name" with _ | (_ | _ | _ | _) <;> simp
  have h2 : ∀ chs : List (Channel F), channelsOf chs ≠ .error .rounds := by
    intro chs
    induction chs with
    | nil => simp [channelsOf]
    | cons ch chs ih =>
      rw [channelsOf]
      cases hx : channelOf ch with
      | error e =>
        simp only
        rintro he
        injection he with he
        exact h1 ch (he ▸ hx)
      | ok x =>
        simp only
        cases hy : channelsOf chs with
        | error e =>
          simp only
          rintro he
          injection he with he
          exact ih (he ▸ hy)
        | ok y => simp
  have h3 : intOf c v ≠ .error .rounds := by
    unfold intOf
    cases v with
    | none => simp
    | int z => simp
    | flt x =>
      simp only
      cases c.trunc x <;> simp
    | str s =>
      simp only
      cases c.int s <;> simp
  unfold readData
  rcases Dict.get? fileM "channels" with _ | (_ | chs)
  · simp
  · simp
  · simp only
    cases hx : channelsOf chs with
    | error e =>
      simp only
      rintro he
      injection he with he
      exact h2 chs (he ▸ hx)
    | ok x =>
      simp only
      cases hy : intOf c v with
      | error e =>
        simp only
        rintro he
        injection he with he
        exact h3 (he ▸ hy)
      | ok z => exact readSamples_rounds hc _ _ _ _

theorem stepLine_rounds (fileM : Dict (MVal F)) (l : Line F) (bs : List UInt8) : stepLine c fileM l bs ≠ .error .rounds := by
  unfold stepLine
  split_ifs
  · unfold stepBody
    cases h1 : metaLoop c (bs.length + 1) bs (Dict.set [] "test" l.value) with
    | error e =>
      simp only
      rintro he
      injection he with he
      exact metaLoop_rounds hc _ bs _ (by omega) (he ▸ h1)
    | ok x =>
      obtain ⟨d, bs1⟩ := x
      simp only
      cases h2 : metaLoop c (bs1.length + 1) bs1 d with
      | error e =>
        simp only
        rintro he
        injection he with he
        exact metaLoop_rounds hc _ bs1 _ (by omega) (he ▸ h2)
      | ok x =>
        obtain ⟨d, bs2⟩ := x
        simp only
        cases Dict.get? d "samples" with
        | none => simp
        | some v =>
          simp only
          split_ifs
          · cases h3 : readData c fileM v bs2 with
            | error e =>
              simp only
              rintro he
              injection he with he
              exact readData_rounds hc _ _ _ (he ▸ h3)
            | ok x => simp
          · simp
  · simp

theorem readStep_rounds (fileM : Dict (MVal F)) (bs : List UInt8) : readStep c fileM bs ≠ .error .rounds := by
  unfold readStep
  cases h1 : splitLine c bs with
  | error e =>
    simp only
    rintro he
    injection he with he
    exact splitLine_rounds c bs (he ▸ h1)
  | ok x =>
    obtain ⟨l, bs1⟩ := x
    simp only
    cases l.name with
    | some k => exact stepLine_rounds hc _ _ _
    | none =>
      simp only
      cases h2 : splitLine c bs1 with
      | error e =>
        simp only
        rintro he
        injection he with he
        exact splitLine_rounds c bs1 (he ▸ h2)
      | ok y => exact stepLine_rounds hc _ _ _

theorem readSteps_rounds (fileM : Dict (MVal F)) (n : ℕ) (bs : List UInt8) : readSteps c fileM n bs ≠ .error .rounds := by
  induction n generalizing bs with
  | zero => simp [readSteps]
  | succ n ih =>
    rw [readSteps]
    cases h1 : readStep c fileM bs with
    | error e =>
      simp only
      rintro he
      injection he with he
      exact readStep_rounds hc _ bs (he ▸ h1)
    | ok x =>
      obtain ⟨s, bs1⟩ := x
      simp only
      cases h2 : readSteps c fileM n bs1 with
      | error e =>
        simp only
        rintro he
        injection he with he
        exact ih bs1 (he ▸ h2)
      | ok y => simp

theorem countOf_rounds (fileM : Dict (MVal F)) (name : String) : countOf fileM name ≠ .error .rounds := by
  unfold countOf
  rcases Dict.get? fileM name with _ | (v | _)
  · simp
  · exact rangeOf_rounds hc v
  · simp

theorem readRun_rounds (fileM : Dict (MVal F)) (bs : List UInt8) : readRun c fileM bs ≠ .error .rounds := by
  unfold readRun
  cases h1 : splitLine c bs with
  | error e =>
    simp only
    rintro he
    injection he with he
    exact splitLine_rounds c bs (he ▸ h1)
  | ok x =>
    obtain ⟨l, bs1⟩ := x
    simp only
    split_ifs
    · cases h2 : metaLoop c ((Alicona.readLine bs1).2.length + 1) (Alicona.readLine bs1).2 (Dict.set [] "run" l.value) with
      | error e =>
        simp only
        rintro he
        injection he with he
        exact metaLoop_rounds hc _ _ _ (by omega) (he ▸ h2)
      | ok x =>
        obtain ⟨d, bs2⟩ := x
        simp only
        cases h3 : countOf fileM "steps" with
        | error e =>
          simp only
          rintro he
          injection he with he
          exact countOf_rounds hc _ _ (he ▸ h3)
        | ok n =>
          simp only
          cases h4 : readSteps c fileM n bs2 with
          | error e =>
            simp only
            rintro he
            injection he with he
            exact readSteps_rounds hc _ _ _ (he ▸ h4)
          | ok y => simp
    · simp

/-- Every file is read to the end or is an error: the loops without a fixed number of rounds end, at the latest at the end of the file. -/
theorem C115_ends (bs : List UInt8) : readFile c bs ≠ .error .rounds := by
  have hruns : ∀ (fileM : Dict (MVal F)) (n : ℕ) (bs : List UInt8), readRuns c fileM n bs ≠ .error .rounds := by
    intro fileM n
    induction n with
    | zero => intro bs; simp [readRuns]
    | succ n ih =>
      intro bs
      rw [readRuns]
      cases h1 : readRun c fileM bs with
      | error e =>
        simp only
        rintro he
        injection he with he
        exact readRun_rounds hc _ bs (he ▸ h1)
      | ok x =>
        obtain ⟨s, bs1⟩ := x
        simp only
        cases h2 : readRuns c fileM n bs1 with
        | error e =>
          simp only
          rintro he
          injection he with he
          exact ih bs1 (he ▸ h2)
        | ok y => simp
  unfold readFile
  cases h1 : fileMeta c (bs.length + 1) bs [] with
  | error e =>
    simp only
    rintro he
    injection he with he
    exact fileMeta_rounds hc _ _ _ (by omega) (he ▸ h1)
  | ok x =>
    obtain ⟨d, bs1⟩ := x
    simp only
    cases h2 : countOf d "runs" with
    | error e =>
      simp only
      rintro he
      injection he with he
      exact countOf_rounds hc _ _ (he ▸ h2)
    | ok n =>
      simp only
      cases h3 : readRuns c d n bs1 with
      | error e =>
        simp only
        rintro he
        injection he with he
        exact hruns _ _ _ (he ▸ h3)
      | ok y => simp

end Ends

theorem readSample_length (c : Conv F) : ∀ (chans : List (String × Val F)) (_ : ∀ x ∈ chans, x.2 = .int 8) (bs : List UInt8) (d : Dict (List F)),
    (bs.length < 8 * chans.length → readSample c chans bs d = .error .struct) ∧ ∀ d' bs', readSample c chans bs d = .ok (d', bs') → bs'.length + 8 * chans.length = bs.length := by
  intro chans
  induction chans with
  | nil =>
    intro _ bs d
    refine ⟨fun h => by simp at h, fun d' bs' h => ?_⟩
    rw [readSample] at h
    injection h with h
    injection h with _ h
    rw [h]
    rfl
  | cons x chans ih =>
    obtain ⟨name, len⟩ := x
    intro hx bs d
    have hlen : len = .int 8 := hx (name, len) (by simp)
    subst hlen
    rw [readSample]
    by_cases h8 : 8 ≤ bs.length
    · have hv : readValue c (.int 8) bs = .ok (c.double (bs.take 8), bs.drop 8) := by
        have := readValue_eight c (v := bs.take 8) (by simp [h8]) (bs.drop 8)
        rwa [List.take_append_drop] at this
      rw [hv]
      simp only
      obtain ⟨h1, h2⟩ := ih (fun x hx' => hx x (by simp [hx'])) (bs.drop 8) (Dict.set d name ((Dict.get? d name).getD [] ++ [c.double (bs.take 8)]))
      refine ⟨fun h => h1 ?_, fun d' bs' h => ?_⟩
      · rw [List.length_drop]
        rw [List.length_cons] at h
        omega
      · have := h2 d' bs' h
        rw [List.length_drop] at this
        rw [List.length_cons]
        omega
    · have hv : readValue c (.int 8) bs = .error .struct := by
        unfold readValue
        simp only
        rw [if_pos (by decide), if_neg]
        rw [List.length_take]
        omega
      rw [hv]
      exact ⟨fun _ => rfl, fun d' bs' h => by cases h⟩

/-- A file that ends before the last value of the samples is an error: no sample is made up or left out. -/
theorem C115_short (c : Conv F) {chans : List (String × Val F)} (hne : chans ≠ []) (hx : ∀ x ∈ chans, x.2 = .int 8) (n : ℕ) (bs : List UInt8) (d : Dict (List F))
    (h : bs.length < n * (8 * chans.length + 1) + 8 * chans.length) : readSamples c chans (n + 1) bs d = .error .struct := by
  have hpos : 0 < chans.length := List.length_pos_iff.2 hne
  induction n generalizing bs d with
  | zero =>
    rw [readSamples, (readSample_length c chans hx bs d).1 (by omega)]
  | succ n ih =>
    rw [readSamples]
    cases hs : readSample c chans bs d with
    | error e =>
      simp only
      by_cases hl : bs.length < 8 * chans.length
      · rw [(readSample_length c chans hx bs d).1 hl] at hs
        exact hs ▸ rfl
      · exfalso
        have hok : ∀ (chans : List (String × Val F)) (_ : ∀ x ∈ chans, x.2 = .int 8) (bs : List UInt8) (d : Dict (List F)), 8 * chans.length ≤ bs.length → ∃ y, readSample c chans bs d = .ok y := by
          intro chans
          induction chans with
          | nil => intro _ bs d _; exact ⟨_, rfl⟩
          | cons x chans ih =>
            obtain ⟨name, len⟩ := x
            intro hx bs d hb
            rw [List.length_cons] at hb
            have hlen : len = .int 8 := hx (name, len) (by simp)
            subst hlen
            have hv : readValue c (.int 8) bs = .ok (c.double (bs.take 8), bs.drop 8) := by
              have := readValue_eight c (v := bs.take 8) (by rw [List.length_take]; omega) (bs.drop 8)
              rwa [List.take_append_drop] at this
            rw [readSample, hv]
            exact ih (fun x hx' => hx x (by simp [hx'])) _ _ (by rw [List.length_drop]; omega)
        obtain ⟨y, hy⟩ := hok chans hx bs d (by omega)
        rw [hs] at hy
        cases hy
    | ok y =>
      obtain ⟨d1, bs1⟩ := y
      have := (readSample_length c chans hx bs d).2 d1 bs1 hs
      refine ih (bs1.drop 1) d1 ?_
      rw [List.length_drop]
      rw [Nat.add_mul] at h
      omega

/-! ## Examples -/

/-- ASCII text; numbers are natural numbers, lower case letter by letter. -/
def sampleConv : Conv ℕ where
  dec bs := some (bs.map (fun b => Char.ofNat b.toNat))
  int s := if s ≠ [] ∧ ∀ x ∈ s, '0' ≤ x ∧ x ≤ '9' then some (s.foldl (fun (n : ℤ) x => 10 * n + (x.toNat - 48 : ℕ)) 0) else none
  flt _ := none
  lower s := s.map Char.toLower
  double bs := bs.foldl (fun n b => 256 * n + b.toNat) 0
  isZero x := x == 0
  trunc x := .ok x

def sampleEnc (s : List Char) : List UInt8 := s.map (fun x => UInt8.ofNat x.toNat)

def Ascii (x : Char) : Prop := x.toNat < 128

theorem sample_encoding : Encoding sampleConv sampleEnc Ascii := by
  refine ⟨fun s hs => ?_, fun s hs hn => ⟨?_, fun b hb => ?_⟩, by unfold Ascii; decide⟩
  · show some _ = some _
    congr 1
    unfold sampleEnc
    rw [List.map_map]
    conv_rhs => rw [← List.map_id s]
    apply List.map_congr_left
    intro x hx
    have : x.toNat < 128 := hs x hx
    show Char.ofNat (UInt8.ofNat x.toNat).toNat = x
    rw [UInt8.toNat_ofNat', Nat.mod_eq_of_lt (by omega), Char.ofNat_toNat]
  · unfold sampleEnc
    rw [List.map_append]
    rfl
  · unfold sampleEnc at hb
    obtain ⟨x, hx, rfl⟩ := List.mem_map.1 hb
    have h128 : x.toNat < 128 := hs x hx
    intro e
    have e2 := congrArg UInt8.toNat e
    rw [UInt8.toNat_ofNat', Nat.mod_eq_of_lt (by omega)] at e2
    apply hn
    have : x = '\n' := by
      rw [← Char.ofNat_toNat x, e2]
      rfl
    rw [← this]
    exact hx

/-- A line of the example. -/
def ent (number name value : String) (n : ℤ) (v : Val ℕ) : Entry ℕ := ⟨['.'], ⟨0, number.toList, 1⟩, ⟨1, name.toList, 0⟩, ⟨1, value.toList, 0⟩, ['#', '\r'], n, v⟩

theorem ent_line {number name value : String} {n : ℤ} {v : Val ℕ}
    (h : (∀ x ∈ (ent number name value n v).chars, x.toNat < 128) ∧ '\n' ∉ (ent number name value n v).chars ∧
      (number.toList.head? ≠ some ' ' ∧ number.toList.getLast? ≠ some ' ') ∧ '#' ∉ number.toList ∧ (name.toList.head? ≠ some ' ' ∧ name.toList.getLast? ≠ some ' ') ∧ '#' ∉ name.toList ∧ '$' ∉ name.toList ∧
      (value.toList.head? ≠ some ' ' ∧ value.toList.getLast? ≠ some ' ') ∧ '#' ∉ value.toList ∧ '$' ∉ value.toList ∧ sampleConv.int number.toList = some n)
    (hm : Means sampleConv number.toList value.toList v) : (ent number name value n v).Line sampleConv Ascii :=
  ⟨h.1, h.2.1, by simp [ent], h.2.2.1, h.2.2.2.1, h.2.2.2.2.1, h.2.2.2.2.2.1, h.2.2.2.2.2.2.1, h.2.2.2.2.2.2.2.1, h.2.2.2.2.2.2.2.2.1, h.2.2.2.2.2.2.2.2.2.1, h.2.2.2.2.2.2.2.2.2.2, hm⟩

/-- The lines of the example. -/
def eRuns := ent "31" "Runs" "1" 31 (.int 1)
def eSteps := ent "31" "Steps" "1" 31 (.int 1)
def eArray := ent "31" "ChannelsArray" "2" 31 (.int 2)
def eLength := ent "31" "LengthInBytes" "8" 31 (.int 8)
def eFx := ent "30" "Name" "Fx" 30 (.str "Fx".toList)
def eFz := ent "30" "Name" "Fz" 30 (.str "Fz".toList)
def eType := ent "31" "Type" "1" 31 (.int 1)
def eStar := ent "30" "***" "" 30 .none
def eRun := ent "31" "Run" "1" 31 (.int 1)
def eTest := ent "31" "Test" "1" 31 (.int 1)
def eSamples := ent "28" "Samples" "2" 28 (.int 2)

theorem ok_int {number name value : String} {n z : ℤ}
    (h : (∀ x ∈ (ent number name value n (.int z)).chars, x.toNat < 128) ∧ '\n' ∉ (ent number name value n (.int z)).chars ∧
      (number.toList.head? ≠ some ' ' ∧ number.toList.getLast? ≠ some ' ') ∧ '#' ∉ number.toList ∧ (name.toList.head? ≠ some ' ' ∧ name.toList.getLast? ≠ some ' ') ∧ '#' ∉ name.toList ∧ '$' ∉ name.toList ∧
      (value.toList.head? ≠ some ' ' ∧ value.toList.getLast? ≠ some ' ') ∧ '#' ∉ value.toList ∧ '$' ∉ value.toList ∧ sampleConv.int number.toList = some n)
    (h1 : number.toList ∈ ["28".toList, "31".toList] ∧ value.toList ≠ [] ∧ sampleConv.int value.toList = some z) (h2 : ∃ x ∈ name.toList, x ≠ '*') : (ent number name value n (.int z)).Ok sampleConv Ascii :=
  ⟨ent_line h (.int h1.1 h1.2.1 h1.2.2), h2⟩

theorem ok_str {number name value : String} {n : ℤ}
    (h : (∀ x ∈ (ent number name value n (.str value.toList)).chars, x.toNat < 128) ∧ '\n' ∉ (ent number name value n (.str value.toList)).chars ∧
      (number.toList.head? ≠ some ' ' ∧ number.toList.getLast? ≠ some ' ') ∧ '#' ∉ number.toList ∧ (name.toList.head? ≠ some ' ' ∧ name.toList.getLast? ≠ some ' ') ∧ '#' ∉ name.toList ∧ '$' ∉ name.toList ∧
      (value.toList.head? ≠ some ' ' ∧ value.toList.getLast? ≠ some ' ') ∧ '#' ∉ value.toList ∧ '$' ∉ value.toList ∧ sampleConv.int number.toList = some n)
    (h1 : number.toList ∉ ["28".toList, "31".toList, "33".toList, "37".toList, "38".toList] ∧ value.toList ≠ []) (h2 : ∃ x ∈ name.toList, x ≠ '*') :
    (ent number name value n (.str value.toList)).Ok sampleConv Ascii :=
  ⟨ent_line h (.str h1.1 h1.2), h2⟩

theorem okRuns : eRuns.Ok sampleConv Ascii := ok_int (by decide +kernel) (by decide +kernel) (by decide +kernel)
theorem okSteps : eSteps.Ok sampleConv Ascii := ok_int (by decide +kernel) (by decide +kernel) (by decide +kernel)
theorem okArray : eArray.Ok sampleConv Ascii := ok_int (by decide +kernel) (by decide +kernel) (by decide +kernel)
theorem okLength : eLength.Ok sampleConv Ascii := ok_int (by decide +kernel) (by decide +kernel) (by decide +kernel)
theorem okFx : eFx.Ok sampleConv Ascii := ok_str (by decide +kernel) (by decide +kernel) (by decide +kernel)
theorem okFz : eFz.Ok sampleConv Ascii := ok_str (by decide +kernel) (by decide +kernel) (by decide +kernel)
theorem okType : eType.Ok sampleConv Ascii := ok_int (by decide +kernel) (by decide +kernel) (by decide +kernel)
theorem okRun : eRun.Ok sampleConv Ascii := ok_int (by decide +kernel) (by decide +kernel) (by decide +kernel)
theorem okTest : eTest.Ok sampleConv Ascii := ok_int (by decide +kernel) (by decide +kernel) (by decide +kernel)
theorem okSamples : eSamples.Ok sampleConv Ascii := ok_int (by decide +kernel) (by decide +kernel) (by decide +kernel)
theorem okStar : eStar.Star sampleConv Ascii := ⟨ent_line (by decide +kernel) (.blank _), by decide +kernel⟩

/-- Two channels and one step with two samples. -/
def sampleFile : FileSpec ℕ where
  before := [eRuns, eSteps]
  array := eArray
  channels := [⟨[eLength, eFx], eType⟩, ⟨[eFz, eLength], eType⟩]
  after := []
  star := eStar
  runs := [⟨eRun, [13], [], eStar, [⟨[], eTest, [eSamples], eStar, [], eStar, [⟨[[0, 0, 0, 0, 0, 0, 0, 1], [0, 0, 0, 0, 0, 0, 0, 10]], 10⟩, ⟨[[0, 0, 0, 0, 0, 0, 0, 2], [0, 0, 0, 0, 0, 0, 1, 0]], 10⟩]⟩]⟩]

theorem sampleFile_ok : sampleFile.Ok sampleConv Ascii ["Fx", "Fz"] 1 where
  before := by
    intro e he
    rcases List.mem_cons.1 he with rfl | he
    · exact ⟨okRuns, by decide +kernel⟩
    · rw [List.mem_singleton.1 he]
      exact ⟨okSteps, by decide +kernel⟩
  array := okArray
  arrayKey := by decide +kernel
  arrayVal := rfl
  channels := by
    intro s hs
    rcases List.mem_cons.1 hs with rfl | hs
    · refine ⟨fun e he => ?_, okType, by decide +kernel⟩
      rcases List.mem_cons.1 he with rfl | he
      · exact ⟨okLength, by decide +kernel⟩
      · rw [List.mem_singleton.1 he]
        exact ⟨okFx, by decide +kernel⟩
    · rw [List.mem_singleton.1 hs]
      refine ⟨fun e he => ?_, okType, by decide +kernel⟩
      rcases List.mem_cons.1 he with rfl | he
      · exact ⟨okFz, by decide +kernel⟩
      · rw [List.mem_singleton.1 he]
        exact ⟨okLength, by decide +kernel⟩
  after := by intro e he; cases he
  star := okStar
  steps := by rfl
  number := by rfl
  runs := by
    intro r hr
    rw [List.mem_singleton.1 hr]
    refine ⟨okRun, by decide +kernel, by decide +kernel, (fun e he => by cases he), okStar, rfl, fun s hs => ?_⟩
    rw [List.mem_singleton.1 hs]
    refine ⟨⟨by decide, (fun e he => by cases he)⟩, okTest, by decide +kernel, fun e he => ?_, okStar, (fun e he => by cases he), okStar, by unfold Sample.Ok; decide +kernel, ⟨.int 2, by decide +kernel, .int 2⟩⟩
    rw [List.mem_singleton.1 he]
    exact okSamples
  lengths := by decide +kernel
  names := by decide +kernel

/-- The file of the example, whose lines meet the hypotheses of `C113_line` and `C113_stars`. -/
example : ∃ r, readFile sampleConv (sampleFile.bytes sampleEnc ++ []) = .ok r ∧ List.Forall₂ (RunIs sampleConv ["Fx", "Fz"]) sampleFile.runs r.runs :=
  (C114_file sample_encoding sampleFile_ok []).imp (fun _ h => ⟨h.1, h.2.2.2⟩)

/-- The second channel of the example (`C114_data_partial`). -/
example : column sampleConv ["Fx", "Fz"] [⟨[[0, 0, 0, 0, 0, 0, 0, 1], [0, 0, 0, 0, 0, 0, 0, 10]], 10⟩, ⟨[[0, 0, 0, 0, 0, 0, 0, 2], [0, 0, 0, 0, 0, 0, 1, 0]], 10⟩] "Fz" = [10, 256] := by decide +kernel

/-- Two channels of the same name; the values are mixed (`C114_same_name_wrong`). -/
example : column sampleConv ["Fx", "Fx"] [⟨[[1], [2]], 10⟩, ⟨[[3], [4]], 10⟩] "Fx" = [1, 2, 3, 4] := by decide +kernel

/-- The hypotheses of `C114_length_wrong`. -/
example : (0 : ℤ) ≤ 4 ∧ (4 : ℤ) ≠ 8 ∧ [(1 : UInt8), 2, 3, 4, 10].length ≠ 8 := by decide

/-- A text value with both marks (`C113_hash_wrong`, `C113_dollar_wrong`). -/
example : (parseLine sampleConv "#30#name$a#b$c$".toList).map Line.value = .ok (.str "ab".toList) ∧ '#' ∉ "30".toList ∧ '$' ∉ "name".toList ∧ sampleConv.int (strip ' ' "30".toList) = some 30 ∧
    convert sampleConv (strip ' ' "30".toList) (strip ' ' ("ab".toList.filter (fun x => x ≠ '#'))) = .ok (.str "ab".toList) := by decide +kernel

example : sampleConv.dec [] = some [] := rfl

/-- A file with the second of two samples cut. -/
example : [("Fx", (Val.int 8 : Val ℕ))] ≠ [] ∧ (∀ x ∈ [("Fx", (Val.int 8 : Val ℕ))], x.2 = .int 8) ∧ [(1 : UInt8), 2, 3, 4, 5, 6, 7, 8, 10, 1, 2].length < 1 * (8 * 1 + 1) + 8 * 1 := by decide +kernel

/-- A step with samples in a file without channels is a `KeyError`; the samples are a number other than zero or a text that is not empty. -/
theorem C115_no_channels (c : Conv F) {fileM : Dict (MVal F)} (h : Dict.get? fileM "channels" = none) {value : Val F} {bs bs1 bs2 : List UInt8} {d1 d : Dict (Val F)}
    (h1 : metaLoop c (bs.length + 1) bs (Dict.set [] "test" value) = .ok (d1, bs1)) (h2 : metaLoop c (bs1.length + 1) bs1 d1 = .ok (d, bs2)) {s : Val F} (hs : Dict.get? d "samples" = some s)
    (ht : (∃ z : ℤ, z ≠ 0 ∧ s = .int z) ∨ ∃ t : List Char, t ≠ [] ∧ s = .str t) : stepBody c fileM value bs = .error (.py .keyError) := by
  unfold stepBody
  rw [h1]
  dsimp only
  rw [h2]
  dsimp only
  rw [hs]
  dsimp only
  have : truthy c s = true := by
    rcases ht with ⟨z, hz, rfl⟩ | ⟨t, ht, rfl⟩
    · simpa [truthy] using hz
    · simpa [truthy] using ht
  rw [if_pos this]
  unfold readData
  rw [h]

/-- The step of the example in a file without channels (`C115_no_channels`). -/
example : stepBody sampleConv ([] : Dict (MVal ℕ)) (.int 1) (linesOf sampleEnc [eSamples] ++ (eStar.bytes sampleEnc ++ (linesOf sampleEnc ([] : List (Entry ℕ)) ++ (eStar.bytes sampleEnc ++ [])))) = .error (.py .keyError) :=
  C115_no_channels sampleConv rfl
    (metaLoop_entries sample_encoding (fun e he => List.mem_singleton.1 he ▸ okSamples) okStar _ _) (metaLoop_entries sample_encoding (fun _ he => absurd he List.not_mem_nil) okStar _ _)
    (s := .int 2) (by decide +kernel) (Or.inl ⟨2, by decide, rfl⟩)

theorem channelsOf_append {chs : List (Channel F)} (h : ∀ x ∈ chs, ∃ y, channelOf x = .ok y) {ch : Channel F} {e : Err} (hc : channelOf ch = .error e) (rest : List (Channel F)) :
    channelsOf (chs ++ ch :: rest) = .error e := by
  induction chs with
  | nil => rw [List.nil_append, channelsOf, hc]
  | cons a chs ih =>
    obtain ⟨y, hy⟩ := h a (by simp)
    rw [List.cons_append, channelsOf, hy]
    dsimp only
    rw [ih fun x hx => h x (by simp [hx])]

/-- A channel without a name or without a length is a `KeyError` for the first step with samples. -/
theorem C115_channel (c : Conv F) {fileM : Dict (MVal F)} {chs rest : List (Channel F)} {ch : Channel F} (h : Dict.get? fileM "channels" = some (.channels (chs ++ ch :: rest)))
    (hok : ∀ x ∈ chs, ∃ y, channelOf x = .ok y) (hch : Dict.get? ch.named "lengthinbytes" = none ∨ Dict.get? ch.named "name" = none) (samples : Val F) (bs : List UInt8) :
    readData c fileM samples bs = .error (.py .keyError) := by
  unfold readData
  rw [h]
  dsimp only
  rw [channelsOf_append hok (e := .py .keyError)]
  unfold channelOf
  rcases hch with hch | hch
  · rw [hch]
  · rw [hch]
    cases Dict.get? ch.named "lengthinbytes" <;> rfl

/-- A number of samples that is a text without a whole number is a `ValueError`, and one that is negative reads no sample. -/
theorem C115_count (c : Conv F) {fileM : Dict (MVal F)} {chs : List (Channel F)} (h : Dict.get? fileM "channels" = some (.channels chs)) {chans : List (String × Val F)} (hc : channelsOf chs = .ok chans) (bs : List UInt8) :
    (∀ s, c.int s = none → readData c fileM (.str s) bs = .error (.py .valueError)) ∧ ∀ z : ℤ, z ≤ 0 → readData c fileM (.int z) bs = .ok (emptyData chans, bs) := by
  unfold readData
  rw [h]
  dsimp only
  rw [hc]
  dsimp only
  constructor
  · intro s hs
    simp [intOf, hs]
  · intro z hz
    simp only [intOf]
    rw [Int.toNat_of_nonpos hz, readSamples]

/-- No channels: the count is used before. -/
example (c : Conv F) (bs : List UInt8) := (C115_count c (fileM := [("channels", .channels [])]) (chs := []) rfl (chans := []) rfl bs).2 (-1) (by decide)

/-- A line of stars in the description of a channel is kept, under the key `None`. -/
theorem C114_channel_stars (c : Conv F) {n : ℕ} {bs bs1 bs2 : List UInt8} {k k' : ℤ} {v t : Val F} (h1 : splitLine c bs = .ok (⟨k, none, v⟩, bs1)) (h2 : splitLine c bs1 = .ok (⟨k', some "type", t⟩, bs2)) (ch : Channel F) :
    readChannel c (n + 2) bs ch = .ok (⟨Dict.set ch.named "type" t, some v⟩, bs2) := by
  rw [readChannel, h1]
  dsimp only
  rw [readChannel, h2]
  simp

/-- A file with one channel that has no length (`C115_channel`). -/
example : Dict.get? ([("channels", .channels [⟨[("name", .str ['a'])], none⟩])] : Dict (MVal ℕ)) "channels" = some (.channels ([] ++ ⟨[("name", .str ['a'])], none⟩ :: [])) ∧
    Dict.get? (⟨[("name", .str ['a'])], none⟩ : Channel ℕ).named "lengthinbytes" = none := by
  constructor <;> rfl

end Verif.Tst
