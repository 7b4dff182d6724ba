import Verif.Alicona.Model
import Mathlib.Tactic.Common
import Mathlib.Tactic.Linarith
import Mathlib.Tactic.Ring
import Mathlib.Data.List.Basic
import Mathlib.Data.Int.Init
import Mathlib.Algebra.Order.Ring.Int

/-!
# Reading al3d files (C108, C109)
-/

namespace Verif.Alicona

open Verif

variable {X F Img : Type}

/-! ## Specification: how a file is written -/

/-- A tag: name and value. -/
structure Entry where
  name : List UInt8
  value : List UInt8

/-- Bytes that may be part of a name or a value: no zeros and line feeds. -/
def Plain (bs : List UInt8) : Prop := ∀ b ∈ bs, b ≠ 0 ∧ b ≠ 10

structure Entry.Ok (e : Entry) : Prop where
  name : Plain e.name
  value : Plain e.value
  short : e.name.length ≤ 20

/-- Zeros at the end up to `n` bytes. -/
def pad (n : ℕ) (bs : List UInt8) : List UInt8 := bs ++ List.replicate (n - bs.length) 0

/-- A line: the name in 20 bytes, the value in 30 bytes and the line end, which is a line feed after the bytes `extra` (a carriage return or nothing). -/
def Entry.line (extra : List UInt8) (e : Entry) : List UInt8 := pad 20 e.name ++ pad 30 e.value ++ extra ++ [10]

/-- A file: the header and the rest. -/
structure File where
  type : List UInt8
  version : Entry
  count : Entry
  entries : List Entry
  comment : Entry
  rest : List UInt8

def File.bytes (extra : List UInt8) (f : File) : List UInt8 :=
  (f.type ++ [0] ++ extra ++ [10]) ++ f.version.line extra ++ f.count.line extra ++ (f.entries.map (Entry.line extra)).flatten ++ f.comment.line extra ++ f.rest

structure File.Ok (f : File) : Prop where
  type : Plain f.type
  version : f.version.Ok
  count : f.count.Ok
  entries : ∀ e ∈ f.entries, e.Ok
  comment : f.comment.Ok
  distinct : (f.entries.map (fun e => decode e.name)).Nodup
  free : ∀ e ∈ f.entries, decode e.name ∉ ["Type", "Version", "TagCount", "Comment"]

/-! ## The header -/

theorem readLine_append {l : List UInt8} (h : ∀ b ∈ l, b ≠ 10) (rest : List UInt8) : readLine (l ++ 10 :: rest) = (l ++ [10], rest) := by
  have h1 : (l ++ 10 :: rest).takeWhile (fun b => b ≠ 10) = l := by
    rw [List.takeWhile_append_of_pos (by intro b hb; simpa using h b hb)]
    simp
  unfold readLine
  simp only [h1]
  have e : l ++ 10 :: rest = (l ++ [10]) ++ rest := by simp
  have hl : l.length + 1 = (l ++ [10]).length := by simp
  rw [e, hl, List.take_left, List.drop_left]

theorem pad_no_feed {bs : List UInt8} (h : Plain bs) (n : ℕ) : ∀ b ∈ pad n bs, b ≠ 10 := by
  intro b hb
  unfold pad at hb
  rcases List.mem_append.1 hb with hb | hb
  · exact (h b hb).2
  · rw [(List.mem_replicate.1 hb).2]
    decide

theorem filter_pad {bs : List UInt8} (h : Plain bs) (n : ℕ) : (pad n bs).filter (fun b => b ≠ 0) = bs := by
  unfold pad
  rw [List.filter_append, List.filter_eq_self.2 (by intro b hb; simpa using (h b hb).1), List.filter_eq_nil_iff.2, List.append_nil]
  intro b hb
  rw [(List.mem_replicate.1 hb).2]
  simp

theorem readLine_line {extra : List UInt8} (hx : Plain extra) {e : Entry} (h : e.Ok) (rest : List UInt8) : readLine (e.line extra ++ rest) = (e.line extra, rest) := by
  have := readLine_append (l := pad 20 e.name ++ pad 30 e.value ++ extra) (by
    intro b hb
    rcases List.mem_append.1 hb with hb | hb
    · rcases List.mem_append.1 hb with hb | hb
      · exact pad_no_feed h.name 20 b hb
      · exact pad_no_feed h.value 30 b hb
    · exact (hx b hb).2) rest
  unfold Entry.line
  simpa using this

theorem length_pad {bs : List UInt8} {n : ℕ} (h : bs.length ≤ n) : (pad n bs).length = n := by
  unfold pad
  simp
  omega

theorem nameField_line {extra : List UInt8} {e : Entry} (h : e.Ok) : nameField (e.line extra) = decode e.name := by
  unfold nameField Entry.line
  rw [List.append_assoc, List.append_assoc, List.take_left' (length_pad h.short), filter_pad h.name]

theorem valueField_line {extra : List UInt8} (hx : Plain extra) {e : Entry} (h : e.Ok) : valueField (e.line extra) = decode (e.value ++ extra) := by
  unfold valueField Entry.line
  rw [List.dropLast_concat, List.append_assoc, List.drop_left' (length_pad h.short), List.filter_append, filter_pad h.value, List.filter_eq_self.2]
  intro b hb
  simpa using (hx b hb).1

theorem readTags_lines (c : Conv X F) {extra : List UInt8} (hx : Plain extra) (rest : List UInt8) : ∀ (es : List Entry) (tags : Dict (Val X)), (∀ e ∈ es, e.Ok) →
    readTags c es.length ((es.map (Entry.line extra)).flatten ++ rest) tags = (rest, es.foldl (fun t e => Dict.set t (decode e.name) (tagValue c (decode (e.value ++ extra)))) tags) := by
  intro es
  induction es with
  | nil => intro tags _; rfl
  | cons e es ih =>
    intro tags h
    simp only [List.length_cons, readTags, List.map_cons, List.flatten_cons, List.append_assoc, readLine_line hx (h e (by simp)), nameField_line (h e (by simp)), valueField_line hx (h e (by simp)),
      List.foldl_cons]
    exact ih _ (fun e' he' => h e' (by simp [he']))

theorem fold_get_other (g : Entry → Val X) (k : String) : ∀ (es : List Entry) (tags : Dict (Val X)), (∀ e ∈ es, decode e.name ≠ k) →
    Dict.get? (es.foldl (fun t e => Dict.set t (decode e.name) (g e)) tags) k = Dict.get? tags k := by
  intro es
  induction es with
  | nil => intro tags _; rfl
  | cons e es ih =>
    intro tags h
    rw [List.foldl_cons, ih _ (fun e' he' => h e' (by simp [he'])), Dict.get?_set, if_neg (fun hk => h e (by simp) hk.symm)]

theorem fold_get (g : Entry → Val X) : ∀ (es : List Entry) (tags : Dict (Val X)), (es.map (fun e => decode e.name)).Nodup → ∀ e ∈ es,
    Dict.get? (es.foldl (fun t e => Dict.set t (decode e.name) (g e)) tags) (decode e.name) = some (g e) := by
  intro es
  induction es with
  | nil => intro tags _ e he; cases he
  | cons e es ih =>
    intro tags h e' he'
    rw [List.map_cons, List.nodup_cons] at h
    rw [List.foldl_cons]
    rcases List.mem_cons.1 he' with rfl | he'
    · rw [fold_get_other g _ es _ (fun e2 he2 hk => h.1 (List.mem_map.2 ⟨e2, he2, hk⟩)), Dict.get?_set, if_pos rfl]
    · exact ih _ h.2 e' he'

/-- The value of a text: a whole number if it is one, else a number if it is one, else the text. -/
structure IsValue (c : Conv X F) (s : String) (v : Val X) : Prop where
  int : ∀ z, c.int s = some z → v = .int z
  flt : ∀ x, c.int s = none → c.flt s = some x → v = .flt x
  text : c.int s = none → c.flt s = none → v = .str s

theorem tagValue_isValue (c : Conv X F) (s : String) : IsValue c s (tagValue c s) := by
  refine ⟨fun z h => ?_, fun x h h' => ?_, fun h h' => ?_⟩ <;> unfold tagValue <;> rw [h] <;> dsimp only <;> rw [h']

/-- The tags of a file are read: each one has the number or the text that was written, followed by the bytes before the line feed. -/
theorem C108_header (c : Conv X F) {extra : List UInt8} (hx : Plain extra) {f : File} (hf : f.Ok) {v : ℤ} (hv : c.int (decode (f.version.value ++ extra)) = some v)
    (hn : c.int (decode (f.count.value ++ extra)) = some (f.entries.length : ℤ)) :
    ∃ tags, header c (f.bytes extra) = .ok tags ∧ Dict.get? tags "Type" = some (.str (decode f.type)) ∧ Dict.get? tags "Version" = some (.int v) ∧
      Dict.get? tags "TagCount" = some (.int f.entries.length) ∧ Dict.get? tags "Comment" = some (.str (decode (f.comment.value ++ extra))) ∧
      ∀ e ∈ f.entries, ∃ v, Dict.get? tags (decode e.name) = some v ∧ IsValue c (decode (e.value ++ extra)) v := by
  obtain ⟨h1, h2, h3, h4, h5, h6, h7⟩ := hf
  have l1 : readLine (f.bytes extra) = (f.type ++ [0] ++ extra ++ [10],
      f.version.line extra ++ (f.count.line extra ++ ((f.entries.map (Entry.line extra)).flatten ++ (f.comment.line extra ++ f.rest)))) := by
    have := readLine_append (l := f.type ++ [0] ++ extra) (by
      intro b hb
      rcases List.mem_append.1 hb with hb | hb
      · rcases List.mem_append.1 hb with hb | hb
        · exact (h1 b hb).2
        · rw [List.mem_singleton.1 hb]; decide
      · exact (hx b hb).2) (f.version.line extra ++ (f.count.line extra ++ ((f.entries.map (Entry.line extra)).flatten ++ (f.comment.line extra ++ f.rest))))
    unfold File.bytes
    simpa using this
  have ht : typeField (f.type ++ [0] ++ extra ++ [10]) = decode f.type := by
    unfold typeField
    rw [if_pos (by simp), List.append_assoc, List.append_assoc, List.takeWhile_append_of_pos (by intro b hb; simpa using (h1 b hb).1)]
    simp
  unfold header
  simp only [bind, Except.bind, pure, Except.pure, l1, ht, readLine_line hx h2, valueField_line hx h2, readLine_line hx h3, valueField_line hx h3, intField, hv, hn, Int.toNat_natCast,
    readTags_lines c hx _ f.entries _ h4, readLine_line hx h5, valueField_line hx h5]
  have hother : ∀ k ∈ ["Type", "Version", "TagCount", "Comment"], ∀ e ∈ f.entries, decode e.name ≠ k := fun k hk e he hek => h7 e he (hek ▸ hk)
  refine ⟨_, rfl, ?_, ?_, ?_, ?_, fun e he => ?_⟩
  · rw [Dict.get?_set, if_neg (by decide), fold_get_other _ _ _ _ (hother _ (by simp)), Dict.get?_set, if_neg (by decide), Dict.get?_set, if_neg (by decide), Dict.get?_set, if_pos rfl]
  · rw [Dict.get?_set, if_neg (by decide), fold_get_other _ _ _ _ (hother _ (by simp)), Dict.get?_set, if_neg (by decide), Dict.get?_set, if_pos rfl]
  · rw [Dict.get?_set, if_neg (by decide), fold_get_other _ _ _ _ (hother _ (by simp)), Dict.get?_set, if_pos rfl]
  · rw [Dict.get?_set, if_pos rfl]
  · exact ⟨_, by rw [Dict.get?_set, if_neg (hother _ (by simp) e he), fold_get _ _ _ h6 e he], tagValue_isValue c _⟩

/-- Not as written: with a carriage return before the line feed the text of a tag ends with it, so that the planes of a texture `0;1;2` are not recognised. -/
theorem C108_carriage_wrong (c : Conv X F) {f : File} (hf : f.Ok) {v : ℤ} (hv : c.int (decode (f.version.value ++ [13])) = some v)
    (hn : c.int (decode (f.count.value ++ [13])) = some (f.entries.length : ℤ)) {e : Entry} (he : e ∈ f.entries) (hname : decode e.name = "TexturePtr") (hvalue : decode e.value = "0;1;2")
    (hint : c.int "0;1;2\r" = none) (hflt : c.flt "0;1;2\r" = none) :
    ∃ tags, header c (f.bytes [13]) = .ok tags ∧ Dict.get? tags "TexturePtr" = some (.str "0;1;2\r") ∧ planes tags = .ok 1 := by
  obtain ⟨tags, h1, -, -, -, -, h2⟩ := C108_header c (extra := [13]) (by intro b hb; rw [List.mem_singleton.1 hb]; decide) hf hv hn
  obtain ⟨v', h3, h3'⟩ := h2 e he
  have hd : decode (e.value ++ [13]) = "0;1;2\r" := by
    have : decode (e.value ++ [13]) = decode e.value ++ "\r" := by
      unfold decode
      rw [List.map_append, String.ofList_append]
      rfl
    rw [this, hvalue]
    decide
  rw [hd] at h3'
  rw [hname, h3'.text hint hflt] at h3
  refine ⟨tags, h1, h3, ?_⟩
  unfold planes
  rw [h3]
  rfl

/-! ## The depth data -/

theorem roundDiv_exact {a d k : ℤ} (hd : 0 < d) (h1 : 2 * (a - k * d) < d) (h2 : -d < 2 * (a - k * d)) : roundDiv a d = k := by
  have hm := Int.emod_nonneg a hd.ne'
  have hm' := Int.emod_lt_of_pos a hd
  have he := Int.mul_ediv_add_emod a d
  unfold roundDiv
  have key : a / d = k ∨ a / d = k - 1 := by
    have l1 : a / d < k + 1 := by
      by_contra hc
      push_neg at hc
      nlinarith
    have l2 : k - 2 < a / d := by
      by_contra hc
      push_neg at hc
      nlinarith
    omega
  rcases key with hk | hk <;> rw [hk] at he ⊢
  · have hlt : 2 * (a % d) < d := by nlinarith
    rw [if_pos hlt]
  · have hgt : d < 2 * (a % d) := by nlinarith
    rw [if_neg (by omega), if_pos hgt]
    omega

theorem roundDiv_ge {a d k : ℤ} (hd : 0 < d) (h : (2 * k - 1) * d < 2 * a) : k ≤ roundDiv a d := by
  have hm := Int.emod_nonneg a hd.ne'
  have hm' := Int.emod_lt_of_pos a hd
  have he := Int.mul_ediv_add_emod a d
  unfold roundDiv
  have hk : k - 1 ≤ a / d := by
    by_contra hc
    push_neg at hc
    nlinarith
  have hk2 : 2 * (a % d) ≤ d → k ≤ a / d := by
    intro h2
    by_contra hc
    push_neg at hc
    have : a / d = k - 1 := by omega
    rw [this] at he
    nlinarith
  split_ifs with h1 h2 h3
  · exact hk2 (by omega)
  · omega
  · exact hk2 (by omega)
  · omega

/-- The columns of a file without texture: the depth data to the end of the file, with less than half a column more. -/
theorem columns_end {rows stride off trail : ℕ} (hr : 0 < rows) (ht : trail < 2 * rows) : columns (X := X) rows (off + 4 * rows * stride + trail) off (.int 0) = .ok (stride : ℤ) := by
  have hd : (0 : ℤ) < 4 * rows := by omega
  have h : roundDiv (((off + 4 * rows * stride + trail : ℕ) : ℤ) - off) (4 * rows) = stride := by
    apply roundDiv_exact hd
    · push_cast
      ring_nf
      omega
    · push_cast
      ring_nf
      omega
  unfold columns
  dsimp only
  rw [if_neg (by omega), if_pos rfl, h]

/-- The depth data of a file without icon and texture: rows of `stride` numbers that start at the offset, of which the first ones are kept; invalid values are `nan`. -/
theorem C108_depth (c : Conv X F) (path : List Char) {fileName : List Char} (hname : fileName.count '.' = 1) (images : List Char → Option Img) {front data trail : List UInt8} {tags : Dict (Val X)}
    (hh : header c (front ++ data ++ trail) = .ok tags) {rows stride : ℕ} {cols iconOff : ℤ} {inv : Val X} (hr : 0 < rows) (hs : 0 < stride) (hc : 0 ≤ cols) (hi : iconOff ≤ 0)
    (t1 : Dict.get? tags "Rows" = some (.int rows)) (t2 : Dict.get? tags "Cols" = some (.int cols)) (t3 : Dict.get? tags "IconOffset" = some (.int iconOff))
    (t4 : Dict.get? tags "TextureImageOffset" = some (.int 0)) (t5 : Dict.get? tags "DepthImageOffset" = some (.int front.length)) (t6 : Dict.get? tags "InvalidPixelValue" = some inv)
    (hf : 0 < front.length) (hd : data.length = 4 * rows * stride) (ht : trail.length < 2 * rows) :
    ∃ r d, aliconaRead c path fileName (front ++ data ++ trail) images = .ok r ∧ r.header = tags ∧ r.depth = some d ∧ d.rows = rows ∧ d.cols = min stride cols.toNat ∧
      ∀ i j, i < rows → j < stride → d.value i j =
        if c.isInvalid (c.f32 ((data.drop (4 * (i * stride + j))).take 4)) inv then c.nan else c.f32 ((data.drop (4 * (i * stride + j))).take 4) := by
  have hlen : (front ++ data ++ trail).length = front.length + 4 * rows * stride + trail.length := by simp [hd]; omega
  have hcol := columns_end (X := X) (rows := rows) (stride := stride) (off := front.length) (trail := trail.length) hr ht
  have hdata : ((front ++ data ++ trail).drop front.length).take (rows * stride * 4) = data := by
    rw [List.append_assoc, List.drop_left]
    have : rows * stride * 4 = data.length := by rw [hd]; ring
    rw [this, List.take_left]
  have hread : readDepth c (front ++ data ++ trail) tags rows front.length stride = .ok ⟨rows, min stride cols.toNat, fun i j =>
      if c.isInvalid (c.f32 ((data.drop (4 * (i * stride + j))).take 4)) inv then c.nan else c.f32 ((data.drop (4 * (i * stride + j))).take 4)⟩ := by
    unfold readDepth
    rw [if_neg (by omega)]
    simp only [Int.toNat_natCast, hdata]
    have m1 : data.length % 4 = 0 := by rw [hd, Nat.mul_assoc]; exact Nat.mul_mod_right 4 _
    have m2 : data.length / 4 = rows * stride := by rw [hd, Nat.mul_assoc]; exact Nat.mul_div_cancel_left _ (by norm_num)
    simp only [bind, Except.bind, m1, m2, ne_eq, not_true_eq_false, if_false, tag, t6, colsTag, t2, keep, hc, if_true, pure, Except.pure]
  unfold aliconaRead baseName icon rowsOf depth texture offset
  simp only [bind, Except.bind, pure, Except.pure, hname, if_true, hh, tag, t1, t3, t4, t5, not_lt.2 hi, if_false, Int.natCast_pos.2 hf, Int.toNat_natCast, hlen, hcol, hread, lt_irrefl,
    not_lt.2 (Int.natCast_nonneg rows)]
  refine ⟨_, _, rfl, rfl, rfl, rfl, rfl, fun i j _ _ => rfl⟩

/-- Not as documented: a file with an icon is never read. -/
theorem C108_icon_wrong (c : Conv X F) (path fileName : List Char) (bs : List UInt8) (images : List Char → Option Img) {tags : Dict (Val X)} (hname : fileName.count '.' = 1) (hh : header c bs = .ok tags)
    {off : ℤ} (ho : 0 < off) (ht : Dict.get? tags "IconOffset" = some (.int off)) : ∃ e, aliconaRead c path fileName bs images = .error (.py e) := by
  unfold aliconaRead baseName icon offset iconInFile reshapeScalar
  simp only [bind, Except.bind, hname, if_true, hh, tag, ht, ho]
  cases c.toUint8 ((bs.drop off.toNat).take 22800) with
  | error e => exact ⟨e, rfl⟩
  | ok v => exact ⟨.valueError, rfl⟩

/-- The loop over the planes fails for more than one pixel. -/
theorem readPlanes_error (c : Conv X F) {cols : ℤ} {rows : ℕ} (h : cols * rows ≠ 1) (n : ℕ) (bs : List UInt8) : readPlanes c cols rows (n + 1) bs = .error (.py .valueError) := by
  unfold readPlanes plane reshapeScalar
  rw [if_neg h]
  rfl

/-- Not as documented: a file with a texture in it and more than one row is never read (whether the offset of the depth data is set or not). -/
theorem C108_texture_wrong (c : Conv X F) (path fileName : List Char) (bs : List UInt8) (images : List Char → Option Img) {tags : Dict (Val X)} (hh : header c bs = .ok tags) {off rows : ℤ}
    (ho : 0 < off) (hr : 2 ≤ rows) (t1 : Dict.get? tags "Rows" = some (.int rows)) (t4 : Dict.get? tags "TextureImageOffset" = some (.int off)) :
    ∀ r, aliconaRead c path fileName bs images ≠ .ok r := by
  intro r hrun
  have key : ∃ e, texture c bs tags images path (numberTag (fileName.takeWhile (fun ch => ch ≠ '.'))) rows.toNat = .error e := by
    unfold texture offset textureInFile
    simp only [bind, Except.bind, tag, t4, ho, if_true]
    cases hp : planes tags with
    | error e => exact ⟨e, rfl⟩
    | ok n =>
      dsimp only
      by_cases h1 : n * (rows.toNat : ℤ) = 0
      · rw [if_pos h1]; exact ⟨_, rfl⟩
      · rw [if_neg h1]
        by_cases h2 : truncDiv ((bs.length : ℤ) - off) (n * rows.toNat) < 0 ∨ n < 0
        · rw [if_pos h2]; exact ⟨_, rfl⟩
        · rw [if_neg h2]
          push_neg at h2
          have hn : n ≠ 0 := fun h => h1 (by rw [h]; ring)
          obtain ⟨m, hm⟩ : ∃ m : ℕ, n.toNat = m + 1 := ⟨n.toNat - 1, by omega⟩
          rw [hm]
          have hne : truncDiv ((bs.length : ℤ) - off) (n * rows.toNat) * (rows.toNat : ℤ) ≠ 1 := by
            intro h
            have h3 := h2.1
            have h4 : (2 : ℤ) ≤ rows.toNat := by omega
            generalize truncDiv ((bs.length : ℤ) - off) (n * rows.toNat) = q at h h3
            rcases eq_or_lt_of_le h3 with h5 | h5
            · rw [← h5] at h; omega
            · nlinarith
          rw [readPlanes_error c hne]
          exact ⟨_, rfl⟩
  obtain ⟨e, key⟩ := key
  unfold aliconaRead baseName at hrun
  split_ifs at hrun with hn
  · simp only [bind, Except.bind, hh] at hrun
    have hrows : rowsOf c tags = .ok rows.toNat := by
      unfold rowsOf
      simp only [bind, Except.bind, tag, t1]
      rw [if_neg (by omega)]
    rw [hrows] at hrun
    cases h1 : icon c bs tags images path (numberTag (fileName.takeWhile (fun ch => ch ≠ '.'))) with
    | error e => rw [h1] at hrun; cases hrun
    | ok ic =>
      rw [h1] at hrun
      dsimp only at hrun
      cases h2 : depth c bs tags rows.toNat with
      | error e => rw [h2] at hrun; cases hrun
      | ok d =>
        rw [h2] at hrun
        dsimp only at hrun
        rw [key] at hrun
        cases hrun
  · cases hrun

/-- Not as documented: with a texture directly after the depth data the number of columns is too large unless there are at least as many rows as bytes before the depth data, and right if there
are more rows. -/
theorem C108_columns_wrong {rows stride off : ℕ} (hr : 0 < rows) (length : ℕ) :
    (rows < off → ∃ k, columns (X := X) rows length off (.int ((off + 4 * rows * stride : ℕ) : ℤ)) = .ok k ∧ (stride : ℤ) < k) ∧
    (0 < off → off < rows → columns (X := X) rows length off (.int ((off + 4 * rows * stride : ℕ) : ℤ)) = .ok stride) := by
  have hd : (0 : ℤ) < 4 * rows := by omega
  constructor
  · intro ho
    refine ⟨roundDiv (((off + 4 * rows * stride : ℕ) : ℤ) - -(off : ℤ)) (4 * rows), ?_, ?_⟩
    · unfold columns
      have hne : ((off + 4 * rows * stride : ℕ) : ℤ) ≠ 0 := by
        rw [Int.natCast_ne_zero]
        omega
      dsimp only
      rw [if_neg (by omega), if_neg hne]
    · have : (stride : ℤ) + 1 ≤ roundDiv (((off + 4 * rows * stride : ℕ) : ℤ) - -(off : ℤ)) (4 * rows) := by
        apply roundDiv_ge hd
        push_cast
        have : (rows : ℤ) < off := by omega
        nlinarith
      omega
  · intro h0 ho
    unfold columns
    have hne : ((off + 4 * rows * stride : ℕ) : ℤ) ≠ 0 := by
      rw [Int.natCast_ne_zero]
      omega
    dsimp only
    rw [if_neg (by omega), if_neg hne, roundDiv_exact hd (k := stride)]
    · push_cast
      ring_nf
      omega
    · push_cast
      ring_nf
      omega

/-! ## Images beside the file -/

theorem dropWhile_digits {ds rest : List Char} (h : ∀ d ∈ ds, d.isDigit = true) (hr : ∀ ch ∈ rest.head?, ch.isDigit = false) :
    (ds ++ rest).takeWhile Char.isDigit = ds ∧ (ds ++ rest).dropWhile Char.isDigit = rest := by
  rw [List.takeWhile_append_of_pos h, List.dropWhile_append_of_pos h]
  cases rest with
  | nil => simp
  | cons a l =>
    have := hr a (by simp)
    simp [List.takeWhile_cons, List.dropWhile_cons, this]

/-- The number is the one in brackets or after a blank at the end of the name; without such a number it is empty. -/
theorem C109_number (base ds : List Char) (h : ∀ d ∈ ds, d.isDigit = true) : numberTag (base ++ '(' :: ds ++ [')']) = ds ∧ numberTag (base ++ ' ' :: ds) = ds := by
  have hrev : ∀ d ∈ ds.reverse, d.isDigit = true := fun d hd => h d (by simpa using hd)
  constructor
  · obtain ⟨h1, h2⟩ := dropWhile_digits (rest := '(' :: base.reverse) hrev (by simp)
    have e : (base ++ '(' :: ds ++ [')']).reverse = ')' :: (ds.reverse ++ '(' :: base.reverse) := by simp
    unfold numberTag
    rw [e]
    simp only [h1, h2, List.head?_cons, if_true, List.reverse_reverse]
  · obtain ⟨h1, h2⟩ := dropWhile_digits (rest := ' ' :: base.reverse) hrev (by simp)
    have e : (base ++ ' ' :: ds).reverse = ds.reverse ++ ' ' :: base.reverse := by simp
    have ha : afterBlank (ds.reverse ++ ' ' :: base.reverse) = ds := by
      unfold afterBlank
      rw [h1, h2]
      simp only [List.head?_cons, List.reverse_reverse]
      rfl
    unfold numberTag
    rw [e]
    split
    · rename_i r hr
      exfalso
      cases hds : ds.reverse with
      | nil => rw [hds] at hr; simp at hr
      | cons d l =>
        rw [hds] at hr
        simp only [List.cons_append, List.cons.injEq] at hr
        have := hrev d (by rw [hds]; simp)
        rw [hr.1] at this
        exact absurd this (by decide)
    · exact ha

/-- Not as documented: a number at the end of a name without a bracket or a blank is not found. -/
theorem C109_no_blank_wrong (base ds : List Char) (h : ∀ d ∈ ds, d.isDigit = true) {ch : Char} (h1 : ch.isWhitespace = false) (h2 : ch.isDigit = false) (h3 : ch ≠ ')') :
    numberTag (base ++ ch :: ds) = [] := by
  have hrev : ∀ d ∈ ds.reverse, d.isDigit = true := fun d hd => h d (by simpa using hd)
  obtain ⟨e1, e2⟩ := dropWhile_digits (rest := ch :: base.reverse) hrev (by simpa using h2)
  have e : (base ++ ch :: ds).reverse = ds.reverse ++ ch :: base.reverse := by simp
  have ha : afterBlank (ds.reverse ++ ch :: base.reverse) = [] := by
    unfold afterBlank
    rw [e2]
    simp only [List.head?_cons, h1, Bool.false_eq_true, if_false]
  unfold numberTag
  rw [e]
  split
  · rename_i r hr
    exfalso
    cases hds : ds.reverse with
    | nil =>
      rw [hds] at hr
      simp only [List.nil_append, List.cons.injEq] at hr
      exact h3 hr.1
    | cons d l =>
      rw [hds] at hr
      simp only [List.cons_append, List.cons.injEq] at hr
      have := hrev d (by rw [hds]; simp)
      rw [hr.1] at this
      exact absurd this (by decide)
  · exact ha

/-- What a run gives for the images, if the file itself has none: the ones named with the number directly after the kind, otherwise the ones without number. -/
theorem C109_images_partial (c : Conv X F) (path : List Char) {base ext : List Char} (hb : '.' ∉ base) (bs : List UInt8) (images : List Char → Option Img) {r : Data X F Img}
    (hrun : aliconaRead c path (base ++ '.' :: ext) bs images = .ok r) {io tx : ℤ} (hi : Dict.get? r.header "IconOffset" = some (.int io)) (hio : io ≤ 0)
    (ht : Dict.get? r.header "TextureImageOffset" = some (.int tx)) (hto : tx ≤ 0) :
    r.icon = (images (path ++ "/icon".toList ++ numberTag base ++ ".bmp".toList)).or (images (path ++ "/icon.bmp".toList)) ∧
    r.texture = ((images (path ++ "/texture".toList ++ numberTag base ++ ".bmp".toList)).or (images (path ++ "/texture.bmp".toList))).map .file := by
  have hbase : (base ++ '.' :: ext).takeWhile (fun ch => ch ≠ '.') = base := by
    rw [List.takeWhile_append_of_pos (by intro ch hch; simp only [ne_eq, decide_eq_true_eq]; rintro rfl; exact hb hch)]
    simp
  have hbes : ∀ kind number : List Char, beside images path kind number = (images (path ++ '/' :: (kind ++ number ++ ".bmp".toList))).or (images (path ++ '/' :: (kind ++ ".bmp".toList))) := by
    intro kind number
    unfold beside
    cases images (path ++ '/' :: (kind ++ number ++ ".bmp".toList)) <;> rfl
  unfold aliconaRead baseName at hrun
  split_ifs at hrun with hn
  · rw [hbase] at hrun
    simp only [bind, Except.bind] at hrun
    cases hh : header c bs with
    | error e => rw [hh] at hrun; cases hrun
    | ok tags =>
      rw [hh] at hrun
      dsimp only at hrun
      cases h1 : icon c bs tags images path (numberTag base) with
      | error e => rw [h1] at hrun; cases hrun
      | ok ic =>
        rw [h1] at hrun
        dsimp only at hrun
        cases h2 : rowsOf c tags with
        | error e => rw [h2] at hrun; cases hrun
        | ok rows =>
          rw [h2] at hrun
          dsimp only at hrun
          cases h3 : depth c bs tags rows with
          | error e => rw [h3] at hrun; cases hrun
          | ok d =>
            rw [h3] at hrun
            dsimp only at hrun
            cases h4 : texture c bs tags images path (numberTag base) rows with
            | error e => rw [h4] at hrun; cases hrun
            | ok tx =>
              rw [h4] at hrun
              injection hrun with hrun
              subst hrun
              dsimp only at hi ht ⊢
              unfold icon offset at h1
              unfold texture offset at h4
              simp only [bind, Except.bind, tag, hi, ht, not_lt.2 hio, not_lt.2 hto, if_false, pure, Except.pure, Except.ok.injEq] at h1 h4
              rw [← h1, ← h4, hbes, hbes]
              constructor <;> simp
  · cases hrun

/-- Not as documented: the image `texture (3).bmp` is not found for a file `base (3).al3d`. -/
theorem C109_documented_wrong (c : Conv X F) (path : List Char) {base : List Char} (hb : '.' ∉ base) (bs : List UInt8) (img : Img) {r : Data X F Img}
    (hrun : aliconaRead c path (base ++ " (3).al3d".toList) bs (fun p => if p = path ++ "/texture (3).bmp".toList then some img else none) = .ok r) {io tx : ℤ}
    (hi : Dict.get? r.header "IconOffset" = some (.int io)) (hio : io ≤ 0) (ht : Dict.get? r.header "TextureImageOffset" = some (.int tx)) (hto : tx ≤ 0) : r.texture = none := by
  have e : base ++ " (3).al3d".toList = (base ++ " (3)".toList) ++ '.' :: "al3d".toList := by simp
  rw [e] at hrun
  have h := (C109_images_partial c path (base := base ++ " (3)".toList) (by simpa using hb) bs _ hrun hi hio ht hto).2
  have hnum : numberTag (base ++ " (3)".toList) = ['3'] := by
    have := (C109_number (base ++ [' ']) ['3'] (by decide)).1
    simpa using this
  rw [hnum] at h
  rw [h, List.append_assoc, List.append_assoc, if_neg (by rw [List.append_cancel_left_eq]; decide), if_neg (by rw [List.append_cancel_left_eq]; decide)]
  rfl

/-- Not as documented: for a file in the current folder, given without a folder, the images are looked for in the root folder. -/
theorem C109_no_folder_wrong (c : Conv X F) {base ext : List Char} (hb : '.' ∉ base) (bs : List UInt8) (images : List Char → Option Img) {r : Data X F Img}
    (hroot : ∀ p, images ('/' :: p) = none)
    (hrun : aliconaRead c [] (base ++ '.' :: ext) bs images = .ok r) {io tx : ℤ} (hi : Dict.get? r.header "IconOffset" = some (.int io)) (hio : io ≤ 0)
    (ht : Dict.get? r.header "TextureImageOffset" = some (.int tx)) (hto : tx ≤ 0) : r.icon = none ∧ r.texture = none := by
  obtain ⟨h1, h2⟩ := C109_images_partial c [] hb bs images hrun hi hio ht hto
  have e1 : images ([] ++ "/icon".toList ++ numberTag base ++ ".bmp".toList) = none := hroot _
  have e2 : images ([] ++ "/texture".toList ++ numberTag base ++ ".bmp".toList) = none := hroot _
  have e3 : images ([] ++ "/icon.bmp".toList) = none := hroot _
  have e4 : images ([] ++ "/texture.bmp".toList) = none := hroot _
  rw [h1, h2, e1, e2, e3, e4]
  exact ⟨rfl, rfl⟩

/-- Not as documented: a file name with another dot is never read. -/
theorem C109_dots_wrong (c : Conv X F) (path : List Char) {fileName : List Char} (h : 2 ≤ fileName.count '.') (bs : List UInt8) (images : List Char → Option Img) :
    aliconaRead c path fileName bs images = .error (.py .valueError) := by
  unfold aliconaRead baseName
  rw [if_neg (by omega)]
  rfl

/-! ## Examples -/

/-- Text as bytes. -/
def ascii (s : String) : List UInt8 := s.toList.map (fun ch => UInt8.ofNat ch.toNat)

/-- A number from its digits. -/
def digits (l : List Char) : Option ℤ := if l ≠ [] ∧ l.all Char.isDigit then some ((l.foldl (fun n ch => 10 * n + (ch.toNat - 48)) 0 : ℕ) : ℤ) else none

/-- Conversions for the examples: whole numbers only, four bytes are a number to base 256. -/
def simpleConv : Conv ℕ ℕ where
  int := fun s => digits (s.toList.filter (fun ch => ch ≠ '\r'))
  flt := fun _ => none
  trunc := fun x => .ok x
  f32 := fun bs => bs.foldr (fun b n => b.toNat + 256 * n) 0
  nan := 7777
  isInvalid := fun x v => match v with
    | .int z => (x : ℤ) = z
    | _ => false
  toUint8 := fun _ => .error .valueError

/-- The header of a file with 2 rows and 2 columns. -/
def sample (icon texture depth : String) : File where
  type := ascii "AliconaImaging"
  version := ⟨ascii "Version", ascii "1"⟩
  count := ⟨ascii "TagCount", ascii "6"⟩
  entries := [⟨ascii "Rows", ascii "2"⟩, ⟨ascii "Cols", ascii "2"⟩, ⟨ascii "IconOffset", ascii icon⟩, ⟨ascii "TextureImageOffset", ascii texture⟩, ⟨ascii "DepthImageOffset", ascii depth⟩,
    ⟨ascii "InvalidPixelValue", ascii "9"⟩]
  comment := ⟨ascii "Comment", []⟩
  rest := []

instance (bs : List UInt8) : Decidable (Plain bs) := inferInstanceAs (Decidable (∀ b ∈ bs, _))

theorem entryOk {e : Entry} (h : Plain e.name ∧ Plain e.value ∧ e.name.length ≤ 20) : e.Ok := ⟨h.1, h.2.1, h.2.2⟩

theorem sampleOk : (sample "0" "0" "475").Ok :=
  ⟨by decide +kernel, entryOk (by decide +kernel), entryOk (by decide +kernel), fun e he => entryOk (by revert e; decide +kernel), entryOk (by decide +kernel), by decide +kernel, by decide +kernel⟩

/-- The header of the example is read. -/
theorem sampleHeader : ∃ tags, header simpleConv ((sample "0" "0" "475").bytes []) = .ok tags := by
  obtain ⟨tags, h, -⟩ := C108_header simpleConv (extra := []) (by intro b hb; cases hb) sampleOk (v := 1) (by decide +kernel) (by decide +kernel)
  exact ⟨tags, h⟩

/-- Rows of three numbers in the file, the last of which is padding: 1, 9 (invalid), 0; 3, 4, 0. -/
def sampleData : List UInt8 := [1, 0, 0, 0, 9, 0, 0, 0, 0, 0, 0, 0, 3, 0, 0, 0, 4, 0, 0, 0, 0, 0, 0, 0]

/-- The result of a run, without the tags. -/
def view (r : Except Err (Data ℕ ℕ ℕ)) : Option (Option (List (List ℕ)) × Option ℕ) := match r with
  | .ok d => some (d.depth.map (fun m => (List.range m.rows).map (fun i => (List.range m.cols).map (fun j => m.value i j))), d.icon)
  | .error _ => none

def failed (r : Except Err (Data ℕ ℕ ℕ)) : Option Err := match r with
  | .ok _ => none
  | .error e => some e

/-- The whole run: the depth data, and the icon beside the file (`C109_images_partial`). -/
example : view (aliconaRead simpleConv "/data".toList "scan (3).al3d".toList ((sample "0" "0" "475").bytes [] ++ sampleData ++ [0]) (fun p => if p = "/data/icon3.bmp".toList then some 5 else none)) =
    some (some [[1, 7777], [3, 4]], some 5) := by decide +kernel

/-- With carriage returns (the header is nine lines and a byte longer). -/
example : view (aliconaRead simpleConv "/data".toList "scan.al3d".toList ((sample "0" "0" "485").bytes [13] ++ sampleData) (fun p => if p = "/data/icon.bmp".toList then some 5 else none)) =
    some (some [[1, 7777], [3, 4]], some 5) := by decide +kernel

/-- With an icon (`C108_icon_wrong`). -/
example : failed (aliconaRead simpleConv "/data".toList "scan.al3d".toList ((sample "10" "0" "475").bytes [] ++ sampleData) (fun _ => none)) = some (.py .valueError) := by decide +kernel

/-- With a texture (`C108_texture_wrong`). -/
example : failed (aliconaRead simpleConv "/data".toList "scan.al3d".toList ((sample "0" "499" "475").bytes [] ++ sampleData ++ List.replicate 4 200) (fun _ => none)) = some (.py .valueError) := by decide +kernel

/-- The hypotheses of the theorem on depth data. -/
example : ∃ r d, aliconaRead simpleConv "/data".toList "scan.al3d".toList ((sample "0" "0" "475").bytes [] ++ sampleData ++ [0]) (fun _ => (none : Option ℕ)) = .ok r ∧ r.depth = some d ∧ d.rows = 2 ∧
    d.cols = 2 := by
  have hx : Plain [] := by intro b hb; cases hb
  have hrest : (sample "0" "0" "475").bytes [] ++ sampleData ++ [0] = ({ sample "0" "0" "475" with rest := sampleData ++ [0] } : File).bytes [] := by
    unfold File.bytes
    simp [sample]
  obtain ⟨tags, h1, -, -, -, -, h2⟩ := C108_header simpleConv (extra := []) hx (f := { sample "0" "0" "475" with rest := sampleData ++ [0] }) ⟨sampleOk.type, sampleOk.version, sampleOk.count,
    sampleOk.entries, sampleOk.comment, sampleOk.distinct, sampleOk.free⟩ (v := 1) (by decide +kernel) (by decide +kernel)
  rw [← hrest] at h1
  have ht : ∀ (name : String) (e : Entry) (z : ℤ), e ∈ (sample "0" "0" "475").entries → decode e.name = name → simpleConv.int (decode (e.value ++ [])) = some z → Dict.get? tags name = some (.int z) := by
    intro name e z he hn hz
    obtain ⟨v, h3, h4⟩ := h2 e he
    rw [← hn, h3, h4.int z hz]
  obtain ⟨r, d, e1, -, e2, e3, e4, -⟩ := C108_depth simpleConv "/data".toList (fileName := "scan.al3d".toList) (by decide +kernel) (fun _ => (none : Option ℕ)) (front := (sample "0" "0" "475").bytes [])
    (data := sampleData) (trail := [0]) h1 (rows := 2) (stride := 3) (cols := 2) (iconOff := 0) (inv := .int 9) (by decide) (by decide) (by decide) (by decide)
    (ht _ ⟨ascii "Rows", ascii "2"⟩ _ (by simp [sample]) (by decide +kernel) (by decide +kernel)) (ht _ ⟨ascii "Cols", ascii "2"⟩ _ (by simp [sample]) (by decide +kernel) (by decide +kernel))
    (ht _ ⟨ascii "IconOffset", ascii "0"⟩ _ (by simp [sample]) (by decide +kernel) (by decide +kernel))
    (ht _ ⟨ascii "TextureImageOffset", ascii "0"⟩ _ (by simp [sample]) (by decide +kernel) (by decide +kernel))
    (ht _ ⟨ascii "DepthImageOffset", ascii "475"⟩ _ (by simp [sample]) (by decide +kernel) (by decide +kernel))
    (ht _ ⟨ascii "InvalidPixelValue", ascii "9"⟩ _ (by simp [sample]) (by decide +kernel) (by decide +kernel)) (by decide +kernel) (by decide +kernel) (by decide)
  exact ⟨r, d, e1, e2, e3, e4⟩

/-- `C108_columns_wrong`, the columns with a texture: 100 bytes before 2 rows of 3 numbers give 28 columns. -/
example : columns (X := ℕ) 2 1000 100 (.int 124) = .ok 28 := by decide +kernel

/-- Numbers of file names (`C109_number`, `C109_no_blank_wrong`). -/
example : numberTag "scan (12)".toList = ['1', '2'] ∧ numberTag "scan 12".toList = ['1', '2'] ∧ numberTag "scan12".toList = [] ∧ numberTag "scan".toList = [] := by decide +kernel

/-- A texture `0;1;2` with carriage returns: the hypotheses of the theorem. -/
example : ∃ tags, header simpleConv (File.bytes [13] ⟨ascii "AliconaImaging", ⟨ascii "Version", ascii "1"⟩, ⟨ascii "TagCount", ascii "1"⟩, [⟨ascii "TexturePtr", ascii "0;1;2"⟩], ⟨ascii "Comment", []⟩, []⟩) = .ok tags ∧
    planes tags = .ok 1 := by
  obtain ⟨tags, h1, -, h2⟩ := C108_carriage_wrong simpleConv (f := ⟨ascii "AliconaImaging", ⟨ascii "Version", ascii "1"⟩, ⟨ascii "TagCount", ascii "1"⟩, [⟨ascii "TexturePtr", ascii "0;1;2"⟩],
    ⟨ascii "Comment", []⟩, []⟩) ⟨by decide +kernel, entryOk (by decide +kernel), entryOk (by decide +kernel), fun e he => entryOk (by rw [List.mem_singleton.1 he]; decide +kernel), entryOk (by decide +kernel),
      by decide +kernel, by decide +kernel⟩ (v := 1) (by decide +kernel) (by decide +kernel) (e := ⟨ascii "TexturePtr", ascii "0;1;2"⟩) (by simp) (by decide +kernel) (by decide +kernel) (by decide +kernel) rfl
  exact ⟨tags, h1, h2⟩

/-- The run of `C109_documented_wrong`. -/
example : (view (aliconaRead simpleConv "/data".toList ("scan".toList ++ " (3).al3d".toList) ((sample "0" "0" "475").bytes [] ++ sampleData) (fun p => if p = "/data".toList ++ "/texture (3).bmp".toList then some 5 else none))).isSome = true := by
  decide +kernel

/-- Images: the documented name of an icon. -/
example : view (aliconaRead simpleConv "/data".toList "scan (3).al3d".toList ((sample "0" "0" "475").bytes [] ++ sampleData) (fun p => if p = "/data/icon (3).bmp".toList then some 5 else none)) =
    some (some [[1, 7777], [3, 4]], none) := by decide +kernel

/-- A name without folder (`C109_no_folder_wrong`). -/
example : view (aliconaRead simpleConv [] "scan.al3d".toList ((sample "0" "0" "475").bytes [] ++ sampleData) (fun p => if p = "icon.bmp".toList then some 5 else none)) =
    some (some [[1, 7777], [3, 4]], none) := by decide +kernel

/-- A name with two dots. -/
example : failed (aliconaRead simpleConv "/data".toList "scan.1.al3d".toList ((sample "0" "0" "475").bytes [] ++ sampleData) (fun _ => none)) = some (.py .valueError) := by decide +kernel

end Verif.Alicona
