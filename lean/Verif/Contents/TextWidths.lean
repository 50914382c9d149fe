import Verif.Contents.TextPositions

set_option autoImplicit false

/-! # Lengths of extracted text and the space between strings

`GetLength` of a vector takes a square root; the model keeps to text and pages that are not rotated, where the vectors are horizontal and their length is an
absolute value. The numbers are exact. -/

namespace Pdfmm

/-- The length of a horizontal vector, `Vector2::GetLength`, `src/pdfmm/base/PdfMath.cpp:191-194`. -/
def absR (x : Rat) : Rat := if x < 0 then -x else x

/-- `StatefulString` as far as lengths go, `src/pdfmm/base/PdfPage_TextExtraction.cpp:57-80`: the two matrices of its state and the raw lengths of its glyphs. -/
structure PlacedStr where
  ctm : Mat
  tm : Mat
  raw : List Rat

/-- `StatefulString::computeLengths`, `src/pdfmm/base/PdfPage_TextExtraction.cpp:841-851`, for a CTM that does not rotate. -/
def PlacedStr.lengths (s : PlacedStr) : List Rat := s.raw.map fun r => absR (s.ctm.a * r)

/-- `StatefulString::Position`, `src/pdfmm/base/PdfPage_TextExtraction.cpp:717`: the horizontal coordinate. -/
def PlacedStr.x (s : PlacedStr) : Rat := (s.tm.mul s.ctm).e

/-- `StatefulString::GetTrimmedEnd`, `src/pdfmm/base/PdfPage_TextExtraction.cpp:803-821`, for a string that does not end in white space: the lengths, not the raw lengths,
are handed over as the raw lengths of the new string. -/
def PlacedStr.trimmedEnd (s : PlacedStr) : PlacedStr := { s with raw := s.lengths }

/-- The sum of a list of lengths. -/
def sumR : List Rat → Rat
  | [] => 0
  | x :: l => x + sumR l

/-- `computeLength`, `src/pdfmm/base/PdfPage_TextExtraction.cpp:1290-1323`, for strings on one horizontal line: from glyph `g1` of string `s1` to glyph `g2` of string `s2`. -/
def computeLength (s1 : PlacedStr) (g1 : Nat) (s2 : PlacedStr) (g2 : Nat) (sameString : Bool) : Rat :=
  if sameString then sumR (s1.lengths.take (g2 + 1))
  else absR ((s1.x + sumR (s1.lengths.take g1)) - (s2.x + sumR (s2.lengths.take (g2 + 1))))

/-- `EntryOptions::TrimSpaces`, `src/pdfmm/base/PdfPage_TextExtraction.cpp:1422`. -/
def trimOption (keepWhite tokenize : Bool) : Bool := !keepWhite || tokenize

/-- The last string of an entry after `addEntryChunk` has trimmed, `src/pdfmm/base/PdfPage_TextExtraction.cpp:509-541` with `trimSpacesEnd`, `:1202-1220`: it is
rebuilt whether or not it ends in white space. -/
def lastOf (trim : Bool) (s : PlacedStr) : PlacedStr := if trim then s.trimmedEnd else s

/-- What `splitStringBySpaces`, `src/pdfmm/base/PdfPage_TextExtraction.cpp:1122-1179`, makes of the `n` glyphs of a word that starts at glyph `g`: again the lengths are handed over as raw lengths,
and they, not the raw lengths, move the text matrix past the pieces before the word. -/
def PlacedStr.piece (s : PlacedStr) (g n : Nat) : PlacedStr := ⟨s.ctm, s.tm.applyTx (sumR (s.lengths.take g)), (s.lengths.drop g).take n⟩

/-- The entry of a word with `TokenizeWords`, `src/pdfmm/base/PdfPage_TextExtraction.cpp:444-498`: the word is split off and then trimmed. -/
def wordString (keepWhite : Bool) (s : PlacedStr) (g n : Nat) : PlacedStr := lastOf (trimOption keepWhite true) (s.piece g n)

/-- The length of that entry, `src/pdfmm/base/PdfPage_TextExtraction.cpp:642`. -/
def wordLength (keepWhite : Bool) (s : PlacedStr) (g n : Nat) : Rat := computeLength (wordString keepWhite s g n) 0 (wordString keepWhite s g n) (n - 1) true

/-- The length of an entry of one string, from its glyph `g1` to its glyph `g2`, without `TokenizeWords`: `src/pdfmm/base/PdfPage_TextExtraction.cpp:642`. -/
def entryLength1 (trim : Bool) (s : PlacedStr) (g1 g2 : Nat) : Rat :=
  computeLength (lastOf trim s) g1 (lastOf trim s) g2 true

/-- The length of an entry of several strings, of which `s1` is the first and `s2` the last, `src/pdfmm/base/PdfPage_TextExtraction.cpp:642`. -/
def entryLength2 (trim : Bool) (s1 s2 : PlacedStr) (g1 g2 : Nat) : Rat :=
  computeLength s1 g1 (lastOf trim s2) g2 false

/-- On the page, glyph `g` of a string begins here: the widths before it, through the text matrix and the CTM. -/
def Spec.glyphStart (s : PlacedStr) (g : Nat) : Rat := (V2.mul ⟨0, 0⟩ ((Spec.shift (sumR (s.raw.take g)) 0 s.tm).mul s.ctm)).x

/-- Text and page are upright and not mirrored. -/
def Spec.Upright (s : PlacedStr) : Prop := s.tm.b = 0 ∧ s.ctm.b = 0 ∧ s.ctm.c = 0 ∧ 0 < s.tm.a ∧ 0 < s.ctm.a ∧ ∀ r ∈ s.raw, 0 ≤ r

theorem absR_nonneg {x : Rat} (h : 0 ≤ x) : absR x = x := by rw [absR, if_neg (Rat.not_lt.2 h)]

theorem sumR_scale (k : Rat) (l : List Rat) : sumR (l.map fun r => k * r) = k * sumR l := by
  induction l with
  | nil => simp [sumR]
  | cons x l ih => rw [List.map_cons, sumR, sumR, ih]; grind

theorem sumR_nonneg {l : List Rat} (h : ∀ r ∈ l, 0 ≤ r) : 0 ≤ sumR l := by
  induction l with
  | nil => exact Rat.le_refl
  | cons x l ih => rw [sumR]; have := h x List.mem_cons_self; have := ih fun r hr => h r (List.mem_cons_of_mem _ hr); grind

theorem Spec.Upright.lengths {s : PlacedStr} (h : Spec.Upright s) (n : Nat) : sumR (s.lengths.take n) = s.ctm.a * sumR (s.raw.take n) := by
  have e : s.lengths = s.raw.map fun r => s.ctm.a * r := by
    rw [PlacedStr.lengths]
    apply List.map_congr_left
    intro r hr
    exact absR_nonneg (Rat.mul_nonneg (Rat.le_of_lt h.2.2.2.2.1) (h.2.2.2.2.2 r hr))
  rw [e, ← List.map_take, sumR_scale]

theorem Spec.Upright.start {s : PlacedStr} (h : Spec.Upright s) (g : Nat) : Spec.glyphStart s g = s.x + s.ctm.a * s.tm.a * sumR (s.raw.take g) := by
  obtain ⟨h1, h2, h3, _⟩ := h
  simp only [Spec.glyphStart, Spec.shift, Mat.translation, Mat.mul, V2.mul, PlacedStr.x, h1, h2, h3]
  grind

/-- The length of an entry of one string is its width on the page, when the text matrix does not scale, the entry starts with the string, and either the CTM does not scale or
`KeepWhiteTokens` is given. For entries that are lines; words follow below. -/
theorem C160_length_partial (keepWhite : Bool) (s : PlacedStr) (h : Spec.Upright s) (ht : s.tm.a = 1)
    (hk : keepWhite = true ∨ s.ctm.a = 1) (g2 : Nat) :
    entryLength1 (trimOption keepWhite false) s 0 g2 = Spec.glyphStart s (g2 + 1) - Spec.glyphStart s 0 := by
  have e : sumR (s.lengths.take (g2 + 1)) = Spec.glyphStart s (g2 + 1) - Spec.glyphStart s 0 := by
    rw [h.lengths, h.start, h.start, ht]
    simp only [List.take_zero, sumR]
    grind
  rw [entryLength1, computeLength, if_pos rfl, lastOf]
  cases ht' : trimOption keepWhite false with
  | false => exact e
  | true =>
    rcases hk with hk | hk
    · rw [hk] at ht'; cases ht'
    · have : s.trimmedEnd.lengths = s.lengths := by
        rw [PlacedStr.trimmedEnd, PlacedStr.lengths]
        simp only [hk]
        have : ∀ r ∈ s.lengths, absR (1 * r) = r := by
          intro r hr
          rw [Rat.one_mul]
          rw [PlacedStr.lengths] at hr
          obtain ⟨x, hx, rfl⟩ := List.mem_map.1 hr
          rw [hk, Rat.one_mul, absR_nonneg (h.2.2.2.2.2 x hx), absR_nonneg (h.2.2.2.2.2 x hx)]
        rw [List.map_congr_left this, List.map_id']
      rw [if_pos rfl, this, e]

/-- The length of an entry of several strings is the distance on the page from the start of its first glyph to the end of its last, when nothing is trimmed and the text matrices do not scale — here the entry may also start
inside its first string. -/
theorem C160_length_several_partial (s1 s2 : PlacedStr) (h1 : Spec.Upright s1) (h2 : Spec.Upright s2) (ht1 : s1.tm.a = 1) (ht2 : s2.tm.a = 1)
    (g1 g2 : Nat) (hle : Spec.glyphStart s1 g1 ≤ Spec.glyphStart s2 (g2 + 1)) :
    entryLength2 (trimOption true false) s1 s2 g1 g2 = Spec.glyphStart s2 (g2 + 1) - Spec.glyphStart s1 g1 := by
  rw [entryLength2, computeLength, if_neg (by decide), show lastOf (trimOption true false) s2 = s2 from rfl, h1.lengths, h2.lengths]
  rw [h1.start, h2.start, ht1, ht2] at hle
  rw [h1.start, h2.start, ht1, ht2, absR]
  split <;> grind

example : Spec.Upright ⟨⟨2, 0, 0, 2, 10, 20⟩, ⟨1, 0, 0, 1, 5, 5⟩, [3, 4, 5]⟩ ∧ entryLength1 (trimOption true false) ⟨⟨2, 0, 0, 2, 10, 20⟩, ⟨1, 0, 0, 1, 5, 5⟩, [3, 4, 5]⟩ 0 2 = 24 := by
  refine ⟨⟨rfl, rfl, rfl, by decide +kernel, by decide +kernel, by decide +kernel⟩, by decide +kernel⟩

example : entryLength2 (trimOption true false) ⟨⟨2, 0, 0, 2, 0, 0⟩, ⟨1, 0, 0, 1, 5, 5⟩, [3, 4]⟩ ⟨⟨2, 0, 0, 2, 0, 0⟩, ⟨1, 0, 0, 1, 15, 5⟩, [2, 6]⟩ 1 1 = 30 ∧
    Spec.glyphStart ⟨⟨2, 0, 0, 2, 0, 0⟩, ⟨1, 0, 0, 1, 5, 5⟩, [3, 4]⟩ 1 = 16 ∧ Spec.glyphStart ⟨⟨2, 0, 0, 2, 0, 0⟩, ⟨1, 0, 0, 1, 15, 5⟩, [2, 6]⟩ 2 = 46 := by
  decide +kernel

/-- When the text matrix scales, as in `12 0 0 12 x y Tm` with a font of size 1, the length is not the width on the page. -/
theorem C160_text_matrix_false (s : PlacedStr) (h : Spec.Upright s) (ht : s.tm.a ≠ 1) (g2 : Nat) (hw : 0 < sumR (s.raw.take (g2 + 1))) :
    Spec.glyphStart s (g2 + 1) - Spec.glyphStart s 0 = s.tm.a * entryLength1 (trimOption true false) s 0 g2 ∧
      entryLength1 (trimOption true false) s 0 g2 ≠ Spec.glyphStart s (g2 + 1) - Spec.glyphStart s 0 := by
  have e : entryLength1 (trimOption true false) s 0 g2 = s.ctm.a * sumR (s.raw.take (g2 + 1)) := by rw [entryLength1, computeLength, if_pos rfl, show lastOf (trimOption true false) s = s from rfl, h.lengths]
  have e2 : Spec.glyphStart s (g2 + 1) - Spec.glyphStart s 0 = s.tm.a * (s.ctm.a * sumR (s.raw.take (g2 + 1))) := by
    rw [h.start, h.start]; simp only [List.take_zero, sumR]; grind
  refine ⟨by rw [e, e2], ?_⟩
  rw [e, e2]
  have hp := Rat.mul_pos h.2.2.2.2.1 hw
  intro hc
  have : (s.tm.a - 1) * (s.ctm.a * sumR (s.raw.take (g2 + 1))) = 0 := by grind
  rcases Rat.mul_eq_zero.1 this with h0 | h0
  · exact ht (by grind)
  · grind

/-- By default the scaling of the CTM is applied twice to the last string: the length is wrong by that factor, for every string on a scaled page. -/
theorem C160_trim_false (s : PlacedStr) (h : Spec.Upright s) (ht : s.tm.a = 1) (hc : s.ctm.a ≠ 1) (g2 : Nat) (hw : 0 < sumR (s.raw.take (g2 + 1))) :
    entryLength1 (trimOption false false) s 0 g2 = s.ctm.a * (Spec.glyphStart s (g2 + 1) - Spec.glyphStart s 0) ∧
      entryLength1 (trimOption false false) s 0 g2 ≠ Spec.glyphStart s (g2 + 1) - Spec.glyphStart s 0 := by
  have e2 : Spec.glyphStart s (g2 + 1) - Spec.glyphStart s 0 = s.ctm.a * sumR (s.raw.take (g2 + 1)) := by
    rw [h.start, h.start, ht]; simp only [List.take_zero, sumR]; grind
  have hu : Spec.Upright s.trimmedEnd := by
    refine ⟨h.1, h.2.1, h.2.2.1, h.2.2.2.1, h.2.2.2.2.1, ?_⟩
    intro r hr
    obtain ⟨x, hx, rfl⟩ := List.mem_map.1 (show r ∈ s.lengths from hr)
    rw [absR_nonneg (Rat.mul_nonneg (Rat.le_of_lt h.2.2.2.2.1) (h.2.2.2.2.2 x hx))]
    exact Rat.mul_nonneg (Rat.le_of_lt h.2.2.2.2.1) (h.2.2.2.2.2 x hx)
  have e : entryLength1 (trimOption false false) s 0 g2 = s.ctm.a * (s.ctm.a * sumR (s.raw.take (g2 + 1))) := by
    rw [entryLength1, computeLength, if_pos rfl, show lastOf (trimOption false false) s = s.trimmedEnd from rfl, hu.lengths]
    show s.ctm.a * sumR (s.lengths.take (g2 + 1)) = _
    rw [h.lengths]
  refine ⟨by rw [e, e2], ?_⟩
  rw [e, e2]
  have hp := Rat.mul_pos h.2.2.2.2.1 hw
  intro hc'
  have : (s.ctm.a - 1) * (s.ctm.a * sumR (s.raw.take (g2 + 1))) = 0 := by grind
  rcases Rat.mul_eq_zero.1 this with h0 | h0
  · exact hc (by grind)
  · grind

/-- `ExtractSubstring` inside a string: the glyphs before the match are counted as well. -/
theorem C160_substring_false (s : PlacedStr) (h : Spec.Upright s) (ht : s.tm.a = 1) (g1 g2 : Nat) (hw : 0 < sumR (s.raw.take g1)) :
    entryLength1 (trimOption true false) s g1 g2 = (Spec.glyphStart s (g2 + 1) - Spec.glyphStart s g1) + (Spec.glyphStart s g1 - Spec.glyphStart s 0) ∧
      0 < Spec.glyphStart s g1 - Spec.glyphStart s 0 := by
  constructor
  · have := C160_length_partial true s h ht (.inl rfl) g2
    have e : entryLength1 (trimOption true false) s g1 g2 = entryLength1 (trimOption true false) s 0 g2 := rfl
    rw [e, this]; grind
  · rw [h.start, h.start, ht]
    have hp := Rat.mul_pos h.2.2.2.2.1 hw
    simp only [List.take_zero, sumR]
    grind

example : (entryLength1 (trimOption true false) ⟨Mat.one, ⟨12, 0, 0, 12, 0, 0⟩, [1, 1]⟩ 0 1 = 2 ∧ Spec.glyphStart ⟨Mat.one, ⟨12, 0, 0, 12, 0, 0⟩, [1, 1]⟩ 2 = 24) ∧
    entryLength1 (trimOption false false) ⟨⟨2, 0, 0, 2, 0, 0⟩, Mat.one, [3, 4]⟩ 0 1 = 28 ∧ entryLength1 (trimOption true false) ⟨Mat.one, Mat.one, [3, 4]⟩ 1 1 = 7 := by
  decide +kernel

/-! ## Words -/

theorem Spec.Upright.lengths_eq {s : PlacedStr} (h : Spec.Upright s) : s.lengths = s.raw.map fun r => s.ctm.a * r := by
  rw [PlacedStr.lengths]
  exact List.map_congr_left fun r hr => absR_nonneg (Rat.mul_nonneg (Rat.le_of_lt h.2.2.2.2.1) (h.2.2.2.2.2 r hr))

theorem Spec.Upright.of_lengths {s : PlacedStr} (h : Spec.Upright s) : ∀ r ∈ s.lengths, 0 ≤ r := by
  intro r hr
  rw [h.lengths_eq] at hr
  obtain ⟨x, hx, rfl⟩ := List.mem_map.1 hr
  exact Rat.mul_nonneg (Rat.le_of_lt h.2.2.2.2.1) (h.2.2.2.2.2 x hx)

theorem Spec.Upright.piece {s : PlacedStr} (h : Spec.Upright s) (g n : Nat) : Spec.Upright (s.piece g n) := by
  refine ⟨h.1, h.2.1, h.2.2.1, h.2.2.2.1, h.2.2.2.2.1, ?_⟩
  intro r hr
  exact h.of_lengths r (List.mem_of_mem_drop (List.mem_of_mem_take hr))

theorem Spec.Upright.trimmedEnd {s : PlacedStr} (h : Spec.Upright s) : Spec.Upright s.trimmedEnd :=
  ⟨h.1, h.2.1, h.2.2.1, h.2.2.2.1, h.2.2.2.2.1, h.of_lengths⟩

theorem sumR_append (a b : List Rat) : sumR (a ++ b) = sumR a + sumR b := by
  induction a with
  | nil => simp only [List.nil_append, sumR]; grind
  | cons x a ih => rw [List.cons_append, sumR, sumR, ih]; grind

/-- The width of glyphs `g` to `g + n` on the page. -/
def Spec.width (s : PlacedStr) (g n : Nat) : Rat := Spec.glyphStart s (g + n) - Spec.glyphStart s g

theorem Spec.Upright.width {s : PlacedStr} (h : Spec.Upright s) (g n : Nat) : Spec.width s g n = s.ctm.a * s.tm.a * sumR ((s.raw.drop g).take n) := by
  rw [Spec.width, h.start, h.start, List.take_add, sumR_append]
  grind

theorem wordLength_eq (keepWhite : Bool) {s : PlacedStr} (h : Spec.Upright s) (g n : Nat) (hn : 0 < n) :
    wordLength keepWhite s g n = s.ctm.a * s.ctm.a * s.ctm.a * sumR ((s.raw.drop g).take n) := by
  have e : wordString keepWhite s g n = (s.piece g n).trimmedEnd := by cases keepWhite <;> rfl
  rw [wordLength, computeLength, if_pos rfl, e, (h.piece g n).trimmedEnd.lengths, show n - 1 + 1 = n by omega]
  show s.ctm.a * sumR ((s.piece g n).lengths.take n) = _
  rw [(h.piece g n).lengths]
  show s.ctm.a * (s.ctm.a * sumR (((s.lengths.drop g).take n).take n)) = _
  rw [List.take_take, Nat.min_self, h.lengths_eq, ← List.map_drop, ← List.map_take, sumR_scale]
  grind

theorem wordString_x (keepWhite : Bool) {s : PlacedStr} (h : Spec.Upright s) (g n : Nat) :
    (wordString keepWhite s g n).x = s.x + s.ctm.a * (Spec.glyphStart s g - s.x) := by
  have e : (wordString keepWhite s g n).x = (s.piece g n).x := by cases keepWhite <;> rfl
  rw [e, h.start]
  simp only [PlacedStr.x, PlacedStr.piece, h.lengths g, Mat.applyTx, Mat.mul, h.2.2.1]
  grind

/-- On a page that is not scaled, and without scaling by the text matrix, every word of a string is given at its place and with its width. -/
theorem C160_word_partial (keepWhite : Bool) (s : PlacedStr) (h : Spec.Upright s) (hc : s.ctm.a = 1) (ht : s.tm.a = 1) (g n : Nat) (hn : 0 < n) :
    (wordString keepWhite s g n).x = Spec.glyphStart s g ∧ wordLength keepWhite s g n = Spec.width s g n := by
  refine ⟨by rw [wordString_x _ h, hc]; grind, ?_⟩
  rw [wordLength_eq _ h _ _ hn, h.width, hc, ht]
  grind

/-- On a scaled page the length of a word is wrong by the square of the scale: the scale is applied three times. -/
theorem C160_word_length_false (keepWhite : Bool) (s : PlacedStr) (h : Spec.Upright s) (hc : s.ctm.a ≠ 1) (ht : s.tm.a = 1) (g n : Nat) (hn : 0 < n)
    (hw : 0 < Spec.width s g n) :
    wordLength keepWhite s g n = s.ctm.a * s.ctm.a * Spec.width s g n ∧ wordLength keepWhite s g n ≠ Spec.width s g n := by
  have e : wordLength keepWhite s g n = s.ctm.a * s.ctm.a * Spec.width s g n := by
    rw [wordLength_eq _ h _ _ hn, h.width, ht]; grind
  refine ⟨e, ?_⟩
  rw [e]
  intro hx
  have hp := h.2.2.2.2.1
  have : ((s.ctm.a - 1) * (s.ctm.a + 1)) * Spec.width s g n = 0 := by grind
  rcases Rat.mul_eq_zero.1 this with h0 | h0
  · rcases Rat.mul_eq_zero.1 h0 with h1 | h1
    · exact hc (by grind)
    · grind
  · grind

/-- On a scaled page a word that is not the first of its string is given at the wrong place: its distance from the start of the string is wrong by the scale. -/
theorem C160_word_place_false (keepWhite : Bool) (s : PlacedStr) (h : Spec.Upright s) (hc : s.ctm.a ≠ 1) (g n : Nat) (hw : Spec.glyphStart s g ≠ s.x) :
    (wordString keepWhite s g n).x = s.x + s.ctm.a * (Spec.glyphStart s g - s.x) ∧ (wordString keepWhite s g n).x ≠ Spec.glyphStart s g := by
  refine ⟨wordString_x _ h g n, ?_⟩
  rw [wordString_x _ h]
  intro hx
  have : (s.ctm.a - 1) * (Spec.glyphStart s g - s.x) = 0 := by grind
  rcases Rat.mul_eq_zero.1 this with h0 | h0
  · exact hc (by grind)
  · exact hw (by grind)

example : Spec.width ⟨⟨2, 0, 0, 2, 0, 0⟩, Mat.one, [3, 1, 4]⟩ 2 1 = 8 ∧ wordLength true ⟨⟨2, 0, 0, 2, 0, 0⟩, Mat.one, [3, 1, 4]⟩ 2 1 = 32 ∧
    Spec.glyphStart ⟨⟨2, 0, 0, 2, 0, 0⟩, Mat.one, [3, 1, 4]⟩ 2 = 8 ∧ (wordString true ⟨⟨2, 0, 0, 2, 0, 0⟩, Mat.one, [3, 1, 4]⟩ 2 1).x = 16 := by
  decide +kernel

/-! ## Are two strings of a line spaced? -/

/-- `ComputeSpaceLength`, `src/pdfmm/base/PdfPage_TextExtraction.cpp:1244-1247`: the width of a space through the text matrix, but not through the CTM. -/
def spaceLength (tm : Mat) (space : Rat) : Rat := absR (space * tm.a)

/-- `SEPARATION_EPSILON`, `src/pdfmm/base/PdfPage_TextExtraction.cpp:30`. -/
def sepEps : Rat := 1 / 10000000

/-- What `tryAddEntry` decides for a string on the same line, `src/pdfmm/base/PdfPage_TextExtraction.cpp:1038-1068` with `areChunksSpaced`, `:1080-1089` and the multiplier of `:32`:
`0` joined, `1` spaced, `2` widely spaced. `x0` is where the previous string ended on the page and `x1` where this one starts. -/
def gapKind (x0 x1 spaceLen : Rat) : Nat :=
  if absR (x1 - x0) + sepEps < spaceLen then 0
  else if spaceLen * 6 < absR (x1 - x0) + sepEps then 2 else 1

/-- The decision for a string that stands `d` after the end of the previous one in text space, on a page scaled by `k`, with a space of width `w`. -/
def gapOnPage (k d w : Rat) : Nat :=
  gapKind ((Mat.one.mul (Mat.scale ⟨k, k⟩)).e) (((Spec.shift d 0 Mat.one).mul (Mat.scale ⟨k, k⟩)).e) (spaceLength Mat.one w)

/-- A string that starts where the previous one ended is joined to it, if a space has a width. -/
theorem C160_contiguous (x w : Rat) (tm : Mat) (h : sepEps < spaceLength tm w) : gapKind x x (spaceLength tm w) = 0 := by
  rw [gapKind, if_pos]
  have : absR (x - x) = 0 := by rw [show x - x = 0 by grind]; rfl
  rw [this]; grind

theorem gapOnPage_eq (k d w : Rat) (hk : 0 < k) (hd : 0 < d) (hw : 0 < w) :
    gapOnPage k d w = if k * d + sepEps < w then 0 else if w * 6 < k * d + sepEps then 2 else 1 := by
  have e1 : (Mat.one.mul (Mat.scale ⟨k, k⟩)).e = 0 := by simp only [Mat.one, Mat.scale, Mat.mul]; grind
  have e2 : ((Spec.shift d 0 Mat.one).mul (Mat.scale ⟨k, k⟩)).e = k * d := by
    simp only [Mat.one, Mat.scale, Mat.mul, Spec.shift, Mat.translation]; grind
  have e3 : spaceLength Mat.one w = w := by
    have : w * Mat.one.a = w := Rat.mul_one w
    rw [spaceLength, this, absR_nonneg (Rat.le_of_lt hw)]
  have e4 : absR (k * d - 0) = k * d := by
    rw [show k * d - 0 = k * d by grind, absR_nonneg (Rat.le_of_lt (Rat.mul_pos hk hd))]
  rw [gapOnPage, gapKind, e1, e2, e3, e4]

/-- Whether two strings are one word depends on the scale of the page: any gap is no gap on a small page and a wide one on a large page, since only one side of the comparison is scaled. -/
theorem C160_scale_false (d w : Rat) (hd : 0 < d) (hw : sepEps < w) : ∃ k1 k2, 0 < k1 ∧ 0 < k2 ∧ gapOnPage k1 d w = 0 ∧ gapOnPage k2 d w = 2 := by
  have heps : (0 : Rat) < sepEps := by decide +kernel
  have hw0 : 0 < w := by grind
  have hdi : 0 < d⁻¹ := Rat.inv_pos.2 hd
  have hdd : d⁻¹ * d = 1 := Rat.inv_mul_cancel d (by grind)
  have hk1 : 0 < (w - sepEps) / 2 := by grind
  have p1 := Rat.mul_pos hk1 hdi
  have p2 : 0 < 7 * w * d⁻¹ := Rat.mul_pos (by grind) hdi
  refine ⟨(w - sepEps) / 2 * d⁻¹, 7 * w * d⁻¹, p1, p2, ?_, ?_⟩
  · rw [gapOnPage_eq _ d w p1 hd hw0, Rat.mul_assoc, hdd, if_pos]
    grind
  · rw [gapOnPage_eq _ d w p2 hd hw0, Rat.mul_assoc, hdd, if_neg, if_pos]
    · grind
    · grind

example : gapOnPage 1 1 3 = 0 ∧ gapOnPage 4 1 3 = 1 ∧ gapOnPage 20 1 3 = 2 := by decide +kernel

end Pdfmm
