import Verif.Fonts.FontLoad
import Verif.Fonts.Std14Data
/-
C189: the widths of the 14 standard fonts, made by a program and loaded from a document.
-/
set_option autoImplicit false
namespace Pdfmm

/-- The names and their alternatives, `src/pdfmm/private/PdfStandard14FontData.cpp:14-40` and `src/pdfmm/private/PdfStandard14FontData.cpp:3384-3522`. -/
def stdNames : List (String × Std14) := [
  ("Times-Roman", .timesRoman), ("Times-Italic", .timesItalic), ("Times-Bold", .timesBold), ("Times-BoldItalic", .timesBoldItalic),
  ("Helvetica", .helvetica), ("Helvetica-Oblique", .helveticaOblique), ("Helvetica-Bold", .helveticaBold), ("Helvetica-BoldOblique", .helveticaBoldOblique),
  ("Courier", .courier), ("Courier-Oblique", .courierOblique), ("Courier-Bold", .courierBold), ("Courier-BoldOblique", .courierBoldOblique),
  ("Symbol", .symbol), ("ZapfDingbats", .zapfDingbats),
  ("TimesNewRoman", .timesRoman), ("TimesNewRoman,Italic", .timesItalic), ("TimesNewRoman,Bold", .timesBold), ("TimesNewRoman,BoldItalic", .timesBoldItalic),
  ("Arial", .helvetica), ("Arial,Italic", .helveticaOblique), ("Arial,Bold", .helveticaBold), ("Arial,BoldItalic", .helveticaBoldOblique),
  ("CourierNew", .courier), ("CourierNew,Italic", .courierOblique), ("CourierNew,Bold", .courierBold), ("CourierNew,BoldItalic", .courierBoldOblique)]

/-- `PdfFont::IsStandard14Font`, `src/pdfmm/base/PdfFont.cpp:974-977`. -/
def stdByName (n : Bytes) : Option Std14 := (stdNames.find? (fun p => litBytes p.1 = n)).map Prod.snd

/-- `PdfFontMetricsStandard14`, with the widths of the font dictionary if it has some (`src/pdfmm/base/PdfFontMetricsStandard14.cpp:18-36`), and the encoding of a
loaded font: whether it is simple, and /FirstChar and /LastChar when they count. -/
structure StdFont where
  std : Std14
  widths : Option (List Dec)
  simple : Bool
  limits : Option (Nat × Nat)

/-- The font a program makes, `src/pdfmm/base/PdfFontFactory.cpp:181-208`. -/
def StdFont.made (s : Std14) : StdFont := ⟨s, none, true, none⟩

/-- `PdfFontMetricsStandard14::TryGetGID`, `src/pdfmm/base/PdfFontMetricsStandard14.cpp:111-129`. -/
def StdFont.gidOf (f : StdFont) (cp : Nat) : Option Nat := if 65535 ≤ cp then none else f.std.map.lookup cp

/-- `GetGlyphWidth` over `TryGetGlyphWidth`, `src/pdfmm/base/PdfFontMetrics.cpp:29-36`, `src/pdfmm/base/PdfFontMetricsStandard14.cpp:80-104` and
`src/pdfmm/base/PdfFontMetricsStandard14.cpp:136-139`: the table is read up to the size it is said to have. -/
def StdFont.glyphWidth (f : StdFont) (gid : Nat) : Res Dec :=
  match f.widths with
  | none =>
    if f.std.size ≤ gid then .ok (f.std.dflt, 3)
    else match f.std.widths[gid]? with
      | some n => .ok (n, 3)
      | none => .error .ub
  | some l => .ok (l.getD gid (f.std.dflt, 3))

/-- The loop over /Widths, `src/pdfmm/base/PdfFontMetricsStandard14.cpp:56-66`: the vector is made with as many zeros as there are widths, and the widths are put behind
them as they are. -/
def stdWidths (l : List Var) : Res (List Dec) := do
  let xs ← l.mapM decOf
  .ok (List.replicate l.length (0, 0) ++ xs)

/-- A standard font of a document: `PdfFont::TryCreateFromObject`, `src/pdfmm/base/PdfFontFactory.cpp:123-143`, with
`PdfFontMetricsStandard14::create`, `src/pdfmm/base/PdfFontMetricsStandard14.cpp:50-70`, and the limits of `src/pdfmm/base/PdfEncoding.cpp:43-61`; `simple` says
whether the map of the encoding is simple. -/
def loadStd (h : FDoc) (f : FDict) (simple : Bool) : Res StdFont :=
  match h.findKey f (litBytes "BaseFont") with
  | none => raise .NoObject
  | some v => do
    let n ← strictName v
    match stdByName n with
    | none => raise .NoObject
    | some s => do
      let ws ← withKey h f (litBytes "Widths") none (fun v => do
        let l ← strictArr v
        let xs ← stdWidths l
        .ok (some xs))
      let a ← withKey h f (litBytes "FirstChar") 4294967295 (fun v => (strictInt v).map (truncTo 32))
      let b ← withKey h f (litBytes "LastChar") 0 (fun v => (strictInt v).map (truncTo 32))
      .ok ⟨s, ws, simple, if a < b then some (a, b) else none⟩

/-- `PdfFontObject::tryMapCIDToGID`, `src/pdfmm/base/PdfFontObject.cpp:35-56`. -/
def StdFont.codeGid (f : StdFont) (code : Nat) : Nat :=
  match f.limits with
  | none => (code + 4294967296 - 32) % 4294967296
  | some (a, _) => if f.simple then (code + 4294967296 - a) % 4294967296 else code

/-- `GetCIDLengthRaw`, `src/pdfmm/base/PdfFont.cpp:409-416`; the code of a loaded font with a simple encoding is its CID (`src/pdfmm/base/PdfEncoding.cpp:235-242`). -/
def StdFont.codeWidth (f : StdFont) (code : Nat) : Res Dec := f.glyphWidth (f.codeGid code)

namespace Spec

/-- The width of a character in a standard font, in thousandths: that of the glyph the tables have for it. -/
def StdCharWidth (s : Std14) (cp w : Nat) : Prop := ∃ g, (cp, g) ∈ s.map ∧ s.widths[g]? = some w

/-- The names of the standard 14 fonts, ISO 32000-1, 9.6.2.2. -/
def standardName : Std14 → String
  | .timesRoman => "Times-Roman"
  | .timesItalic => "Times-Italic"
  | .timesBold => "Times-Bold"
  | .timesBoldItalic => "Times-BoldItalic"
  | .helvetica => "Helvetica"
  | .helveticaOblique => "Helvetica-Oblique"
  | .helveticaBold => "Helvetica-Bold"
  | .helveticaBoldOblique => "Helvetica-BoldOblique"
  | .courier => "Courier"
  | .courierOblique => "Courier-Oblique"
  | .courierBold => "Courier-Bold"
  | .courierBoldOblique => "Courier-BoldOblique"
  | .symbol => "Symbol"
  | .zapfDingbats => "ZapfDingbats"

/-- The other names they go by. -/
def otherName : Std14 → Option String
  | .timesRoman => some "TimesNewRoman"
  | .timesItalic => some "TimesNewRoman,Italic"
  | .timesBold => some "TimesNewRoman,Bold"
  | .timesBoldItalic => some "TimesNewRoman,BoldItalic"
  | .helvetica => some "Arial"
  | .helveticaOblique => some "Arial,Italic"
  | .helveticaBold => some "Arial,Bold"
  | .helveticaBoldOblique => some "Arial,BoldItalic"
  | .courier => some "CourierNew"
  | .courierOblique => some "CourierNew,Italic"
  | .courierBold => some "CourierNew,Bold"
  | .courierBoldOblique => some "CourierNew,BoldItalic"
  | .symbol => none
  | .zapfDingbats => none

/-- A font dictionary of a standard font. -/
def StdObject (h : FDoc) (f : FDict) (s : Std14) : Prop :=
  HasEntry h f "Type" (.name (litBytes "Font")) ∧ HasEntry h f "Subtype" (.name (litBytes "Type1")) ∧ h.findKey f (litBytes "FontDescriptor") = none ∧
    ∃ n, (n = standardName s ∨ otherName s = some n) ∧ HasEntry h f "BaseFont" (.name (litBytes n))

/-- The dictionary has no widths, first and last character, as standard fonts need not (ISO 32000-1, table 111). -/
def StdBare (h : FDoc) (f : FDict) : Prop :=
  h.findKey f (litBytes "Widths") = none ∧ h.findKey f (litBytes "FirstChar") = none ∧ h.findKey f (litBytes "LastChar") = none

/-- The dictionary has a width for each code of a range of single bytes. -/
def StdListed (h : FDoc) (f : FDict) (a b : Nat) (l : List Var) : Prop :=
  a < b ∧ b < 256 ∧ HasEntry h f "FirstChar" (.num a) ∧ HasEntry h f "LastChar" (.num b) ∧ HasEntry h f "Widths" (.arr l) ∧ l.length = b + 1 - a ∧
    ∀ v ∈ l, NumVal v ≠ none

/-- The fonts of the Courier family. -/
def IsCourier (s : Std14) : Prop := s = .courier ∨ s = .courierOblique ∨ s = .courierBold ∨ s = .courierBoldOblique

/-- The fonts of the Times and Helvetica families. -/
def IsTimesHelvetica (s : Std14) : Prop := s = .timesRoman ∨ s = .timesItalic ∨ s = .timesBold ∨ s = .timesBoldItalic ∨
  s = .helvetica ∨ s = .helveticaOblique ∨ s = .helveticaBold ∨ s = .helveticaBoldOblique

/-- Some characters, which have the same code in all the Latin encodings. -/
def someLetters : List Nat := "AEIJLMNPQSTWXcdfiklmnrtuwxz".toList.map Char.toNat

end Spec

/-! ### Proofs -/

theorem stdMap_inside (s : Std14) : ∀ p ∈ s.map, p.2 < s.widths.length ∧ p.1 < 65535 := by
  cases s <;> decide +kernel

/-- Whether the keys grow, starting above a number (part of the proof, not of the code). -/
def keysGrow : Nat → List (Nat × Nat) → Bool
  | _, [] => true
  | k, p :: l => Nat.blt k p.1 && keysGrow p.1 l

theorem keysGrow_above {k : Nat} {l : List (Nat × Nat)} (h : keysGrow k l = true) : (∀ p ∈ l, k < p.1) ∧ (l.map Prod.fst).Nodup := by
  induction l generalizing k with
  | nil => simp
  | cons p l ih =>
    simp only [keysGrow, Bool.and_eq_true] at h
    have hk : k < p.1 := by have := h.1; simp [Nat.blt] at this; omega
    obtain ⟨h1, h2⟩ := ih h.2
    refine ⟨fun q hq => ?_, ?_⟩
    · rcases List.mem_cons.1 hq with rfl | hq
      · exact hk
      · have := h1 q hq; omega
    · simp only [List.map_cons, List.nodup_cons]
      refine ⟨fun hm => ?_, h2⟩
      obtain ⟨q, hq, e⟩ := List.mem_map.1 hm
      have := h1 q hq
      omega

theorem stdMap_unique (s : Std14) : (s.map.map Prod.fst).Nodup := by
  have : keysGrow 0 s.map = true := by cases s <;> decide +kernel
  exact (keysGrow_above this).2

theorem widths_size (s : Std14) : s.widths.length ≤ s.size := by cases s <;> decide +kernel

theorem lookup_mem {α : Type} {l : List (Nat × α)} {k : Nat} {v : α} (h : l.lookup k = some v) : (k, v) ∈ l := by
  induction l with
  | nil => cases h
  | cons p l ih =>
    rw [List.lookup_cons] at h
    split at h
    · next e => simp at e h; subst e; subst h; exact List.mem_cons_self
    · exact List.mem_cons_of_mem _ (ih h)

theorem mem_lookup {α : Type} {l : List (Nat × α)} {k : Nat} {v : α} (h : (k, v) ∈ l) (hn : (l.map Prod.fst).Nodup) : l.lookup k = some v := by
  induction l with
  | nil => cases h
  | cons p l ih =>
    rw [List.lookup_cons]
    rcases List.mem_cons.1 h with rfl | h
    · simp
    · simp only [List.map_cons, List.nodup_cons] at hn
      have : (k == p.1) = false := by
        simp
        rintro rfl
        exact hn.1 (List.mem_map.2 ⟨_, h, rfl⟩)
      rw [this]
      exact ih h hn.2

theorem stdCharWidth_unique {s : Std14} {cp w w' : Nat} (h : Spec.StdCharWidth s cp w) (h' : Spec.StdCharWidth s cp w') : w = w' := by
  obtain ⟨g, a, b⟩ := h
  obtain ⟨g', a', b'⟩ := h'
  have e := (mem_lookup a (stdMap_unique s)).symm.trans (mem_lookup a' (stdMap_unique s))
  simp only [Option.some.injEq] at e
  subst e
  exact Option.some.inj (b.symm.trans b')

/-- **C189, fonts a program makes.** In each of the 14 standard fonts, the glyph found for a character is there if and only if the tables have the character; it has exactly one
width, and that is the one given. -/
theorem C189_made (s : Std14) (cp : Nat) :
    (∀ g, (StdFont.made s).gidOf cp = some g → ∃ w, Spec.StdCharWidth s cp w ∧ (StdFont.made s).glyphWidth g = .ok (w, 3)) ∧
    (∀ w, Spec.StdCharWidth s cp w → ∃ g, (StdFont.made s).gidOf cp = some g ∧ (StdFont.made s).glyphWidth g = .ok (w, 3)) := by
  constructor
  · intro g hg
    unfold StdFont.gidOf at hg
    split at hg
    · cases hg
    · have hm := lookup_mem hg
      have hl := (stdMap_inside s _ hm).1
      refine ⟨s.widths[g], ⟨g, hm, List.getElem?_eq_getElem hl⟩, ?_⟩
      have := widths_size s
      show (if s.size ≤ g then _ else _) = _
      simp only at hl
      rw [if_neg (by omega)]
      simp only [StdFont.made, List.getElem?_eq_getElem hl]
  · rintro w ⟨g, hm, hw⟩
    have hi := stdMap_inside s _ hm
    have := widths_size s
    refine ⟨g, ?_, ?_⟩
    · unfold StdFont.gidOf
      rw [if_neg (by omega)]
      exact mem_lookup hm (stdMap_unique s)
    · show (if s.size ≤ g then _ else _) = _
      simp only at hi
      rw [if_neg (by omega)]
      simp only [StdFont.made, hw]

/-- **C189, names.** The names of the standard fonts stand for these fonts, and no other name stands for one. -/
theorem C189_names (n : Bytes) (s : Std14) : stdByName n = some s ↔ n = litBytes (Spec.standardName s) ∨ ∃ m, Spec.otherName s = some m ∧ n = litBytes m := by
  constructor
  · intro h
    unfold stdByName at h
    cases hf : stdNames.find? (fun p => litBytes p.1 = n) with
    | none => simp [hf] at h
    | some p =>
      simp only [hf, Option.map_some, Option.some.injEq] at h
      subst h
      have hm := List.mem_of_find?_eq_some hf
      have he : litBytes p.1 = n := by simpa using List.find?_some hf
      subst he
      have key : ∀ p ∈ stdNames, p.1 = Spec.standardName p.2 ∨ Spec.otherName p.2 = some p.1 := by decide +kernel
      rcases key p hm with e | e
      · exact .inl (by rw [e])
      · exact .inr ⟨p.1, e, rfl⟩
  · rintro (rfl | ⟨m, hm, rfl⟩)
    · cases s <;> decide +kernel
    · cases s <;> simp only [Spec.otherName, Option.some.injEq, reduceCtorEq] at hm <;> subst hm <;> decide +kernel

theorem stdNames_found {n : String} {s : Std14} (h : n = Spec.standardName s ∨ Spec.otherName s = some n) : stdByName (litBytes n) = some s := by
  rw [C189_names]
  rcases h with rfl | h
  · exact .inl rfl
  · exact .inr ⟨n, h, rfl⟩

theorem loadStd_bare {h : FDoc} {f : FDict} {s : Std14} (ho : Spec.StdObject h f s) (hb : Spec.StdBare h f) (simple : Bool) :
    loadStd h f simple = .ok ⟨s, none, simple, none⟩ := by
  obtain ⟨-, -, -, n, hn, hbf⟩ := ho
  obtain ⟨h1, h2, h3⟩ := hb
  unfold Spec.HasEntry at hbf
  simp only [loadStd, hbf, strictName, bind, Except.bind, stdNames_found hn, withKey_none h1, withKey_none h2, withKey_none h3]
  rfl

theorem bare_width (s : Std14) (simple : Bool) (c : Nat) (h1 : 32 ≤ c) (h2 : c < 32 + s.widths.length) :
    (⟨s, none, simple, none⟩ : StdFont).codeWidth c = .ok ((s.widths.getD (c - 32) 0 : Nat), 3) := by
  have hs := widths_size s
  have hsz : s.size ≤ 1000 := by cases s <;> decide
  have e : (c + 4294967296 - 32) % 4294967296 = c - 32 := by omega
  simp only [StdFont.codeWidth, StdFont.codeGid, StdFont.glyphWidth, e]
  rw [if_neg (by omega), List.getElem?_eq_getElem (by omega)]
  simp only [List.getD_eq_getElem?_getD, List.getElem?_eq_getElem (show c - 32 < s.widths.length by omega), Option.getD_some]

/-- **C189, standard fonts of documents, refuted.** The letters named have, in every Times and Helvetica font of a document that lists no widths, a width that is not that of the
letter: the code less 32 is taken for the number of a glyph. -/
theorem C189_letters_false (h : FDoc) (f : FDict) (s : Std14) (hs : Spec.IsTimesHelvetica s) (ho : Spec.StdObject h f s) (hb : Spec.StdBare h f) (simple : Bool) :
    ∃ lf, loadStd h f simple = .ok lf ∧ ∀ c ∈ Spec.someLetters, ∃ w w' : Nat, lf.codeWidth c = .ok (w, 3) ∧ Spec.StdCharWidth s c w' ∧ w ≠ w' := by
  refine ⟨_, loadStd_bare ho hb simple, fun c hc => ?_⟩
  have key : ∀ c ∈ Spec.someLetters, 32 ≤ c ∧ c < 32 + s.widths.length ∧ ∃ g, s.map.lookup c = some g ∧ g < s.widths.length ∧ s.widths.getD (c - 32) 0 ≠ s.widths.getD g 0 := by
    have : ∀ c ∈ Spec.someLetters, 32 ≤ c ∧ c < 32 + s.widths.length ∧ (s.map.lookup c).isSome = true ∧ (s.map.lookup c).getD 0 < s.widths.length ∧
        s.widths.getD (c - 32) 0 ≠ s.widths.getD ((s.map.lookup c).getD 0) 0 := by
      rcases hs with rfl | rfl | rfl | rfl | rfl | rfl | rfl | rfl <;> decide +kernel
    intro c hc
    obtain ⟨a, b, d, e, k⟩ := this c hc
    obtain ⟨g, hg⟩ := Option.isSome_iff_exists.1 d
    rw [hg] at e k
    exact ⟨a, b, g, hg, e, k⟩
  obtain ⟨a, b, g, hg, hl, hne⟩ := key c hc
  refine ⟨_, s.widths.getD g 0, bare_width s simple c a b, ⟨g, lookup_mem hg, ?_⟩, hne⟩
  rw [List.getElem?_eq_getElem hl, List.getD_eq_getElem?_getD, List.getElem?_eq_getElem hl]; rfl

/-- **C189, proved part.** In the Courier fonts of a document that lists no widths the characters of ASCII have the width of the font. -/
theorem C189_courier_partial (h : FDoc) (f : FDict) (s : Std14) (hs : Spec.IsCourier s) (ho : Spec.StdObject h f s) (hb : Spec.StdBare h f) (simple : Bool) (c : Nat)
    (h1 : 32 ≤ c) (h2 : c < 127) :
    ∃ lf w, loadStd h f simple = .ok lf ∧ lf.codeWidth c = .ok ((w : Nat), 3) ∧ Spec.StdCharWidth s c w := by
  have hl : s.widths.length = 244 := by rcases hs with rfl | rfl | rfl | rfl <;> decide +kernel
  have hw : ∀ g, g < 244 → s.widths.getD g 0 = 600 := by
    have : ∀ g ∈ List.range 244, s.widths.getD g 0 = 600 := by rcases hs with rfl | rfl | rfl | rfl <;> decide +kernel
    exact fun g hg => this g (List.mem_range.2 hg)
  have hm : ∀ c ∈ List.range' 32 95, (s.map.lookup c).isSome = true := by rcases hs with rfl | rfl | rfl | rfl <;> decide +kernel
  obtain ⟨g, hg⟩ := Option.isSome_iff_exists.1 (hm c (by rw [List.mem_range']; exact ⟨c - 32, by omega, by omega⟩))
  have hgl := (stdMap_inside s _ (lookup_mem hg)).1
  simp only at hgl
  refine ⟨_, 600, loadStd_bare ho hb simple, ?_, g, lookup_mem hg, ?_⟩
  · rw [bare_width s simple c h1 (by omega), hw _ (by omega)]
  · rw [List.getElem?_eq_getElem hgl]
    have := hw g (by omega)
    rw [List.getD_eq_getElem?_getD, List.getElem?_eq_getElem hgl] at this
    simpa using this

theorem mapM_decOf {l : List Var} (h : ∀ v ∈ l, Spec.NumVal v ≠ none) : ∃ xs, l.mapM decOf = .ok xs ∧ xs.length = l.length := by
  induction l with
  | nil => exact ⟨[], rfl, rfl⟩
  | cons v l ih =>
    obtain ⟨xs, h1, h2⟩ := ih (fun w hw => h w (List.mem_cons_of_mem _ hw))
    have : ∃ x, decOf v = .ok x := by
      have := h v List.mem_cons_self
      cases v <;> simp_all [decOf, Spec.NumVal]
    obtain ⟨x, hx⟩ := this
    refine ⟨x :: xs, ?_, by simp [h2]⟩
    rw [List.mapM_cons, hx, h1]
    rfl

theorem truncTo_small {a : Nat} (h : a < 256) : truncTo 32 (a : Int) = a := by
  unfold truncTo
  omega

theorem loadStd_listed {h : FDoc} {f : FDict} {s : Std14} (ho : Spec.StdObject h f s) {a b : Nat} {l : List Var} (hl : Spec.StdListed h f a b l) (simple : Bool) :
    ∃ xs : List Dec, xs.length = l.length ∧ loadStd h f simple = .ok ⟨s, some (List.replicate l.length (0, 0) ++ xs), simple, some (a, b)⟩ := by
  obtain ⟨-, -, -, n, hn, hbf⟩ := ho
  obtain ⟨h1, h2, h3, h4, h5, h6, h7⟩ := hl
  unfold Spec.HasEntry at *
  obtain ⟨xs, hx, hxl⟩ := mapM_decOf h7
  refine ⟨xs, hxl, ?_⟩
  have hw : stdWidths l = .ok (List.replicate l.length (0, 0) ++ xs) := by
    unfold stdWidths; rw [hx]; rfl
  simp only [loadStd, hbf, strictName, bind, Except.bind, stdNames_found hn, withKey_some h3, withKey_some h4, withKey_some h5, strictArr, hw, strictInt, Except.map,
    truncTo_small h2, truncTo_small (show a < 256 by omega), if_pos h1]

/-- **C189, listed widths, refuted.** In a standard font whose dictionary lists the widths of its codes every one of these codes has the width 0. -/
theorem C189_listed_false (h : FDoc) (f : FDict) (s : Std14) (ho : Spec.StdObject h f s) (a b : Nat) (l : List Var) (hl : Spec.StdListed h f a b l) :
    ∃ lf, loadStd h f true = .ok lf ∧ ∀ c, a ≤ c → c ≤ b → lf.codeWidth c = .ok (0, 0) := by
  obtain ⟨xs, hxl, hlf⟩ := loadStd_listed ho hl true
  obtain ⟨h1, h2, -, -, -, h6, -⟩ := hl
  refine ⟨_, hlf, fun c hc hc' => ?_⟩
  have e : (c + 4294967296 - a) % 4294967296 = c - a := by omega
  simp only [StdFont.codeWidth, StdFont.codeGid, StdFont.glyphWidth, e, if_true]
  rw [List.getD_eq_getElem?_getD, List.getElem?_append_left (by simp; omega), List.getElem?_replicate, if_pos (by omega)]
  rfl

/-- **C189, beyond the table.** In a Courier font whose dictionary has /FirstChar and /LastChar and no widths, codes 244 to 314 above the first are looked up beyond the end of the
table: with /FirstChar 0, all codes from 244 on. -/
theorem C189_beyond_false (h : FDoc) (f : FDict) (s : Std14) (hs : Spec.IsCourier s) (ho : Spec.StdObject h f s) (a b : Nat) (hab : a < b) (hb : b < 256)
    (h1 : Spec.HasEntry h f "FirstChar" (.num a)) (h2 : Spec.HasEntry h f "LastChar" (.num b)) (h3 : h.findKey f (litBytes "Widths") = none) (c : Nat) (hc : a + 244 ≤ c) (hc' : c ≤ b) :
    ∃ lf, loadStd h f true = .ok lf ∧ lf.codeWidth c = .error .ub := by
  obtain ⟨-, -, -, n, hn, hbf⟩ := ho
  have hl : s.widths.length = 244 ∧ s.size = 315 := by rcases hs with rfl | rfl | rfl | rfl <;> decide +kernel
  unfold Spec.HasEntry at *
  refine ⟨⟨s, none, true, some (a, b)⟩, ?_, ?_⟩
  · simp only [loadStd, hbf, strictName, bind, Except.bind, stdNames_found hn, withKey_none h3, withKey_some h1, withKey_some h2, strictInt, Except.map,
      truncTo_small hb, truncTo_small (show a < 256 by omega), if_pos hab]
  · have e : (c + 4294967296 - a) % 4294967296 = c - a := by omega
    simp only [StdFont.codeWidth, StdFont.codeGid, StdFont.glyphWidth, e, if_true]
    rw [if_neg (by omega), List.getElem?_eq_none (by omega)]

/-- Not vacuous: a plain Helvetica, one that lists its widths, and a Courier with limits. -/
def stdBareDict (n : String) : FDict := [(litBytes "BaseFont", .name (litBytes n)), (litBytes "Subtype", .name (litBytes "Type1")), (litBytes "Type", .name (litBytes "Font"))]

example : Spec.StdObject (fun _ => none) (stdBareDict "Helvetica") .helvetica ∧ Spec.StdBare (fun _ => none) (stdBareDict "Helvetica") := by
  refine ⟨⟨rfl, rfl, rfl, "Helvetica", .inl rfl, rfl⟩, rfl, rfl, rfl⟩

def stdListedDict : FDict := [(litBytes "BaseFont", .name (litBytes "Arial")), (litBytes "FirstChar", .num 65), (litBytes "LastChar", .num 66), (litBytes "Subtype", .name (litBytes "Type1")),
  (litBytes "Type", .name (litBytes "Font")), (litBytes "Widths", .arr [.num 667, .real false 6670 1])]

example : Spec.StdObject (fun _ => none) stdListedDict .helvetica ∧ Spec.StdListed (fun _ => none) stdListedDict 65 66 [.num 667, .real false 6670 1] := by
  refine ⟨⟨rfl, rfl, rfl, "Arial", .inr rfl, rfl⟩, by decide, by decide, rfl, rfl, rfl, by decide, ?_⟩
  decide

/-- A Courier with limits and no widths, as `C189_beyond_false` asks for: code 250 is beyond the table. -/
def stdLimitsDict : FDict := [(litBytes "BaseFont", .name (litBytes "Courier")), (litBytes "FirstChar", .num 0), (litBytes "LastChar", .num 255), (litBytes "Subtype", .name (litBytes "Type1")),
  (litBytes "Type", .name (litBytes "Font"))]

example : Spec.StdObject (fun _ => none) stdLimitsDict .courier ∧ ∃ lf, loadStd (fun _ => none) stdLimitsDict true = .ok lf ∧ lf.codeWidth 250 = .error .ub := by
  have ho : Spec.StdObject (fun _ => none) stdLimitsDict .courier := ⟨rfl, rfl, rfl, "Courier", .inl rfl, rfl⟩
  exact ⟨ho, C189_beyond_false _ _ _ (.inl rfl) ho 0 255 (by decide) (by decide) rfl rfl rfl 250 (by decide) (by decide)⟩

/-- The letter A of Times-Roman has a width in the tables. -/
example : Spec.StdCharWidth .timesRoman 65 722 := ⟨34, by decide +kernel, by decide +kernel⟩

end Pdfmm
